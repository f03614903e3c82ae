import Verif.Width.Server
import Verif.Server.HandlerProps

/-
The server with any handlers of commands on a machine with a `usize` of a given width: what a
handler asks for is added to the position in the response.  Everything else is as in
Verif/Server/Handlers.lean.
-/

namespace Verif.Server
open Verif Verif.Errors

variable {K : Type}

/-- `Response::write`: crates/tpm2-impl/src/req_resp.rs:59-66.  `none` is a panic. -/
def Cursor.writeOn (m : Machine) (c : Cursor) (data : Bytes) : Option (Option Cursor) :=
  match Server.writeOn m c.buffers.response c.responseOffset data with
  | none => none
  | some none => some none
  | some (some b) =>
    match m.add c.responseOffset data.length with
    | none => none
    | some o => some (some { c with buffers := c.buffers.setResponse b, responseOffset := o })

/-- Running the second part of a handler: crates/tpm2-impl/src/req_resp.rs:59-83.  `none` is a panic
in a sum. -/
def Writing.runOn (m : Machine) : Writing K → Cursor → Option (Res TpmRcError Unit × Cursor × K)
  | .done r k, c => some (r, c, k)
  | .write data next, c =>
    match c.writeOn m data with
    | none => none
    | some none => (next false).runOn m c
    | some (some c) => (next true).runOn m c
  | .callback size full fill _ next, c =>
    match c.writeCallbackOn m size (fun old => (old, fill old)) with
    | none => none
    | some none => full.runOn m c
    | some (some (old, c)) => (next old).runOn m c

/-- Running a handler: crates/tpm2-impl/src/req_resp.rs:13-43. -/
def Reading.runOn (m : Machine) : Reading K → Cursor → Option (Res TpmRcError Unit × Cursor × K)
  | .u16 next, c =>
    match c.readBEOn m 2 with
    | none => none
    | some (x, c) => (next x).runOn m c
  | .u32 next, c =>
    match c.readBEOn m 4 with
    | none => none
    | some (x, c) => (next x).runOn m c
  | .respond w, c => w.runOn m c

/-- `execute_command` with any handlers, with `size as usize`:
crates/tpm2-impl/src/tpmctx.rs:58-95. -/
def executeCommandOnWith (m : Machine) (h : Handlers K) (k : K) (bs : Buffers) :
    Option (Res TpmRcError Nat × Bytes × K) :=
  let requestSize := bs.requestLen
  let c : Cursor := ⟨bs, 0, 10⟩
  match c.readBEOn m 2 with
  | none => none
  | some (none, c) => some (.err .CommandSize, c.buffers.response, k)
  | some (some _session, c) =>
    match c.readBEOn m 4 with
    | none => none
    | some (none, c) => some (.err .CommandSize, c.buffers.response, k)
    | some (some size, c) =>
      if m.cast size ≠ requestSize then some (.err .CommandSize, c.buffers.response, k)
      else
        match c.readBEOn m 4 with
        | none => none
        | some (none, c) => some (.err .CommandSize, c.buffers.response, k)
        | some (some commandCode, c) =>
          match h commandCode with
          | some f =>
            match (f k).runOn m c with
            | none => none
            | some (.ok (), c, k) =>
              let r := finishOn m c
              some (r.1, r.2, k)
            | some (.err e, c, k) => some (.err e, c.buffers.response, k)
            | some (.panic, c, k) => some (.panic, c.buffers.response, k)
          | none => some (.err .CommandCode, c.buffers.response, k)

/-- The common part of the two public functions: crates/tpm2-impl/src/tpmctx.rs:30-33, 44-47. -/
def completeOnWith (m : Machine) (r : Option (Res TpmRcError Nat × Bytes × K)) :
    Option (Option Nat × Bytes × K) :=
  match r with
  | none => none
  | some (.ok size, b, k) => some (some size, b, k)
  | some (.err e, b, k) => let f := fillErrorOn m b e; some (f.1, f.2, k)
  | some (.panic, b, k) => some (none, b, k)

/-- `execute_command_separate` with any handlers: crates/tpm2-impl/src/tpmctx.rs:24-34.  `none` is a
panic in a sum; a panic of the handler is the inner one. -/
def executeSeparateOnWith (m : Machine) (h : Handlers K) (k : K) (request response : Bytes) :
    Option (Option Nat × Bytes × K) :=
  completeOnWith m (executeCommandOnWith m h k (.separate request response))

/-- `execute_command_in_place` with any handlers: crates/tpm2-impl/src/tpmctx.rs:38-48. -/
def executeInPlaceOnWith (m : Machine) (h : Handlers K) (k : K) (inOut : Bytes) (requestSize : Nat) :
    Option (Option Nat × Bytes × K) :=
  completeOnWith m (executeCommandOnWith m h k (Buffers.newInOut inOut requestSize))

/-! ### Specification -/

/-- A slice in memory: half of what can be addressed at most (`isize::MAX`). -/
def Holds (m : Machine) (b : Bytes) : Prop := b.length < 2 ^ (m.bits - 1)

/-- What is written is less than `d` bytes at once, what is asked for less than `s`. -/
def Writing.Sized (d s : Nat) : Writing K → Prop
  | .done _ _ => True
  | .write data next => data.length < d ∧ ∀ x, (next x).Sized d s
  | .callback size full _ _ next => size < s ∧ full.Sized d s ∧ ∀ x, (next x).Sized d s

/-- The same after any numbers that may be read. -/
def Reading.Sized (d s : Nat) : Reading K → Prop
  | .u16 next => (next none).Sized d s ∧ ∀ x < 2 ^ 16, (next (some x)).Sized d s
  | .u32 next => (next none).Sized d s ∧ ∀ x < 2 ^ 32, (next (some x)).Sized d s
  | .respond w => w.Sized d s

/-- Handlers that can be written for the machine: slices fit into memory, and sizes are `usize`. -/
def Handlers.On (m : Machine) (h : Handlers K) : Prop :=
  ∀ code f, h code = some f → ∀ k, (f k).Sized (2 ^ (m.bits - 1)) (2 ^ m.bits)

/-- Handlers that moreover ask for no more than a slice can have. -/
def Handlers.Modest (m : Machine) (h : Handlers K) : Prop :=
  ∀ code f, h code = some f → ∀ k, (f k).Sized (2 ^ (m.bits - 1)) (2 ^ (m.bits - 1))

/-- With `pos` bytes of the response written and `space` left, the handler comes to ask for a size that
is beyond `limit` together with the position. -/
inductive Writing.Exceeds (limit : Nat) : Writing K → Nat → Bytes → Prop
  | here {size full fill keeps next pos space} : limit ≤ pos + size →
      Exceeds limit (.callback size full fill keeps next) pos space
  | fits {data next pos old rest} : old.length = data.length →
      Exceeds limit (next true) (pos + data.length) rest → Exceeds limit (.write data next) pos (old ++ rest)
  | full {data next pos space} : space.length < data.length → Exceeds limit (next false) pos space →
      Exceeds limit (.write data next) pos space
  | filled {size full fill keeps next pos old rest} : old.length = size →
      Exceeds limit (next old) (pos + size) rest →
      Exceeds limit (.callback size full fill keeps next) pos (old ++ rest)
  | refused {size full fill keeps next pos space} : space.length < size → Exceeds limit full pos space →
      Exceeds limit (.callback size full fill keeps next) pos space

/-! ### Lemmas -/

variable {m : Machine}

theorem bits_half (hm : 32 ≤ m.bits) : 2 ^ m.bits = 2 * 2 ^ (m.bits - 1) ∧ 2 ^ 31 ≤ 2 ^ (m.bits - 1) :=
  ⟨by rw [← Nat.pow_succ']; congr 1; omega, Nat.pow_le_pow_right (by decide) (by omega)⟩

theorem add_checked {o n : Nat} (hc : m.checked = true) (h : 2 ^ m.bits ≤ o + n) : m.add o n = none := by
  unfold Machine.add
  rw [if_neg (by omega), if_pos hc]

theorem add_wraps {o n : Nat} (hc : m.checked = false) (h : 2 ^ m.bits ≤ o + n) (ho : o < 2 ^ m.bits)
    (hn : n < 2 ^ m.bits) : ∃ last, m.add o n = some last ∧ last < o := by
  unfold Machine.add
  rw [if_neg (by omega), if_neg (by simp [hc])]
  refine ⟨_, rfl, ?_⟩
  rw [Nat.mod_eq_sub_mod h, Nat.mod_eq_of_lt (by omega)]
  omega

theorem getRange_wrapped (b : Bytes) {o last : Nat} (h : last < o) : getRange b o last = none := by
  unfold getRange
  rw [if_neg (by omega)]

theorem add_fits {o n : Nat} (h : o + n < 2 ^ m.bits) : m.add o n = some (o + n) := if_pos h

theorem readIntoOn_if (b : Bytes) {o n : Nat} (hb : b.length < 2 ^ m.bits) (ho : o < 2 ^ m.bits)
    (hn : n < 2 ^ m.bits) :
    readIntoOn m b o n =
      if m.checked = true ∧ 2 ^ m.bits ≤ o + n then none else some (readInto b o n) := by
  by_cases h : 2 ^ m.bits ≤ o + n
  · cases hc : m.checked
    · obtain ⟨last, h1, h2⟩ := add_wraps hc h ho hn
      rw [if_neg (by simp)]
      unfold readIntoOn readInto
      rw [h1]
      dsimp only
      rw [getRange_wrapped b h2, if_neg (by omega)]
    · rw [if_pos ⟨rfl, h⟩]
      unfold readIntoOn
      rw [add_checked hc h]
  · rw [if_neg (fun x => h x.2)]
    exact readIntoOn_eq b (add_fits (by omega))

theorem writeOn_if (b : Bytes) {o : Nat} {d : Bytes} (hb : b.length < 2 ^ m.bits) (ho : o < 2 ^ m.bits)
    (hn : d.length < 2 ^ m.bits) :
    writeOn m b o d =
      if m.checked = true ∧ 2 ^ m.bits ≤ o + d.length then none else some (write b o d) := by
  by_cases h : 2 ^ m.bits ≤ o + d.length
  · cases hc : m.checked
    · obtain ⟨last, h1, h2⟩ := add_wraps hc h ho hn
      rw [if_neg (by simp)]
      unfold writeOn write
      rw [h1]
      dsimp only
      rw [getRange_wrapped b h2, if_neg (by omega)]
    · rw [if_pos ⟨rfl, h⟩]
      unfold writeOn
      rw [add_checked hc h]
  · rw [if_neg (fun x => h x.2)]
    exact writeOn_eq b (add_fits (by omega))

theorem writeCallbackOn_if {γ : Type} (b : Bytes) {o n : Nat} (f : Bytes → γ × Bytes)
    (hb : b.length < 2 ^ m.bits) (ho : o < 2 ^ m.bits) (hn : n < 2 ^ m.bits) :
    writeCallbackOn m b o n f =
      if m.checked = true ∧ 2 ^ m.bits ≤ o + n then none else some (writeCallback b o n f) := by
  by_cases h : 2 ^ m.bits ≤ o + n
  · cases hc : m.checked
    · obtain ⟨last, h1, h2⟩ := add_wraps hc h ho hn
      rw [if_neg (by simp)]
      unfold writeCallbackOn writeCallback
      rw [h1]
      dsimp only
      rw [getRange_wrapped b h2, if_neg (by omega)]
    · rw [if_pos ⟨rfl, h⟩]
      unfold writeCallbackOn
      rw [add_checked hc h]
  · rw [if_neg (fun x => h x.2)]
    exact writeCallbackOn_eq b f (add_fits (by omega))

theorem cursor_writeOn (c : Cursor) {d : Bytes} (h : c.responseOffset + d.length < 2 ^ m.bits) :
    c.writeOn m d = some (c.write d) := by
  unfold Cursor.writeOn Cursor.write
  rw [writeOn_eq _ (add_fits h)]
  rcases Server.write c.buffers.response c.responseOffset d with _ | b
  · rfl
  · simp only [add_fits h]

theorem cursor_callbackOn {γ : Type} (c : Cursor) {n : Nat} (f : Bytes → γ × Bytes)
    (hb : c.buffers.response.length < 2 ^ m.bits) (ho : c.responseOffset < 2 ^ m.bits) (hn : n < 2 ^ m.bits) :
    c.writeCallbackOn m n f =
      if m.checked = true ∧ 2 ^ m.bits ≤ c.responseOffset + n then none else some (c.writeCallback n f) := by
  by_cases h : 2 ^ m.bits ≤ c.responseOffset + n
  · unfold Cursor.writeCallbackOn Cursor.writeCallback
    rw [writeCallbackOn_if _ f hb ho hn]
    by_cases hc : m.checked = true ∧ 2 ^ m.bits ≤ c.responseOffset + n
    · rw [if_pos hc, if_pos hc]
    · rw [if_neg hc, if_neg hc]
      have : Server.writeCallback c.buffers.response c.responseOffset n f = none := by
        unfold writeCallback
        rw [if_neg (by omega)]
      rw [this]
  · rw [if_neg (fun x => h x.2)]
    exact cursor_writeCallbackOn_eq c f (add_fits (by omega))

/-- The cursor after something was written. -/
theorem write_some {c c' : Cursor} {d : Bytes} (h : c.write d = some c') :
    c.responseOffset + d.length ≤ c.buffers.response.length ∧
    c'.responseOffset = c.responseOffset + d.length ∧
    c'.buffers.response = c.buffers.response.take c.responseOffset ++ d ++
      c.buffers.response.drop (c.responseOffset + d.length) := by
  unfold Cursor.write Server.write at h
  split at h
  · cases h
  · rename_i b hb
    split at hb
    · cases hb
      cases h
      exact ⟨by assumption, rfl, setResponse_response _ _⟩
    · cases hb

theorem callback_some {c c' : Cursor} {n : Nat} {fill : Bytes → Bytes} {old : Bytes}
    (h : c.writeCallback n (fun old => (old, fill old)) = some (old, c')) :
    c.responseOffset + n ≤ c.buffers.response.length ∧
    old = (c.buffers.response.drop c.responseOffset).take n ∧
    c'.responseOffset = c.responseOffset + n ∧
    c'.buffers.response = c.buffers.response.take c.responseOffset ++ fill old ++
      c.buffers.response.drop (c.responseOffset + n) := by
  unfold Cursor.writeCallback Server.writeCallback at h
  split at h
  · cases h
  · rename_i g b hb
    split at hb
    · cases hb
      cases h
      exact ⟨by assumption, rfl, rfl, setResponse_response _ _⟩
    · cases hb

theorem write_none {c : Cursor} {d : Bytes} (h : c.write d = none) :
    c.buffers.response.length < c.responseOffset + d.length := by
  unfold Cursor.write Server.write at h
  by_cases hl : c.responseOffset + d.length ≤ c.buffers.response.length
  · rw [if_pos hl] at h; cases h
  · omega

theorem callback_none {γ : Type} {c : Cursor} {n : Nat} {f : Bytes → γ × Bytes}
    (h : c.writeCallback n f = none) : c.buffers.response.length < c.responseOffset + n := by
  unfold Cursor.writeCallback Server.writeCallback at h
  by_cases hl : c.responseOffset + n ≤ c.buffers.response.length
  · rw [if_pos hl] at h; cases h
  · omega

/-- The second part of a handler, if the sums do not panic. -/
theorem writing_same (hm : 32 ≤ m.bits) (w : Writing K) {s : Nat} (hw : w.Sized (2 ^ (m.bits - 1)) s)
    (hs : m.checked = false ∧ s = 2 ^ m.bits ∨ s = 2 ^ (m.bits - 1)) (c : Cursor)
    (hb : c.buffers.response.length < 2 ^ (m.bits - 1)) (ho : c.responseOffset < 2 ^ (m.bits - 1)) :
    w.runOn m c = some (w.run c) := by
  obtain ⟨e1, -⟩ := bits_half hm
  induction w generalizing c with
  | done r k => rfl
  | write data next ih =>
    rw [Writing.runOn, Writing.run, cursor_writeOn c (by have := hw.1; omega)]
    rcases hx : c.write data with _ | c'
    · exact ih false (hw.2 _) c hb ho
    · obtain ⟨h1, h2, h3⟩ := write_some hx
      have hl : c'.buffers.response.length = c.buffers.response.length := by
        rw [h3]; simp; omega
      exact ih true (hw.2 _) c' (by omega) (by omega)
  | callback size full fill keeps next ihf ihn =>
    have hsz := hw.1
    have hlt : size < 2 ^ m.bits := by rcases hs with hs | hs <;> omega
    rw [Writing.runOn, Writing.run, cursor_callbackOn c _ (by omega) (by omega) hlt, if_neg (by
      rintro ⟨h1, h2⟩
      rcases hs with hs | hs
      · rw [hs.1] at h1; cases h1
      · omega)]
    rcases hx : c.writeCallback size (fun old => (old, fill old)) with _ | ⟨old, c'⟩
    · exact ihf hw.2.1 c hb ho
    · obtain ⟨h1, h2, h3, h4⟩ := callback_some hx
      have hl : c'.buffers.response.length = c.buffers.response.length := by
        rw [h4]; simp [keeps, h2]; omega
      exact ihn old (hw.2.2 _) c' (by omega) (by omega)

/-- The second part of a handler, if they do. -/
theorem writing_checked (hm : 32 ≤ m.bits) (hc : m.checked = true) (w : Writing K)
    (hw : w.Sized (2 ^ (m.bits - 1)) (2 ^ m.bits)) (c : Cursor)
    (hb : c.buffers.response.length < 2 ^ (m.bits - 1))
    (ho : c.responseOffset ≤ c.buffers.response.length) :
    (w.runOn m c = none ∧
      w.Exceeds (2 ^ m.bits) c.responseOffset (c.buffers.response.drop c.responseOffset)) ∨
    (w.runOn m c = some (w.run c) ∧
      ¬ w.Exceeds (2 ^ m.bits) c.responseOffset (c.buffers.response.drop c.responseOffset)) := by
  obtain ⟨e1, -⟩ := bits_half hm
  induction w generalizing c with
  | done r k => exact .inr ⟨rfl, fun h => nomatch h⟩
  | write data next ih =>
    rw [Writing.runOn, Writing.run, cursor_writeOn c (by have := hw.1; omega)]
    rcases hx : c.write data with _ | c'
    · have hn := write_none hx
      have hlen : (c.buffers.response.drop c.responseOffset).length < data.length := by
        rw [List.length_drop]; omega
      rcases ih false (hw.2 _) c hb ho with ⟨h1, h2⟩ | ⟨h1, h2⟩
      · exact .inl ⟨h1, .full hlen h2⟩
      · refine .inr ⟨h1, fun h => ?_⟩
        generalize hd : c.buffers.response.drop c.responseOffset = sp at *
        cases h with
        | fits hl _ => rw [List.length_append] at hlen; omega
        | full _ h => exact h2 h
    · obtain ⟨h1, h2, h3⟩ := write_some hx
      have hl : c'.buffers.response.length = c.buffers.response.length := by
        rw [h3]; simp; omega
      have hr : c'.buffers.response.drop c'.responseOffset =
          c.buffers.response.drop (c.responseOffset + data.length) := by
        rw [h3, h2, List.drop_left' (by simp; omega)]
      have hd : c.buffers.response.drop c.responseOffset =
          (c.buffers.response.drop c.responseOffset).take data.length ++
            c.buffers.response.drop (c.responseOffset + data.length) := by
        rw [← List.drop_drop, List.take_append_drop]
      have hto : ((c.buffers.response.drop c.responseOffset).take data.length).length = data.length := by
        simp; omega
      have key := ih true (hw.2 _) c' (by omega) (by omega)
      rw [hr, h2] at key
      rcases key with ⟨k1, k2⟩ | ⟨k1, k2⟩
      · refine .inl ⟨k1, ?_⟩
        rw [hd]
        exact .fits hto k2
      · refine .inr ⟨k1, fun h => k2 ?_⟩
        rw [hd] at h
        generalize hz : (c.buffers.response.drop c.responseOffset).take data.length ++
            c.buffers.response.drop (c.responseOffset + data.length) = sp at h
        cases h with
        | fits hl' h =>
          obtain ⟨-, rfl⟩ := List.append_inj hz (by omega)
          exact h
        | full hl' _ => rw [← hz, List.length_append] at hl'; omega
  | callback size full fill keeps next ihf ihn =>
    rw [Writing.runOn, Writing.run, cursor_callbackOn c _ (by omega) (by omega) hw.1]
    by_cases hov : 2 ^ m.bits ≤ c.responseOffset + size
    · rw [if_pos ⟨hc, hov⟩]
      exact .inl ⟨rfl, .here hov⟩
    rw [if_neg (fun h => hov h.2)]
    rcases hx : c.writeCallback size (fun old => (old, fill old)) with _ | ⟨old, c'⟩
    · have hn := callback_none hx
      have hlen : (c.buffers.response.drop c.responseOffset).length < size := by
        rw [List.length_drop]; omega
      rcases ihf hw.2.1 c hb ho with ⟨h1, h2⟩ | ⟨h1, h2⟩
      · exact .inl ⟨h1, .refused hlen h2⟩
      · refine .inr ⟨h1, fun h => ?_⟩
        generalize hd : c.buffers.response.drop c.responseOffset = sp at *
        cases h with
        | here h => exact hov h
        | filled hl _ => rw [List.length_append] at hlen; omega
        | refused _ h => exact h2 h
    · obtain ⟨h1, h2, h3, h4⟩ := callback_some hx
      have hl : c'.buffers.response.length = c.buffers.response.length := by
        rw [h4]; simp [keeps, h2]; omega
      have hto : old.length = size := by rw [h2]; simp; omega
      have hr : c'.buffers.response.drop c'.responseOffset =
          c.buffers.response.drop (c.responseOffset + size) := by
        rw [h4, h3, List.drop_left' (by simp [keeps, hto]; omega)]
      have hd : c.buffers.response.drop c.responseOffset =
          old ++ c.buffers.response.drop (c.responseOffset + size) := by
        rw [h2, ← List.drop_drop, List.take_append_drop]
      have key := ihn old (hw.2.2 _) c' (by omega) (by omega)
      rw [hr, h3] at key
      rcases key with ⟨k1, k2⟩ | ⟨k1, k2⟩
      · refine .inl ⟨k1, ?_⟩
        rw [hd]
        exact .filled hto k2
      · refine .inr ⟨k1, fun h => k2 ?_⟩
        rw [hd] at h
        generalize hz : old ++ c.buffers.response.drop (c.responseOffset + size) = sp at h
        cases h with
        | here h => exact absurd h hov
        | filled hl' h =>
          obtain ⟨rfl, rfl⟩ := List.append_inj hz (by omega)
          exact h
        | refused hl' _ => rw [← hz, List.length_append] at hl'; omega

/-- The first part of a handler. -/
theorem reading_on (hm : 32 ≤ m.bits) (rd : Reading K) (bs : Buffers) (hv : bs.Valid) (o p : Nat)
    (ho : o ≤ bs.request.length) (hr : bs.request.length < 2 ^ (m.bits - 1)) {d s : Nat}
    (hs : rd.Sized d s) :
    ∃ w o', rd.Reads (bs.request.drop o) w ∧ w.Sized d s ∧ rd.run ⟨bs, o, p⟩ = w.run ⟨bs, o', p⟩ ∧
      rd.runOn m ⟨bs, o, p⟩ = w.runOn m ⟨bs, o', p⟩ := by
  obtain ⟨e1, e2⟩ := bits_half hm
  have step : ∀ n, n ≤ 4 → ∀ o, o ≤ bs.request.length → (⟨bs, o, p⟩ : Cursor).readBEOn m n =
      some ((⟨bs, o, p⟩ : Cursor).readBE n) :=
    fun n hn o ho => readBEOn_eq _ (add_fits (by dsimp only; omega))
  have pos : ∀ (b : Bytes) n, b.length = n → positional b < 256 ^ n := fun b n h => h ▸ positional_lt b
  induction rd generalizing o with
  | respond w => exact ⟨w, o, .respond, hs, rfl, rfl⟩
  | u16 next ih =>
    rw [Reading.runOn, step 2 (by omega) o ho]
    rcases readBE_drop bs hv o p 2 ho with ⟨b, rest, hb, hl, ho', hr', he⟩ | ⟨hl, he⟩
    · obtain ⟨w, o', hw, hsw, hrun, hon⟩ := ih (some (positional b)) (o + 2) ho' (hs.2 _ (pos b 2 hl))
      rw [hr'] at hw
      exact ⟨w, o', by rw [hb]; exact .u16 hl hw, hsw, by rw [Reading.run, he]; exact hrun,
        by rw [he]; exact hon⟩
    · obtain ⟨w, o', hw, hsw, hrun, hon⟩ := ih none o ho hs.1
      exact ⟨w, o', .no16 hl hw, hsw, by rw [Reading.run, he]; exact hrun, by rw [he]; exact hon⟩
  | u32 next ih =>
    rw [Reading.runOn, step 4 (by omega) o ho]
    rcases readBE_drop bs hv o p 4 ho with ⟨b, rest, hb, hl, ho', hr', he⟩ | ⟨hl, he⟩
    · obtain ⟨w, o', hw, hsw, hrun, hon⟩ := ih (some (positional b)) (o + 4) ho' (hs.2 _ (pos b 4 hl))
      rw [hr'] at hw
      exact ⟨w, o', by rw [hb]; exact .u32 hl hw, hsw, by rw [Reading.run, he]; exact hrun,
        by rw [he]; exact hon⟩
    · obtain ⟨w, o', hw, hsw, hrun, hon⟩ := ih none o ho hs.1
      exact ⟨w, o', .no32 hl hw, hsw, by rw [Reading.run, he]; exact hrun, by rw [he]; exact hon⟩

/-- What happens up to the handler. -/
theorem executeCommandOnWith_eq (hm : 32 ≤ m.bits) (h : Handlers K) (k : K) (bs : Buffers) (hv : bs.Valid) :
    executeCommandOnWith m h k bs =
      if ¬ WellSized bs.request then some (.err .CommandSize, bs.response, k)
      else match h (field bs.request 6 4) with
        | none => some (.err .CommandCode, bs.response, k)
        | some f =>
          match (f k).runOn m ⟨bs, 10, 10⟩ with
          | none => none
          | some (.ok (), c, k) => some ((finish c).1, (finish c).2, k)
          | some (.err e, c, k) => some (.err e, c.buffers.response, k)
          | some (.panic, c, k) => some (.panic, c.buffers.response, k) := by
  unfold executeCommandOnWith
  simp only
  rw [readBEOn_eq _ (add_eq hm (by simp)), readBE_eq _ hv]
  simp only [Nat.zero_add]
  by_cases h2 : 2 ≤ bs.request.length
  case neg => rw [if_neg h2, if_pos (by intro h; have := h.1; omega)]
  rw [if_pos h2]
  simp only
  rw [readBEOn_eq _ (add_eq hm (by simp)), readBE_eq _ hv]
  simp only
  by_cases h6 : 6 ≤ bs.request.length
  case neg => rw [if_neg h6, if_pos (by intro h; have := h.1; omega)]
  rw [if_pos h6]
  simp only
  have hc : m.cast (field bs.request 2 4) = field bs.request 2 4 := by
    unfold field
    have hl : ((bs.request.drop 2).take 4).length = 4 := by simp; omega
    have := positional_lt ((bs.request.drop 2).take 4)
    rw [hl] at this
    exact cast_of_lt (c := 4) this (by decide) (by omega)
  rw [hc, requestLen_eq _ hv]
  by_cases hs : field bs.request 2 4 = bs.request.length
  case neg => rw [if_pos hs, if_pos (by intro h; exact hs h.2)]
  rw [if_neg (by simpa using hs), readBEOn_eq _ (add_eq hm (by simp)), readBE_eq _ hv]
  simp only
  by_cases h10 : 10 ≤ bs.request.length
  case neg => rw [if_neg h10, if_pos (by intro h; have := h.1; omega)]
  rw [if_pos h10, if_neg (fun hn => hn ⟨h10, hs⟩)]
  simp only [finishOn_eq hm]
  cases h (field bs.request 6 4) <;> rfl

theorem completeOnWith_eq (hm : 32 ≤ m.bits) (r : Res TpmRcError Nat × Bytes × K) :
    completeOnWith m (some r) = some (completeWith r) := by
  unfold completeOnWith completeWith fillErrorOn fillError
  rcases r with ⟨_ | e | _, b, k⟩
  · rfl
  · simp only
    rw [writeOn_eq _ (toBE_add hm (by decide))]
    rcases write b 6 (toBE 4 e.code) with _ | b' <;> rfl
  · rfl

end Verif.Server
