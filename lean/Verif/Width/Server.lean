import Verif.Width.Codec
import Verif.Server.Impl

/-
The server on a machine with a `usize` of a given width.  A sum that panics is `none`, and
everything else is as in Verif/Server/Impl.lean.
-/

namespace Verif.Server
open Verif Verif.Errors

/-- `self.get(a..b)` of a slice (core library): nothing unless `a ≤ b ≤ len`. -/
def getRange (b : Bytes) (first last : Nat) : Option Bytes :=
  if first ≤ last ∧ last ≤ b.length then some ((b.drop first).take (last - first)) else none

/-- `read_into` of `[u8]`: crates/tpm2-impl/src/platform/buffer.rs:64-70. -/
def readIntoOn (m : Machine) (b : Bytes) (offset n : Nat) : Option (Option Bytes) :=
  match m.add offset n with
  | none => none
  | some last =>
    match getRange b offset last with
    | none => some none
    -- `copy_from_slice` panics on different lengths
    | some from_ => if from_.length = n then some (some from_) else none

/-- `write` of `[u8]`: crates/tpm2-impl/src/platform/buffer.rs:74-81. -/
def writeOn (m : Machine) (b : Bytes) (offset : Nat) (data : Bytes) : Option (Option Bytes) :=
  match m.add offset data.length with
  | none => none
  | some last =>
    match getRange b offset last with
    | none => some none
    | some to =>
      if to.length = data.length then some (some (b.take offset ++ data ++ b.drop last)) else none

/-- `write_callback` of `[u8]`: crates/tpm2-impl/src/platform/buffer.rs:82-93. -/
def writeCallbackOn {γ : Type} (m : Machine) (b : Bytes) (offset size : Nat)
    (callback : Bytes → γ × Bytes) : Option (Option (γ × Bytes)) :=
  match m.add offset size with
  | none => none
  | some last =>
    match getRange b offset last with
    | none => some none
    | some buffer =>
      let r := callback buffer
      some (some (r.1, b.take offset ++ r.2 ++ b.drop last))

/-- `get_request().read_into()`: crates/tpm2-impl/src/platform/buffer.rs:64-70 and
crates/tpm2-impl/src/buffers/inout.rs:34-40. -/
def Buffers.requestReadOn (m : Machine) (bs : Buffers) (offset n : Nat) : Option (Option Bytes) :=
  match bs with
  | .separate r _ => readIntoOn m r offset n
  | .inOut b len =>
    match m.add offset n with
    | none => none
    | some last => if len < last then some none else readIntoOn m b offset n

/-- `read_be_u16` and `read_be_u32`: crates/tpm2-impl/src/req_resp.rs:13-22, 27-36. -/
def Cursor.readBEOn (m : Machine) (n : Nat) (c : Cursor) : Option (Option Nat × Cursor) :=
  match c.buffers.requestReadOn m c.requestOffset n with
  | none => none
  | some none => some (none, c)
  | some (some b) =>
    match m.add c.requestOffset n with
    | none => none
    | some o => some (some (fromBE b), { c with requestOffset := o })

/-- `Response::write_callback`: crates/tpm2-impl/src/req_resp.rs:71-83. -/
def Cursor.writeCallbackOn {γ : Type} (m : Machine) (c : Cursor) (size : Nat)
    (callback : Bytes → γ × Bytes) : Option (Option (γ × Cursor)) :=
  match Server.writeCallbackOn m c.buffers.response c.responseOffset size callback with
  | none => none
  | some none => some none
  | some (some (g, b)) =>
    match m.add c.responseOffset size with
    | none => none
    | some o =>
      some (some (g, { c with buffers := c.buffers.setResponse b, responseOffset := o }))

variable {D E : Type}

/-- `CommandHandler::get_random`: crates/tpm2-impl/src/handler/random.rs:23-43. -/
def getRandomOn (m : Machine) (g : Drbg D) (es : Entropy E) (k : Crypto D E) (c : Cursor) :
    Res TpmRcError Unit × Cursor × Crypto D E :=
  match c.readBEOn m 2 with
  | none => (.panic, c, k)
  | some (none, c) => (.err .CommandSize, c, k)
  | some (some requested, c) =>
    match c.writeCallbackOn m (m.cast requested) (fun buffer =>
        let r := tryGetRandom g es k buffer
        ((r.1, r.2.2), r.2.1)) with
    | none => (.panic, c, k)
    | some none => (.err .Memory, c, k)
    | some (some ((ok, k), c)) => (if ok then .ok () else .panic, c, k)

/-- The part of `execute_command` after the handler (`response_size as u32`: the low-order
four bytes): crates/tpm2-impl/src/tpmctx.rs:78-94. -/
def finishOn (m : Machine) (c : Cursor) : Res TpmRcError Nat × Bytes :=
  let responseSize := c.responseOffset
  let b := c.buffers.response
  match writeOn m b 0 (toBE 2 0x8001) with
  | none => (.panic, b)
  | some none => (.err .Memory, b)
  | some (some b) =>
    match writeOn m b 2 (toBE 4 responseSize) with
    | none => (.panic, b)
    | some none => (.err .Memory, b)
    | some (some b) =>
      match writeOn m b 6 (toBE 4 0) with
      | none => (.panic, b)
      | some none => (.err .Memory, b)
      | some (some b) => (.ok responseSize, b)

/-- `execute_command`, with `size as usize`: crates/tpm2-impl/src/tpmctx.rs:58-95. -/
def executeCommandOn (m : Machine) (g : Drbg D) (es : Entropy E) (k : Crypto D E) (bs : Buffers) :
    Res TpmRcError Nat × Bytes × Crypto D E :=
  let requestSize := bs.requestLen
  let c : Cursor := ⟨bs, 0, 10⟩
  match c.readBEOn m 2 with
  | none => (.panic, c.buffers.response, k)
  | some (none, c) => (.err .CommandSize, c.buffers.response, k)
  | some (some _session, c) =>
    match c.readBEOn m 4 with
    | none => (.panic, c.buffers.response, k)
    | some (none, c) => (.err .CommandSize, c.buffers.response, k)
    | some (some size, c) =>
      if m.cast size ≠ requestSize then (.err .CommandSize, c.buffers.response, k)
      else
        match c.readBEOn m 4 with
        | none => (.panic, c.buffers.response, k)
        | some (none, c) => (.err .CommandSize, c.buffers.response, k)
        | some (some commandCode, c) =>
          if commandCode = 0x17B then
            match getRandomOn m g es k c with
            | (.ok (), c, k) =>
              let r := finishOn m c
              (r.1, r.2, k)
            | (.err e, c, k) => (.err e, c.buffers.response, k)
            | (.panic, c, k) => (.panic, c.buffers.response, k)
          else (.err .CommandCode, c.buffers.response, k)

/-- `fill_error`: crates/tpm2-impl/src/tpmctx.rs:50-56.  `none` is a panic. -/
def fillErrorOn (m : Machine) (response : Bytes) (e : TpmRcError) : Option Nat × Bytes :=
  match writeOn m response 6 (toBE 4 e.code) with
  | none => (none, response)
  | some none => (some 0, response)
  | some (some b) => (some 10, b)

/-- The common part of the two public functions: crates/tpm2-impl/src/tpmctx.rs:30-33, 44-47. -/
def completeOn (m : Machine) (r : Res TpmRcError Nat × Bytes × Crypto D E) :
    Option Nat × Bytes × Crypto D E :=
  match r with
  | (.ok size, b, k) => (some size, b, k)
  | (.err e, b, k) => let f := fillErrorOn m b e; (f.1, f.2, k)
  | (.panic, b, k) => (none, b, k)

/-- `execute_command_separate`: crates/tpm2-impl/src/tpmctx.rs:24-34. -/
def executeSeparateOn (m : Machine) (g : Drbg D) (es : Entropy E) (k : Crypto D E)
    (request response : Bytes) : Option Nat × Bytes × Crypto D E :=
  completeOn m (executeCommandOn m g es k (.separate request response))

/-- `execute_command_in_place`: crates/tpm2-impl/src/tpmctx.rs:38-48. -/
def executeInPlaceOn (m : Machine) (g : Drbg D) (es : Entropy E) (k : Crypto D E) (inOut : Bytes)
    (requestSize : Nat) : Option Nat × Bytes × Crypto D E :=
  completeOn m (executeCommandOn m g es k (Buffers.newInOut inOut requestSize))

/-! ### Proof -/

variable {m : Machine}

theorem add_eq {a b : Nat} (hb : 32 ≤ m.bits) (h : a + b < 2 ^ 32) : m.add a b = some (a + b) :=
  if_pos (Nat.lt_of_lt_of_le h (Nat.pow_le_pow_right (by decide) hb))

theorem getRange_eq (b : Bytes) (o n : Nat) :
    getRange b o (o + n) = if o + n ≤ b.length then some ((b.drop o).take n) else none := by
  unfold getRange
  by_cases h : o + n ≤ b.length
  · rw [if_pos ⟨by omega, h⟩, if_pos h, show o + n - o = n by omega]
  · rw [if_neg (by omega), if_neg h]

theorem readIntoOn_eq (b : Bytes) {o n : Nat} (h : m.add o n = some (o + n)) :
    readIntoOn m b o n = some (readInto b o n) := by
  unfold readIntoOn readInto
  rw [h]
  simp only [getRange_eq]
  by_cases hl : o + n ≤ b.length
  · simp only [if_pos hl]
    rw [if_pos (by simp; omega)]
  · simp only [if_neg hl]

theorem writeOn_eq (b : Bytes) {o : Nat} {d : Bytes}
    (h : m.add o d.length = some (o + d.length)) : writeOn m b o d = some (write b o d) := by
  unfold writeOn write
  rw [h]
  simp only [getRange_eq]
  by_cases hl : o + d.length ≤ b.length
  · simp only [if_pos hl]
    rw [if_pos (by simp; omega)]
  · simp only [if_neg hl]

theorem writeCallbackOn_eq {γ : Type} (b : Bytes) {o n : Nat} (f : Bytes → γ × Bytes)
    (h : m.add o n = some (o + n)) : writeCallbackOn m b o n f = some (writeCallback b o n f) := by
  unfold writeCallbackOn writeCallback
  rw [h]
  simp only [getRange_eq]
  by_cases hl : o + n ≤ b.length
  · simp only [if_pos hl]
  · simp only [if_neg hl]

theorem readBEOn_eq (c : Cursor) {n : Nat} (h : m.add c.requestOffset n = some (c.requestOffset + n)) :
    c.readBEOn m n = some (c.readBE n) := by
  unfold Cursor.readBEOn Cursor.readBE
  have hr : c.buffers.requestReadOn m c.requestOffset n
      = some (c.buffers.requestRead c.requestOffset n) := by
    unfold Buffers.requestReadOn Buffers.requestRead
    rcases c.buffers with ⟨r, w⟩ | ⟨b, len⟩
    · exact readIntoOn_eq r h
    · simp only [h, readIntoOn_eq b h]
      split <;> rfl
  rw [hr]
  rcases c.buffers.requestRead c.requestOffset n with _ | b
  · rfl
  · simp only [h]

theorem readBE_bounds {c c' : Cursor} {n x : Nat} (h : c.readBE n = (some x, c')) :
    x < 256 ^ n ∧ c'.requestOffset = c.requestOffset + n ∧ c'.responseOffset = c.responseOffset := by
  unfold Cursor.readBE at h
  rcases hr : c.buffers.requestRead c.requestOffset n with _ | b <;> rw [hr] at h
  · simp at h
  · simp only [Prod.mk.injEq, Option.some.injEq] at h
    obtain ⟨h1, h2⟩ := h
    refine ⟨?_, by rw [← h2], by rw [← h2]⟩
    have hl : b.length = n := by
      unfold Buffers.requestRead readInto at hr
      split at hr
      · split at hr
        · injection hr with hr; rw [← hr]; simp; omega
        · cases hr
      · split at hr
        · cases hr
        · split at hr
          · injection hr with hr; rw [← hr]; simp; omega
          · cases hr
    rw [← h1, ← hl]
    rw [fromBE_eq_positional]
    exact positional_lt b

theorem cursor_writeCallbackOn_eq {γ : Type} (c : Cursor) {n : Nat} (f : Bytes → γ × Bytes)
    (h : m.add c.responseOffset n = some (c.responseOffset + n)) :
    c.writeCallbackOn m n f = some (c.writeCallback n f) := by
  unfold Cursor.writeCallbackOn Cursor.writeCallback
  rw [writeCallbackOn_eq _ f h]
  rcases Server.writeCallback c.buffers.response c.responseOffset n f with _ | ⟨g, b⟩
  · rfl
  · simp only [h]

theorem getRandomOn_eq (hb : 32 ≤ m.bits) (g : Drbg D) (es : Entropy E) (k : Crypto D E) (c : Cursor)
    (ho : c.requestOffset = 10) (hr : c.responseOffset = 10) :
    getRandomOn m g es k c = getRandom g es k c := by
  unfold getRandomOn getRandom
  rw [readBEOn_eq c (add_eq hb (by omega))]
  rcases hq : c.readBE 2 with ⟨_ | x, c'⟩
  · rfl
  · obtain ⟨hx, -, hr'⟩ := readBE_bounds hq
    simp only
    rw [cast_u16 (by simpa using hx) (by omega)]
    rw [cursor_writeCallbackOn_eq c' _ (add_eq hb (by have : x < 65536 := by simpa using hx
                                                      omega))]
    rcases c'.writeCallback x _ with _ | ⟨⟨ok, k'⟩, c''⟩ <;> rfl

theorem toBE_add {n o x : Nat} (hb : 32 ≤ m.bits) (h : o + n < 2 ^ 32) :
    m.add o (toBE n x).length = some (o + (toBE n x).length) := by
  rw [show (toBE n x).length = n by rw [toBE_eq_digits256, digits256_length]]
  exact add_eq hb h

theorem finishOn_eq (hb : 32 ≤ m.bits) (c : Cursor) : finishOn m c = finish c := by
  unfold finishOn finish
  simp only
  rw [writeOn_eq _ (toBE_add hb (by decide))]
  rcases write c.buffers.response 0 (toBE 2 0x8001) with _ | b
  · rfl
  · simp only
    rw [writeOn_eq _ (toBE_add hb (by decide))]
    rcases write b 2 (toBE 4 c.responseOffset) with _ | b
    · rfl
    · simp only
      rw [writeOn_eq _ (toBE_add hb (by decide))]
      rcases write b 6 (toBE 4 0) with _ | b <;> rfl

theorem executeCommandOn_eq (hb : 32 ≤ m.bits) (g : Drbg D) (es : Entropy E) (k : Crypto D E)
    (bs : Buffers) : executeCommandOn m g es k bs = executeCommand g es k bs := by
  unfold executeCommandOn executeCommand
  simp only
  rw [readBEOn_eq _ (add_eq hb (by simp))]
  rcases h1 : (Cursor.mk bs 0 10).readBE 2 with ⟨_ | x, c1⟩
  · rfl
  · obtain ⟨-, o1, r1⟩ := readBE_bounds h1
    simp only at o1 r1 ⊢
    rw [readBEOn_eq c1 (add_eq hb (by omega))]
    rcases h2 : c1.readBE 4 with ⟨_ | size, c2⟩
    · rfl
    · obtain ⟨hs, o2, r2⟩ := readBE_bounds h2
      simp only
      rw [cast_of_lt (c := 4) hs (by decide) (by omega)]
      split
      · rfl
      · rw [readBEOn_eq c2 (add_eq hb (by omega))]
        rcases h3 : c2.readBE 4 with ⟨_ | code, c3⟩
        · rfl
        · obtain ⟨-, o3, r3⟩ := readBE_bounds h3
          simp only
          rw [getRandomOn_eq hb g es k c3 (by omega) (by omega)]
          split
          · rcases getRandom g es k c3 with ⟨_ | e | _, c4, k'⟩
            · simp only [finishOn_eq hb]
            · rfl
            · rfl
          · rfl

theorem completeOn_eq (hb : 32 ≤ m.bits) (r : Res TpmRcError Nat × Bytes × Crypto D E) :
    completeOn m r = complete r := by
  unfold completeOn complete fillErrorOn fillError
  rcases r with ⟨_ | e | _, b, k⟩
  · rfl
  · simp only
    rw [writeOn_eq _ (toBE_add hb (by decide))]
    rcases write b 6 (toBE 4 e.code) with _ | b' <;> rfl
  · rfl

end Verif.Server
