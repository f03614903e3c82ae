import Verif.Server.BufferProps

/-
Property theorems C97: what the server does with buffers of the platform, whatever these
do themselves.
-/

namespace Verif.Server.Gen
open Verif Verif.Errors

variable {B W R D E : Type}

/-! ### Specification -/

/-- A refusal: one write, of the code to its place in the header.  The response is 10 bytes
long, or empty if the write fails. -/
inductive Refuses (wb : WriteBuffer W) (w : W) (code : Nat) : Option Nat → W → Prop
  | told {w'} : wb.write w 6 (digits256 4 code) = (true, w') → Refuses wb w code (some 10) w'
  | silent {w'} : wb.write w 6 (digits256 4 code) = (false, w') → Refuses wb w code (some 0) w'

/-- The header of a success: three writes, of tag, size and code; `TPM_RC_MEMORY` as soon as
one fails. -/
inductive Finishes (wb : WriteBuffer W) (w : W) (n : Nat) : Option Nat → W → Prop
  | success {w1 w2 w3} : wb.write w 0 [0x80, 0x01] = (true, w1) →
      wb.write w1 2 (digits256 4 n) = (true, w2) →
      wb.write w2 6 [0, 0, 0, 0] = (true, w3) → Finishes wb w n (some n) w3
  | tag {w1 r w'} : wb.write w 0 [0x80, 0x01] = (false, w1) → Refuses wb w1 0x904 r w' →
      Finishes wb w n r w'
  | size {w1 w2 r w'} : wb.write w 0 [0x80, 0x01] = (true, w1) →
      wb.write w1 2 (digits256 4 n) = (false, w2) → Refuses wb w2 0x904 r w' →
      Finishes wb w n r w'
  | code {w1 w2 w3 r w'} : wb.write w 0 [0x80, 0x01] = (true, w1) →
      wb.write w1 2 (digits256 4 n) = (true, w2) →
      wb.write w2 6 [0, 0, 0, 0] = (false, w3) → Refuses wb w3 0x904 r w' →
      Finishes wb w n r w'

/-- What happens to the response buffer `w`, if the request of length `len` is read by `u16`
and `u32`: the size returned, the buffer and the state afterwards. -/
inductive Answers (wb : WriteBuffer W) (u16 u32 : Nat → Option Nat) (len : Nat) (g : Drbg D)
    (es : Entropy E) (k : Crypto D E) (w : W) : Option Nat → W → Crypto D E → Prop
  /-- no header, or a wrong size in it -/
  | header {r w'} : ¬ (u16 0 ≠ none ∧ u32 2 = some len ∧ u32 6 ≠ none) → Refuses wb w 0x142 r w' →
      Answers wb u16 u32 len g es k w r w' k
  /-- another command -/
  | code {c r w'} : u16 0 ≠ none → u32 2 = some len → u32 6 = some c → c ≠ 0x17B →
      Refuses wb w 0x143 r w' → Answers wb u16 u32 len g es k w r w' k
  /-- no number of bytes -/
  | count {r w'} : u16 0 ≠ none → u32 2 = some len → u32 6 = some 0x17B → u16 10 = none →
      Refuses wb w 0x142 r w' → Answers wb u16 u32 len g es k w r w' k
  /-- the buffer does not let the server write `n` bytes behind the header -/
  | full {n w1 r w'} : u16 0 ≠ none → u32 2 = some len → u32 6 = some 0x17B → u16 10 = some n →
      wb.writeCallback w 10 n = .skip false w1 → Refuses wb w1 0x904 r w' →
      Answers wb u16 u32 len g es k w r w' k
  /-- the buffer only claims it has -/
  | pretended {n w1 r w'} : u16 0 ≠ none → u32 2 = some len → u32 6 = some 0x17B →
      u16 10 = some n → wb.writeCallback w 10 n = .skip true w1 → Finishes wb w1 (10 + n) r w' →
      Answers wb u16 u32 len g es k w r w' k
  /-- the slice offered is filled by the generator -/
  | filled {n slice after out k1 w1 r w'} : u16 0 ≠ none → u32 2 = some len →
      u32 6 = some 0x17B → u16 10 = some n → wb.writeCallback w 10 n = .call slice after →
      Produces g es k slice out k1 → after out = (true, w1) → Finishes wb w1 (10 + n) r w' →
      Answers wb u16 u32 len g es k w r w' k1
  /-- it is, but the buffer reports a failure -/
  | spoiled {n slice after out k1 w1 r w'} : u16 0 ≠ none → u32 2 = some len →
      u32 6 = some 0x17B → u16 10 = some n → wb.writeCallback w 10 n = .call slice after →
      Produces g es k slice out k1 → after out = (false, w1) → Refuses wb w1 0x904 r w' →
      Answers wb u16 u32 len g es k w r w' k1
  /-- the generator fails: the server panics -/
  | panics {n slice after w' k'} : u16 0 ≠ none → u32 2 = some len →
      u32 6 = some 0x17B → u16 10 = some n → wb.writeCallback w 10 n = .call slice after →
      (¬ ∃ out k1, Produces g es k slice out k1) → Answers wb u16 u32 len g es k w none w' k'

/-! ### Proof -/

theorem refuses_complete (wb : WriteBuffer W) (w : W) (e : TpmRcError) (k : Crypto D E) :
    Refuses wb w e.code (complete wb (.err e, w, k)).1 (complete wb (.err e, w, k)).2.1 ∧
    (complete wb (.err e, w, k)).2.2 = k := by
  simp only [complete, toBE_eq_digits256]
  rcases h : wb.write w 6 (digits256 4 e.code) with ⟨_ | _, w1⟩
  · exact ⟨.silent h, rfl⟩
  · exact ⟨.told h, rfl⟩

theorem finishes_complete (wb : WriteBuffer W) (w : W) (n : Nat) (k : Crypto D E) :
    let r := complete wb ((finish wb w n).1, (finish wb w n).2, k)
    Finishes wb w n r.1 r.2.1 ∧ r.2.2 = k := by
  have e1 : toBE 2 0x8001 = [0x80, 0x01] := by decide
  have e2 : toBE 4 0 = [0, 0, 0, 0] := by decide
  simp only [finish, e1, e2]
  rw [toBE_eq_digits256]
  rcases h1 : wb.write w 0 [0x80, 0x01] with ⟨_ | _, w1⟩
  · have := refuses_complete wb w1 .Memory k
    exact ⟨.tag h1 this.1, this.2⟩
  · simp only
    rcases h2 : wb.write w1 2 (digits256 4 n) with ⟨_ | _, w2⟩
    · have := refuses_complete wb w2 .Memory k
      exact ⟨.size h1 h2 this.1, this.2⟩
    · simp only
      rcases h3 : wb.write w2 6 [0, 0, 0, 0] with ⟨_ | _, w3⟩
      · have := refuses_complete wb w3 .Memory k
        exact ⟨.code h1 h2 h3 this.1, this.2⟩
      · exact ⟨.success h1 h2 h3, rfl⟩

/-- Buffers that give back the response they were given. -/
def Keeps (tb : TpmBuffers B W) : Prop := ∀ b w, tb.response (tb.setResponse b w) = w

theorem answers (wb : WriteBuffer W) (tb : TpmBuffers B W) (ht : Keeps tb) (g : Drbg D)
    (es : Entropy E) (k : Crypto D E) (b : B) :
    let r := complete wb (executeCommand wb tb g es k b)
    Answers wb (tb.requestU16 b) (tb.requestU32 b) (tb.requestLen b) g es k (tb.response b)
      r.1 r.2.1 r.2.2 := by
  have hr : ∀ (e : TpmRcError) (w : W) (k : Crypto D E), (complete wb (.err e, w, k)).2.2 = k :=
    fun e w k => (refuses_complete wb w e k).2
  have hf : ∀ (w : W) (n : Nat) (k : Crypto D E),
      (complete wb ((finish wb w n).1, (finish wb w n).2, k)).2.2 = k :=
    fun w n k => (finishes_complete wb w n k).2
  simp only [executeCommand, Cursor.readU16, Cursor.readU32]
  rcases h1 : tb.requestU16 b 0 with _ | tag
  · simp only [hr]
    exact .header (by simp [h1]) (refuses_complete wb _ .CommandSize k).1
  simp only [Nat.zero_add]
  rcases h2 : tb.requestU32 b 2 with _ | size
  · simp only [hr]
    exact .header (by simp [h2]) (refuses_complete wb _ .CommandSize k).1
  simp only
  by_cases h3 : size = tb.requestLen b
  · rw [if_neg (by simpa using h3)]
    subst h3
    rcases h4 : tb.requestU32 b 6 with _ | c
    · simp only [hr]
      exact .header (by simp [h4]) (refuses_complete wb _ .CommandSize k).1
    simp only
    have g1 : tb.requestU16 b 0 ≠ none := by rw [h1]; simp
    by_cases h5 : c = 0x17B
    · rw [if_pos h5]
      subst h5
      simp only [getRandom, Cursor.readU16]
      rcases h6 : tb.requestU16 b 10 with _ | n
      · simp only [hr]
        exact .count g1 h2 h4 h6 (refuses_complete wb _ .CommandSize k).1
      simp only
      rcases h7 : wb.writeCallback (tb.response b) 10 n with ⟨ok, w1⟩ | ⟨slice, after⟩
      · simp only
        cases ok with
        | false =>
          simp only [Bool.false_eq_true, if_false, hr, ht b w1]
          exact .full g1 h2 h4 h6 h7 (refuses_complete wb _ .Memory k).1
        | true =>
          simp only [if_true, hf, ht b w1]
          exact .pretended g1 h2 h4 h6 h7 (finishes_complete wb _ _ k).1
      · simp only
        by_cases hp : (tryGetRandom g es k slice).1 = true
        · have hP := tryGetRandom_produces g es k slice hp
          rw [if_pos hp]
          rcases h8 : after (tryGetRandom g es k slice).2.1 with ⟨_ | _, w1⟩
          · simp only [Bool.false_eq_true, if_false, hr, ht b w1]
            exact .spoiled g1 h2 h4 h6 h7 hP h8 (refuses_complete wb _ .Memory _).1
          · simp only [if_true, hf, ht b w1]
            exact .filled g1 h2 h4 h6 h7 hP h8 (finishes_complete wb _ _ _).1
        · rw [if_neg hp]
          refine .panics g1 h2 h4 h6 h7 ?_
          rintro ⟨out, k1, hP⟩
          rw [hP.tryGetRandom_eq] at hp
          exact hp rfl
    · rw [if_neg h5]
      simp only [hr]
      exact .code g1 h2 h4 h5 (refuses_complete wb _ .CommandCode k).1
  · rw [if_pos h3]
    simp only [hr]
    exact .header (by rw [h2]; simp [h3]) (refuses_complete wb _ .CommandSize k).1

theorem Refuses.eq {wb : WriteBuffer W} {w : W} {e : TpmRcError} {r : Option Nat} {w' : W}
    (h : Refuses wb w e.code r w') (k : Crypto D E) : complete wb (.err e, w, k) = (r, w', k) := by
  cases h with
  | told h => simp only [complete, toBE_eq_digits256, h]
  | silent h => simp only [complete, toBE_eq_digits256, h]

theorem Finishes.eq {wb : WriteBuffer W} {w : W} {n : Nat} {r : Option Nat} {w' : W}
    (h : Finishes wb w n r w') (k : Crypto D E) :
    complete wb ((finish wb w n).1, (finish wb w n).2, k) = (r, w', k) := by
  have e1 : toBE 2 0x8001 = [0x80, 0x01] := by decide
  have e2 : toBE 4 0 = [0, 0, 0, 0] := by decide
  simp only [finish, e1, e2]
  rw [toBE_eq_digits256]
  cases h with
  | success h1 h2 h3 => simp only [h1, h2, h3, complete]
  | tag h1 h => simp only [h1]; exact h.eq (e := .Memory) k
  | size h1 h2 h => simp only [h1, h2]; exact h.eq (e := .Memory) k
  | code h1 h2 h3 h => simp only [h1, h2, h3]; exact h.eq (e := .Memory) k

theorem Answers.eq {wb : WriteBuffer W} {tb : TpmBuffers B W} (ht : Keeps tb) {g : Drbg D}
    {es : Entropy E} {k k' : Crypto D E} {b : B} {r : Option Nat} {w' : W}
    (h : Answers wb (tb.requestU16 b) (tb.requestU32 b) (tb.requestLen b) g es k (tb.response b)
      r w' k') (hr : r ≠ none) :
    complete wb (executeCommand wb tb g es k b) = (r, w', k') := by
  simp only [executeCommand, Cursor.readU16, Cursor.readU32]
  have some_of : ∀ {x : Option Nat}, x ≠ none → ∃ y, x = some y := by
    intro x hx
    cases x with
    | none => exact absurd rfl hx
    | some y => exact ⟨y, rfl⟩
  cases h with
  | header h1 h =>
    rcases e1 : tb.requestU16 b 0 with _ | t
    · exact h.eq (e := .CommandSize) k
    simp only [Nat.zero_add]
    rcases e2 : tb.requestU32 b 2 with _ | size
    · exact h.eq (e := .CommandSize) k
    simp only
    by_cases e3 : size = tb.requestLen b
    · rw [if_neg (by simpa using e3)]
      rcases e4 : tb.requestU32 b 6 with _ | c
      · exact h.eq (e := .CommandSize) k
      · exact absurd ⟨by simp [e1], by rw [e2, e3], by simp [e4]⟩ h1
    · rw [if_pos e3]
      exact h.eq (e := .CommandSize) k
  | code h1 h2 h3 h4 h =>
    obtain ⟨t, h1⟩ := some_of h1
    simp only [h1, h2, h3, h4, ne_eq, not_true, if_false, Nat.zero_add]
    exact h.eq (e := .CommandCode) k
  | count h1 h2 h3 h4 h =>
    obtain ⟨t, h1⟩ := some_of h1
    simp only [h1, h2, h3, ne_eq, not_true, if_false, if_true, Nat.zero_add, getRandom,
      Cursor.readU16, h4]
    exact h.eq (e := .CommandSize) k
  | full h1 h2 h3 h4 h5 h =>
    obtain ⟨t, h1⟩ := some_of h1
    simp only [h1, h2, h3, ne_eq, not_true, if_false, if_true, Nat.zero_add, getRandom,
      Cursor.readU16, h4, h5, Bool.false_eq_true, ht b _]
    exact h.eq (e := .Memory) k
  | pretended h1 h2 h3 h4 h5 h =>
    obtain ⟨t, h1⟩ := some_of h1
    simp only [h1, h2, h3, ne_eq, not_true, if_false, if_true, Nat.zero_add, getRandom,
      Cursor.readU16, h4, h5, ht b _]
    exact h.eq k
  | filled h1 h2 h3 h4 h5 hp h6 h =>
    obtain ⟨t, h1⟩ := some_of h1
    simp only [h1, h2, h3, ne_eq, not_true, if_false, if_true, Nat.zero_add, getRandom,
      Cursor.readU16, h4, h5, hp.tryGetRandom_eq, h6, ht b _]
    exact h.eq _
  | spoiled h1 h2 h3 h4 h5 hp h6 h =>
    obtain ⟨t, h1⟩ := some_of h1
    simp only [h1, h2, h3, ne_eq, not_true, if_false, if_true, Nat.zero_add, getRandom,
      Cursor.readU16, h4, h5, hp.tryGetRandom_eq, h6, Bool.false_eq_true, ht b _]
    exact h.eq (e := .Memory) _
  | panics => exact absurd rfl hr

/-! ### C97 -/

/-- **C97**: with separate buffers.  The request is read by the buffer's own methods. -/
theorem C97_separate (rb : ReadBuffer R) (wb : WriteBuffer W) (g : Drbg D) (es : Entropy E)
    (k : Crypto D E) (request : R) (response : W) :
    let r := executeSeparate rb wb g es k request response
    Answers wb (rb.readU16 request) (rb.readU32 request) (rb.len request) g es k response
      r.1 r.2.1 r.2.2 :=
  answers wb (separate rb W) (fun _ _ => rfl) g es k (request, response)

/-- What can be read of a request in place: the first bytes, by `read_into`. -/
def readInPlace (wb : WriteBuffer W) (buffer : W) (len n o : Nat) : Option Nat :=
  if o + n ≤ len then (wb.readInto buffer o n).map positional else none

theorem inOut_read (wb : WriteBuffer W) (buffer : W) (len n : Nat) :
    (fun o => (inOutRead wb (buffer, len) o n).map fromBE) = readInPlace wb buffer len n := by
  funext o
  unfold inOutRead readInPlace
  have hfp : fromBE = positional := funext fromBE_eq_positional
  by_cases hc : o + n ≤ len
  · rw [if_neg (by simpa using hc), if_pos hc, hfp]
  · rw [if_pos (by simpa using hc), if_neg hc]; rfl

/-- **C97**: in place.  The request is read by `read_into`, from the first bytes only. -/
theorem C97_in_place (wb : WriteBuffer W) (g : Drbg D) (es : Entropy E) (k : Crypto D E)
    (buffer : W) (size : Nat) :
    let r := executeInPlace wb g es k buffer size
    let len := min size (wb.len buffer)
    Answers wb (readInPlace wb buffer len 2) (readInPlace wb buffer len 4) len g es k buffer
      r.1 r.2.1 r.2.2 := by
  have h := answers wb (inOut wb) (fun _ _ => rfl) g es k (buffer, min size (wb.len buffer))
  simp only [inOut] at h
  rw [show defaultU16 (inOutRead wb) (buffer, min size (wb.len buffer)) = _ from inOut_read wb _ _ 2,
    show defaultU32 (inOutRead wb) (buffer, min size (wb.len buffer)) = _ from inOut_read wb _ _ 4] at h
  exact h

/-- **C97**: nothing else can happen, with the same buffers, generator and state, except if
the server panics. -/
theorem C97_only (rb : ReadBuffer R) (wb : WriteBuffer W) (g : Drbg D) (es : Entropy E)
    (k k' : Crypto D E) (request : R) (response w' : W) (n : Nat) :
    executeSeparate rb wb g es k request response = (some n, w', k') ↔
    Answers wb (rb.readU16 request) (rb.readU32 request) (rb.len request) g es k response
      (some n) w' k' := by
  constructor
  · intro h
    have := C97_separate rb wb g es k request response
    rw [h] at this
    exact this
  · intro h
    exact h.eq (tb := separate rb W) (b := (request, response)) (fun _ _ => rfl) (by simp)

/-- **C97**: the same in place. -/
theorem C97_only_in_place (wb : WriteBuffer W) (g : Drbg D) (es : Entropy E) (k k' : Crypto D E)
    (buffer w' : W) (size n : Nat) :
    let len := min size (wb.len buffer)
    executeInPlace wb g es k buffer size = (some n, w', k') ↔
    Answers wb (readInPlace wb buffer len 2) (readInPlace wb buffer len 4) len g es k buffer
      (some n) w' k' := by
  intro len
  constructor
  · intro h
    have := C97_in_place wb g es k buffer size
    rw [h] at this
    exact this
  · intro h
    refine Answers.eq (tb := inOut wb) (b := (buffer, len)) (fun _ _ => rfl) ?_ (by simp)
    simp only [inOut]
    rw [show defaultU16 (inOutRead wb) (buffer, len) = _ from inOut_read wb _ _ 2,
      show defaultU32 (inOutRead wb) (buffer, len) = _ from inOut_read wb _ _ 4]
    exact h

/-! ### Cases -/

/-- A buffer that keeps a list of the places where it was written. -/
def logging : WriteBuffer (Bytes × List Nat) where
  len b := b.1.length
  readInto b := readInto b.1
  readInto_length r o n b h := sliceRead.readInto_length r.1 o n b h
  readU16 b := defaultU16 readInto b.1
  readU32 b := defaultU32 readInto b.1
  write b offset data :=
    match Server.write b.1 offset data with
    | some x => (true, (x, b.2 ++ [offset]))
    | none => (false, (b.1, b.2 ++ [offset]))
  writeCallback b offset size :=
    if offset + size ≤ b.1.length then
      .call ((b.1.drop offset).take size)
        (fun new => (true, (b.1.take offset ++ new ++ b.1.drop (offset + size), b.2 ++ [offset])))
    else .skip false (b.1, b.2 ++ [offset])

/-- The request for two bytes is answered by four writes: first the random bytes, then the
header from left to right. -/
example : executeSeparate sliceRead logging fakeDrbg fakeEntropy (fakeState 0) exRequest
    (List.replicate 13 9, []) = (some 12, (responseOf 0 [1, 2] ++ [9], [10, 0, 2, 6]), (fakeState 2)) := by
  refine (C97_only _ _ _ _ _ _ _ _ _ _).2 (.filled (n := 2) (out := [1, 2]) (by decide) (by decide)
    (by decide) (by decide) rfl (.direct _ _ _ rfl rfl) rfl (.success rfl rfl rfl))

/-- If they do not fit, the place of the random bytes is tried, then the code is written. -/
example : executeSeparate sliceRead logging fakeDrbg fakeEntropy (fakeState 0) exRequest
    (List.replicate 11 9, []) =
    (some 10, ([9, 9, 9, 9, 9, 9, 0, 0, 9, 4, 9], [10, 6]), (fakeState 0)) :=
  (C97_only _ _ _ _ _ _ _ _ _ _).2 (.full (n := 2) (by decide) (by decide)
    (by decide) (by decide) rfl (.told rfl))

/-- In place, with a size beyond the buffer. -/
example : executeInPlace logging fakeDrbg fakeEntropy (fakeState 0) (exRequest, []) 100 =
    (some 12, (responseOf 0 [1, 2], [10, 0, 2, 6]), (fakeState 2)) :=
  (C97_only_in_place _ _ _ _ _ _ _ _ _).2 (.filled (n := 2) (out := [1, 2]) (by decide) (by decide)
    (by decide) (by decide) rfl (.direct _ _ _ rfl rfl) rfl (.success rfl rfl rfl))

end Verif.Server.Gen
