import Verif.Server.Buffers
import Verif.Server.Props

/-
Property theorems C71: the server with buffers of the platform.
-/

namespace Verif.Server.Gen
open Verif Verif.Errors

variable {B W R D E : Type}

/-! ### Specification: what the traits document -/

/-- A readable buffer holds bytes that can be read at any offset. -/
structure LawfulRead (rb : ReadBuffer R) (bytes : R → Bytes) : Prop where
  len : ∀ r, rb.len r = (bytes r).length
  read : ∀ r o n, rb.readInto r o n =
    if o + n ≤ (bytes r).length then some (((bytes r).drop o).take n) else none
  readU16 : ∀ r o, rb.readU16 r o =
    if o + 2 ≤ (bytes r).length then some (field (bytes r) o 2) else none
  readU32 : ∀ r o, rb.readU32 r o =
    if o + 4 ≤ (bytes r).length then some (field (bytes r) o 4) else none

/-- A writable buffer replaces bytes in place; writing beyond the end is an error,
changes nothing, and does not call the callback. -/
structure LawfulWrite (wb : WriteBuffer W) (bytes : W → Bytes) : Prop
    extends LawfulRead wb.toReadBuffer bytes where
  write_in : ∀ w o data, o + data.length ≤ (bytes w).length → (wb.write w o data).1 = true ∧
    bytes (wb.write w o data).2 = (bytes w).take o ++ data ++ (bytes w).drop (o + data.length)
  write_out : ∀ w o data, (bytes w).length < o + data.length → (wb.write w o data).1 = false ∧
    bytes (wb.write w o data).2 = bytes w
  callback_in : ∀ w o n, o + n ≤ (bytes w).length →
    ∃ after, wb.writeCallback w o n = .call (((bytes w).drop o).take n) after ∧
      ∀ new, new.length = n → (after new).1 = true ∧
        bytes (after new).2 = (bytes w).take o ++ new ++ (bytes w).drop (o + n)
  callback_out : ∀ w o n, (bytes w).length < o + n →
    ∃ w', wb.writeCallback w o n = .skip false w' ∧ bytes w' = bytes w

/-! ### Proof -/

/-- The buffers of a command, seen as byte slices. -/
structure LawfulBuffers (tb : TpmBuffers B W) (abs : B → Buffers) (bytes : W → Bytes) : Prop where
  len : ∀ b, tb.requestLen b = (abs b).requestLen
  u16 : ∀ b o, tb.requestU16 b o = ((abs b).requestRead o 2).map fromBE
  u32 : ∀ b o, tb.requestU32 b o = ((abs b).requestRead o 4).map fromBE
  response : ∀ b, bytes (tb.response b) = (abs b).response
  setResponse : ∀ b w, abs (tb.setResponse b w) = (abs b).setResponse (bytes w)

theorem lawful_separate {rb : ReadBuffer R} {rbytes : R → Bytes} (h : LawfulRead rb rbytes)
    (bytes : W → Bytes) :
    LawfulBuffers (separate rb W) (fun b => .separate (rbytes b.1) (bytes b.2)) bytes where
  len b := h.len b.1
  u16 b o := by
    simp only [separate, h.readU16, Buffers.requestRead, readInto, field, ← fromBE_eq_positional]
    split <;> rfl
  u32 b o := by
    simp only [separate, h.readU32, Buffers.requestRead, readInto, field, ← fromBE_eq_positional]
    split <;> rfl
  response b := rfl
  setResponse b w := rfl

theorem lawful_inOut {wb : WriteBuffer W} {bytes : W → Bytes} (h : LawfulWrite wb bytes) :
    LawfulBuffers (inOut wb) (fun b => .inOut (bytes b.1) b.2) bytes where
  len b := rfl
  u16 b o := by
    simp only [inOut, defaultU16, inOutRead, h.read, Buffers.requestRead, readInto]
  u32 b o := by
    simp only [inOut, defaultU32, inOutRead, h.read, Buffers.requestRead, readInto]
  response b := rfl
  setResponse b w := rfl

/-- The cursor, seen as one on byte slices. -/
def Cursor.abs (f : B → Buffers) (c : Cursor B) : Server.Cursor :=
  ⟨f c.buffers, c.requestOffset, c.responseOffset⟩

theorem readU16_abs {tb : TpmBuffers B W} {abs : B → Buffers} {bytes : W → Bytes}
    (h : LawfulBuffers tb abs bytes) (c : Cursor B) :
    (c.abs abs).readBE 2 = ((c.readU16 tb).1, (c.readU16 tb).2.abs abs) := by
  unfold Server.Cursor.readBE Cursor.readU16
  simp only [h.u16, Cursor.abs]
  cases (abs c.buffers).requestRead c.requestOffset 2 <;> rfl

theorem readU32_abs {tb : TpmBuffers B W} {abs : B → Buffers} {bytes : W → Bytes}
    (h : LawfulBuffers tb abs bytes) (c : Cursor B) :
    (c.abs abs).readBE 4 = ((c.readU32 tb).1, (c.readU32 tb).2.abs abs) := by
  unfold Server.Cursor.readBE Cursor.readU32
  simp only [h.u32, Cursor.abs]
  cases (abs c.buffers).requestRead c.requestOffset 4 <;> rfl

theorem write_abs {wb : WriteBuffer W} {bytes : W → Bytes} (h : LawfulWrite wb bytes) (w : W)
    (o : Nat) (data : Bytes) :
    (∃ w', wb.write w o data = (true, w') ∧ Server.write (bytes w) o data = some (bytes w')) ∨
    (∃ w', wb.write w o data = (false, w') ∧ Server.write (bytes w) o data = none ∧
      bytes w' = bytes w) := by
  unfold Server.write
  by_cases hl : o + data.length ≤ (bytes w).length
  · obtain ⟨h1, h2⟩ := h.write_in w o data hl
    refine .inl ⟨_, Prod.ext h1 rfl, ?_⟩
    rw [if_pos hl, h2]
  · obtain ⟨h1, h2⟩ := h.write_out w o data (by omega)
    exact .inr ⟨_, Prod.ext h1 rfl, if_neg hl, h2⟩

theorem finish_abs {wb : WriteBuffer W} {bytes : W → Bytes} (h : LawfulWrite wb bytes)
    (c : Server.Cursor) (w : W) (hw : bytes w = c.buffers.response) :
    Server.finish c =
      ((finish wb w c.responseOffset).1, bytes (finish wb w c.responseOffset).2) := by
  unfold Server.finish finish
  simp only [← hw]
  rcases write_abs h w 0 (toBE 2 0x8001) with ⟨w1, h1, g1⟩ | ⟨w1, h1, g1, e1⟩ <;> rw [h1, g1]
  · simp only
    rcases write_abs h w1 2 (toBE 4 c.responseOffset) with ⟨w2, h2, g2⟩ | ⟨w2, h2, g2, e2⟩ <;>
      rw [h2, g2]
    · simp only
      rcases write_abs h w2 6 (toBE 4 0) with ⟨w3, h3, g3⟩ | ⟨w3, h3, g3, e3⟩ <;> rw [h3, g3]
      simp only [e3]
    · simp only [e2]
  · simp only [e1]

theorem getRandom_abs {wb : WriteBuffer W} {tb : TpmBuffers B W} {abs : B → Buffers}
    {bytes : W → Bytes} (hw : LawfulWrite wb bytes) (h : LawfulBuffers tb abs bytes) (g : Drbg D)
    (es : Entropy E) (k : Crypto D E) (c : Cursor B) :
    let r := getRandom wb tb g es k c
    let r' := Server.getRandom g es k (c.abs abs)
    r'.1 = r.1 ∧ r'.2.2 = r.2.2 ∧ r'.2.1.buffers.response = bytes (tb.response r.2.1.buffers) ∧
      r'.2.1.responseOffset = r.2.1.responseOffset := by
  intro r r'
  simp only [r, r']
  unfold getRandom Server.getRandom
  rw [readU16_abs h]
  rcases c.readU16 tb with ⟨_ | n, c1⟩
  · exact ⟨rfl, rfl, (h.response _).symm, rfl⟩
  · simp only [Server.Cursor.writeCallback, Server.writeCallback, Cursor.abs, ← h.response]
    by_cases hl : c1.responseOffset + n ≤ (bytes (tb.response c1.buffers)).length
    · obtain ⟨after, ha, hb⟩ := hw.callback_in _ _ _ hl
      rw [if_pos hl, ha]
      simp only
      have hlen : (tryGetRandom g es k
          (((bytes (tb.response c1.buffers)).drop c1.responseOffset).take n)).2.1.length = n := by
        rw [tryGetRandom_length, List.length_take, List.length_drop]
        omega
      generalize tryGetRandom g es k
        (((bytes (tb.response c1.buffers)).drop c1.responseOffset).take n) = q at hlen ⊢
      obtain ⟨h1, h2⟩ := hb _ hlen
      have h3 : bytes (tb.response (tb.setResponse c1.buffers (after q.2.1).2)) =
          (bytes (tb.response c1.buffers)).take c1.responseOffset ++ q.2.1 ++
            (bytes (tb.response c1.buffers)).drop (c1.responseOffset + n) := by
        rw [h.response, h.setResponse, setResponse_response, h2]
      rcases hq : q.1 with _ | _
      · simp [h3, setResponse_response]
      · simp [h1, h3, setResponse_response]
    · obtain ⟨w', ha, hb⟩ := hw.callback_out _ _ _ (Nat.lt_of_not_le hl)
      rw [if_neg hl, ha]
      simp [h.response, h.setResponse, setResponse_response, hb]

theorem executeCommand_abs {wb : WriteBuffer W} {tb : TpmBuffers B W} {abs : B → Buffers}
    {bytes : W → Bytes} (hw : LawfulWrite wb bytes) (h : LawfulBuffers tb abs bytes) (g : Drbg D)
    (es : Entropy E) (k : Crypto D E) (b : B) :
    Server.executeCommand g es k (abs b) =
      ((executeCommand wb tb g es k b).1, bytes (executeCommand wb tb g es k b).2.1,
        (executeCommand wb tb g es k b).2.2) := by
  unfold Server.executeCommand executeCommand
  have e : (⟨abs b, 0, 10⟩ : Server.Cursor) = (⟨b, 0, 10⟩ : Cursor B).abs abs := rfl
  simp only [e, readU16_abs h, h.len]
  rcases (⟨b, 0, 10⟩ : Cursor B).readU16 tb with ⟨_ | s, c1⟩
  · simp only [Cursor.abs, h.response]
  · simp only [readU32_abs h]
    rcases c1.readU32 tb with ⟨_ | size, c2⟩
    · simp only [Cursor.abs, h.response]
    · simp only
      by_cases hs : size ≠ (abs b).requestLen
      · simp only [if_pos hs, Cursor.abs, h.response]
      · simp only [if_neg hs, readU32_abs h]
        rcases c2.readU32 tb with ⟨_ | code, c3⟩
        · simp only [Cursor.abs, h.response]
        · simp only
          by_cases hc : code = 0x17B
          · simp only [if_pos hc]
            obtain ⟨h1, h2, h3, h4⟩ := getRandom_abs hw h g es k c3
            generalize Server.getRandom g es k (c3.abs abs) = q at h1 h2 h3 h4 ⊢
            generalize getRandom wb tb g es k c3 = p at h1 h2 h3 h4 ⊢
            rcases p with ⟨_ | _ | _, c4, k4⟩
            · rcases q with ⟨q1, q2, q3⟩
              simp only at h1 h2 h3 h4
              subst h1 h2
              simp only
              rw [finish_abs hw q2 (tb.response c4.buffers) h3.symm, h4]
            · rcases q with ⟨q1, q2, q3⟩
              simp only at h1 h2 h3 h4
              subst h1 h2
              simp only [h3]
            · rcases q with ⟨q1, q2, q3⟩
              simp only at h1 h2 h3 h4
              subst h1 h2
              simp only [h3]
          · simp only [if_neg hc, Cursor.abs, h.response]

theorem complete_abs {wb : WriteBuffer W} {bytes : W → Bytes} (hw : LawfulWrite wb bytes)
    (r : Res TpmRcError Nat) (w : W) (k : Crypto D E) :
    Server.complete (r, bytes w, k) =
      ((complete wb (r, w, k)).1, bytes (complete wb (r, w, k)).2.1,
        (complete wb (r, w, k)).2.2) := by
  cases r with
  | ok n => rfl
  | err e =>
    simp only [Server.complete, complete, fillError]
    rcases write_abs hw w 6 (toBE 4 e.code) with ⟨w1, h1, g1⟩ | ⟨w1, h1, g1, e1⟩ <;> rw [h1, g1]
    simp only [e1]
  | panic => rfl

/-! ### C71 -/

/-- **C71**: with buffers that behave as documented, executing a command from
separate buffers has the outcome it has with byte slices: size, contents of the
response buffer, generator and entropy source afterwards. -/
theorem C71_separate (rb : ReadBuffer R) (wb : WriteBuffer W) (rbytes : R → Bytes)
    (bytes : W → Bytes) (hr : LawfulRead rb rbytes) (hw : LawfulWrite wb bytes) (g : Drbg D)
    (es : Entropy E) (k : Crypto D E) (request : R) (response : W) :
    let r := executeSeparate rb wb g es k request response
    (r.1, bytes r.2.1, r.2.2) = Server.executeSeparate g es k (rbytes request) (bytes response) := by
  intro r
  unfold Server.executeSeparate
  rw [executeCommand_abs hw (lawful_separate hr bytes) g es k (request, response)]
  rw [complete_abs hw]
  rfl

/-- **C71**: the same for executing a command in place. -/
theorem C71_in_place (wb : WriteBuffer W) (bytes : W → Bytes) (hw : LawfulWrite wb bytes)
    (g : Drbg D) (es : Entropy E) (k : Crypto D E) (buffer : W) (size : Nat) :
    let r := executeInPlace wb g es k buffer size
    (r.1, bytes r.2.1, r.2.2) = Server.executeInPlace g es k (bytes buffer) size := by
  intro r
  unfold Server.executeInPlace Buffers.newInOut
  have := executeCommand_abs hw (lawful_inOut hw) g es k (buffer, min size (wb.len buffer))
  simp only [hw.len] at this
  rw [this, complete_abs hw]
  simp only [r, executeInPlace, hw.len]

/-- **C71**: byte slices behave as documented. -/
theorem C71_slices : LawfulWrite slice id where
  len _ := rfl
  read _ _ _ := rfl
  readU16 r o := by
    simp only [slice, sliceRead, defaultU16, readInto, field, ← fromBE_eq_positional, id]
    split <;> rfl
  readU32 r o := by
    simp only [slice, sliceRead, defaultU32, readInto, field, ← fromBE_eq_positional, id]
    split <;> rfl
  write_in w o data h := by simp only [slice, Server.write, id] at *; simp [h]
  write_out w o data h := by
    simp only [slice, Server.write, id] at *
    simp [Nat.not_le.mpr h]
  callback_in w o n h := ⟨_, if_pos h, fun _ _ => ⟨rfl, rfl⟩⟩
  callback_out w o n h := ⟨w, if_neg (Nat.not_le.mpr h), rfl⟩

/-- The error of a failing generator is the only panic of `getRandom`. -/
theorem getRandom_no_panic (wb : WriteBuffer W) (tb : TpmBuffers B W) (g : Drbg D)
    (hg : Reliable g) (es : Entropy E) (k : Crypto D E) (c : Cursor B) :
    (getRandom wb tb g es k c).1 ≠ .panic := by
  unfold getRandom
  rcases c.readU16 tb with ⟨_ | n, c1⟩
  · simp
  · simp only
    cases wb.writeCallback (tb.response c1.buffers) c1.responseOffset n with
    | skip ok w => cases ok <;> simp
    | call sl after =>
      simp only [reliable_tryGetRandom hg, if_true]
      cases (after (tryGetRandom g es k sl).2.1).1 <;> simp

theorem complete_executeCommand_no_panic (wb : WriteBuffer W) (tb : TpmBuffers B W) (g : Drbg D)
    (hg : Reliable g) (es : Entropy E) (k : Crypto D E) (b : B) :
    (complete wb (executeCommand wb tb g es k b)).1 ≠ none := by
  have hc : ∀ r w (k : Crypto D E), r ≠ .panic → (complete wb (r, w, k)).1 ≠ none := by
    intro r w k hr
    cases r with
    | ok n => simp [complete]
    | err e =>
      simp only [complete]
      rcases wb.write w 6 (toBE 4 e.code) with ⟨_ | _, w1⟩ <;> simp
    | panic => exact absurd rfl hr
  suffices h : (executeCommand wb tb g es k b).1 ≠ .panic from hc _ _ _ h
  unfold executeCommand
  simp only
  rcases (⟨b, 0, 10⟩ : Cursor B).readU16 tb with ⟨_ | s, c1⟩
  · simp
  · simp only
    rcases c1.readU32 tb with ⟨_ | size, c2⟩
    · simp
    · simp only
      split
      · simp
      · rcases c2.readU32 tb with ⟨_ | code, c3⟩
        · simp
        · simp only
          split
          · have := getRandom_no_panic wb tb g hg es k c3
            generalize getRandom wb tb g es k c3 = q at this ⊢
            rcases q with ⟨_ | _ | _, c4, k4⟩
            · simp only [finish]
              rcases wb.write (tb.response c4.buffers) 0 (toBE 2 0x8001) with ⟨_ | _, w1⟩
              · simp
              · simp only
                rcases wb.write w1 2 (toBE 4 c4.responseOffset) with ⟨_ | _, w2⟩
                · simp
                · simp only
                  rcases wb.write w2 6 (toBE 4 0) with ⟨_ | _, w3⟩ <;> simp
            · simp
            · exact absurd rfl this
          · simp

/-- **C71**: whatever the buffers of the platform do, also against their
documentation, the server does not panic if the generator does not fail. -/
theorem C71_no_panic (rb : ReadBuffer R) (wb : WriteBuffer W) (g : Drbg D) (hg : Reliable g)
    (es : Entropy E) (k : Crypto D E) (request : R) (response : W) (size : Nat) :
    (executeSeparate rb wb g es k request response).1 ≠ none ∧
    (executeInPlace wb g es k response size).1 ≠ none :=
  ⟨complete_executeCommand_no_panic wb _ g hg es k _,
    complete_executeCommand_no_panic wb _ g hg es k _⟩

/-! ### Cases -/

/-- A buffer kept in reverse order, as a platform might. -/
def backward : WriteBuffer Bytes where
  len b := b.length
  readInto b o n := readInto b.reverse o n
  readInto_length := fun r o n b h => sliceRead.readInto_length r.reverse o n b h
  readU16 b := defaultU16 readInto b.reverse
  readU32 b := defaultU32 readInto b.reverse
  write b offset data :=
    match Server.write b.reverse offset data with
    | some b => (true, b.reverse)
    | none => (false, b)
  writeCallback b offset size :=
    if offset + size ≤ b.length then
      .call ((b.reverse.drop offset).take size)
        (fun new => (true, (b.reverse.take offset ++ new ++ b.reverse.drop (offset + size)).reverse))
    else .skip false b

theorem backward_lawful : LawfulWrite backward List.reverse where
  len _ := by simp [backward]
  read _ _ _ := rfl
  readU16 r o := by
    simp only [backward, defaultU16, readInto, field, ← fromBE_eq_positional]
    split <;> rfl
  readU32 r o := by
    simp only [backward, defaultU32, readInto, field, ← fromBE_eq_positional]
    split <;> rfl
  write_in w o data h := by simp only [backward, Server.write, h, if_pos]; simp
  write_out w o data h := by
    simp only [backward, Server.write, if_neg (Nat.not_le.mpr h), and_self]
  callback_in w o n h := ⟨_, if_pos (by simpa using h), fun _ _ => ⟨rfl, List.reverse_reverse _⟩⟩
  callback_out w o n h := ⟨w, if_neg (by simpa using h), rfl⟩

/-- The answer to a request for two bytes, in the reversed buffer. -/
example : (executeSeparate sliceRead backward fakeDrbg fakeEntropy (fakeState 0) exRequest
    (List.replicate 13 9)).2.1.reverse = responseOf 0 [1, 2] ++ [9] := by
  have h := C71_separate sliceRead backward id List.reverse
    (C71_slices.toLawfulRead) backward_lawful fakeDrbg fakeEntropy (fakeState 0) exRequest
    (List.replicate 13 9)
  have := congrArg (·.2.1) h
  exact this.trans (by decide)

end Verif.Server.Gen
