import Verif.Server.AnyBuffers
import Verif.Server.BufferProps
import Verif.Server.HandlerProps

/-
Property theorems C110: the server with any handlers and any buffers of the platform.
-/

namespace Verif.Server.Gen
open Verif Verif.Errors

variable {B W R K D E : Type}

/-! ### Proof -/

theorem setResponse_self (b : Buffers) : b.setResponse b.response = b := by cases b <;> rfl

theorem writing_abs {wb : WriteBuffer W} {tb : TpmBuffers B W} {abs : B → Buffers}
    {bytes : W → Bytes} (hw : LawfulWrite wb bytes) (h : LawfulBuffers tb abs bytes)
    (x : Writing K) : ∀ c : Cursor B,
    x.plain.run (c.abs abs) =
      ((x.run wb tb c).1, (x.run wb tb c).2.1.abs abs, (x.run wb tb c).2.2) := by
  have same : ∀ (b : B) w, bytes w = bytes (tb.response b) → abs (tb.setResponse b w) = abs b := by
    intro b w he
    rw [h.setResponse, he, h.response, setResponse_self]
  induction x with
  | done r k => intro c; rfl
  | write data next ih =>
    intro c
    simp only [Writing.plain, Server.Writing.run, Writing.run, Server.Cursor.write]
    rcases write_abs hw (tb.response c.buffers) c.responseOffset data with
      ⟨w1, h1, g1⟩ | ⟨w1, h1, g1, e1⟩
    · rw [h.response] at g1
      rw [h1]
      simp only [Cursor.abs, g1]
      rw [← h.setResponse]
      exact ih true ⟨tb.setResponse c.buffers w1, c.requestOffset, c.responseOffset + data.length⟩
    · rw [h.response] at g1
      rw [h1]
      simp only [Cursor.abs, g1]
      have := ih false { c with buffers := tb.setResponse c.buffers w1 }
      simp only [Cursor.abs, same _ _ e1] at this
      exact this
  | callback size fill keeps next ih =>
    intro c
    simp only [Writing.plain, Server.Writing.run, Writing.run, Server.Cursor.writeCallback,
      Server.writeCallback, Cursor.abs, ← h.response]
    by_cases hl : c.responseOffset + size ≤ (bytes (tb.response c.buffers)).length
    · obtain ⟨after, ha, hb⟩ := hw.callback_in _ _ _ hl
      rw [if_pos hl, ha]
      have hlen : (fill (((bytes (tb.response c.buffers)).drop c.responseOffset).take size)).length =
          size := by
        rw [keeps, List.length_take, List.length_drop]
        omega
      obtain ⟨h1, h2⟩ := hb _ hlen
      simp only
      generalize ho : ((bytes (tb.response c.buffers)).drop c.responseOffset).take size = old at h1 h2 ⊢
      rcases hx : after (fill old) with ⟨ok, w1⟩
      rw [hx] at h1 h2
      simp only at h1 h2
      subst h1
      simp only [← h2, ← h.setResponse]
      exact ih true (some old) ⟨tb.setResponse c.buffers w1, c.requestOffset, c.responseOffset + size⟩
    · obtain ⟨w', ha, hb⟩ := hw.callback_out _ _ _ (Nat.lt_of_not_le hl)
      rw [if_neg hl, ha]
      have := ih false none { c with buffers := tb.setResponse c.buffers w' }
      simp only [Cursor.abs, same _ _ hb] at this
      exact this

theorem reading_abs {wb : WriteBuffer W} {tb : TpmBuffers B W} {abs : B → Buffers}
    {bytes : W → Bytes} (hw : LawfulWrite wb bytes) (h : LawfulBuffers tb abs bytes)
    (x : Reading K) : ∀ c : Cursor B,
    x.plain.run (c.abs abs) =
      ((x.run wb tb c).1, (x.run wb tb c).2.1.abs abs, (x.run wb tb c).2.2) := by
  induction x with
  | respond w => exact writing_abs hw h w
  | u16 next ih =>
    intro c
    simp only [Reading.plain, Server.Reading.run, Reading.run, readU16_abs h]
    exact ih _ _
  | u32 next ih =>
    intro c
    simp only [Reading.plain, Server.Reading.run, Reading.run, readU32_abs h]
    exact ih _ _

theorem executeCommandWith_abs {wb : WriteBuffer W} {tb : TpmBuffers B W} {abs : B → Buffers}
    {bytes : W → Bytes} (hw : LawfulWrite wb bytes) (h : LawfulBuffers tb abs bytes)
    (hs : Handlers K) (k : K) (b : B) :
    Server.executeCommandWith hs.plain k (abs b) =
      ((executeCommandWith wb tb hs k b).1, bytes (executeCommandWith wb tb hs k b).2.1,
        (executeCommandWith wb tb hs k b).2.2) := by
  unfold Server.executeCommandWith executeCommandWith
  have e : (⟨abs b, 0, 10⟩ : Server.Cursor) = (⟨b, 0, 10⟩ : Cursor B).abs abs := rfl
  simp only [e, readU16_abs h, h.len]
  rcases (⟨b, 0, 10⟩ : Cursor B).readU16 tb with ⟨_ | s, c1⟩
  · simp only [Cursor.abs, h.response]
  simp only [readU32_abs h]
  rcases c1.readU32 tb with ⟨_ | size, c2⟩
  · simp only [Cursor.abs, h.response]
  simp only
  by_cases hs : size ≠ (abs b).requestLen
  · simp only [if_pos hs, Cursor.abs, h.response]
  simp only [if_neg hs, readU32_abs h]
  rcases c2.readU32 tb with ⟨_ | code, c3⟩
  · simp only [Cursor.abs, h.response]
  simp only [Handlers.plain]
  cases hc : ‹Handlers K› code with
  | none => simp only [Option.map_none, Cursor.abs, h.response]
  | some f =>
    simp only [Option.map_some, reading_abs hw h (f k) c3]
    rcases (f k).run wb tb c3 with ⟨_ | _ | _, c4, k4⟩
    · simp only
      rw [finish_abs hw (c4.abs abs) (tb.response c4.buffers) (h.response _)]
      rfl
    · simp only [Cursor.abs, h.response]
    · simp only [Cursor.abs, h.response]

theorem completeWith_abs {wb : WriteBuffer W} {bytes : W → Bytes} (hw : LawfulWrite wb bytes)
    (r : Res TpmRcError Nat) (w : W) (k : K) :
    Server.completeWith (r, bytes w, k) =
      ((completeWith wb (r, w, k)).1, bytes (completeWith wb (r, w, k)).2.1,
        (completeWith wb (r, w, k)).2.2) := by
  cases r with
  | ok n => rfl
  | err e =>
    simp only [Server.completeWith, completeWith, fillError]
    rcases write_abs hw w 6 (toBE 4 e.code) with ⟨w1, h1, g1⟩ | ⟨w1, h1, g1, e1⟩ <;> rw [h1, g1]
    simp only [e1]
  | panic => rfl

theorem separate_plain {rb : ReadBuffer R} {wb : WriteBuffer W} {rbytes : R → Bytes}
    {bytes : W → Bytes} (hr : LawfulRead rb rbytes) (hw : LawfulWrite wb bytes) (h : Handlers K)
    (k : K) (request : R) (response : W) :
    Server.executeSeparateWith h.plain k (rbytes request) (bytes response) =
      ((executeSeparateWith rb wb h k request response).1,
        bytes (executeSeparateWith rb wb h k request response).2.1,
        (executeSeparateWith rb wb h k request response).2.2) := by
  unfold Server.executeSeparateWith
  rw [executeCommandWith_abs hw (lawful_separate hr bytes) h k (request, response),
    completeWith_abs hw]
  rfl

theorem in_place_plain {wb : WriteBuffer W} {bytes : W → Bytes} (hw : LawfulWrite wb bytes)
    (h : Handlers K) (k : K) (buffer : W) (size : Nat) :
    Server.executeInPlaceWith h.plain k (bytes buffer) size =
      ((executeInPlaceWith wb h k buffer size).1,
        bytes (executeInPlaceWith wb h k buffer size).2.1,
        (executeInPlaceWith wb h k buffer size).2.2) := by
  unfold Server.executeInPlaceWith Buffers.newInOut
  have := executeCommandWith_abs hw (lawful_inOut hw) h k (buffer, min size (wb.len buffer))
  simp only [hw.len] at this
  rw [this, completeWith_abs hw]
  simp only [executeInPlaceWith, hw.len]

/-! ### C110 -/

/-- **C110**: with any handlers, and with buffers that behave as documented, the answer is the one
specified (C105) for the bytes in the buffers. -/
theorem C110_answered (rb : ReadBuffer R) (wb : WriteBuffer W) (rbytes : R → Bytes)
    (bytes : W → Bytes) (hr : LawfulRead rb rbytes) (hw : LawfulWrite wb bytes) (h : Handlers K)
    (k k' : K) (request : R) (response w : W) (n : Option Nat) (hdr space : Bytes)
    (hb : bytes response = hdr ++ space) (hl : hdr.length = 10)
    (he : executeSeparateWith rb wb h k request response = (n, w, k')) :
    Answered h.plain k (rbytes request) hdr space n (bytes w) k' := by
  rw [← C105_separate _ _ _ _ _ _ _ _ hl, ← hb, separate_plain hr hw, he]

/-- **C110**: with any handlers, two platforms whose buffers behave as documented and hold the same
bytes get the same size, the same bytes and the same state. -/
theorem C110_same {R' W' : Type} (rb : ReadBuffer R) (wb : WriteBuffer W) (rbytes : R → Bytes)
    (bytes : W → Bytes) (hr : LawfulRead rb rbytes) (hw : LawfulWrite wb bytes)
    (rb' : ReadBuffer R') (wb' : WriteBuffer W') (rbytes' : R' → Bytes) (bytes' : W' → Bytes)
    (hr' : LawfulRead rb' rbytes') (hw' : LawfulWrite wb' bytes') (h : Handlers K) (k : K)
    (request : R) (response : W) (request' : R') (response' : W')
    (e1 : rbytes request = rbytes' request') (e2 : bytes response = bytes' response') :
    let r := executeSeparateWith rb wb h k request response
    let r' := executeSeparateWith rb' wb' h k request' response'
    r.1 = r'.1 ∧ bytes r.2.1 = bytes' r'.2.1 ∧ r.2.2 = r'.2.2 := by
  intro r r'
  have h1 := separate_plain hr hw h k request response
  have h2 := separate_plain hr' hw' h k request' response'
  rw [e1, e2, h2] at h1
  simp only [Prod.mk.injEq] at h1
  exact ⟨h1.1.symm, h1.2.1.symm, h1.2.2.symm⟩

/-- **C110**: in place, the answer is the one to a copy of the request. -/
theorem C110_in_place (rb : ReadBuffer R) (wb : WriteBuffer W) (rbytes : R → Bytes)
    (bytes : W → Bytes) (hr : LawfulRead rb rbytes) (hw : LawfulWrite wb bytes) (h : Handlers K)
    (k : K) (buffer : W) (size : Nat) (request : R) (hq : rbytes request = (bytes buffer).take size) :
    let r := executeInPlaceWith wb h k buffer size
    let r' := executeSeparateWith rb wb h k request buffer
    r.1 = r'.1 ∧ bytes r.2.1 = bytes r'.2.1 ∧ r.2.2 = r'.2.2 := by
  intro r r'
  have h1 := in_place_plain hw h k buffer size
  have h2 := separate_plain hr hw h k request buffer
  rw [C105_in_place, ← hq, h2] at h1
  simp only [Prod.mk.injEq] at h1
  exact ⟨h1.1.symm, h1.2.1.symm, h1.2.2.symm⟩

theorem writing_calm {wb : WriteBuffer W} {tb : TpmBuffers B W} {x : Writing K} (hx : x.Calm) :
    ∀ c : Cursor B, (x.run wb tb c).1 ≠ .panic := by
  induction hx with
  | done h => exact fun _ => h
  | write _ ih =>
    intro c
    simp only [Writing.run]
    split <;> exact ih _ _
  | callback _ ih =>
    intro c
    simp only [Writing.run]
    split
    · exact ih _ _ _
    · exact ih _ _ _
    · split <;> exact ih _ _ _

theorem reading_calm {wb : WriteBuffer W} {tb : TpmBuffers B W} {x : Reading K} (hx : x.Calm) :
    ∀ c : Cursor B, (x.run wb tb c).1 ≠ .panic := by
  induction hx with
  | respond h => exact writing_calm h
  | u16 _ ih => exact fun c => ih _ _
  | u32 _ ih => exact fun c => ih _ _

theorem completeWith_calm (wb : WriteBuffer W) (r : Res TpmRcError Nat × W × K) (hr : r.1 ≠ .panic) :
    (completeWith wb r).1 ≠ none := by
  rcases r with ⟨n | e | _, w, k⟩
  · simp [completeWith]
  · simp only [completeWith]
    rcases wb.write w 6 (toBE 4 e.code) with ⟨_ | _, w1⟩ <;> simp
  · exact absurd rfl hr

theorem finish_calm (wb : WriteBuffer W) (w : W) (n : Nat) : (finish wb w n).1 ≠ .panic := by
  simp only [finish]
  rcases wb.write w 0 (toBE 2 0x8001) with ⟨_ | _, w1⟩
  · simp
  simp only
  rcases wb.write w1 2 (toBE 4 n) with ⟨_ | _, w2⟩
  · simp
  simp only
  rcases wb.write w2 6 (toBE 4 0) with ⟨_ | _, w3⟩ <;> simp

theorem executeCommandWith_calm (wb : WriteBuffer W) (tb : TpmBuffers B W) (h : Handlers K)
    (hh : ∀ code f k, h code = some f → (f k).Calm) (k : K) (b : B) :
    (executeCommandWith wb tb h k b).1 ≠ .panic := by
  unfold executeCommandWith
  simp only
  rcases (⟨b, 0, 10⟩ : Cursor B).readU16 tb with ⟨_ | s, c1⟩
  · simp
  simp only
  rcases c1.readU32 tb with ⟨_ | size, c2⟩
  · simp
  simp only
  split
  · simp
  rcases c2.readU32 tb with ⟨_ | code, c3⟩
  · simp
  simp only
  cases hc : h code with
  | none => simp
  | some f =>
    have := reading_calm (wb := wb) (tb := tb) (hh code f k hc) c3
    simp only
    generalize (f k).run wb tb c3 = q at this ⊢
    rcases q with ⟨_ | _ | _, c4, k4⟩
    · exact finish_calm wb _ _
    · simp
    · exact absurd rfl this

/-- **C110**: whatever the buffers of the platform do, also against their documentation, the server
does not panic if the handlers do not. -/
theorem C110_no_panic (rb : ReadBuffer R) (wb : WriteBuffer W) (h : Handlers K)
    (hh : ∀ code f k, h code = some f → (f k).Calm) (k : K) (request : R) (response : W) (size : Nat) :
    (executeSeparateWith rb wb h k request response).1 ≠ none ∧
    (executeInPlaceWith wb h k response size).1 ≠ none :=
  ⟨completeWith_calm wb _ (executeCommandWith_calm wb _ h hh k _),
    completeWith_calm wb _ (executeCommandWith_calm wb _ h hh k _)⟩

/-- **C110**: calls one after the other, with any handlers and buffers that behave as documented,
separate or common, are answered as C105 says, each in the state the one before has left. -/
theorem C110_history (rb : ReadBuffer R) (wb : WriteBuffer W) (rbytes : R → Bytes)
    (bytes : W → Bytes) (hr : LawfulRead rb rbytes) (hw : LawfulWrite wb bytes) (h : Handlers K)
    (k : K) (calls : List (Call R W)) :
    Conversation h.plain k (calls.map (Call.plain rbytes bytes))
      ((runCalls rb wb h k calls).map (fun r => (r.1, bytes r.2))) := by
  induction calls generalizing k with
  | nil => exact .nil
  | cons x xs ih =>
    have hx : Server.executeSeparateWith h.plain k (x.plain rbytes bytes).1
        (x.plain rbytes bytes).2 =
        ((x.run rb wb h k).1, bytes (x.run rb wb h k).2.1, (x.run rb wb h k).2.2) := by
      cases x with
      | separate request response => exact separate_plain hr hw h k request response
      | inPlace buffer size =>
        exact (C105_in_place _ _ _ _).symm.trans (in_place_plain hw h k buffer size)
    simp only [runCalls, List.map_cons]
    generalize x.run rb wb h k = r at hx ⊢
    rcases r with ⟨_ | n, w, k'⟩
    · exact .panic hx
    · exact .answer hx (ih k')

theorem getRandom_handler (wb : WriteBuffer W) (tb : TpmBuffers B W) (g : Drbg D) (es : Entropy E)
    (k : Crypto D E) (c : Cursor B) :
    let r := getRandom wb tb g es k c
    let r' := (getRandomHandler g es k).run wb tb c
    r.1 = r'.1 ∧ r.2.1.buffers = r'.2.1.buffers ∧ r.2.2 = r'.2.2 ∧
      (r.1 = .ok () → r.2.1.responseOffset = r'.2.1.responseOffset) := by
  simp only [getRandom, getRandomHandler, Reading.run]
  rcases c.readU16 tb with ⟨_ | n, c1⟩
  · simp [Reading.run, Writing.run]
  simp only [Reading.run, Writing.run]
  rcases wb.writeCallback (tb.response c1.buffers) c1.responseOffset n with ⟨_ | _, w⟩ | ⟨sl, after⟩
  · simp
  · simp
  · simp only
    rcases after (tryGetRandom g es k sl).2.1 with ⟨_ | _, w⟩ <;>
      cases (tryGetRandom g es k sl).1 <;> simp

theorem executeCommand_handlers (wb : WriteBuffer W) (tb : TpmBuffers B W) (g : Drbg D)
    (es : Entropy E) (k : Crypto D E) (b : B) :
    complete wb (executeCommand wb tb g es k b) =
      completeWith wb (executeCommandWith wb tb (crateHandlers g es) k b) := by
  have : executeCommand wb tb g es k b = executeCommandWith wb tb (crateHandlers g es) k b := by
    unfold executeCommand executeCommandWith
    simp only
    rcases (⟨b, 0, 10⟩ : Cursor B).readU16 tb with ⟨_ | s, c1⟩
    · rfl
    simp only
    rcases c1.readU32 tb with ⟨_ | size, c2⟩
    · rfl
    simp only
    by_cases hs : size = tb.requestLen b
    case neg => rw [if_pos hs, if_pos hs]
    rw [if_neg (fun hn => hn hs), if_neg (fun hn => hn hs)]
    rcases c2.readU32 tb with ⟨_ | code, c3⟩
    · rfl
    simp only
    by_cases hc : code = 0x17B
    · have hg := getRandom_handler wb tb g es k c3
      simp only [if_pos hc, crateHandlers]
      generalize getRandom wb tb g es k c3 = q at hg ⊢
      generalize (getRandomHandler g es k).run wb tb c3 = q' at hg ⊢
      rcases q with ⟨r, c, k1⟩
      rcases q' with ⟨r', c', k1'⟩
      simp only at hg
      obtain ⟨e1, e2, e3, e4⟩ := hg
      subst e1
      subst e3
      rcases r with _ | _ | _
      · simp only [e2, e4]
      · simp only [e2]
      · simp only [e2]
    · simp only [if_neg hc, crateHandlers]
  rw [this]
  rcases executeCommandWith wb tb (crateHandlers g es) k b with ⟨_ | _ | _, w, k'⟩ <;> rfl

/-- **C110**: the server of the crate is the one with the handler of GetRandom alone, whatever the
buffers do. -/
theorem C110_crate (rb : ReadBuffer R) (wb : WriteBuffer W) (g : Drbg D) (es : Entropy E)
    (k : Crypto D E) :
    (∀ request response, executeSeparate rb wb g es k request response =
      executeSeparateWith rb wb (crateHandlers g es) k request response) ∧
    (∀ buffer size, executeInPlace wb g es k buffer size =
      executeInPlaceWith wb (crateHandlers g es) k buffer size) :=
  ⟨fun _ _ => executeCommand_handlers wb _ g es k _, fun _ _ => executeCommand_handlers wb _ g es k _⟩

/-! ### Cases -/

/-- A command that reads two numbers, writes the second and then fills as many bytes as the first
says with what is there plus one, on a platform that may also forget to call callbacks. -/
def exHandler (k : Nat) : Reading Nat :=
  .u16 fun
    | none => .respond (.done (.err .CommandSize) k)
    | some n => .u32 fun
      | none => .respond (.done (.err .CommandSize) k)
      | some x => .respond (.write (digits256 4 x) fun
        | false => .done (.err .Memory) k
        | true => .callback n (fun b => b.map (· + 1)) (by simp) fun ok _ =>
            .done (if ok then .ok () else .err .Memory) (k + 1))

/-- Handlers with this command. -/
def exHandlers : Handlers Nat := fun code => if code = 0x144 then some exHandler else none

theorem exHandler_plain : exHandlers.plain = Server.exHandlers := by
  funext code
  simp only [Handlers.plain, exHandlers, Server.exHandlers]
  split
  · simp only [Option.map_some, Option.some.injEq]
    funext k
    simp only [exHandler, Server.exHandler, Reading.plain, Server.Reading.u16.injEq]
    funext x
    cases x with
    | none => rfl
    | some n =>
      simp only [Reading.plain, Server.Reading.u32.injEq]
      funext y
      cases y with
      | none => rfl
      | some y =>
        simp only [Reading.plain, Writing.plain, Server.Reading.respond.injEq,
          Server.Writing.write.injEq, true_and]
        funext b
        cases b <;> rfl
  · rfl

theorem exHandler_calm (code : Nat) (f : Nat → Reading Nat) (k : Nat) (h : exHandlers code = some f) :
    (f k).Calm := by
  simp only [exHandlers] at h
  split at h
  · simp only [Option.some.injEq] at h
    subst h
    refine .u16 fun x => ?_
    cases x with
    | none => exact .respond (.done (by simp))
    | some n =>
      refine .u32 fun y => ?_
      cases y with
      | none => exact .respond (.done (by simp))
      | some y =>
        refine .respond (.write fun ok => ?_)
        cases ok with
        | false => exact .done (by simp)
        | true => exact .callback fun ok _ => .done (by cases ok <;> simp)
  · simp at h

/-- The answer in a buffer kept in reverse order. -/
example : (executeSeparateWith sliceRead backward exHandlers 7 exFill (List.replicate 18 9)).2.1 =
    [9, 9, 10, 10, 0xD, 0xC, 0xB, 0xA, 0, 0, 0, 0, 16, 0, 0, 0, 1, 0x80] := by
  rcases he : executeSeparateWith sliceRead backward exHandlers 7 exFill (List.replicate 18 9) with
    ⟨n, w, k'⟩
  have h := C110_answered sliceRead backward id List.reverse C71_slices.toLawfulRead backward_lawful
    exHandlers 7 _ exFill (List.replicate 18 9) _ _ (List.replicate 10 9) (List.replicate 8 9)
    (by decide) rfl he
  rw [← C105_separate _ _ _ _ _ _ _ _ rfl, exHandler_plain] at h
  have h2 := congrArg (·.2.1.reverse) h
  simp only [List.reverse_reverse] at h2
  exact h2.symm.trans (by decide)

/-- A buffer that says it has written, whatever it is asked, and calls no callback. -/
def liar : WriteBuffer Bytes :=
  { backward with
    write := fun b _ _ => (true, b)
    writeCallback := fun b _ _ => .skip true b }

/-- With it the server claims a response it has not written, and does not panic. -/
example : (executeSeparateWith sliceRead liar exHandlers 7 exFill [1, 2]).1 = some 16 ∧
    (executeSeparateWith sliceRead liar exHandlers 7 exFill [1, 2]).1 ≠ none :=
  ⟨by decide, (C110_no_panic sliceRead liar exHandlers exHandler_calm 7 exFill [1, 2] 0).1⟩

/-- Two calls, one in place; the buffer of the second one is too short for its result. -/
example : ∃ r, (runCalls sliceRead backward exHandlers 7
      [.inPlace exFill.reverse 16, .separate exFill (List.replicate 15 9)]).map
        (fun r => (r.1, r.2.reverse)) = r ∧
    Conversation Server.exHandlers 7
      [(exFill, exFill), (exFill, List.replicate 15 9)] r ∧
    r = [(some 16, [0x80, 1, 0, 0, 0, 16, 0, 0, 0, 0, 0xA, 0xB, 0xC, 0xD, 0xD, 0xE]),
     (some 10, [9, 9, 9, 9, 9, 9, 0, 0, 9, 4, 0xA, 0xB, 0xC, 0xD, 9])] := by
  refine ⟨_, rfl, ?_, by decide⟩
  rw [← exHandler_plain]
  exact C110_history sliceRead backward id List.reverse C71_slices.toLawfulRead backward_lawful
    exHandlers 7 [.inPlace exFill.reverse 16, .separate exFill (List.replicate 15 9)]

end Verif.Server.Gen
