import Verif.Server.Spec
import Verif.Codec.IntLemmas

/-
Lemmas about the server: the result of any request in closed form.
-/

namespace Verif.Server
open Verif Verif.Errors

variable {D E : Type}

/-- The request part of the buffers. -/
def Buffers.request : Buffers → Bytes
  | .separate r _ => r
  | .inOut b len => b.take len

/-- The request lies in the buffer. -/
def Buffers.Valid : Buffers → Prop
  | .separate _ _ => True
  | .inOut b len => len ≤ b.length

theorem newInOut_valid (b : Bytes) (n : Nat) : (Buffers.newInOut b n).Valid := by
  simp only [Buffers.newInOut, Buffers.Valid]; omega

theorem newInOut_request (b : Bytes) (n : Nat) : (Buffers.newInOut b n).request = b.take n := by
  simp only [Buffers.newInOut, Buffers.request]
  rcases Nat.le_total n b.length with h | h
  · rw [Nat.min_eq_left h]
  · rw [Nat.min_eq_right h, List.take_length, List.take_of_length_le h]

theorem requestLen_eq (bs : Buffers) (h : bs.Valid) : bs.requestLen = bs.request.length := by
  cases bs with
  | separate r w => rfl
  | inOut b len =>
    have : len ≤ b.length := h
    simp only [Buffers.requestLen, Buffers.request, List.length_take]; omega

theorem requestRead_eq (bs : Buffers) (h : bs.Valid) (o n : Nat) :
    bs.requestRead o n = readInto bs.request o n := by
  cases bs with
  | separate r w => rfl
  | inOut b len =>
    have h : len ≤ b.length := h
    simp only [Buffers.requestRead, Buffers.request, readInto, List.length_take]
    by_cases hl : len < o + n
    · rw [if_pos hl, if_neg (by omega)]
    · rw [if_neg hl, if_pos (by omega), if_pos (by omega), List.drop_take, List.take_take]
      congr 2; omega

theorem readBE_eq (c : Cursor) (h : c.buffers.Valid) (n : Nat) :
    c.readBE n = if c.requestOffset + n ≤ c.buffers.request.length
      then (some (field c.buffers.request c.requestOffset n),
        { c with requestOffset := c.requestOffset + n })
      else (none, c) := by
  unfold Cursor.readBE
  rw [requestRead_eq _ h, readInto]
  by_cases hl : c.requestOffset + n ≤ c.buffers.request.length
  · rw [if_pos hl, if_pos hl]
    simp only [fromBE_eq_positional, field]
  · rw [if_neg hl, if_neg hl]

theorem setResponse_request_separate (r w b : Bytes) :
    ((Buffers.separate r w).setResponse b).response = b := rfl

theorem setResponse_response (bs : Buffers) (b : Bytes) : (bs.setResponse b).response = b := by
  cases bs <;> rfl

theorem write_of_le {b data : Bytes} {o : Nat} (h : o + data.length ≤ b.length) :
    write b o data = some (b.take o ++ data ++ b.drop (o + data.length)) := if_pos h

/-- `finish` after a handler that wrote `n` bytes. -/
theorem finish_eq (bs : Buffers) (o n : Nat) (body : Bytes)
    (hb : bs.response = body) (hl : 10 ≤ body.length) :
    finish ⟨bs, o, 10 + n⟩ =
      (.ok (10 + n), [0x80, 0x01] ++ digits256 4 (10 + n) ++ digits256 4 0 ++ body.drop 10) := by
  unfold finish
  simp only [hb]
  have e2 : toBE 2 0x8001 = [0x80, 0x01] := by decide
  have l4 : ∀ x, (toBE 4 x).length = 4 := by intro x; rw [toBE_eq_digits256]; simp
  rw [e2, write_of_le (by simp; omega)]
  simp only
  rw [write_of_le (by simp [l4]; omega)]
  simp only
  rw [write_of_le (by simp [l4]; omega)]
  simp only [Prod.mk.injEq, true_and, l4]
  rw [toBE_eq_digits256, toBE_eq_digits256]
  obtain ⟨x0, x1, x2, x3, x4, x5, x6, x7, x8, x9, rest, rfl⟩ :
      ∃ x0 x1 x2 x3 x4 x5 x6 x7 x8 x9 rest,
        body = x0 :: x1 :: x2 :: x3 :: x4 :: x5 :: x6 :: x7 :: x8 :: x9 :: rest := by
    match body, hl with
    | x0 :: x1 :: x2 :: x3 :: x4 :: x5 :: x6 :: x7 :: x8 :: x9 :: rest, _ =>
      exact ⟨_, _, _, _, _, _, _, _, _, _, _, rfl⟩
  obtain ⟨a0, a1, a2, a3, ha⟩ : ∃ a0 a1 a2 a3, digits256 4 (10 + n) = [a0, a1, a2, a3] :=
    ⟨_, _, _, _, rfl⟩
  rw [ha]
  obtain ⟨b0, b1, b2, b3, hb⟩ : ∃ b0 b1 b2 b3, digits256 4 0 = [b0, b1, b2, b3] :=
    ⟨_, _, _, _, rfl⟩
  rw [hb]
  rfl

/-- The answer to a request in closed form: an error code, or the number of
random bytes. -/
def judge (req : Bytes) : TpmRcError ⊕ Nat :=
  if ¬ WellSized req then .inl ⟨0x142⟩
  else if field req 6 4 ≠ 0x17B then .inl ⟨0x143⟩
  else if req.length < 12 then .inl ⟨0x142⟩
  else .inr (field req 10 2)

/-- `tryGetRandom` keeps the length of its buffer. -/
theorem tryGetRandom_length (g : Drbg D) (es : Entropy E) (k : Crypto D E) (b : Bytes) :
    (tryGetRandom g es k b).2.1.length = b.length := by
  unfold tryGetRandom draw
  simp only
  split
  · split
    · exact g.fillBytes_length _ _ _
    · rfl
  · exact g.fillBytes_length _ _ _

theorem executeCommand_eq (g : Drbg D) (es : Entropy E) (k : Crypto D E) (bs : Buffers)
    (hv : bs.Valid) :
    executeCommand g es k bs =
      match judge bs.request with
      | .inl e => (.err e, bs.response, k)
      | .inr n =>
        if 10 + n ≤ bs.response.length then
          let r := tryGetRandom g es k ((bs.response.drop 10).take n)
          if r.1 = true then
            (.ok (10 + n), [0x80, 0x01] ++ digits256 4 (10 + n) ++ digits256 4 0 ++ r.2.1 ++
              bs.response.drop (10 + n), r.2.2)
          else (.panic, bs.response.take 10 ++ r.2.1 ++ bs.response.drop (10 + n), r.2.2)
        else (.err ⟨0x904⟩, bs.response, k) := by
  unfold executeCommand
  simp only
  rw [readBE_eq _ hv]
  simp only [Nat.zero_add]
  by_cases h2 : 2 ≤ bs.request.length
  case neg =>
    rw [if_neg h2]
    have : judge bs.request = .inl ⟨0x142⟩ := by
      rw [judge, if_pos (by intro h; have := h.1; omega)]
    rw [this]
    rfl
  rw [if_pos h2]
  simp only
  rw [readBE_eq _ hv]
  simp only
  by_cases h6 : 6 ≤ bs.request.length
  case neg =>
    rw [if_neg h6]
    have : judge bs.request = .inl ⟨0x142⟩ := by
      rw [judge, if_pos (by intro h; have := h.1; omega)]
    rw [this]
    rfl
  rw [if_pos h6]
  simp only
  rw [requestLen_eq _ hv]
  by_cases hs : field bs.request 2 4 = bs.request.length
  case neg =>
    rw [if_pos hs]
    have : judge bs.request = .inl ⟨0x142⟩ := by
      rw [judge, if_pos (by intro h; exact hs h.2)]
    rw [this]
    rfl
  rw [if_neg (by simpa using hs), readBE_eq _ hv]
  simp only
  by_cases h10 : 10 ≤ bs.request.length
  case neg =>
    rw [if_neg h10]
    have : judge bs.request = .inl ⟨0x142⟩ := by
      rw [judge, if_pos (by intro h; have := h.1; omega)]
    rw [this]
    rfl
  rw [if_pos h10]
  simp only
  have hw : WellSized bs.request := ⟨h10, hs⟩
  by_cases hc : field bs.request 6 4 = 0x17B
  case neg =>
    rw [if_neg hc]
    have : judge bs.request = .inl ⟨0x143⟩ := by
      rw [judge, if_neg (by simpa using hw), if_pos hc]
    rw [this]
    rfl
  rw [if_pos hc]
  unfold getRandom
  rw [readBE_eq _ hv]
  simp only
  by_cases h12 : 12 ≤ bs.request.length
  case neg =>
    rw [if_neg h12]
    have : judge bs.request = .inl ⟨0x142⟩ := by
      rw [judge, if_neg (by simpa using hw), if_neg (by simpa using hc), if_pos (by omega)]
    rw [this]
    rfl
  rw [if_pos h12]
  have hj : judge bs.request = .inr (field bs.request 10 2) := by
    rw [judge, if_neg (by simpa using hw), if_neg (by simpa using hc), if_neg (by omega)]
  rw [hj]
  simp only
  generalize field bs.request 10 2 = n
  unfold Cursor.writeCallback writeCallback
  simp only
  by_cases hf : 10 + n ≤ bs.response.length
  case neg =>
    rw [if_neg hf, if_neg hf]
    rfl
  rw [if_pos hf, if_pos hf]
  simp only
  have hlen := tryGetRandom_length g es k ((bs.response.drop 10).take n)
  generalize tryGetRandom g es k ((bs.response.drop 10).take n) = r at hlen ⊢
  cases hr : r.1
  · simp only [Bool.false_eq_true, if_false]
    rw [setResponse_response]
  · simp only [if_true]
    rw [finish_eq _ _ _ _ (setResponse_response _ _)]
    · simp only [Prod.mk.injEq, true_and, and_true, List.append_assoc]
      congr 4
      rw [List.drop_left' (by rw [List.length_take]; omega)]
    · simp only [List.length_append, List.length_take]; omega

theorem fillError_eq (rsp : Bytes) (e : TpmRcError) :
    fillError rsp e = if 10 ≤ rsp.length
      then (10, rsp.take 6 ++ digits256 4 e.code ++ rsp.drop 10) else (0, rsp) := by
  unfold fillError write
  have l4 : (toBE 4 e.code).length = 4 := by rw [toBE_eq_digits256]; simp
  by_cases h : 10 ≤ rsp.length
  · rw [if_pos h, if_pos (by omega), l4, toBE_eq_digits256]
  · rw [if_neg h, if_neg (by omega)]

/-- The result of the public functions in closed form. -/
theorem complete_eq (g : Drbg D) (es : Entropy E) (k : Crypto D E) (bs : Buffers) (hv : bs.Valid) :
    complete (executeCommand g es k bs) =
      match judge bs.request with
      | .inl e => (some (fillError bs.response e).1, (fillError bs.response e).2, k)
      | .inr n =>
        if 10 + n ≤ bs.response.length then
          let r := tryGetRandom g es k ((bs.response.drop 10).take n)
          if r.1 = true then
            (some (10 + n), [0x80, 0x01] ++ digits256 4 (10 + n) ++ digits256 4 0 ++ r.2.1 ++
              bs.response.drop (10 + n), r.2.2)
          else (none, bs.response.take 10 ++ r.2.1 ++ bs.response.drop (10 + n), r.2.2)
        else (some (fillError bs.response ⟨0x904⟩).1, (fillError bs.response ⟨0x904⟩).2, k) := by
  rw [executeCommand_eq g es k bs hv]
  rcases judge bs.request with e | n
  · rfl
  · simp only
    by_cases hf : 10 + n ≤ bs.response.length
    · rw [if_pos hf, if_pos hf]
      generalize tryGetRandom g es k ((bs.response.drop 10).take n) = r
      cases hr : r.1
      · simp only [Bool.false_eq_true, if_false]; rfl
      · simp only [if_true]; rfl
    · rw [if_neg hf, if_neg hf]
      rfl

theorem tryGetRandom_produces (g : Drbg D) (es : Entropy E) (k : Crypto D E) (b : Bytes)
    (h : (tryGetRandom g es k b).1 = true) :
    Produces g es k b (tryGetRandom g es k b).2.1 (tryGetRandom g es k b).2.2 := by
  unfold tryGetRandom draw at h ⊢
  rcases h1 : g.requiresReseeding k.drbg with ⟨needed, d1⟩
  simp only [h1] at h ⊢
  cases needed
  · simp only [Bool.false_eq_true, if_false] at h ⊢
    rcases h2 : g.fillBytes d1 [] b with ⟨ok, out, d2⟩
    simp only [h2] at h ⊢
    subst h
    exact .direct d1 d2 out h1 h2
  · rcases h2 : es.fill k.entropy g.entropyDefault with ⟨seed, e⟩
    simp only [if_true, h2] at h ⊢
    rcases h3 : g.reseed d1 seed [] with ⟨ok, d2⟩
    simp only [h3] at h ⊢
    cases ok
    · simp at h
    · rcases h4 : g.fillBytes d2 [] b with ⟨ok, out, d3⟩
      simp only [if_true, h4] at h ⊢
      subst h
      exact .reseeded d1 d2 d3 e seed out h1 h2 h3 h4

theorem Produces.tryGetRandom_eq {g : Drbg D} {es : Entropy E} {k k' : Crypto D E} {b out : Bytes}
    (h : Produces g es k b out k') : tryGetRandom g es k b = (true, out, k') := by
  cases h with
  | direct d1 d2 _ h1 h2 =>
    simp only [tryGetRandom, draw, h1, h2, Bool.false_eq_true, if_false]
  | reseeded d1 d2 d3 e seed _ h1 h2 h3 h4 =>
    simp only [tryGetRandom, draw, h1, h2, h3, h4, if_true]

theorem reliable_tryGetRandom {g : Drbg D} (hg : Reliable g) (es : Entropy E) (k : Crypto D E)
    (b : Bytes) : (tryGetRandom g es k b).1 = true := by
  unfold tryGetRandom draw
  simp only
  split
  · split
    · exact hg.2 _ _ _
    · rename_i h; exact absurd (hg.1 _ _ _) h
  · exact hg.2 _ _ _

theorem inPlace_eq (g : Drbg D) (es : Entropy E) (k : Crypto D E) (b : Bytes) (size : Nat) :
    executeInPlace g es k b size = executeSeparate g es k (b.take size) b := by
  unfold executeInPlace executeSeparate
  rw [complete_eq g es k _ (newInOut_valid b size), complete_eq g es k (.separate (b.take size) b) trivial,
    newInOut_request]
  rfl

theorem served_eq {g : Drbg D} {es : Entropy E} {k : Crypto D E} {req rsp : Bytes}
    {r : Option Nat × Bytes × Crypto D E} (h : Served g es k req rsp r) :
    r = executeSeparate g es k req rsp := by
  rcases h with h | ⟨size, rfl, h⟩
  · exact h
  · rw [h, inPlace_eq]

theorem separate_eq (g : Drbg D) (es : Entropy E) (k : Crypto D E) (req rsp : Bytes) :
    executeSeparate g es k req rsp =
      match judge req with
      | .inl e => errorAnswer rsp e.code k
      | .inr n =>
        if 10 + n ≤ rsp.length then
          let r := tryGetRandom g es k ((rsp.drop 10).take n)
          if r.1 = true then
            (some (10 + n), responseOf 0 r.2.1 ++ rsp.drop (10 + n), r.2.2)
          else (none, rsp.take 10 ++ r.2.1 ++ rsp.drop (10 + n), r.2.2)
        else errorAnswer rsp 0x904 k := by
  have hE : ∀ e : TpmRcError, (some (fillError rsp e).1, (fillError rsp e).2, k) =
      errorAnswer rsp e.code k := by
    intro e
    rw [fillError_eq, errorAnswer]
    by_cases h : 10 ≤ rsp.length
    · rw [if_pos h, if_pos h]
    · rw [if_neg h, if_neg h]
  unfold executeSeparate
  rw [complete_eq g es k (.separate req rsp) trivial]
  rw [show (Buffers.separate req rsp).response = rsp from rfl,
    show (Buffers.separate req rsp).request = req from rfl]
  rcases judge req with e | n
  · exact hE e
  · simp only
    by_cases hf : 10 + n ≤ rsp.length
    · rw [if_pos hf, if_pos hf]
      have hlen := tryGetRandom_length g es k ((rsp.drop 10).take n)
      have : ((rsp.drop 10).take n).length = n := by
        rw [List.length_take, List.length_drop]; omega
      rw [this] at hlen
      rw [responseOf, hlen]
    · rw [if_neg hf, if_neg hf]
      exact hE ⟨0x904⟩

theorem errorAnswer_length (rsp : Bytes) (c : Nat) (k : Crypto D E) :
    (errorAnswer rsp c k).2.1.length = rsp.length := by
  unfold errorAnswer
  by_cases h : 10 ≤ rsp.length
  · rw [if_pos h]; simp; omega
  · rw [if_neg h]

theorem fills_tryGetRandom {g : Drbg D} (hg : Fills g) (es : Entropy E) (k : Crypto D E)
    (b b' : Bytes) (hl : b.length = b'.length) :
    (tryGetRandom g es k b).1 = (tryGetRandom g es k b').1 ∧
    (tryGetRandom g es k b).2.2 = (tryGetRandom g es k b').2.2 ∧
    ((tryGetRandom g es k b).1 = true → tryGetRandom g es k b = tryGetRandom g es k b') := by
  have hd : ∀ k : Crypto D E, draw g k b = draw g k b' := by
    intro k; unfold draw; rw [hg _ _ b b' hl]
  unfold tryGetRandom
  simp only
  split
  · split
    · rw [hd]; exact ⟨rfl, rfl, fun _ => rfl⟩
    · exact ⟨rfl, rfl, by simp⟩
  · rw [hd]; exact ⟨rfl, rfl, fun _ => rfl⟩

theorem judge_random {req : Bytes} (h : AsksRandom req) : judge req = .inr (field req 10 2) := by
  rw [judge, if_neg (by simpa using h.1), if_neg (by simpa using h.2.1),
    if_neg (by have := h.2.2; omega)]

theorem judge_size {req : Bytes} (h : ¬ WellSized req) : judge req = .inl ⟨0x142⟩ := if_pos h

theorem judge_code {req : Bytes} (h : WellSized req) (hc : field req 6 4 ≠ 0x17B) :
    judge req = .inl ⟨0x143⟩ := by
  rw [judge, if_neg (by simpa using h), if_pos hc]

theorem judge_short {req : Bytes} (h : WellSized req) (hc : field req 6 4 = 0x17B)
    (hl : req.length < 12) : judge req = .inl ⟨0x142⟩ := by
  rw [judge, if_neg (by simpa using h), if_neg (by simpa using hc), if_pos hl]

/-- A request that does not ask for random bytes is answered with an error. -/
theorem judge_error {req : Bytes} (h : ¬ AsksRandom req) :
    judge req = .inl ⟨0x142⟩ ∨ judge req = .inl ⟨0x143⟩ := by
  by_cases h1 : WellSized req
  · by_cases h2 : field req 6 4 = 0x17B
    · exact .inl (judge_short h1 h2 (by
        apply Classical.byContradiction
        intro h3
        exact h ⟨h1, h2, by omega⟩))
    · exact .inr (judge_code h1 h2)
  · exact .inl (judge_size h1)

end Verif.Server
