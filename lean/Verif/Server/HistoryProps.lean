import Verif.Server.History

/-
Property theorems C89: histories of the server; and C51, exactly.
-/

namespace Verif.Server
open Verif Verif.Errors

variable {D E : Type}

/-! ### Lemmas -/

theorem call_eq_separate (g : Drbg D) (es : Entropy E) (k : Crypto D E) (c : Call) :
    c.run g es k = executeSeparate g es k c.request c.buffer := by
  cases c with
  | separate request response => rfl
  | inPlace buffer size => exact inPlace_eq g es k buffer size

theorem errorAnswer_refusal (c : Call) (code : Nat) (k : Crypto D E)
    (h : refusalCode c.request = code) :
    errorAnswer c.buffer code k = (c.refusal.1, c.refusal.2, k) := by
  unfold errorAnswer Call.refusal
  rw [h]
  by_cases h10 : 10 ≤ c.buffer.length
  · rw [if_pos h10, if_pos h10]
  · rw [if_neg h10, if_neg h10]

/-- A call that is refused. -/
theorem call_refused (g : Drbg D) (es : Entropy E) (k : Crypto D E) (c : Call)
    (h : c.wants = none) : c.run g es k = (c.refusal.1, c.refusal.2, k) := by
  rw [call_eq_separate, separate_eq]
  unfold Call.wants at h
  by_cases ha : AsksRandom c.request
  · rw [judge_random ha]
    dsimp only
    have hf : ¬ 10 + field c.request 10 2 ≤ c.buffer.length := by
      intro hf
      rw [if_pos ⟨ha, hf⟩] at h
      cases h
    rw [if_neg hf]
    exact errorAnswer_refusal c _ k (by unfold refusalCode; rw [if_pos ha])
  · by_cases hw : WellSized c.request
    · by_cases hc : field c.request 6 4 = 0x17B
      · rw [judge_short hw hc (by
          apply Classical.byContradiction
          intro h3
          exact ha ⟨hw, hc, by omega⟩)]
        refine errorAnswer_refusal c _ k ?_
        unfold refusalCode
        rw [if_neg ha, if_neg (fun x => x.2 hc)]
      · rw [judge_code hw hc]
        refine errorAnswer_refusal c _ k ?_
        unfold refusalCode
        rw [if_neg ha, if_pos ⟨hw, hc⟩]
    · rw [judge_size hw]
      refine errorAnswer_refusal c _ k ?_
      unfold refusalCode
      rw [if_neg ha, if_neg (fun x => hw x.1)]

theorem wants_some {c : Call} {n : Nat} (h : c.wants = some n) :
    AsksRandom c.request ∧ field c.request 10 2 = n ∧ 10 + n ≤ c.buffer.length := by
  unfold Call.wants at h
  by_cases hc : AsksRandom c.request ∧ 10 + field c.request 10 2 ≤ c.buffer.length
  · rw [if_pos hc] at h
    injection h with h
    exact ⟨hc.1, h, by omega⟩
  · rw [if_neg hc] at h
    cases h

/-- A call that is to get random bytes. -/
theorem call_served (g : Drbg D) (es : Entropy E) (k : Crypto D E) (c : Call) (n : Nat)
    (h : c.wants = some n) :
    c.run g es k =
      (let r := tryGetRandom g es k ((c.buffer.drop 10).take n)
       if r.1 = true then (some (10 + n), responseOf 0 r.2.1 ++ c.buffer.drop (10 + n), r.2.2)
       else (none, c.buffer.take 10 ++ r.2.1 ++ c.buffer.drop (10 + n), r.2.2)) := by
  obtain ⟨ha, rfl, hf⟩ := wants_some h
  rw [call_eq_separate, separate_eq, judge_random ha]
  dsimp only
  rw [if_pos hf]

theorem field_code (code : Nat) (hc : code < 2 ^ 32) (a b : Bytes) (h : a.length = 6) :
    field (a ++ digits256 4 code ++ b) 6 4 = code := by
  unfold field
  rw [List.append_assoc, List.drop_left' h, List.take_left' (by simp)]
  exact positional_digits256_of_lt (by simpa using hc)

theorem refusalCode_pos (request : Bytes) : refusalCode request ≠ 0 ∧ refusalCode request < 2 ^ 32 := by
  unfold refusalCode
  split
  · decide
  · split <;> decide

/-! ### Property theorems -/

/-- **C89.** If the generator yields `outs` when it is asked for what the calls are to
get, in order, then these calls get `outs`, in order, each once, and all others get
their error; the generator is then where it would be without any server.  (`Fills`: its
output does not depend on what is in the destination.) -/
theorem C89_stream (g : Drbg D) (hg : Fills g) (es : Entropy E) (k k' : Crypto D E)
    (calls : List Call) (outs : List Bytes)
    (h : Yields g es k (calls.filterMap Call.wants) outs k') :
    runCalls g es k calls = (handOut calls outs, k') := by
  induction calls generalizing k outs with
  | nil =>
    cases h
    rfl
  | cons c cs ih =>
    rw [runCalls, handOut]
    cases hw : c.wants with
    | none =>
      rw [List.filterMap_cons_none hw] at h
      rw [call_refused g es k c hw, ih _ _ h]
    | some n =>
      rw [List.filterMap_cons_some hw] at h
      cases h with
      | more hp rest =>
        have hl : ((c.buffer.drop 10).take n).length = (List.replicate n (0 : UInt8)).length := by
          obtain ⟨-, -, hf⟩ := wants_some hw
          rw [List.length_take, List.length_drop, List.length_replicate]
          omega
        have e := (fills_tryGetRandom hg es k _ _ hl.symm).2.2 (by rw [hp.tryGetRandom_eq])
        rw [hp.tryGetRandom_eq] at e
        rw [call_served g es k c n hw, ← e]
        dsimp only
        rw [if_pos rfl, ih _ _ rest]

/-- **C89.** A generator that does not fail yields something for every history, of the
lengths asked for. -/
theorem C89_yields (g : Drbg D) (hg : Reliable g) (es : Entropy E) (k : Crypto D E)
    (ns : List Nat) :
    ∃ outs k', Yields g es k ns outs k' ∧ outs.map List.length = ns := by
  induction ns generalizing k with
  | nil => exact ⟨[], k, .done k, rfl⟩
  | cons n ns ih =>
    have hp := tryGetRandom_produces g es k (List.replicate n 0) (reliable_tryGetRandom hg es k _)
    have hl := tryGetRandom_length g es k (List.replicate n 0)
    obtain ⟨outs, k', h1, h2⟩ := ih (tryGetRandom g es k (List.replicate n 0)).2.2
    exact ⟨_, _, .more hp h1, by rw [List.map_cons, hl, List.length_replicate, h2]⟩

theorem tryGetRandom_uses (g : Drbg D) (es : Entropy E)
    (k : Crypto (D × List Ev) (E × List Bytes)) (b : Bytes) :
    ∃ l, Uses b.length l ∧
      (tryGetRandom (watched g) (watchedEntropy es) k b).2.2.drbg.2 = k.drbg.2 ++ l := by
  unfold tryGetRandom draw
  simp only [watched, watchedEntropy]
  by_cases h1 : (g.requiresReseeding k.drbg.1).1 = true
  · by_cases h2 : (g.reseed (g.requiresReseeding k.drbg.1).2
        (es.fill k.entropy.1 g.entropyDefault).1 []).1 = true
    · exact ⟨_, .reseeded (es.fill k.entropy.1 g.entropyDefault).1, by simp [h1, h2]⟩
    · exact ⟨_, .failed (es.fill k.entropy.1 g.entropyDefault).1, by simp [h1, h2]⟩
  · exact ⟨_, .direct, by simp [h1]⟩

/-- **C50.** The generator is used for nothing else: over any calls, also ones that panic,
the record of its uses is one question, at most one reseed and at most one draw for each
request that is to get random bytes, in order, of the requested length, and nothing for
all other requests. -/
theorem C50_record (g : Drbg D) (es : Entropy E) (k : Crypto (D × List Ev) (E × List Bytes))
    (calls : List Call) :
    ∃ l, AllUses (calls.filterMap Call.wants) l ∧
      (runCalls (watched g) (watchedEntropy es) k calls).2.drbg.2 = k.drbg.2 ++ l := by
  induction calls generalizing k with
  | nil => exact ⟨[], .done, by simp [runCalls]⟩
  | cons c cs ih =>
    rw [runCalls]
    dsimp only
    cases hw : c.wants with
    | none =>
      rw [List.filterMap_cons_none hw, call_refused _ _ k c hw]
      exact ih k
    | some n =>
      rw [List.filterMap_cons_some hw, call_served _ _ k c n hw]
      have hn := (wants_some hw).2.2
      obtain ⟨l, h1, h2⟩ := tryGetRandom_uses g es k ((c.buffer.drop 10).take n)
      rw [show ((c.buffer.drop 10).take n).length = n by
        rw [List.length_take, List.length_drop]; omega] at h1
      obtain ⟨l', h3, h4⟩ := ih
        (tryGetRandom (watched g) (watchedEntropy es) k ((c.buffer.drop 10).take n)).2.2
      refine ⟨l ++ l', .more h1 h3, ?_⟩
      rw [← List.append_assoc, ← h2, ← h4]
      dsimp only
      split <;> rfl

/-- **C89.** Calls that are refused leave no trace: without them, all others have the
same outcomes and the server the same state afterwards, whatever the generator does. -/
theorem C89_no_trace (g : Drbg D) (es : Entropy E) (k : Crypto D E) (calls : List Call) :
    (runCalls g es k (calls.filter (·.wants.isSome))).1 =
      ((calls.zip (runCalls g es k calls).1).filter (·.1.wants.isSome)).map (·.2) ∧
    (runCalls g es k (calls.filter (·.wants.isSome))).2 = (runCalls g es k calls).2 := by
  induction calls generalizing k with
  | nil => exact ⟨rfl, rfl⟩
  | cons c cs ih =>
    rw [runCalls]
    dsimp only
    cases hw : c.wants with
    | none =>
      have hs : ¬ c.wants.isSome = true := by rw [hw]; exact Bool.noConfusion
      rw [List.filter_cons, if_neg hs, List.zip_cons_cons, List.filter_cons, if_neg hs,
        call_refused g es k c hw]
      exact ih k
    | some n =>
      have hs : c.wants.isSome = true := by rw [hw]; rfl
      rw [List.filter_cons, if_pos hs, List.zip_cons_cons, List.filter_cons, if_pos hs, runCalls]
      dsimp only
      obtain ⟨h1, h2⟩ := ih (c.run g es k).2.2
      exact ⟨by rw [h1, List.map_cons], h2⟩

/-- **C89.** What was in the buffers has no influence: if the calls of two histories have
the same requests and as much space, each caller sees the same in both, and the server is
in the same state. -/
theorem C89_contents (g : Drbg D) (hg : Fills g) (es : Entropy E) (k : Crypto D E)
    (calls calls' : List Call) (h : AllAlike calls calls') :
    (runCalls g es k calls).1.map visible = (runCalls g es k calls').1.map visible ∧
    (runCalls g es k calls).2 = (runCalls g es k calls').2 := by
  induction h generalizing k with
  | nil => exact ⟨rfl, rfl⟩
  | @cons c c' cs cs' hc _ ih =>
    have hww : c.wants = c'.wants := by
      unfold Call.wants
      rw [hc.1, hc.2]
    rw [runCalls, runCalls]
    dsimp only
    have key : visible ((c.run g es k).1, (c.run g es k).2.1) =
        visible ((c'.run g es k).1, (c'.run g es k).2.1) ∧
        (c.run g es k).2.2 = (c'.run g es k).2.2 := by
      cases hw : c.wants with
      | none =>
        rw [call_refused g es k c hw, call_refused g es k c' (hww ▸ hw)]
        refine ⟨?_, rfl⟩
        dsimp only
        unfold Call.refusal visible
        rw [← hc.1]
        obtain ⟨hne, hlt⟩ := refusalCode_pos c.request
        by_cases h10 : 10 ≤ c.buffer.length
        · have h10' : 10 ≤ c'.buffer.length := by rw [← hc.2]; exact h10
          rw [if_pos h10, if_pos h10']
          dsimp only
          have hl : (c.buffer.take 6).length = 6 := by rw [List.length_take]; omega
          have hl' : (c'.buffer.take 6).length = 6 := by rw [List.length_take]; omega
          rw [field_code _ hlt _ _ hl, field_code _ hlt _ _ hl', if_neg hne, if_neg hne,
            List.take_left' (by simp; omega), List.take_left' (by simp; omega),
            List.drop_left' hl, List.drop_left' hl']
        · have h10' : ¬ 10 ≤ c'.buffer.length := by rw [← hc.2]; exact h10
          rw [if_neg h10, if_neg h10']
          dsimp only
          split <;> split <;> rfl
      | some n =>
        rw [call_served g es k c n hw, call_served g es k c' n (hww ▸ hw)]
        obtain ⟨-, -, hf⟩ := wants_some hw
        have hl : ((c.buffer.drop 10).take n).length = ((c'.buffer.drop 10).take n).length := by
          rw [List.length_take, List.length_drop, List.length_take, List.length_drop, hc.2]
        obtain ⟨e1, e2, e3⟩ := fills_tryGetRandom hg es k _ _ hl
        dsimp only
        rw [← e1]
        by_cases hok : (tryGetRandom g es k ((c.buffer.drop 10).take n)).1 = true
        · rw [if_pos hok, if_pos hok, ← e3 hok]
          refine ⟨?_, rfl⟩
          have hlen : (responseOf 0
              (tryGetRandom g es k ((c.buffer.drop 10).take n)).2.1).length = 10 + n := by
            rw [responseOf]
            simp only [List.length_append, digits256_length, List.length_cons, List.length_nil,
              tryGetRandom_length, List.length_take, List.length_drop]
            omega
          generalize hR : responseOf 0 (tryGetRandom g es k ((c.buffer.drop 10).take n)).2.1 = R at hlen
          have hz : ∀ x, field (R ++ x) 6 4 = 0 := by
            intro x
            rw [← hR, responseOf, List.append_assoc]
            exact field_code 0 (by decide) _ _ (by simp)
          unfold visible
          dsimp only
          rw [hz, hz, if_pos rfl, if_pos rfl, List.take_left' hlen, List.take_left' hlen]
        · rw [if_neg hok, if_neg hok]
          exact ⟨rfl, e2⟩
    obtain ⟨h1, h2⟩ := key
    rw [h2]
    obtain ⟨h3, h4⟩ := ih (c'.run g es k).2.2
    exact ⟨by rw [List.map_cons, List.map_cons, h1, h3], h4⟩

instance (c c' : Call) : Decidable (Alike c c') := by unfold Alike; infer_instance

theorem fakeDrbg_fills : Fills fakeDrbg := by
  intro d a b b' h
  simp only [fakeDrbg, h]

/-- Four calls: two bytes, a request cut off, two bytes without room for them, two bytes
in place.  The generator is asked to yield two and two bytes; it demands reseeding in
between. -/
def exHistory : List Call :=
  [.separate exRequest (List.replicate 13 0xEE), .separate [0x80, 1] (List.replicate 10 0),
    .separate exRequest (List.replicate 11 0), .inPlace exRequest 12]

/-- Two of the four get random bytes. -/
theorem exHistory_wants : exHistory.map Call.wants = [some 2, none, none, some 2] := by decide

example : runCalls fakeDrbg fakeEntropy (fakeState 5) exHistory =
    ([(some 12, [0x80, 1, 0, 0, 0, 12, 0, 0, 0, 0, 6, 7, 0xEE]),
      (some 10, [0, 0, 0, 0, 0, 0, 0, 0, 1, 0x42]),
      (some 10, [0, 0, 0, 0, 0, 0, 0, 0, 9, 4, 0]),
      (some 12, [0x80, 1, 0, 0, 0, 12, 0, 0, 0, 0, 11, 12])], fakeState 12) := by
  rw [C89_stream fakeDrbg fakeDrbg_fills fakeEntropy (fakeState 5) (fakeState 12) exHistory
    [[6, 7], [11, 12]] (by
      rw [show exHistory.filterMap Call.wants = [2, 2] by decide]
      exact .more (.direct 5 7 [6, 7] rfl rfl)
        (.more (.reseeded 7 10 12 () [3] [11, 12] rfl rfl rfl rfl) (.done _)))]
  refine Prod.ext ?_ rfl
  decide

/-- Two of the four requests are to get random bytes. -/
example : ∃ l, AllUses [2, 2] l ∧ (runCalls (watched fakeDrbg) (watchedEntropy fakeEntropy)
    ⟨(5, []), ((), [])⟩ exHistory).2.drbg.2 = l ∧
    l = [.asked false, .drawn 2 [], .asked true, .reseeded [3] [] true, .drawn 2 []] := by
  obtain ⟨l, h1, h2⟩ := C50_record fakeDrbg fakeEntropy ⟨(5, []), ((), [])⟩ exHistory
  rw [show exHistory.filterMap Call.wants = [2, 2] by decide] at h1
  rw [List.nil_append] at h2
  refine ⟨l, h1, h2, ?_⟩
  rw [← h2]
  decide

/-- Other contents of the buffers, and another way to call. -/
example : AllAlike exHistory
    [.separate exRequest (List.replicate 13 0), .separate [0x80, 1] (List.replicate 10 7),
      .separate exRequest (List.replicate 11 9), .separate exRequest (List.replicate 12 5)] :=
  .cons (by decide) (.cons (by decide) (.cons (by decide) (.cons (by decide) .nil)))

/-! ### C51, exactly -/

/-- **C51 (partial).** Exactly when the answer of the returned size is a TPM response: if
random bytes are returned, or if the buffer happened to begin with the tag and the size
of an error response.  (Missing for the full claim: the server writes these six bytes;
that is violated.) -/
theorem C51_exact_partial (g : Drbg D) (es : Entropy E) (k : Crypto D E) (c : Call)
    (h10 : 10 ≤ c.buffer.length) (size : Nat) (hs : (c.run g es k).1 = some size) :
    (∃ code params, (c.run g es k).2.1.take size = responseOf code params) ↔
      c.wants.isSome = true ∨ c.buffer.take 6 = [0x80, 0x01, 0, 0, 0, 10] := by
  cases hw : c.wants with
  | none =>
    rw [call_refused g es k c hw] at hs ⊢
    unfold Call.refusal at hs ⊢
    rw [if_pos h10] at hs ⊢
    dsimp only at hs ⊢
    injection hs with hs
    subst hs
    have hl : (c.buffer.take 6).length = 6 := by rw [List.length_take]; omega
    rw [List.take_left' (by simp; omega)]
    constructor
    · rintro ⟨code, params, h⟩
      have hlen := congrArg List.length h
      simp only [responseOf, List.length_append, digits256_length, List.length_cons,
        List.length_nil, hl] at hlen
      have hp : params = [] := List.eq_nil_of_length_eq_zero (by omega)
      subst hp
      have := congrArg (List.take 6) h
      rw [List.take_left' hl] at this
      rw [this]
      exact .inr rfl
    · rintro (h | h)
      · cases h
      · exact ⟨refusalCode c.request, [], by rw [h]; rw [responseOf, List.append_nil]; rfl⟩
  | some n =>
    refine ⟨fun _ => .inl rfl, fun _ => ?_⟩
    rw [call_served g es k c n hw] at hs ⊢
    dsimp only at hs ⊢
    obtain ⟨-, -, hf⟩ := wants_some hw
    by_cases hok : (tryGetRandom g es k ((c.buffer.drop 10).take n)).1 = true
    · rw [if_pos hok] at hs ⊢
      injection hs with hs
      refine ⟨0, _, List.take_left' ?_⟩
      rw [responseOf]
      simp only [List.length_append, digits256_length, List.length_cons, List.length_nil,
        tryGetRandom_length, List.length_take, List.length_drop]
      omega
    · rw [if_neg hok] at hs
      cases hs

/-- A command of ten bytes executed in place is the one whose refusal is in order. -/
example : ∃ code params, ((Call.inPlace [0x80, 1, 0, 0, 0, 10, 0, 0, 1, 0x44] 10).run fakeDrbg
    fakeEntropy (fakeState 0)).2.1.take 10 = responseOf code params :=
  (C51_exact_partial _ _ _ _ (by decide) 10 rfl).mpr (.inr rfl)

end Verif.Server
