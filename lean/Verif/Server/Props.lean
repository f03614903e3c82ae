import Verif.Server.Lemmas

/-
Property theorems C46-C52: the TPM server.
-/

namespace Verif.Server
open Verif Verif.Errors

variable {D E : Type}

/-! ### A generator for the examples -/

/-- The generator of crates/tpm2-impl/src/tests/drbg.rs: a counter.  It demands
reseeding at every multiple of 8 and fails at 200. -/
def fakeFill : Nat → Nat → Bytes × Nat
  | c, 0 => ([], c)
  | c, n + 1 => let r := fakeFill (c + 1) n; (UInt8.ofNat (c + 1) :: r.1, r.2)

theorem fakeFill_length (c n : Nat) : (fakeFill c n).1.length = n := by
  induction n generalizing c with
  | zero => rfl
  | succ n ih => simp [fakeFill, ih]

/-- The counting generator, see `fakeFill`. -/
def fakeDrbg : Drbg Nat where
  entropyDefault := [0]
  nonceDefault := []
  instantiate e _ _ := some (positional e)
  reseed d s _ := (true, d + positional s)
  nextU32 d _ := (some (BitVec.ofNat 32 d), d + 1)
  nextU64 d _ := (some (BitVec.ofNat 64 d), d + 1)
  fillBytes d _ b := if d = 200 then (false, List.replicate b.length 0, d) else
    (true, (fakeFill d b.length).1, (fakeFill d b.length).2)
  fillBytes_length := by
    intro d a b
    by_cases h : d = 200
    · simp [h]
    · simp [h, fakeFill_length]
  requiresReseeding d := (d % 8 == 7, d)

/-- An entropy source that delivers the same byte. -/
def fakeEntropy : Entropy Unit where
  start := ()
  fill _ b := (List.replicate b.length 3, ())
  fill_length := by simp

/-- The request of crates/tpm2-impl/src/tests/mod.rs:31-36 with another count. -/
def exRequest : Bytes := [0x80, 0x01, 0, 0, 0, 0x0C, 0, 0, 0x01, 0x7B, 0, 2]

/-- The generator in state `d`. -/
def fakeState (d : Nat) : Crypto Nat Unit := ⟨d, ()⟩

/-! ### C49 -/

/-- **C49**: executing a request in place and executing it from a separate copy
have the same outcome: size, the whole buffer, the generator and the entropy
source afterwards. -/
theorem C49_in_place (g : Drbg D) (es : Entropy E) (k : Crypto D E) (b : Bytes) (size : Nat) :
    executeInPlace g es k b size = executeSeparate g es k (b.take size) b :=
  inPlace_eq g es k b size

/-- **C49**: the outcome does not depend on the former contents of the response
buffer (if the generator's output does not): the same size, the same state, the
same response code and parameters, and the same response if it is a success. -/
theorem C49_contents (g : Drbg D) (hg : Fills g) (es : Entropy E) (k : Crypto D E)
    (req rsp rsp' : Bytes) (hl : rsp.length = rsp'.length) :
    let r := executeSeparate g es k req rsp
    let r' := executeSeparate g es k req rsp'
    r.1 = r'.1 ∧ r.2.2 = r'.2.2 ∧
    ∀ size, r.1 = some size →
      (r.2.1.drop 6).take (size - 6) = (r'.2.1.drop 6).take (size - 6) ∧
      (AsksRandom req → 10 + field req 10 2 ≤ rsp.length →
        r.2.1.take size = r'.2.1.take size) := by
  have hE : ∀ c, (errorAnswer rsp c k).1 = (errorAnswer rsp' c k).1 ∧
      (errorAnswer rsp c k).2.2 = (errorAnswer rsp' c k).2.2 ∧
      ∀ size, (errorAnswer rsp c k).1 = some size →
      ((errorAnswer rsp c k).2.1.drop 6).take (size - 6) =
        ((errorAnswer rsp' c k).2.1.drop 6).take (size - 6) := by
    intro c
    unfold errorAnswer
    rw [← hl]
    by_cases h : 10 ≤ rsp.length
    · rw [if_pos h, if_pos h]
      refine ⟨rfl, rfl, ?_⟩
      intro size hsz
      injection hsz with hsz
      subst hsz
      simp only [List.append_assoc]
      rw [List.drop_left' (by rw [List.length_take]; omega),
        List.drop_left' (by rw [List.length_take]; omega),
        List.take_left' (by simp), List.take_left' (by simp)]
    · rw [if_neg h, if_neg h]
      refine ⟨rfl, rfl, ?_⟩
      intro size hsz
      injection hsz with hsz
      subst hsz
      simp
  simp only
  rw [separate_eq, separate_eq]
  by_cases ha : AsksRandom req
  · rw [judge_random ha]
    simp only
    rw [← hl]
    by_cases hf : 10 + field req 10 2 ≤ rsp.length
    · rw [if_pos hf, if_pos hf]
      have hlen : ((rsp.drop 10).take (field req 10 2)).length =
          ((rsp'.drop 10).take (field req 10 2)).length := by
        simp only [List.length_take, List.length_drop]; omega
      obtain ⟨h1, h2, h3⟩ := fills_tryGetRandom hg es k _ _ hlen
      by_cases hok : (tryGetRandom g es k ((rsp.drop 10).take (field req 10 2))).1 = true
      · rw [← h3 hok, if_pos hok, if_pos hok]
        refine ⟨rfl, rfl, ?_⟩
        intro size hsz
        injection hsz with hsz
        have hb := tryGetRandom_length g es k ((rsp.drop 10).take (field req 10 2))
        rw [List.length_take, List.length_drop] at hb
        have hr : (responseOf 0 (tryGetRandom g es k
            ((rsp.drop 10).take (field req 10 2))).2.1).length = size := by
          simp only [responseOf, List.length_append, digits256_length, List.length_cons,
            List.length_nil, hb]
          omega
        refine ⟨?_, fun _ _ => ?_⟩
        · rw [← List.drop_take, ← List.drop_take, List.take_left' (by omega),
            List.take_left' (by omega)]
        · rw [List.take_left' hr, List.take_left' hr]
      · rw [if_neg hok, if_neg (by rw [← h1]; exact hok)]
        exact ⟨rfl, h2, by simp⟩
    · rw [if_neg hf, if_neg hf]
      obtain ⟨h1, h2, h3⟩ := hE 0x904
      exact ⟨h1, h2, fun size hsz => ⟨h3 size hsz, fun _ h => absurd h hf⟩⟩
  · obtain ⟨e, hj⟩ : ∃ e, judge req = .inl e := by
      rcases judge_error ha with h | h
      · exact ⟨_, h⟩
      · exact ⟨_, h⟩
    rw [hj]
    obtain ⟨h1, h2, h3⟩ := hE e.code
    exact ⟨h1, h2, fun size hsz => ⟨h3 size hsz, fun h => absurd h ha⟩⟩

/-- The test generator's output does not depend on the destination. -/
theorem fake_fills : Fills fakeDrbg := by
  intro d a b b' h
  simp only [fakeDrbg, h]

/-- In place and separate: a request for two bytes. -/
example : (executeInPlace fakeDrbg fakeEntropy (fakeState 0) (exRequest ++ [0xFF]) 12).1 = some 12 := by
  rw [C49_in_place]; rfl

/-! ### C46 -/

/-- **C46**: any request, in both modes, is answered with a size within the
response buffer; the buffer keeps its length and its bytes beyond the size.  The
server can panic only if the generator fails. -/
theorem C46_bounds (g : Drbg D) (es : Entropy E) (k : Crypto D E) (req rsp : Bytes)
    (r : Option Nat × Bytes × Crypto D E) (h : Served g es k req rsp r) :
    r.2.1.length = rsp.length ∧
    (∀ size, r.1 = some size → size ≤ rsp.length ∧ r.2.1.drop size = rsp.drop size) ∧
    (Reliable g → r.1 ≠ none) := by
  rw [served_eq h, separate_eq]
  have hE : ∀ c, (errorAnswer rsp c k).2.1.length = rsp.length ∧
      (∀ size, (errorAnswer rsp c k).1 = some size →
        size ≤ rsp.length ∧ (errorAnswer rsp c k).2.1.drop size = rsp.drop size) ∧
      (Reliable g → (errorAnswer rsp c k).1 ≠ none) := by
    intro c
    refine ⟨errorAnswer_length rsp c k, ?_, ?_⟩
    · unfold errorAnswer
      by_cases h : 10 ≤ rsp.length
      · rw [if_pos h]
        intro size hs
        injection hs with hs
        subst hs
        exact ⟨h, List.drop_left' (by simp; omega)⟩
      · rw [if_neg h]
        intro size hs
        injection hs with hs
        subst hs
        exact ⟨by omega, rfl⟩
    · unfold errorAnswer
      by_cases h : 10 ≤ rsp.length
      · rw [if_pos h]; simp
      · rw [if_neg h]; simp
  rcases judge req with e | n
  · exact hE _
  · simp only
    by_cases hf : 10 + n ≤ rsp.length
    · rw [if_pos hf]
      have hlen := tryGetRandom_length g es k ((rsp.drop 10).take n)
      rw [List.length_take, List.length_drop] at hlen
      by_cases hok : (tryGetRandom g es k ((rsp.drop 10).take n)).1 = true
      · rw [if_pos hok]
        have hr : (responseOf 0 (tryGetRandom g es k ((rsp.drop 10).take n)).2.1).length =
            10 + n := by
          simp only [responseOf, List.length_append, digits256_length, List.length_cons,
            List.length_nil, hlen]
          omega
        refine ⟨?_, ?_, by simp⟩
        · simp only [List.length_append, hr, List.length_drop]; omega
        · intro size hs
          injection hs with hs
          subst hs
          exact ⟨hf, List.drop_left' hr⟩
      · rw [if_neg hok]
        refine ⟨?_, by simp, fun hg => absurd (reliable_tryGetRandom hg es k _) hok⟩
        simp only [List.length_append, hlen, List.length_take, List.length_drop]; omega
    · rw [if_neg hf]
      exact hE _

/-- **C46**: an error response changes only the four bytes of the response code;
every request that does not ask for random bytes gets one, without any use of
the generator or the entropy source. -/
theorem C46_error_bytes (g : Drbg D) (es : Entropy E) (k : Crypto D E) (req rsp : Bytes)
    (hreq : ¬ AsksRandom req) (r : Option Nat × Bytes × Crypto D E)
    (h : Served g es k req rsp r) :
    r.2.1.take 6 = rsp.take 6 ∧ r.2.1.drop 10 = rsp.drop 10 ∧ r.2.2 = k ∧
    (r.1 = some 10 ∨ (r.1 = some 0 ∧ r.2.1 = rsp)) := by
  rw [served_eq h, separate_eq]
  have hE : ∀ c, (errorAnswer rsp c k).2.1.take 6 = rsp.take 6 ∧
      (errorAnswer rsp c k).2.1.drop 10 = rsp.drop 10 ∧ (errorAnswer rsp c k).2.2 = k ∧
      ((errorAnswer rsp c k).1 = some 10 ∨
        ((errorAnswer rsp c k).1 = some 0 ∧ (errorAnswer rsp c k).2.1 = rsp)) := by
    intro c
    unfold errorAnswer
    by_cases h : 10 ≤ rsp.length
    · rw [if_pos h]
      refine ⟨?_, List.drop_left' (by simp; omega), rfl, .inl rfl⟩
      simp only [List.append_assoc]
      exact List.take_left' (by simp; omega)
    · rw [if_neg h]
      exact ⟨rfl, rfl, rfl, .inr ⟨rfl, rfl⟩⟩
  rcases judge_error hreq with hj | hj <;> rw [hj] <;> exact hE _

/-- A request of two bytes, with response buffers of 12 and 3 bytes. -/
example : executeSeparate fakeDrbg fakeEntropy (fakeState 0) [0x80, 1] (List.replicate 12 0xEE) =
    (some 10, [0xEE, 0xEE, 0xEE, 0xEE, 0xEE, 0xEE, 0, 0, 1, 0x42, 0xEE, 0xEE], fakeState 0) := by rfl
example : executeSeparate fakeDrbg fakeEntropy (fakeState 0) [0x80, 1] [1, 2, 3] =
    (some 0, [1, 2, 3], fakeState 0) := by rfl

/-! ### C47 -/

/-- **C47**: a request shorter than a header or with a wrong size field is
answered with COMMAND_SIZE; the generator is not touched. -/
theorem C47_bad_size (g : Drbg D) (es : Entropy E) (k : Crypto D E) (req rsp : Bytes)
    (hreq : req.length < 10 ∨ field req 2 4 ≠ req.length) (r : Option Nat × Bytes × Crypto D E)
    (h : Served g es k req rsp r) : r = errorAnswer rsp 0x142 k := by
  rw [served_eq h, separate_eq, judge_size]
  rintro ⟨h1, h2⟩
  rcases hreq with h | h
  · omega
  · exact h h2

/-- **C47**: a well-sized request with another command code is answered with
COMMAND_CODE; the generator is not touched. -/
theorem C47_bad_code (g : Drbg D) (es : Entropy E) (k : Crypto D E) (req rsp : Bytes)
    (h10 : 10 ≤ req.length) (hs : field req 2 4 = req.length) (hc : field req 6 4 ≠ 0x17B)
    (r : Option Nat × Bytes × Crypto D E) (h : Served g es k req rsp r) :
    r = errorAnswer rsp 0x143 k := by
  rw [served_eq h, separate_eq, judge_code ⟨h10, hs⟩ hc]

/-- **C47**: a well-sized request for random bytes without the number of bytes is
answered with COMMAND_SIZE. -/
theorem C47_no_count (g : Drbg D) (es : Entropy E) (k : Crypto D E) (req rsp : Bytes)
    (h10 : 10 ≤ req.length) (h12 : req.length < 12) (hs : field req 2 4 = req.length)
    (hc : field req 6 4 = 0x17B) (r : Option Nat × Bytes × Crypto D E)
    (h : Served g es k req rsp r) : r = errorAnswer rsp 0x142 k := by
  rw [served_eq h, separate_eq, judge_short ⟨h10, hs⟩ hc h12]

/-- A wrong size field; a Startup command; eleven bytes. -/
example := C47_bad_size fakeDrbg fakeEntropy (fakeState 0)
  [0x80, 1, 0, 0, 0, 11, 0, 0, 1, 0x7B, 0, 2] (List.replicate 10 0) (.inr (by decide)) _ (.inl rfl)
example := C47_bad_code fakeDrbg fakeEntropy (fakeState 0)
  [0x80, 1, 0, 0, 0, 12, 0, 0, 1, 0x44, 0, 0] (List.replicate 10 0) (by decide) (by decide)
  (by decide) _ (.inl rfl)
example := C47_no_count fakeDrbg fakeEntropy (fakeState 0)
  [0x80, 1, 0, 0, 0, 11, 0, 0, 1, 0x7B, 0] (List.replicate 10 0) (by decide) (by decide) (by decide)
  (by decide) _ (.inl rfl)
/-- The same in place: the first eleven bytes of a buffer. -/
example := C47_no_count fakeDrbg fakeEntropy (fakeState 0)
  [0x80, 1, 0, 0, 0, 11, 0, 0, 1, 0x7B, 0] [0x80, 1, 0, 0, 0, 11, 0, 0, 1, 0x7B, 0, 9, 9]
  (by decide) (by decide) (by decide) (by decide) _ (.inr ⟨11, rfl, rfl⟩)

/-! ### C48 -/

/-- **C48**: a request for random bytes that fits is answered with exactly the
bytes the generator produced for it. -/
theorem C48_success (g : Drbg D) (es : Entropy E) (k k' : Crypto D E) (req rsp out : Bytes)
    (hreq : AsksRandom req) (hfit : 10 + field req 10 2 ≤ rsp.length)
    (hp : Produces g es k ((rsp.drop 10).take (field req 10 2)) out k')
    (r : Option Nat × Bytes × Crypto D E) (h : Served g es k req rsp r) :
    r = (some (10 + field req 10 2), responseOf 0 out ++ rsp.drop (10 + field req 10 2), k') ∧
    out.length = field req 10 2 := by
  have hlen := tryGetRandom_length g es k ((rsp.drop 10).take (field req 10 2))
  rw [hp.tryGetRandom_eq, List.length_take, List.length_drop] at hlen
  refine ⟨?_, by simp only at hlen; omega⟩
  rw [served_eq h, separate_eq, judge_random hreq]
  simp only
  rw [if_pos hfit, hp.tryGetRandom_eq, if_pos rfl]

/-- **C48**: a generator that does not fail produces the bytes, so every such
request succeeds. -/
theorem C48_reliable (g : Drbg D) (hg : Reliable g) (es : Entropy E) (k : Crypto D E)
    (req rsp : Bytes) (hreq : AsksRandom req) (hfit : 10 + field req 10 2 ≤ rsp.length)
    (r : Option Nat × Bytes × Crypto D E) (h : Served g es k req rsp r) :
    ∃ out k', Produces g es k ((rsp.drop 10).take (field req 10 2)) out k' ∧
      out.length = field req 10 2 ∧
      r = (some (10 + out.length), responseOf 0 out ++ rsp.drop (10 + out.length), k') := by
  have hp := tryGetRandom_produces g es k ((rsp.drop 10).take (field req 10 2))
    (reliable_tryGetRandom hg es k _)
  obtain ⟨h1, h2⟩ := C48_success g es k _ req rsp _ hreq hfit hp r h
  refine ⟨_, _, hp, h2, ?_⟩
  rw [h2]; exact h1

/-- **C48**: if the response buffer is too small, the answer is MEMORY and the
generator is not touched. -/
theorem C48_memory (g : Drbg D) (es : Entropy E) (k : Crypto D E) (req rsp : Bytes)
    (hreq : AsksRandom req) (hfit : rsp.length < 10 + field req 10 2)
    (r : Option Nat × Bytes × Crypto D E) (h : Served g es k req rsp r) :
    r = errorAnswer rsp 0x904 k := by
  rw [served_eq h, separate_eq, judge_random hreq]
  simp only
  rw [if_neg (by omega)]

/-- Two bytes; in the second case the generator demands reseeding. -/
example := C48_success fakeDrbg fakeEntropy (fakeState 0) _ exRequest (List.replicate 13 0xEE) _
  (by decide) (by decide) (.direct 0 2 [1, 2] rfl rfl) _ (.inl rfl)
example := C48_success fakeDrbg fakeEntropy (fakeState 15) _ exRequest (List.replicate 13 0xEE) _
  (by decide) (by decide) (.reseeded 15 18 20 () [3] [19, 20] rfl rfl rfl rfl) _ (.inl rfl)
set_option maxRecDepth 4000 in
example : executeSeparate fakeDrbg fakeEntropy (fakeState 15) exRequest (List.replicate 13 0xEE) =
    (some 12, [0x80, 1, 0, 0, 0, 12, 0, 0, 0, 0, 19, 20, 0xEE],
      ⟨20, ()⟩) := by rfl
example := C48_memory fakeDrbg fakeEntropy (fakeState 0) exRequest (List.replicate 11 0xEE)
  (by decide) (by decide) _ (.inl rfl)

/-! ### C50 -/

theorem drawsSafe_append {l m : List Ev} (hl : DrawsSafe l) (hm : DrawsSafe m) :
    DrawsSafe (l ++ m) := by
  refine ⟨?_, ?_⟩
  · intro x
    simp only [List.mem_append, not_or]
    exact ⟨⟨(hl.1 x).1, (hm.1 x).1⟩, ⟨(hl.1 x).2, (hm.1 x).2⟩⟩
  intro i n x h
  rcases Nat.lt_or_ge i l.length with hi | hi
  · rw [List.getElem?_append_left hi] at h
    rcases hl.2 i n x h with ⟨h1, h2⟩ | ⟨h1, s, x', h2, h3⟩
    · exact .inl ⟨h1, by rw [List.getElem?_append_left (by omega)]; exact h2⟩
    · exact .inr ⟨h1, s, x', by rw [List.getElem?_append_left (by omega)]; exact h2,
        by rw [List.getElem?_append_left (by omega)]; exact h3⟩
  · rw [List.getElem?_append_right hi] at h
    rcases hm.2 _ n x h with ⟨h1, h2⟩ | ⟨h1, s, x', h2, h3⟩
    · refine .inl ⟨by omega, ?_⟩
      rw [List.getElem?_append_right (by omega), show i - 1 - l.length = i - l.length - 1 by omega]
      exact h2
    · refine .inr ⟨by omega, s, x', ?_, ?_⟩
      · rw [List.getElem?_append_right (by omega), show i - 1 - l.length = i - l.length - 1 by omega]
        exact h2
      · rw [List.getElem?_append_right (by omega), show i - 2 - l.length = i - l.length - 2 by omega]
        exact h3

theorem fed_append (l m : List Ev) : fed (l ++ m) = fed l ++ fed m := by
  induction l with
  | nil => rfl
  | cons e l ih => cases e <;> simp [fed, ih]

/-- The uses since the state `k`. -/
def Since (k k' : Crypto (D × List Ev) (E × List Bytes)) : Prop :=
  ∃ l, k'.drbg.2 = k.drbg.2 ++ l ∧ k'.entropy.2 = k.entropy.2 ++ fed l ∧ DrawsSafe l

theorem Since.refl (k : Crypto (D × List Ev) (E × List Bytes)) : Since k k :=
  ⟨[], by simp, by simp [fed], by constructor <;> simp⟩

theorem Since.trans {a b c : Crypto (D × List Ev) (E × List Bytes)} (h : Since a b)
    (h' : Since b c) : Since a c := by
  obtain ⟨l, h1, h2, h3⟩ := h
  obtain ⟨m, h4, h5, h6⟩ := h'
  exact ⟨l ++ m, by rw [h4, h1, List.append_assoc], by rw [h5, h2, fed_append, List.append_assoc],
    drawsSafe_append h3 h6⟩

theorem tryGetRandom_since (g : Drbg D) (es : Entropy E)
    (k : Crypto (D × List Ev) (E × List Bytes)) (b : Bytes) :
    Since k (tryGetRandom (watched g) (watchedEntropy es) k b).2.2 := by
  unfold tryGetRandom draw
  rcases h1 : g.requiresReseeding k.drbg.1 with ⟨needed, d1⟩
  have h1' : (watched g).requiresReseeding k.drbg = (needed, d1, k.drbg.2 ++ [.asked needed]) := by
    simp only [watched, h1]
  simp only [h1']
  cases needed
  · simp only [Bool.false_eq_true, if_false]
    refine ⟨[.asked false, .drawn b.length []], by simp [watched], by simp [fed], by simp, ?_⟩
    intro i n x h
    rcases i with _ | _ | i
    · simp at h
    · exact .inl ⟨by omega, by simp⟩
    · simp at h
  · simp only [if_true]
    rcases h2 : es.fill k.entropy.1 g.entropyDefault with ⟨seed, e⟩
    have h2' : (watchedEntropy es).fill k.entropy (watched g).entropyDefault =
        (seed, e, k.entropy.2 ++ [seed]) := by
      simp only [watchedEntropy, watched, h2]
    simp only [h2']
    rcases h3 : g.reseed d1 seed [] with ⟨ok, d2⟩
    have h3' : (watched g).reseed (d1, k.drbg.2 ++ [.asked true]) seed [] =
        (ok, d2, k.drbg.2 ++ [.asked true] ++ [.reseeded seed [] ok]) := by
      simp only [watched, h3]
    simp only [h3']
    cases ok
    · simp only [Bool.false_eq_true, if_false]
      refine ⟨[.asked true, .reseeded seed [] false], by simp, by simp [fed], by simp, ?_⟩
      intro i n x h
      rcases i with _ | _ | i <;> simp at h
    · simp only [if_true]
      refine ⟨[.asked true, .reseeded seed [] true, .drawn b.length []], by simp [watched],
        by simp [fed], by simp, ?_⟩
      intro i n x h
      rcases i with _ | _ | _ | i
      · simp at h
      · simp at h
      · exact .inr ⟨by omega, seed, [], rfl, rfl⟩
      · simp at h

theorem call_since (g : Drbg D) (es : Entropy E) (k : Crypto (D × List Ev) (E × List Bytes))
    (call : Call) : Since k (call.run (watched g) (watchedEntropy es) k).2.2 := by
  have hE : ∀ rsp c, Since k (errorAnswer rsp c k).2.2 := by
    intro rsp c
    unfold errorAnswer
    split <;> exact .refl k
  have hS : ∀ req rsp,
      Since k (executeSeparate (watched g) (watchedEntropy es) k req rsp).2.2 := by
    intro req rsp
    rw [separate_eq]
    rcases judge req with e | n
    · exact hE rsp _
    · simp only
      by_cases hf : 10 + n ≤ rsp.length
      · rw [if_pos hf]
        have := tryGetRandom_since g es k ((rsp.drop 10).take n)
        split <;> exact this
      · rw [if_neg hf]
        exact hE rsp _
  cases call with
  | separate req rsp => exact hS req rsp
  | inPlace b size =>
    have := hS (b.take size) b
    rw [← inPlace_eq] at this
    exact this

theorem runCalls_since (g : Drbg D) (es : Entropy E) (k : Crypto (D × List Ev) (E × List Bytes))
    (calls : List Call) : Since k (runCalls (watched g) (watchedEntropy es) k calls).2 := by
  induction calls generalizing k with
  | nil => exact .refl k
  | cons call calls ih => exact (call_since g es k call).trans (ih _)

/-- **C50**: over any sequence of calls, with any generator and entropy source
(also if calls panic), every draw from the generator is directly preceded by its
answer that it needs no reseeding, or by a successful reseed, and the seeds are
exactly what the entropy source delivered, in this order, each used once. -/
theorem C50_reseeding (g : Drbg D) (es : Entropy E) (k : Crypto (D × List Ev) (E × List Bytes))
    (calls : List Call) (hk : DrawsSafe k.drbg.2) (hf : fed k.drbg.2 = k.entropy.2) :
    DrawsSafe (runCalls (watched g) (watchedEntropy es) k calls).2.drbg.2 ∧
    fed (runCalls (watched g) (watchedEntropy es) k calls).2.drbg.2 =
      (runCalls (watched g) (watchedEntropy es) k calls).2.entropy.2 := by
  obtain ⟨l, h1, h2, h3⟩ := runCalls_since g es k calls
  exact ⟨by rw [h1]; exact drawsSafe_append hk h3, by rw [h1, h2, fed_append, hf]⟩

/-- **C50**, from the creation of the server on. -/
theorem C50_from_new (g : Drbg D) (es : Entropy E) (k : Crypto (D × List Ev) (E × List Bytes))
    (hk : Crypto.new (watched g) (watchedEntropy es) = some k) (calls : List Call) :
    DrawsSafe (runCalls (watched g) (watchedEntropy es) k calls).2.drbg.2 ∧
    fed (runCalls (watched g) (watchedEntropy es) k calls).2.drbg.2 =
      (runCalls (watched g) (watchedEntropy es) k calls).2.entropy.2 := by
  unfold Crypto.new at hk
  simp only [watched, watchedEntropy] at hk
  split at hk
  · simp at hk
  · rename_i d hd
    injection hk with hk
    rw [Option.map_eq_some_iff] at hd
    obtain ⟨d', -, rfl⟩ := hd
    rw [← hk]
    apply C50_reseeding
    · refine ⟨by simp, ?_⟩
      intro i n x h
      rcases i with _ | i <;> simp at h
    · simp [fed]

/-- Watching changes nothing: the responses are those of the generator and the
entropy source themselves, and so is their state. -/
theorem C50_watching (g : Drbg D) (es : Entropy E) (k : Crypto (D × List Ev) (E × List Bytes))
    (calls : List Call) :
    (runCalls (watched g) (watchedEntropy es) k calls).1 =
      (runCalls g es ⟨k.drbg.1, k.entropy.1⟩ calls).1 ∧
    (runCalls (watched g) (watchedEntropy es) k calls).2.drbg.1 =
      (runCalls g es ⟨k.drbg.1, k.entropy.1⟩ calls).2.drbg ∧
    (runCalls (watched g) (watchedEntropy es) k calls).2.entropy.1 =
      (runCalls g es ⟨k.drbg.1, k.entropy.1⟩ calls).2.entropy := by
  let bare (k : Crypto (D × List Ev) (E × List Bytes)) : Crypto D E := ⟨k.drbg.1, k.entropy.1⟩
  have hT : ∀ k b, tryGetRandom g es (bare k) b =
      ((tryGetRandom (watched g) (watchedEntropy es) k b).1,
        (tryGetRandom (watched g) (watchedEntropy es) k b).2.1,
        bare (tryGetRandom (watched g) (watchedEntropy es) k b).2.2) := by
    intro k b
    unfold tryGetRandom draw
    simp only [bare, watched, watchedEntropy]
    by_cases h1 : (g.requiresReseeding k.drbg.1).1 = true
    · by_cases h2 : (g.reseed (g.requiresReseeding k.drbg.1).2
        (es.fill k.entropy.1 g.entropyDefault).1 []).1 = true
      · simp [h1, h2]
      · simp [h1, h2]
    · simp [h1]
  have hE : ∀ k rsp c, errorAnswer rsp c (bare k) =
      ((errorAnswer rsp c k).1, (errorAnswer rsp c k).2.1, bare (errorAnswer rsp c k).2.2) := by
    intro k rsp c
    unfold errorAnswer
    split <;> rfl
  have hS : ∀ k req rsp, executeSeparate g es (bare k) req rsp =
      ((executeSeparate (watched g) (watchedEntropy es) k req rsp).1,
        (executeSeparate (watched g) (watchedEntropy es) k req rsp).2.1,
        bare (executeSeparate (watched g) (watchedEntropy es) k req rsp).2.2) := by
    intro k req rsp
    rw [separate_eq, separate_eq]
    rcases judge req with e | n
    · exact hE k rsp _
    · simp only [hT]
      by_cases hf : 10 + n ≤ rsp.length
      · rw [if_pos hf, if_pos hf]
        by_cases ho : (tryGetRandom (watched g) (watchedEntropy es) k ((rsp.drop 10).take n)).1 = true
        · simp [ho]
        · simp [ho]
      · rw [if_neg hf, if_neg hf]
        exact hE k rsp _
  have hC : ∀ k (call : Call), call.run g es (bare k) =
      ((call.run (watched g) (watchedEntropy es) k).1,
        (call.run (watched g) (watchedEntropy es) k).2.1,
        bare (call.run (watched g) (watchedEntropy es) k).2.2) := by
    intro k call
    cases call with
    | separate req rsp => exact hS k req rsp
    | inPlace b size =>
      simp only [Call.run]
      rw [inPlace_eq, inPlace_eq]
      exact hS k _ _
  have hA : ∀ k, runCalls g es (bare k) calls =
      ((runCalls (watched g) (watchedEntropy es) k calls).1,
        bare (runCalls (watched g) (watchedEntropy es) k calls).2) := by
    induction calls with
    | nil => intro k; rfl
    | cons call calls ih =>
      intro k
      simp only [runCalls, hC]
      rw [ih]
  have := hA k
  simp only [bare] at this
  rw [this]
  exact ⟨rfl, rfl, rfl⟩

/-- `g'` behaves like `g` except that drawing in a state that needs reseeding
does anything. -/
def SameUnlessNeedy (g g' : Drbg D) (needy : D → Bool) : Prop :=
  g.entropyDefault = g'.entropyDefault ∧ g.reseed = g'.reseed ∧
  g.requiresReseeding = g'.requiresReseeding ∧
  ∀ d, needy d = false → g.fillBytes d = g'.fillBytes d

/-- **C50** without the recorded events: if the generator reports its need
truthfully and a successful reseed satisfies it, then what the generator would
do when drawn from in need has no influence on any response, over any sequence
of calls. -/
theorem C50_need_irrelevant (g g' : Drbg D) (needy : D → Bool) (hgg : SameUnlessNeedy g g' needy)
    (hneed : ∀ d, (g.requiresReseeding d).1 = needy (g.requiresReseeding d).2)
    (hre : ∀ d s a, (g.reseed d s a).1 = true → needy (g.reseed d s a).2 = false)
    (es : Entropy E) (k : Crypto D E) (calls : List Call) :
    runCalls g es k calls = runCalls g' es k calls := by
  obtain ⟨e1, e2, e3, e4⟩ := hgg
  have hT : ∀ (k : Crypto D E) b, tryGetRandom g es k b = tryGetRandom g' es k b := by
    intro k b
    unfold tryGetRandom draw
    rw [← e1, ← e2, ← e3]
    simp only
    split
    · split
      · rename_i h
        rw [e4 _ (hre _ _ _ h)]
      · rfl
    · rename_i h
      rw [e4 _ (by rw [← hneed]; simpa using h)]
  have hS : ∀ (k : Crypto D E) req rsp,
      executeSeparate g es k req rsp = executeSeparate g' es k req rsp := by
    intro k req rsp
    rw [separate_eq, separate_eq]
    rcases judge req with e | n
    · rfl
    · simp only [hT]
  have hC : ∀ (k : Crypto D E) (call : Call), call.run g es k = call.run g' es k := by
    intro k call
    cases call with
    | separate req rsp => exact hS k req rsp
    | inPlace b size =>
      simp only [Call.run]
      rw [inPlace_eq, inPlace_eq]
      exact hS k _ _
  induction calls generalizing k with
  | nil => rfl
  | cons call calls ih =>
    simp only [runCalls]
    rw [hC, ih]

/-- A history in which the generator demands reseeding before the second draw. -/
example : (runCalls (watched fakeDrbg) (watchedEntropy fakeEntropy) ⟨(5, []), ((), [])⟩
    [.separate exRequest (List.replicate 12 0), .separate exRequest (List.replicate 12 0),
      .inPlace exRequest 12]).2 =
    ⟨(14, [.asked false, .drawn 2 [], .asked true, .reseeded [3] [] true, .drawn 2 [],
      .asked false, .drawn 2 []]), ((), [[3]])⟩ := by rfl

/-- The hypotheses of `C50_need_irrelevant` hold for a generator that is needy
after every draw, and fails if drawn from in need. -/
example : ∃ (g g' : Drbg Bool) (needy : Bool → Bool), SameUnlessNeedy g g' needy ∧
    (∀ d, (g.requiresReseeding d).1 = needy (g.requiresReseeding d).2) ∧
    (∀ d s a, (g.reseed d s a).1 = true → needy (g.reseed d s a).2 = false) ∧
    (g.fillBytes true [] [0]).1 ≠ (g'.fillBytes true [] [0]).1 := by
  let mk (bad : Bool) : Drbg Bool :=
    { entropyDefault := [0], nonceDefault := [], instantiate := fun _ _ _ => some false
      reseed := fun _ _ _ => (true, false)
      nextU32 := fun d _ => (none, d), nextU64 := fun d _ => (none, d)
      fillBytes := fun d _ b => if d then (bad, b, true) else (true, b, true)
      fillBytes_length := by intro d a b; cases d <;> rfl
      requiresReseeding := fun d => (d, d) }
  refine ⟨mk true, mk false, id, ⟨rfl, rfl, rfl, ?_⟩, ?_, ?_, ?_⟩
  · intro d hd
    have : d = false := hd
    subst this; rfl
  · intro d; rfl
  · intro d s a _; rfl
  · simp [mk]

/-! ### C51 -/

/-- **C51 is violated**: the answer to a too short request does not start with
the tag and size of a response, but with whatever was in the buffer. -/
theorem C51_violated :
    executeSeparate fakeDrbg fakeEntropy (fakeState 0) [0x80, 1] (List.replicate 10 0xEE) =
      (some 10, [0xEE, 0xEE, 0xEE, 0xEE, 0xEE, 0xEE, 0, 0, 1, 0x42], fakeState 0) ∧
    ∀ code params, [0xEE, 0xEE, 0xEE, 0xEE, 0xEE, 0xEE, 0, 0, 1, 0x42] ≠ responseOf code params := by
  refine ⟨rfl, ?_⟩
  intro code params h
  have : (0xEE : UInt8) = 0x80 := List.head_eq_of_cons_eq h
  exact absurd this (by decide)

/-- **C51** for successes, and the code for errors: a response with code zero is
a complete TPM response of the returned size; otherwise the returned size is 10
and the response code is COMMAND_SIZE, COMMAND_CODE or MEMORY.  (Missing for the
full claim: tag and size of error responses; that is violated.) -/
theorem C51_success_partial (g : Drbg D) (es : Entropy E) (k : Crypto D E) (req rsp : Bytes)
    (h10 : 10 ≤ rsp.length) (r : Option Nat × Bytes × Crypto D E) (h : Served g es k req rsp r)
    (size : Nat) (hs : r.1 = some size) :
    (∃ params, r.2.1.take size = responseOf 0 params ∧ size = (responseOf 0 params).length ∧
      AsksRandom req) ∨
    (size = 10 ∧ ∃ code, field r.2.1 6 4 = code ∧
      ((code = 0x142 ∧ ¬ AsksRandom req) ∨ (code = 0x143 ∧ ¬ AsksRandom req) ∨
       (code = 0x904 ∧ AsksRandom req))) := by
  rw [served_eq h] at hs ⊢
  have hE : ∀ c, c < 2 ^ 32 → (errorAnswer rsp c k).1 = some 10 ∧
      field (errorAnswer rsp c k).2.1 6 4 = c := by
    intro c hc
    unfold errorAnswer
    rw [if_pos h10]
    refine ⟨rfl, ?_⟩
    unfold field
    simp only [List.append_assoc]
    rw [List.drop_left' (by rw [List.length_take]; omega), List.take_left' (by simp)]
    exact positional_digits256_of_lt (by simpa using hc)
  by_cases ha : AsksRandom req
  · rw [separate_eq, judge_random ha] at hs ⊢
    simp only at hs ⊢
    by_cases hf : 10 + field req 10 2 ≤ rsp.length
    · rw [if_pos hf] at hs ⊢
      by_cases hok : (tryGetRandom g es k ((rsp.drop 10).take (field req 10 2))).1 = true
      · rw [if_pos hok] at hs ⊢
        have hlen := tryGetRandom_length g es k ((rsp.drop 10).take (field req 10 2))
        rw [List.length_take, List.length_drop] at hlen
        have hr : (responseOf 0 (tryGetRandom g es k
            ((rsp.drop 10).take (field req 10 2))).2.1).length = size := by
          injection hs with hs
          simp only [responseOf, List.length_append, digits256_length, List.length_cons,
            List.length_nil, hlen]
          omega
        exact .inl ⟨_, List.take_left' hr, hr.symm, ha⟩
      · rw [if_neg hok] at hs; simp at hs
    · rw [if_neg hf] at hs ⊢
      obtain ⟨h1, h2⟩ := hE 0x904 (by decide)
      rw [h1] at hs
      injection hs with hs
      exact .inr ⟨hs.symm, _, h2, .inr (.inr ⟨rfl, ha⟩)⟩
  · rcases judge_error ha with hj | hj
    · rw [separate_eq, hj] at hs ⊢
      obtain ⟨h1, h2⟩ := hE 0x142 (by decide)
      simp only at hs ⊢
      rw [h1] at hs
      injection hs with hs
      exact .inr ⟨hs.symm, _, h2, .inl ⟨rfl, ha⟩⟩
    · rw [separate_eq, hj] at hs ⊢
      obtain ⟨h1, h2⟩ := hE 0x143 (by decide)
      simp only at hs ⊢
      rw [h1] at hs
      injection hs with hs
      exact .inr ⟨hs.symm, _, h2, .inr (.inl ⟨rfl, ha⟩)⟩

/-- Both cases occur. -/
example := C51_success_partial fakeDrbg fakeEntropy (fakeState 0) exRequest (List.replicate 12 0)
  (by decide) _ (.inl rfl) 12 rfl
example := C51_success_partial fakeDrbg fakeEntropy (fakeState 0) exRequest (List.replicate 11 0)
  (by decide) _ (.inl rfl) 10 rfl

/-! ### C52 -/

/-- **C52 is violated**: when the generator fails, the server panics. -/
theorem C52_violated :
    (executeSeparate fakeDrbg fakeEntropy (fakeState 200) exRequest (List.replicate 12 0)).1 =
      none := by rfl

/-- **C52**, exactly when: the server panics if and only if the request asks for
random bytes, they fit, and the generator does not produce them.  (Missing for
the full claim: an error response in this case; that is violated.) -/
theorem C52_panics_iff_partial (g : Drbg D) (es : Entropy E) (k : Crypto D E) (req rsp : Bytes)
    (r : Option Nat × Bytes × Crypto D E) (h : Served g es k req rsp r) :
    r.1 = none ↔ AsksRandom req ∧ 10 + field req 10 2 ≤ rsp.length ∧
      ¬ ∃ out k', Produces g es k ((rsp.drop 10).take (field req 10 2)) out k' := by
  rw [served_eq h, separate_eq]
  have hE : ∀ c, (errorAnswer rsp c k).1 ≠ none := by
    intro c
    unfold errorAnswer
    by_cases h : 10 ≤ rsp.length
    · rw [if_pos h]; simp
    · rw [if_neg h]; simp
  by_cases ha : AsksRandom req
  · rw [judge_random ha]
    simp only
    by_cases hf : 10 + field req 10 2 ≤ rsp.length
    · rw [if_pos hf]
      by_cases hok : (tryGetRandom g es k ((rsp.drop 10).take (field req 10 2))).1 = true
      · rw [if_pos hok]
        constructor
        · intro h; simp at h
        · rintro ⟨_, _, hn⟩
          exact absurd ⟨_, _, tryGetRandom_produces g es k _ hok⟩ hn
      · rw [if_neg hok]
        refine ⟨fun _ => ⟨ha, hf, ?_⟩, fun _ => rfl⟩
        rintro ⟨out, k', hp⟩
        rw [hp.tryGetRandom_eq] at hok
        exact hok rfl
    · rw [if_neg hf]
      exact ⟨fun h => absurd h (hE _), fun h => absurd h.2.1 hf⟩
  · refine ⟨fun h => ?_, fun h => absurd h.1 ha⟩
    rcases judge_error ha with hj | hj <;> rw [hj] at h <;> exact absurd h (hE _)

/-- The failing generator. -/
example := (C52_panics_iff_partial fakeDrbg fakeEntropy (fakeState 200) exRequest
  (List.replicate 12 0) _ (.inl rfl)).1 C52_violated

end Verif.Server
