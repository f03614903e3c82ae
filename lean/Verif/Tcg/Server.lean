import Verif.Tcg.Responses
import Verif.Server.Props

/-
C79: the server against the command GetRandom of the standard.
-/

namespace Verif.Tcg
open Verif Verif.Server

variable {D E : Type}

/-! ### Fields of commands -/

/-- The fields of two bytes, two numbers and the rest. -/
theorem fields_of (t : Bytes) (ht : t.length = 2) (n c : Nat) (hn : n < 2 ^ 32) (hc : c < 2 ^ 32)
    (rest b : Bytes) (h : b = t ++ digits256 4 n ++ digits256 4 c ++ rest) :
    field b 0 2 = positional t ∧ field b 2 4 = n ∧ field b 6 4 = c ∧
    field b 10 2 = positional (rest.take 2) ∧ b.length = 10 + rest.length := by
  have p4 : (256 : Nat) ^ 4 = 2 ^ 32 := by decide
  subst h
  refine ⟨?_, ?_, ?_, ?_, by simp [ht]; omega⟩
  · rw [field, List.drop_zero, List.append_assoc, List.append_assoc, List.take_left' ht]
  · rw [field, List.append_assoc, List.append_assoc, List.drop_left' ht, List.take_left' (by simp),
      positional_digits256_of_lt (by omega)]
  · rw [field, List.append_assoc, List.drop_left' (by simp [ht]), List.take_left' (by simp),
      positional_digits256_of_lt (by omega)]
  · rw [field, List.drop_left' (by simp [ht])]

theorem random_params {params : Bytes} : Valid TPM2_GetRandom params ↔ params.length = 2 := by
  simp only [TPM2_GetRandom, T, rows, Valid, ValidRows, UINT16]
  constructor
  · rintro ⟨c, d, rfl, h, rfl⟩; simpa using h
  · intro h; exact ⟨params, [], by simp, h, rfl⟩

theorem random_response {b : Bytes} : Valid TPM2_GetRandom_Response b ↔
    ∃ c, b = digits256 2 c.length ++ c ∧ c.length ≤ 64 := by
  simp only [TPM2_GetRandom_Response, T, rows, Valid, ValidRows, TPM2B_DIGEST]
  constructor
  · rintro ⟨b, d, rfl, ⟨c, rfl, -, h⟩, rfl⟩; exact ⟨c, by simp, h⟩
  · rintro ⟨c, rfl, h⟩; exact ⟨_, [], by simp, ⟨c, rfl, by omega, h⟩, rfl⟩

/-! ### C79: commands -/

/-- A command of the standard without authorizations, in terms of its fields. -/
theorem plain_iff (req params : Bytes) :
    IsCommand 0x17B TPM2_GetRandom params [] req ↔
      AsksRandom req ∧ field req 0 2 = 0x8001 ∧ req.length = 12 ∧ req.drop 10 = params := by
  have p4 : (256 : Nat) ^ 4 = 2 ^ 32 := by decide
  constructor
  · rintro ⟨h1, -, h2⟩
    rw [random_params] at h1
    rw [if_pos rfl, if_pos rfl, List.append_nil] at h2
    have hl := congrArg List.length h2
    simp only [List.length_append, digits256_length, h1] at hl
    obtain ⟨a, b, c, -, -⟩ := fields_of _ (by simp) req.length 0x17B (by omega) (by decide) params req h2
    refine ⟨⟨⟨by omega, b⟩, c, by omega⟩, a, by omega, ?_⟩
    rw [h2, List.drop_left' (by simp)]
  · rintro ⟨⟨⟨-, h1⟩, h2, -⟩, h3, h4, h5⟩
    refine ⟨random_params.mpr (by rw [← h5]; simp [h4]), by simp, ?_⟩
    rw [if_pos rfl, if_pos rfl, List.append_nil]
    have d : ∀ o n, o + n ≤ 12 → digits256 n (field req o n) = (req.drop o).take n := by
      intro o n h
      have := digits256_positional ((req.drop o).take n)
      rwa [List.length_take, List.length_drop, h4, Nat.min_eq_left (by omega)] at this
    rw [← h3, d 0 2 (by omega), ← h1, d 2 4 (by omega), ← h2, d 6 4 (by omega), ← h5]
    have e : ∀ o n, (req.drop o).take n ++ req.drop (o + n) = req.drop o := by
      intro o n
      rw [← List.drop_drop, List.take_append_drop]
    rw [List.append_assoc, List.append_assoc, e 6 4, e 2 4]
    exact (e 0 2).symm

/-- **C79**: exactly the requests that are answered with success: those with the
size and the code of the command and a number of bytes that fits into the
response buffer, with any tag and anything behind the number. -/
theorem C79_answered (g : Drbg D) (hg : Reliable g) (es : Entropy E) (k : Crypto D E)
    (req rsp : Bytes) (h10 : 10 ≤ rsp.length) (r : Option Nat × Bytes × Crypto D E)
    (h : Served g es k req rsp r) :
    field r.2.1 6 4 = 0 ↔ ∃ t n more, t.length = 2 ∧ n < 65536 ∧ req.length < 2 ^ 32 ∧
      req = t ++ digits256 4 req.length ++ digits256 4 0x17B ++ digits256 2 n ++ more ∧
      10 + n ≤ rsp.length := by
  have p4 : (256 : Nat) ^ 4 = 2 ^ 32 := by decide
  have p2 : (256 : Nat) ^ 2 = 65536 := by decide
  have hE : ∀ c, c < 2 ^ 32 → field (errorAnswer rsp c k).2.1 6 4 = c := by
    intro c hc
    rw [errorAnswer, if_pos h10, field, List.append_assoc,
      List.drop_left' (by rw [List.length_take]; omega), List.take_left' (by simp),
      positional_digits256_of_lt (by omega)]
  constructor
  · intro h0
    have ha : AsksRandom req := by
      apply Classical.byContradiction
      intro ha
      rw [served_eq h, separate_eq] at h0
      rcases judge_error ha with hj | hj <;> rw [hj] at h0 <;> simp only at h0 <;>
        rw [hE _ (by decide)] at h0 <;> exact absurd h0 (by decide)
    have hf : 10 + field req 10 2 ≤ rsp.length := by
      apply Classical.byContradiction
      intro hf
      rw [C48_memory g es k req rsp ha (by omega) r h, hE _ (by decide)] at h0
      exact absurd h0 (by decide)
    obtain ⟨⟨h1, h2⟩, h3, h4⟩ := ha
    have d : ∀ o n, o + n ≤ 12 → digits256 n (field req o n) = (req.drop o).take n := by
      intro o n h
      have := digits256_positional ((req.drop o).take n)
      rwa [List.length_take, List.length_drop, Nat.min_eq_left (by omega)] at this
    have hlt : ∀ o n, field req o n < 256 ^ n := by
      intro o n
      exact Nat.lt_of_lt_of_le (positional_lt _) (Nat.pow_le_pow_right (by decide)
        (by rw [List.length_take]; omega))
    refine ⟨req.take 2, field req 10 2, req.drop 12, by rw [List.length_take]; omega,
      by rw [← p2]; exact hlt 10 2, by rw [← h2, ← p4]; exact hlt 2 4, ?_, hf⟩
    have e : ∀ o n, (req.drop o).take n ++ req.drop (o + n) = req.drop o := by
      intro o n
      rw [← List.drop_drop, List.take_append_drop]
    rw [d 10 2 (by omega), ← h3, d 6 4 (by omega), ← h2, d 2 4 (by omega), List.append_assoc,
      List.append_assoc, List.append_assoc, e 10 2, e 6 4, e 2 4]
    exact (List.take_append_drop 2 req).symm
  · rintro ⟨t, n, more, ht, hn, hl, hreq, hf⟩
    rw [List.append_assoc] at hreq
    obtain ⟨-, b, c, d, e⟩ := fields_of t ht req.length 0x17B hl (by decide) _ req hreq
    rw [List.take_left' (by simp), positional_digits256_of_lt (by omega)] at d
    simp only [List.length_append, digits256_length] at e
    obtain ⟨out, k', -, ho, hr⟩ := C48_reliable g hg es k req rsp ⟨⟨by omega, b⟩, c, by omega⟩
      (by rw [d]; exact hf) r h
    rw [hr]
    exact (fields_of [0x80, 0x01] rfl (10 + out.length) 0 (by omega) (by decide)
      (out ++ rsp.drop (10 + out.length)) _ (by simp [responseOf])).2.2.1

/-! ### C79: responses -/

theorem responseOf_is (out ps : Bytes) (auths : List Bytes) (hl : out.length < 2 ^ 32 - 10) :
    IsResponse TPM2_GetRandom_Response ps auths (responseOf 0 out) ↔
      auths = [] ∧ ps = out ∧ ∃ c, out = digits256 2 c.length ++ c ∧ c.length ≤ 64 := by
  constructor
  · intro h
    have ha : auths = [] := by
      rcases no_response h with ⟨-, ha, -⟩ | ⟨h, -⟩
      · exact ha
      · exact absurd (show ([0x80, 0x01] : Bytes) = [0x80, 0x02] from h) (by decide)
    obtain ⟨h1, -, h2⟩ := h
    subst ha
    rw [if_pos rfl, if_pos rfl, List.append_nil, List.flatten_nil, List.append_nil] at h2
    have e : ps = out := by
      have := congrArg (List.drop 10) h2
      rw [responseOf, List.drop_left' (by simp), List.drop_left' (by simp)] at this
      exact this.symm
    subst e
    exact ⟨rfl, rfl, random_response.mp h1⟩
  · rintro ⟨rfl, rfl, h⟩
    refine ⟨random_response.mpr h, by simp, ?_⟩
    rw [if_pos rfl, if_pos rfl, List.append_nil, List.flatten_nil, List.append_nil]
    have : (responseOf 0 ps).length = 10 + ps.length := by simp [responseOf]; omega
    rw [this]
    rfl

theorem asked {params req : Bytes} (hc : IsCommand 0x17B TPM2_GetRandom params [] req) :
    AsksRandom req ∧ field req 10 2 = positional params := by
  obtain ⟨h1, -, h2, h3⟩ := (plain_iff req params).mp hc
  refine ⟨h1, ?_⟩
  rw [field, ← h3, List.take_of_length_le (by rw [List.length_drop, h2]; decide)]

/-- **C79 (partial).** A command of the standard without authorizations whose
random bytes fit is answered with the header of a response of the standard and
the number of bytes demanded.  Missing: the size of the random bytes in front of
them; the answer is a response of the standard exactly if the random bytes
happen to be a size and that many bytes. -/
theorem C79_response_partial (g : Drbg D) (hg : Reliable g) (es : Entropy E) (k : Crypto D E)
    (params req rsp : Bytes) (hc : IsCommand 0x17B TPM2_GetRandom params [] req)
    (hfit : 10 + positional params ≤ rsp.length) (r : Option Nat × Bytes × Crypto D E)
    (h : Served g es k req rsp r) :
    ∃ out k', Produces g es k ((rsp.drop 10).take (positional params)) out k' ∧
      out.length = positional params ∧
      r = (some (10 + out.length), [0x80, 0x01] ++ digits256 4 (10 + out.length) ++
        digits256 4 0 ++ out ++ rsp.drop (10 + out.length), k') ∧
      ∀ ps auths, IsResponse TPM2_GetRandom_Response ps auths (r.2.1.take (10 + out.length)) ↔
        auths = [] ∧ ps = out ∧ ∃ c, out = digits256 2 c.length ++ c ∧ c.length ≤ 64 := by
  obtain ⟨h1, h2⟩ := asked hc
  obtain ⟨out, k', h3, h4, h5⟩ := C48_reliable g hg es k req rsp h1 (by rw [h2]; exact hfit) r h
  rw [h2] at h3 h4
  refine ⟨out, k', h3, h4, h5, fun ps auths => ?_⟩
  have hl : (responseOf 0 out).length = 10 + out.length := by simp [responseOf]; omega
  have := positional_lt params
  rw [random_params.mp hc.1] at this
  rw [h5]
  simp only
  rw [List.take_left' hl]
  exact responseOf_is out ps auths (by omega)

/-- **C79 is violated** by every generator: no answer to a command of the
standard for fewer than two or more than 66 bytes is a response of the standard,
and no response of the standard contains as many bytes as demanded. -/
theorem C79_violated (g : Drbg D) (hg : Reliable g) (es : Entropy E) (k : Crypto D E)
    (params req rsp : Bytes) (hc : IsCommand 0x17B TPM2_GetRandom params [] req)
    (hfit : 10 + positional params ≤ rsp.length) (r : Option Nat × Bytes × Crypto D E)
    (h : Served g es k req rsp r) (ps : Bytes) (auths : List Bytes)
    (hr : IsResponse TPM2_GetRandom_Response ps auths (r.2.1.take (10 + positional params))) :
    2 ≤ positional params ∧ positional params ≤ 66 ∧
    ∃ c, ps = digits256 2 c.length ++ c ∧ c.length + 2 = positional params := by
  obtain ⟨out, k', -, h1, -, h2⟩ := C79_response_partial g hg es k params req rsp hc hfit r h
  rw [h1] at h2
  obtain ⟨-, rfl, c, h3, h4⟩ := (h2 ps auths).mp hr
  have hl := congrArg List.length h3
  rw [List.length_append, digits256_length] at hl
  exact ⟨by omega, by omega, c, h3, by omega⟩

theorem first_half {L : Nat} (h : L < 65536) : (digits256 4 L).take 2 = [0, 0] := by
  have : digits256 4 L = [UInt8.ofNat (L / 16777216 % 256), UInt8.ofNat (L / 65536 % 256),
    UInt8.ofNat (L / 256 % 256), UInt8.ofNat (L % 256)] := by
    simp [digits256, List.range_succ]
  rw [this]
  simp only [List.take_succ_cons, List.take_zero]
  rw [Nat.div_eq_of_lt (by omega), Nat.div_eq_of_lt h]
  rfl

/-- **C79 is violated** by commands with authorizations: all of them, whatever
the authorizations and the number of random bytes demanded, are answered with
success and no random bytes, which is no response of the standard. -/
theorem C79_violated_sessions (g : Drbg D) (hg : Reliable g) (es : Entropy E) (k : Crypto D E)
    (params req rsp : Bytes) (auths : List Bytes) (ha : auths ≠ [])
    (hc : IsCommand 0x17B TPM2_GetRandom params auths req) (hl : auths.flatten.length < 65536)
    (h10 : 10 ≤ rsp.length) (r : Option Nat × Bytes × Crypto D E) (h : Served g es k req rsp r) :
    r.1 = some 10 ∧ r.2.1.take 10 = [0x80, 0x01, 0, 0, 0, 10, 0, 0, 0, 0] ∧
    ∀ ps as, ¬ IsResponse TPM2_GetRandom_Response ps as (r.2.1.take 10) := by
  obtain ⟨h1, -, h2⟩ := hc
  rw [random_params] at h1
  rw [if_neg ha, if_neg ha, List.append_assoc _ _ params] at h2
  have hlen := congrArg List.length h2
  simp only [List.length_append, digits256_length, h1] at hlen
  obtain ⟨-, b, c, d, -⟩ := fields_of _ (by simp) req.length 0x17B (by omega) (by decide) _ req h2
  rw [List.append_assoc, List.take_append_of_le_length (by simp), first_half hl] at d
  have d : field req 10 2 = 0 := d
  obtain ⟨out, k', -, h4, h5⟩ := C48_reliable g hg es k req rsp ⟨⟨by omega, b⟩, c, by omega⟩
    (by rw [d]; exact h10) r h
  rw [d] at h4
  have := List.length_eq_zero_iff.mp h4
  subst this
  have e : r.2.1.take 10 = responseOf 0 [] := by
    rw [h5]; exact List.take_left' (by simp [responseOf])
  refine ⟨by rw [h5]; rfl, by rw [e]; rfl, fun ps as hr => ?_⟩
  rw [e] at hr
  obtain ⟨-, -, c, h6, -⟩ := (responseOf_is [] ps as (by decide)).mp hr
  have := congrArg List.length h6
  simp at this
  omega

/-! ### C79: other commands -/

/-- The bytes are a response with an error code: Part 1, clause 18 (what
crates/tpm2-impl/src/tpmctx.rs:50-56 is for). -/
def IsError (code : Nat) (b : Bytes) : Prop :=
  b = [0x80, 0x01, 0, 0, 0, 10] ++ digits256 4 code

/-- **C79 (partial).** Every other command of the standard is answered with
COMMAND_CODE and leaves the generator alone.  Missing: the tag and the size;
the answer is a response of the standard exactly if they were in the response
buffer before. -/
theorem C79_unsupported_partial (g : Drbg D) (es : Entropy E) (k : Crypto D E) (cc : Nat) (p : Shape)
    (params req rsp : Bytes) (auths : List Bytes) (hc : IsCommand cc p params auths req)
    (hl : req.length < 2 ^ 32) (h32 : cc < 2 ^ 32) (hcc : cc ≠ 0x17B) (h10 : 10 ≤ rsp.length)
    (r : Option Nat × Bytes × Crypto D E) (h : Served g es k req rsp r) :
    r = (some 10, rsp.take 6 ++ digits256 4 0x143 ++ rsp.drop 10, k) ∧
    (IsError 0x143 (r.2.1.take 10) ↔ rsp.take 6 = [0x80, 0x01, 0, 0, 0, 10]) := by
  have h2 := hc.2.2
  rw [List.append_assoc _ _ params] at h2
  obtain ⟨-, b, c, -, hlen⟩ := fields_of _ (by simp) req.length cc hl h32 _ req h2
  have h1 := C47_bad_code g es k req rsp (by omega) b (by rw [c]; exact hcc) r h
  rw [errorAnswer, if_pos h10] at h1
  refine ⟨h1, ?_⟩
  have hl6 : (rsp.take 6).length = 6 := by rw [List.length_take]; omega
  rw [h1, IsError]
  simp only
  rw [List.take_left' (by rw [List.length_append, hl6, digits256_length])]
  exact ⟨fun h => List.append_inj_left h hl6, fun h => by rw [h]⟩

/-- **C79**: executed in place, a command of the standard that is not GetRandom
is answered with a response of the standard exactly if it consists of a header
without sessions. -/
theorem C79_in_place (g : Drbg D) (es : Entropy E) (k : Crypto D E) (cc : Nat) (p : Shape)
    (params req more : Bytes) (auths : List Bytes) (hc : IsCommand cc p params auths req)
    (hl : req.length < 2 ^ 32) (h32 : cc < 2 ^ 32) (hcc : cc ≠ 0x17B) :
    IsError 0x143 ((executeInPlace g es k (req ++ more) req.length).2.1.take 10) ↔
      auths = [] ∧ params = [] := by
  have h2 := hc.2.2
  have hlen := congrArg List.length h2
  simp only [List.length_append, digits256_length] at hlen
  have h10 : 10 ≤ (req ++ more).length := by rw [List.length_append]; omega
  obtain ⟨-, h3⟩ := C79_unsupported_partial g es k cc p params req (req ++ more) auths hc hl h32 hcc
    h10 _ (.inr ⟨req.length, by rw [List.take_left' rfl], rfl⟩)
  rw [h3, List.take_append_of_le_length (by omega)]
  have h6 : req.take 6 = digits256 2 (if auths = [] then 0x8001 else 0x8002) ++
      digits256 4 req.length := by
    conv => lhs; rw [h2]
    rw [List.append_assoc, List.append_assoc, List.take_left' (by simp)]
  rw [h6]
  constructor
  · intro h
    have h7 := List.append_inj_left (t₁ := digits256 4 req.length) (t₂ := [0, 0, 0, 10])
      (s₂ := [0x80, 0x01]) h (by simp)
    have h8 := List.append_inj_right (s₁ := digits256 2 (if auths = [] then 0x8001 else 0x8002))
      (t₂ := [0, 0, 0, 10]) (s₂ := [0x80, 0x01]) h (by simp)
    have ha : auths = [] := by
      apply Classical.byContradiction
      intro ha
      rw [if_neg ha] at h7
      exact absurd h7 (by decide)
    have h9 := congrArg positional h8
    rw [positional_digits256_of_lt (by omega)] at h9
    have h9 : req.length = 10 := h9
    exact ⟨ha, List.length_eq_zero_iff.mp (by omega)⟩
  · rintro ⟨rfl, rfl⟩
    simp only [if_pos, List.length_nil] at hlen
    rw [if_pos rfl, hlen]
    decide

/-! ### Examples -/

/-- A generator that does not fail. -/
def counter : Drbg Nat := { fakeDrbg with
  fillBytes := fun d _ b => (true, (fakeFill d b.length).1, (fakeFill d b.length).2)
  fillBytes_length := fun d _ b => fakeFill_length d b.length }

theorem counter_reliable : Reliable counter := ⟨fun _ _ _ => rfl, fun _ _ _ => rfl⟩

/-- GetRandom(2). -/
theorem exRequest_is : IsCommand 0x17B TPM2_GetRandom [0, 2] [] exRequest :=
  ⟨random_params.mpr rfl, by simp, by decide⟩

example := C79_answered counter counter_reliable fakeEntropy (fakeState 0) exRequest
  (List.replicate 12 0) (by decide) _ (.inl rfl)
example := C79_response_partial counter counter_reliable fakeEntropy (fakeState 0) _ exRequest
  (List.replicate 12 0) exRequest_is (by decide) _ (.inl rfl)
/-- The answer is 1, 2: not a response of the standard. -/
example (ps : Bytes) (auths : List Bytes) : ¬ IsResponse TPM2_GetRandom_Response ps auths
    ((executeSeparate counter fakeEntropy (fakeState 0) exRequest (List.replicate 12 0)).2.1.take 12) := by
  intro h
  have e : (executeSeparate counter fakeEntropy (fakeState 0) exRequest
      (List.replicate 12 0)).2.1.take 12 = responseOf 0 [1, 2] := by rfl
  rw [e] at h
  obtain ⟨-, -, c, h1, h2⟩ := (responseOf_is [1, 2] ps auths (by decide)).mp h
  have hl := congrArg List.length h1
  have : c = [] := by
    rw [List.length_append, digits256_length] at hl
    simpa using hl
  subst this
  exact absurd h1 (by decide)

/-- Two random bytes demanded with the password session of an empty password. -/
def exAuthorized : Bytes :=
  [0x80, 0x02, 0, 0, 0, 25, 0, 0, 0x01, 0x7B, 0, 0, 0, 9, 0x40, 0, 0, 9, 0, 0, 0, 0, 0, 0, 2]

theorem exAuthorized_is : IsCommand 0x17B TPM2_GetRandom [0, 2] [[0x40, 0, 0, 9, 0, 0, 0, 0, 0]]
    exAuthorized := by
  refine ⟨random_params.mpr rfl, ?_, by decide⟩
  intro a ha
  rw [List.mem_singleton] at ha
  subst ha
  rw [← agrees_auth, ← accepts_eq]
  decide +kernel

example := C79_violated_sessions counter counter_reliable fakeEntropy (fakeState 0) _ exAuthorized
  (List.replicate 12 0) _ (by decide) exAuthorized_is (by decide) (by decide) _ (.inl rfl)

/-- Startup(CLEAR). -/
theorem startup_is : IsCommand 0x144 TPM2_Startup [0, 0] []
    [0x80, 0x01, 0, 0, 0, 12, 0, 0, 0x01, 0x44, 0, 0] :=
  ⟨by simp only [TPM2_Startup, T, rows, Valid, ValidRows, TPM_SU]
      exact ⟨[0, 0], [], rfl, rfl, rfl⟩, by simp, by decide⟩

example := C79_unsupported_partial counter fakeEntropy (fakeState 0) _ _ _ _ (List.replicate 10 0) _
  startup_is (by decide) (by decide) (by decide) (by decide) _ (.inl rfl)
/-- So Startup is not answered as the standard says, even in place. -/
example : ¬ IsError 0x143 ((executeInPlace counter fakeEntropy (fakeState 0)
    [0x80, 0x01, 0, 0, 0, 12, 0, 0, 0x01, 0x44, 0, 0] 12).2.1.take 10) := by
  have := C79_in_place counter fakeEntropy (fakeState 0) _ _ _ _ [] _ startup_is (by decide)
    (by decide) (by decide)
  rw [List.append_nil] at this
  intro h
  exact absurd (this.mp h).2 (by decide)

end Verif.Tcg
