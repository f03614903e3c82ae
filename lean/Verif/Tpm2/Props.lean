import Verif.Tpm2.Impl
import Verif.Codec.IntLemmas
import Verif.Codec.Unmarshal
import Verif.Codec.Marshal
import Verif.Codec.Check
import Verif.Base.Types

/-
Property theorems C27-C30: the zero-copy structure crate.
-/

namespace Verif.Tpm2
open Verif

/-! ### Specification -/

/-- TPM_ALG_ID and digest size of each hash algorithm (TCG Algorithm Registry). -/
def registry : List (Hash × Nat × Nat) :=
  [(.sha1, 4, 20), (.sha256, 11, 32), (.sha384, 12, 48), (.sha512, 13, 64), (.sm3_256, 18, 32),
   (.sha3_256, 39, 32), (.sha3_384, 40, 48), (.sha3_512, 41, 64)]

/-- The encoding of a TPMT_HA: the algorithm identifier and the digest. -/
def haWire (v : TpmtHa) : Bytes :=
  match v with
  | .sha1 d => digits256 2 4 ++ d.val
  | .sha256 d => digits256 2 11 ++ d.val
  | .sha384 d => digits256 2 12 ++ d.val
  | .sha512 d => digits256 2 13 ++ d.val

/-! ### Lemmas -/

theorem haWire_eq (v : TpmtHa) : haWire v = toBE 2 v.hashAlg.toAlg ++ v.digest := by
  rw [toBE_eq_digits256]; cases v <;> rfl

theorem digest_length (v : TpmtHa) : v.digest.length = v.hashAlg.digestSize := by
  cases v <;> rename_i d <;> exact d.2

theorem toBE_length (n x : Nat) : (toBE n x).length = n := by
  rw [toBE_eq_digits256]; exact digits256_length n x

theorem haWire_length (v : TpmtHa) : (haWire v).length = 2 + v.hashAlg.digestSize := by
  rw [haWire_eq, List.length_append, toBE_length, digest_length]

theorem marshal_eq (l : Limits) (v : TpmtHa) (buf : Bytes) :
    v.marshal l buf =
      if !l.supportsHash v.hashAlg then (none, buf)
      else
        match marshalHash v.hashAlg buf with
        | (none, buf) => (none, buf)
        | (some n, buf) =>
          ((marshalArray v.hashAlg.digestSize v.digest (buf.drop n)).1.map (n + ·),
            buf.take n ++ (marshalArray v.hashAlg.digestSize v.digest (buf.drop n)).2) := by
  unfold TpmtHa.marshal
  generalize hm : marshalHash v.hashAlg buf = m
  obtain ⟨_ | n, b⟩ := m
  · rfl
  · cases v <;> simp only [TpmtHa.hashAlg, TpmtHa.digest, Hash.digestSize]

theorem decodeHash_toBE (h : Hash) : decodeHash (toBE 2 h.toAlg) = some h := by
  cases h <;> decide

theorem take2_append (h : Hash) (x : Bytes) :
    splitFirstChunk 2 (toBE 2 h.toAlg ++ x) = some (toBE 2 h.toAlg, x) := by
  have hl := toBE_length 2 h.toAlg
  unfold splitFirstChunk
  rw [if_pos (by simp [hl])]
  have h1 : (toBE 2 h.toAlg ++ x).take 2 = toBE 2 h.toAlg := by
    have := List.take_left (l₁ := toBE 2 h.toAlg) (l₂ := x); rwa [hl] at this
  have h2 : (toBE 2 h.toAlg ++ x).drop 2 = x := by
    have := List.drop_left (l₁ := toBE 2 h.toAlg) (l₂ := x); rwa [hl] at this
  rw [h1, h2]

theorem takeDigest_append (n : Nat) (mk : ByteArr n → TpmtHa) (self : TpmtHa) (d : ByteArr n)
    (rest : Bytes) : takeDigest n mk self (d.val ++ rest) = (some rest, mk d) := by
  obtain ⟨d, rfl⟩ := d
  unfold takeDigest
  simp

theorem unmarshal_haWire (l : Limits) (self v : TpmtHa) (rest : Bytes)
    (hs : l.supportsHash v.hashAlg = true) :
    TpmtHa.unmarshal l self (haWire v ++ rest) = (some rest, v) := by
  rw [haWire_eq, List.append_assoc]
  unfold TpmtHa.unmarshal
  rw [take2_append]
  simp only [decodeHash_toBE]
  cases v <;> simp only [TpmtHa.hashAlg] at hs ⊢ <;>
    simp only [hs, if_true, TpmtHa.digest] <;> exact takeDigest_append _ _ _ _ _

/-- What any outcome of `unmarshal` looks like. -/
theorem unmarshal_cases (l : Limits) (self : TpmtHa) (b : Bytes) :
    (∃ v rest, TpmtHa.unmarshal l self b = (some rest, v) ∧ l.supportsHash v.hashAlg = true ∧
      b = haWire v ++ rest) ∨ TpmtHa.unmarshal l self b = (none, self) := by
  unfold TpmtHa.unmarshal splitFirstChunk
  by_cases hb : 2 ≤ b.length
  · rw [if_pos hb]
    have hsplit : b = b.take 2 ++ b.drop 2 := (List.take_append_drop 2 b).symm
    have hlen : (b.take 2).length = 2 := by simp [hb]
    generalize htag : b.take 2 = tag at *
    generalize b.drop 2 = x at *
    simp only
    have hdec : ∀ h, decodeHash tag = some h → tag = toBE 2 h.toAlg := by
      intro h hh
      have hpos : fromBE tag = h.toAlg := by
        unfold decodeHash Hash.tryFrom at hh
        repeat' split at hh
        all_goals first | (injection hh with hh; subst hh; assumption) | (exact absurd hh (by simp))
      rw [toBE_eq_digits256, ← hpos, fromBE_eq_positional, ← hlen]
      exact (digits256_positional tag).symm
    have key : ∀ (h : Hash) (n : Nat) (mk : ByteArr n → TpmtHa), decodeHash tag = some h →
        (∀ d, (mk d).hashAlg = h ∧ (mk d).digest = d.val) → l.supportsHash h = true →
        ((∃ v rest, takeDigest n mk self x = (some rest, v) ∧ l.supportsHash v.hashAlg = true ∧
          b = haWire v ++ rest) ∨ takeDigest n mk self x = (none, self)) := by
      intro h n mk hh hmk hsup
      unfold takeDigest
      by_cases hx : n ≤ x.length
      · left
        refine ⟨mk ⟨x.take n, by simp [hx]⟩, x.drop n, by rw [dif_pos hx], ?_, ?_⟩
        · rw [(hmk _).1]; exact hsup
        · rw [haWire_eq, (hmk _).1, (hmk _).2, List.append_assoc, List.take_append_drop,
            ← hdec h hh]
          exact hsplit
      · right; rw [dif_neg hx]
    cases hd : decodeHash tag with
    | none => right; rfl
    | some h =>
      cases h <;> simp only
      case sha1 =>
        by_cases hs : l.supportsHash .sha1 = true
        · rw [if_pos hs]; exact key .sha1 20 .sha1 hd (fun d => ⟨rfl, rfl⟩) hs
        · rw [if_neg hs]; right; rfl
      case sha256 =>
        by_cases hs : l.supportsHash .sha256 = true
        · rw [if_pos hs]; exact key .sha256 32 .sha256 hd (fun d => ⟨rfl, rfl⟩) hs
        · rw [if_neg hs]; right; rfl
      case sha384 =>
        by_cases hs : l.supportsHash .sha384 = true
        · rw [if_pos hs]; exact key .sha384 48 .sha384 hd (fun d => ⟨rfl, rfl⟩) hs
        · rw [if_neg hs]; right; rfl
      case sha512 =>
        by_cases hs : l.supportsHash .sha512 = true
        · rw [if_pos hs]; exact key .sha512 64 .sha512 hd (fun d => ⟨rfl, rfl⟩) hs
        · rw [if_neg hs]; right; rfl
      all_goals right; trivial
  · rw [if_neg hb]; right; rfl

/-- The advertised maximum is the largest supported digest size. -/
theorem maxDigest_ge (l : Limits) (h : Hash) (hs : l.supportsHash h = true) :
    h.digestSize ≤ l.maxDigestSize := by
  unfold Limits.maxDigestSize Hash.bySizeDesc
  simp only [maxDigestLoop]
  cases h <;> repeat' split
  all_goals first
    | (simp only [Hash.digestSize]; omega)
    | contradiction

/-! ### Concrete data -/

/-- Limits of an implementation that supports only SHA-1 and SHA-256. -/
def exLimits : Limits := ⟨fun h => h == .sha1 || h == .sha256⟩
/-- A SHA-256 digest. -/
def exHa : TpmtHa := .sha256 ⟨List.replicate 32 0xAB, by simp⟩

example : exLimits.maxDigestSize = 32 := by decide
example : exLimits.supportsHash exHa.hashAlg = true := by decide

/-! ### C27 -/

/-- **C27.** Marshalling a supported digest writes exactly its encoding, reports
the number of bytes written, stays within the advertised maximum, leaves the
rest of the buffer alone, and unmarshalling the encoding (under the same
limits, into any previous value, followed by anything) gives it back. -/
theorem C27_round_trip (l : Limits) (v self : TpmtHa) (buf rest : Bytes)
    (hs : l.supportsHash v.hashAlg = true) (hb : (haWire v).length ≤ buf.length) :
    v.marshal l buf = (some (haWire v).length, haWire v ++ buf.drop (haWire v).length) ∧
    v.marshaledSize = (haWire v).length ∧ v.marshaledSize ≤ marshaledSizeMax l ∧
    TpmtHa.unmarshal l self (haWire v ++ rest) = (some rest, v) := by
  have hlen := haWire_length v
  refine ⟨?_, by rw [hlen]; rfl, ?_, unmarshal_haWire l self v rest hs⟩
  · rw [marshal_eq, hs]
    have h1 : marshalHash v.hashAlg buf = (some 2, toBE 2 v.hashAlg.toAlg ++ buf.drop 2) := by
      unfold marshalHash marshalArray splitFirstChunk
      rw [if_pos (by omega)]
    have hd : ∀ x : Bytes, (toBE 2 v.hashAlg.toAlg ++ x).drop 2 = x := fun x => by
      have := List.drop_left (l₁ := toBE 2 v.hashAlg.toAlg) (l₂ := x)
      rwa [toBE_length] at this
    have ht : ∀ x : Bytes, (toBE 2 v.hashAlg.toAlg ++ x).take 2 = toBE 2 v.hashAlg.toAlg :=
      fun x => by
        have := List.take_left (l₁ := toBE 2 v.hashAlg.toAlg) (l₂ := x)
        rwa [toBE_length] at this
    have h2 : marshalArray v.hashAlg.digestSize v.digest (buf.drop 2) =
        (some v.hashAlg.digestSize, v.digest ++ buf.drop (haWire v).length) := by
      unfold marshalArray splitFirstChunk
      rw [if_pos (by simp; omega), List.drop_drop, hlen]
    simp only [h1, hd, ht, h2, Option.map_some, Bool.not_true, Bool.false_eq_true, if_false]
    rw [haWire_eq, List.append_assoc, ← haWire_eq, hlen]
  · have := maxDigest_ge l _ hs
    simp only [TpmtHa.marshaledSize, marshaledSizeMax]; omega

/-- A destination shorter than the encoding is an error, and no byte beyond it
is touched (its length does not change). -/
theorem C27_short_buffer (l : Limits) (v : TpmtHa) (buf : Bytes)
    (hb : buf.length < (haWire v).length) :
    (v.marshal l buf).1 = none ∧ (v.marshal l buf).2.length = buf.length := by
  rw [haWire_length] at hb
  rw [marshal_eq]
  by_cases hs : l.supportsHash v.hashAlg = true
  · rw [hs]
    unfold marshalHash marshalArray splitFirstChunk
    have hl := toBE_length 2 v.hashAlg.toAlg
    by_cases h2 : 2 ≤ buf.length
    · rw [if_pos h2]
      have hd : (toBE 2 v.hashAlg.toAlg ++ buf.drop 2).length = buf.length := by
        simp [hl]; omega
      simp only [Bool.not_true, Bool.false_eq_true, if_false]
      rw [if_neg (by rw [List.length_drop, hd]; omega)]
      simp only [List.take_append_drop, Option.map_none, hd, and_self]
    · rw [if_neg h2]; simp
  · simp [hs]

/-- Fixed-size integers: the same round trip. -/
theorem C27_integers (n x self : Nat) (buf rest : Bytes) (hx : x < 256 ^ n)
    (hb : n ≤ buf.length) :
    marshalInt n x buf = (some n, digits256 n x ++ buf.drop n) ∧
    unmarshalInt n self (digits256 n x ++ rest) = (some rest, x) := by
  constructor
  · unfold marshalInt marshalArray splitFirstChunk
    rw [if_pos hb, toBE_eq_digits256]
  · unfold unmarshalInt unmarshalArray splitFirstChunk
    have hl : (digits256 n x).length = n := digits256_length n x
    have ht : (digits256 n x ++ rest).take n = digits256 n x := by
      have := List.take_left (l₁ := digits256 n x) (l₂ := rest); rwa [hl] at this
    have hd : (digits256 n x ++ rest).drop n = rest := by
      have := List.drop_left (l₁ := digits256 n x) (l₂ := rest); rwa [hl] at this
    rw [if_pos (by simp [hl])]
    simp only [ht, hd, fromBE_eq_positional, positional_digits256_of_lt hx]

/-- **C27.** With too few bytes an integer is neither written nor read: the call
fails, and the buffer and the destination are as before. -/
theorem C27_integers_short (n x self : Nat) (buf : Bytes) (hb : buf.length < n) :
    marshalInt n x buf = (none, buf) ∧ unmarshalInt n self buf = (none, self) := by
  have h : ¬ n ≤ buf.length := by omega
  constructor
  · simp only [marshalInt, marshalArray, splitFirstChunk, if_neg h]
  · simp only [unmarshalInt, unmarshalArray, splitFirstChunk, if_neg h]

example : marshalInt 4 7 [1, 2, 3] = (none, [1, 2, 3]) ∧
    unmarshalInt 4 7 [1, 2, 3] = (none, 7) := C27_integers_short 4 7 7 [1, 2, 3] (by decide)

/-- The advertised maximum is exact: it is the size of the largest supported
digest, or just the tag if no algorithm is supported. -/
theorem C27_max_exact (l : Limits) :
    (∀ h, l.supportsHash h = true → 2 + h.digestSize ≤ marshaledSizeMax l) ∧
    ((∃ h, l.supportsHash h = true ∧ marshaledSizeMax l = 2 + h.digestSize) ∨
      ((∀ h, l.supportsHash h = false) ∧ marshaledSizeMax l = 2)) := by
  refine ⟨fun h hs => by have := maxDigest_ge l h hs; simp only [marshaledSizeMax]; omega, ?_⟩
  have key : ∀ hs : List Hash, (∃ h, l.supportsHash h = true ∧ maxDigestLoop l hs = h.digestSize) ∨
      ((∀ h ∈ hs, l.supportsHash h = false) ∧ maxDigestLoop l hs = 0) := by
    intro hs
    induction hs with
    | nil => right; simp [maxDigestLoop]
    | cons h hs ih =>
      by_cases hh : l.supportsHash h = true
      · left; exact ⟨h, hh, by simp [maxDigestLoop, hh]⟩
      · rcases ih with ⟨h', h1, h2⟩ | ⟨h1, h2⟩
        · left; exact ⟨h', h1, by simp [maxDigestLoop, hh, h2]⟩
        · right
          refine ⟨?_, by simp [maxDigestLoop, hh, h2]⟩
          intro x hx
          rcases List.mem_cons.1 hx with rfl | hx
          · simpa using hh
          · exact h1 x hx
  rcases key Hash.bySizeDesc with ⟨h, h1, h2⟩ | ⟨h1, h2⟩
  · left; exact ⟨h, h1, by simp [marshaledSizeMax, Limits.maxDigestSize, h2]⟩
  · right
    refine ⟨fun h => h1 h ?_, by simp [marshaledSizeMax, Limits.maxDigestSize, h2]⟩
    cases h <;> decide

example : exHa.marshal exLimits (List.replicate 40 0) =
    (some 34, [0, 11] ++ List.replicate 32 0xAB ++ List.replicate 6 0) := by decide

/-! ### C28 -/

/-- **C28, marshalling.** An unsupported digest is refused and nothing is
written. -/
theorem C28_marshal_unsupported (l : Limits) (v : TpmtHa) (buf : Bytes)
    (hs : l.supportsHash v.hashAlg = false) : v.marshal l buf = (none, buf) := by
  rw [marshal_eq, hs]; rfl

/-- **C28, unmarshalling.** Unmarshalling succeeds only for supported
algorithms and only on the encoding of the result; every failure leaves the
destination as it was. -/
theorem C28_unmarshal_limits (l : Limits) (self : TpmtHa) (b : Bytes) :
    (∃ v rest, TpmtHa.unmarshal l self b = (some rest, v) ∧ l.supportsHash v.hashAlg = true ∧
      b = haWire v ++ rest) ∨ TpmtHa.unmarshal l self b = (none, self) :=
  unmarshal_cases l self b

/-- **C28, unmarshalling.** Any input tagged with an algorithm of the registry
that the limits do not support is refused, whatever follows the tag. -/
theorem C28_unmarshal_unsupported (l : Limits) (self : TpmtHa) (h : Hash) (id size : Nat)
    (b : Bytes) (hreg : (h, id, size) ∈ registry) (hs : l.supportsHash h = false) :
    TpmtHa.unmarshal l self (digits256 2 id ++ b) = (none, self) := by
  have hid : id = h.toAlg := by
    revert hreg; simp only [registry, List.mem_cons, List.not_mem_nil, or_false, Prod.mk.injEq]
    rintro (h | h | h | h | h | h | h | h) <;> obtain ⟨rfl, rfl, rfl⟩ := h <;> rfl
  subst hid
  rw [← toBE_eq_digits256]
  unfold TpmtHa.unmarshal
  rw [take2_append]
  simp only [decodeHash_toBE]
  cases h <;> simp [hs]

example : exLimits.supportsHash .sha512 = false := by decide
example : TpmtHa.unmarshal exLimits exHa ([0, 13] ++ List.replicate 64 1) = (none, exHa) :=
  C28_unmarshal_unsupported exLimits exHa .sha512 13 64 _ (by decide) rfl

/-! ### C29 -/

/-- **C29, structure crate to zero-copy crate.** -/
theorem C29_base_to_tpm2 (l : Limits) (self : TpmtHa) (w : Val) (rest : Bytes)
    (hw : WF Base.TpmtHa w) (alg : Nat) (d : Bytes) (hv : w = .enum alg [.bytes d])
    (h : Hash) (hh : (h, alg, d.length) ∈ registry) (hsm : h ≠ .sm3_256)
    (hs : l.supportsHash h = true) :
    ∃ v, TpmtHa.unmarshal l self (wire Base.TpmtHa w ++ rest) = (some rest, v) ∧
      v.hashAlg = h ∧ v.digest = d := by
  subst hv
  have hwf : alg ∈ [4, 11, 12, 13, 18] := by
    apply Classical.byContradiction
    intro hne
    simp only [List.mem_cons, List.not_mem_nil, or_false, not_or] at hne
    simp [Base.TpmtHa, Base.E, Base.variants, WF, WFVariant, Base.Alg.SHA1, Base.Alg.SHA256,
      Base.Alg.SHA384, Base.Alg.SHA512, Base.Alg.SM3256, hne] at hw
  have fin : ∀ v : TpmtHa, wire Base.TpmtHa (.enum alg [.bytes d]) = haWire v →
      v.hashAlg = h → v.digest = d →
      ∃ v, TpmtHa.unmarshal l self (wire Base.TpmtHa (.enum alg [.bytes d]) ++ rest) =
        (some rest, v) ∧ v.hashAlg = h ∧ v.digest = d := fun v h1 h2 h3 =>
    ⟨v, by rw [h1]; exact unmarshal_haWire l self v rest (h2 ▸ hs), h2, h3⟩
  clear hw
  revert hh
  simp only [registry, List.mem_cons, List.not_mem_nil, or_false, Prod.mk.injEq]
  rintro (h | h | h | h | h | h | h | h) <;> obtain ⟨rfl, rfl, hl⟩ := h
  · exact fin (.sha1 ⟨d, hl⟩) (by simp [Base.TpmtHa, Base.E, Base.variants, Base.plains, wire, wireVariant, wireFields, haWire, Base.Alg.SHA1]) rfl rfl
  · exact fin (.sha256 ⟨d, hl⟩) (by simp [Base.TpmtHa, Base.E, Base.variants, Base.plains, wire, wireVariant, wireFields, haWire, Base.Alg.SHA1, Base.Alg.SHA256]) rfl rfl
  · exact fin (.sha384 ⟨d, hl⟩) (by simp [Base.TpmtHa, Base.E, Base.variants, Base.plains, wire, wireVariant, wireFields, haWire, Base.Alg.SHA1, Base.Alg.SHA256, Base.Alg.SHA384]) rfl rfl
  · exact fin (.sha512 ⟨d, hl⟩) (by simp [Base.TpmtHa, Base.E, Base.variants, Base.plains, wire, wireVariant, wireFields, haWire, Base.Alg.SHA1, Base.Alg.SHA256, Base.Alg.SHA384, Base.Alg.SHA512]) rfl rfl
  · exact absurd rfl hsm
  · simp at hwf
  · simp at hwf
  · simp at hwf

/-- **C29, zero-copy crate to structure crate.** -/
theorem C29_tpm2_to_base (v : TpmtHa) (rest : Bytes) :
    ∃ alg d, unmarshal Base.TpmtHa (haWire v ++ rest) = (.ok (.enum alg [.bytes d]), rest) ∧
      (v.hashAlg, alg, d.length) ∈ registry ∧ d = v.digest := by
  have fin : ∀ (w : Val), WF Base.TpmtHa w → canon Base.TpmtHa w = w →
      wire Base.TpmtHa w = haWire v →
      unmarshal Base.TpmtHa (haWire v ++ rest) = (.ok w, rest) := by
    intro w h1 h2 h3
    have := (goodTy Base.TpmtHa).complete w rest h1
    rwa [h2, h3] at this
  cases v with
  | sha1 d =>
    refine ⟨4, d.val, fin _ ?_ ?_ ?_, by simp [registry, TpmtHa.hashAlg, d.2], rfl⟩ <;>
    simp [Base.TpmtHa, Base.E, Base.variants, Base.plains, WF, WFVariant, WFFields, canon, canonVariant, canonFields, wire, wireVariant, wireFields, haWire, Base.Alg.SHA1, d.2]
  | sha256 d =>
    refine ⟨11, d.val, fin _ ?_ ?_ ?_, by simp [registry, TpmtHa.hashAlg, d.2], rfl⟩ <;>
    simp [Base.TpmtHa, Base.E, Base.variants, Base.plains, WF, WFVariant, WFFields, canon, canonVariant, canonFields, wire, wireVariant, wireFields, haWire, Base.Alg.SHA1, Base.Alg.SHA256, d.2]
  | sha384 d =>
    refine ⟨12, d.val, fin _ ?_ ?_ ?_, by simp [registry, TpmtHa.hashAlg, d.2], rfl⟩ <;>
    simp [Base.TpmtHa, Base.E, Base.variants, Base.plains, WF, WFVariant, WFFields, canon, canonVariant, canonFields, wire, wireVariant, wireFields, haWire, Base.Alg.SHA1, Base.Alg.SHA256, Base.Alg.SHA384, d.2]
  | sha512 d =>
    refine ⟨13, d.val, fin _ ?_ ?_ ?_, by simp [registry, TpmtHa.hashAlg, d.2], rfl⟩ <;>
    simp [Base.TpmtHa, Base.E, Base.variants, Base.plains, WF, WFVariant, WFFields, canon, canonVariant, canonFields, wire, wireVariant, wireFields, haWire, Base.Alg.SHA1, Base.Alg.SHA256, Base.Alg.SHA384, Base.Alg.SHA512, d.2]

/-- The one algorithm that exists only in the structure crate's tagged digest is
rejected by the zero-copy crate even if supported. -/
theorem C29_sm3_only_in_base (l : Limits) (self : TpmtHa) (b : Bytes) :
    TpmtHa.unmarshal l self (digits256 2 18 ++ b) = (none, self) := by
  rw [show digits256 2 18 = toBE 2 Hash.sm3_256.toAlg from rfl]
  unfold TpmtHa.unmarshal
  rw [take2_append]
  simp only [decodeHash_toBE]

example : WF Base.TpmtHa (.enum 11 [.bytes (List.replicate 32 0xAB)]) := by decide

/-! ### C30 -/

/-- **C30.** Conversion to the identifier and back is the identity; conversion
from an identifier succeeds exactly for the registry's hash algorithms, and
the digest sizes are the registry's. -/
theorem C30_conversions (h : Hash) (a : Nat) :
    Hash.tryFrom h.toAlg = some h ∧ (Hash.tryFrom a = some h ↔ a = h.toAlg) ∧
    (h, h.toAlg, h.digestSize) ∈ registry ∧
    ((Hash.tryFrom a).isSome = true ↔ ∃ g n, (g, a, n) ∈ registry) ∧ h.toAlg < 65536 := by
  have h1 : Hash.tryFrom h.toAlg = some h := by cases h <;> rfl
  have h3 : ∀ h : Hash, (h, h.toAlg, h.digestSize) ∈ registry := by intro h; cases h <;> decide
  have h2 : ∀ h, Hash.tryFrom a = some h ↔ a = h.toAlg := by
    intro h
    constructor
    · intro hh
      unfold Hash.tryFrom at hh
      repeat' split at hh
      all_goals first | (injection hh with hh; subst hh; assumption) | (exact absurd hh (by simp))
    · rintro rfl; cases h <;> rfl
  refine ⟨h1, h2 h, h3 h, ?_, by cases h <;> decide⟩
  constructor
  · intro hs
    obtain ⟨g, hg⟩ := Option.isSome_iff_exists.1 hs
    exact ⟨g, g.digestSize, by rw [(h2 g).1 hg]; exact h3 g⟩
  · rintro ⟨g, n, hg⟩
    have : a = g.toAlg := by
      revert hg; simp only [registry, List.mem_cons, List.not_mem_nil, or_false, Prod.mk.injEq]
      rintro (h | h | h | h | h | h | h | h) <;> obtain ⟨rfl, rfl, rfl⟩ := h <;> rfl
    rw [(h2 g).2 this]; rfl

example : Hash.tryFrom 0x27 = some .sha3_256 ∧ Hash.tryFrom 1 = none := by decide

end Verif.Tpm2
