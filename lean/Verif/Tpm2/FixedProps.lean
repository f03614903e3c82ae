import Verif.Tpm2.Fixed
import Verif.Tpm2.Props

/-
Property theorems C86: fixed-size values.
-/

namespace Verif.Tpm2
open Verif

/-! ### Specification -/

/-- The integer of a two's-complement byte string, most significant byte first:
the positional value, less 256^n if the highest bit is set. -/
def signedValue : Bytes → Int
  | [] => 0
  | x :: xs =>
      (positional (x :: xs) : Int) - if 128 ≤ x.toNat then ((256 ^ (x :: xs).length : Nat) : Int) else 0

/-- `b` is the encoding of `v`. -/
def Encodes : (f : Fixed) → f.Value → Bytes → Prop
  | .uint n, x, b => b.length = n ∧ positional b = x.val
  | .sint n, x, b => b.length = n ∧ signedValue b = x.val
  | .bytes n, x, b => b.length = n ∧ b = x.val
  | .alg, x, b => b.length = 2 ∧ positional b = x.val
  | .hash, h, b => b.length = 2 ∧ ∃ k, (h, positional b, k) ∈ registry

/-- Integers have at least one byte. -/
def Fixed.Proper : Fixed → Prop
  | .sint n => 0 < n
  | _ => True

/-! ### Lemmas -/

theorem signedValue_cons (x : UInt8) (xs : Bytes) : signedValue (x :: xs) =
    (positional (x :: xs) : Int) -
      if 128 ≤ x.toNat then ((256 ^ (x :: xs).length : Nat) : Int) else 0 := rfl

theorem high_bit (x : UInt8) (xs : Bytes) :
    2 * positional (x :: xs) < 256 ^ (x :: xs).length ↔ ¬ 128 ≤ x.toNat := by
  have h1 := positional_lt xs
  simp only [positional, List.length_cons, Nat.pow_succ]
  generalize 256 ^ xs.length = K at *
  constructor
  · intro h hx
    have := Nat.mul_le_mul_right K hx
    omega
  · intro hx
    have := Nat.mul_le_mul_right K (show x.toNat ≤ 127 by omega)
    omega

theorem fromBEi_signed (b : Bytes) (hb : b ≠ []) : fromBEi b.length b = signedValue b := by
  cases b with
  | nil => exact absurd rfl hb
  | cons x xs =>
    unfold fromBEi
    rw [signedValue_cons, fromBE_eq_positional]
    by_cases h : 128 ≤ x.toNat
    · rw [if_pos h, if_neg (fun hc => (high_bit x xs).1 hc h)]
    · rw [if_neg h, if_pos ((high_bit x xs).2 h)]; omega

theorem signedValue_range (b : Bytes) (hb : b ≠ []) :
    -((256 ^ b.length : Nat) : Int) ≤ 2 * signedValue b ∧
    2 * signedValue b < ((256 ^ b.length : Nat) : Int) := by
  cases b with
  | nil => exact absurd rfl hb
  | cons x xs =>
    have h1 := positional_lt (x :: xs)
    have h2 := high_bit x xs
    rw [signedValue_cons]
    split <;> rename_i h
    · have : ¬ 2 * positional (x :: xs) < 256 ^ (x :: xs).length := fun hc => h2.1 hc h
      omega
    · have := h2.2 h
      omega

theorem signedValue_toBEi (n : Nat) (x : Int) (hn : 0 < n)
    (h1 : -((256 ^ n : Nat) : Int) ≤ 2 * x) (h2 : 2 * x < ((256 ^ n : Nat) : Int)) :
    (toBEi n x).length = n ∧ signedValue (toBEi n x) = x := by
  have hl : (toBEi n x).length = n := toBE_length _ _
  refine ⟨hl, ?_⟩
  have hne : toBEi n x ≠ [] := by intro hc; rw [hc] at hl; simp at hl; omega
  rw [← fromBEi_signed _ hne, hl]
  unfold fromBEi toBEi
  rw [fromBE_eq_positional, toBE_eq_digits256]
  have hpos : 0 < 256 ^ n := Nat.pow_pos (by decide)
  generalize hK : 256 ^ n = K at *
  have hlt : (x % (K : Int)).toNat < 256 ^ n := by
    have := Int.emod_lt_of_pos x (show (0 : Int) < K by omega)
    have := Int.emod_nonneg x (show (K : Int) ≠ 0 by omega)
    omega
  rw [positional_digits256_of_lt hlt]
  have hnn := Int.emod_nonneg x (show (K : Int) ≠ 0 by omega)
  by_cases hx : 0 ≤ x
  · have : x % (K : Int) = x := Int.emod_eq_of_lt hx (by omega)
    rw [this, if_pos (by omega)]; omega
  · have : x % (K : Int) = x + K := by
      rw [← Int.add_emod_right]; exact Int.emod_eq_of_lt (by omega) (by omega)
    rw [this, if_neg (by omega)]; omega

theorem registry_toAlg {h : Hash} {a k : Nat} (hr : (h, a, k) ∈ registry) : a = h.toAlg := by
  revert hr
  simp only [registry, List.mem_cons, List.not_mem_nil, or_false, Prod.mk.injEq]
  rintro (h | h | h | h | h | h | h | h) <;> obtain ⟨rfl, rfl, rfl⟩ := h <;> rfl

theorem enc_encodes (f : Fixed) (hf : f.Proper) (v : f.Value) : Encodes f v (f.enc v) := by
  cases f with
  | uint n =>
    exact ⟨toBE_length _ _, by simp only [Fixed.enc, toBE_eq_digits256]; exact positional_digits256_of_lt v.2⟩
  | sint n => exact signedValue_toBEi n v.val hf v.2.1 v.2.2
  | bytes n => exact ⟨v.2, rfl⟩
  | alg =>
    exact ⟨toBE_length _ _, by simp only [Fixed.enc, toBE_eq_digits256]; exact positional_digits256_of_lt v.2⟩
  | hash =>
    refine ⟨toBE_length _ _, v.digestSize, ?_⟩
    simp only [Fixed.enc, toBE_eq_digits256]
    have := (C30_conversions v 0).2.2.2.2
    rw [positional_digits256_of_lt (by simpa using this)]
    exact (C30_conversions v 0).2.2.1

theorem positional_inj {a b : Bytes} (hl : a.length = b.length) (h : positional a = positional b) :
    a = b := by
  rw [← digits256_positional a, ← digits256_positional b, hl, h]

theorem signedValue_inj {a b : Bytes} (hl : a.length = b.length)
    (h : signedValue a = signedValue b) : a = b := by
  cases a with
  | nil => cases b with
    | nil => rfl
    | cons y ys => simp at hl
  | cons x xs =>
    cases b with
    | nil => simp at hl
    | cons y ys =>
      refine positional_inj hl ?_
      have h1 := positional_lt (x :: xs)
      have h2 := positional_lt (y :: ys)
      rw [hl] at h1
      rw [signedValue_cons, signedValue_cons, hl] at h
      repeat' split at h
      all_goals omega

/-! ### Theorems -/

/-- C86: a value has one encoding, an encoding has one value, and its length is
the size of the type. -/
theorem C86_unambiguous (f : Fixed) (hf : f.Proper) (v : f.Value) :
    (∃ b, Encodes f v b) ∧
    (∀ b, Encodes f v b → b.length = f.size ∧ f.marshaledSize v = b.length ∧
      ∀ l, f.marshaledSizeMax l = b.length) ∧
    (∀ b b', Encodes f v b → Encodes f v b' → b = b') ∧
    (∀ b v', Encodes f v b → Encodes f v' b → v = v') := by
  refine ⟨⟨_, enc_encodes f hf v⟩, ?_, ?_, ?_⟩
  · intro b h
    have : b.length = f.size := by cases f <;> exact h.1
    exact ⟨this, this.symm, fun _ => this.symm⟩
  · intro b b' h h'
    cases f with
    | uint n => exact positional_inj (by rw [h.1, h'.1]) (by rw [h.2, h'.2])
    | sint n => exact signedValue_inj (by rw [h.1, h'.1]) (by rw [h.2, h'.2])
    | bytes n => rw [h.2, h'.2]
    | alg => exact positional_inj (by rw [h.1, h'.1]) (by rw [h.2, h'.2])
    | hash =>
      obtain ⟨h1, k, hk⟩ := h
      obtain ⟨h1', k', hk'⟩ := h'
      exact positional_inj (by rw [h1, h1']) (by rw [registry_toAlg hk, registry_toAlg hk'])
  · intro b v' h h'
    cases f with
    | uint n => exact Subtype.ext (by rw [← h.2, ← h'.2])
    | sint n => exact Subtype.ext (by rw [← h.2, ← h'.2])
    | bytes n => exact Subtype.ext (by rw [← h.2, ← h'.2])
    | alg => exact Subtype.ext (by rw [← h.2, ← h'.2])
    | hash =>
      obtain ⟨_, k, hk⟩ := h
      obtain ⟨_, k', hk'⟩ := h'
      have e := (registry_toAlg hk).symm.trans (registry_toAlg hk')
      have := (C30_conversions v 0).1
      rw [e, (C30_conversions v' 0).1] at this
      exact (Option.some.inj this).symm

/-- C86: marshalling writes the encoding at the start of the buffer and returns
the rest, exactly if the buffer is long enough; otherwise it returns an error
and the buffer keeps its contents. -/
theorem C86_marshal (f : Fixed) (hf : f.Proper) (v : f.Value) (buf b : Bytes)
    (hb : Encodes f v b) :
    f.marshal v buf =
      if b.length ≤ buf.length then (some b.length, b ++ buf.drop b.length) else (none, buf) := by
  obtain ⟨_, h2, h3, _⟩ := C86_unambiguous f hf v
  have he : f.enc v = b := h3 _ _ (enc_encodes f hf v) hb
  have hl := (h2 b hb).1
  unfold Fixed.marshal marshalArray splitFirstChunk
  rw [he, hl]
  by_cases h : f.size ≤ buf.length
  · rw [if_pos h, if_pos h]
  · rw [if_neg h, if_neg h]

/-- C86: unmarshalling succeeds exactly on an encoding followed by anything,
which it returns, and stores the value; in all other cases it returns an error
and the destination keeps its value. -/
theorem C86_unmarshal (f : Fixed) (hf : f.Proper) (hr : f.readable = true) (self : f.Value)
    (buf : Bytes) :
    (∀ v rest, f.unmarshal self buf = (some rest, v) ↔ ∃ b, buf = b ++ rest ∧ Encodes f v b) ∧
    ((∀ v rest, ¬ ∃ b, buf = b ++ rest ∧ Encodes f v b) → f.unmarshal self buf = (none, self)) := by
  have hdec : ∀ b v, b.length = f.size → (f.dec b = some v ↔ Encodes f v b) := by
    intro b v hl
    cases f with
    | uint n =>
      have hl : b.length = n := hl
      have hlt : fromBE b < 256 ^ n := by
        rw [fromBE_eq_positional, ← hl]; exact positional_lt b
      simp only [Fixed.dec, dif_pos hlt, Encodes, hl, true_and]
      rw [Option.some.injEq, Subtype.ext_iff, ← fromBE_eq_positional]
    | sint n =>
      have hl : b.length = n := hl
      have hne : b ≠ [] := by
        intro hc; rw [hc] at hl
        have : 0 < n := hf
        simp at hl; omega
      have hs := fromBEi_signed b hne
      have hran := signedValue_range b hne
      rw [hl] at hs hran
      rw [← hs] at hran
      simp only [Fixed.dec, dif_pos hran, Encodes, hl, true_and]
      rw [Option.some.injEq, Subtype.ext_iff, ← hs]
    | bytes n => simp [Fixed.readable] at hr
    | alg =>
      have hl : b.length = 2 := hl
      have hlt : fromBE b < 256 ^ 2 := by
        rw [fromBE_eq_positional, ← hl]; exact positional_lt b
      simp only [Fixed.dec, dif_pos hlt, Encodes, hl, true_and]
      rw [Option.some.injEq, Subtype.ext_iff, ← fromBE_eq_positional]
    | hash =>
      have hl : b.length = 2 := hl
      have hc := (C30_conversions v (fromBE b)).2.1
      simp only [Fixed.dec, decodeHash, Encodes, hl, true_and]
      rw [hc, fromBE_eq_positional]
      constructor
      · intro h; exact ⟨v.digestSize, by rw [h]; exact (C30_conversions v 0).2.2.1⟩
      · rintro ⟨k, hk⟩; exact registry_toAlg hk
  have hsize : ∀ v b, Encodes f v b → b.length = f.size := by
    intro v b h; cases f <;> exact h.1
  have key : ∀ v rest, f.unmarshal self buf = (some rest, v) ↔
      ∃ b, buf = b ++ rest ∧ Encodes f v b := by
    intro v rest
    unfold Fixed.unmarshal unmarshalArray splitFirstChunk
    by_cases h : f.size ≤ buf.length
    · rw [if_pos h]
      have hl : (buf.take f.size).length = f.size := by rw [List.length_take]; omega
      simp only
      constructor
      · intro hh
        cases hd : f.dec (buf.take f.size) with
        | none => rw [hd] at hh; simp at hh
        | some x =>
          rw [hd] at hh
          simp only [Prod.mk.injEq, Option.some.injEq] at hh
          obtain ⟨rfl, rfl⟩ := hh
          exact ⟨buf.take f.size, (List.take_append_drop _ _).symm, (hdec _ _ hl).1 hd⟩
      · rintro ⟨b, rfl, he⟩
        have hb := hsize v b he
        rw [← hb, List.take_left, List.drop_left]
        rw [(hdec b v hb).2 he]
    · rw [if_neg h]
      constructor
      · intro hh; simp at hh
      · rintro ⟨b, rfl, he⟩
        have hb := hsize v b he
        rw [List.length_append] at h; omega
  refine ⟨key, fun hno => ?_⟩
  have hcases : (∃ v rest, f.unmarshal self buf = (some rest, v)) ∨
      f.unmarshal self buf = (none, self) := by
    unfold Fixed.unmarshal unmarshalArray
    cases splitFirstChunk f.size buf with
    | none => exact .inr rfl
    | some p =>
      obtain ⟨arr, rest⟩ := p
      simp only
      cases f.dec arr with
      | none => exact .inr rfl
      | some x => exact .inl ⟨x, rest, rfl⟩
  rcases hcases with ⟨v, rest, h⟩ | h
  · exact absurd ((key v rest).1 h) (hno v rest)
  · exact h

/-- C86: the other crate encodes signed integers in the same way: it writes and
accepts the same bytes. -/
theorem C86_signed_agree (n : Nat) (hn : 0 < n) (x : (Fixed.sint n).Value) (buf b rest : Bytes)
    (hb : Encodes (.sint n) x b) :
    signedTryMarshal n x.val buf =
      (if b.length ≤ buf.length then (.ok b.length, b ++ buf.drop b.length)
        else (.err .unexpectedEndOfBuffer, buf)) ∧
    signedTryUnmarshal n (b ++ rest) = (.ok x.val, rest) ∧
    (∀ short : Bytes, short.length < n →
      signedTryUnmarshal n short = (.err .unexpectedEndOfBuffer, short)) := by
  have he : toBEi n x.val = b :=
    (C86_unambiguous (.sint n) hn x).2.2.1 _ _ (enc_encodes (.sint n) hn x) hb
  obtain ⟨hl, hv⟩ := hb
  have hne : b ≠ [] := by intro hc; rw [hc] at hl; simp at hl; omega
  refine ⟨?_, ?_, ?_⟩
  · unfold signedTryMarshal
    rw [he]
    simp only [Verif.marshal, marshalBytes]
    by_cases h : b.length ≤ buf.length
    · rw [if_pos h, if_pos h, copyPrefix, if_pos ⟨h, rfl⟩]
    · rw [if_neg h, if_neg h]
  · unfold signedTryUnmarshal
    have := (goodTy (.bytes n)).complete (.bytes b) rest (by simpa [WF] using hl)
    simp only [canon, wire] at this
    rw [this]
    simp only
    have h := fromBEi_signed b hne
    rw [hl] at h
    rw [h, hv]
  · intro short hs
    unfold signedTryUnmarshal Verif.unmarshal unmarshalBytes bufGet
    simp [bind, UM.bind, hs, UM.fail]

/-- Minus two in one byte and in four. -/
example : Encodes (.sint 1) ⟨-2, by decide⟩ [0xFE] ∧
    Encodes (.sint 4) ⟨-2, by decide⟩ [0xFF, 0xFF, 0xFF, 0xFE] ∧
    Encodes .hash .sha3_256 [0, 0x27] := by
  refine ⟨⟨rfl, by decide⟩, ⟨rfl, by decide⟩, rfl, 32, by decide⟩

/-- Unmarshalled into a destination, with a byte left over; and refused. -/
example : (Fixed.sint 2).unmarshal ⟨7, by decide⟩ [0x80, 0, 9] = (some [9], ⟨-32768, by decide⟩) ∧
    Fixed.hash.unmarshal .sha1 [0, 1, 9] = (none, .sha1) := by
  decide

end Verif.Tpm2
