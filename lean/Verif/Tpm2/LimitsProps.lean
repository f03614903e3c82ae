import Verif.Tpm2.Limits
import Verif.Tpm2.Props

/-
Property theorems C87: limits of the caller's own.
-/

namespace Verif.Tpm2
open Verif

variable {σ : Type}

/-! ### Specification -/

/-- A result or a panic, with the state. -/
def after {α : Type} (q : Option Bool × σ) (panicked : α) (answer : Bool → α) : α × σ :=
  match q with
  | (none, s) => (panicked, s)
  | (some a, s) => (answer a, s)

/-- A `Result` without panics. -/
def result {α : Type} : Option α → Res Unit α
  | none => .err ()
  | some a => .ok a

/-- Limits that always give this answer. -/
def always (a : Bool) : Limits := ⟨fun _ => a⟩

/-- Asking about these algorithms in order gives no, each time. -/
def OwnLimits.allNo (l : OwnLimits σ) : List Hash → σ → σ → Prop
  | [], s, s' => s = s'
  | h :: hs, s, s' => ∃ t, l.supportsHash h s = (some false, t) ∧ l.allNo hs t s'

/-- The limits give the answers of a set of algorithms, whatever their state. -/
def OwnLimits.Steady (l : OwnLimits σ) (set : Limits) : Prop :=
  l.maxDigestSize = none ∧ ∀ h s, (l.supportsHash h s).1 = some (set.supportsHash h)

/-! ### Theorems -/

/-- C87: marshalling asks once, about the algorithm of the digest, and then does
what it does under limits that always give this answer (C27, C28); if the
question panics, nothing is written. -/
theorem C87_marshal (l : OwnLimits σ) (v : TpmtHa) (buf : Bytes) (s : σ) :
    v.marshalOwn l buf s = after (l.supportsHash v.hashAlg s) (.panic, buf) fun a =>
      (result (v.marshal (always a) buf).1, (v.marshal (always a) buf).2) := by
  unfold TpmtHa.marshalOwn after
  rcases l.supportsHash v.hashAlg s with ⟨_ | _ | _, s'⟩
  · rfl
  · simp [TpmtHa.marshal, always, result]
  · simp only [TpmtHa.marshal, always, Bool.not_true, Bool.false_eq_true, if_false]
    rcases marshalHash v.hashAlg buf with ⟨_ | n, b⟩
    · rfl
    · cases v <;> simp only <;> split <;> rename_i h <;> simp [h, result]

/-- C87: unmarshalling asks once if the tag is one of the four algorithms of a
tagged digest, about that one, and then does what it does under limits that
always give this answer; if the question panics, the destination keeps its value.
In all other cases it asks nothing, fails, and the destination keeps its value. -/
theorem C87_unmarshal (l : OwnLimits σ) (self : TpmtHa) (buf : Bytes) (s : σ) :
    (∀ v : TpmtHa, ∀ rest : Bytes, buf = digits256 2 v.hashAlg.toAlg ++ rest →
      self.unmarshalOwn l buf s = after (l.supportsHash v.hashAlg s) (.panic, self) fun a =>
        (result (self.unmarshal (always a) buf).1, (self.unmarshal (always a) buf).2)) ∧
    ((∀ v : TpmtHa, ∀ rest : Bytes, buf ≠ digits256 2 v.hashAlg.toAlg ++ rest) →
      self.unmarshalOwn l buf s = ((.err (), self), s)) := by
  have arm : ∀ (h : Hash) (n : Nat) (mk : ByteArr n → TpmtHa) (x : Bytes),
      ownArm l h n mk self x s = after (l.supportsHash h s) (.panic, self) fun a =>
        (result (if a = true then takeDigest n mk self x else (none, self)).1,
          (if a = true then takeDigest n mk self x else (none, self)).2) := by
    intro h n mk x
    unfold ownArm after
    rcases l.supportsHash h s with ⟨_ | _ | _, s'⟩
    · rfl
    · rfl
    · simp only [if_true]
      rcases takeDigest n mk self x with ⟨_ | _, _⟩ <;> rfl
  constructor
  · rintro v rest rfl
    rw [← toBE_eq_digits256]
    unfold TpmtHa.unmarshalOwn TpmtHa.unmarshal
    rw [take2_append]
    simp only [decodeHash_toBE]
    cases v <;> simp only [TpmtHa.hashAlg, always] <;> exact arm _ _ _ _
  · intro hno
    unfold TpmtHa.unmarshalOwn splitFirstChunk
    by_cases hb : 2 ≤ buf.length
    · rw [if_pos hb]
      simp only
      have hlen : (buf.take 2).length = 2 := by simp [hb]
      have hsplit : buf = buf.take 2 ++ buf.drop 2 := (List.take_append_drop 2 buf).symm
      have hd : ∀ v : TpmtHa, decodeHash (buf.take 2) ≠ some v.hashAlg := by
        intro v hv
        refine hno v (buf.drop 2) ?_
        have : fromBE (buf.take 2) = v.hashAlg.toAlg :=
          ((C30_conversions v.hashAlg (fromBE (buf.take 2))).2.1).1 hv
        rw [← this, fromBE_eq_positional]
        have e := digits256_positional (buf.take 2)
        rw [hlen] at e
        rw [e]; exact hsplit
      have d1 := hd (.sha1 ⟨List.replicate 20 0, by simp⟩)
      have d2 := hd (.sha256 ⟨List.replicate 32 0, by simp⟩)
      have d3 := hd (.sha384 ⟨List.replicate 48 0, by simp⟩)
      have d4 := hd (.sha512 ⟨List.replicate 64 0, by simp⟩)
      dsimp only [TpmtHa.hashAlg] at d1 d2 d3 d4
      cases hh : decodeHash (buf.take 2) with
      | none => rfl
      | some h =>
        rw [hh] at d1 d2 d3 d4
        cases h <;> first | rfl | contradiction
    · rw [if_neg hb]

/-- C87: the order of `BY_SIZE_DESC` is that of decreasing size, and has every algorithm once. -/
theorem C87_order : (∀ h, Hash.bySizeDesc.count h = 1) ∧
    Hash.bySizeDesc.Pairwise fun a b => b.digestSize ≤ a.digestSize :=
  ⟨fun h => by cases h <;> rfl, by decide⟩

/-- C87: the provided maximum asks about the algorithms in the order of
`BY_SIZE_DESC` until one is supported.  It is the digest size of that one, or 0
if all are refused.  Nothing is asked after that. -/
theorem C87_max (l : OwnLimits σ) (s s' : σ) (k : Nat) (hl : l.maxDigestSize = none) :
    l.max s = (some k, s') ↔
      (∃ pre h post t, Hash.bySizeDesc = pre ++ h :: post ∧ l.allNo pre s t ∧
        l.supportsHash h t = (some true, s') ∧ k = h.digestSize) ∨
      (l.allNo Hash.bySizeDesc s s' ∧ k = 0) := by
  unfold OwnLimits.max
  rw [hl]
  simp only
  generalize Hash.bySizeDesc = order
  induction order generalizing s with
  | nil =>
    simp only [OwnLimits.maxLoop, OwnLimits.allNo, Prod.mk.injEq, Option.some.injEq]
    constructor
    · rintro ⟨rfl, rfl⟩; exact .inr ⟨rfl, rfl⟩
    · rintro (⟨pre, h, post, t, he, _⟩ | ⟨rfl, rfl⟩)
      · cases pre <;> simp at he
      · exact ⟨rfl, rfl⟩
  | cons h hs ih =>
    rw [OwnLimits.maxLoop]
    rcases hq : l.supportsHash h s with ⟨_ | _ | _, t⟩
    · simp only [OwnLimits.allNo, hq, Prod.mk.injEq, reduceCtorEq, false_and,
        false_iff]
      rintro (⟨pre, g, post, u, he, h1, h2, _⟩ | ⟨⟨_, hf⟩, _⟩)
      rotate_left
      · exact hf
      cases pre with
      | nil =>
        simp only [List.nil_append, List.cons.injEq] at he
        simp only [OwnLimits.allNo] at h1
        obtain ⟨rfl, rfl⟩ := he
        subst h1
        rw [hq] at h2; simp at h2
      | cons p ps =>
        simp only [List.cons_append, List.cons.injEq] at he
        obtain ⟨rfl, rfl⟩ := he
        obtain ⟨w, hw, _⟩ := h1
        rw [hq] at hw; simp at hw
    · simp only
      rw [ih]
      constructor
      · rintro (⟨pre, g, post, u, rfl, h1, h2, h3⟩ | ⟨h1, h2⟩)
        · exact .inl ⟨h :: pre, g, post, u, rfl, ⟨t, hq, h1⟩, h2, h3⟩
        · exact .inr ⟨⟨t, hq, h1⟩, h2⟩
      · rintro (⟨pre, g, post, u, he, h1, h2, h3⟩ | ⟨⟨w, hw, h1⟩, h2⟩)
        · cases pre with
          | nil =>
            simp only [List.nil_append, List.cons.injEq] at he
            simp only [OwnLimits.allNo] at h1
            obtain ⟨rfl, rfl⟩ := he
            subst h1
            rw [hq] at h2; simp at h2
          | cons p ps =>
            simp only [List.cons_append, List.cons.injEq] at he
            obtain ⟨rfl, rfl⟩ := he
            obtain ⟨w, hw, h1⟩ := h1
            rw [hq] at hw
            simp only [Prod.mk.injEq, true_and] at hw
            subst hw
            exact .inl ⟨ps, g, post, u, rfl, h1, h2, h3⟩
        · rw [hq] at hw
          simp only [Prod.mk.injEq, true_and] at hw
          subst hw
          exact .inr ⟨h1, h2⟩
    · simp only [Prod.mk.injEq, Option.some.injEq]
      constructor
      · rintro ⟨rfl, rfl⟩
        exact .inl ⟨[], h, hs, s, rfl, rfl, hq, rfl⟩
      · rintro (⟨pre, g, post, u, he, h1, h2, h3⟩ | ⟨⟨w, hw, h1⟩, h2⟩)
        · cases pre with
          | nil =>
            simp only [List.nil_append, List.cons.injEq] at he
            simp only [OwnLimits.allNo] at h1
            obtain ⟨rfl, rfl⟩ := he
            subst h1
            rw [hq] at h2
            simp only [Prod.mk.injEq, true_and] at h2
            exact ⟨h3.symm, h2⟩
          | cons p ps =>
            simp only [List.cons_append, List.cons.injEq] at he
            obtain ⟨rfl, rfl⟩ := he
            obtain ⟨w, hw, _⟩ := h1
            rw [hq] at hw; simp at hw
        · rw [hq] at hw; simp at hw

/-- C87: whatever the limits answer, now or later, what is written by a
successful call is the encoding of the digest, of the length that
`marshaled_size` reports, and the rest of the buffer is untouched. -/
theorem C87_exact (l : OwnLimits σ) (v : TpmtHa) (buf out : Bytes) (s s' : σ) (n : Nat)
    (h : v.marshalOwn l buf s = ((.ok n, out), s')) :
    l.supportsHash v.hashAlg s = (some true, s') ∧ n = v.marshaledSize ∧
    n = (haWire v).length ∧ out = haWire v ++ buf.drop n := by
  rw [C87_marshal] at h
  rcases hq : l.supportsHash v.hashAlg s with ⟨_ | _ | _, t⟩
  · rw [hq] at h; simp [after] at h
  · rw [hq] at h
    simp [after, C28_marshal_unsupported (always false) v buf rfl, result] at h
  · rw [hq] at h
    simp only [after, Prod.mk.injEq] at h
    obtain ⟨⟨h1, h2⟩, h3⟩ := h
    by_cases hb : (haWire v).length ≤ buf.length
    · obtain ⟨g1, g2, _, _⟩ := C27_round_trip (always true) v v buf [] rfl hb
      rw [g1] at h1 h2
      simp only [result, Res.ok.injEq] at h1
      subst h1
      exact ⟨by rw [h3], g2.symm, rfl, h2.symm⟩
    · rw [(C27_short_buffer (always true) v buf (by omega)).1] at h1
      simp [result] at h1

/-- C87: for the size the limits are asked for their maximum once; if that panics
so does the call, and what it changed stays. -/
theorem C87_max_asks (l : OwnLimits σ) (checks : Bool) (w : Nat) (s : σ) :
    (l.marshaledSizeMax checks w s).2 = (l.max s).2 ∧
    ((l.max s).1 = none → (l.marshaledSizeMax checks w s).1 = none) := by
  unfold OwnLimits.marshaledSizeMax
  rcases l.max s with ⟨_ | k, t⟩ <;> simp

/-- C87: limits that give the answers of a set of algorithms, and do not replace
the maximum, are as good as that set (C27, C28): all results are the same. -/
theorem C87_steady (l : OwnLimits σ) (set : Limits) (hl : l.Steady set) (v self : TpmtHa)
    (buf : Bytes) (s : σ) (checks : Bool) (w : Nat) (hw : 16 ≤ w) :
    (v.marshalOwn l buf s).1 = (result (v.marshal set buf).1, (v.marshal set buf).2) ∧
    (self.unmarshalOwn l buf s).1 =
      (result (self.unmarshal set buf).1, (self.unmarshal set buf).2) ∧
    (l.marshaledSizeMax checks w s).1 = some (marshaledSizeMax set) := by
  obtain ⟨h1, h2⟩ := hl
  refine ⟨?_, ?_, ?_⟩
  · rw [C87_marshal]
    have := h2 v.hashAlg s
    rcases hq : l.supportsHash v.hashAlg s with ⟨a, t⟩
    rw [hq] at this
    simp only at this
    subst this
    simp only [after, TpmtHa.marshal, always]
    rfl
  · have arm : ∀ (h : Hash) (n : Nat) (mk : ByteArr n → TpmtHa) (x : Bytes),
        (ownArm l h n mk self x s).1 =
          (result (if set.supportsHash h = true then takeDigest n mk self x else (none, self)).1,
            (if set.supportsHash h = true then takeDigest n mk self x else (none, self)).2) := by
      intro h n mk x
      have := h2 h s
      unfold ownArm
      rcases hq : l.supportsHash h s with ⟨a, t⟩
      rw [hq] at this
      simp only at this
      subst this
      cases hs : set.supportsHash h with
      | false => rfl
      | true =>
        simp only [if_true]
        rcases takeDigest n mk self x with ⟨_ | _, _⟩ <;> rfl
    unfold TpmtHa.unmarshalOwn TpmtHa.unmarshal
    cases splitFirstChunk 2 buf with
    | none => rfl
    | some p =>
      obtain ⟨arr, rest⟩ := p
      simp only
      cases decodeHash arr with
      | none => rfl
      | some h => cases h <;> first | exact arm _ _ _ _ | rfl
  · have hloop : ∀ hs s, (l.maxLoop hs s).1 = some (maxDigestLoop set hs) := by
      intro hs
      induction hs with
      | nil => intro s; rfl
      | cons h hs ih =>
        intro s
        have := h2 h s
        rw [OwnLimits.maxLoop, maxDigestLoop]
        rcases hq : l.supportsHash h s with ⟨a, t⟩
        rw [hq] at this
        simp only at this
        subst this
        cases hs' : set.supportsHash h with
        | false => simp only [Bool.false_eq_true, if_false]; exact ih t
        | true => rfl
    have hmax : (l.max s).1 = some set.maxDigestSize := by
      unfold OwnLimits.max
      rw [h1]
      exact hloop _ _
    unfold OwnLimits.marshaledSizeMax
    rcases hq : l.max s with ⟨a, t⟩
    rw [hq] at hmax
    simp only at hmax
    subst hmax
    simp only [addUsize, Verif.Tpm2.marshaledSizeMax]
    have hk : set.maxDigestSize ≤ 64 := by
      have key : ∀ hs, maxDigestLoop set hs ≤ 64 := by
        intro hs
        induction hs with
        | nil => simp [maxDigestLoop]
        | cons h hs ih =>
          rw [maxDigestLoop]
          split
          · cases h <;> decide
          · exact ih
      exact key _
    have hp : 2 ^ 16 ≤ 2 ^ w := Nat.pow_le_pow_right (by decide) hw
    rw [if_pos (by omega)]

/-! ### Concrete data -/

/-- Limits that count the questions and support every algorithm until the
second. -/
def tiring : OwnLimits Nat := ⟨fun _ n => (some (decide (n < 2)), n + 1), none⟩

/-- Two digests are marshalled, the third is refused. -/
example : (exHa.marshalOwn tiring (List.replicate 34 0) 1).1.1 = .ok 34 ∧
    exHa.marshalOwn tiring (List.replicate 34 0) 2 = ((.err (), List.replicate 34 0), 3) := by
  decide

/-- Limits that change their mind, or replace the maximum, may report a maximum
below the size of a digest that they let pass. -/
example : (tiring.marshaledSizeMax true 64 2).1 = some 2 ∧
    (exHa.marshalOwn tiring (List.replicate 34 0) 0).1.1 = .ok 34 := by
  decide

/-- Steady limits with state: they count the questions. -/
example : OwnLimits.Steady ⟨fun h n => (some (exLimits.supportsHash h), n + 1), none⟩ exLimits :=
  ⟨rfl, fun _ _ => rfl⟩

/-- Limits whose maximum panics, after counting. -/
example : OwnLimits.marshaledSizeMax true 64
    (⟨fun _ n => (some true, n), some fun n => (none, n + 1)⟩ : OwnLimits Nat) 5 = (none, 6) := by
  decide

end Verif.Tpm2
