import Verif.EndToEnd.Password
import Verif.EndToEnd.TextProps
import Verif.Client.Props

/-
C95: password sessions keep their password, but do not keep it to themselves.
-/

namespace Verif.Client
open Verif Verif.Base Verif.Errors

/-! ### Lemmas -/

/-- Digits followed by something else can be told apart from it. -/
theorem digits_split : ∀ (a b : List Char) (x y : Char) (r s : List Char),
    (∀ c ∈ a, 48 ≤ c.toNat ∧ c.toNat ≤ 57) → (∀ c ∈ b, 48 ≤ c.toNat ∧ c.toNat ≤ 57) →
    ¬ (48 ≤ x.toNat ∧ x.toNat ≤ 57) → ¬ (48 ≤ y.toNat ∧ y.toNat ≤ 57) →
    a ++ x :: r = b ++ y :: s → a = b ∧ x = y ∧ r = s := by
  intro a
  induction a with
  | nil =>
    intro b x y r s _ hb hx _ h
    cases b with
    | nil => simpa using h
    | cons d b =>
      simp only [List.nil_append, List.cons_append, List.cons.injEq] at h
      exact absurd (hb d (by simp)) (h.1 ▸ hx)
  | cons c a ih =>
    intro b x y r s ha hb hx hy h
    cases b with
    | nil =>
      simp only [List.nil_append, List.cons_append, List.cons.injEq] at h
      exact absurd (ha c (by simp)) (h.1 ▸ hy)
    | cons d b =>
      simp only [List.cons_append, List.cons.injEq] at h
      obtain ⟨h1, h2⟩ := h
      obtain ⟨h3, h4⟩ := ih b x y r s (fun e he => ha e (by simp [he])) (fun e he => hb e (by simp [he]))
        hx hy h2
      exact ⟨by rw [h1, h3], h4⟩

theorem decimal_split {m n : Nat} {x y : Char} {r s : List Char}
    (hx : ¬ (48 ≤ x.toNat ∧ x.toNat ≤ 57)) (hy : ¬ (48 ≤ y.toNat ∧ y.toNat ≤ 57))
    (h : showDecimal m ++ x :: r = showDecimal n ++ y :: s) : m = n ∧ x = y ∧ r = s := by
  have hm := showDecimal_isDecimal m
  have hn := showDecimal_isDecimal n
  obtain ⟨h1, h2⟩ := digits_split _ _ x y r s hm.2.1 hn.2.1 hx hy h
  refine ⟨?_, h2⟩
  rw [← hm.2.2.2, ← hn.2.2.2, h1]

theorem decimal_not_bracket (n : Nat) (r s : List Char) : showDecimal n ++ r ≠ ']' :: s := by
  intro h
  have h1 := showDecimal_isDecimal n
  rcases hd : showDecimal n with _ | ⟨c, t⟩
  · exact h1.1 hd
  · rw [hd] at h h1
    simp only [List.cons_append, List.cons.injEq] at h
    have := h1.2.1 c (by simp)
    rw [h.1] at this
    exact absurd this (by decide)

theorem debugItems_inj : ∀ (a b : Bytes) (r s : List Char),
    debugItems a ++ r = debugItems b ++ s → a = b ∧ r = s
  | [], [], r, s, h => by simpa [debugItems] using h
  | [], [y], r, s, h => by
    simp only [debugItems, List.append_assoc, List.cons_append, List.nil_append] at h
    exact absurd h.symm (decimal_not_bracket _ _ _)
  | [], y :: z :: q, r, s, h => by
    simp only [debugItems, List.append_assoc, List.cons_append, List.nil_append] at h
    exact absurd h.symm (decimal_not_bracket _ _ _)
  | [x], [], r, s, h => by
    simp only [debugItems, List.append_assoc, List.cons_append, List.nil_append] at h
    exact absurd h (decimal_not_bracket _ _ _)
  | x :: y :: p, [], r, s, h => by
    simp only [debugItems, List.append_assoc, List.cons_append, List.nil_append] at h
    exact absurd h (decimal_not_bracket _ _ _)
  | [x], [y], r, s, h => by
    simp only [debugItems, List.append_assoc, List.cons_append, List.nil_append] at h
    obtain ⟨h1, -, h2⟩ := decimal_split (by decide) (by decide) h
    exact ⟨by rw [UInt8.toNat_inj.1 h1], h2⟩
  | [x], y :: z :: q, r, s, h => by
    simp only [debugItems, List.append_assoc, List.cons_append, List.nil_append] at h
    exact absurd (decimal_split (by decide) (by decide) h).2.1 (by decide)
  | x :: y :: p, [z], r, s, h => by
    simp only [debugItems, List.append_assoc, List.cons_append, List.nil_append] at h
    exact absurd (decimal_split (by decide) (by decide) h).2.1 (by decide)
  | x :: y :: p, x' :: y' :: p', r, s, h => by
    simp only [debugItems, List.append_assoc, List.cons_append, List.nil_append] at h
    obtain ⟨h1, -, h2⟩ := decimal_split (by decide) (by decide) h
    simp only [List.cons.injEq, true_and] at h2
    obtain ⟨h3, h4⟩ := debugItems_inj (y :: p) (y' :: p') r s h2
    exact ⟨by rw [UInt8.toNat_inj.1 h1, h3], h4⟩

/-! ### C95 -/

/-- **C95**: a session made from a password has this password, and two of them are
equal exactly if they were made from the same password. -/
theorem C95_equal (p q : Bytes) (s t : Val) (hs : passwordNew p = .ok s)
    (ht : passwordNew q = .ok t) :
    passwordSecret s = .ok p ∧ (s = t ↔ p = q) := by
  have key : ∀ p s, passwordNew p = .ok s → passwordSecret s = .ok p := by
    intro p s hs
    rcases Nat.lt_or_ge 64 p.length with h | h
    · rw [C36_new_err p h] at hs; simp at hs
    · obtain ⟨auth, h1, h2, -⟩ := C36_new_ok p h
      rw [h1] at hs
      injection hs with hs
      rw [← hs]; exact h2
  refine ⟨key p s hs, fun h => ?_, fun h => ?_⟩
  · have h1 := key p s hs
    rw [h, key q t ht] at h1
    injection h1 with h1
    exact h1.symm
  · rw [h, ht] at hs
    injection hs with hs
    exact hs.symm

/-- **C95**: the default session is that of the empty password. -/
theorem C95_default : passwordNew [] = .ok passwordDefault ∧ passwordSecret passwordDefault = .ok [] := by
  have h : passwordNew [] = .ok passwordDefault := rfl
  exact ⟨h, (C95_equal [] [] _ _ h h).1⟩

/-- **C95** (violated, exactly): the text printed of a session for debugging tells
the password: two sessions are printed alike only if they have the same password.
The full claim is that all sessions are printed alike. -/
theorem C95_text_partial (p q : Bytes) (s t : Val) (hs : passwordNew p = .ok s)
    (ht : passwordNew q = .ok t) :
    (passwordDebug s).isSome ∧ (passwordDebug s = passwordDebug t ↔ p = q) := by
  have key : ∀ p s, passwordNew p = .ok s → ∃ n b, s = .tpm2b n b := by
    intro p s hs
    unfold passwordNew tpm2bFromBytes at hs
    split at hs
    · simp [Res.mapErr] at hs
    · split at hs
      · simp only [Res.mapErr, Res.ok.injEq] at hs
        exact ⟨_, _, hs.symm⟩
      · simp [Res.mapErr] at hs
  have heq := (C95_equal p q s t hs ht).2
  obtain ⟨m, a, rfl⟩ := key p s hs
  obtain ⟨n, b, rfl⟩ := key q t ht
  refine ⟨rfl, fun h => heq.1 ?_, fun h => by rw [heq.2 h]⟩
  simp only [passwordDebug, Option.some.injEq, List.append_assoc] at h
  have h := List.append_cancel_left h
  have h1 : ", buffer: [".toList = ',' :: " buffer: [".toList := rfl
  rw [h1] at h
  simp only [List.cons_append] at h
  obtain ⟨h2, -, h3⟩ := decimal_split (by decide) (by decide) h
  have h4 := (debugItems_inj _ _ _ _ (List.append_cancel_left h3)).1
  rw [h2, h4]

/-- **C95** (violated): a session with a password is not printed like one without. -/
theorem C95_violated : ∃ p q s t, passwordNew p = .ok s ∧ passwordNew q = .ok t ∧
    passwordDebug s ≠ passwordDebug t := by
  obtain ⟨s, hs, -⟩ := C36_new_ok [0x68, 0x69] (by decide)
  refine ⟨[0x68, 0x69], [], s, passwordDefault, hs, C95_default.1, fun h => ?_⟩
  exact absurd ((C95_text_partial _ _ _ _ hs C95_default.1).2.1 h) (by decide)

/-! ### Examples -/

/-- Sessions are compared by their passwords. -/
example : ∃ s t, passwordNew [1, 2] = .ok s ∧ passwordNew [1, 2, 0] = .ok t ∧ s ≠ t := by
  obtain ⟨s, hs, -⟩ := C36_new_ok [1, 2] (by decide)
  obtain ⟨t, ht, -⟩ := C36_new_ok [1, 2, 0] (by decide)
  exact ⟨s, t, hs, ht, fun h => absurd ((C95_equal _ _ _ _ hs ht).2.1 h) (by decide)⟩

/-- The text of a smaller sized buffer. -/
example : passwordDebug (.tpm2b 2 [104, 105, 0]) =
    some "PasswordSession { auth: Tpm2bDigest { size: 2, buffer: [104, 105, 0] } }".toList := by
  simp [passwordDebug, debugItems, showDecimal, digitChar]

end Verif.Client
