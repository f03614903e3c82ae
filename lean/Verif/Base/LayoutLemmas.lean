import Verif.Base.Layout
import Verif.Codec.Spec
import Verif.Codec.IntLemmas

/-! Helper lemmas: an encoding is never longer than the C layout. -/

namespace Verif

theorem le_roundUp (off a : Nat) : off ≤ roundUp off a := by unfold roundUp; omega

theorem flatten_length_le {m : Nat} : ∀ (l : List Bytes), (∀ x ∈ l, x.length ≤ m) →
    l.flatten.length ≤ l.length * m
  | [], _ => by simp
  | x :: l, h => by
    have h1 := h x (by simp)
    have h2 := flatten_length_le l (fun y hy => h y (by simp [hy]))
    simp only [List.flatten_cons, List.length_append, List.length_cons, Nat.add_mul]
    omega

mutual
theorem wire_le (al : Nat → Nat) : ∀ (t : Ty) (v : Val), WF t v →
    (wire t v).length ≤ (layout al t).1
  | .prim n, v, h => by
    cases v <;> simp only [WF] at h
    simp [wire, layout]
  | .unit, v, h => by
    cases v <;> simp only [WF] at h
    simp [wire, layout]
  | .bytes m, v, h => by
    cases v <;> simp only [WF] at h
    simp [wire, layout, h]
  | .tpm2b cap, v, h => by
    cases v <;> simp only [WF] at h
    simp only [wire, layout, List.length_append, digits256_length, List.length_take]
    have := le_roundUp (2 + cap) (al 2)
    omega
  | .struct fs, v, h => by
    cases v <;> simp only [WF] at h
    simp only [wire, layout]
    have h1 := wireFields_le al fs _ _ 0 1 h
    have := le_roundUp (layoutFields al fs 0 1).1 (layoutFields al fs 0 1).2
    omega
  | .enum w vs, v, h => by
    cases v <;> simp only [WF] at h
    simp only [wire, layout, List.length_append, digits256_length]
    have h1 := wireVariant_le al vs _ _ h.2
    have h2 := le_roundUp w (layoutVariants al vs).2
    have h3 := le_roundUp (layoutVariants al vs).1 (layoutVariants al vs).2
    have h4 := le_roundUp (roundUp w (layoutVariants al vs).2 +
      roundUp (layoutVariants al vs).1 (layoutVariants al vs).2) (max (al w) (layoutVariants al vs).2)
    omega
  | .split pre w mid vs, v, h => by
    cases v <;> simp only [WF] at h
    simp only [wire, layout, List.length_append, digits256_length]
    obtain ⟨hp, hm, -, hv⟩ := h
    have h0 := wireFields_le al pre _ _ 0 1 hp
    have h0' := wireFields_le al mid _ _ (layoutFields al pre 0 1).1 (layoutFields al pre 0 1).2 hm
    have h1 := wireVariant_le al vs _ _ hv
    have h2 := le_roundUp w (layoutVariants al vs).2
    have h3 := le_roundUp (layoutVariants al vs).1 (layoutVariants al vs).2
    have h4 := le_roundUp (roundUp w (layoutVariants al vs).2 +
      roundUp (layoutVariants al vs).1 (layoutVariants al vs).2) (max (al w) (layoutVariants al vs).2)
    have h5 := le_roundUp (layoutFields al mid (layoutFields al pre 0 1).1 (layoutFields al pre 0 1).2).1
      (max (al w) (layoutVariants al vs).2)
    exact Nat.le_trans (by omega) (le_roundUp _ _)
theorem wireFields_le (al : Nat → Nat) : ∀ (fs : Fields) (env : List Nat) (vs : List Val)
    (off a : Nat), WFFields fs env vs →
    off + (wireFields fs env vs).length ≤ (layoutFields al fs off a).1
  | .nil, env, vs, off, a, h => by
    cases vs <;> simp only [WFFields] at h
    simp [wireFields, layoutFields]
  | .plain t r, env, vs, off, a, h => by
    cases vs <;> simp only [WFFields] at h
    have h1 := wire_le al t _ h.1
    have h2 := wireFields_le al r _ _ (roundUp off (layout al t).2 + (layout al t).1)
      (max a (layout al t).2) h.2
    have h3 := le_roundUp off (layout al t).2
    simp only [wireFields, layoutFields, List.length_append]
    omega
  | .fixedArr t n r, env, vs, off, a, h => by
    rcases vs with _ | ⟨v, vs⟩
    · simp only [WFFields] at h
    cases v <;> simp only [WFFields] at h
    rename_i es
    have h1 := flatten_length_le (m := (layout al t).1) (es.map fun e => wire t e) (by
      intro x hx
      obtain ⟨e, he, rfl⟩ := List.mem_map.1 hx
      exact wire_le al t _ (h.2.1 e he))
    rw [List.length_map, h.1] at h1
    have h2 := wireFields_le al r _ _ (roundUp off (layout al t).2 + n * (layout al t).1)
      (max a (layout al t).2) h.2.2
    have h3 := le_roundUp off (layout al t).2
    simp only [wireFields, layoutFields, List.length_append]
    omega
  | .lenArr k t n r, env, vs, off, a, h => by
    rcases vs with _ | ⟨v, vs⟩
    · simp only [WFFields] at h
    cases v <;> simp only [WFFields] at h
    rename_i es
    obtain ⟨hl, hk, he, hr⟩ := h
    have h1 := flatten_length_le (m := (layout al t).1)
      ((es.take (env.getD k 0)).map fun e => wire t e) (by
      intro x hx
      obtain ⟨e, he', rfl⟩ := List.mem_map.1 hx
      exact wire_le al t _ (he e he'))
    rw [List.length_map, List.length_take] at h1
    have h4 : min (env.getD k 0) es.length * (layout al t).1 ≤ n * (layout al t).1 :=
      Nat.mul_le_mul_right _ (by omega)
    have h2 := wireFields_le al r _ _ (roundUp off (layout al t).2 + n * (layout al t).1)
      (max a (layout al t).2) hr
    have h3 := le_roundUp off (layout al t).2
    simp only [wireFields, layoutFields, List.length_append]
    omega
theorem wireVariant_le (al : Nat → Nat) : ∀ (vs : Variants) (sel : Nat) (fvs : List Val),
    WFVariant vs sel fvs → (wireVariant vs sel fvs).length ≤ (layoutVariants al vs).1
  | .nil, _, _, h => by simp only [WFVariant] at h
  | .cons s fs rest, sel, fvs, h => by
    simp only [WFVariant] at h
    simp only [wireVariant, layoutVariants]
    split at h
    · rename_i hs
      rw [if_pos hs]
      have h1 := wireFields_le al fs _ _ 0 1 h
      have h2 := le_roundUp (layoutFields al fs 0 1).1 (layoutFields al fs 0 1).2
      omega
    · rename_i hs
      rw [if_neg hs]
      have h1 := wireVariant_le al rest _ _ h
      omega
end

end Verif
