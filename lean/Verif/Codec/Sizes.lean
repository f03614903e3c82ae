import Verif.Base.LayoutLemmas
import Verif.Codec.Typed

/-! The lengths of the shortest and of the longest encoding of a type, and
values that have them.  Used for C78. -/

namespace Verif

mutual
/-- Length of the shortest encoding. -/
def Ty.shortest : Ty → Nat
  | .prim n => n
  | .unit => 0
  | .bytes m => m
  | .tpm2b _ => 2
  | .struct fs => fs.shortest
  | .enum w vs => w + (vs.shortest.getD 0)
  | .split pre w mid vs => pre.shortest + w + mid.shortest + (vs.shortest.getD 0)
/-- Shortest encoding of fields: counted arrays are empty. -/
def Fields.shortest : Fields → Nat
  | .nil => 0
  | .plain t r => t.shortest + r.shortest
  | .fixedArr t n r => n * t.shortest + r.shortest
  | .lenArr _ _ _ r => r.shortest
/-- Shortest encoding of the data of any variant. -/
def Variants.shortest : Variants → Option Nat
  | .nil => none
  | .cons _ fs r => some (match r.shortest with
    | none => fs.shortest
    | some m => min fs.shortest m)
end

mutual
/-- Length of the longest encoding. -/
def Ty.longest : Ty → Nat
  | .prim n => n
  | .unit => 0
  | .bytes m => m
  | .tpm2b cap => 2 + cap
  | .struct fs => fs.longest
  | .enum w vs => w + vs.longest
  | .split pre w mid vs => pre.longest + w + mid.longest + vs.longest
/-- Longest encoding of fields: counted arrays are full. -/
def Fields.longest : Fields → Nat
  | .nil => 0
  | .plain t r => t.longest + r.longest
  | .fixedArr t n r => n * t.longest + r.longest
  | .lenArr _ t n r => n * t.longest + r.longest
/-- Longest encoding of the data of any variant. -/
def Variants.longest : Variants → Nat
  | .nil => 0
  | .cons _ fs r => max fs.longest r.longest
end

mutual
theorem wire_longest : ∀ (t : Ty) (v : Val), WF t v → (wire t v).length ≤ t.longest
  | .prim n, v, h => by
    cases v <;> simp only [WF] at h
    simp [wire, Ty.longest]
  | .unit, v, h => by
    cases v <;> simp only [WF] at h
    simp [wire, Ty.longest]
  | .bytes m, v, h => by
    cases v <;> simp only [WF] at h
    simp [wire, Ty.longest, h]
  | .tpm2b cap, v, h => by
    cases v <;> simp only [WF] at h
    simp only [wire, Ty.longest, List.length_append, digits256_length, List.length_take]
    omega
  | .struct fs, v, h => by
    cases v <;> simp only [WF] at h
    simp only [wire, Ty.longest]
    exact wireFields_longest fs _ _ h
  | .enum w vs, v, h => by
    cases v <;> simp only [WF] at h
    simp only [wire, Ty.longest, List.length_append, digits256_length]
    have h1 := wireVariant_longest vs _ _ h.2
    omega
  | .split pre w mid vs, v, h => by
    cases v <;> simp only [WF] at h
    simp only [wire, Ty.longest, List.length_append, digits256_length]
    obtain ⟨hp, hm, -, hv⟩ := h
    have h0 := wireFields_longest pre _ _ hp
    have h0' := wireFields_longest mid _ _ hm
    have h1 := wireVariant_longest vs _ _ hv
    omega
theorem wireFields_longest : ∀ (fs : Fields) (env : List Nat) (vs : List Val), WFFields fs env vs →
    (wireFields fs env vs).length ≤ fs.longest
  | .nil, env, vs, h => by
    cases vs <;> simp only [WFFields] at h
    simp [wireFields, Fields.longest]
  | .plain t r, env, vs, h => by
    cases vs <;> simp only [WFFields] at h
    have h1 := wire_longest t _ h.1
    have h2 := wireFields_longest r _ _ h.2
    simp only [wireFields, Fields.longest, List.length_append]
    omega
  | .fixedArr t n r, env, vs, h => by
    rcases vs with _ | ⟨v, vs⟩
    · simp only [WFFields] at h
    cases v <;> simp only [WFFields] at h
    rename_i es
    have h1 := flatten_length_le (m := t.longest) (es.map fun e => wire t e) (by
      intro x hx
      obtain ⟨e, he, rfl⟩ := List.mem_map.1 hx
      exact wire_longest t _ (h.2.1 e he))
    rw [List.length_map, h.1] at h1
    have h2 := wireFields_longest r _ _ h.2.2
    simp only [wireFields, Fields.longest, List.length_append]
    omega
  | .lenArr k t n r, env, vs, h => by
    rcases vs with _ | ⟨v, vs⟩
    · simp only [WFFields] at h
    cases v <;> simp only [WFFields] at h
    rename_i es
    obtain ⟨hl, hk, he, hr⟩ := h
    have h1 := flatten_length_le (m := t.longest)
      ((es.take (env.getD k 0)).map fun e => wire t e) (by
      intro x hx
      obtain ⟨e, he', rfl⟩ := List.mem_map.1 hx
      exact wire_longest t _ (he e he'))
    rw [List.length_map, List.length_take] at h1
    have h4 : min (env.getD k 0) es.length * t.longest ≤ n * t.longest :=
      Nat.mul_le_mul_right _ (by omega)
    have h2 := wireFields_longest r _ _ hr
    simp only [wireFields, Fields.longest, List.length_append]
    omega
theorem wireVariant_longest : ∀ (vs : Variants) (sel : Nat) (fvs : List Val),
    WFVariant vs sel fvs → (wireVariant vs sel fvs).length ≤ vs.longest
  | .nil, _, _, h => by simp only [WFVariant] at h
  | .cons s fs rest, sel, fvs, h => by
    simp only [WFVariant] at h
    simp only [wireVariant, Variants.longest]
    split at h
    · rename_i e
      rw [if_pos e]
      have := wireFields_longest fs _ _ h
      omega
    · rename_i e
      rw [if_neg e]
      have := wireVariant_longest rest _ _ h
      omega
end

theorem le_flatten_length {m : Nat} : ∀ (l : List Bytes), (∀ x ∈ l, m ≤ x.length) →
    l.length * m ≤ l.flatten.length
  | [], _ => by simp
  | x :: l, h => by
    have h1 := h x (by simp)
    have h2 := le_flatten_length l (fun y hy => h y (by simp [hy]))
    simp only [List.flatten_cons, List.length_append, List.length_cons, Nat.add_mul]
    omega

mutual
theorem wire_shortest : ∀ (t : Ty) (v : Val), WF t v → t.shortest ≤ (wire t v).length
  | .prim n, v, h => by
    cases v <;> simp only [WF] at h
    simp [wire, Ty.shortest]
  | .unit, v, h => by
    cases v <;> simp only [WF] at h
    simp [wire, Ty.shortest]
  | .bytes m, v, h => by
    cases v <;> simp only [WF] at h
    simp [wire, Ty.shortest, h]
  | .tpm2b cap, v, h => by
    cases v <;> simp only [WF] at h
    simp only [wire, Ty.shortest, List.length_append, digits256_length, List.length_take]
    omega
  | .struct fs, v, h => by
    cases v <;> simp only [WF] at h
    simp only [wire, Ty.shortest]
    exact wireFields_shortest fs _ _ h
  | .enum w vs, v, h => by
    cases v <;> simp only [WF] at h
    simp only [wire, Ty.shortest, List.length_append, digits256_length]
    have h1 := wireVariant_shortest vs _ _ h.2
    omega
  | .split pre w mid vs, v, h => by
    cases v <;> simp only [WF] at h
    simp only [wire, Ty.shortest, List.length_append, digits256_length]
    obtain ⟨hp, hm, -, hv⟩ := h
    have h0 := wireFields_shortest pre _ _ hp
    have h0' := wireFields_shortest mid _ _ hm
    have h1 := wireVariant_shortest vs _ _ hv
    omega
theorem wireFields_shortest : ∀ (fs : Fields) (env : List Nat) (vs : List Val), WFFields fs env vs →
    fs.shortest ≤ (wireFields fs env vs).length
  | .nil, env, vs, h => by
    cases vs <;> simp only [WFFields] at h
    simp [wireFields, Fields.shortest]
  | .plain t r, env, vs, h => by
    cases vs <;> simp only [WFFields] at h
    have h1 := wire_shortest t _ h.1
    have h2 := wireFields_shortest r _ _ h.2
    simp only [wireFields, Fields.shortest, List.length_append]
    omega
  | .fixedArr t n r, env, vs, h => by
    rcases vs with _ | ⟨v, vs⟩
    · simp only [WFFields] at h
    cases v <;> simp only [WFFields] at h
    rename_i es
    have h1 := le_flatten_length (m := t.shortest) (es.map fun e => wire t e) (by
      intro x hx
      obtain ⟨e, he, rfl⟩ := List.mem_map.1 hx
      exact wire_shortest t _ (h.2.1 e he))
    rw [List.length_map, h.1] at h1
    have h2 := wireFields_shortest r _ _ h.2.2
    simp only [wireFields, Fields.shortest, List.length_append]
    omega
  | .lenArr k t n r, env, vs, h => by
    rcases vs with _ | ⟨v, vs⟩
    · simp only [WFFields] at h
    cases v <;> simp only [WFFields] at h
    have h2 := wireFields_shortest r _ _ h.2.2.2
    simp only [wireFields, Fields.shortest, List.length_append]
    omega
theorem wireVariant_shortest : ∀ (vs : Variants) (sel : Nat) (fvs : List Val),
    WFVariant vs sel fvs → vs.shortest.getD 0 ≤ (wireVariant vs sel fvs).length
  | .nil, _, _, h => by simp only [WFVariant] at h
  | .cons s fs rest, sel, fvs, h => by
    simp only [WFVariant] at h
    simp only [wireVariant, Variants.shortest, Option.getD_some]
    split at h
    · rename_i e
      rw [if_pos e]
      have := wireFields_shortest fs _ _ h
      split <;> omega
    · rename_i e
      rw [if_neg e]
      have := wireVariant_shortest rest _ _ h
      split
      · rename_i hn
        cases rest with
        | nil => simp only [WFVariant] at h
        | cons a b c => simp [Variants.shortest] at hn
      · rename_i m hm
        rw [hm, Option.getD_some] at this
        omega
end

/-! ### Values that attain them -/

/-- The capacity of the array that field number `i` counts, the first of these
fields having number `j`; 0 if it counts none. -/
def Fields.capOf (i : Nat) : Fields → Nat
  | .nil => 0
  | .plain _ r => r.capOf i
  | .fixedArr _ _ r => r.capOf i
  | .lenArr k _ n r => if k = i then n else r.capOf i

mutual
/-- A value with the longest encoding. -/
def Ty.large : Ty → Val
  | .prim _ => .int 0
  | .unit => .unit
  | .bytes m => .bytes (List.replicate m 0)
  | .tpm2b cap => .tpm2b cap (List.replicate cap 0)
  | .struct fs => .struct (fs.large 0)
  | .enum _ vs => .enum (vs.large).1 (vs.large).2.2
  | .split pre _ mid vs => .split (pre.large 0) (mid.large 0) (vs.large).1 (vs.large).2.2
/-- Fields with the longest encoding: lengths are the capacities. -/
def Fields.large (i : Nat) : Fields → List Val
  | .nil => []
  | .plain (.prim _) r => .int (r.capOf i) :: r.large (i + 1)
  | .plain t r => t.large :: r.large (i + 1)
  | .fixedArr t n r => .arr (List.replicate n t.large) :: r.large (i + 1)
  | .lenArr _ t n r => .arr (List.replicate n t.large) :: r.large (i + 1)
/-- The variant with the longest encoding: selector, length and data. -/
def Variants.large : Variants → Nat × Nat × List Val
  | .nil => (0, 0, [])
  | .cons s fs r =>
    if r.large.2.1 ≤ fs.longest then (s, fs.longest, fs.large 0) else r.large
end

mutual
/-- A value with the shortest encoding. -/
def Ty.small : Ty → Val
  | .prim _ => .int 0
  | .unit => .unit
  | .bytes m => .bytes (List.replicate m 0)
  | .tpm2b cap => .tpm2b 0 (List.replicate cap 0)
  | .struct fs => .struct fs.small
  | .enum _ vs => .enum (vs.small).1 (vs.small).2.2
  | .split pre _ mid vs => .split pre.small mid.small (vs.small).1 (vs.small).2.2
/-- Fields with the shortest encoding: lengths are zero. -/
def Fields.small : Fields → List Val
  | .nil => []
  | .plain t r => t.small :: r.small
  | .fixedArr t n r => .arr (List.replicate n t.small) :: r.small
  | .lenArr _ t n r => .arr (List.replicate n t.small) :: r.small
/-- The variant with the shortest encoding: selector, length and data. -/
def Variants.small : Variants → Nat × Nat × List Val
  | .nil => (0, 0, [])
  | .cons s fs r =>
    match r with
    | .nil => (s, fs.shortest, fs.small)
    | r => if fs.shortest ≤ r.small.2.1 then (s, fs.shortest, fs.small) else r.small
end

end Verif
