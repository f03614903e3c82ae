import Verif.Codec.Ty

/-! A boolean check of well-formedness, used to exhibit concrete values in the
examples beside the theorems. -/

namespace Verif

mutual
/-- Decides `WF`. -/
def wfCheck : Ty → Val → Bool
  | .prim n, .int x => x < 256 ^ n
  | .unit, .unit => true
  | .bytes m, .bytes b => b.length == m
  | .tpm2b cap, .tpm2b size b => size < 65536 && (b.length == cap && size ≤ cap)
  | .struct fs, .struct vs => wfCheckFields fs [] vs
  | .enum w vs, .enum sel fvs => sel < 256 ^ w && wfCheckVariant vs sel fvs
  | .split pre w mid vs, .split pvs mvs sel fvs =>
      wfCheckFields pre [] pvs && (wfCheckFields mid [] mvs &&
        (sel < 256 ^ w && wfCheckVariant vs sel fvs))
  | _, _ => false
/-- Decides `WFFields`. -/
def wfCheckFields : Fields → List Nat → List Val → Bool
  | .nil, _, [] => true
  | .plain t r, env, v :: vs => wfCheck t v && wfCheckFields r (env ++ [asUsize v]) vs
  | .fixedArr t n r, env, .arr es :: vs =>
      es.length == n && (es.all (fun e => wfCheck t e) && wfCheckFields r (env ++ [0]) vs)
  | .lenArr k t n r, env, .arr es :: vs =>
      es.length == n && (env.getD k 0 ≤ n && ((es.take (env.getD k 0)).all (fun e => wfCheck t e) &&
      wfCheckFields r (env ++ [0]) vs))
  | _, _, _ => false
/-- Decides `WFVariant`. -/
def wfCheckVariant : Variants → Nat → List Val → Bool
  | .nil, _, _ => false
  | .cons s fs rest, sel, fvs =>
    if sel = s then wfCheckFields fs [] fvs else wfCheckVariant rest sel fvs
end

mutual
theorem wfCheck_iff : ∀ (t : Ty) (v : Val), wfCheck t v = true ↔ WF t v
  | .prim n, v => by cases v <;> simp [wfCheck, WF]
  | .unit, v => by cases v <;> simp [wfCheck, WF]
  | .bytes m, v => by cases v <;> simp [wfCheck, WF]
  | .tpm2b cap, v => by cases v <;> simp [wfCheck, WF]
  | .struct fs, v => by cases v <;> simp [wfCheck, WF, wfCheckFields_iff fs]
  | .enum w vs, v => by cases v <;> simp [wfCheck, WF, wfCheckVariant_iff vs]
  | .split pre w mid vs, v => by
    cases v <;> simp [wfCheck, WF, wfCheckFields_iff pre, wfCheckFields_iff mid, wfCheckVariant_iff vs]
theorem wfCheckFields_iff : ∀ (fs : Fields) (env : List Nat) (vs : List Val),
    wfCheckFields fs env vs = true ↔ WFFields fs env vs
  | .nil, env, vs => by cases vs <;> simp [wfCheckFields, WFFields]
  | .plain t r, env, vs => by
    cases vs <;> simp [wfCheckFields, WFFields, wfCheck_iff t, wfCheckFields_iff r]
  | .fixedArr t n r, env, vs => by
    rcases vs with _ | ⟨v, vs⟩
    · simp [wfCheckFields, WFFields]
    cases v <;> simp [wfCheckFields, WFFields, wfCheck_iff t, wfCheckFields_iff r]
  | .lenArr k t n r, env, vs => by
    rcases vs with _ | ⟨v, vs⟩
    · simp [wfCheckFields, WFFields]
    cases v <;> simp [wfCheckFields, WFFields, wfCheck_iff t, wfCheckFields_iff r]
theorem wfCheckVariant_iff : ∀ (vs : Variants) (sel : Nat) (fvs : List Val),
    wfCheckVariant vs sel fvs = true ↔ WFVariant vs sel fvs
  | .nil, _, _ => by simp [wfCheckVariant, WFVariant]
  | .cons s fs rest, sel, fvs => by
    simp only [wfCheckVariant, WFVariant]
    split
    · exact wfCheckFields_iff fs _ _
    · exact wfCheckVariant_iff rest _ _
end

instance (t : Ty) (v : Val) : Decidable (WF t v) := decidable_of_iff _ (wfCheck_iff t v)

mutual
/-- Decides `HasTy`. -/
def tyCheck : Ty → Val → Bool
  | .prim n, .int x => x < 256 ^ n
  | .unit, .unit => true
  | .bytes m, .bytes b => b.length == m
  | .tpm2b cap, .tpm2b size b => size < 65536 && b.length == cap
  | .struct fs, .struct vs => tyCheckFields fs vs
  | .enum w vs, .enum sel fvs => sel < 256 ^ w && tyCheckVariant vs sel fvs
  | .split pre w mid vs, .split pvs mvs sel fvs =>
      tyCheckFields pre pvs && (tyCheckFields mid mvs &&
        (sel < 256 ^ w && tyCheckVariant vs sel fvs))
  | _, _ => false
/-- Decides `HasTyFields`. -/
def tyCheckFields : Fields → List Val → Bool
  | .nil, [] => true
  | .plain t r, v :: vs => tyCheck t v && tyCheckFields r vs
  | .fixedArr t n r, .arr es :: vs =>
      es.length == n && (es.all (fun e => tyCheck t e) && tyCheckFields r vs)
  | .lenArr _ t n r, .arr es :: vs =>
      es.length == n && (es.all (fun e => tyCheck t e) && tyCheckFields r vs)
  | _, _ => false
/-- Decides `HasTyVariant`. -/
def tyCheckVariant : Variants → Nat → List Val → Bool
  | .nil, _, _ => false
  | .cons s fs rest, sel, fvs =>
    if sel = s then tyCheckFields fs fvs else tyCheckVariant rest sel fvs
end

mutual
theorem tyCheck_iff : ∀ (t : Ty) (v : Val), tyCheck t v = true ↔ HasTy t v
  | .prim n, v => by cases v <;> simp [tyCheck, HasTy]
  | .unit, v => by cases v <;> simp [tyCheck, HasTy]
  | .bytes m, v => by cases v <;> simp [tyCheck, HasTy]
  | .tpm2b cap, v => by cases v <;> simp [tyCheck, HasTy]
  | .struct fs, v => by cases v <;> simp [tyCheck, HasTy, tyCheckFields_iff fs]
  | .enum w vs, v => by cases v <;> simp [tyCheck, HasTy, tyCheckVariant_iff vs]
  | .split pre w mid vs, v => by
    cases v <;> simp [tyCheck, HasTy, tyCheckFields_iff pre, tyCheckFields_iff mid, tyCheckVariant_iff vs]
theorem tyCheckFields_iff : ∀ (fs : Fields) (vs : List Val),
    tyCheckFields fs vs = true ↔ HasTyFields fs vs
  | .nil, vs => by cases vs <;> simp [tyCheckFields, HasTyFields]
  | .plain t r, vs => by
    cases vs <;> simp [tyCheckFields, HasTyFields, tyCheck_iff t, tyCheckFields_iff r]
  | .fixedArr t n r, vs => by
    rcases vs with _ | ⟨v, vs⟩
    · simp [tyCheckFields, HasTyFields]
    cases v <;> simp [tyCheckFields, HasTyFields, tyCheck_iff t, tyCheckFields_iff r]
  | .lenArr k t n r, vs => by
    rcases vs with _ | ⟨v, vs⟩
    · simp [tyCheckFields, HasTyFields]
    cases v <;> simp [tyCheckFields, HasTyFields, tyCheck_iff t, tyCheckFields_iff r]
theorem tyCheckVariant_iff : ∀ (vs : Variants) (sel : Nat) (fvs : List Val),
    tyCheckVariant vs sel fvs = true ↔ HasTyVariant vs sel fvs
  | .nil, _, _ => by simp [tyCheckVariant, HasTyVariant]
  | .cons s fs rest, sel, fvs => by
    simp only [tyCheckVariant, HasTyVariant]
    split
    · exact tyCheckFields_iff fs _
    · exact tyCheckVariant_iff rest _ _
end

instance (t : Ty) (v : Val) : Decidable (HasTy t v) := decidable_of_iff _ (tyCheck_iff t v)

end Verif
