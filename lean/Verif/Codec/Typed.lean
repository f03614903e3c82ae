import Verif.Codec.Unmarshal

/-! Values read from bytes are well-typed.  The definitions here have no counterpart
in /repo; they describe the default values of marshalable-derive/src/lib.rs:239-246 and
base/src/lib.rs:584-588. -/

namespace Verif

mutual
/-- Is the default value well-typed?  (An enum without variants has no values.) -/
def Ty.defOk : Ty → Bool
  | .struct fs => fs.defOk
  | .enum w vs => vs.defOk w
  | .split pre w mid vs => pre.defOk && mid.defOk && vs.defOk w
  | _ => true
/-- Are the default values of the fields well-typed? -/
def Fields.defOk : Fields → Bool
  | .nil => true
  | .plain t r => t.defOk && r.defOk
  | .fixedArr t _ r => t.defOk && r.defOk
  | .lenArr _ t _ r => t.defOk && r.defOk
/-- Is the first variant well-typed? -/
def Variants.defOk (w : Nat) : Variants → Bool
  | .nil => false
  | .cons s fs _ => decide (s < 256 ^ w) && fs.defOk
end

mutual
/-- Do the elements of all counted arrays have well-typed default values? -/
def Ty.slotsOk : Ty → Bool
  | .struct fs => fs.slotsOk
  | .enum _ vs => vs.slotsOk
  | .split pre _ mid vs => pre.slotsOk && mid.slotsOk && vs.slotsOk
  | _ => true
/-- The same for fields. -/
def Fields.slotsOk : Fields → Bool
  | .nil => true
  | .plain t r => t.slotsOk && r.slotsOk
  | .fixedArr t _ r => t.slotsOk && r.slotsOk
  | .lenArr _ t _ r => t.slotsOk && t.defOk && r.slotsOk
/-- The same for variants. -/
def Variants.slotsOk : Variants → Bool
  | .nil => true
  | .cons _ fs r => fs.slotsOk && r.slotsOk
end

mutual
theorem hasTy_default : ∀ t : Ty, t.defOk = true → HasTy t t.default
  | .prim n, _ => by simp [Ty.default, HasTy, Nat.pow_pos]
  | .unit, _ => trivial
  | .bytes m, _ => by simp [Ty.default, HasTy]
  | .tpm2b cap, _ => by simp [Ty.default, HasTy]
  | .struct fs, h => by
    simp only [Ty.default, HasTy]
    exact hasTy_defaultF fs (by simpa [Ty.defOk] using h)
  | .enum w vs, h => by
    simp only [Ty.default, HasTy]
    exact hasTy_defaultV w vs (by simpa [Ty.defOk] using h)
  | .split pre w mid vs, h => by
    simp only [Ty.defOk, Bool.and_eq_true] at h
    simp only [Ty.default, HasTy]
    exact ⟨hasTy_defaultF pre h.1.1, hasTy_defaultF mid h.1.2, hasTy_defaultV w vs h.2⟩
theorem hasTy_defaultF : ∀ fs : Fields, fs.defOk = true → HasTyFields fs fs.default
  | .nil, _ => trivial
  | .plain t r, h => by
    simp only [Fields.defOk, Bool.and_eq_true] at h
    exact ⟨hasTy_default t h.1, hasTy_defaultF r h.2⟩
  | .fixedArr t n r, h => by
    simp only [Fields.defOk, Bool.and_eq_true] at h
    refine ⟨by simp, fun e he => ?_, hasTy_defaultF r h.2⟩
    rw [List.eq_of_mem_replicate he]
    exact hasTy_default t h.1
  | .lenArr _ t n r, h => by
    simp only [Fields.defOk, Bool.and_eq_true] at h
    refine ⟨by simp, fun e he => ?_, hasTy_defaultF r h.2⟩
    rw [List.eq_of_mem_replicate he]
    exact hasTy_default t h.1
theorem hasTy_defaultV (w : Nat) : ∀ vs : Variants, vs.defOk w = true →
    vs.defaultSel < 256 ^ w ∧ HasTyVariant vs vs.defaultSel vs.default
  | .nil, h => by simp [Variants.defOk] at h
  | .cons s fs r, h => by
    simp only [Variants.defOk, Bool.and_eq_true, decide_eq_true_eq] at h
    refine ⟨h.1, ?_⟩
    simp only [Variants.defaultSel, HasTyVariant, if_true, Variants.default]
    exact hasTy_defaultF fs h.2
end

mutual
theorem hasTy_canon : ∀ (t : Ty) (v : Val), t.slotsOk = true → WF t v → HasTy t (canon t v)
  | .prim n, v, _, hv => by cases v <;> simp [WF] at hv; simpa [canon, HasTy] using hv
  | .unit, v, _, hv => by cases v <;> simp [WF] at hv; simp [canon, HasTy]
  | .bytes m, v, _, hv => by cases v <;> simp [WF] at hv; simpa [canon, HasTy] using hv
  | .tpm2b cap, v, _, hv => by
    cases v <;> simp only [WF] at hv
    simp only [canon, HasTy, List.length_append, List.length_take, List.length_replicate]
    omega
  | .struct fs, v, h, hv => by
    cases v <;> simp only [WF] at hv
    simp only [canon, HasTy]
    exact hasTy_canonF fs [] _ (by simpa [Ty.slotsOk] using h) hv
  | .enum w vs, v, h, hv => by
    cases v <;> simp only [WF] at hv
    simp only [canon, HasTy]
    exact ⟨hv.1, hasTy_canonV vs _ _ (by simpa [Ty.slotsOk] using h) hv.2⟩
  | .split pre w mid vs, v, h, hv => by
    cases v <;> simp only [WF] at hv
    simp only [Ty.slotsOk, Bool.and_eq_true] at h
    simp only [canon, HasTy]
    exact ⟨hasTy_canonF pre [] _ h.1.1 hv.1, hasTy_canonF mid [] _ h.1.2 hv.2.1, hv.2.2.1,
      hasTy_canonV vs _ _ h.2 hv.2.2.2⟩
theorem hasTy_canonF : ∀ (fs : Fields) (env : List Nat) (vs : List Val), fs.slotsOk = true →
    WFFields fs env vs → HasTyFields fs (canonFields fs env vs)
  | .nil, env, vs, _, hv => by cases vs <;> simp [WFFields] at hv; simp [canonFields, HasTyFields]
  | .plain t r, env, vs, h, hv => by
    cases vs <;> simp only [WFFields] at hv
    simp only [Fields.slotsOk, Bool.and_eq_true] at h
    simp only [canonFields, HasTyFields]
    exact ⟨hasTy_canon t _ h.1 hv.1, hasTy_canonF r _ _ h.2 hv.2⟩
  | .fixedArr t n r, env, vs, h, hv => by
    rcases vs with _ | ⟨v, vs⟩
    · simp [WFFields] at hv
    cases v <;> simp only [WFFields] at hv
    simp only [Fields.slotsOk, Bool.and_eq_true] at h
    simp only [canonFields, HasTyFields, List.length_map]
    refine ⟨hv.1, fun e he => ?_, hasTy_canonF r _ _ h.2 hv.2.2⟩
    obtain ⟨a, ha, rfl⟩ := List.mem_map.mp he
    exact hasTy_canon t _ h.1 (hv.2.1 a ha)
  | .lenArr k t n r, env, vs, h, hv => by
    rcases vs with _ | ⟨v, vs⟩
    · simp [WFFields] at hv
    cases v <;> simp only [WFFields] at hv
    simp only [Fields.slotsOk, Bool.and_eq_true] at h
    simp only [canonFields, HasTyFields, List.length_append, List.length_map, List.length_take,
      List.length_replicate]
    refine ⟨by omega, fun e he => ?_, hasTy_canonF r _ _ h.2 hv.2.2.2⟩
    rcases List.mem_append.mp he with he | he
    · obtain ⟨a, ha, rfl⟩ := List.mem_map.mp he
      exact hasTy_canon t _ h.1.1 (hv.2.2.1 a ha)
    · rw [List.eq_of_mem_replicate he]
      exact hasTy_default t h.1.2
theorem hasTy_canonV : ∀ (vs : Variants) (sel : Nat) (fvs : List Val), vs.slotsOk = true →
    WFVariant vs sel fvs → HasTyVariant vs sel (canonVariant vs sel fvs)
  | .nil, _, _, _, hv => by simp [WFVariant] at hv
  | .cons s fs r, sel, fvs, h, hv => by
    simp only [Variants.slotsOk, Bool.and_eq_true] at h
    simp only [WFVariant] at hv
    simp only [HasTyVariant, canonVariant]
    split <;> rename_i hs
    · rw [if_pos hs] at hv; exact hasTy_canonF fs [] _ h.1 hv
    · rw [if_neg hs] at hv; exact hasTy_canonV r sel _ h.2 hv
end

/-- Values read from bytes are well-typed. -/
theorem unmarshal_hasTy (t : Ty) (h : t.slotsOk = true) (b r : Bytes) (v : Val)
    (hu : unmarshal t b = (.ok v, r)) : HasTy t v := by
  obtain ⟨h1, h2, -⟩ := (goodTy t).sound _ _ _ hu
  rw [← h2]
  exact hasTy_canon t v h h1

end Verif
