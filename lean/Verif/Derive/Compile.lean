import Verif.Derive.Lemmas

/-! Generated implementations as a whole. -/

namespace Verif.Derive
open Verif
open Verif.UM (bind_eq pure_eq)

/-- The implementation generated for a structure, with the codec it amounts to. -/
theorem named_complete {Γ : Ctx} {w : Nat} {input : Input} {fs : List NField} {F : Fields}
    (hdata : input.data = .struct (.named fs)) (hp : input.Plain)
    (hd : (fs.map (·.ident)).Nodup) (hu : Usable (.struct (.named fs)))
    (h : FieldsMean Γ [] fs F) :
    ∃ items c, deriveMarshalable input = .ok items ∧ implOf Γ w input items = some c ∧
      c.Implements (.struct F) := by
  obtain ⟨ms, us, km, ku, hms, hus, hkm, hku, hm, hk⟩ :=
    fields_complete h (by simpa using hd) hu.1 hu.2 [] basicRel_nil [] (by intro g hg; cases hg)
      (fun _ => rfl)
  refine ⟨[.marshalStruct input.ident ms us (.names (fs.map (·.ident)))],
    ⟨ku [] >>= fun loc => pure (.struct (construct (.names (fs.map (·.ident))) loc)), fun v buf =>
      match v with
      | .struct vs => km vs 0 buf
      | _ => (.panic, buf)⟩, ?_, ?_, ?_, ?_⟩
  · simp [deriveMarshalable, hdata, anyFlag_plain _ _ hp, fieldMarshalBody, fieldUnmarshal, hms, hus,
      Res.bind, fieldList]
  · simp only [List.nil_append] at hkm
    simp only [implOf, hdata, elabStruct, hkm, hku]
    rfl
  · funext b
    simp only [unmarshal, bind_eq, hk [] [] b ⟨rfl, by intro k g hg; cases hg⟩]
    rcases hx : unmarshalFields F [] b with ⟨_ | _ | _, b'⟩
    · rename_i vs
      have : construct (.names (fs.map (·.ident))) (bindAll fs vs []) = vs := by
        unfold construct FieldList.vars'
        rw [List.map_map]
        exact construct_bindAll fs vs [] hd (fieldsMean_length h [] b b' vs hx)
      simp only [pure_eq, this]
    · rfl
    · rfl
  · intro v buf hv
    cases v <;> simp only [HasTy] at hv
    rename_i vs
    simp only [marshal]
    simpa using hm [] vs 0 buf rfl hv

theorem unnamed_complete {Γ : Ctx} {w : Nat} {input : Input} {ts : List TypeE} {F : Fields}
    (hdata : input.data = .struct (.unnamed ts)) (hp : input.Plain) (h : TuplesMean Γ ts F) :
    ∃ items c, deriveMarshalable input = .ok items ∧ implOf Γ w input items = some c ∧
      c.Implements (.struct F) := by
  obtain ⟨km, hkm, hm⟩ := tuple_marshal (Γ := Γ) (p := ⟨[], ts, []⟩) (c := .index) (all := ts)
    index_step h [] rfl
  obtain ⟨ku, hku, hk⟩ := tuple_unmarshal h 0 [] rfl
  refine ⟨[.marshalStruct input.ident ((List.range ts.length).map .index)
      ((List.range ts.length).zipWith .letVar ts) (.vars ts.length)],
    ⟨ku [] >>= fun loc => pure (.struct (construct (.vars ts.length) loc)), fun v buf =>
      match v with
      | .struct vs => km vs 0 buf
      | _ => (.panic, buf)⟩, ?_, ?_, ?_, ?_⟩
  · simp [deriveMarshalable, hdata, anyFlag_plain _ _ hp, fieldMarshalBody, fieldUnmarshal,
      Res.bind, fieldList]
  · simp only [implOf, hdata, elabStruct, selfPlaces, List.range_eq_range']
    simp only [List.length_nil] at hkm
    simp only [hkm, hku]
    rfl
  · funext b
    simp only [unmarshal, bind_eq, hk [] [] b]
    rcases hx : unmarshalFields F [] b with ⟨_ | _ | _, b'⟩
    · rename_i vs
      have : construct (.vars ts.length) (bindVars 0 ts vs []) = vs := by
        unfold construct FieldList.vars'
        rw [List.map_map, List.range_eq_range']
        exact construct_bindVars ts 0 vs [] (tuplesMean_length h [] b b' vs hx)
      simp only [pure_eq, this]
    · rfl
    · rfl
  · intro v buf hv
    cases v <;> simp only [HasTy] at hv
    rename_i vs
    simp only [marshal]
    simpa using hm [] vs [] 0 buf rfl hv

theorem unit_complete {Γ : Ctx} {w : Nat} {input : Input}
    (hdata : input.data = .struct .unit) (hp : input.Plain) :
    ∃ items c, deriveMarshalable input = .ok items ∧ implOf Γ w input items = some c ∧
      c.Implements (.struct .nil) := by
  refine ⟨[.marshalStruct input.ident [] [] (.names [])],
    ⟨pure (.struct []), fun v buf =>
      match v with
      | .struct _ => (.ok 0, buf)
      | _ => (.panic, buf)⟩, ?_, ?_, ?_, ?_⟩
  · simp [deriveMarshalable, hdata, anyFlag_plain _ _ hp, fieldMarshalBody, fieldUnmarshal,
      Res.bind, fieldList]
  · simp only [implOf, hdata]
    rfl
  · rfl
  · intro v buf hv
    cases v <;> simp only [HasTy] at hv
    rename_i vs
    cases vs with
    | nil => rfl
    | cons v vs => simp [HasTyFields] at hv

theorem enum_complete {Γ : Ctx} {w : Nat} {input : Input} {vs : List VariantE} {V : Variants}
    (hdata : input.data = .enum vs) (hp : input.Plain)
    (hd : (vs.map (·.ident)).Nodup) (h : VariantsMean Γ vs V) :
    ∃ items c, deriveMarshalable input = .ok items ∧ implOf Γ w input items = some c ∧
      c.Implements (.enum w V) := by
  obtain ⟨m, hm, hmar⟩ := arms_complete hd h (fun v hv => hv)
  obtain ⟨conds, u, hconds, hu, hun⟩ := conds_complete hd h (fun v hv => hv)
  have hf : ∀ v ∈ vs, ∃ ts, v.fields = .unnamed ts := by
    clear hd hdata hp hm hmar hconds hu hun
    induction h with
    | nil => intro v hv; cases hv
    | cons hf _ _ _ _ ih =>
      intro v hv
      rcases List.mem_cons.mp hv with rfl | hv
      · exact ⟨_, hf⟩
      · exact ih v hv
  have harms := (enumMarshalBody_ok vs _).mpr ⟨rfl, hf⟩
  refine ⟨[.variant input.ident (vs.map armOf) conds, .marshalEnum input.ident],
    elabEnum w ⟨u, m⟩, ?_, ?_, ?_, ?_⟩
  · simp [deriveMarshalable, hdata, anyFlag_plain _ _ hp, enumImpl, harms, hconds, Res.bind]
  · simp [implOf, hdata, elabVariant, hm, hu]
  · funext b
    simp only [elabEnum, unmarshal, bind_eq, hun]
  · intro v buf hv
    cases v <;> simp only [HasTy] at hv
    rename_i sel fvs
    simp only [elabEnum, marshal]
    congr 1
    funext w' buf'
    congr 1
    funext b
    exact hmar sel fvs b hv.2

theorem means_complete {Γ : Ctx} {w : Nat} {input : Input} {t : Ty} (hp : input.Plain)
    (hd : Distinct input.data) (hu : Usable input.data) (h : Means Γ w input.data t) :
    ∃ items c, deriveMarshalable input = .ok items ∧ implOf Γ w input items = some c ∧
      c.Implements t := by
  generalize hdata : input.data = d at hd hu h
  cases h with
  | named h => exact named_complete hdata hp hd hu h
  | unnamed h => exact unnamed_complete hdata hp h
  | unit => exact unit_complete hdata hp
  | enum h => exact enum_complete hdata hp hd h

/-- What is left of an accepted input without flags. -/
theorem derive_struct_ok {input : Input} {fs : FieldsE} {items : List Item}
    (hdata : input.data = .struct fs) (hp : input.Plain)
    (h : deriveMarshalable input = .ok items) :
    ∃ m u, fieldMarshalBody fs = .ok m ∧ fieldUnmarshal fs = .ok u ∧
      items = [.marshalStruct input.ident m u (fieldList fs)] := by
  simp only [deriveMarshalable, hdata, anyFlag_plain _ _ hp] at h
  cases hm : fieldMarshalBody fs with
  | ok m =>
    cases hu : fieldUnmarshal fs with
    | ok u =>
      simp [hm, hu, Res.bind] at h
      exact ⟨m, u, rfl, rfl, h.symm⟩
    | err e => simp [hm, hu, Res.bind] at h
    | panic => simp [hm, hu, Res.bind] at h
  | err e => simp [hm, Res.bind] at h
  | panic => simp [hm, Res.bind] at h

theorem derive_enum_ok {input : Input} {vs : List VariantE} {items : List Item}
    (hdata : input.data = .enum vs) (hp : input.Plain)
    (h : deriveMarshalable input = .ok items) :
    ∃ arms conds, enumMarshalBody vs = .ok arms ∧ enumUnmarshalBody [] vs = .ok conds ∧
      items = [.variant input.ident arms conds, .marshalEnum input.ident] := by
  simp only [deriveMarshalable, hdata, anyFlag_plain _ _ hp, enumImpl] at h
  cases hm : enumMarshalBody vs with
  | ok m =>
    cases hu : enumUnmarshalBody [] vs with
    | ok u =>
      simp [hm, hu, Res.bind] at h
      exact ⟨m, u, rfl, rfl, h.symm⟩
    | err e => simp [hm, hu, Res.bind] at h
    | panic => simp [hm, hu, Res.bind] at h
  | err e => simp [hm, Res.bind] at h
  | panic => simp [hm, Res.bind] at h

theorem means_sound {Γ : Ctx} {w : Nat} {input : Input} {items : List Item} {c : Codec}
    (hp : input.Plain) (hd : Distinct input.data) (h : deriveMarshalable input = .ok items)
    (hc : implOf Γ w input items = some c) :
    Usable input.data ∧ ∃ t, Means Γ w input.data t := by
  cases hdata : input.data with
  | struct fs =>
    obtain ⟨m, u, hm, hu, rfl⟩ := derive_struct_ok hdata hp h
    simp only [implOf, hdata, elabStruct] at hc
    split at hc
    · rename_i km ku hkm hku
      cases fs with
      | named fs =>
        rw [hdata] at hd
        obtain ⟨F, hF, h1, h2⟩ := fields_sound (Γ := Γ) fs [] [] [] u ku hd basicRel_nil
          (by intro g hg; cases hg) hu hku
        exact ⟨⟨h1, h2⟩, _, .named hF⟩
      | unnamed ts =>
        simp only [fieldUnmarshal, Res.ok.injEq, List.range_eq_range'] at hu
        subst hu
        obtain ⟨F, hF⟩ := tuple_sound ts 0 [] ku hku
        exact ⟨trivial, _, .unnamed hF⟩
      | unit => exact ⟨trivial, _, .unit⟩
    · cases hc
  | enum vs =>
    obtain ⟨arms, conds, ha, hcs, rfl⟩ := derive_enum_ok hdata hp h
    simp only [implOf, hdata, elabVariant] at hc
    split at hc
    · rename_i m u hm hu
      obtain ⟨V, hV⟩ := conds_sound vs conds u ((enumMarshalBody_ok vs arms).mp ha).2 hcs hu
      exact ⟨trivial, _, .enum hV⟩
    · cases hc
  | union => simp [deriveMarshalable, hdata] at h

end Verif.Derive
