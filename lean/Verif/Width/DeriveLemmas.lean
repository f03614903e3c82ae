import Verif.Width.DeriveOn

/-! Lemmas about the code the derive macro generates, on a machine with a `usize` of a given width. -/

namespace Verif.Own.Derive.Wide
open Verif
open _root_.Verif.Derive
open Verif.UM (bind_eq pure_eq)

variable {X : Type} {m : Machine}

theorem fields_complete {Γ : Ctx X} {before fs : List NField} {F : Fields X}
    (h : FieldsMean Γ before fs F) :
    ∀ (_ : ((before ++ fs).map (·.ident)).Nodup)
    (_ : ∀ pre f post, fs = pre ++ f :: post → f.ident = "buffer" → post = [] ∧ ¬ f.ty.IsArray)
    (_ : ∀ f ∈ fs, ∀ elem len, f.ty = .array elem len → Γ.element elem = true)
    (basic : BasicTypes) (_ : BasicRel before basic) (s : Scope) (_ : ScopeRel before s)
    (_ : fs ≠ [] → bufferVisible s = true),
    ∃ ms us km ku, eachField namedFieldMarshal basic fs = .ok ms ∧
      eachField namedFieldUnmarshal basic fs = .ok us ∧
      elabMOn m Γ (selfPlaces (.named (before ++ fs))) ms = some km ∧ elabUOn m Γ us s = some ku ∧
      (∀ pre env vs w buf, SelfRel Γ before pre env → FormedFields F vs →
        km (pre ++ vs) w buf = marshalFieldsOn m F env vs w buf) ∧
      (∀ loc env b, EnvRel Γ before loc env →
        ku loc b = (unmarshalFieldsOn m F env >>= fun vs => pure (bindAll fs vs loc)) b) := by
  induction h with
  | nil =>
    intro _ _ _ basic _ s _ _
    refine ⟨[], [], _, _, rfl, rfl, rfl, rfl, ?_, ?_⟩
    · intro pre env vs w buf _ hv
      cases hv
      simp [marshalFieldsOn]
    · intro loc env b _
      simp [unmarshalFieldsOn, bind_eq, pure_eq, bindAll]
  | @plain before f fs t r hb ha ht _ ih =>
    intro hd hbuf hcall basic hbasic s hs hv
    have hvis := hv (by simp)
    have hty : ∀ {x y}, f.ty ≠ .array x y := by
      intro x y e; exact ha (by rw [e]; trivial)
    obtain ⟨ms, us, km, ku, hms, hus, hkm, hku, hm, hu⟩ := ih
      (by rw [List.append_assoc]; exact hd)
      (fun pre g post e => hbuf (f :: pre) g post (by rw [e]; rfl))
      (fun g hg => hcall g (List.mem_cons_of_mem _ hg))
      ((f.ident, f.ty) :: basic) (basicRel_add hbasic hb ha f.ty)
      ((.name f.ident, some f.ty) :: s) (scopeRel_step hd hs (fun _ _ => rfl))
      (fun hne => visible_cons.mpr ⟨fun e => hne (hbuf [] f fs rfl e).1, hvis⟩)
    have hattr := (attr_none f).mpr hb
    refine ⟨.field f.ident :: ms, .letField f.ident f.ty :: us, stepAtOn m t before.length km, ?ku1, ?a1, ?b1, ?c1, ?d1, ?e1, ?f1⟩
    case d1 =>
      simp only [elabUOn, hvis, if_true, ht, hku]
      rfl
    case a1 =>
      refine eachField_cons_ok ?_ hms
      simp only [namedFieldMarshal, hattr, Res.bind]
    case b1 =>
      refine eachField_cons_ok ?_ hus
      simp only [namedFieldUnmarshal, hattr, Res.bind]
    case c1 =>
      simp only [elabMOn]
      rw [named_at hd]
      rw [List.append_assoc] at hkm
      simp only [List.singleton_append] at hkm
      simp only [ht, hkm]
    case e1 =>
      intro pre env vs w buf hp hv'
      cases hv' with
      | @plain _ _ v vs hv' =>
        unfold stepAtOn
        rw [List.getElem?_append_right (by rw [hp.1]; omega), hp.1, Nat.sub_self]
        simp only [List.getElem?_cons_zero, marshalFieldsOn]
        congr 1
        funext w buf
        have := hm (pre ++ [v]) (env ++ [asUsize t v]) vs w buf
          (selfRel_step hp (fun _ _ t' ht' => by rw [ht] at ht'; cases ht'; rfl)) hv'
        rw [List.append_assoc] at this
        simpa using this
    case f1 =>
      intro loc env b hE
      simp only [unmarshalFieldsOn, bind_eq]
      rcases hub : unmarshalOn m t b with ⟨_ | _ | _, b'⟩
      · rename_i v
        simp only [hu _ _ _ (envRel_step (x := asUsize t v) hd hE (fun _ _ t' ht' => by rw [ht] at ht'; cases ht'; rfl)), bind_eq]
        rcases unmarshalFieldsOn m r (env ++ [asUsize t v]) b' with ⟨_ | _ | _, b''⟩
        · simp [pure_eq, bindAll]
        · rfl
        · rfl
      · rfl
      · rfl
  | @array before f fs elem len t n r hb hty ht hn _ ih =>
    intro hd hbuf hcall basic hbasic s hs hv
    have hvis := hv (by simp)
    have hname : f.ident ≠ "buffer" := fun e => (hbuf [] f fs rfl e).2 (by rw [hty]; trivial)
    have hvis' : bufferVisible ((.name f.ident, none) :: s) = true := visible_cons.mpr ⟨hname, hvis⟩
    obtain ⟨ms, us, km, ku, hms, hus, hkm, hku, hm, hu⟩ := ih
      (by rw [List.append_assoc]; exact hd)
      (fun pre g post e => hbuf (f :: pre) g post (by rw [e]; rfl))
      (fun g hg => hcall g (List.mem_cons_of_mem _ hg))
      basic (basicRel_skip hbasic (fun _ => by rw [hty]; trivial))
      ((.name f.ident, none) :: s)
      (scopeRel_step hd hs (fun _ ha => absurd (by rw [hty]; trivial) ha)) (fun _ => hvis')
    have hattr := (attr_none f).mpr hb
    refine ⟨.maxLoop len f.ident :: ms, .maxArr len f.ident elem :: us, loopAtOn m t (fun _ => n) before.length km, ?ku2, ?a2, ?b2, ?c2, ?d2, ?e2, ?f2⟩
    case d2 =>
      simp only [elabUOn, hvis', hcall f (by simp) _ _ hty, Bool.and_self, if_true, ht, hn, hku]
      rfl
    case a2 =>
      refine eachField_cons_ok ?_ hms
      simp only [namedFieldMarshal, hattr, Res.bind, hty]
    case b2 =>
      refine eachField_cons_ok ?_ hus
      simp only [namedFieldUnmarshal, hattr, Res.bind, hty]
    case c2 =>
      simp only [elabMOn]
      rw [named_at hd, hty]
      rw [List.append_assoc] at hkm
      simp only [List.singleton_append] at hkm
      simp only [ht, hn, hkm]
    case e2 =>
      intro pre env vs w buf hp hv'
      cases hv' with
      | @fixedArr _ _ _ es vs hv' =>
        unfold loopAtOn
        rw [List.getElem?_append_right (by rw [hp.1]; omega), hp.1, Nat.sub_self]
        simp only [List.getElem?_cons_zero, marshalFieldsOn]
        congr 1
        funext w buf
        have := hm (pre ++ [.arr es]) (env ++ [0]) vs w buf
          (selfRel_step hp (fun _ ha => absurd (by rw [hty]; trivial) ha)) hv'
        rw [List.append_assoc] at this
        simpa using this
    case f2 =>
      intro loc env b hE
      simp only [unmarshalFieldsOn, bind_eq]
      rcases hub : unmarshalLoop (unmarshalOn m t) n b with ⟨_ | _ | _, b'⟩
      · rename_i es
        dsimp only
        rw [hu _ _ _ (envRel_step hd hE (v := .arr _) (x := 0) (fun _ ha => absurd (by rw [hty]; trivial) ha))]
        simp only [bind_eq]
        rcases unmarshalFieldsOn m r (env ++ [0]) b' with ⟨_ | _ | _, b''⟩
        · simp [pure_eq, bindAll]
        · rfl
        · rfl
      · rfl
      · rfl
  | @counted before f fs elem len t n r l k g lt hc hty ht hn hk hl hgb hga hcst hgt _ ih =>
    intro hd hbuf hcall basic hbasic s hs hv
    have hvis := hv (by simp)
    have hname : f.ident ≠ "buffer" := fun e => (hbuf [] f fs rfl e).2 (by rw [hty]; trivial)
    have hvis' : bufferVisible ((.name f.ident, none) :: s) = true := visible_cons.mpr ⟨hname, hvis⟩
    obtain ⟨ms, us, km, ku, hms, hus, hkm, hku, hm, hu⟩ := ih
      (by rw [List.append_assoc]; exact hd)
      (fun pre g post e => hbuf (f :: pre) g post (by rw [e]; rfl))
      (fun g hg => hcall g (List.mem_cons_of_mem _ hg))
      basic (basicRel_skip hbasic (fun _ => by rw [hty]; trivial))
      ((.name f.ident, none) :: s)
      (scopeRel_step hd hs (fun _ ha => absurd (by rw [hty]; trivial) ha)) (fun _ => hvis')
    have hattr := (attr_some f l).mpr hc
    have hgm : g ∈ before := List.mem_of_getElem? hk
    have hsome : (basic.lookup l).isSome := (hbasic l).mpr ⟨g, hgm, hl, hgb, hga⟩
    have hprim : getPrimitive (.ident l) basic = .ok (.ident l) := by
      unfold getPrimitive
      simp only [getIdent_iff.mpr rfl]
      rw [if_neg]
      cases hx : basic.lookup l with
      | none => rw [hx] at hsome; cases hsome
      | some _ => simp
    have hcast : castable Γ s (.ident l) = some (l, lt) := by
      unfold castable
      simp only [getIdent_iff.mpr rfl]
      have := hs g hgm hgb hga
      rw [hl] at this
      rw [this]
      simp [hcst, hgt]
    subst hl
    have hklt : k < before.length := (List.getElem?_eq_some_iff.mp hk).1
    refine ⟨.lenLoop (.ident g.ident) f.ident :: ms,
      .lenArr (.ident g.ident) len f.ident elem :: us, loopAtOn m t (fun vs => m.cast (asUsize lt (vs.getD k (.std .unit)))) before.length km, ?ku3, ?a3, ?b3, ?c3, ?d3, ?e3, ?f3⟩
    case d3 =>
      simp only [elabUOn, hvis', hcall f (by simp) _ _ hty, Bool.and_self, if_true, ht, hn, hku, hcast]
      rfl
    case a3 =>
      refine eachField_cons_ok ?_ hms
      simp only [namedFieldMarshal, hattr, Res.bind, hprim]
    case b3 =>
      refine eachField_cons_ok ?_ hus
      simp only [namedFieldUnmarshal, hattr, Res.bind, hprim, getArrayDefault, hty]
    case c3 =>
      simp only [elabMOn, getIdent_iff.mpr rfl]
      rw [named_at hd, hty, named_iff hd (k := k) (g := g) (by
        rw [List.getElem?_append_left hklt]; exact hk)]
      rw [List.append_assoc] at hkm
      simp only [List.singleton_append] at hkm
      simp only [ht, hgt, hcst, hkm]
    case e3 =>
      intro pre env vs w buf hp hv'
      cases hv' with
      | @lenArr _ _ _ _ es vs hv' =>
        unfold loopAtOn
        rw [List.getElem?_append_right (by rw [hp.1]; omega), hp.1, Nat.sub_self]
        have e : (pre ++ .arr es :: vs).getD k (.std .unit) = pre.getD k (.std .unit) := by
          simp only [List.getD_eq_getElem?_getD]
          rw [List.getElem?_append_left (by rw [hp.1]; exact hklt)]
        simp only [List.getElem?_cons_zero, marshalFieldsOn, e, hp.2.2 k g lt hk hgb hga hgt]
        congr 1
        funext w buf
        have := hm (pre ++ [.arr es]) (env ++ [0]) vs w buf
          (selfRel_step hp (fun _ ha => absurd (by rw [hty]; trivial) ha)) hv'
        rw [List.append_assoc] at this
        simpa using this
    case f3 =>
      intro loc env b hE
      simp only [unmarshalFieldsOn, hE.2 k g lt hk hgb hga hgt]
      by_cases hgn : m.cast (env.getD k 0) > n
      · simp only [hgn, if_true, bind_eq]
        rfl
      · simp only [hgn, if_false, bind_eq]
        rcases hub : unmarshalLoop (unmarshalOn m t) (m.cast (env.getD k 0)) b with ⟨_ | _ | _, b'⟩
        · rename_i es
          dsimp only
          rw [hu _ _ _ (envRel_step hd hE (v := .arr _) (x := 0) (fun _ ha => absurd (by rw [hty]; trivial) ha))]
          simp only [bind_eq]
          rcases unmarshalFieldsOn m r (env ++ [0]) b' with ⟨_ | _ | _, b''⟩
          · simp [pure_eq, bindAll]
          · rfl
          · rfl
        · rfl
        · rfl

theorem fieldsMean_length {Γ : Ctx X} {before fs : List NField} {F : Fields X}
    (h : FieldsMean Γ before fs F) : ∀ (env : List Nat) (b b' : Bytes) (vs : List (Val X)),
    unmarshalFieldsOn m F env b = (.ok vs, b') → vs.length = fs.length := by
  induction h with
  | nil =>
    intro env b b' vs h
    simp only [unmarshalFieldsOn, pure_eq] at h
    cases h; rfl
  | plain _ _ _ _ ih =>
    intro env b b' vs h
    simp only [unmarshalFieldsOn, bind_eq] at h
    split at h
    · split at h
      · rename_i hr
        cases h
        simp [ih _ _ _ _ hr]
      · cases h
      · cases h
    · cases h
    · cases h
  | array _ _ _ _ _ ih =>
    intro env b b' vs h
    simp only [unmarshalFieldsOn, bind_eq] at h
    split at h
    · split at h
      · rename_i hr
        cases h
        simp [ih _ _ _ _ hr]
      · cases h
      · cases h
    · cases h
    · cases h
  | counted _ _ _ _ _ _ _ _ _ _ _ ih =>
    intro env b b' vs h
    simp only [unmarshalFieldsOn] at h
    split at h
    · cases h
    · simp only [bind_eq] at h
      split at h
      · split at h
        · rename_i hr
          cases h
          simp [ih _ _ _ _ hr]
        · cases h
        · cases h
      · cases h
      · cases h

theorem tuple_marshal {Γ : Ctx X} {p : Places} {c : Nat → MStmt} {all : List TypeE}
    (hc : ∀ i ty r t k, all[i]? = some ty → Γ.ty ty = some t → elabMOn m Γ p r = some k →
      elabMOn m Γ p (c i :: r) = some (stepAtOn m t i k))
    {ts : List TypeE} {F : Fields X} (h : TuplesMean Γ ts F) :
    ∀ preT, all = preT ++ ts →
    ∃ km, elabMOn m Γ p ((List.range' preT.length ts.length).map c) = some km ∧
      ∀ pre vs env w buf, pre.length = preT.length → FormedFields F vs →
        km (pre ++ vs) w buf = marshalFieldsOn m F env vs w buf := by
  induction h with
  | nil =>
    intro preT _
    refine ⟨_, rfl, ?_⟩
    intro pre vs env w buf _ hv
    cases hv
    simp [marshalFieldsOn]
  | @cons ty ts t r ht _ ih =>
    intro preT hall
    obtain ⟨km, hkm, hm⟩ := ih (preT ++ [ty]) (by rw [hall, List.append_assoc]; rfl)
    rw [List.length_append] at hkm
    refine ⟨stepAtOn m t preT.length km, ?_, ?_⟩
    · rw [List.length_cons, List.range'_succ, List.map_cons]
      refine hc _ ty _ t km ?_ ht hkm
      rw [hall, List.getElem?_append_right (Nat.le_refl _), Nat.sub_self]
      rfl
    · intro pre vs env w buf hp hv
      cases hv with
      | @plain _ _ v vs hv =>
        unfold stepAtOn
        rw [List.getElem?_append_right (by omega), hp, Nat.sub_self]
        simp only [List.getElem?_cons_zero, marshalFieldsOn]
        congr 1
        funext w buf
        have := hm (pre ++ [v]) vs (env ++ [asUsize t v]) w buf (by simp [hp]) hv
        rw [List.append_assoc] at this
        simpa using this

theorem index_step {Γ : Ctx X} {all : List TypeE} (i : Nat) (ty : TypeE) (r : List MStmt) (t : Ty X)
    (k : List (Val X) → Nat → Bytes → MOut) (hi : all[i]? = some ty) (ht : Γ.ty ty = some t)
    (hk : elabMOn m Γ ⟨[], all, []⟩ r = some k) :
    elabMOn m Γ ⟨[], all, []⟩ (.index i :: r) = some (stepAtOn m t i k) := by
  simp only [elabMOn, hi, ht, hk]

theorem var_step {Γ : Ctx X} {all : List TypeE} (i : Nat) (ty : TypeE) (r : List MStmt) (t : Ty X)
    (k : List (Val X) → Nat → Bytes → MOut) (hi : all[i]? = some ty) (ht : Γ.ty ty = some t)
    (hk : elabMOn m Γ ⟨[], [], all⟩ r = some k) :
    elabMOn m Γ ⟨[], [], all⟩ (.var i :: r) = some (stepAtOn m t i k) := by
  simp only [elabMOn, hi, ht, hk]

theorem tuple_unmarshal {Γ : Ctx X} {ts : List TypeE} {F : Fields X} (h : TuplesMean Γ ts F) :
    ∀ (n : Nat) (s : Scope), bufferVisible s = true →
    ∃ ku, elabUOn m Γ (List.zipWith .letVar (List.range' n ts.length) ts) s = some ku ∧
      ∀ loc env b, ku loc b =
        (unmarshalFieldsOn m F env >>= fun vs => pure (bindVars n ts vs loc)) b := by
  induction h with
  | nil =>
    intro n s _
    refine ⟨_, rfl, ?_⟩
    intro loc env b
    simp [unmarshalFieldsOn, bind_eq, pure_eq, bindVars]
  | @cons ty ts t r ht _ ih =>
    intro n s hs
    obtain ⟨ku, hku, hu⟩ := ih (n + 1) ((.f n, some ty) :: s) (by rw [visible_var]; exact hs)
    refine ⟨fun loc => (unmarshalOn m t >>= fun v => ku ((.f n, v) :: loc)), ?_, ?_⟩
    · simp only [List.length_cons, List.range'_succ, List.zipWith_cons_cons, elabUOn, hs, if_true, ht,
        hku]
    · intro loc env b
      simp only [unmarshalFieldsOn, bind_eq]
      rcases unmarshalOn m t b with ⟨_ | _ | _, b'⟩
      · rename_i v
        dsimp only
        rw [hu _ (env ++ [asUsize t v])]
        simp only [bind_eq]
        rcases unmarshalFieldsOn m r (env ++ [asUsize t v]) b' with ⟨_ | _ | _, b''⟩
        · simp [pure_eq, bindVars]
        · rfl
        · rfl
      · rfl
      · rfl

theorem tuplesMean_length {Γ : Ctx X} {ts : List TypeE} {F : Fields X} (h : TuplesMean Γ ts F) :
    ∀ (env : List Nat) (b b' : Bytes) (vs : List (Val X)),
    unmarshalFieldsOn m F env b = (.ok vs, b') → vs.length = ts.length := by
  induction h with
  | nil =>
    intro env b b' vs h
    simp only [unmarshalFieldsOn, pure_eq] at h
    cases h; rfl
  | cons _ _ ih =>
    intro env b b' vs h
    simp only [unmarshalFieldsOn, bind_eq] at h
    split at h
    · split at h
      · rename_i hr
        cases h
        simp [ih _ _ _ _ hr]
      · cases h
      · cases h
    · cases h
    · cases h

theorem arms_complete {Γ : Ctx X} {all : List VariantE} (hd : (all.map (·.ident)).Nodup)
    {vs : List VariantE} {V : Variants X} (h : VariantsMean Γ vs V) : (∀ v ∈ vs, v ∈ all) →
    ∃ q, elabArmsOn m Γ (all.map armOf) vs = some q ∧
      ∀ sel fvs buf fs, Selects V sel fs → FormedFields fs fvs → q sel fvs buf = marshalVariantOn m V sel fvs buf := by
  induction h with
  | nil =>
    intro _
    refine ⟨_, rfl, ?_⟩
    intro sel fvs buf fs h
    cases h
  | @cons v vs ts disc s fs r hf hdisc hs ht _ ih =>
    intro hall
    obtain ⟨q, hm, hr⟩ := ih (fun x hx => hall x (List.mem_cons_of_mem _ hx))
    obtain ⟨km, hkm, hk⟩ := tuple_marshal (m := m) (Γ := Γ) (p := ⟨[], [], ts⟩) (c := .var) (all := ts)
      var_step ht [] rfl
    have hfind := find_by_ident armOf (·.variant) (fun _ => rfl) all v hd (hall v (by simp))
    refine ⟨fun sel fvs buf => if sel = s then km fvs 0 buf else q sel fvs buf, ?_, ?_⟩
    · simp only [elabArmsOn, hfind, hdisc, hs, hm]
      have : patternPlaces (armOf v).pattern v.fields = some ⟨[], [], ts⟩ := by
        simp [patternPlaces, armOf, hf, tsOf]
      rw [this]
      have hb : (armOf v).body = (List.range' ([] : List TypeE).length ts.length).map .var := by
        simp [armOf, hf, tsOf, List.range_eq_range']
      simp only [Option.bind_some, hb, hkm]
    · intro sel fvs buf fs' hsel hv
      simp only [marshalVariantOn]
      cases hsel with
      | here =>
        simp only [if_true]
        simpa using hk [] fvs [] 0 buf rfl hv
      | there he hsel =>
        simp only [he, if_false]
        exact hr sel fvs buf _ hsel hv

theorem conds_complete {Γ : Ctx X} {all : List VariantE} (hd : (all.map (·.ident)).Nodup)
    {vs : List VariantE} {V : Variants X} (h : VariantsMean Γ vs V) : (∀ v ∈ vs, v ∈ all) →
    ∃ conds u, enumUnmarshalBody [] vs = .ok conds ∧ elabCondsOn m Γ all conds = some u ∧
      ∀ sel b, u sel b = (unmarshalVariantOn m V sel >>= fun fvs => pure (.enum sel fvs)) b := by
  induction h with
  | nil =>
    intro _
    refine ⟨[], _, rfl, rfl, ?_⟩
    intro sel b
    simp only [unmarshalVariantOn, bind_eq]
    rfl
  | @cons v vs ts disc s fs r hf hdisc hs ht _ ih =>
    intro hall
    obtain ⟨conds, u, hconds, hu, hr⟩ := ih (fun x hx => hall x (List.mem_cons_of_mem _ hx))
    obtain ⟨ku, hku, hk⟩ := tuple_unmarshal (m := m) ht 0 [] rfl
    have hfind := find_by_ident id (·.ident) (fun _ => rfl) all v hd (hall v (by simp))
    rw [List.map_id] at hfind
    refine ⟨⟨disc, List.zipWith .letVar (List.range' 0 ts.length) ts, v.ident, .vars ts.length⟩ :: conds,
      fun sel => if sel = s then (ku [] >>= fun loc => pure (.enum s (construct (.vars ts.length) loc)))
        else u sel, ?_, ?_, ?_⟩
    · simp [enumUnmarshalBody, hf, fieldUnmarshal, hdisc, hconds, Res.map, fieldList,
        List.range_eq_range']
    · have hcon : constructed Γ all v.ident (.vars ts.length) = some s := by
        unfold constructed
        simp only [id] at hfind
        simp [hfind, hf, patternPlaces, hdisc, hs]
      simp only [elabCondsOn, hs, hku, hcon, hu]
    · intro sel b
      simp only [unmarshalVariantOn]
      by_cases he : sel = s
      · simp only [he, if_true, bind_eq, hk [] [] b]
        rcases hx : unmarshalFieldsOn m fs [] b with ⟨_ | _ | _, b'⟩
        · rename_i vs'
          simp only [pure_eq, construct, FieldList.vars', List.range_eq_range', List.map_map]
          have := construct_bindVars ts 0 vs' [] (tuplesMean_length ht [] b b' vs' hx)
          rw [show (local! (bindVars 0 ts vs' []) ∘ Var.f) =
            fun x => local! (bindVars 0 ts vs' []) (.f x) from rfl, this]
        · rfl
        · rfl
      · simp only [he, if_false]
        exact hr sel b

theorem elabU_visible {Γ : Ctx X} {us : List UStmt} {s : Scope}
    {ku : List (Var × Val X) → UM (List (Var × Val X))} (h : elabUOn m Γ us s = some ku) (hne : us ≠ []) :
    bufferVisible s = true := by
  cases us with
  | nil => exact absurd rfl hne
  | cons u us =>
    cases u with
    | letField n ty =>
      simp only [elabUOn] at h
      split at h
      · assumption
      · cases h
    | letVar n ty =>
      simp only [elabUOn] at h
      split at h
      · assumption
      · cases h
    | maxArr q n e =>
      simp only [elabUOn] at h
      split at h
      · rename_i hc
        rw [Bool.and_eq_true, visible_cons] at hc
        exact hc.1.2
      · cases h
    | lenArr l q n e =>
      simp only [elabUOn] at h
      split at h
      · rename_i hc
        rw [Bool.and_eq_true, visible_cons] at hc
        exact hc.1.2
      · cases h

theorem fields_sound {Γ : Ctx X} : ∀ (fs before : List NField) (basic : BasicTypes) (s : Scope)
    (us : List UStmt) (ku : List (Var × Val X) → UM (List (Var × Val X))),
    ((before ++ fs).map (·.ident)).Nodup → BasicRel before basic → ScopeRel before s →
    eachField namedFieldUnmarshal basic fs = .ok us → elabUOn m Γ us s = some ku →
    ∃ F, FieldsMean Γ before fs F ∧
      (∀ pre f post, fs = pre ++ f :: post → f.ident = "buffer" → post = [] ∧ ¬ f.ty.IsArray) ∧
      (∀ f ∈ fs, ∀ elem len, f.ty = .array elem len → Γ.element elem = true)
  | [], before, basic, s, us, ku, _, _, _, _, _ => by
    refine ⟨.nil, .nil, ?_, by simp⟩
    intro pre f post h
    cases pre <;> cases h
  | f :: fs, before, basic, s, us, ku, hd, hb, hs, hus, hku => by
    obtain ⟨u, us, basic', rfl, hu, hur⟩ := eachField_ok_cons hus
    have hd' : ((before ++ [f] ++ fs).map (·.ident)).Nodup := by rw [List.append_assoc]; exact hd
    have key : ∀ (x : Option TypeE) (F : Fields X) (k' : List (Var × Val X) → UM (List (Var × Val X))),
        elabUOn m Γ us ((.name f.ident, x) :: s) = some k' →
        (f.ty.IsArray → f.ident ≠ "buffer") →
        (∀ elem len, f.ty = .array elem len → Γ.element elem = true) →
        FieldsMean Γ before (f :: fs) F →
        ((∀ pre g post, fs = pre ++ g :: post → g.ident = "buffer" → post = [] ∧ ¬ g.ty.IsArray) ∧
          (∀ g ∈ fs, ∀ elem len, g.ty = .array elem len → Γ.element elem = true)) →
        ∃ F, FieldsMean Γ before (f :: fs) F ∧
          (∀ pre g post, f :: fs = pre ++ g :: post → g.ident = "buffer" →
            post = [] ∧ ¬ g.ty.IsArray) ∧
          (∀ g ∈ f :: fs, ∀ elem len, g.ty = .array elem len → Γ.element elem = true) := by
      intro x F k' he harr hcall hF ⟨h1, h2⟩
      refine ⟨F, hF, ?_, ?_⟩
      · intro pre g post e hg
        cases pre with
        | nil =>
          cases e
          refine ⟨?_, fun ha => harr ha hg⟩
          cases hfs : fs with
          | nil => rfl
          | cons y ys =>
            have hne : us ≠ [] := by
              intro e
              have := eachField_length hur
              rw [e, hfs] at this
              cases this
            exact absurd hg (visible_cons.mp (elabU_visible he hne)).1
        | cons p pre =>
          cases e
          exact h1 pre g post rfl hg
      · intro g hg
        rcases List.mem_cons.mp hg with rfl | hg
        · exact hcall
        · exact h2 g hg
    rcases namedFieldUnmarshal_ok hb hu with
      ⟨hbare, harr, rfl, rfl⟩ | ⟨elem, max, hbare, hty, rfl, rfl⟩ |
      ⟨l, elem, max, g, hc, hty, rfl, rfl, hg, hgl, hgb, hga⟩
    · simp only [elabUOn] at hku
      split at hku
      · cases ht : Γ.ty f.ty with
        | none => simp [ht] at hku
        | some t =>
          simp only [ht] at hku
          cases hk : elabUOn m Γ us ((.name f.ident, some f.ty) :: s) with
          | none => simp [hk] at hku
          | some k' =>
            obtain ⟨F, hF, h12⟩ := fields_sound fs (before ++ [f]) _ _ us k' hd'
              (basicRel_add hb hbare harr f.ty) (scopeRel_step hd hs (fun _ _ => rfl)) hur hk
            exact key _ _ _ hk (fun ha => absurd ha harr)
              (fun e l h => absurd (by rw [h]; trivial) harr) (.plain hbare harr ht hF) h12
      · cases hku
    · simp only [elabUOn] at hku
      split at hku
      · rename_i hcond
        rw [Bool.and_eq_true] at hcond
        cases ht : Γ.ty elem with
        | none => simp [ht] at hku
        | some t =>
          cases hn : Γ.size max with
          | none => simp [ht, hn] at hku
          | some n =>
            simp only [ht, hn] at hku
            cases hk : elabUOn m Γ us ((.name f.ident, none) :: s) with
            | none => simp [hk] at hku
            | some k' =>
              obtain ⟨F, hF, h12⟩ := fields_sound fs (before ++ [f]) _ _ us k' hd'
                (basicRel_skip hb (fun _ => by rw [hty]; trivial))
                (scopeRel_step hd hs (fun _ ha => absurd (by rw [hty]; trivial) ha)) hur hk
              refine key _ _ _ hk (fun _ => (visible_cons.mp hcond.1).1) ?_
                (.array hbare hty ht hn hF) h12
              intro e l h
              rw [hty] at h
              cases h
              exact hcond.2
      · cases hku
    · simp only [elabUOn] at hku
      split at hku
      · rename_i hcond
        rw [Bool.and_eq_true] at hcond
        cases hcast : castable Γ s (.ident l) with
        | none => simp [hcast] at hku
        | some l' =>
          cases ht : Γ.ty elem with
          | none => simp [ht, hcast] at hku
          | some t =>
            cases hn : Γ.size max with
            | none => simp [ht, hn, hcast] at hku
            | some n =>
              simp only [ht, hn, hcast] at hku
              cases hk : elabUOn m Γ us ((.name f.ident, none) :: s) with
              | none => simp [hk] at hku
              | some k' =>
                obtain ⟨F, hF, h12⟩ := fields_sound fs (before ++ [f]) _ _ us k' hd'
                  (basicRel_skip hb (fun _ => by rw [hty]; trivial))
                  (scopeRel_step hd hs (fun _ ha => absurd (by rw [hty]; trivial) ha)) hur hk
                obtain ⟨k, hklt, hkg⟩ := List.getElem_of_mem hg
                have hprim : Γ.cast g.ty = true ∧ ∃ lt, Γ.ty g.ty = some lt := by
                  unfold castable at hcast
                  simp only [getIdent_iff.mpr rfl] at hcast
                  have := hs g hg hgb hga
                  rw [hgl] at this
                  rw [this] at hcast
                  dsimp only at hcast
                  split at hcast
                  · rename_i hx
                    refine ⟨hx, ?_⟩
                    cases hy : Γ.ty g.ty with
                    | none => simp [hy] at hcast
                    | some lt => exact ⟨lt, rfl⟩
                  · cases hcast
                obtain ⟨hcst, i, hi⟩ := hprim
                refine key _ _ _ hk (fun _ => (visible_cons.mp hcond.1).1) ?_
                  (.counted (k := k) hc hty ht hn (by rw [List.getElem?_eq_getElem hklt, hkg]) hgl
                    hgb hga hcst hi hF) h12
                intro e l h
                rw [hty] at h
                cases h
                exact hcond.2
      · cases hku

theorem tuple_sound {Γ : Ctx X} : ∀ (ts : List TypeE) (n : Nat) (s : Scope)
    (ku : List (Var × Val X) → UM (List (Var × Val X))),
    elabUOn m Γ (List.zipWith .letVar (List.range' n ts.length) ts) s = some ku →
    ∃ F, TuplesMean Γ ts F
  | [], _, _, _, _ => ⟨.nil, .nil⟩
  | ty :: ts, n, s, ku, h => by
    simp only [List.length_cons, List.range'_succ, List.zipWith_cons_cons, elabUOn] at h
    split at h
    · cases ht : Γ.ty ty with
      | none => simp [ht] at h
      | some t =>
        simp only [ht] at h
        cases hk : elabUOn m Γ (List.zipWith .letVar (List.range' (n + 1) ts.length) ts)
            ((.f n, some ty) :: s) with
        | none => simp [hk] at h
        | some k =>
          obtain ⟨F, hF⟩ := tuple_sound ts (n + 1) _ k hk
          exact ⟨.plain t F, .cons ht hF⟩
    · cases h

theorem conds_sound {Γ : Ctx X} {all : List VariantE} : ∀ (vs : List VariantE) (conds : List Cond)
    (u : Nat → UM (Val X)), (∀ v ∈ vs, ∃ ts, v.fields = .unnamed ts) →
    enumUnmarshalBody [] vs = .ok conds → elabCondsOn m Γ all conds = some u →
    ∃ V, VariantsMean Γ vs V
  | [], _, _, _, _, _ => ⟨.nil, .nil⟩
  | v :: vs, conds, u, hf, h, he => by
    obtain ⟨ts, hts⟩ := hf v (by simp)
    obtain ⟨disc, cs, hdisc, hcs, rfl⟩ := enumUnmarshalBody_cons_ok hts h
    simp only [elabCondsOn] at he
    split at he
    · rename_i s k d rest hs hk hd hrest
      obtain ⟨V, hV⟩ := conds_sound vs cs rest (fun x hx => hf x (List.mem_cons_of_mem _ hx)) hcs hrest
      obtain ⟨F, hF⟩ := tuple_sound ts 0 [] k hk
      exact ⟨.cons s F V, .cons hts hdisc hs hF hV⟩
    · cases he

/-- The implementation generated for a structure, with the codec it amounts to. -/
theorem named_complete {Γ : Ctx X} {w : Nat} {input : Input} {fs : List NField} {F : Fields X}
    (hdata : input.data = .struct (.named fs)) (hp : input.Plain)
    (hd : (fs.map (·.ident)).Nodup) (hu : Usable (.struct (.named fs))) (hq : Placed Γ (.struct (.named fs)))
    (h : FieldsMean Γ [] fs F) :
    ∃ items c, deriveMarshalable input = .ok items ∧ implOfOn m Γ w input items = some c ∧
      ImplementsOn m c (.struct F) := by
  obtain ⟨ms, us, km, ku, hms, hus, hkm, hku, hm, hk⟩ :=
    fields_complete (m := m) h (by simpa using hd) hu.1
      (fun f hf elem len e => by rw [Ctx.element, hu.2 f hf elem len e, hq f hf elem len e]; rfl) [] basicRel_nil [] (by intro g hg; cases hg)
      (fun _ => rfl)
  refine ⟨[.marshalStruct input.ident ms us (.names (fs.map (·.ident)))],
    ⟨ku [] >>= fun loc => pure (.struct (construct (.names (fs.map (·.ident))) loc)), fun v buf =>
      match v with
      | .struct vs => km vs 0 buf
      | _ => (.panic, buf)⟩, ?_, ?_, ?_, ?_⟩
  · simp [deriveMarshalable, hdata, anyFlag_plain _ _ hp, fieldMarshalBody, fieldUnmarshal, hms, hus,
      Res.bind, fieldList]
  · simp only [List.nil_append] at hkm
    simp only [implOfOn, hdata, elabStructOn, hkm, hku]
    rfl
  · funext b
    simp only [unmarshalOn, bind_eq, hk [] [] b ⟨rfl, by intro k g t hg; cases hg⟩]
    rcases hx : unmarshalFieldsOn m F [] b with ⟨_ | _ | _, b'⟩
    · rename_i vs
      have : construct (.names (fs.map (·.ident))) (bindAll fs vs []) = vs := by
        unfold construct FieldList.vars'
        rw [List.map_map]
        exact construct_bindAll fs vs [] hd (fieldsMean_length h [] b b' vs hx)
      simp only [pure_eq, this]
    · rfl
    · rfl
  · intro v buf hv
    cases hv with
    | @struct _ vs hv => ?_
    simp only [marshalOn]
    simpa using hm [] [] vs 0 buf ⟨rfl, rfl, by intro k g t hg; cases hg⟩ hv

theorem unnamed_complete {Γ : Ctx X} {w : Nat} {input : Input} {ts : List TypeE} {F : Fields X}
    (hdata : input.data = .struct (.unnamed ts)) (hp : input.Plain) (h : TuplesMean Γ ts F) :
    ∃ items c, deriveMarshalable input = .ok items ∧ implOfOn m Γ w input items = some c ∧
      ImplementsOn m c (.struct F) := by
  obtain ⟨km, hkm, hm⟩ := tuple_marshal (m := m) (Γ := Γ) (p := ⟨[], ts, []⟩) (c := .index) (all := ts)
    index_step h [] rfl
  obtain ⟨ku, hku, hk⟩ := tuple_unmarshal (m := m) h 0 [] rfl
  refine ⟨[.marshalStruct input.ident ((List.range ts.length).map .index)
      ((List.range ts.length).zipWith .letVar ts) (.vars ts.length)],
    ⟨ku [] >>= fun loc => pure (.struct (construct (.vars ts.length) loc)), fun v buf =>
      match v with
      | .struct vs => km vs 0 buf
      | _ => (.panic, buf)⟩, ?_, ?_, ?_, ?_⟩
  · simp [deriveMarshalable, hdata, anyFlag_plain _ _ hp, fieldMarshalBody, fieldUnmarshal,
      Res.bind, fieldList]
  · simp only [implOfOn, hdata, elabStructOn, selfPlaces, List.range_eq_range']
    simp only [List.length_nil] at hkm
    simp only [hkm, hku]
    rfl
  · funext b
    simp only [unmarshalOn, bind_eq, hk [] [] b]
    rcases hx : unmarshalFieldsOn m F [] b with ⟨_ | _ | _, b'⟩
    · rename_i vs
      have : construct (.vars ts.length) (bindVars 0 ts vs []) = vs := by
        unfold construct FieldList.vars'
        rw [List.map_map, List.range_eq_range']
        exact construct_bindVars ts 0 vs [] (tuplesMean_length h [] b b' vs hx)
      simp only [pure_eq, this]
    · rfl
    · rfl
  · intro v buf hv
    cases hv with
    | @struct _ vs hv => ?_
    simp only [marshalOn]
    simpa using hm [] vs [] 0 buf rfl hv

theorem unit_complete {Γ : Ctx X} {w : Nat} {input : Input}
    (hdata : input.data = .struct .unit) (hp : input.Plain) :
    ∃ items c, deriveMarshalable input = .ok items ∧ implOfOn m Γ w input items = some c ∧
      ImplementsOn m c (.struct .nil) := by
  refine ⟨[.marshalStruct input.ident [] [] (.names [])],
    ⟨pure (.struct []), fun v buf =>
      match v with
      | .struct _ => (.ok 0, buf)
      | _ => (.panic, buf)⟩, ?_, ?_, ?_, ?_⟩
  · simp [deriveMarshalable, hdata, anyFlag_plain _ _ hp, fieldMarshalBody, fieldUnmarshal,
      Res.bind, fieldList]
  · simp only [implOfOn, hdata]
    rfl
  · rfl
  · intro v buf hv
    cases hv with
    | struct hv => cases hv; rfl

theorem enum_complete {Γ : Ctx X} {w : Nat} {input : Input} {vs : List VariantE} {V : Variants X}
    (hdata : input.data = .enum vs) (hp : input.Plain)
    (hd : (vs.map (·.ident)).Nodup) (h : VariantsMean Γ vs V) :
    ∃ items c, deriveMarshalable input = .ok items ∧ implOfOn m Γ w input items = some c ∧
      ImplementsOn m c (.enum w V) := by
  obtain ⟨q, hm, hmar⟩ := arms_complete (m := m) hd h (fun v hv => hv)
  obtain ⟨conds, u, hconds, hu, hun⟩ := conds_complete (m := m) hd h (fun v hv => hv)
  have hf : ∀ v ∈ vs, ∃ ts, v.fields = .unnamed ts := by
    clear hd hdata hp hm hmar hconds hu hun
    induction h with
    | nil => intro v hv; cases hv
    | cons hf _ _ _ _ ih =>
      intro v hv
      rcases List.mem_cons.mp hv with rfl | hv
      · exact ⟨_, hf⟩
      · exact ih v hv
  have harms := (enumMarshalBody_ok vs _).mpr ⟨rfl, hf⟩
  refine ⟨[.variant input.ident (vs.map armOf) conds, .marshalEnum input.ident],
    elabEnumOn m w ⟨u, q⟩, ?_, ?_, ?_, ?_⟩
  · simp [deriveMarshalable, hdata, anyFlag_plain _ _ hp, enumImpl, harms, hconds, Res.bind]
  · simp [implOfOn, hdata, elabVariantOn, hm, hu]
  · funext b
    simp only [elabEnumOn, unmarshalOn, bind_eq, hun]
  · intro v buf hv
    cases hv with
    | enum hsel hv =>
      simp only [elabEnumOn, marshalOn]
      congr 1
      funext w' buf'
      congr 1
      funext b
      exact hmar _ _ b _ hsel hv

theorem means_complete {Γ : Ctx X} {w : Nat} {input : Input} {t : Ty X} (hp : input.Plain)
    (hd : Distinct input.data) (hu : Usable input.data)
    (hq : Placed Γ input.data) (h : Means Γ w input.data t) :
    ∃ items c, deriveMarshalable input = .ok items ∧ implOfOn m Γ w input items = some c ∧
      ImplementsOn m c t := by
  generalize hdata : input.data = d at hd hu hq h
  cases h with
  | named h => exact named_complete hdata hp hd hu hq h
  | unnamed h => exact unnamed_complete hdata hp h
  | unit => exact unit_complete hdata hp
  | enum h => exact enum_complete hdata hp hd h

theorem means_sound {Γ : Ctx X} {w : Nat} {input : Input} {items : List Item} {c : Codec X}
    (hp : input.Plain) (hd : Distinct input.data) (h : deriveMarshalable input = .ok items)
    (hc : implOfOn m Γ w input items = some c) :
    Usable input.data ∧ Placed Γ input.data ∧ ∃ t, Means Γ w input.data t := by
  cases hdata : input.data with
  | struct fs =>
    obtain ⟨q, u, hm, hu, rfl⟩ := derive_struct_ok hdata hp h
    simp only [implOfOn, hdata, elabStructOn] at hc
    split at hc
    · rename_i km ku hkm hku
      cases fs with
      | named fs =>
        rw [hdata] at hd
        obtain ⟨F, hF, h1, h2⟩ := fields_sound (Γ := Γ) fs [] [] [] u ku hd basicRel_nil
          (by intro g hg; cases hg) hu hku
        exact ⟨⟨h1, fun f hf e l h => (Bool.and_eq_true _ _ |>.mp (h2 f hf e l h)).1⟩,
          fun f hf e l h => (Bool.and_eq_true _ _ |>.mp (h2 f hf e l h)).2, _, .named hF⟩
      | unnamed ts =>
        simp only [fieldUnmarshal, Res.ok.injEq, List.range_eq_range'] at hu
        subst hu
        obtain ⟨F, hF⟩ := tuple_sound ts 0 [] ku hku
        exact ⟨trivial, trivial, _, .unnamed hF⟩
      | unit => exact ⟨trivial, trivial, _, .unit⟩
    · cases hc
  | enum vs =>
    obtain ⟨arms, conds, ha, hcs, rfl⟩ := derive_enum_ok hdata hp h
    simp only [implOfOn, hdata, elabVariantOn] at hc
    split at hc
    · rename_i q u hm hu
      obtain ⟨V, hV⟩ := conds_sound vs conds u ((enumMarshalBody_ok vs arms).mp ha).2 hcs hu
      exact ⟨trivial, trivial, _, .enum hV⟩
    · cases hc
  | union => simp [deriveMarshalable, hdata] at h

end Verif.Own.Derive.Wide
