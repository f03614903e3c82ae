import Verif.Derive.Spec
import Verif.Codec.Unmarshal

/-! Lemmas about the macro model and the meaning of generated code. -/

namespace Verif.Derive
open Verif
open Verif.UM (bind_eq pure_eq)

/-! ### Attributes -/

theorem getIdent_iff {p : Path} {i : Ident} : p.getIdent = some i ↔ p = .ident i := by
  constructor
  · intro h
    unfold Path.getIdent at h
    split at h
    · cases h; rfl
    · cases h
  · rintro rfl; rfl

theorem isIdent_iff {p : Path} {i : Ident} : p.isIdent i = true ↔ p = .ident i := by
  unfold Path.isIdent
  rw [beq_iff_eq, getIdent_iff]

theorem collectAttr_some (kv : Path × Expr) (attrs : List Attr) (r : Option (Path × Expr)) :
    collectAttr (some kv) attrs = .ok r ↔
      r = some kv ∧ ∀ a ∈ attrs, a.path.isIdent "marshalable" = false := by
  induction attrs with
  | nil =>
    simp only [collectAttr, Res.ok.injEq]
    constructor
    · rintro rfl; exact ⟨rfl, by simp⟩
    · rintro ⟨rfl, _⟩; rfl
  | cons a as ih =>
    simp only [collectAttr, Option.isSome_some, if_true, List.mem_cons]
    cases h : a.path.isIdent "marshalable"
    · simp [ih, h]
    · simp [h]

theorem collectAttr_none (attrs : List Attr) :
    collectAttr none attrs = .ok none ↔ ∀ a ∈ attrs, a.path.isIdent "marshalable" = false := by
  induction attrs with
  | nil => simp [collectAttr]
  | cons a as ih =>
    simp only [collectAttr, List.mem_cons]
    cases h : a.path.isIdent "marshalable"
    · simp [ih, h]
    · simp only [Option.isSome_none, Bool.false_eq_true, if_false, if_true]
      cases parseNameValue a.args with
      | none => simp [h]
      | some kv => simp [collectAttr_some, h]

theorem collectAttr_found (attrs : List Attr) (kv : Path × Expr) :
    collectAttr none attrs = .ok (some kv) ↔ ∃ pre a post, attrs = pre ++ a :: post ∧
      a.path.isIdent "marshalable" = true ∧ parseNameValue a.args = some kv ∧
      ∀ b ∈ pre ++ post, b.path.isIdent "marshalable" = false := by
  induction attrs with
  | nil => simp [collectAttr]
  | cons x xs ih =>
    simp only [collectAttr]
    cases h : x.path.isIdent "marshalable"
    · simp only [Bool.false_eq_true, if_false]
      rw [ih]
      constructor
      · rintro ⟨pre, a, post, rfl, ha, hk, hb⟩
        refine ⟨x :: pre, a, post, rfl, ha, hk, ?_⟩
        intro b hb'
        rcases List.mem_cons.mp hb' with rfl | hb'
        · exact h
        · exact hb b hb'
      · rintro ⟨pre, a, post, he, ha, hk, hb⟩
        cases pre with
        | nil => cases he; rw [h] at ha; cases ha
        | cons p pre =>
          cases he
          exact ⟨pre, a, post, rfl, ha, hk, fun b hb' => hb b (List.mem_cons_of_mem _ hb')⟩
    · simp only [Option.isSome_none, Bool.false_eq_true, if_false, if_true]
      have key : (∃ pre a post, x :: xs = pre ++ a :: post ∧
          a.path.isIdent "marshalable" = true ∧ parseNameValue a.args = some kv ∧
          ∀ b ∈ pre ++ post, b.path.isIdent "marshalable" = false) ↔
          parseNameValue x.args = some kv ∧ ∀ b ∈ xs, b.path.isIdent "marshalable" = false := by
        constructor
        · rintro ⟨pre, a, post, he, ha, hk, hb⟩
          cases pre with
          | nil => cases he; exact ⟨hk, hb⟩
          | cons p pre =>
            cases he
            have := hb x (by simp)
            rw [h] at this; cases this
        · rintro ⟨hk, hb⟩
          exact ⟨[], x, xs, rfl, h, hk, hb⟩
      rw [key]
      cases hp : parseNameValue x.args with
      | none => simp
      | some kv' =>
        simp only [collectAttr_some, Option.some.injEq]
        constructor
        · rintro ⟨rfl, h⟩; exact ⟨rfl, h⟩
        · rintro ⟨rfl, h⟩; exact ⟨rfl, h⟩

theorem attr_none (f : NField) :
    getMarshalAttribute f.attrs "length" = .ok none ↔ f.Bare := by
  unfold getMarshalAttribute NField.Bare
  rw [← collectAttr_none]
  cases h : collectAttr none f.attrs with
  | panic => simp [Res.bind]
  | err e => simp [Res.bind]
  | ok r =>
    cases r with
    | none => simp [Res.bind]
    | some kv =>
      obtain ⟨k, v⟩ := kv
      simp only [Res.bind]
      cases v <;> simp <;> (repeat' split) <;> simp

theorem attr_some (f : NField) (l : Ident) :
    getMarshalAttribute f.attrs "length" = .ok (some (.ident l)) ↔ f.Counted l := by
  unfold getMarshalAttribute NField.Counted
  constructor
  · intro h
    cases hc : collectAttr none f.attrs with
    | panic => rw [hc] at h; simp [Res.bind] at h
    | err e => rw [hc] at h; simp [Res.bind] at h
    | ok r =>
      rw [hc] at h
      cases r with
      | none => simp [Res.bind] at h
      | some kv =>
        obtain ⟨k, v⟩ := kv
        obtain ⟨pre, a, post, he, ha, hk, hb⟩ := (collectAttr_found _ _).mp hc
        simp only [Res.bind] at h
        cases hki : k.isIdent "length" with
        | false => simp [hki] at h
        | true =>
          simp only [hki, Bool.not_true, Bool.false_eq_true, if_false] at h
          cases v with
          | path at' q p =>
            cases at' <;> cases q <;> simp at h
            subst h
            unfold parseNameValue at hk
            split at hk
            · rename_i k' v' hargs
              simp only [Option.some.injEq, Prod.mk.injEq, Expr.path.injEq] at hk
              obtain ⟨rfl, _, _, rfl⟩ := hk
              exact ⟨pre, a, post, _, _, he, ha, hargs, .inl rfl, hki, hb⟩
            · rename_i k' v' hargs
              simp only [Option.some.injEq, Prod.mk.injEq] at hk
              obtain ⟨rfl, rfl⟩ := hk
              exact ⟨pre, a, post, _, _, he, ha, hargs, .inr rfl, hki, hb⟩
            · cases hk
          | _ => simp at h
  · rintro ⟨pre, a, post, k, t, he, ha, hargs, ht, hk, hb⟩
    have : collectAttr none f.attrs = .ok (some (k, .path false false (.ident l))) := by
      rw [collectAttr_found]
      refine ⟨pre, a, post, he, ha, ?_, hb⟩
      rw [hargs]
      rcases ht with rfl | rfl <;> rfl
    rw [this]
    simp [Res.bind, hk]

theorem counted_not_bare {f : NField} {l : Ident} (h : f.Counted l) : ¬ f.Bare := by
  intro hb
  rw [← attr_some] at h
  rw [← attr_none, h] at hb
  cases hb

/-! ### Basic types -/

/-- `basic` knows exactly the usable length fields of `before`. -/
def BasicRel (before : List NField) (basic : BasicTypes) : Prop :=
  ∀ l, (basic.lookup l).isSome ↔ ∃ g ∈ before, g.ident = l ∧ g.Bare ∧ ¬ g.ty.IsArray

theorem basicRel_nil : BasicRel [] [] := by intro l; simp

theorem basicRel_skip {before : List NField} {basic : BasicTypes} {f : NField}
    (h : BasicRel before basic) (hf : f.Bare → f.ty.IsArray) : BasicRel (before ++ [f]) basic := by
  intro l
  rw [h l]
  constructor
  · rintro ⟨g, hg, r⟩; exact ⟨g, List.mem_append_left _ hg, r⟩
  · rintro ⟨g, hg, hl, hb, ha⟩
    rcases List.mem_append.mp hg with hg | hg
    · exact ⟨g, hg, hl, hb, ha⟩
    · rw [List.mem_singleton] at hg
      subst hg
      exact absurd (hf hb) ha

theorem basicRel_add {before : List NField} {basic : BasicTypes} {f : NField}
    (h : BasicRel before basic) (hb : f.Bare) (ha : ¬ f.ty.IsArray) (ty : TypeE) :
    BasicRel (before ++ [f]) ((f.ident, ty) :: basic) := by
  intro l
  rw [List.lookup_cons]
  by_cases hl : l = f.ident
  · subst hl
    simp only [beq_self_eq_true, Option.isSome_some, true_iff]
    exact ⟨f, by simp, rfl, hb, ha⟩
  · have : (l == f.ident) = false := by simpa using hl
    rw [this]
    rw [h l]
    constructor
    · rintro ⟨g, hg, r⟩; exact ⟨g, List.mem_append_left _ hg, r⟩
    · rintro ⟨g, hg, hl', hb, ha⟩
      rcases List.mem_append.mp hg with hg | hg
      · exact ⟨g, hg, hl', hb, ha⟩
      · rw [List.mem_singleton] at hg
        subst hg
        exact absurd hl'.symm hl

/-! ### Positions -/

theorem named_at {pre : List NField} {f : NField} {post : List NField}
    (hd : ((pre ++ f :: post).map (·.ident)).Nodup) :
    (selfPlaces (.named (pre ++ f :: post))).named f.ident = some (pre.length, f.ty) := by
  unfold selfPlaces Places.named
  have : List.findIdx? (fun x : Ident × TypeE => x.1 == f.ident)
      ((pre ++ f :: post).map fun f => (f.ident, f.ty)) = some pre.length := by
    rw [List.findIdx?_eq_some_iff_getElem]
    refine ⟨by simp, by simp, ?_⟩
    intro j hj
    simp only [List.getElem_map, List.getElem_append_left hj]
    rw [List.map_append, List.map_cons, List.nodup_append] at hd
    have := hd.2.2 (pre[j].ident) (List.mem_map_of_mem (List.getElem_mem hj)) f.ident (by simp)
    simpa using this
  simp only [this]
  simp

theorem named_iff {fs : List NField} (hd : (fs.map (·.ident)).Nodup) {k : Nat} {g : NField}
    (hk : fs[k]? = some g) : (selfPlaces (.named fs)).named g.ident = some (k, g.ty) := by
  obtain ⟨hlt, rfl⟩ := List.getElem?_eq_some_iff.mp hk
  have e : fs = fs.take k ++ fs[k] :: fs.drop (k + 1) := by
    rw [← List.drop_eq_getElem_cons hlt, List.take_append_drop]
  have hd' := hd
  rw [e] at hd'
  have := named_at hd'
  rw [← e] at this
  rw [this, List.length_take, Nat.min_eq_left (by omega)]

/-! ### Named fields -/

/-- The local variables after all statements. -/
def bindAll : List NField → List Val → List (Var × Val) → List (Var × Val)
  | f :: fs, v :: vs, loc => bindAll fs vs ((.name f.ident, v) :: loc)
  | _, _, loc => loc

/-- The scope knows the types of the usable length fields. -/
def ScopeRel (Γ : Ctx) (before : List NField) (s : Scope) : Prop :=
  ∀ g ∈ before, g.Bare → ¬ g.ty.IsArray → s.lookup (.name g.ident) = some (Γ.ty g.ty)

/-- The local variables hold the values of `env`. -/
def EnvRel (before : List NField) (loc : List (Var × Val)) (env : List Nat) : Prop :=
  env.length = before.length ∧
  ∀ k g, before[k]? = some g → asUsize (local! loc (.name g.ident)) = env.getD k 0

theorem lookup_var_self {β : Type} (x : Var) (v : β) (l : List (Var × β)) :
    ((x, v) :: l).lookup x = some v := by simp

theorem lookup_var_ne {β : Type} {x y : Var} (h : x ≠ y) (v : β) (l : List (Var × β)) :
    ((y, v) :: l).lookup x = l.lookup x := by
  have : (x == y) = false := by simpa using h
  simp [List.lookup_cons, this]

theorem fresh {before : List NField} {f : NField} {fs : List NField}
    (hd : ((before ++ f :: fs).map (·.ident)).Nodup) {g : NField} (hg : g ∈ before) :
    Var.name g.ident ≠ Var.name f.ident := by
  rw [List.map_append, List.map_cons, List.nodup_append] at hd
  have := hd.2.2 g.ident (List.mem_map_of_mem hg) f.ident (by simp)
  intro h
  exact this (Var.name.inj h)

theorem scopeRel_step {Γ : Ctx} {before : List NField} {s : Scope} {f : NField} {fs : List NField}
    (hd : ((before ++ f :: fs).map (·.ident)).Nodup) (h : ScopeRel Γ before s) {x : Option Ty}
    (hx : f.Bare → ¬ f.ty.IsArray → x = Γ.ty f.ty) :
    ScopeRel Γ (before ++ [f]) ((.name f.ident, x) :: s) := by
  intro g hg hb ha
  rcases List.mem_append.mp hg with hg | hg
  · rw [lookup_var_ne (fresh hd hg)]
    exact h g hg hb ha
  · rw [List.mem_singleton] at hg
    subst hg
    rw [lookup_var_self, hx hb ha]

theorem envRel_step {before : List NField} {loc : List (Var × Val)} {env : List Nat} {f : NField}
    {fs : List NField} (hd : ((before ++ f :: fs).map (·.ident)).Nodup)
    (h : EnvRel before loc env) {v : Val} {x : Nat} (hx : asUsize v = x) :
    EnvRel (before ++ [f]) ((.name f.ident, v) :: loc) (env ++ [x]) := by
  refine ⟨by simp [h.1], ?_⟩
  intro k g hk
  by_cases hlt : k < before.length
  · rw [List.getElem?_append_left hlt] at hk
    have hg : g ∈ before := List.mem_of_getElem? hk
    have e : local! ((.name f.ident, v) :: loc) (.name g.ident) = local! loc (.name g.ident) := by
      unfold local!
      rw [lookup_var_ne (fresh hd hg)]
    rw [e, h.2 k g hk]
    simp only [List.getD_eq_getElem?_getD]
    rw [List.getElem?_append_left (by rw [h.1]; exact hlt)]
  · rw [List.getElem?_append_right (by omega)] at hk
    have hk0 : k - before.length = 0 := by
      obtain ⟨h1, _⟩ := List.getElem?_eq_some_iff.mp hk
      simp at h1
      omega
    rw [hk0] at hk
    cases hk
    have e : local! ((.name f.ident, v) :: loc) (.name f.ident) = v := by
      unfold local!
      rw [lookup_var_self]
      rfl
    rw [e, hx]
    simp only [List.getD_eq_getElem?_getD]
    rw [List.getElem?_append_right (by rw [h.1]; omega), h.1, hk0]
    rfl

theorem visible_cons {s : Scope} {i : Ident} {x : Option Ty} :
    bufferVisible ((.name i, x) :: s) = true ↔ i ≠ "buffer" ∧ bufferVisible s = true := by
  unfold bufferVisible
  by_cases h : i = "buffer"
  · subst h
    rw [lookup_var_self]
    simp
  · rw [lookup_var_ne (by simpa using Ne.symm h)]
    simp [h]

theorem eachField_cons_ok {α : Type} {gen : BasicTypes → NField → D (α × BasicTypes)}
    {basic basic' : BasicTypes} {f : NField} {fs : List NField} {x : α} {xs : List α}
    (h : gen basic f = .ok (x, basic')) (hr : eachField gen basic' fs = .ok xs) :
    eachField gen basic (f :: fs) = .ok (x :: xs) := by
  simp [eachField, h, hr, Res.map]

theorem getD_map_asUsize (vs : List Val) (k : Nat) :
    (vs.map asUsize).getD k 0 = asUsize (vs.getD k .unit) := by
  simp only [List.getD_eq_getElem?_getD, List.getElem?_map]
  cases vs[k]? <;> rfl

theorem fields_complete {Γ : Ctx} {before fs : List NField} {F : Fields}
    (h : FieldsMean Γ before fs F) :
    ∀ (_ : ((before ++ fs).map (·.ident)).Nodup)
    (_ : ∀ pre f post, fs = pre ++ f :: post → f.ident = "buffer" → post = [] ∧ ¬ f.ty.IsArray)
    (_ : ∀ f ∈ fs, ∀ elem len, f.ty = .array elem len → elem.callable = true)
    (basic : BasicTypes) (_ : BasicRel before basic) (s : Scope) (_ : ScopeRel Γ before s)
    (_ : fs ≠ [] → bufferVisible s = true),
    ∃ ms us km ku, eachField namedFieldMarshal basic fs = .ok ms ∧
      eachField namedFieldUnmarshal basic fs = .ok us ∧
      elabM Γ (selfPlaces (.named (before ++ fs))) ms = some km ∧ elabU Γ us s = some ku ∧
      (∀ pre vs w buf, pre.length = before.length → HasTyFields F vs →
        km (pre ++ vs) w buf = marshalFields F (pre.map asUsize) vs w buf) ∧
      (∀ loc env b, EnvRel before loc env →
        ku loc b = (unmarshalFields F env >>= fun vs => pure (bindAll fs vs loc)) b) := by
  induction h with
  | nil =>
    intro _ _ _ basic _ s _ _
    refine ⟨[], [], _, _, rfl, rfl, rfl, rfl, ?_, ?_⟩
    · intro pre vs w buf _ hv
      cases vs with
      | nil => simp [marshalFields]
      | cons v vs => simp [HasTyFields] at hv
    · intro loc env b _
      simp [unmarshalFields, bind_eq, pure_eq, bindAll]
  | @plain before f fs t r hb ha ht _ ih =>
    intro hd hbuf hcall basic hbasic s hs hv
    have hvis := hv (by simp)
    have hty : ∀ {x y}, f.ty ≠ .array x y := by
      intro x y e; exact ha (by rw [e]; trivial)
    obtain ⟨ms, us, km, ku, hms, hus, hkm, hku, hm, hu⟩ := ih
      (by rw [List.append_assoc]; exact hd)
      (fun pre g post e => hbuf (f :: pre) g post (by rw [e]; rfl))
      (fun g hg => hcall g (List.mem_cons_of_mem _ hg))
      ((f.ident, f.ty) :: basic) (basicRel_add hbasic hb ha f.ty)
      ((.name f.ident, some t) :: s) (scopeRel_step hd hs (fun _ _ => ht.symm))
      (fun hne => visible_cons.mpr ⟨fun e => hne (hbuf [] f fs rfl e).1, hvis⟩)
    have hattr := (attr_none f).mpr hb
    refine ⟨.field f.ident :: ms, .letField f.ident f.ty :: us, stepAt t before.length km, ?ku1, ?a1, ?b1, ?c1, ?d1, ?e1, ?f1⟩
    case d1 =>
      simp only [elabU, hvis, if_true, ht, hku]
      rfl
    case a1 =>
      refine eachField_cons_ok ?_ hms
      simp only [namedFieldMarshal, hattr, Res.bind]
    case b1 =>
      refine eachField_cons_ok ?_ hus
      simp only [namedFieldUnmarshal, hattr, Res.bind]
    case c1 =>
      simp only [elabM]
      rw [named_at hd]
      rw [List.append_assoc] at hkm
      simp only [List.singleton_append] at hkm
      simp only [ht, hkm]
    case e1 =>
      intro pre vs w buf hp hv'
      cases vs with
      | nil => simp [HasTyFields] at hv'
      | cons v vs =>
        simp only [HasTyFields] at hv'
        unfold stepAt
        rw [List.getElem?_append_right (by omega), hp, Nat.sub_self]
        simp only [List.getElem?_cons_zero, marshalFields]
        congr 1
        funext w buf
        have := hm (pre ++ [v]) vs w buf (by simp [hp]) hv'.2
        rw [List.append_assoc] at this
        simpa using this
    case f1 =>
      intro loc env b hE
      simp only [unmarshalFields, bind_eq]
      rcases hub : unmarshal t b with ⟨_ | _ | _, b'⟩
      · rename_i v
        simp only [hu _ _ _ (envRel_step hd hE rfl), bind_eq]
        rcases unmarshalFields r (env ++ [asUsize v]) b' with ⟨_ | _ | _, b''⟩
        · simp [pure_eq, bindAll]
        · rfl
        · rfl
      · rfl
      · rfl
  | @array before f fs elem len t n r hb hty ht hn _ ih =>
    intro hd hbuf hcall basic hbasic s hs hv
    have hvis := hv (by simp)
    have hname : f.ident ≠ "buffer" := fun e => (hbuf [] f fs rfl e).2 (by rw [hty]; trivial)
    have hvis' : bufferVisible ((.name f.ident, none) :: s) = true := visible_cons.mpr ⟨hname, hvis⟩
    obtain ⟨ms, us, km, ku, hms, hus, hkm, hku, hm, hu⟩ := ih
      (by rw [List.append_assoc]; exact hd)
      (fun pre g post e => hbuf (f :: pre) g post (by rw [e]; rfl))
      (fun g hg => hcall g (List.mem_cons_of_mem _ hg))
      basic (basicRel_skip hbasic (fun _ => by rw [hty]; trivial))
      ((.name f.ident, none) :: s)
      (scopeRel_step hd hs (fun _ ha => absurd (by rw [hty]; trivial) ha)) (fun _ => hvis')
    have hattr := (attr_none f).mpr hb
    refine ⟨.maxLoop len f.ident :: ms, .maxArr len f.ident elem :: us, loopAt t (fun _ => n) before.length km, ?ku2, ?a2, ?b2, ?c2, ?d2, ?e2, ?f2⟩
    case d2 =>
      simp only [elabU, hvis', hcall f (by simp) _ _ hty, Bool.and_self, if_true, ht, hn, hku]
      rfl
    case a2 =>
      refine eachField_cons_ok ?_ hms
      simp only [namedFieldMarshal, hattr, Res.bind, hty]
    case b2 =>
      refine eachField_cons_ok ?_ hus
      simp only [namedFieldUnmarshal, hattr, Res.bind, hty]
    case c2 =>
      simp only [elabM]
      rw [named_at hd, hty]
      rw [List.append_assoc] at hkm
      simp only [List.singleton_append] at hkm
      simp only [ht, hn, hkm]
    case e2 =>
      intro pre vs w buf hp hv'
      match vs, hv' with
      | .arr es :: vs, hv' =>
        simp only [HasTyFields] at hv'
        unfold loopAt
        rw [List.getElem?_append_right (by omega), hp, Nat.sub_self]
        simp only [List.getElem?_cons_zero, marshalFields]
        congr 1
        funext w buf
        have := hm (pre ++ [.arr es]) vs w buf (by simp [hp]) hv'.2.2
        rw [List.append_assoc] at this
        simpa [asUsize] using this
    case f2 =>
      intro loc env b hE
      simp only [unmarshalFields, bind_eq]
      rcases hub : unmarshalLoop (unmarshal t) n b with ⟨_ | _ | _, b'⟩
      · rename_i es
        dsimp only
        rw [hu _ _ _ (envRel_step hd hE (v := .arr _) (x := 0) rfl)]
        simp only [bind_eq]
        rcases unmarshalFields r (env ++ [0]) b' with ⟨_ | _ | _, b''⟩
        · simp [pure_eq, bindAll]
        · rfl
        · rfl
      · rfl
      · rfl
  | @counted before f fs elem len t n r l k g i hc hty ht hn hk hl hgb hga hgt _ ih =>
    intro hd hbuf hcall basic hbasic s hs hv
    have hvis := hv (by simp)
    have hname : f.ident ≠ "buffer" := fun e => (hbuf [] f fs rfl e).2 (by rw [hty]; trivial)
    have hvis' : bufferVisible ((.name f.ident, none) :: s) = true := visible_cons.mpr ⟨hname, hvis⟩
    obtain ⟨ms, us, km, ku, hms, hus, hkm, hku, hm, hu⟩ := ih
      (by rw [List.append_assoc]; exact hd)
      (fun pre g post e => hbuf (f :: pre) g post (by rw [e]; rfl))
      (fun g hg => hcall g (List.mem_cons_of_mem _ hg))
      basic (basicRel_skip hbasic (fun _ => by rw [hty]; trivial))
      ((.name f.ident, none) :: s)
      (scopeRel_step hd hs (fun _ ha => absurd (by rw [hty]; trivial) ha)) (fun _ => hvis')
    have hattr := (attr_some f l).mpr hc
    have hgm : g ∈ before := List.mem_of_getElem? hk
    have hsome : (basic.lookup l).isSome := (hbasic l).mpr ⟨g, hgm, hl, hgb, hga⟩
    have hprim : getPrimitive (.ident l) basic = .ok (.ident l) := by
      unfold getPrimitive
      simp only [getIdent_iff.mpr rfl]
      rw [if_neg]
      cases hx : basic.lookup l with
      | none => rw [hx] at hsome; cases hsome
      | some _ => simp
    have hcast : castable s (.ident l) = some l := by
      unfold castable
      simp only [getIdent_iff.mpr rfl]
      have := hs g hgm hgb hga
      rw [hl] at this
      rw [this, hgt]
    subst hl
    have hklt : k < before.length := (List.getElem?_eq_some_iff.mp hk).1
    refine ⟨.lenLoop (.ident g.ident) f.ident :: ms,
      .lenArr (.ident g.ident) len f.ident elem :: us, loopAt t (fun vs => asUsize (vs.getD k .unit)) before.length km, ?ku3, ?a3, ?b3, ?c3, ?d3, ?e3, ?f3⟩
    case d3 =>
      simp only [elabU, hvis', hcall f (by simp) _ _ hty, Bool.and_self, if_true, ht, hn, hku, hcast]
      rfl
    case a3 =>
      refine eachField_cons_ok ?_ hms
      simp only [namedFieldMarshal, hattr, Res.bind, hprim]
    case b3 =>
      refine eachField_cons_ok ?_ hus
      simp only [namedFieldUnmarshal, hattr, Res.bind, hprim, getArrayDefault, hty]
    case c3 =>
      simp only [elabM, getIdent_iff.mpr rfl]
      rw [named_at hd, hty, named_iff hd (k := k) (g := g) (by
        rw [List.getElem?_append_left hklt]; exact hk)]
      rw [List.append_assoc] at hkm
      simp only [List.singleton_append] at hkm
      simp only [ht, hgt, hkm]
    case e3 =>
      intro pre vs w buf hp hv'
      match vs, hv' with
      | .arr es :: vs, hv' =>
        simp only [HasTyFields] at hv'
        unfold loopAt
        rw [List.getElem?_append_right (by omega), hp, Nat.sub_self]
        have e : (pre ++ .arr es :: vs).getD k .unit = pre.getD k .unit := by
          simp only [List.getD_eq_getElem?_getD]
          rw [List.getElem?_append_left (by omega)]
        simp only [List.getElem?_cons_zero, marshalFields, e, getD_map_asUsize]
        congr 1
        funext w buf
        have := hm (pre ++ [.arr es]) vs w buf (by simp [hp]) hv'.2.2
        rw [List.append_assoc] at this
        simpa [asUsize] using this
    case f3 =>
      intro loc env b hE
      simp only [unmarshalFields, hE.2 k g hk]
      by_cases hgt : env.getD k 0 > n
      · simp only [hgt, if_true, bind_eq]
        rfl
      · simp only [hgt, if_false, bind_eq]
        rcases hub : unmarshalLoop (unmarshal t) (env.getD k 0) b with ⟨_ | _ | _, b'⟩
        · rename_i es
          dsimp only
          rw [hu _ _ _ (envRel_step hd hE (v := .arr _) (x := 0) rfl)]
          simp only [bind_eq]
          rcases unmarshalFields r (env ++ [0]) b' with ⟨_ | _ | _, b''⟩
          · simp [pure_eq, bindAll]
          · rfl
          · rfl
        · rfl
        · rfl

theorem fieldsMean_length {Γ : Ctx} {before fs : List NField} {F : Fields}
    (h : FieldsMean Γ before fs F) : ∀ (env : List Nat) (b b' : Bytes) (vs : List Val),
    unmarshalFields F env b = (.ok vs, b') → vs.length = fs.length := by
  induction h with
  | nil =>
    intro env b b' vs h
    simp only [unmarshalFields, pure_eq] at h
    cases h; rfl
  | plain _ _ _ _ ih =>
    intro env b b' vs h
    simp only [unmarshalFields, bind_eq] at h
    split at h
    · split at h
      · rename_i hr
        cases h
        simp [ih _ _ _ _ hr]
      · cases h
      · cases h
    · cases h
    · cases h
  | array _ _ _ _ _ ih =>
    intro env b b' vs h
    simp only [unmarshalFields, bind_eq] at h
    split at h
    · split at h
      · rename_i hr
        cases h
        simp [ih _ _ _ _ hr]
      · cases h
      · cases h
    · cases h
    · cases h
  | counted _ _ _ _ _ _ _ _ _ _ ih =>
    intro env b b' vs h
    simp only [unmarshalFields] at h
    split at h
    · cases h
    · simp only [bind_eq] at h
      split at h
      · split at h
        · rename_i hr
          cases h
          simp [ih _ _ _ _ hr]
        · cases h
        · cases h
      · cases h
      · cases h

theorem local_bindAll_other : ∀ (fs : List NField) (vs : List Val) (loc : List (Var × Val)) (x : Ident),
    x ∉ fs.map (·.ident) → local! (bindAll fs vs loc) (.name x) = local! loc (.name x)
  | [], _, _, _, _ => by simp [bindAll]
  | _ :: _, [], _, _, _ => by simp [bindAll]
  | f :: fs, v :: vs, loc, x, h => by
    simp only [List.map_cons, List.mem_cons, not_or] at h
    rw [bindAll, local_bindAll_other fs vs _ x h.2]
    unfold local!
    rw [lookup_var_ne (by simpa using h.1)]

theorem construct_bindAll : ∀ (fs : List NField) (vs : List Val) (loc : List (Var × Val)),
    (fs.map (·.ident)).Nodup → vs.length = fs.length →
    (fs.map (·.ident)).map (fun x => local! (bindAll fs vs loc) (.name x)) = vs
  | [], [], _, _, _ => rfl
  | [], _ :: _, _, _, h => by cases h
  | _ :: _, [], _, _, h => by cases h
  | f :: fs, v :: vs, loc, hd, hl => by
    rw [List.map_cons, List.nodup_cons] at hd
    simp only [List.map_cons, bindAll]
    rw [local_bindAll_other fs vs _ _ hd.1]
    have := construct_bindAll fs vs ((.name f.ident, v) :: loc) hd.2 (by simpa using hl)
    rw [this]
    unfold local!
    rw [lookup_var_self]
    rfl

/-! ### Unnamed fields -/

theorem tuple_marshal {Γ : Ctx} {p : Places} {c : Nat → MStmt} {all : List TypeE}
    (hc : ∀ i ty r t k, all[i]? = some ty → Γ.ty ty = some t → elabM Γ p r = some k →
      elabM Γ p (c i :: r) = some (stepAt t i k))
    {ts : List TypeE} {F : Fields} (h : TuplesMean Γ ts F) :
    ∀ preT, all = preT ++ ts →
    ∃ km, elabM Γ p ((List.range' preT.length ts.length).map c) = some km ∧
      ∀ pre vs env w buf, pre.length = preT.length → HasTyFields F vs →
        km (pre ++ vs) w buf = marshalFields F env vs w buf := by
  induction h with
  | nil =>
    intro preT _
    refine ⟨_, rfl, ?_⟩
    intro pre vs env w buf _ hv
    cases vs with
    | nil => simp [marshalFields]
    | cons v vs => simp [HasTyFields] at hv
  | @cons ty ts t r ht _ ih =>
    intro preT hall
    obtain ⟨km, hkm, hm⟩ := ih (preT ++ [ty]) (by rw [hall, List.append_assoc]; rfl)
    rw [List.length_append] at hkm
    refine ⟨stepAt t preT.length km, ?_, ?_⟩
    · rw [List.length_cons, List.range'_succ, List.map_cons]
      refine hc _ ty _ t km ?_ ht hkm
      rw [hall, List.getElem?_append_right (Nat.le_refl _), Nat.sub_self]
      rfl
    · intro pre vs env w buf hp hv
      cases vs with
      | nil => simp [HasTyFields] at hv
      | cons v vs =>
        simp only [HasTyFields] at hv
        unfold stepAt
        rw [List.getElem?_append_right (by omega), hp, Nat.sub_self]
        simp only [List.getElem?_cons_zero, marshalFields]
        congr 1
        funext w buf
        have := hm (pre ++ [v]) vs (env ++ [asUsize v]) w buf (by simp [hp]) hv.2
        rw [List.append_assoc] at this
        simpa using this

theorem index_step {Γ : Ctx} {all : List TypeE} (i : Nat) (ty : TypeE) (r : List MStmt) (t : Ty)
    (k : List Val → Nat → Bytes → MOut) (hi : all[i]? = some ty) (ht : Γ.ty ty = some t)
    (hk : elabM Γ ⟨[], all, []⟩ r = some k) :
    elabM Γ ⟨[], all, []⟩ (.index i :: r) = some (stepAt t i k) := by
  simp only [elabM, hi, ht, hk]

theorem var_step {Γ : Ctx} {all : List TypeE} (i : Nat) (ty : TypeE) (r : List MStmt) (t : Ty)
    (k : List Val → Nat → Bytes → MOut) (hi : all[i]? = some ty) (ht : Γ.ty ty = some t)
    (hk : elabM Γ ⟨[], [], all⟩ r = some k) :
    elabM Γ ⟨[], [], all⟩ (.var i :: r) = some (stepAt t i k) := by
  simp only [elabM, hi, ht, hk]

/-- The local variables after all statements. -/
def bindVars : Nat → List TypeE → List Val → List (Var × Val) → List (Var × Val)
  | n, _ :: ts, v :: vs, loc => bindVars (n + 1) ts vs ((.f n, v) :: loc)
  | _, _, _, loc => loc

theorem visible_var {s : Scope} {i : Nat} {x : Option Ty} :
    bufferVisible ((.f i, x) :: s) = bufferVisible s := by
  unfold bufferVisible
  rw [lookup_var_ne (by simp)]

theorem tuple_unmarshal {Γ : Ctx} {ts : List TypeE} {F : Fields} (h : TuplesMean Γ ts F) :
    ∀ (n : Nat) (s : Scope), bufferVisible s = true →
    ∃ ku, elabU Γ (List.zipWith .letVar (List.range' n ts.length) ts) s = some ku ∧
      ∀ loc env b, ku loc b =
        (unmarshalFields F env >>= fun vs => pure (bindVars n ts vs loc)) b := by
  induction h with
  | nil =>
    intro n s _
    refine ⟨_, rfl, ?_⟩
    intro loc env b
    simp [unmarshalFields, bind_eq, pure_eq, bindVars]
  | @cons ty ts t r ht _ ih =>
    intro n s hs
    obtain ⟨ku, hku, hu⟩ := ih (n + 1) ((.f n, some t) :: s) (by rw [visible_var]; exact hs)
    refine ⟨fun loc => (unmarshal t >>= fun v => ku ((.f n, v) :: loc)), ?_, ?_⟩
    · simp only [List.length_cons, List.range'_succ, List.zipWith_cons_cons, elabU, hs, if_true, ht,
        hku]
    · intro loc env b
      simp only [unmarshalFields, bind_eq]
      rcases unmarshal t b with ⟨_ | _ | _, b'⟩
      · rename_i v
        dsimp only
        rw [hu _ (env ++ [asUsize v])]
        simp only [bind_eq]
        rcases unmarshalFields r (env ++ [asUsize v]) b' with ⟨_ | _ | _, b''⟩
        · simp [pure_eq, bindVars]
        · rfl
        · rfl
      · rfl
      · rfl

theorem tuplesMean_length {Γ : Ctx} {ts : List TypeE} {F : Fields} (h : TuplesMean Γ ts F) :
    ∀ (env : List Nat) (b b' : Bytes) (vs : List Val),
    unmarshalFields F env b = (.ok vs, b') → vs.length = ts.length := by
  induction h with
  | nil =>
    intro env b b' vs h
    simp only [unmarshalFields, pure_eq] at h
    cases h; rfl
  | cons _ _ ih =>
    intro env b b' vs h
    simp only [unmarshalFields, bind_eq] at h
    split at h
    · split at h
      · rename_i hr
        cases h
        simp [ih _ _ _ _ hr]
      · cases h
      · cases h
    · cases h
    · cases h

theorem local_bindVars_other : ∀ (ts : List TypeE) (n : Nat) (vs : List Val)
    (loc : List (Var × Val)) (x : Nat), x < n →
    local! (bindVars n ts vs loc) (.f x) = local! loc (.f x)
  | [], _, _, _, _, _ => by simp [bindVars]
  | _ :: _, _, [], _, _, _ => by simp [bindVars]
  | _ :: ts, n, v :: vs, loc, x, h => by
    rw [bindVars, local_bindVars_other ts (n + 1) vs _ x (by omega)]
    unfold local!
    rw [lookup_var_ne (by simp; omega)]

theorem construct_bindVars : ∀ (ts : List TypeE) (n : Nat) (vs : List Val) (loc : List (Var × Val)),
    vs.length = ts.length →
    (List.range' n ts.length).map (fun x => local! (bindVars n ts vs loc) (.f x)) = vs
  | [], _, [], _, _ => rfl
  | [], _, _ :: _, _, h => by cases h
  | _ :: _, _, [], _, h => by cases h
  | _ :: ts, n, v :: vs, loc, hl => by
    simp only [List.length_cons, List.range'_succ, List.map_cons, bindVars]
    rw [local_bindVars_other ts (n + 1) vs _ n (by omega)]
    have := construct_bindVars ts (n + 1) vs ((.f n, v) :: loc) (by simpa using hl)
    rw [this]
    unfold local!
    rw [lookup_var_self]
    rfl

/-! ### Converse -/

theorem elabU_visible {Γ : Ctx} {us : List UStmt} {s : Scope}
    {ku : List (Var × Val) → UM (List (Var × Val))} (h : elabU Γ us s = some ku) (hne : us ≠ []) :
    bufferVisible s = true := by
  cases us with
  | nil => exact absurd rfl hne
  | cons u us =>
    cases u with
    | letField n ty =>
      simp only [elabU] at h
      split at h
      · assumption
      · cases h
    | letVar n ty =>
      simp only [elabU] at h
      split at h
      · assumption
      · cases h
    | maxArr m n e =>
      simp only [elabU] at h
      split at h
      · rename_i hc
        rw [Bool.and_eq_true, visible_cons] at hc
        exact hc.1.2
      · cases h
    | lenArr l m n e =>
      simp only [elabU] at h
      split at h
      · rename_i hc
        rw [Bool.and_eq_true, visible_cons] at hc
        exact hc.1.2
      · cases h

theorem eachField_ok_cons {α : Type} {gen : BasicTypes → NField → D (α × BasicTypes)}
    {basic : BasicTypes} {f : NField} {fs : List NField} {ys : List α}
    (h : eachField gen basic (f :: fs) = .ok ys) :
    ∃ x xs basic', ys = x :: xs ∧ gen basic f = .ok (x, basic') ∧
      eachField gen basic' fs = .ok xs := by
  simp only [eachField] at h
  cases hg : gen basic f with
  | panic => rw [hg] at h; cases h
  | err e =>
    rw [hg] at h
    cases hr : eachField gen basic fs <;> simp [hr] at h
  | ok r =>
    obtain ⟨x, basic'⟩ := r
    rw [hg] at h
    cases hr : eachField gen basic' fs with
    | ok xs =>
      simp only [hr, Res.map, Res.ok.injEq] at h
      exact ⟨x, xs, basic', h.symm, rfl, hr⟩
    | err e => simp [hr, Res.map] at h
    | panic => simp [hr, Res.map] at h

theorem eachField_length {α : Type} {gen : BasicTypes → NField → D (α × BasicTypes)} :
    ∀ {fs : List NField} {basic : BasicTypes} {xs : List α}, eachField gen basic fs = .ok xs →
    xs.length = fs.length
  | [], _, _, h => by cases h; rfl
  | f :: fs, _, _, h => by
    obtain ⟨x, xs, b, rfl, _, hr⟩ := eachField_ok_cons h
    simp [eachField_length hr]

/-- What the macro accepts and generates for one field. -/
theorem namedFieldUnmarshal_ok {basic basic' : BasicTypes} {before : List NField} {f : NField}
    {u : UStmt} (hb : BasicRel before basic) (h : namedFieldUnmarshal basic f = .ok (u, basic')) :
    (f.Bare ∧ ¬ f.ty.IsArray ∧ u = .letField f.ident f.ty ∧ basic' = (f.ident, f.ty) :: basic) ∨
    (∃ elem max, f.Bare ∧ f.ty = .array elem max ∧ u = .maxArr max f.ident elem ∧ basic' = basic) ∨
    (∃ l elem max g, f.Counted l ∧ f.ty = .array elem max ∧
      u = .lenArr (.ident l) max f.ident elem ∧ basic' = basic ∧
      g ∈ before ∧ g.ident = l ∧ g.Bare ∧ ¬ g.ty.IsArray) := by
  unfold namedFieldUnmarshal at h
  cases ha : getMarshalAttribute f.attrs "length" with
  | panic => simp [ha, Res.bind] at h
  | err e => simp [ha, Res.bind] at h
  | ok r =>
    simp only [ha, Res.bind] at h
    cases r with
    | none =>
      have hbare := (attr_none f).mp ha
      cases hty : f.ty with
      | array elem max =>
        simp only [hty, Res.ok.injEq, Prod.mk.injEq] at h
        exact .inr (.inl ⟨elem, max, hbare, rfl, h.1.symm, h.2.symm⟩)
      | path p =>
        simp only [hty, Res.ok.injEq, Prod.mk.injEq] at h
        exact .inl ⟨hbare, by simp [TypeE.IsArray], h.1.symm, h.2.symm⟩
      | other =>
        simp only [hty, Res.ok.injEq, Prod.mk.injEq] at h
        exact .inl ⟨hbare, by simp [TypeE.IsArray], h.1.symm, h.2.symm⟩
    | some p =>
      cases hty : f.ty with
      | array elem max =>
        simp only [hty, getArrayDefault, getPrimitive] at h
        cases hi : p.getIdent with
        | none => simp [hi] at h
        | some l =>
          have hp := getIdent_iff.mp hi
          subst hp
          simp only [hi] at h
          by_cases hn : (basic.lookup l).isNone
          · simp [hn] at h
          · simp only [hn, Bool.false_eq_true, if_false, Res.ok.injEq, Prod.mk.injEq] at h
            have hs : (basic.lookup l).isSome := by
              cases hx : basic.lookup l with
              | none => rw [hx] at hn; exact absurd rfl hn
              | some _ => rfl
            obtain ⟨g, hg, hgl, hgb, hga⟩ := (hb l).mp hs
            exact .inr (.inr ⟨l, elem, max, g, (attr_some f l).mp ha, rfl, h.1.symm, h.2.symm, hg, hgl,
              hgb, hga⟩)
      | path q => simp [hty, getArrayDefault] at h
      | other => simp [hty, getArrayDefault] at h

theorem fields_sound {Γ : Ctx} : ∀ (fs before : List NField) (basic : BasicTypes) (s : Scope)
    (us : List UStmt) (ku : List (Var × Val) → UM (List (Var × Val))),
    ((before ++ fs).map (·.ident)).Nodup → BasicRel before basic → ScopeRel Γ before s →
    eachField namedFieldUnmarshal basic fs = .ok us → elabU Γ us s = some ku →
    ∃ F, FieldsMean Γ before fs F ∧
      (∀ pre f post, fs = pre ++ f :: post → f.ident = "buffer" → post = [] ∧ ¬ f.ty.IsArray) ∧
      (∀ f ∈ fs, ∀ elem len, f.ty = .array elem len → elem.callable = true)
  | [], before, basic, s, us, ku, _, _, _, _, _ => by
    refine ⟨.nil, .nil, ?_, by simp⟩
    intro pre f post h
    cases pre <;> cases h
  | f :: fs, before, basic, s, us, ku, hd, hb, hs, hus, hku => by
    obtain ⟨u, us, basic', rfl, hu, hur⟩ := eachField_ok_cons hus
    have hd' : ((before ++ [f] ++ fs).map (·.ident)).Nodup := by rw [List.append_assoc]; exact hd
    have key : ∀ (x : Option Ty) (F : Fields) (k' : List (Var × Val) → UM (List (Var × Val))),
        elabU Γ us ((.name f.ident, x) :: s) = some k' →
        (f.ty.IsArray → f.ident ≠ "buffer") →
        (∀ elem len, f.ty = .array elem len → elem.callable = true) →
        FieldsMean Γ before (f :: fs) F →
        ((∀ pre g post, fs = pre ++ g :: post → g.ident = "buffer" → post = [] ∧ ¬ g.ty.IsArray) ∧
          (∀ g ∈ fs, ∀ elem len, g.ty = .array elem len → elem.callable = true)) →
        ∃ F, FieldsMean Γ before (f :: fs) F ∧
          (∀ pre g post, f :: fs = pre ++ g :: post → g.ident = "buffer" →
            post = [] ∧ ¬ g.ty.IsArray) ∧
          (∀ g ∈ f :: fs, ∀ elem len, g.ty = .array elem len → elem.callable = true) := by
      intro x F k' he harr hcall hF ⟨h1, h2⟩
      refine ⟨F, hF, ?_, ?_⟩
      · intro pre g post e hg
        cases pre with
        | nil =>
          cases e
          refine ⟨?_, fun ha => harr ha hg⟩
          cases hfs : fs with
          | nil => rfl
          | cons y ys =>
            have hne : us ≠ [] := by
              intro e
              have := eachField_length hur
              rw [e, hfs] at this
              cases this
            exact absurd hg (visible_cons.mp (elabU_visible he hne)).1
        | cons p pre =>
          cases e
          exact h1 pre g post rfl hg
      · intro g hg
        rcases List.mem_cons.mp hg with rfl | hg
        · exact hcall
        · exact h2 g hg
    rcases namedFieldUnmarshal_ok hb hu with
      ⟨hbare, harr, rfl, rfl⟩ | ⟨elem, max, hbare, hty, rfl, rfl⟩ |
      ⟨l, elem, max, g, hc, hty, rfl, rfl, hg, hgl, hgb, hga⟩
    · simp only [elabU] at hku
      split at hku
      · cases ht : Γ.ty f.ty with
        | none => simp [ht] at hku
        | some t =>
          simp only [ht] at hku
          cases hk : elabU Γ us ((.name f.ident, some t) :: s) with
          | none => simp [hk] at hku
          | some k' =>
            obtain ⟨F, hF, h12⟩ := fields_sound fs (before ++ [f]) _ _ us k' hd'
              (basicRel_add hb hbare harr f.ty) (scopeRel_step hd hs (fun _ _ => ht.symm)) hur hk
            exact key _ _ _ hk (fun ha => absurd ha harr)
              (fun e l h => absurd (by rw [h]; trivial) harr) (.plain hbare harr ht hF) h12
      · cases hku
    · simp only [elabU] at hku
      split at hku
      · rename_i hcond
        rw [Bool.and_eq_true] at hcond
        cases ht : Γ.ty elem with
        | none => simp [ht] at hku
        | some t =>
          cases hn : Γ.size max with
          | none => simp [ht, hn] at hku
          | some n =>
            simp only [ht, hn] at hku
            cases hk : elabU Γ us ((.name f.ident, none) :: s) with
            | none => simp [hk] at hku
            | some k' =>
              obtain ⟨F, hF, h12⟩ := fields_sound fs (before ++ [f]) _ _ us k' hd'
                (basicRel_skip hb (fun _ => by rw [hty]; trivial))
                (scopeRel_step hd hs (fun _ ha => absurd (by rw [hty]; trivial) ha)) hur hk
              refine key _ _ _ hk (fun _ => (visible_cons.mp hcond.1).1) ?_
                (.array hbare hty ht hn hF) h12
              intro e l h
              rw [hty] at h
              cases h
              exact hcond.2
      · cases hku
    · simp only [elabU] at hku
      split at hku
      · rename_i hcond
        rw [Bool.and_eq_true] at hcond
        cases hcast : castable s (.ident l) with
        | none => simp [hcast] at hku
        | some l' =>
          cases ht : Γ.ty elem with
          | none => simp [ht, hcast] at hku
          | some t =>
            cases hn : Γ.size max with
            | none => simp [ht, hn, hcast] at hku
            | some n =>
              simp only [ht, hn, hcast] at hku
              cases hk : elabU Γ us ((.name f.ident, none) :: s) with
              | none => simp [hk] at hku
              | some k' =>
                obtain ⟨F, hF, h12⟩ := fields_sound fs (before ++ [f]) _ _ us k' hd'
                  (basicRel_skip hb (fun _ => by rw [hty]; trivial))
                  (scopeRel_step hd hs (fun _ ha => absurd (by rw [hty]; trivial) ha)) hur hk
                obtain ⟨k, hklt, hkg⟩ := List.getElem_of_mem hg
                have hprim : ∃ i, Γ.ty g.ty = some (.prim i) := by
                  unfold castable at hcast
                  simp only [getIdent_iff.mpr rfl] at hcast
                  have := hs g hg hgb hga
                  rw [hgl] at this
                  rw [this] at hcast
                  split at hcast
                  · rename_i i hx
                    exact ⟨i, Option.some.inj hx⟩
                  · cases hcast
                obtain ⟨i, hi⟩ := hprim
                refine key _ _ _ hk (fun _ => (visible_cons.mp hcond.1).1) ?_
                  (.counted (k := k) hc hty ht hn (by rw [List.getElem?_eq_getElem hklt, hkg]) hgl
                    hgb hga hi hF) h12
                intro e l h
                rw [hty] at h
                cases h
                exact hcond.2
      · cases hku

/-- What the macro accepts. -/
theorem unmarshal_accepts : ∀ (fs before : List NField) (basic : BasicTypes),
    BasicRel before basic →
    ((∃ us, eachField namedFieldUnmarshal basic fs = .ok us) ↔
      ∀ pre f post, fs = pre ++ f :: post → f.Bare ∨
        ∃ l, f.Counted l ∧ f.ty.IsArray ∧
          ∃ g ∈ before ++ pre, g.ident = l ∧ g.Bare ∧ ¬ g.ty.IsArray)
  | [], before, basic, hb => by
    constructor
    · intro _ pre f post h
      cases pre <;> cases h
    · intro _
      exact ⟨[], rfl⟩
  | f :: fs, before, basic, hb => by
    constructor
    · rintro ⟨us, hus⟩
      obtain ⟨u, us, basic', rfl, hu, hus⟩ := eachField_ok_cons hus
      have hb' : BasicRel (before ++ [f]) basic' := by
        rcases namedFieldUnmarshal_ok hb hu with
          ⟨hbare, harr, _, rfl⟩ | ⟨elem, max, hbare, hty, _, rfl⟩ |
          ⟨l, elem, max, g, hc, hty, _, rfl, _⟩
        · exact basicRel_add hb hbare harr _
        · exact basicRel_skip hb (fun _ => by rw [hty]; trivial)
        · exact basicRel_skip hb (fun _ => by rw [hty]; trivial)
      intro pre x post e
      cases pre with
      | nil =>
        cases e
        rcases namedFieldUnmarshal_ok hb hu with
          ⟨hbare, _⟩ | ⟨elem, max, hbare, _⟩ | ⟨l, elem, max, g, hc, hty, _, _, hg, hgl, hgb, hga⟩
        · exact .inl hbare
        · exact .inl hbare
        · exact .inr ⟨l, hc, by rw [hty]; trivial, g, by simpa using hg, hgl, hgb, hga⟩
      | cons p pre =>
        cases e
        have := (unmarshal_accepts _ (before ++ [f]) basic' hb').mp ⟨us, hus⟩ pre x post rfl
        rcases this with h | ⟨l, h1, h2, g, hg, h3⟩
        · exact .inl h
        · exact .inr ⟨l, h1, h2, g, by simpa using hg, h3⟩
    · intro h
      have hrest : ∀ basic', BasicRel (before ++ [f]) basic' →
          ∃ us, eachField namedFieldUnmarshal basic' fs = .ok us := by
        intro basic' hb'
        rw [unmarshal_accepts fs (before ++ [f]) basic' hb']
        intro pre x post e
        rcases h (f :: pre) x post (by rw [e]; rfl) with h | ⟨l, h1, h2, g, hg, h3⟩
        · exact .inl h
        · exact .inr ⟨l, h1, h2, g, by simpa using hg, h3⟩
      rcases h [] f fs rfl with hbare | ⟨l, hc, harr, g, hg, hgl, hgb, hga⟩
      · have hattr := (attr_none f).mpr hbare
        cases hty : f.ty with
        | array elem max =>
          obtain ⟨us, hus⟩ := hrest basic (basicRel_skip hb (fun _ => by rw [hty]; trivial))
          refine ⟨_, eachField_cons_ok (x := .maxArr max f.ident elem) ?_ hus⟩
          simp [namedFieldUnmarshal, hattr, Res.bind, hty]
        | path p =>
          obtain ⟨us, hus⟩ := hrest _ (basicRel_add hb hbare (by rw [hty]; simp [TypeE.IsArray]) f.ty)
          refine ⟨_, eachField_cons_ok (x := .letField f.ident f.ty) ?_ hus⟩
          simp [namedFieldUnmarshal, hattr, Res.bind, hty]
        | other =>
          obtain ⟨us, hus⟩ := hrest _ (basicRel_add hb hbare (by rw [hty]; simp [TypeE.IsArray]) f.ty)
          refine ⟨_, eachField_cons_ok (x := .letField f.ident f.ty) ?_ hus⟩
          simp [namedFieldUnmarshal, hattr, Res.bind, hty]
      · have hattr := (attr_some f l).mpr hc
        have hsome := (hb l).mpr ⟨g, by simpa using hg, hgl, hgb, hga⟩
        obtain ⟨us, hus⟩ := hrest basic (basicRel_skip hb (fun _ => harr))
        cases hty : f.ty with
        | array elem max =>
          refine ⟨_, eachField_cons_ok (x := .lenArr (.ident l) max f.ident elem) ?_ hus⟩
          have : ((basic.lookup l).isNone) = false := by
            cases hx : basic.lookup l with
            | none => rw [hx] at hsome; cases hsome
            | some _ => rfl
          simp [namedFieldUnmarshal, hattr, Res.bind, hty, getArrayDefault, getPrimitive,
            getIdent_iff.mpr rfl, this]
        | path p => rw [hty] at harr; exact absurd harr (by simp [TypeE.IsArray])
        | other => rw [hty] at harr; exact absurd harr (by simp [TypeE.IsArray])

/-- Marshalling code is generated whenever unmarshalling code is. -/
theorem marshal_of_unmarshal : ∀ (fs : List NField) (basic : BasicTypes) (us : List UStmt),
    eachField namedFieldUnmarshal basic fs = .ok us →
    ∃ ms, eachField namedFieldMarshal basic fs = .ok ms
  | [], _, _, _ => ⟨[], rfl⟩
  | f :: fs, basic, us, h => by
    obtain ⟨u, us, basic', rfl, hu, hus⟩ := eachField_ok_cons h
    obtain ⟨ms, hms⟩ := marshal_of_unmarshal fs basic' us hus
    have : ∃ m, namedFieldMarshal basic f = .ok (m, basic') := by
      unfold namedFieldUnmarshal at hu
      unfold namedFieldMarshal
      cases ha : getMarshalAttribute f.attrs "length" with
      | panic => simp [ha, Res.bind] at hu
      | err e => simp [ha, Res.bind] at hu
      | ok r =>
        simp only [ha, Res.bind] at hu ⊢
        cases r with
        | none =>
          cases hty : f.ty <;> simp only [hty, Res.ok.injEq, Prod.mk.injEq] at hu <;>
            exact ⟨_, by rw [← hu.2]⟩
        | some p =>
          cases hty : f.ty with
          | array elem max =>
            simp only [hty, getArrayDefault] at hu
            cases hp : getPrimitive p basic with
            | ok q =>
              simp only [hp, Res.ok.injEq, Prod.mk.injEq] at hu
              exact ⟨.lenLoop q f.ident, by rw [← hu.2]; simp only [hp]⟩
            | err e => simp [hp] at hu
            | panic => simp [hp] at hu
          | path q => simp [hty, getArrayDefault] at hu
          | other => simp [hty, getArrayDefault] at hu
    obtain ⟨m, hm⟩ := this
    exact ⟨m :: ms, eachField_cons_ok hm hms⟩

theorem tuple_sound {Γ : Ctx} : ∀ (ts : List TypeE) (n : Nat) (s : Scope)
    (ku : List (Var × Val) → UM (List (Var × Val))),
    elabU Γ (List.zipWith .letVar (List.range' n ts.length) ts) s = some ku →
    ∃ F, TuplesMean Γ ts F
  | [], _, _, _, _ => ⟨.nil, .nil⟩
  | ty :: ts, n, s, ku, h => by
    simp only [List.length_cons, List.range'_succ, List.zipWith_cons_cons, elabU] at h
    split at h
    · cases ht : Γ.ty ty with
      | none => simp [ht] at h
      | some t =>
        simp only [ht] at h
        cases hk : elabU Γ (List.zipWith .letVar (List.range' (n + 1) ts.length) ts)
            ((.f n, some t) :: s) with
        | none => simp [hk] at h
        | some k =>
          obtain ⟨F, hF⟩ := tuple_sound ts (n + 1) _ k hk
          exact ⟨.plain t F, .cons ht hF⟩
    · cases h

/-! ### Enums -/

/-- The data of a tuple variant. -/
def tsOf : FieldsE → List TypeE
  | .unnamed ts => ts
  | _ => []

/-- The arm generated for a tuple variant. -/
def armOf (v : VariantE) : Arm :=
  ⟨v.ident, .vars (tsOf v.fields).length, (List.range (tsOf v.fields).length).map .var⟩

theorem enumMarshalBody_ok : ∀ (vs : List VariantE) (arms : List Arm),
    enumMarshalBody vs = .ok arms ↔
      arms = vs.map armOf ∧ ∀ v ∈ vs, ∃ ts, v.fields = .unnamed ts
  | [], arms => by simp [enumMarshalBody, eq_comm]
  | v :: vs, arms => by
    have ih := enumMarshalBody_ok vs
    cases hf : v.fields with
    | unnamed ts =>
      have ha : armOf v = ⟨v.ident, fieldList v.fields, (List.range ts.length).map .var⟩ := by
        simp [armOf, hf, tsOf, fieldList]
      simp only [enumMarshalBody, hf]
      cases hr : enumMarshalBody vs with
      | ok as =>
        have := (ih as).mp hr
        simp only [Res.map, Res.ok.injEq, List.map_cons, List.mem_cons, forall_eq_or_imp, ha, hf]
        constructor
        · rintro rfl
          exact ⟨by rw [this.1], ⟨ts, rfl⟩, this.2⟩
        · rintro ⟨rfl, _⟩
          rw [this.1]
      | err e =>
        simp only [Res.map]
        constructor
        · intro h; cases h
        · rintro ⟨_, h⟩
          have := (ih (vs.map armOf)).mpr ⟨rfl, fun x hx => h x (List.mem_cons_of_mem _ hx)⟩
          rw [this] at hr; cases hr
      | panic =>
        simp only [Res.map]
        constructor
        · intro h; cases h
        · rintro ⟨_, h⟩
          have := (ih (vs.map armOf)).mpr ⟨rfl, fun x hx => h x (List.mem_cons_of_mem _ hx)⟩
          rw [this] at hr; cases hr
    | named fs =>
      simp only [enumMarshalBody, hf]
      constructor
      · intro h
        split at h <;> cases h
      · rintro ⟨_, h⟩
        obtain ⟨ts, ht⟩ := h v (by simp)
        rw [hf] at ht; cases ht
    | unit =>
      simp only [enumMarshalBody, hf]
      constructor
      · intro h
        split at h <;> cases h
      · rintro ⟨_, h⟩
        obtain ⟨ts, ht⟩ := h v (by simp)
        rw [hf] at ht; cases ht

theorem find_by_ident {β : Type} (g : VariantE → β) (name : β → Ident)
    (hg : ∀ v, name (g v) = v.ident) : ∀ (all : List VariantE) (v : VariantE),
    (all.map (·.ident)).Nodup → v ∈ all →
    (all.map g).find? (fun x => name x == v.ident) = some (g v)
  | [], _, _, h => by cases h
  | x :: xs, v, hd, h => by
    rw [List.map_cons, List.nodup_cons] at hd
    rw [List.map_cons, List.find?_cons]
    rcases List.mem_cons.mp h with rfl | h
    · rw [hg]
      simp
    · have : (name (g x) == v.ident) = false := by
        rw [hg]
        apply Bool.eq_false_iff.mpr
        intro e
        exact hd.1 (by rw [beq_iff_eq.mp e]; exact List.mem_map_of_mem h)
      rw [this]
      exact find_by_ident g name hg xs v hd.2 h

theorem arms_complete {Γ : Ctx} {all : List VariantE} (hd : (all.map (·.ident)).Nodup)
    {vs : List VariantE} {V : Variants} (h : VariantsMean Γ vs V) : (∀ v ∈ vs, v ∈ all) →
    ∃ m, elabArms Γ (all.map armOf) vs = some m ∧
      ∀ sel fvs buf, HasTyVariant V sel fvs → m sel fvs buf = marshalVariant V sel fvs buf := by
  induction h with
  | nil =>
    intro _
    refine ⟨_, rfl, ?_⟩
    intro sel fvs buf h
    simp [HasTyVariant] at h
  | @cons v vs ts disc s fs r hf hdisc hs ht _ ih =>
    intro hall
    obtain ⟨m, hm, hr⟩ := ih (fun x hx => hall x (List.mem_cons_of_mem _ hx))
    obtain ⟨km, hkm, hk⟩ := tuple_marshal (Γ := Γ) (p := ⟨[], [], ts⟩) (c := .var) (all := ts)
      var_step ht [] rfl
    have hfind := find_by_ident armOf (·.variant) (fun _ => rfl) all v hd (hall v (by simp))
    refine ⟨fun sel fvs buf => if sel = s then km fvs 0 buf else m sel fvs buf, ?_, ?_⟩
    · simp only [elabArms, hfind, hdisc, hs, hm]
      have : patternPlaces (armOf v).pattern v.fields = some ⟨[], [], ts⟩ := by
        simp [patternPlaces, armOf, hf, tsOf]
      rw [this]
      have hb : (armOf v).body = (List.range' ([] : List TypeE).length ts.length).map .var := by
        simp [armOf, hf, tsOf, List.range_eq_range']
      simp only [Option.bind_some, hb, hkm]
    · intro sel fvs buf hv
      simp only [HasTyVariant] at hv
      simp only [marshalVariant]
      by_cases he : sel = s
      · simp only [he, if_true] at hv ⊢
        simpa using hk [] fvs [] 0 buf rfl hv
      · simp only [he, if_false] at hv ⊢
        exact hr sel fvs buf hv

theorem conds_complete {Γ : Ctx} {all : List VariantE} (hd : (all.map (·.ident)).Nodup)
    {vs : List VariantE} {V : Variants} (h : VariantsMean Γ vs V) : (∀ v ∈ vs, v ∈ all) →
    ∃ conds u, enumUnmarshalBody [] vs = .ok conds ∧ elabConds Γ all conds = some u ∧
      ∀ sel b, u sel b = (unmarshalVariant V sel >>= fun fvs => pure (.enum sel fvs)) b := by
  induction h with
  | nil =>
    intro _
    refine ⟨[], _, rfl, rfl, ?_⟩
    intro sel b
    simp only [unmarshalVariant, bind_eq]
    rfl
  | @cons v vs ts disc s fs r hf hdisc hs ht _ ih =>
    intro hall
    obtain ⟨conds, u, hconds, hu, hr⟩ := ih (fun x hx => hall x (List.mem_cons_of_mem _ hx))
    obtain ⟨ku, hku, hk⟩ := tuple_unmarshal ht 0 [] rfl
    have hfind := find_by_ident id (·.ident) (fun _ => rfl) all v hd (hall v (by simp))
    rw [List.map_id] at hfind
    refine ⟨⟨disc, List.zipWith .letVar (List.range' 0 ts.length) ts, v.ident, .vars ts.length⟩ :: conds,
      fun sel => if sel = s then (ku [] >>= fun loc => pure (.enum s (construct (.vars ts.length) loc)))
        else u sel, ?_, ?_, ?_⟩
    · simp [enumUnmarshalBody, hf, fieldUnmarshal, hdisc, hconds, Res.map, fieldList,
        List.range_eq_range']
    · have hcon : constructed Γ all v.ident (.vars ts.length) = some s := by
        unfold constructed
        simp only [id] at hfind
        simp [hfind, hf, patternPlaces, hdisc, hs]
      simp only [elabConds, hs, hku, hcon, hu]
    · intro sel b
      simp only [unmarshalVariant]
      by_cases he : sel = s
      · simp only [he, if_true, bind_eq, hk [] [] b]
        rcases hx : unmarshalFields fs [] b with ⟨_ | _ | _, b'⟩
        · rename_i vs'
          simp only [pure_eq, construct, FieldList.vars', List.range_eq_range', List.map_map]
          have := construct_bindVars ts 0 vs' [] (tuplesMean_length ht [] b b' vs' hx)
          rw [show (local! (bindVars 0 ts vs' []) ∘ Var.f) =
            fun x => local! (bindVars 0 ts vs' []) (.f x) from rfl, this]
        · rfl
        · rfl
      · simp only [he, if_false]
        exact hr sel b

theorem enumUnmarshalBody_errors : ∀ (vs : List VariantE) (errors : List Msg) (conds : List Cond),
    errors ≠ [] → enumUnmarshalBody errors vs ≠ .ok conds
  | [], errors, conds, h => by
    cases errors with
    | nil => exact absurd rfl h
    | cons e es => simp [enumUnmarshalBody]
  | v :: vs, errors, conds, h => by
    simp only [enumUnmarshalBody]
    cases fieldUnmarshal v.fields with
    | panic => simp
    | err e =>
      exact enumUnmarshalBody_errors vs _ conds (by simp [h])
    | ok body =>
      cases v.disc with
      | none => simp
      | some sel =>
        dsimp only
        cases hr : enumUnmarshalBody errors vs with
        | ok cs => exact absurd hr (enumUnmarshalBody_errors vs errors cs h)
        | err e => simp [Res.map]
        | panic => simp [Res.map]

theorem enumUnmarshalBody_cons_ok {v : VariantE} {vs : List VariantE} {ts : List TypeE}
    {conds : List Cond} (hf : v.fields = .unnamed ts)
    (h : enumUnmarshalBody [] (v :: vs) = .ok conds) :
    ∃ disc cs, v.disc = some disc ∧ enumUnmarshalBody [] vs = .ok cs ∧
      conds = ⟨disc, List.zipWith .letVar (List.range' 0 ts.length) ts, v.ident, .vars ts.length⟩ :: cs := by
  simp only [enumUnmarshalBody, hf, fieldUnmarshal] at h
  cases hdisc : v.disc with
  | none => simp [hdisc] at h
  | some disc =>
    simp only [hdisc] at h
    cases hr : enumUnmarshalBody [] vs with
    | ok cs =>
      simp only [hr, Res.map, Res.ok.injEq, fieldList, List.range_eq_range'] at h
      exact ⟨disc, cs, rfl, rfl, h.symm⟩
    | err e => simp [hr, Res.map] at h
    | panic => simp [hr, Res.map] at h

theorem conds_sound {Γ : Ctx} {all : List VariantE} : ∀ (vs : List VariantE) (conds : List Cond)
    (u : Nat → UM Val), (∀ v ∈ vs, ∃ ts, v.fields = .unnamed ts) →
    enumUnmarshalBody [] vs = .ok conds → elabConds Γ all conds = some u →
    ∃ V, VariantsMean Γ vs V
  | [], _, _, _, _, _ => ⟨.nil, .nil⟩
  | v :: vs, conds, u, hf, h, he => by
    obtain ⟨ts, hts⟩ := hf v (by simp)
    obtain ⟨disc, cs, hdisc, hcs, rfl⟩ := enumUnmarshalBody_cons_ok hts h
    simp only [elabConds] at he
    split at he
    · rename_i s k d rest hs hk hd hrest
      obtain ⟨V, hV⟩ := conds_sound vs cs rest (fun x hx => hf x (List.mem_cons_of_mem _ hx)) hcs hrest
      obtain ⟨F, hF⟩ := tuple_sound ts 0 [] k hk
      exact ⟨.cons s F V, .cons hts hdisc hs hF hV⟩
    · cases he

theorem enumUnmarshalBody_accepts : ∀ (vs : List VariantE),
    (∀ v ∈ vs, ∃ ts, v.fields = .unnamed ts) →
    ((∃ conds, enumUnmarshalBody [] vs = .ok conds) ↔ ∀ v ∈ vs, v.disc.isSome)
  | [], _ => by simp [enumUnmarshalBody]
  | v :: vs, hf => by
    have ih := enumUnmarshalBody_accepts vs (fun x hx => hf x (List.mem_cons_of_mem _ hx))
    obtain ⟨ts, hts⟩ := hf v (by simp)
    constructor
    · rintro ⟨conds, h⟩
      obtain ⟨disc, cs, hdisc, hcs, rfl⟩ := enumUnmarshalBody_cons_ok hts h
      intro x hx
      rcases List.mem_cons.mp hx with rfl | hx
      · rw [hdisc]; rfl
      · exact ih.mp ⟨cs, hcs⟩ x hx
    · intro h
      obtain ⟨cs, hcs⟩ := ih.mpr (fun x hx => h x (List.mem_cons_of_mem _ hx))
      have := h v (by simp)
      cases hdisc : v.disc with
      | none => rw [hdisc] at this; cases this
      | some d =>
        exact ⟨_, by simp [enumUnmarshalBody, hts, fieldUnmarshal, hdisc, hcs, Res.map]; rfl⟩

/-! ### Flags -/

theorem findFlag_leading {flag : Ident} {lead : List Tok} (h : Leading flag lead) :
    ∀ p : Path, p.isIdent flag = true → findFlag flag (lead ++ [.path p]) = some (true, []) := by
  induction h with
  | nil => intro p hp; simp [findFlag, hp]
  | @path q r hq _ ih =>
    intro p hp
    cases r with
    | nil => simp [findFlag, hq, hp]
    | cons t ts =>
      have := ih p hp
      cases t <;> simp_all [findFlag]
  | @comma q r hq _ ih =>
    intro p hp
    simp [findFlag, hq, ih p hp]

theorem findFlag_true (flag : Ident) (toks : List Tok) (h : findFlag flag toks = some (true, [])) :
    ∃ lead p, toks = lead ++ [.path p] ∧ Leading flag lead ∧ p.isIdent flag = true := by
  fun_induction findFlag flag toks with
  | case1 => simp at h
  | case2 p r hp => simp at h
  | case3 p r hp ih =>
    obtain ⟨lead, q, rfl, hl, hq⟩ := ih h
    exact ⟨.path p :: .comma :: lead, q, rfl, .comma (by simpa using hp) hl, hq⟩
  | case4 p r _ hp =>
    simp at h
    subst h
    exact ⟨[], p, rfl, .nil, hp⟩
  | case5 p r _ hp ih =>
    obtain ⟨lead, q, rfl, hl, hq⟩ := ih h
    exact ⟨.path p :: lead, q, rfl, .path (by simpa using hp) hl, hq⟩
  | case6 => cases h

theorem hasFlag_iff (flag : Ident) (a : Attr) :
    hasMarshalableAttr flag a = true ↔ a.Flags flag := by
  unfold hasMarshalableAttr Attr.Flags
  rw [Bool.and_eq_true]
  constructor
  · rintro ⟨h1, h2⟩
    refine ⟨h1, ?_⟩
    cases ha : a.args with
    | none => simp [ha] at h2
    | some toks =>
      simp only [ha] at h2
      split at h2
      · rename_i found hf
        subst h2
        obtain ⟨lead, p, e, hl, hp⟩ := findFlag_true flag toks hf
        exact ⟨lead, p, by rw [e], hl, hp⟩
      · cases h2
  · rintro ⟨h1, lead, p, ha, hl, hp⟩
    refine ⟨h1, ?_⟩
    simp only [ha, findFlag_leading hl p hp]

theorem anyFlag_iff (flag : Ident) (attrs : List Attr) :
    attrs.any (hasMarshalableAttr flag) = true ↔ ∃ a ∈ attrs, a.Flags flag := by
  rw [List.any_eq_true]
  simp only [hasFlag_iff]

theorem anyFlag_plain (flag : Ident) (attrs : List Attr)
    (h : ∀ a ∈ attrs, a.path.isIdent "marshalable" = false) :
    attrs.any (hasMarshalableAttr flag) = false := by
  rw [← Bool.not_eq_true, anyFlag_iff]
  rintro ⟨a, ha, hf⟩
  have := hf.1
  rw [h a ha] at this
  cases this

theorem tpm2bCommon_ok (fs : FieldsE) (field : Ident) (size : Expr) :
    tpm2bCommon fs = .ok (field, size) ↔ SizedShape fs field size := by
  unfold SizedShape
  constructor
  · intro h
    unfold tpm2bCommon at h
    split at h
    · rename_i first second
      split at h
      · rename_i p hp
        split at h
        · cases h
        · rename_i hc
          simp only [Bool.or_eq_true, bne_iff_ne, Bool.not_eq_true', not_or, Decidable.not_not,
            Bool.not_eq_false, ne_eq] at hc
          split at h
          · rename_i e len he
            split at h
            · rename_i hu
              simp only [Res.ok.injEq, Prod.mk.injEq] at h
              refine ⟨first, second, rfl, hc.1, ?_, h.1, ?_⟩
              · rw [hp, isIdent_iff.mp hc.2]
              · rw [he, isIdent_iff.mp hu, h.2]
            · cases h
          · cases h
      · cases h
    · cases h
  · rintro ⟨s, b, rfl, hs, hst, hb, hbt⟩
    subst hb
    simp [tpm2bCommon, hst, hs, hbt, Path.isIdent, getIdent_iff.mpr rfl]

theorem attr_path {attrs : List Attr} {key : Ident} {p : Path}
    (h : getMarshalAttribute attrs key = .ok (some p)) :
    ∃ a ∈ attrs, ∃ k t, a.args = some [.path k, .eq, t] ∧
      (t = .path p ∨ t = .expr (.path false false p)) := by
  unfold getMarshalAttribute at h
  cases hc : collectAttr none attrs with
  | panic => rw [hc] at h; simp [Res.bind] at h
  | err e => rw [hc] at h; simp [Res.bind] at h
  | ok r =>
    rw [hc] at h
    cases r with
    | none => simp [Res.bind] at h
    | some kv =>
      obtain ⟨k, v⟩ := kv
      obtain ⟨pre, a, post, he, ha, hk, hb⟩ := (collectAttr_found _ _).mp hc
      simp only [Res.bind] at h
      split at h
      · cases h
      · cases v with
        | path at' q p' =>
          cases at' <;> cases q <;> simp at h
          subst h
          refine ⟨a, by rw [he]; simp, ?_⟩
          unfold parseNameValue at hk
          split at hk
          · rename_i k' v' hargs
            simp only [Option.some.injEq, Prod.mk.injEq, Expr.path.injEq] at hk
            obtain ⟨rfl, _, _, rfl⟩ := hk
            exact ⟨_, _, hargs, .inl rfl⟩
          · rename_i k' v' hargs
            simp only [Option.some.injEq, Prod.mk.injEq] at hk
            obtain ⟨rfl, rfl⟩ := hk
            exact ⟨_, _, hargs, .inr rfl⟩
          · cases hk
        | _ => simp at h

theorem attr_no_panic (attrs : List Attr) (key : Ident) : getMarshalAttribute attrs key ≠ .panic := by
  have hc : ∀ (attrs : List Attr) (found : Option (Path × Expr)), collectAttr found attrs ≠ .panic := by
    intro attrs
    induction attrs with
    | nil => intro f; simp [collectAttr]
    | cons a as ih =>
      intro f
      simp only [collectAttr]
      split
      · split
        · simp
        · split
          · simp
          · exact ih _
      · exact ih _
  unfold getMarshalAttribute
  cases h : collectAttr none attrs with
  | panic => exact absurd h (hc _ _)
  | err e => simp [Res.bind]
  | ok r =>
    cases r with
    | none => simp [Res.bind]
    | some kv =>
      obtain ⟨k, v⟩ := kv
      simp only [Res.bind]
      cases v <;> simp <;> (repeat' split) <;> simp

theorem eachField_no_panic {α : Type} {gen : BasicTypes → NField → D (α × BasicTypes)} :
    ∀ (fs : List NField) (basic : BasicTypes),
    (∀ f ∈ fs, ∀ basic, gen basic f ≠ .panic) → eachField gen basic fs ≠ .panic
  | [], _, _ => by simp [eachField]
  | f :: fs, basic, h => by
    have hr := fun b => eachField_no_panic fs b (fun g hg => h g (List.mem_cons_of_mem _ hg))
    simp only [eachField]
    cases hg : gen basic f with
    | panic => exact absurd hg (h f (by simp) basic)
    | ok r =>
      obtain ⟨x, b⟩ := r
      dsimp only
      cases hx : eachField gen b fs with
      | panic => exact absurd hx (hr b)
      | ok y => simp [Res.map]
      | err e => simp [Res.map]
    | err e =>
      dsimp only
      cases hx : eachField gen basic fs with
      | panic => exact absurd hx (hr basic)
      | ok y => simp
      | err e => simp

theorem named_no_panic {f : NField} (hf : f.LengthIsIdent) (basic : BasicTypes) :
    namedFieldMarshal basic f ≠ .panic ∧ namedFieldUnmarshal basic f ≠ .panic := by
  have hp : ∀ p, getMarshalAttribute f.attrs "length" = .ok (some p) → getPrimitive p basic ≠ .panic := by
    intro p h
    obtain ⟨a, ha, k, t, hargs, ht⟩ := attr_path h
    have := hf a ha k t hargs p ht
    unfold getPrimitive
    cases hi : p.getIdent with
    | none => rw [hi] at this; cases this
    | some i =>
      dsimp only
      split <;> simp
  unfold namedFieldMarshal namedFieldUnmarshal
  cases ha : getMarshalAttribute f.attrs "length" with
  | panic => exact absurd ha (attr_no_panic _ _)
  | err e => simp [Res.bind]
  | ok r =>
    cases r with
    | none =>
      simp only [Res.bind]
      cases f.ty <;> simp
    | some p =>
      simp only [Res.bind]
      have := hp p ha
      cases hq : getPrimitive p basic with
      | panic => exact absurd hq this
      | ok q => cases f.ty <;> simp [getArrayDefault]
      | err e => cases f.ty <;> simp [getArrayDefault]

end Verif.Derive
