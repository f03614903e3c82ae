import Verif.Derive.Lemmas

/-
Which errors a rejected declaration is reported with: what is wrong with a
declaration, said apart from the macros, and lemmas relating the macros to it
(marshalable-derive/src/lib.rs:26-60, 124-203, 294-351, 404-452, 480-593,
597-684).
-/

namespace Verif.Derive
open Verif

/-! ### What is wrong with a declaration -/

/-- The `#[marshalable(..)]` attributes of a field, in order. -/
def NField.marks (f : NField) : List Attr := f.attrs.filter (·.path.isIdent "marshalable")

/-- The attribute is `#[marshalable(k = e)]`. -/
def Attr.Says (a : Attr) (k : Path) (e : Expr) : Prop :=
  a.args = some [.path k, .eq, .expr e] ∨
    ∃ p, a.args = some [.path k, .eq, .path p] ∧ e = .path false false p

/-- The expression is a path. -/
def Expr.IsPath : Expr → Prop
  | .path _ _ _ => True
  | _ => False

/-- What is wrong with a named field's attributes, `before` being the preceding
fields: marshalable-derive/src/lib.rs:524-564, 578-593. -/
inductive NField.Fault (before : List NField) (f : NField) : Msg → Prop where
  /-- the first attribute is not of the form `key = value` -/
  | illFormed {a rest} : f.marks = a :: rest → (∀ k e, ¬ a.Says k e) → Fault before f .syntax
  /-- there is another one -/
  | onlyOne {a b rest k e} : f.marks = a :: b :: rest → a.Says k e → Fault before f .onlyOne
  /-- the key is not `length` -/
  | unknownAttr {a k e} : f.marks = [a] → a.Says k e → k ≠ .ident "length" →
      Fault before f .unknownAttr
  /-- the value is not a path -/
  | notIdent {a e} : f.marks = [a] → a.Says (.ident "length") e → ¬ e.IsPath →
      Fault before f .notIdent
  /-- the value is a path with attributes -/
  | attrs {a q p} : f.marks = [a] → a.Says (.ident "length") (.path true q p) →
      Fault before f .attrsNotAllowed
  /-- the value is a path with an explicit self type -/
  | qself {a p} : f.marks = [a] → a.Says (.ident "length") (.path false true p) →
      Fault before f .selfNotAllowed
  /-- the value names no usable field before this one -/
  | before {a l} : f.marks = [a] → a.Says (.ident "length") (.path false false (.ident l)) →
      (∀ g ∈ before, g.ident = l → g.Bare → g.ty.IsArray) → Fault before f (.lengthBefore l)

/-- The field's length is a path of several segments or with arguments, for
which the macro panics: marshalable-derive/src/lib.rs:412-413. -/
def NField.Breaks (f : NField) : Prop :=
  ∃ a p, f.marks = [a] ∧ a.Says (.ident "length") (.path false false p) ∧ ∀ i, p ≠ .ident i

/-- A length attribute on something that is not an array:
marshalable-derive/src/lib.rs:566-576. -/
inductive NField.Uncountable (f : NField) : Msg → Prop where
  | notArray : ¬ f.Bare → ¬ f.ty.IsArray → Uncountable f .notArray

/-- Variants that are not tuples: marshalable-derive/src/lib.rs:495-501. -/
inductive VariantE.Untupled (v : VariantE) : Msg → Prop where
  | namedInEnum : (∀ ts, v.fields ≠ .unnamed ts) → Untupled v .namedInEnum

/-- `ms` are the faults of the elements of `l` in order, one for every faulty
element; `before` are the elements before `l`. -/
inductive Each {α : Type} (P : List α → α → Msg → Prop) : List α → List α → List Msg → Prop where
  | nil {before} : Each P before [] []
  | faulty {before x xs m ms} : P before x m → Each P (before ++ [x]) xs ms →
      Each P before (x :: xs) (m :: ms)
  | fine {before x xs ms} : (∀ m, ¬ P before x m) → Each P (before ++ [x]) xs ms →
      Each P before (x :: xs) ms

/-- Why fields are not those of a sized buffer:
marshalable-derive/src/lib.rs:294-351. -/
inductive SizedFault (fs : FieldsE) : Msg → Prop where
  /-- not two named fields -/
  | general : (∀ a b, fs ≠ .named [a, b]) → SizedFault fs .general
  /-- the first is not `size: u16` -/
  | first {a b} : fs = .named [a, b] → ¬ (a.ident = "size" ∧ a.ty = .path (.ident "u16")) →
      SizedFault fs .first
  /-- the second is not an array of `u8` -/
  | second {a b} : fs = .named [a, b] → a.ident = "size" → a.ty = .path (.ident "u16") →
      (∀ n, b.ty ≠ .array (.path (.ident "u8")) n) → SizedFault fs .second

/-- The expression is a call `size_of::<T>(..)` with `T` the path `p`. -/
def Expr.SizeOf (e : Expr) (p : Path) : Prop :=
  ∃ a q more segs args, e = .call (.path a q (.mk (.mk "size_of" (some (.type (.path p) :: more)) :: segs))) args

/-- The errors of `#[derive(Marshalable)]`. -/
inductive Rejected (input : Input) : List Msg → Prop where
  /-- faulty attributes; what is wrong otherwise is not reported beside them -/
  | attrs {fs m ms} : input.data = .struct (.named fs) → (∀ f ∈ fs, ¬ f.Breaks) →
      Each NField.Fault [] fs (m :: ms) → Rejected input (m :: ms)
  /-- otherwise length attributes on other things than arrays -/
  | arrays {fs m ms} : input.data = .struct (.named fs) → (∀ f ∈ fs, ¬ f.Breaks) →
      Each NField.Fault [] fs [] → Each (fun _ => NField.Uncountable) [] fs (m :: ms) →
      Rejected input (m :: ms)
  /-- otherwise a structure that is to be a sized buffer and does not look like one -/
  | sized {fs m} : input.data = .struct fs →
      (∀ l, fs = .named l → (∀ f ∈ l, ¬ f.Breaks) ∧ Each NField.Fault [] l [] ∧
        Each (fun _ => NField.Uncountable) [] l []) →
      (∃ a ∈ input.attrs, a.Flags "tpm2b_simple") → SizedFault fs m → Rejected input [m]
  /-- variants of an enum that are not tuples -/
  | variants {vs m ms} : input.data = .enum vs →
      Each (fun _ => VariantE.Untupled) [] vs (m :: ms) → Rejected input (m :: ms)
  /-- otherwise a variant without a discriminant: reported once -/
  | selectors {vs v} : input.data = .enum vs → Each (fun _ => VariantE.Untupled) [] vs [] →
      v ∈ vs → v.disc = none → Rejected input [.noSelector]
  /-- unions -/
  | union : input.data = .union → Rejected input [.union]

/-- The errors of `#[derive(Tpm2bStruct)]`. -/
inductive RejectedSized (input : Input) : Msg → Prop where
  | notStruct : (∀ fs, input.data ≠ .struct fs) → RejectedSized input .notStruct
  | fields {fs m} : input.data = .struct fs → SizedFault fs m → RejectedSized input m
  | sizeOf {fs field size} : input.data = .struct fs → SizedShape fs field size →
      (∀ p, ¬ size.SizeOf p) → RejectedSized input .sizeOf

/-! ### Attributes -/

theorem parse_iff (a : Attr) (k : Path) (e : Expr) :
    parseNameValue a.args = some (k, e) ↔ a.Says k e := by
  unfold Attr.Says
  constructor
  · intro h
    unfold parseNameValue at h
    split at h
    · rename_i k' v' hargs
      cases h
      exact .inr ⟨_, hargs, rfl⟩
    · rename_i k' v' hargs
      cases h
      exact .inl hargs
    · cases h
  · rintro (h | ⟨p, h, rfl⟩) <;> rw [h] <;> rfl

theorem collectAttr_filter (found : Option (Path × Expr)) (attrs : List Attr) :
    collectAttr found attrs =
      collectAttr found (attrs.filter (·.path.isIdent "marshalable")) := by
  induction attrs generalizing found with
  | nil => rfl
  | cons a as ih =>
    cases h : a.path.isIdent "marshalable"
    · rw [List.filter_cons_of_neg (by simp [h])]
      simp only [collectAttr, h, Bool.false_eq_true, if_false]
      exact ih found
    · rw [List.filter_cons_of_pos (by simp [h])]
      simp only [collectAttr, h, if_true]
      split
      · rfl
      · split
        · rfl
        · exact ih _

theorem marks_bare (f : NField) : f.marks = [] ↔ f.Bare := by
  unfold NField.marks NField.Bare
  rw [List.filter_eq_nil_iff]
  simp

theorem marks_mem {f : NField} {a : Attr} (h : a ∈ f.marks) :
    a.path.isIdent "marshalable" = true := (List.mem_filter.mp h).2

/-- What is found in the attributes of a field. -/
theorem collectAttr_marks (f : NField) : collectAttr none f.attrs =
    match f.marks with
    | [] => .ok none
    | a :: r =>
      match parseNameValue a.args, r with
      | none, _ => .err [.syntax]
      | some kv, [] => .ok (some kv)
      | some _, _ :: _ => .err [.onlyOne] := by
  rw [collectAttr_filter]
  show collectAttr none f.marks = _
  cases hm : f.marks with
  | nil => rfl
  | cons a r =>
    have ha := marks_mem (f := f) (a := a) (by rw [hm]; simp)
    simp only [collectAttr, ha, if_true, Option.isSome_none, Bool.false_eq_true, if_false]
    cases parseNameValue a.args with
    | none => rfl
    | some kv =>
      cases r with
      | nil => rfl
      | cons b r =>
        have hb := marks_mem (f := f) (a := b) (by rw [hm]; simp)
        simp [collectAttr, hb]

/-! ### One field -/

/-- The marshalling half of a field, by what is wrong with it. -/
inductive FieldCase (before : List NField) (basic : BasicTypes) (f : NField) : Prop where
  | ok (s : MStmt) (basic' : BasicTypes) : namedFieldMarshal basic f = .ok (s, basic') →
      BasicRel (before ++ [f]) basic' → (∀ m, ¬ f.Fault before m) → ¬ f.Breaks → FieldCase before basic f
  | err (m : Msg) : namedFieldMarshal basic f = .err [m] → f.Fault before m → ¬ f.Breaks →
      ¬ f.Bare → FieldCase before basic f
  | panic : namedFieldMarshal basic f = .panic → f.Breaks → FieldCase before basic f

theorem says_unique {a : Attr} {k k' : Path} {e e' : Expr} (h : a.Says k e) (h' : a.Says k' e') :
    k = k' ∧ e = e' := by
  rw [← parse_iff] at h h'
  rw [h] at h'
  cases h'
  exact ⟨rfl, rfl⟩

/-- The attribute of a single mark. -/
theorem attribute_single {f : NField} {a : Attr} {k : Path} {e : Expr} (hm : f.marks = [a])
    (hs : a.Says k e) : getMarshalAttribute f.attrs "length" =
      if k.isIdent "length" then
        match e with
        | .path attrs qself p =>
          if attrs then .err [.attrsNotAllowed]
          else if qself then .err [.selfNotAllowed]
          else .ok (some p)
        | _ => .err [.notIdent]
      else .err [.unknownAttr] := by
  unfold getMarshalAttribute
  rw [collectAttr_marks, hm]
  simp only [(parse_iff a k e).mpr hs, Res.bind]
  cases k.isIdent "length" <;> cases e <;> simp

theorem isIdent_ident (i : Ident) : (Path.ident i).isIdent i = true := isIdent_iff.mpr rfl

/-- A faulty field is reported with its fault. -/
theorem marshal_fault {before : List NField} {basic : BasicTypes} {f : NField} {m : Msg}
    (hb : BasicRel before basic) (h : f.Fault before m) :
    namedFieldMarshal basic f = .err [m] ∧ ¬ f.Bare := by
  have nb : ∀ {a r}, f.marks = a :: r → ¬ f.Bare := by
    intro a r hm hbare
    rw [(marks_bare f).mpr hbare] at hm
    cases hm
  unfold namedFieldMarshal
  cases h with
  | @illFormed a r hm hs =>
    refine ⟨?_, nb hm⟩
    unfold getMarshalAttribute
    rw [collectAttr_marks, hm]
    have : parseNameValue a.args = none := by
      cases hp : parseNameValue a.args with
      | none => rfl
      | some kv => exact absurd ((parse_iff a kv.1 kv.2).mp hp) (hs _ _)
    simp [this, Res.bind]
  | @onlyOne a b r k e hm hs =>
    refine ⟨?_, nb hm⟩
    unfold getMarshalAttribute
    rw [collectAttr_marks, hm]
    simp [(parse_iff a k e).mpr hs, Res.bind]
  | @unknownAttr a k e hm hs hk =>
    refine ⟨?_, nb hm⟩
    have hk' : k.isIdent "length" = false := by
      cases hc : k.isIdent "length" with
      | false => rfl
      | true => exact absurd (isIdent_iff.mp hc) hk
    rw [attribute_single hm hs]
    simp [hk', Res.bind]
  | @notIdent a e hm hs he =>
    refine ⟨?_, nb hm⟩
    rw [attribute_single hm hs, isIdent_ident]
    cases e <;> first | rfl | exact absurd trivial he
  | @attrs a q p hm hs =>
    refine ⟨?_, nb hm⟩
    rw [attribute_single hm hs, isIdent_ident]
    rfl
  | @qself a p hm hs =>
    refine ⟨?_, nb hm⟩
    rw [attribute_single hm hs, isIdent_ident]
    rfl
  | @before a l hm hs hl =>
    refine ⟨?_, nb hm⟩
    rw [attribute_single hm hs, isIdent_ident]
    have : (basic.lookup l).isSome = false := by
      cases hc : (basic.lookup l).isSome with
      | false => rfl
      | true =>
        obtain ⟨g, hg, hi, hbare, ha⟩ := (hb l).mp hc
        exact absurd (hl g hg hi hbare) ha
    have hn : (basic.lookup l).isNone = true := by
      cases hc : basic.lookup l with
      | none => rfl
      | some t => rw [hc] at this; cases this
    show (getPrimitive (.ident l) basic).bind _ = _
    have hg : (Path.ident l).getIdent = some l := rfl
    simp [getPrimitive, hg, hn, Res.bind]

/-- A field whose length is no identifier stops the macro. -/
theorem marshal_breaks {basic : BasicTypes} {f : NField} (h : f.Breaks) :
    namedFieldMarshal basic f = .panic := by
  obtain ⟨a, p, hm, hs, hp⟩ := h
  unfold namedFieldMarshal
  rw [attribute_single hm hs, isIdent_ident]
  show (getPrimitive p basic).bind _ = _
  have : p.getIdent = none := by
    cases hc : p.getIdent with
    | none => rfl
    | some i => exact absurd (getIdent_iff.mp hc) (hp i)
  simp [getPrimitive, this, Res.bind]

theorem fieldCase {before : List NField} {basic : BasicTypes} (f : NField)
    (hb : BasicRel before basic) : FieldCase before basic f := by
  have fault : ∀ m, f.Fault before m → FieldCase before basic f := by
    intro m hf
    obtain ⟨he, hbare⟩ := marshal_fault hb hf
    refine .err m he hf ?_ hbare
    intro hbr
    rw [marshal_breaks hbr] at he
    cases he
  have fine : ∀ s basic', namedFieldMarshal basic f = .ok (s, basic') →
      BasicRel (before ++ [f]) basic' → FieldCase before basic f := by
    intro s basic' he hr
    refine .ok s basic' he hr ?_ ?_
    · intro m hf
      rw [(marshal_fault hb hf).1] at he
      cases he
    · intro hbr
      rw [marshal_breaks hbr] at he
      cases he
  cases hm : f.marks with
  | nil =>
    have hbare := (marks_bare f).mp hm
    have ha := (attr_none f).mpr hbare
    cases hty : f.ty with
    | array elem len =>
      refine fine (.maxLoop len f.ident) basic ?_ (basicRel_skip hb (fun _ => by rw [hty]; trivial))
      unfold namedFieldMarshal
      rw [ha, hty]
      rfl
    | path p =>
      refine fine (.field f.ident) ((f.ident, f.ty) :: basic) ?_
        (basicRel_add hb hbare (by rw [hty]; exact id) f.ty)
      unfold namedFieldMarshal
      rw [ha, hty]
      rfl
    | other =>
      refine fine (.field f.ident) ((f.ident, f.ty) :: basic) ?_
        (basicRel_add hb hbare (by rw [hty]; exact id) f.ty)
      unfold namedFieldMarshal
      rw [ha, hty]
      rfl
  | cons a r =>
    have hbare : ¬ f.Bare := by
      intro hbare
      rw [(marks_bare f).mpr hbare] at hm
      cases hm
    cases hp : parseNameValue a.args with
    | none =>
      refine fault _ (.illFormed hm ?_)
      intro k e hs
      rw [(parse_iff a k e).mpr hs] at hp
      cases hp
    | some kv =>
      obtain ⟨k, e⟩ := kv
      have hs := (parse_iff a k e).mp hp
      cases r with
      | cons b r => exact fault _ (.onlyOne hm hs)
      | nil =>
        by_cases hk : k = .ident "length"
        · subst hk
          by_cases he : e.IsPath
          · cases e with
            | path at' q p =>
              cases at' with
              | true => exact fault _ (.attrs hm hs)
              | false =>
                cases q with
                | true => exact fault _ (.qself hm hs)
                | false =>
                  cases hi : p.getIdent with
                  | none =>
                    have hbr : f.Breaks := ⟨a, p, hm, hs, by
                      rintro i rfl
                      cases hi⟩
                    exact .panic (marshal_breaks hbr) hbr
                  | some i =>
                    obtain rfl := getIdent_iff.mp hi
                    cases hl : basic.lookup i with
                    | none =>
                      refine fault _ (.before hm hs ?_)
                      intro g hg hgi hgb
                      apply Classical.byContradiction
                      intro hga
                      have := (hb i).mpr ⟨g, hg, hgi, hgb, hga⟩
                      rw [hl] at this
                      cases this
                    | some t =>
                      refine fine (.lenLoop (.ident i) f.ident) basic ?_
                        (basicRel_skip hb (fun h => absurd h hbare))
                      unfold namedFieldMarshal
                      rw [attribute_single hm hs, isIdent_ident]
                      show (getPrimitive (.ident i) basic).bind _ = _
                      have hg : (Path.ident i).getIdent = some i := rfl
                      simp [getPrimitive, hg, hl, Res.bind]
            | _ => exact absurd he id
          · exact fault _ (.notIdent hm hs he)
        · exact fault _ (.unknownAttr hm hs hk)

theorem fault_unique {before : List NField} {basic : BasicTypes} {f : NField} {m m' : Msg}
    (hb : BasicRel before basic) (h : f.Fault before m) (h' : f.Fault before m') : m = m' := by
  have := (marshal_fault hb h).1
  rw [(marshal_fault hb h').1] at this
  cases this
  rfl

/-! ### All fields -/

theorem eachMarshal (fs : List NField) : ∀ (before : List NField) (basic : BasicTypes),
    BasicRel before basic →
    (eachField namedFieldMarshal basic fs = .panic ↔ ∃ f ∈ fs, f.Breaks) ∧
    (∀ es, eachField namedFieldMarshal basic fs = .err es ↔
      es ≠ [] ∧ (∀ f ∈ fs, ¬ f.Breaks) ∧ Each NField.Fault before fs es) ∧
    ((∃ l, eachField namedFieldMarshal basic fs = .ok l) ↔
      (∀ f ∈ fs, ¬ f.Breaks) ∧ Each NField.Fault before fs []) := by
  induction fs with
  | nil =>
    intro before basic _
    refine ⟨by simp [eachField], ?_, ?_⟩
    · intro es
      simp only [eachField, reduceCtorEq, false_iff, not_and]
      intro hn _ h
      cases h
      exact hn rfl
    · exact ⟨fun _ => ⟨by simp, .nil⟩, fun _ => ⟨[], rfl⟩⟩
  | cons f fs ih =>
    intro before basic hb
    cases fieldCase f hb with
    | panic he hbr =>
      have : eachField namedFieldMarshal basic (f :: fs) = .panic := by simp [eachField, he]
      rw [this]
      refine ⟨⟨fun _ => ⟨f, by simp, hbr⟩, fun _ => rfl⟩, ?_, ?_⟩
      · intro es
        refine ⟨fun h => (by cases h), ?_⟩
        rintro ⟨_, h, _⟩
        exact absurd hbr (h f (by simp))
      · refine ⟨fun ⟨l, h⟩ => (by cases h), ?_⟩
        rintro ⟨h, _⟩
        exact absurd hbr (h f (by simp))
    | ok s basic' he hr hf hbr =>
      obtain ⟨h1, h2, h3⟩ := ih (before ++ [f]) basic' hr
      have heq : eachField namedFieldMarshal basic (f :: fs) =
          (eachField namedFieldMarshal basic' fs).map (s :: ·) := by simp [eachField, he]
      have hcons : (∀ g ∈ f :: fs, ¬ g.Breaks) ↔ ∀ g ∈ fs, ¬ g.Breaks := by
        simp [hbr]
      have heach : ∀ es, Each NField.Fault before (f :: fs) es ↔
          Each NField.Fault (before ++ [f]) fs es := by
        intro es
        constructor
        · intro h
          cases h with
          | faulty h _ => exact absurd h (hf _)
          | fine _ h => exact h
        · exact .fine hf
      rw [heq]
      refine ⟨?_, ?_, ?_⟩
      · have : (∃ g ∈ f :: fs, g.Breaks) ↔ ∃ g ∈ fs, g.Breaks := by simp [hbr]
        rw [this, ← h1]
        cases eachField namedFieldMarshal basic' fs <;> simp [Res.map]
      · intro es
        rw [hcons, heach, ← h2 es]
        cases eachField namedFieldMarshal basic' fs <;> simp [Res.map]
      · rw [hcons, heach, ← h3]
        cases eachField namedFieldMarshal basic' fs <;> simp [Res.map]
    | err m he hf hbr hbare =>
      obtain ⟨h1, h2, h3⟩ := ih (before ++ [f]) basic (basicRel_skip hb (fun h => absurd h hbare))
      have heq : eachField namedFieldMarshal basic (f :: fs) =
          match eachField namedFieldMarshal basic fs with
          | .panic => .panic
          | .ok _ => .err [m]
          | .err es => .err ([m] ++ es) := by
        simp only [eachField, he]
        cases eachField namedFieldMarshal basic fs <;> rfl
      have hcons : (∀ g ∈ f :: fs, ¬ g.Breaks) ↔ ∀ g ∈ fs, ¬ g.Breaks := by
        simp [hbr]
      have heach : ∀ es, Each NField.Fault before (f :: fs) es ↔
          ∃ r, es = m :: r ∧ Each NField.Fault (before ++ [f]) fs r := by
        intro es
        constructor
        · intro h
          cases h with
          | faulty h hr =>
            obtain rfl := fault_unique hb h hf
            exact ⟨_, rfl, hr⟩
          | fine h _ => exact absurd hf (h _)
        · rintro ⟨r, rfl, hr⟩
          exact .faulty hf hr
      rw [heq]
      refine ⟨?_, ?_, ?_⟩
      · have : (∃ g ∈ f :: fs, g.Breaks) ↔ ∃ g ∈ fs, g.Breaks := by simp [hbr]
        rw [this, ← h1]
        cases eachField namedFieldMarshal basic fs <;> simp
      · intro es
        rw [hcons, heach]
        cases hrest : eachField namedFieldMarshal basic fs with
        | panic =>
          obtain ⟨g, hg, hgb⟩ := h1.mp hrest
          refine ⟨fun h => (by cases h), ?_⟩
          rintro ⟨_, h, _⟩
          exact absurd hgb (h g hg)
        | ok l =>
          obtain ⟨hn, hr⟩ := h3.mp ⟨l, hrest⟩
          constructor
          · intro h
            cases h
            exact ⟨by simp, hn, [], rfl, hr⟩
          · rintro ⟨_, _, r, rfl, hr'⟩
            cases r with
            | nil => rfl
            | cons x r =>
              have := (h2 (x :: r)).mpr ⟨by simp, hn, hr'⟩
              rw [hrest] at this
              cases this
        | err es' =>
          obtain ⟨hne, hn, hr⟩ := (h2 es').mp hrest
          constructor
          · intro h
            cases h
            exact ⟨by simp, hn, es', rfl, hr⟩
          · rintro ⟨_, _, r, rfl, hr'⟩
            cases r with
            | nil =>
              obtain ⟨l, hl⟩ := h3.mpr ⟨hn, hr'⟩
              rw [hrest] at hl
              cases hl
            | cons x r =>
              have := (h2 (x :: r)).mpr ⟨by simp, hn, hr'⟩
              rw [hrest] at this
              cases this
              rfl
      · rw [hcons, heach]
        constructor
        · rintro ⟨l, h⟩
          cases hrest : eachField namedFieldMarshal basic fs <;> rw [hrest] at h <;> cases h
        · rintro ⟨_, r, h, _⟩
          cases h

/-- The unmarshalling half of a field without fault. -/
theorem unmarshal_fine {before : List NField} {basic : BasicTypes} {f : NField}
    (hb : BasicRel before basic) (hf : ∀ m, ¬ f.Fault before m) (hbr : ¬ f.Breaks) :
    (∃ u basic', namedFieldUnmarshal basic f = .ok (u, basic') ∧ BasicRel (before ++ [f]) basic' ∧
      ∀ m, ¬ f.Uncountable m) ∨
    (namedFieldUnmarshal basic f = .err [.notArray] ∧ f.Uncountable .notArray ∧
      BasicRel (before ++ [f]) basic) := by
  cases hm : f.marks with
  | nil =>
    have hbare := (marks_bare f).mp hm
    have ha := (attr_none f).mpr hbare
    left
    have hu : ∀ m, ¬ f.Uncountable m := by
      rintro _ ⟨h, _⟩
      exact h hbare
    cases hty : f.ty with
    | array elem len =>
      refine ⟨.maxArr len f.ident elem, basic, ?_, basicRel_skip hb (fun _ => by rw [hty]; trivial), hu⟩
      unfold namedFieldUnmarshal
      rw [ha, hty]
      rfl
    | path p =>
      refine ⟨.letField f.ident f.ty, (f.ident, f.ty) :: basic, ?_,
        basicRel_add hb hbare (by rw [hty]; exact id) f.ty, hu⟩
      unfold namedFieldUnmarshal
      rw [ha, hty]
      rfl
    | other =>
      refine ⟨.letField f.ident f.ty, (f.ident, f.ty) :: basic, ?_,
        basicRel_add hb hbare (by rw [hty]; exact id) f.ty, hu⟩
      unfold namedFieldUnmarshal
      rw [ha, hty]
      rfl
  | cons a r =>
    have hbare : ¬ f.Bare := by
      intro hbare
      rw [(marks_bare f).mpr hbare] at hm
      cases hm
    -- no fault: a single length attribute naming an earlier field
    cases fieldCase f hb with
    | panic _ h => exact absurd h hbr
    | err m _ h => exact absurd h (hf m)
    | ok s basic' he hr _ _ =>
      have hskip : BasicRel (before ++ [f]) basic := basicRel_skip hb (fun h => absurd h hbare)
      unfold namedFieldMarshal at he
      cases hattr : getMarshalAttribute f.attrs "length" with
      | panic => rw [hattr] at he; cases he
      | err e => rw [hattr] at he; cases he
      | ok o =>
        cases o with
        | none => exact absurd ((attr_none f).mp hattr) hbare
        | some p =>
          rw [hattr] at he
          replace he : (getPrimitive p basic).bind (fun p => .ok (MStmt.lenLoop p f.ident, basic)) =
            .ok (s, basic') := he
          cases hp : getPrimitive p basic with
          | panic => rw [hp] at he; cases he
          | err e => rw [hp] at he; cases he
          | ok q =>
            cases hty : f.ty with
            | array elem len =>
              left
              refine ⟨.lenArr q len f.ident elem, basic, ?_, hskip, ?_⟩
              · unfold namedFieldUnmarshal
                rw [hattr, hty]
                simp [Res.bind, getArrayDefault, hp]
              · rintro _ ⟨_, h⟩
                exact h (by rw [hty]; trivial)
            | path t =>
              right
              refine ⟨?_, .notArray hbare (by rw [hty]; exact id), hskip⟩
              unfold namedFieldUnmarshal
              rw [hattr, hty]
              rfl
            | other =>
              right
              refine ⟨?_, .notArray hbare (by rw [hty]; exact id), hskip⟩
              unfold namedFieldUnmarshal
              rw [hattr, hty]
              rfl

theorem eachUnmarshal (fs : List NField) : ∀ (before : List NField) (basic : BasicTypes),
    BasicRel before basic → (∀ f ∈ fs, ¬ f.Breaks) → Each NField.Fault before fs [] →
    (∀ es, eachField namedFieldUnmarshal basic fs = .err es ↔
      es ≠ [] ∧ Each (fun _ => NField.Uncountable) before fs es) ∧
    ((∃ l, eachField namedFieldUnmarshal basic fs = .ok l) ↔
      Each (fun _ => NField.Uncountable) before fs []) ∧
    eachField namedFieldUnmarshal basic fs ≠ .panic := by
  induction fs with
  | nil =>
    intro before basic _ _ _
    refine ⟨?_, ⟨fun _ => .nil, fun _ => ⟨[], rfl⟩⟩, by simp [eachField]⟩
    intro es
    simp only [eachField, reduceCtorEq, false_iff, not_and]
    intro hn h
    cases h
    exact hn rfl
  | cons f fs ih =>
    intro before basic hb hn hx
    obtain ⟨hf, hx'⟩ : (∀ m, ¬ f.Fault before m) ∧ Each NField.Fault (before ++ [f]) fs [] := by
      cases hx with
      | fine h h' => exact ⟨h, h'⟩
    have hn' : ∀ g ∈ fs, ¬ g.Breaks := fun g hg => hn g (List.mem_cons_of_mem _ hg)
    rcases unmarshal_fine hb hf (hn f (by simp)) with ⟨u, basic', he, hr, hu⟩ | ⟨he, hu, hr⟩
    · obtain ⟨h2, h3, h4⟩ := ih (before ++ [f]) basic' hr hn' hx'
      have heq : eachField namedFieldUnmarshal basic (f :: fs) =
          (eachField namedFieldUnmarshal basic' fs).map (u :: ·) := by simp [eachField, he]
      have heach : ∀ es, Each (fun _ => NField.Uncountable) before (f :: fs) es ↔
          Each (fun _ => NField.Uncountable) (before ++ [f]) fs es := by
        intro es
        constructor
        · intro h
          cases h with
          | faulty h _ => exact absurd h (hu _)
          | fine _ h => exact h
        · exact .fine hu
      rw [heq]
      refine ⟨?_, ?_, ?_⟩
      · intro es
        rw [heach, ← h2 es]
        cases eachField namedFieldUnmarshal basic' fs <;> simp [Res.map]
      · rw [heach, ← h3]
        cases eachField namedFieldUnmarshal basic' fs <;> simp [Res.map]
      · revert h4
        cases eachField namedFieldUnmarshal basic' fs <;> simp [Res.map]
    · obtain ⟨h2, h3, h4⟩ := ih (before ++ [f]) basic hr hn' hx'
      have heq : eachField namedFieldUnmarshal basic (f :: fs) =
          match eachField namedFieldUnmarshal basic fs with
          | .panic => .panic
          | .ok _ => .err [.notArray]
          | .err es => .err ([.notArray] ++ es) := by
        simp only [eachField, he]
        cases eachField namedFieldUnmarshal basic fs <;> rfl
      have heach : ∀ es, Each (fun _ => NField.Uncountable) before (f :: fs) es ↔
          ∃ r, es = .notArray :: r ∧ Each (fun _ => NField.Uncountable) (before ++ [f]) fs r := by
        intro es
        constructor
        · intro h
          cases h with
          | faulty h hr =>
            cases h
            exact ⟨_, rfl, hr⟩
          | fine h _ => exact absurd hu (h _)
        · rintro ⟨r, rfl, hr⟩
          exact .faulty hu hr
      rw [heq]
      refine ⟨?_, ?_, ?_⟩
      · intro es
        rw [heach]
        cases hrest : eachField namedFieldUnmarshal basic fs with
        | panic => exact absurd hrest h4
        | ok l =>
          have hr := h3.mp ⟨l, hrest⟩
          constructor
          · intro h
            cases h
            exact ⟨by simp, [], rfl, hr⟩
          · rintro ⟨_, r, rfl, hr'⟩
            cases r with
            | nil => rfl
            | cons x r =>
              have := (h2 (x :: r)).mpr ⟨by simp, hr'⟩
              rw [hrest] at this
              cases this
        | err es' =>
          obtain ⟨hne, hr⟩ := (h2 es').mp hrest
          constructor
          · intro h
            cases h
            exact ⟨by simp, es', rfl, hr⟩
          · rintro ⟨_, r, rfl, hr'⟩
            cases r with
            | nil =>
              obtain ⟨l, hl⟩ := h3.mpr hr'
              rw [hrest] at hl
              cases hl
            | cons x r =>
              have := (h2 (x :: r)).mpr ⟨by simp, hr'⟩
              rw [hrest] at this
              cases this
              rfl
      · rw [heach]
        constructor
        · rintro ⟨l, h⟩
          cases hrest : eachField namedFieldUnmarshal basic fs <;> rw [hrest] at h <;> cases h
        · rintro ⟨r, h, _⟩
          cases h
      · cases hrest : eachField namedFieldUnmarshal basic fs with
        | panic => exact absurd hrest h4
        | ok l => simp
        | err e => simp

/-! ### Sized buffers -/

theorem tpm2bCommon_err (fs : FieldsE) (es : List Msg) :
    tpm2bCommon fs = .err es ↔ ∃ m, es = [m] ∧ SizedFault fs m := by
  have fwd : ∀ es, tpm2bCommon fs = .err es → ∃ m, es = [m] ∧ SizedFault fs m := by
    intro es h
    unfold tpm2bCommon at h
    split at h
    · rename_i a b
      split at h
      · rename_i p hp
        split at h
        · rename_i hc
          cases h
          refine ⟨_, rfl, .first rfl ?_⟩
          rintro ⟨hi, ht⟩
          rw [hp] at ht
          cases ht
          simp [hi, isIdent_ident] at hc
        · rename_i hc
          simp only [Bool.or_eq_true, bne_iff_ne, Bool.not_eq_true', not_or, Decidable.not_not,
            Bool.not_eq_false, ne_eq] at hc
          have ht : a.ty = .path (.ident "u16") := by rw [hp, isIdent_iff.mp hc.2]
          split at h
          · rename_i e len he
            split at h
            · cases h
            · rename_i hu
              cases h
              refine ⟨_, rfl, .second rfl hc.1 ht ?_⟩
              intro n hn
              rw [he] at hn
              cases hn
              exact hu (isIdent_ident _)
          · rename_i hne
            cases h
            refine ⟨_, rfl, .second rfl hc.1 ht ?_⟩
            intro n hn
            exact hne _ _ hn
      · rename_i hne
        cases h
        refine ⟨_, rfl, .first rfl ?_⟩
        rintro ⟨_, ht⟩
        exact hne _ ht
    · rename_i hne
      cases h
      exact ⟨_, rfl, .general fun a b hab => hne a b hab⟩
  refine ⟨fwd es, ?_⟩
  rintro ⟨m, rfl, hm⟩
  have uniq : ∀ m', SizedFault fs m' → m' = m := by
    intro m' hm'
    cases hm with
    | general h =>
      cases hm' with
      | general _ => rfl
      | first e _ => exact absurd e (h _ _)
      | second e _ _ _ => exact absurd e (h _ _)
    | first e h =>
      cases hm' with
      | general h' => exact absurd e (h' _ _)
      | first _ _ => rfl
      | second e' hi ht _ => rw [e] at e'; cases e'; exact absurd ⟨hi, ht⟩ h
    | second e hi ht h =>
      cases hm' with
      | general h' => exact absurd e (h' _ _)
      | first e' h' => rw [e] at e'; cases e'; exact absurd ⟨hi, ht⟩ h'
      | second _ _ _ _ => rfl
  cases hc : tpm2bCommon fs with
  | panic =>
    exfalso
    unfold tpm2bCommon at hc
    split at hc
    · split at hc
      · split at hc
        · cases hc
        · split at hc
          · split at hc <;> cases hc
          · cases hc
      · cases hc
    · cases hc
  | ok r =>
    obtain ⟨field, size⟩ := r
    obtain ⟨s, b, rfl, hi, ht, _, hb⟩ := (tpm2bCommon_ok _ _ _).mp hc
    cases hm with
    | general h => exact absurd rfl (h s b)
    | first e h => cases e; exact absurd ⟨hi, ht⟩ h
    | second e _ _ h => cases e; exact absurd hb (h _)
  | err es =>
    obtain ⟨m', rfl, hm'⟩ := fwd es hc
    rw [uniq m' hm']

theorem tpm2bCommon_no_panic (fs : FieldsE) : tpm2bCommon fs ≠ .panic := by
  intro hc
  unfold tpm2bCommon at hc
  split at hc
  · split at hc
    · split at hc
      · cases hc
      · split at hc
        · split at hc <;> cases hc
        · cases hc
    · cases hc
  · cases hc

/-! ### Enums -/

theorem untupled_tuple {v : VariantE} {ts : List TypeE} (h : v.fields = .unnamed ts) (m : Msg) :
    ¬ v.Untupled m := by
  rintro ⟨hu⟩
  exact hu ts h

theorem enumMarshal_cases (vs : List VariantE) : ∀ before : List VariantE,
    (∀ es, enumMarshalBody vs = .err es ↔
      es ≠ [] ∧ Each (fun _ => VariantE.Untupled) before vs es) ∧
    ((∃ l, enumMarshalBody vs = .ok l) ↔ Each (fun _ => VariantE.Untupled) before vs []) ∧
    enumMarshalBody vs ≠ .panic := by
  induction vs with
  | nil =>
    intro before
    refine ⟨?_, ⟨fun _ => .nil, fun _ => ⟨[], rfl⟩⟩, by simp [enumMarshalBody]⟩
    intro es
    simp only [enumMarshalBody, reduceCtorEq, false_iff, not_and]
    intro hn h
    cases h
    exact hn rfl
  | cons v vs ih =>
    intro before
    obtain ⟨h2, h3, h4⟩ := ih (before ++ [v])
    have tuple : ∀ ts, v.fields = .unnamed ts →
        (∀ es, enumMarshalBody (v :: vs) = .err es ↔
          es ≠ [] ∧ Each (fun _ => VariantE.Untupled) before (v :: vs) es) ∧
        ((∃ l, enumMarshalBody (v :: vs) = .ok l) ↔
          Each (fun _ => VariantE.Untupled) before (v :: vs) []) ∧
        enumMarshalBody (v :: vs) ≠ .panic := by
      intro ts hv
      have heq : ∃ arm, enumMarshalBody (v :: vs) = (enumMarshalBody vs).map (arm :: ·) := by
        refine ⟨⟨v.ident, fieldList v.fields, (List.range ts.length).map .var⟩, ?_⟩
        rw [enumMarshalBody, hv]
      obtain ⟨arm, heq⟩ := heq
      have heach : ∀ es, Each (fun _ => VariantE.Untupled) before (v :: vs) es ↔
          Each (fun _ => VariantE.Untupled) (before ++ [v]) vs es := by
        intro es
        constructor
        · intro h
          cases h with
          | faulty h _ => exact absurd h (untupled_tuple hv _)
          | fine _ h => exact h
        · exact .fine (untupled_tuple hv)
      rw [heq]
      refine ⟨?_, ?_, ?_⟩
      · intro es
        rw [heach, ← h2 es]
        cases enumMarshalBody vs <;> simp [Res.map]
      · rw [heach, ← h3]
        cases enumMarshalBody vs <;> simp [Res.map]
      · revert h4
        cases enumMarshalBody vs <;> simp [Res.map]
    have other : (∀ ts, v.fields ≠ .unnamed ts) →
        (∀ es, enumMarshalBody (v :: vs) = .err es ↔
          es ≠ [] ∧ Each (fun _ => VariantE.Untupled) before (v :: vs) es) ∧
        ((∃ l, enumMarshalBody (v :: vs) = .ok l) ↔
          Each (fun _ => VariantE.Untupled) before (v :: vs) []) ∧
        enumMarshalBody (v :: vs) ≠ .panic := by
      intro hv
      have heq : enumMarshalBody (v :: vs) =
          match enumMarshalBody vs with
          | .err es => .err (.namedInEnum :: es)
          | _ => .err [.namedInEnum] := by
        rw [enumMarshalBody]
        cases hf : v.fields with
        | unnamed ts => exact absurd hf (hv ts)
        | named fs => rfl
        | unit => rfl
      have heach : ∀ es, Each (fun _ => VariantE.Untupled) before (v :: vs) es ↔
          ∃ r, es = .namedInEnum :: r ∧ Each (fun _ => VariantE.Untupled) (before ++ [v]) vs r := by
        intro es
        constructor
        · intro h
          cases h with
          | faulty h hr =>
            cases h
            exact ⟨_, rfl, hr⟩
          | fine h _ => exact absurd (.namedInEnum hv) (h _)
        · rintro ⟨r, rfl, hr⟩
          exact .faulty (.namedInEnum hv) hr
      rw [heq]
      refine ⟨?_, ?_, ?_⟩
      · intro es
        rw [heach]
        cases hrest : enumMarshalBody vs with
        | panic => exact absurd hrest h4
        | ok l =>
          have hr := h3.mp ⟨l, hrest⟩
          constructor
          · intro h
            cases h
            exact ⟨by simp, [], rfl, hr⟩
          · rintro ⟨_, r, rfl, hr'⟩
            cases r with
            | nil => rfl
            | cons x r =>
              have := (h2 (x :: r)).mpr ⟨by simp, hr'⟩
              rw [hrest] at this
              cases this
        | err es' =>
          obtain ⟨hne, hr⟩ := (h2 es').mp hrest
          constructor
          · intro h
            cases h
            exact ⟨by simp, es', rfl, hr⟩
          · rintro ⟨_, r, rfl, hr'⟩
            cases r with
            | nil =>
              obtain ⟨l, hl⟩ := h3.mpr hr'
              rw [hrest] at hl
              cases hl
            | cons x r =>
              have := (h2 (x :: r)).mpr ⟨by simp, hr'⟩
              rw [hrest] at this
              cases this
              rfl
      · rw [heach]
        constructor
        · rintro ⟨l, h⟩
          cases hrest : enumMarshalBody vs <;> rw [hrest] at h <;> cases h
        · rintro ⟨r, h, _⟩
          cases h
      · cases hrest : enumMarshalBody vs <;> simp
    cases hf : v.fields with
    | unnamed ts => exact tuple ts hf
    | named fs => exact other (by intro ts; rw [hf]; simp)
    | unit => exact other (by intro ts; rw [hf]; simp)

theorem enumUnmarshal_tuples (vs : List VariantE) : ∀ before : List VariantE,
    Each (fun _ => VariantE.Untupled) before vs [] →
    (∀ es, enumUnmarshalBody [] vs = .err es ↔ es = [.noSelector] ∧ ∃ v ∈ vs, v.disc = none) ∧
    enumUnmarshalBody [] vs ≠ .panic := by
  induction vs with
  | nil => intro before _; exact ⟨by intro es; simp [enumUnmarshalBody], by simp [enumUnmarshalBody]⟩
  | cons v vs ih =>
    intro before h
    cases h with
    | fine hv hrest =>
      obtain ⟨ts, hts⟩ : ∃ ts, v.fields = .unnamed ts := by
        cases hf : v.fields with
        | unnamed ts => exact ⟨ts, rfl⟩
        | named fs => exact absurd (.namedInEnum (by intro ts; rw [hf]; simp)) (hv _)
        | unit => exact absurd (.namedInEnum (by intro ts; rw [hf]; simp)) (hv _)
      obtain ⟨h1, h2⟩ := ih _ hrest
      cases hd : v.disc with
      | none =>
        have heq : enumUnmarshalBody [] (v :: vs) = .err [.noSelector] := by
          rw [enumUnmarshalBody, hts]
          simp only [fieldUnmarshal, hd]
        rw [heq]
        refine ⟨?_, by simp⟩
        intro es
        constructor
        · intro h
          cases h
          exact ⟨rfl, v, by simp, hd⟩
        · rintro ⟨rfl, _⟩
          rfl
      | some sel =>
        have heq : ∃ c, enumUnmarshalBody [] (v :: vs) = (enumUnmarshalBody [] vs).map (c :: ·) := by
          refine ⟨⟨sel, (List.range ts.length).zipWith .letVar ts, v.ident, fieldList v.fields⟩, ?_⟩
          rw [enumUnmarshalBody, hts]
          simp only [fieldUnmarshal, hd]
        obtain ⟨c, heq⟩ := heq
        have : (∃ w ∈ v :: vs, w.disc = none) ↔ ∃ w ∈ vs, w.disc = none := by simp [hd]
        rw [heq, this]
        refine ⟨?_, ?_⟩
        · intro es
          rw [← h1 es]
          cases enumUnmarshalBody [] vs <;> simp [Res.map]
        · revert h2
          cases enumUnmarshalBody [] vs <;> simp [Res.map]

end Verif.Derive
