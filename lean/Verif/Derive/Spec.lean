import Verif.Derive.Sem

/-
What a declaration means, read off the documentation of the macros
(marshalable-derive/src/lib.rs:109-123 and marshalable/src/lib.rs:16-29),
without generated code.
-/

namespace Verif.Derive
open Verif

/-- The field carries no `#[marshalable(..)]` attribute. -/
def NField.Bare (f : NField) : Prop := ∀ a ∈ f.attrs, a.path.isIdent "marshalable" = false

/-- A token (or expression) that is just the identifier `l`. -/
def Tok.Names (t : Tok) (l : Ident) : Prop :=
  t = .path (.ident l) ∨ t = .expr (.path false false (.ident l))

/-- The only `#[marshalable(..)]` attribute of the field is
`#[marshalable(length = l)]`. -/
def NField.Counted (f : NField) (l : Ident) : Prop :=
  ∃ pre a post k t, f.attrs = pre ++ a :: post ∧
    a.path.isIdent "marshalable" = true ∧ a.args = some [.path k, .eq, t] ∧ t.Names l ∧
    k.isIdent "length" = true ∧
    ∀ b ∈ pre ++ post, b.path.isIdent "marshalable" = false

/-- The type is an array. -/
def TypeE.IsArray : TypeE → Prop
  | .array _ _ => True
  | _ => False

/-- The declared codec of named fields, `before` being the preceding ones:
arrays with a length attribute are counted by an earlier field, which must be
an integer without attribute; other arrays are complete; everything else is
marshalled as a whole. -/
inductive FieldsMean (Γ : Ctx) : List NField → List NField → Fields → Prop where
  | nil {before} : FieldsMean Γ before [] .nil
  | plain {before f fs t r} : f.Bare → ¬ f.ty.IsArray → Γ.ty f.ty = some t →
      FieldsMean Γ (before ++ [f]) fs r → FieldsMean Γ before (f :: fs) (.plain t r)
  | array {before f fs elem len t n r} : f.Bare → f.ty = .array elem len → Γ.ty elem = some t →
      Γ.size len = some n →
      FieldsMean Γ (before ++ [f]) fs r → FieldsMean Γ before (f :: fs) (.fixedArr t n r)
  | counted {before f fs elem len t n r l k g i} : f.Counted l → f.ty = .array elem len →
      Γ.ty elem = some t → Γ.size len = some n →
      before[k]? = some g → g.ident = l → g.Bare → ¬ g.ty.IsArray → Γ.ty g.ty = some (.prim i) →
      FieldsMean Γ (before ++ [f]) fs r → FieldsMean Γ before (f :: fs) (.lenArr k t n r)

/-- The declared codec of unnamed fields: one after the other. -/
inductive TuplesMean (Γ : Ctx) : List TypeE → Fields → Prop where
  | nil : TuplesMean Γ [] .nil
  | cons {ty ts t r} : Γ.ty ty = some t → TuplesMean Γ ts r → TuplesMean Γ (ty :: ts) (.plain t r)

/-- The declared codec of an enum: tuple variants with explicit selectors. -/
inductive VariantsMean (Γ : Ctx) : List VariantE → Variants → Prop where
  | nil : VariantsMean Γ [] .nil
  | cons {v vs ts disc s fs r} : v.fields = .unnamed ts → v.disc = some disc →
      Γ.sel disc = some s → TuplesMean Γ ts fs → VariantsMean Γ vs r →
      VariantsMean Γ (v :: vs) (.cons s fs r)

/-- The declared codec of an input without a sized-buffer attribute; enums have
discriminants of `w` bytes. -/
inductive Means (Γ : Ctx) (w : Nat) : Data → Ty → Prop where
  | named {fs F} : FieldsMean Γ [] fs F → Means Γ w (.struct (.named fs)) (.struct F)
  | unnamed {ts F} : TuplesMean Γ ts F → Means Γ w (.struct (.unnamed ts)) (.struct F)
  | unit : Means Γ w (.struct .unit) (.struct .nil)
  | enum {vs V} : VariantsMean Γ vs V → Means Γ w (.enum vs) (.enum w V)

/-- What the compiler guarantees about declarations: different fields and
different variants have different names. -/
def Distinct : Data → Prop
  | .struct (.named fs) => (fs.map (·.ident)).Nodup
  | .enum vs => (vs.map (·.ident)).Nodup
  | _ => True

/-- What the generated code needs besides.  A field called `buffer`, like the
parameter of `try_unmarshal`, may only come last, and must not be an array; the
element types of arrays are paths without arguments. -/
def Usable : Data → Prop
  | .struct (.named fs) =>
    (∀ pre f post, fs = pre ++ f :: post → f.ident = "buffer" → post = [] ∧ ¬ f.ty.IsArray) ∧
    (∀ f ∈ fs, ∀ elem len, f.ty = .array elem len → elem.callable = true)
  | _ => True

/-- The requirements of the documentation on named fields: a field has no
attribute, or one giving the length of an array by an earlier field, which has
no attribute and is no array. -/
def Acceptable (fs : List NField) : Prop :=
  ∀ pre f post, fs = pre ++ f :: post →
    f.Bare ∨
    (∃ l, f.Counted l ∧ f.ty.IsArray ∧ ∃ g ∈ pre, g.ident = l ∧ g.Bare ∧ ¬ g.ty.IsArray)

/-- The codec implements the marshalable type. -/
def Codec.Implements (c : Codec) (t : Ty) : Prop :=
  c.unmarshal = Verif.unmarshal t ∧ ∀ v buf, HasTy t v → c.marshal v buf = Verif.marshal t v buf

/-- Names other than the flag, each possibly followed by a comma. -/
inductive Leading (flag : Ident) : List Tok → Prop where
  | nil : Leading flag []
  | path {p r} : p.isIdent flag = false → Leading flag r → Leading flag (.path p :: r)
  | comma {p r} : p.isIdent flag = false → Leading flag r → Leading flag (.path p :: .comma :: r)

/-- The attribute is `#[marshalable(a, b, flag)]`, the flag coming last. -/
def Attr.Flags (a : Attr) (flag : Ident) : Prop :=
  a.path.isIdent "marshalable" = true ∧
    ∃ lead p, a.args = some (lead ++ [.path p]) ∧ Leading flag lead ∧ p.isIdent flag = true

/-- The input has no `#[marshalable(..)]` attribute. -/
def Input.Plain (input : Input) : Prop := ∀ a ∈ input.attrs, a.path.isIdent "marshalable" = false

/-- The shape of a sized buffer: `{ size: u16, field: [u8; size] }`. -/
def SizedShape (fs : FieldsE) (field : Ident) (size : Expr) : Prop :=
  ∃ s b, fs = .named [s, b] ∧ s.ident = "size" ∧ s.ty = .path (.ident "u16") ∧
    b.ident = field ∧ b.ty = .array (.path (.ident "u8")) size

/-- Every path given by a `key = path` attribute of the field is an identifier. -/
def NField.LengthIsIdent (f : NField) : Prop :=
  ∀ a ∈ f.attrs, ∀ k t, a.args = some [.path k, .eq, t] →
    ∀ p, t = .path p ∨ t = .expr (.path false false p) → p.getIdent.isSome

end Verif.Derive
