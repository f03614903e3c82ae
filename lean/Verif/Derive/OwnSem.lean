import Verif.Derive.Compile
import Verif.Codec.OwnProps

/-
The code the derive macro generates for declarations some of whose types are of the caller's own
(`Verif.Derive.Sem` has only the types of the crate), and the specification for C119.
-/

namespace Verif.Own.Derive
open Verif
open _root_.Verif.Derive
open Verif.UM (bind_eq pure_eq)

variable {X : Type}

/-! ### The code -/

/-- What the generated code refers to outside the macro input: the marshalable types that type
expressions denote, whether a value can be copied and cast by `as usize`, whether `[T::default(); n]` can be written, that is,
`T` is `Copy` and `Default`, and the values of constant expressions
(marshalable-derive/src/lib.rs:405-434, 600-663). -/
structure Ctx (X : Type) where
  ty : TypeE → Option (Ty X)
  cast : TypeE → Bool
  slots : TypeE → Bool
  size : Expr → Option Nat
  sel : Expr → Option Nat

/-- Can an array of the type be read (marshalable-derive/src/lib.rs:612-614, 621-623)? -/
def Ctx.element (Γ : Ctx X) (elem : TypeE) : Bool := elem.callable && Γ.slots elem

/-- The static scope: variables with their types (`none` for arrays), the innermost first
(marshalable-derive/src/lib.rs:597-634). -/
abbrev Scope := List (Var × Option TypeE)

/-- Is the parameter `buffer` still visible (marshalable-derive/src/lib.rs:147-150, 597-634)? -/
def bufferVisible (s : Scope) : Bool := (s.lookup (.name "buffer")).isNone

/-- `len as usize` for a local variable (marshalable-derive/src/lib.rs:610, 614). -/
def castable (Γ : Ctx X) (s : Scope) (len : Path) : Option (Ident × Ty X) :=
  match len.getIdent with
  | none => none
  | some l =>
    match s.lookup (.name l) with
    | some (some ty) => if Γ.cast ty then (Γ.ty ty).map fun t => (l, t) else none
    | _ => none

/-- The value of a local variable (marshalable-derive/src/lib.rs:597-634). -/
def local! (loc : List (Var × Val X)) (x : Var) : Val X := (loc.lookup x).getD (.std .unit)

/-- The generated statements: marshalable-derive/src/lib.rs:609-616, 620-625, 630-633, 660-662. -/
def elabU (Γ : Ctx X) : List UStmt → Scope →
    Option (List (Var × Val X) → UM (List (Var × Val X)))
  | [], _ => some fun loc => pure loc
  | .letField name ty :: r, s =>
    if bufferVisible s then
      match Γ.ty ty with
      | none => none
      | some t =>
        match elabU Γ r ((.name name, some ty) :: s) with
        | none => none
        | some k => some fun loc => do
          let v ← unmarshal t
          k ((.name name, v) :: loc)
    else none
  | .letVar i ty :: r, s =>
    if bufferVisible s then
      match Γ.ty ty with
      | none => none
      | some t =>
        match elabU Γ r ((.f i, some ty) :: s) with
        | none => none
        | some k => some fun loc => do
          let v ← unmarshal t
          k ((.f i, v) :: loc)
    else none
  | .maxArr max name elem :: r, s =>
    if bufferVisible ((.name name, none) :: s) && Γ.element elem then
      match Γ.ty elem, Γ.size max with
      | some t, some n =>
        match elabU Γ r ((.name name, none) :: s) with
        | none => none
        | some k => some fun loc => do
          let es ← unmarshalLoop (unmarshal t) n
          k ((.name name, .arr (es ++ (List.replicate n t.default).drop n)) :: loc)
      | _, _ => none
    else none
  | .lenArr len max name elem :: r, s =>
    if bufferVisible ((.name name, none) :: s) && Γ.element elem then
      match castable Γ s len, Γ.ty elem, Γ.size max with
      | some (l, lt), some t, some n =>
        match elabU Γ r ((.name name, none) :: s) with
        | none => none
        | some k => some fun loc =>
          let length := asUsize lt (local! loc (.name l))
          if length > n then UM.fail .arrayLengthExceeded
          else do
            let es ← unmarshalLoop (unmarshal t) length
            k ((.name name, .arr (es ++ (List.replicate n t.default).drop length)) :: loc)
      | _, _, _ => none
    else none

/-- `Name{a, b,}`, `Name(f0, f1)`: marshalable-derive/src/lib.rs:147-150, 187-189. -/
def construct (l : FieldList) (loc : List (Var × Val X)) : List (Val X) := l.vars'.map (local! loc)

/-- `written += place.try_marshal(&mut buffer[written..])?;` followed by `k`:
marshalable-derive/src/lib.rs:430-432, 461-463, 504-506. -/
def stepAt (t : Ty X) (i : Nat) (k : List (Val X) → Nat → Bytes → MOut) (vs : List (Val X))
    (written : Nat) (buf : Bytes) : MOut :=
  match vs[i]? with
  | none => (.panic, buf)
  | some v => mthen (mstep (fun b => marshal t v b) written buf) (k vs)

/-- `for i in 0..n { written += place[i].try_marshal(&mut buffer[written..])?; }` followed by `k`:
marshalable-derive/src/lib.rs:414-418, 421-425. -/
def loopAt (t : Ty X) (n : List (Val X) → Nat) (i : Nat) (k : List (Val X) → Nat → Bytes → MOut)
    (vs : List (Val X)) (written : Nat) (buf : Bytes) : MOut :=
  match vs[i]? with
  | some (.arr es) => mthen (marshalLoop (fun v b => marshal t v b) (n vs) es written buf) (k vs)
  | _ => (.panic, buf)

/-- The generated statements: marshalable-derive/src/lib.rs:414-418, 421-425, 430-432, 461-463,
504-506.  The fields' values are given in the order of declaration. -/
def elabM (Γ : Ctx X) (p : Places) : List MStmt → Option (List (Val X) → Nat → Bytes → MOut)
  | [] => some fun _ written buf => (.ok written, buf)
  | .field name :: r =>
    match p.named name with
    | none => none
    | some (i, ty) =>
      match Γ.ty ty, elabM Γ p r with
      | some t, some k => some (stepAt t i k)
      | _, _ => none
  | .index i :: r =>
    match p.index[i]? with
    | none => none
    | some ty =>
      match Γ.ty ty, elabM Γ p r with
      | some t, some k => some (stepAt t i k)
      | _, _ => none
  | .var i :: r =>
    match p.vars[i]? with
    | none => none
    | some ty =>
      match Γ.ty ty, elabM Γ p r with
      | some t, some k => some (stepAt t i k)
      | _, _ => none
  | .maxLoop max name :: r =>
    match p.named name with
    | some (i, .array elem _) =>
      match Γ.ty elem, Γ.size max, elabM Γ p r with
      | some t, some n, some k => some (loopAt t (fun _ => n) i k)
      | _, _, _ => none
    | _ => none
  | .lenLoop len name :: r =>
    match len.getIdent with
    | none => none
    | some l =>
      match p.named l, p.named name with
      | some (j, lty), some (i, .array elem _) =>
        match Γ.cast lty, Γ.ty lty, Γ.ty elem, elabM Γ p r with
        | true, some lt, some t, some k =>
          some (loopAt t (fun vs => asUsize lt (vs.getD j (.std .unit))) i k)
        | _, _, _, _ => none
      | _, _ => none

/-- An implementation of `Marshalable`: marshalable/src/lib.rs:30-36. -/
structure Codec (X : Type) where
  unmarshal : UM (Val X)
  marshal : Val X → Bytes → MOut

/-- The generated `impl Marshalable` of a structure: marshalable-derive/src/lib.rs:147-150, 184-198. -/
def elabStruct (Γ : Ctx X) (fs : FieldsE) (m : List MStmt) (u : List UStmt) (inst : FieldList) :
    Option (Codec X) :=
  match elabM Γ (selfPlaces fs) m, elabU Γ u [] with
  | some km, some ku => some {
      unmarshal := do
        let loc ← ku []
        pure (.struct (construct inst loc))
      marshal := fun v buf =>
        match v with
        | .struct vs => km vs 0 buf
        | _ => (.panic, buf) }  -- not a value of the type
  | _, _ => none

/-- An implementation of `MarshalableVariant` (marshalable/src/lib.rs:38-53); values are given to
`marshal` by discriminant and data. -/
structure VariantCodec (X : Type) where
  unmarshal : Nat → UM (Val X)
  marshal : Nat → List (Val X) → Bytes → MOut

/-- The generated match: marshalable-derive/src/lib.rs:508-512, 517-520. -/
def elabArms (Γ : Ctx X) (arms : List Arm) : List VariantE →
    Option (Nat → List (Val X) → Bytes → MOut)
  | [] => some fun _ _ buf => (.panic, buf)  -- no value has another discriminant
  | v :: vs =>
    match arms.find? (·.variant == v.ident), v.disc with
    | some arm, some disc =>
      match Γ.sel disc, (patternPlaces arm.pattern v.fields).bind (elabM Γ · arm.body),
        elabArms Γ arms vs with
      | some s, some k, some rest =>
        some fun sel fvs buf => if sel = s then k fvs 0 buf else rest sel fvs buf
      | _, _, _ => none
    | _, _ => none

/-- The discriminant of the variant constructed by `Name::Var(f0, ..)`:
marshalable-derive/src/lib.rs:710-722. -/
def constructed (Γ : Ctx X) (vs : List VariantE) (name : Ident) (args : FieldList) : Option Nat :=
  match vs.find? (·.ident == name) with
  | none => none
  | some v =>
    match patternPlaces args v.fields, v.disc with
    | some _, some disc => Γ.sel disc
    | _, _ => none

/-- The generated conditions: marshalable-derive/src/lib.rs:710-722. -/
def elabConds (Γ : Ctx X) (vs : List VariantE) : List Cond → Option (Nat → UM (Val X))
  | [] => some fun _ => UM.fail .unknownSelector
  | c :: cs =>
    match Γ.sel c.sel, elabU Γ c.body [], constructed Γ vs c.variant c.fields,
      elabConds Γ vs cs with
    | some s, some k, some d, some rest => some fun sel =>
      if sel = s then do
        let loc ← k []
        pure (.enum d (construct c.fields loc))
      else rest sel
    | _, _, _, _ => none

/-- The generated `impl MarshalableVariant`: marshalable-derive/src/lib.rs:382-397. -/
def elabVariant (Γ : Ctx X) (vs : List VariantE) (arms : List Arm) (conds : List Cond) :
    Option (VariantCodec X) :=
  match elabArms Γ arms vs, elabConds Γ vs conds with
  | some m, some u => some ⟨u, m⟩
  | _, _ => none

/-- The generated `impl Marshalable` of an enum with a discriminant of `w` bytes:
marshalable-derive/src/lib.rs:473-478, 686-693. -/
def elabEnum (w : Nat) (c : VariantCodec X) : Codec X where
  unmarshal := do
    let sel ← unmarshalPrim w
    c.unmarshal sel
  marshal v buf :=
    match v with
    | .enum sel fvs =>
      mthen (mstep (marshalPrim w sel) 0 buf) fun written buf =>
        mstep (fun b => c.marshal sel fvs b) written buf
    | _ => (.panic, buf)  -- not a value of the type

/-- The implementation of `Marshalable` among the generated items (marshalable-derive/src/lib.rs:125-204),
for an input whose enum discriminants have `w` bytes.  `none` if there is none, or if the generated code
does not compile.  Not here: sized buffers, which have no parts of the caller's own. -/
def implOf (Γ : Ctx X) (w : Nat) (input : Input) : List Item → Option (Codec X)
  | [.marshalStruct _ m u inst] =>
    match input.data with
    | .struct fs => elabStruct Γ fs m u inst
    | _ => none
  | [.variant _ arms conds, .marshalEnum _] =>
    match input.data with
    | .enum vs => (elabVariant Γ vs arms conds).map (elabEnum w)
    | _ => none
  | _ => none

/-! ### Specification -/

/-- The declared codec of named fields, as in `Verif.Derive.FieldsMean`, with types of the caller's own;
a length can be given by a field of any type that can be cast. -/
inductive FieldsMean (Γ : Ctx X) : List NField → List NField → Fields X → Prop where
  | nil {before} : FieldsMean Γ before [] .nil
  | plain {before f fs t r} : f.Bare → ¬ f.ty.IsArray → Γ.ty f.ty = some t →
      FieldsMean Γ (before ++ [f]) fs r → FieldsMean Γ before (f :: fs) (.plain t r)
  | array {before f fs elem len t n r} : f.Bare → f.ty = .array elem len → Γ.ty elem = some t →
      Γ.size len = some n →
      FieldsMean Γ (before ++ [f]) fs r → FieldsMean Γ before (f :: fs) (.fixedArr t n r)
  | counted {before f fs elem len t n r l k g lt} : f.Counted l → f.ty = .array elem len →
      Γ.ty elem = some t → Γ.size len = some n →
      before[k]? = some g → g.ident = l → g.Bare → ¬ g.ty.IsArray → Γ.cast g.ty = true →
      Γ.ty g.ty = some lt →
      FieldsMean Γ (before ++ [f]) fs r → FieldsMean Γ before (f :: fs) (.lenArr k t n r)

/-- The declared codec of unnamed fields: one after the other. -/
inductive TuplesMean (Γ : Ctx X) : List TypeE → Fields X → Prop where
  | nil : TuplesMean Γ [] .nil
  | cons {ty ts t r} : Γ.ty ty = some t → TuplesMean Γ ts r → TuplesMean Γ (ty :: ts) (.plain t r)

/-- The declared codec of an enum: tuple variants with explicit selectors. -/
inductive VariantsMean (Γ : Ctx X) : List VariantE → Variants X → Prop where
  | nil : VariantsMean Γ [] .nil
  | cons {v vs ts disc s fs r} : v.fields = .unnamed ts → v.disc = some disc →
      Γ.sel disc = some s → TuplesMean Γ ts fs → VariantsMean Γ vs r →
      VariantsMean Γ (v :: vs) (.cons s fs r)

/-- The declared codec of an input without a sized-buffer attribute; enums have discriminants of `w`
bytes. -/
inductive Means (Γ : Ctx X) (w : Nat) : Data → Ty X → Prop where
  | named {fs F} : FieldsMean Γ [] fs F → Means Γ w (.struct (.named fs)) (.struct F)
  | unnamed {ts F} : TuplesMean Γ ts F → Means Γ w (.struct (.unnamed ts)) (.struct F)
  | unit : Means Γ w (.struct .unit) (.struct .nil)
  | enum {vs V} : VariantsMean Γ vs V → Means Γ w (.enum vs) (.enum w V)

/-- The element types of arrays are `Copy` and `Default`. -/
def Placed (Γ : Ctx X) : Data → Prop
  | .struct (.named fs) => ∀ f ∈ fs, ∀ elem len, f.ty = .array elem len → Γ.slots elem = true
  | _ => True

/-- As many values as fields, with arrays where there are arrays. -/
inductive FormedFields : Fields X → List (Val X) → Prop where
  | nil : FormedFields .nil []
  | plain {t r v vs} : FormedFields r vs → FormedFields (.plain t r) (v :: vs)
  | fixedArr {t n r es vs} : FormedFields r vs → FormedFields (.fixedArr t n r) (.arr es :: vs)
  | lenArr {k t n r es vs} : FormedFields r vs → FormedFields (.lenArr k t n r) (.arr es :: vs)

/-- The values a Rust program can have of a derived type (and others). -/
inductive Formed : Ty X → Val X → Prop where
  | struct {fs vs} : FormedFields fs vs → Formed (.struct fs) (.struct vs)
  | enum {w vs sel fs fvs} : Selects vs sel fs → FormedFields fs fvs → Formed (.enum w vs) (.enum sel fvs)

/-- The codec implements the marshalable type. -/
def Codec.Implements (c : Codec X) (t : Ty X) : Prop :=
  c.unmarshal = (derived t).unmarshal ∧ ∀ v buf, Formed t v → c.marshal v buf = (derived t).marshal v buf

end Verif.Own.Derive
