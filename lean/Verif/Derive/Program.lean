import Verif.Derive.Spec
import Verif.Base.Layout

/-
A crate as a list of declarations, and the layouts its marshalable types have by
reading them.  Nothing here looks at generated code.
-/

namespace Verif.Derive
open Verif

/-- What the declarations read so far define. -/
structure Env where
  /-- free constants, `NAME` -/
  consts : List (Ident × Nat)
  /-- constants of a type, `Type::NAME` -/
  assoc : List (Ident × List (Ident × Nat))
  /-- marshalable types -/
  types : List (Ident × Ty)
  /-- the memory layout of types that are not marshalable -/
  opaques : List (Ident × Ty)
  /-- alignments of the integers on the target -/
  al : Nat → Nat

/-- The empty environment on a target with the given alignments. -/
def Env.emptyOn (al : Nat → Nat) : Env := ⟨[], [], [], [], al⟩

/-- The empty environment on 64-bit targets. -/
def Env.empty : Env := .emptyOn al64

/-- The segments of a path without arguments. -/
def Path.names : Path → Option (List Ident)
  | .mk segs => segs.mapM fun
    | .mk i none => some i
    | .mk _ (some _) => none

/-- The value of a constant given by its path; `constants::X` is `X`. -/
def Env.const (e : Env) : List Ident → Option Nat
  | [x] => e.consts.lookup x
  | ["constants", x] => e.consts.lookup x
  | [t, x] => (e.assoc.lookup t).bind (·.lookup x)
  | _ => none

/-- The fixed-width integers. -/
def intTy : Ident → Option Ty
  | "u8" => some (.prim 1)
  | "u16" => some (.prim 2)
  | "u32" => some (.prim 4)
  | "u64" => some (.prim 8)
  | _ => none

/-- `size_of::<T>()`. -/
def Env.sizeOf (e : Env) : TypeE → Option Nat
  | .path p =>
    match p.getIdent with
    | none => none
    | some i => ((intTy i).or ((e.types.lookup i).or (e.opaques.lookup i))).map (sizeOfTy e.al)
  | _ => none

/-- The value of a constant expression.  Values are small enough for casts and
arithmetic not to overflow; `x.0` is the value of an integer wrapper. -/
def Expr.eval (const : List Ident → Option Nat) (size : TypeE → Option Nat) : Expr → Option Nat
  | .lit n => some n
  | .path false false p => p.names.bind const
  | .field x 0 => x.eval const size
  | .cast x _ => x.eval const size
  | .paren x => x.eval const size
  | .binary op l r =>
    match op, l.eval const size, r.eval const size with
    | .add, some a, some b => some (a + b)
    | .sub, some a, some b => if b ≤ a then some (a - b) else none
    | .mul, some a, some b => some (a * b)
    | .div, some a, some b => if b = 0 then none else some (a / b)
    | _, _, _ => none
  | .method x "div_ceil" [.lit b] =>
    match x.eval const size with
    | some a => if b = 0 then none else some ((a + b - 1) / b)
    | none => none
  | .call (.path false false (.mk [.mk "size_of" (some [.type t])])) [] => size t
  | _ => none

/-- The value of a constant expression. -/
def Env.eval (e : Env) (x : Expr) : Option Nat := x.eval e.const e.sizeOf

/-- The marshalable type a type expression denotes: integers, byte arrays
(marshalable/src/lib.rs:99-120, 131-150), declared types. -/
def Env.ty (e : Env) : TypeE → Option Ty
  | .path p =>
    match p.getIdent with
    | none => none
    | some i => (intTy i).or (e.types.lookup i)
  | .array (.path p) n => if p.isIdent "u8" then (e.eval n).map .bytes else none
  | _ => none

/-- The environment of generated code. -/
def Env.ctx (e : Env) : Ctx := ⟨e.ty, e.eval, e.eval⟩

/-! ### Reading a declaration -/

/-- Is the type an array? -/
def TypeE.isArray : TypeE → Bool
  | .array _ _ => true
  | _ => false

/-- The length attribute of a field: `none` if malformed, `some none` without
attribute. -/
def NField.length (f : NField) : Option (Option Ident) :=
  match f.attrs.filter (·.path.isIdent "marshalable") with
  | [] => some none
  | [a] =>
    match a.args with
    | some [.path k, .eq, .path p] => if k.isIdent "length" then p.getIdent.map some else none
    | _ => none
  | _ => none

/-- The fields of a structure, after those in `before`. -/
def readFields (Γ : Ctx) : List NField → List NField → Option Fields
  | _, [] => some .nil
  | before, f :: fs =>
    match f.length, f.ty with
    | some none, .array elem len =>
      match Γ.ty elem, Γ.size len, readFields Γ (before ++ [f]) fs with
      | some t, some n, some r => some (.fixedArr t n r)
      | _, _, _ => none
    | some none, ty =>
      match Γ.ty ty, readFields Γ (before ++ [f]) fs with
      | some t, some r => some (.plain t r)
      | _, _ => none
    | some (some l), .array elem len =>
      match before.findIdx? (·.ident == l) with
      | none => none
      | some k =>
        match before[k]? with
        | none => none
        | some g =>
          match g.length, g.ty.isArray, Γ.ty g.ty with
          | some none, false, some (.prim _) =>
            match Γ.ty elem, Γ.size len, readFields Γ (before ++ [f]) fs with
            | some t, some n, some r => some (.lenArr k t n r)
            | _, _, _ => none
          | _, _, _ => none
    | _, _ => none

/-- Unnamed fields. -/
def readTuple (Γ : Ctx) : List TypeE → Option Fields
  | [] => some .nil
  | ty :: ts =>
    match Γ.ty ty, readTuple Γ ts with
    | some t, some r => some (.plain t r)
    | _, _ => none

/-- The variants of an enum. -/
def readVariants (Γ : Ctx) : List VariantE → Option Variants
  | [] => some .nil
  | v :: vs =>
    match v.fields, v.disc with
    | .unnamed ts, some disc =>
      match Γ.sel disc, readTuple Γ ts, readVariants Γ vs with
      | some s, some fs, some r => some (.cons s fs r)
      | _, _, _ => none
    | _, _ => none

/-- A structure or enum with discriminants of `w` bytes. -/
def readData (Γ : Ctx) (w : Nat) : Data → Option Ty
  | .struct (.named fs) => (readFields Γ [] fs).map .struct
  | .struct (.unnamed ts) => (readTuple Γ ts).map .struct
  | .struct .unit => some (.struct .nil)
  | .enum vs => (readVariants Γ vs).map (.enum w)
  | .union => none

/-- The capacity of a sized buffer `{ size: u16, field: [u8; size] }` without
field attributes. -/
def sizedCapacity : Data → Option Expr
  | .struct (.named [s, b]) =>
    match s.ty, b.ty with
    | .path p, .array (.path q) size =>
      if s.ident = "size" ∧ p.isIdent "u16" ∧ q.isIdent "u8" ∧ s.length = some none ∧
        b.length = some none then some size else none
    | _, _ => none
  | _ => none

/-- The layout of a declaration: a sized buffer with the attribute
`#[marshalable(tpm2b_simple)]`, otherwise field by field. -/
def readInput (Γ : Ctx) (w : Nat) (input : Input) : Option Ty :=
  match input.attrs.filter (·.path.isIdent "marshalable") with
  | [] => readData Γ w input.data
  | [a] =>
    match a.args with
    | some [.path p] =>
      if p.isIdent "tpm2b_simple" then
        ((sizedCapacity input.data).bind Γ.size).map .tpm2b
      else none
    | _ => none
  | _ => none

/-! ### Declarations -/

/-- The declarations that matter for layouts. -/
inductive Decl where
  /-- `const NAME: T = e;` -/
  | const (name : Ident) (e : Expr)
  /-- constants of a type: `const NAME: T = e;` in an `impl`, or the values of an
  `open_enum` -/
  | assoc (type : Ident) (l : List (Ident × Expr))
  /-- `impl T { const NAME: usize = { the largest of the values } }` -/
  | largest (type name : Ident) (l : List Expr)
  /-- `#[derive(Marshalable)]`; `w` is the number of bytes of the discriminant -/
  | derive (w : Nat) (input : Input)
  /-- `type name = ty;` -/
  | alias (name : Ident) (ty : TypeE)
  /-- a structure with a handwritten implementation of `Marshalable`: the fields
  `pre`, the discriminant of the field of type `enum`, the fields `mid`, and the
  data of that field -/
  | manual (name : Ident) (pre mid : List TypeE) (enum : Ident)
  /-- a `repr(C)` structure without implementation -/
  | opaque (name : Ident) (fields : List (TypeE))
  /-- a sized buffer without implementation -/
  | opaqueSized (name : Ident) (capacity : Expr)

/-- Does the name already denote a type? -/
def Env.fresh (e : Env) (i : Ident) : Bool :=
  (e.types.lookup i).isNone && (e.opaques.lookup i).isNone && (intTy i).isNone

/-- Values of named expressions. -/
def Env.evalAll (e : Env) : List (Ident × Expr) → Option (List (Ident × Nat))
  | [] => some []
  | (x, v) :: r =>
    match e.eval v, e.evalAll r with
    | some n, some l => some ((x, n) :: l)
    | _, _ => none

/-- Adds a declaration; fails if something in it is not yet defined, or if it
redefines a name. -/
def Env.add (e : Env) : Decl → Option Env
  | .const name v =>
    match e.consts.lookup name, e.eval v with
    | none, some n => some { e with consts := (name, n) :: e.consts }
    | _, _ => none
  | .assoc type l =>
    match e.assoc.lookup type, e.evalAll l with
    | none, some l => some { e with assoc := (type, l) :: e.assoc }
    | _, _ => none
  | .largest type name l =>
    match e.assoc.lookup type, l.mapM e.eval with
    | none, some l => some { e with assoc := (type, [(name, l.foldl max 0)]) :: e.assoc }
    | _, _ => none
  | .derive w input =>
    match e.fresh input.ident, readInput e.ctx w input with
    | true, some t => some { e with types := (input.ident, t) :: e.types }
    | _, _ => none
  | .alias name ty =>
    match e.fresh name, e.ty ty with
    | true, some t => some { e with types := (name, t) :: e.types }
    | _, _ => none
  | .manual name pre mid enum =>
    match e.fresh name, readTuple e.ctx pre, readTuple e.ctx mid, e.types.lookup enum with
    | true, some p, some m, some (.enum w vs) =>
      some { e with types := (name, .split p w m vs) :: e.types }
    | _, _, _, _ => none
  | .opaque name fields =>
    match e.fresh name, fields.mapM fun
      | .path p => p.getIdent.bind fun i => (e.types.lookup i).or (e.opaques.lookup i)
      | _ => none with
    | true, some l => some { e with opaques := (name, .struct (l.foldr .plain .nil)) :: e.opaques }
    | _, _ => none
  | .opaqueSized name capacity =>
    match e.fresh name, e.eval capacity with
    | true, some n => some { e with opaques := (name, .tpm2b n) :: e.opaques }
    | _, _ => none

/-- Adds declarations in order. -/
def Env.addAll (e : Env) : List Decl → Option Env
  | [] => some e
  | d :: ds => (e.add d).bind (·.addAll ds)

end Verif.Derive
