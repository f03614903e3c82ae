import Verif.Basic

/-
Model of the derive macros themselves: marshalable-derive/src/lib.rs.  Input is
the part of syn's syntax tree the macros look at, output the implementations
they generate.

Simplifications: spans are left out; a named field always has a name and an
unnamed one never has (syn guarantees both); tokens inside an attribute are
paths, commas, equals signs and other expressions.
-/

namespace Verif.Derive
open Verif

/-- An identifier. -/
abbrev Ident := String

/-- `syn::BinOp`, as far as constants use it. -/
inductive BinOp where
  | add | sub | mul | div

mutual
/-- `syn::Path`. -/
inductive Path where
  | mk (segments : List Segment)
/-- `syn::PathSegment`; `args` are angle-bracketed arguments, if any. -/
inductive Segment where
  | mk (ident : Ident) (args : Option (List GenericArg))
/-- `syn::GenericArgument`. -/
inductive GenericArg where
  | type (t : TypeE)
  | other
/-- `syn::Type`. -/
inductive TypeE where
  | path (p : Path)
  | array (elem : TypeE) (len : Expr)
  | other
/-- `syn::Expr`; a path may have attributes and an explicit self type. -/
inductive Expr where
  | path (attrs qself : Bool) (p : Path)
  | lit (n : Nat)
  | call (func : Expr) (args : List Expr)
  | method (e : Expr) (name : Ident) (args : List Expr)
  | field (e : Expr) (index : Nat)
  | cast (e : Expr) (ty : TypeE)
  | binary (op : BinOp) (l r : Expr)
  | paren (e : Expr)
  | other
end

/-- `syn::Path::get_ident`: the only segment, without arguments. -/
def Path.getIdent : Path → Option Ident
  | .mk [.mk i none] => some i
  | _ => none

/-- `syn::Path::is_ident`. -/
def Path.isIdent (p : Path) (i : Ident) : Bool := p.getIdent == some i

/-- A path consisting of one identifier. -/
def Path.ident (i : Ident) : Path := .mk [.mk i none]

/-- The tokens inside the parentheses of an attribute. -/
inductive Tok where
  | path (p : Path)
  | comma
  | eq
  /-- an expression that is not just a path -/
  | expr (e : Expr)

/-- `syn::Attribute`; `args` is `none` for an attribute without parentheses. -/
structure Attr where
  path : Path
  args : Option (List Tok)

/-- A named field (`syn::Field` in `FieldsNamed`). -/
structure NField where
  ident : Ident
  ty : TypeE
  attrs : List Attr

/-- `syn::Fields`. -/
inductive FieldsE where
  | named (fs : List NField)
  | unnamed (ts : List TypeE)
  | unit

/-- `syn::Variant`. -/
structure VariantE where
  ident : Ident
  fields : FieldsE
  disc : Option Expr

/-- `syn::Data`. -/
inductive Data where
  | struct (fs : FieldsE)
  | enum (vs : List VariantE)
  | union

/-- `syn::DeriveInput`. -/
structure Input where
  ident : Ident
  attrs : List Attr
  data : Data

/-- The error messages: marshalable-derive/src/lib.rs:37-42, 49, 171-174,
292-297, 497-500, 528-531, 539-563, 570-573, 582-588, 680-683; `syntax` is an
error of the parser for attribute arguments (533). -/
inductive Msg where
  | notStruct | union | general | first | second | sizeOf | namedInEnum | onlyOne | syntax
  | unknownAttr | notIdent | attrsNotAllowed | selfNotAllowed | notArray
  /-- `length field must appear before field {field} using it in a length attribute` -/
  | lengthBefore (field : Ident)
  | noSelector
  deriving DecidableEq, Repr

/-- The result of a macro function: `syn::Error` combines several messages. -/
abbrev D (α : Type) := Res (List Msg) α

/-! ### Generated code -/

/-- The generated marshalling statements. -/
inductive MStmt where
  /-- `for i in 0..self.len as usize { written += self.name[i].try_marshal(..)?; }` -/
  | lenLoop (len : Path) (name : Ident)
  /-- `for i in 0..max { written += self.name[i].try_marshal(..)?; }` -/
  | maxLoop (max : Expr) (name : Ident)
  /-- `written += self.name.try_marshal(&mut buffer[written..])?;` -/
  | field (name : Ident)
  /-- `written += self.i.try_marshal(&mut buffer[written..])?;` -/
  | index (i : Nat)
  /-- `written += fi.try_marshal(&mut buffer[written..])?;` -/
  | var (i : Nat)

/-- The generated unmarshalling statements. -/
inductive UStmt where
  /-- `if len as usize > max { return Err(ArrayLengthExceeded); }
  let mut name = [elem::default(); max];
  for i in name.iter_mut().take(len as usize) { *i = elem::try_unmarshal(buffer)?; }` -/
  | lenArr (len : Path) (max : Expr) (name : Ident) (elem : TypeE)
  /-- `let mut name = [elem::default(); max];
  for i in name.iter_mut().take(max) { *i = elem::try_unmarshal(buffer)?; }` -/
  | maxArr (max : Expr) (name : Ident) (elem : TypeE)
  /-- `let name = <ty>::try_unmarshal(buffer)?;` -/
  | letField (name : Ident) (ty : TypeE)
  /-- `let fi = <ty>::try_unmarshal(buffer)?;` -/
  | letVar (i : Nat) (ty : TypeE)

/-- The list of fields in a pattern or construction. -/
inductive FieldList where
  | names (l : List Ident)
  /-- `f0, f1, ..` -/
  | vars (n : Nat)
  deriving DecidableEq, Repr

/-- An arm `Name::Var(f0, ..) => { .. }` of the generated match. -/
structure Arm where
  variant : Ident
  pattern : FieldList
  body : List MStmt

/-- `if selector == sel { .. return Ok(Name::Var(f0, ..)); }`. -/
structure Cond where
  sel : Expr
  body : List UStmt
  variant : Ident
  fields : FieldList

/-- The generated implementations. -/
inductive Item where
  /-- `impl Marshalable` of a structure: marshalable-derive/src/lib.rs:184-198 -/
  | marshalStruct (name : Ident) (m : List MStmt) (u : List UStmt) (inst : FieldList)
  /-- `impl Marshalable` of an enum: marshalable-derive/src/lib.rs:184-198, 473-478, 686-693 -/
  | marshalEnum (name : Ident)
  /-- `impl MarshalableVariant`: marshalable-derive/src/lib.rs:382-397; falls through to
  `Err(UnknownSelector)` -/
  | variant (name : Ident) (arms : List Arm) (conds : List Cond)
  /-- the implementations of marshalable-derive/src/lib.rs:214-287 -/
  | tpm2bSimple (name : Ident) (field : Ident) (size : Expr)
  /-- `impl Tpm2bStruct`: marshalable-derive/src/lib.rs:92-106 -/
  | tpm2bStruct (name : Ident) (inner : Path) (field : Ident)

/-! ### Attributes -/

/-- The parser in `has_marshalable_attr`: marshalable-derive/src/lib.rs:358-370.
`none` is a syntax error; otherwise whether the flag was found, and the tokens
not consumed. -/
def findFlag (flag : Ident) : List Tok → Option (Bool × List Tok)
  | [] => some (false, [])
  | .path p :: .comma :: r =>
    if p.isIdent flag then some (true, .comma :: r) else findFlag flag r
  | .path p :: r => if p.isIdent flag then some (true, r) else findFlag flag r
  | _ :: _ => none

/-- `has_marshalable_attr`: marshalable-derive/src/lib.rs:353-375.
`parse_args_with` fails if tokens are left, and a failure counts as absence. -/
def hasMarshalableAttr (flag : Ident) (a : Attr) : Bool :=
  a.path.isIdent "marshalable" &&
    match a.args with
    | none => false
    | some toks =>
      match findFlag flag toks with
      | some (found, []) => found
      | _ => false

/-- `attr.parse_args::<MetaNameValue>()`: a path, an equals sign and an
expression, and nothing else. -/
def parseNameValue : Option (List Tok) → Option (Path × Expr)
  | some [.path k, .eq, .path v] => some (k, .path false false v)
  | some [.path k, .eq, .expr v] => some (k, v)
  | _ => none

/-- The loop of `get_marshal_attribute`: marshalable-derive/src/lib.rs:524-535. -/
def collectAttr : Option (Path × Expr) → List Attr → D (Option (Path × Expr))
  | found, [] => .ok found
  | found, a :: r =>
    if a.path.isIdent "marshalable" then
      if found.isSome then .err [.onlyOne]
      else
        match parseNameValue a.args with
        | none => .err [.syntax]
        | some kv => collectAttr (some kv) r
    else collectAttr found r

/-- `get_marshal_attribute`: marshalable-derive/src/lib.rs:523-564. -/
def getMarshalAttribute (attrs : List Attr) (key : Ident) : D (Option Path) :=
  (collectAttr none attrs).bind fun found =>
  match found with
  | none => .ok none
  | some (k, v) =>
    if !k.isIdent key then .err [.unknownAttr]
    else
      match v with
      | .path attrs qself p =>
        if attrs then .err [.attrsNotAllowed]
        else if qself then .err [.selfNotAllowed]
        else .ok (some p)
      | _ => .err [.notIdent]

/-! ### Structures -/

/-- `HashMap<&Ident, Type>`: the non-array fields without attribute so far. -/
abbrev BasicTypes := List (Ident × TypeE)

/-- `get_primitive` with `basic_field_types.get(length.get_ident().unwrap())`:
marshalable-derive/src/lib.rs:412-413, 578-593, 607-608. -/
def getPrimitive (length : Path) (basic : BasicTypes) : D Path :=
  match length.getIdent with
  | none => .panic
  | some i => if (basic.lookup i).isNone then .err [.lengthBefore i] else .ok length

/-- `get_named_field_marshal`: marshalable-derive/src/lib.rs:404-434. -/
def namedFieldMarshal (basic : BasicTypes) (f : NField) : D (MStmt × BasicTypes) :=
  (getMarshalAttribute f.attrs "length").bind fun attr =>
  match attr with
  | some length => (getPrimitive length basic).bind fun p => .ok (.lenLoop p f.ident, basic)
  | none =>
    match f.ty with
    | .array _ max => .ok (.maxLoop max f.ident, basic)
    | ty => .ok (.field f.ident, (f.ident, ty) :: basic)

/-- `get_array_default`: marshalable-derive/src/lib.rs:566-576. -/
def getArrayDefault : TypeE → D (Expr × TypeE)
  | .array elem len => .ok (len, elem)
  | _ => .err [.notArray]

/-- `get_named_field_unmarshal`: marshalable-derive/src/lib.rs:597-635. -/
def namedFieldUnmarshal (basic : BasicTypes) (f : NField) : D (UStmt × BasicTypes) :=
  (getMarshalAttribute f.attrs "length").bind fun attr =>
  match attr with
  | some length =>
    (getArrayDefault f.ty).bind fun (max, elem) =>
    (getPrimitive length basic).bind fun p => .ok (.lenArr p max f.ident elem, basic)
  | none =>
    match f.ty with
    | .array elem max => .ok (.maxArr max f.ident elem, basic)
    | ty => .ok (.letField f.ident ty, (f.ident, ty) :: basic)

/-- The loops over fields that collect statements and errors:
marshalable-derive/src/lib.rs:436-452, 637-653 with `errors_to_error`
(480-488). -/
def eachField {α : Type} (gen : BasicTypes → NField → D (α × BasicTypes)) :
    BasicTypes → List NField → D (List α)
  | _, [] => .ok []
  | basic, f :: fs =>
    match gen basic f with
    | .panic => .panic
    | .ok (s, basic) => (eachField gen basic fs).map (s :: ·)
    | .err e =>
      match eachField gen basic fs with
      | .panic => .panic
      | .ok _ => .err e
      | .err es => .err (e ++ es)

/-- `get_field_marshal_body`: marshalable-derive/src/lib.rs:454-471. -/
def fieldMarshalBody : FieldsE → D (List MStmt)
  | .named fs => eachField namedFieldMarshal [] fs
  | .unnamed ts => .ok ((List.range ts.length).map .index)
  | .unit => .ok []

/-- `get_field_unmarshal`: marshalable-derive/src/lib.rs:654-671. -/
def fieldUnmarshal : FieldsE → D (List UStmt)
  | .named fs => eachField namedFieldUnmarshal [] fs
  | .unnamed ts => .ok ((List.range ts.length).zipWith .letVar ts)
  | .unit => .ok []

/-- `get_field_list`: marshalable-derive/src/lib.rs:729-755. -/
def fieldList : FieldsE → FieldList
  | .named fs => .names (fs.map (·.ident))
  | .unnamed ts => .vars ts.length
  | .unit => .names []

/-! ### Enums -/

/-- `get_enum_marshal_body`: marshalable-derive/src/lib.rs:490-521. -/
def enumMarshalBody : List VariantE → D (List Arm)
  | [] => .ok []
  | v :: vs =>
    match v.fields with
    | .unnamed ts =>
      (enumMarshalBody vs).map
        (⟨v.ident, fieldList v.fields, (List.range ts.length).map .var⟩ :: ·)
    | _ =>
      match enumMarshalBody vs with
      | .err es => .err (.namedInEnum :: es)
      | _ => .err [.namedInEnum]

/-- `get_enum_unmarshal_body`: marshalable-derive/src/lib.rs:695-727.  A missing
selector (`get_selection`, 673-684) ends the loop at once, dropping the errors
collected so far. -/
def enumUnmarshalBody : List Msg → List VariantE → D (List Cond)
  | errors, [] => if errors.isEmpty then .ok [] else .err errors
  | errors, v :: vs =>
    match fieldUnmarshal v.fields with
    | .panic => .panic
    | .err e => enumUnmarshalBody (errors ++ e) vs
    | .ok body =>
      match v.disc with
      | none => .err [.noSelector]
      | some sel =>
        (enumUnmarshalBody errors vs).map (⟨sel, body, v.ident, fieldList v.fields⟩ :: ·)

/-- `get_enum_impl`: marshalable-derive/src/lib.rs:378-402. -/
def enumImpl (name : Ident) (vs : List VariantE) : D Item :=
  (enumMarshalBody vs).bind fun arms =>
  (enumUnmarshalBody [] vs).bind fun conds => .ok (.variant name arms conds)

/-! ### Sized buffers -/

/-- `derive_tpm2b_common`: marshalable-derive/src/lib.rs:294-351. -/
def tpm2bCommon : FieldsE → D (Ident × Expr)
  | .named [first, second] =>
    match first.ty with
    | .path p =>
      if first.ident != "size" || !p.isIdent "u16" then .err [.first]
      else
        match second.ty with
        | .array (.path e) len => if e.isIdent "u8" then .ok (second.ident, len) else .err [.second]
        | _ => .err [.second]
    | _ => .err [.first]
  | _ => .err [.general]

/-- `derive_tpm2b_simple`: marshalable-derive/src/lib.rs:205-290. -/
def tpm2bSimple (name : Ident) (fs : FieldsE) : D Item :=
  (tpm2bCommon fs).bind fun (field, size) => .ok (.tpm2bSimple name field size)

/-- `derive_tpm2b_struct`: marshalable-derive/src/lib.rs:45-107. -/
def tpm2bStruct (name : Ident) (fs : FieldsE) : D Item :=
  (tpm2bCommon fs).bind fun (field, size) =>
  match size with
  | .call (.path _ _ (.mk (.mk i args :: _))) _ =>
    if i != "size_of" then .err [.sizeOf]
    else
      match args with
      | some (.type (.path p) :: _) => .ok (.tpm2bStruct name p field)
      | _ => .err [.sizeOf]
  | _ => .err [.sizeOf]

/-! ### The macros -/

/-- `#[derive(Tpm2bStruct)]`: marshalable-derive/src/lib.rs:26-43. -/
def deriveTpm2bStruct (input : Input) : D (List Item) :=
  match input.data with
  | .struct fs => (tpm2bStruct input.ident fs).map ([·])
  | _ => .err [.notStruct]

/-- `#[derive(Marshalable)]`: marshalable-derive/src/lib.rs:124-203. -/
def deriveMarshalable (input : Input) : D (List Item) :=
  let simple := input.attrs.any (hasMarshalableAttr "tpm2b_simple")
  let struct := input.attrs.any (hasMarshalableAttr "tpm2b_struct")
  match input.data with
  | .struct fs =>
    (fieldMarshalBody fs).bind fun m =>
    (fieldUnmarshal fs).bind fun u =>
    (if simple then (tpm2bSimple input.ident fs).map ([·]) else .ok []).bind fun pure =>
    if simple || struct then .ok pure
    else .ok (pure ++ [.marshalStruct input.ident m u (fieldList fs)])
  | .enum vs =>
    (enumImpl input.ident vs).bind fun pure =>
    if simple || struct then .ok [pure]
    else .ok [pure, .marshalEnum input.ident]
  | .union => .err [.union]

end Verif.Derive
