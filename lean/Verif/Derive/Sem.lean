import Verif.Derive.Impl
import Verif.Codec.Impl

/-
The meaning of the generated code: Rust's scoping, typing and evaluation of the
statements the macros generate.  Elaboration (`Option`) fails where the
generated code does not compile.
-/

namespace Verif.Derive
open Verif

/-- What the generated code refers to outside the macro input: the marshalable
types that type expressions denote, and the values of constant expressions. -/
structure Ctx where
  ty : TypeE → Option Ty
  size : Expr → Option Nat
  sel : Expr → Option Nat

/-- Local variables of generated code: a field name, or `fi`. -/
inductive Var where
  | name (i : Ident)
  | f (i : Nat)
  deriving DecidableEq

/-! ### Unmarshalling -/

/-- The static scope: variables with the marshalable type of their values
(`none` for arrays), the innermost first. -/
abbrev Scope := List (Var × Option Ty)

/-- Is the parameter `buffer` still visible?  A field of this name shadows it. -/
def bufferVisible (s : Scope) : Bool := (s.lookup (.name "buffer")).isNone

/-- `len as usize` for a local variable: only integers can be cast. -/
def castable (s : Scope) (len : Path) : Option Ident :=
  match len.getIdent with
  | none => none
  | some l =>
    match s.lookup (.name l) with
    | some (some (.prim _)) => some l
    | _ => none

/-- Can the element type be written in front of `::default()` and
`::try_unmarshal(..)`?  An array type or a path with arguments cannot. -/
def TypeE.callable : TypeE → Bool
  | .path (.mk segs) => segs.all fun | .mk _ args => args.isNone
  | _ => false

/-- The value of a local variable. -/
def local! (loc : List (Var × Val)) (x : Var) : Val := (loc.lookup x).getD .unit

/-- The generated statements: marshalable-derive/src/lib.rs:609-616, 620-625,
630-633, 660-662.  The result is the local variables at the end. -/
def elabU (Γ : Ctx) : List UStmt → Scope → Option (List (Var × Val) → UM (List (Var × Val)))
  | [], _ => some fun loc => pure loc
  | .letField name ty :: r, s =>
    if bufferVisible s then
      match Γ.ty ty with
      | none => none
      | some t =>
        match elabU Γ r ((.name name, some t) :: s) with
        | none => none
        | some k => some fun loc => do
          let v ← unmarshal t
          k ((.name name, v) :: loc)
    else none
  | .letVar i ty :: r, s =>
    if bufferVisible s then
      match Γ.ty ty with
      | none => none
      | some t =>
        match elabU Γ r ((.f i, some t) :: s) with
        | none => none
        | some k => some fun loc => do
          let v ← unmarshal t
          k ((.f i, v) :: loc)
    else none
  | .maxArr max name elem :: r, s =>
    -- inside the loop the array itself is in scope
    if bufferVisible ((.name name, none) :: s) && elem.callable then
      match Γ.ty elem, Γ.size max with
      | some t, some n =>
        match elabU Γ r ((.name name, none) :: s) with
        | none => none
        | some k => some fun loc => do
          let es ← unmarshalLoop (unmarshal t) n
          k ((.name name, .arr (es ++ (List.replicate n t.default).drop n)) :: loc)
      | _, _ => none
    else none
  | .lenArr len max name elem :: r, s =>
    if bufferVisible ((.name name, none) :: s) && elem.callable then
      match castable s len, Γ.ty elem, Γ.size max with
      | some l, some t, some n =>
        match elabU Γ r ((.name name, none) :: s) with
        | none => none
        | some k => some fun loc =>
          let length := asUsize (local! loc (.name l))
          if length > n then UM.fail .arrayLengthExceeded
          else do
            let es ← unmarshalLoop (unmarshal t) length
            k ((.name name, .arr (es ++ (List.replicate n t.default).drop length)) :: loc)
      | _, _, _ => none
    else none

/-- The variables of a field list. -/
def FieldList.vars' : FieldList → List Var
  | .names l => l.map .name
  | .vars n => (List.range n).map .f

/-- `Name{a, b,}`, `Name(f0, f1)`: the values of the variables in order. -/
def construct (l : FieldList) (loc : List (Var × Val)) : List Val := l.vars'.map (local! loc)

/-! ### Marshalling -/

/-- What is in scope of a marshalling body: the fields of `self`, or the
variables bound by a pattern, with their declared types. -/
structure Places where
  names : List (Ident × TypeE)
  index : List TypeE
  vars : List TypeE

/-- The position and type of a named field. -/
def Places.named (p : Places) (name : Ident) : Option (Nat × TypeE) :=
  match p.names.findIdx? (·.1 == name) with
  | none => none
  | some k => (p.names[k]?).map fun x => (k, x.2)

/-- `written += place.try_marshal(&mut buffer[written..])?;` followed by `k`. -/
def stepAt (t : Ty) (i : Nat) (k : List Val → Nat → Bytes → MOut) (vs : List Val) (written : Nat)
    (buf : Bytes) : MOut :=
  match vs[i]? with
  | none => (.panic, buf)
  | some v => mthen (mstep (marshal t v) written buf) (k vs)

/-- `for i in 0..n { written += place[i].try_marshal(&mut buffer[written..])?; }`
followed by `k`. -/
def loopAt (t : Ty) (n : List Val → Nat) (i : Nat) (k : List Val → Nat → Bytes → MOut)
    (vs : List Val) (written : Nat) (buf : Bytes) : MOut :=
  match vs[i]? with
  | some (.arr es) => mthen (marshalLoop (marshal t) (n vs) es written buf) (k vs)
  | _ => (.panic, buf)

/-- The generated statements: marshalable-derive/src/lib.rs:414-418, 421-425,
430-432, 461-463, 504-506.  The fields' values are given in the order of
declaration. -/
def elabM (Γ : Ctx) (p : Places) : List MStmt → Option (List Val → Nat → Bytes → MOut)
  | [] => some fun _ written buf => (.ok written, buf)
  | .field name :: r =>
    match p.named name with
    | none => none
    | some (i, ty) =>
      match Γ.ty ty, elabM Γ p r with
      | some t, some k => some (stepAt t i k)
      | _, _ => none
  | .index i :: r =>
    match p.index[i]? with
    | none => none
    | some ty =>
      match Γ.ty ty, elabM Γ p r with
      | some t, some k => some (stepAt t i k)
      | _, _ => none
  | .var i :: r =>
    match p.vars[i]? with
    | none => none
    | some ty =>
      match Γ.ty ty, elabM Γ p r with
      | some t, some k => some (stepAt t i k)
      | _, _ => none
  | .maxLoop max name :: r =>
    match p.named name with
    | some (i, .array elem _) =>
      match Γ.ty elem, Γ.size max, elabM Γ p r with
      | some t, some n, some k => some (loopAt t (fun _ => n) i k)
      | _, _, _ => none
    | _ => none
  | .lenLoop len name :: r =>
    match len.getIdent with
    | none => none
    | some l =>
      match p.named l, p.named name with
      | some (j, lty), some (i, .array elem _) =>
        match Γ.ty lty, Γ.ty elem, elabM Γ p r with
        | some (.prim _), some t, some k =>
          some (loopAt t (fun vs => asUsize (vs.getD j .unit)) i k)
        | _, _, _ => none
      | _, _ => none

/-! ### Implementations -/

/-- An implementation of `Marshalable`. -/
structure Codec where
  unmarshal : UM Val
  marshal : Val → Bytes → MOut

/-- The fields of `self` in a structure. -/
def selfPlaces : FieldsE → Places
  | .named fs => ⟨fs.map fun f => (f.ident, f.ty), [], []⟩
  | .unnamed ts => ⟨[], ts, []⟩
  | .unit => ⟨[], [], []⟩

/-- The generated `impl Marshalable` of a structure:
marshalable-derive/src/lib.rs:147-150, 184-198. -/
def elabStruct (Γ : Ctx) (fs : FieldsE) (m : List MStmt) (u : List UStmt) (inst : FieldList) :
    Option Codec :=
  match elabM Γ (selfPlaces fs) m, elabU Γ u [] with
  | some km, some ku => some {
      unmarshal := do
        let loc ← ku []
        pure (.struct (construct inst loc))
      marshal := fun v buf =>
        match v with
        | .struct vs => km vs 0 buf
        | _ => (.panic, buf) }  -- not a value of the type
  | _, _ => none

/-- An implementation of `MarshalableVariant`; values are given to `marshal` by
discriminant and data. -/
structure VariantCodec where
  unmarshal : Nat → UM Val
  marshal : Nat → List Val → Bytes → MOut

/-- The variables bound by a pattern `Name::Var(f0, ..)`, which must have as many
as the variant has data. -/
def patternPlaces : FieldList → FieldsE → Option Places
  | .vars n, .unnamed ts => if n = ts.length then some ⟨[], [], ts⟩ else none
  | _, _ => none

/-- The generated match: marshalable-derive/src/lib.rs:508-512, 517-520.  Goes
through the declared variants; every one must have an arm. -/
def elabArms (Γ : Ctx) (arms : List Arm) : List VariantE → Option (Nat → List Val → Bytes → MOut)
  | [] => some fun _ _ buf => (.panic, buf)  -- no value has another discriminant
  | v :: vs =>
    match arms.find? (·.variant == v.ident), v.disc with
    | some arm, some disc =>
      match Γ.sel disc, (patternPlaces arm.pattern v.fields).bind (elabM Γ · arm.body),
        elabArms Γ arms vs with
      | some s, some k, some rest =>
        some fun sel fvs buf => if sel = s then k fvs 0 buf else rest sel fvs buf
      | _, _, _ => none
    | _, _ => none

/-- The discriminant of the variant constructed by `Name::Var(f0, ..)`, which
must have as many arguments as declared. -/
def constructed (Γ : Ctx) (vs : List VariantE) (name : Ident) (args : FieldList) : Option Nat :=
  match vs.find? (·.ident == name) with
  | none => none
  | some v =>
    match patternPlaces args v.fields, v.disc with
    | some _, some disc => Γ.sel disc
    | _, _ => none

/-- The generated conditions: marshalable-derive/src/lib.rs:710-722. -/
def elabConds (Γ : Ctx) (vs : List VariantE) : List Cond → Option (Nat → UM Val)
  | [] => some fun _ => UM.fail .unknownSelector
  | c :: cs =>
    match Γ.sel c.sel, elabU Γ c.body [], constructed Γ vs c.variant c.fields,
      elabConds Γ vs cs with
    | some s, some k, some d, some rest => some fun sel =>
      if sel = s then do
        let loc ← k []
        pure (.enum d (construct c.fields loc))
      else rest sel
    | _, _, _, _ => none

/-- The generated `impl MarshalableVariant`: marshalable-derive/src/lib.rs:382-397. -/
def elabVariant (Γ : Ctx) (vs : List VariantE) (arms : List Arm) (conds : List Cond) :
    Option VariantCodec :=
  match elabArms Γ arms vs, elabConds Γ vs conds with
  | some m, some u => some ⟨u, m⟩
  | _, _ => none

/-- The generated `impl Marshalable` of an enum with a discriminant of `w`
bytes: marshalable-derive/src/lib.rs:473-478, 686-693. -/
def elabEnum (w : Nat) (c : VariantCodec) : Codec where
  unmarshal := do
    let sel ← unmarshalPrim w
    c.unmarshal sel
  marshal v buf :=
    match v with
    | .enum sel fvs =>
      mthen (mstep (marshalPrim w sel) 0 buf) fun written buf =>
        mstep (fun b => c.marshal sel fvs b) written buf
    | _ => (.panic, buf)  -- not a value of the type

/-- The codec of a `tpm2b_simple` structure: marshalable-derive/src/lib.rs:254-287. -/
def tpm2bCodec (cap : Nat) : Codec where
  unmarshal := unmarshalTpm2b cap
  marshal v buf :=
    match v with
    | .tpm2b size b => marshalTpm2b cap size b buf
    | _ => (.panic, buf)  -- not a value of the type

/-- The implementation of `Marshalable` among the generated items, for an input
whose enum discriminants have `w` bytes.  `none` if there is none, or if the
generated code does not compile. -/
def implOf (Γ : Ctx) (w : Nat) (input : Input) : List Item → Option Codec
  | [.marshalStruct _ m u inst] =>
    match input.data with
    | .struct fs => elabStruct Γ fs m u inst
    | _ => none
  | [.variant _ arms conds, .marshalEnum _] =>
    match input.data with
    | .enum vs => (elabVariant Γ vs arms conds).map (elabEnum w)
    | _ => none
  | [.tpm2bSimple _ _ size] => (Γ.size size).map tpm2bCodec
  | _ => none

end Verif.Derive
