import Verif.Derive.OwnProps
import Verif.Width.OwnCodecProps

/-
The code the derive macro generates, on a machine with a `usize` of a given width, for declarations
with types of the caller's own: model and specification for C120.  What compiles and which statements are
generated does not depend on the machine (`Verif.Derive.OwnSem`).
-/

namespace Verif.Own.Derive.Wide
open Verif
open _root_.Verif.Derive
open Verif.UM (bind_eq pure_eq)

variable {X : Type}

/-- The generated statements: marshalable-derive/src/lib.rs:609-616, 620-625, 630-633, 660-662. -/
def elabUOn (m : Machine) (Γ : Ctx X) : List UStmt → Scope →
    Option (List (Var × Val X) → UM (List (Var × Val X)))
  | [], _ => some fun loc => pure loc
  | .letField name ty :: r, s =>
    if bufferVisible s then
      match Γ.ty ty with
      | none => none
      | some t =>
        match elabUOn m Γ r ((.name name, some ty) :: s) with
        | none => none
        | some k => some fun loc => do
          let v ← unmarshalOn m t
          k ((.name name, v) :: loc)
    else none
  | .letVar i ty :: r, s =>
    if bufferVisible s then
      match Γ.ty ty with
      | none => none
      | some t =>
        match elabUOn m Γ r ((.f i, some ty) :: s) with
        | none => none
        | some k => some fun loc => do
          let v ← unmarshalOn m t
          k ((.f i, v) :: loc)
    else none
  | .maxArr max name elem :: r, s =>
    if bufferVisible ((.name name, none) :: s) && Γ.element elem then
      match Γ.ty elem, Γ.size max with
      | some t, some n =>
        match elabUOn m Γ r ((.name name, none) :: s) with
        | none => none
        | some k => some fun loc => do
          let es ← unmarshalLoop (unmarshalOn m t) n
          k ((.name name, .arr (es ++ (List.replicate n t.default).drop n)) :: loc)
      | _, _ => none
    else none
  | .lenArr len max name elem :: r, s =>
    if bufferVisible ((.name name, none) :: s) && Γ.element elem then
      match castable Γ s len, Γ.ty elem, Γ.size max with
      | some (l, lt), some t, some n =>
        match elabUOn m Γ r ((.name name, none) :: s) with
        | none => none
        | some k => some fun loc =>
          let length := m.cast (asUsize lt (local! loc (.name l)))
          if length > n then UM.fail .arrayLengthExceeded
          else do
            let es ← unmarshalLoop (unmarshalOn m t) length
            k ((.name name, .arr (es ++ (List.replicate n t.default).drop length)) :: loc)
      | _, _, _ => none
    else none

/-- `written += place.try_marshal(&mut buffer[written..])?;` followed by `k`:
marshalable-derive/src/lib.rs:430-432, 461-463, 504-506. -/
def stepAtOn (m : Machine) (t : Ty X) (i : Nat) (k : List (Val X) → Nat → Bytes → MOut) (vs : List (Val X))
    (written : Nat) (buf : Bytes) : MOut :=
  match vs[i]? with
  | none => (.panic, buf)
  | some v => mthen (mstepOn m (fun b => marshalOn m t v b) written buf) (k vs)

/-- `for i in 0..n { written += place[i].try_marshal(&mut buffer[written..])?; }` followed by `k`:
marshalable-derive/src/lib.rs:414-418, 421-425. -/
def loopAtOn (m : Machine) (t : Ty X) (n : List (Val X) → Nat) (i : Nat) (k : List (Val X) → Nat → Bytes → MOut)
    (vs : List (Val X)) (written : Nat) (buf : Bytes) : MOut :=
  match vs[i]? with
  | some (.arr es) => mthen (marshalLoopOn m (fun v b => marshalOn m t v b) (n vs) es written buf) (k vs)
  | _ => (.panic, buf)

/-- The generated statements: marshalable-derive/src/lib.rs:414-418, 421-425, 430-432, 461-463,
504-506.  The fields' values are given in the order of declaration. -/
def elabMOn (m : Machine) (Γ : Ctx X) (p : Places) : List MStmt → Option (List (Val X) → Nat → Bytes → MOut)
  | [] => some fun _ written buf => (.ok written, buf)
  | .field name :: r =>
    match p.named name with
    | none => none
    | some (i, ty) =>
      match Γ.ty ty, elabMOn m Γ p r with
      | some t, some k => some (stepAtOn m t i k)
      | _, _ => none
  | .index i :: r =>
    match p.index[i]? with
    | none => none
    | some ty =>
      match Γ.ty ty, elabMOn m Γ p r with
      | some t, some k => some (stepAtOn m t i k)
      | _, _ => none
  | .var i :: r =>
    match p.vars[i]? with
    | none => none
    | some ty =>
      match Γ.ty ty, elabMOn m Γ p r with
      | some t, some k => some (stepAtOn m t i k)
      | _, _ => none
  | .maxLoop max name :: r =>
    match p.named name with
    | some (i, .array elem _) =>
      match Γ.ty elem, Γ.size max, elabMOn m Γ p r with
      | some t, some n, some k => some (loopAtOn m t (fun _ => n) i k)
      | _, _, _ => none
    | _ => none
  | .lenLoop len name :: r =>
    match len.getIdent with
    | none => none
    | some l =>
      match p.named l, p.named name with
      | some (j, lty), some (i, .array elem _) =>
        match Γ.cast lty, Γ.ty lty, Γ.ty elem, elabMOn m Γ p r with
        | true, some lt, some t, some k =>
          some (loopAtOn m t (fun vs => m.cast (asUsize lt (vs.getD j (.std .unit)))) i k)
        | _, _, _, _ => none
      | _, _ => none

/-- The generated `impl Marshalable` of a structure: marshalable-derive/src/lib.rs:147-150, 184-198. -/
def elabStructOn (m : Machine) (Γ : Ctx X) (fs : FieldsE) (ms : List MStmt) (u : List UStmt) (inst : FieldList) :
    Option (Codec X) :=
  match elabMOn m Γ (selfPlaces fs) ms, elabUOn m Γ u [] with
  | some km, some ku => some {
      unmarshal := do
        let loc ← ku []
        pure (.struct (construct inst loc))
      marshal := fun v buf =>
        match v with
        | .struct vs => km vs 0 buf
        | _ => (.panic, buf) }  -- not a value of the type
  | _, _ => none

/-- The generated match: marshalable-derive/src/lib.rs:508-512, 517-520. -/
def elabArmsOn (m : Machine) (Γ : Ctx X) (arms : List Arm) : List VariantE →
    Option (Nat → List (Val X) → Bytes → MOut)
  | [] => some fun _ _ buf => (.panic, buf)  -- no value has another discriminant
  | v :: vs =>
    match arms.find? (·.variant == v.ident), v.disc with
    | some arm, some disc =>
      match Γ.sel disc, (patternPlaces arm.pattern v.fields).bind (elabMOn m Γ · arm.body),
        elabArmsOn m Γ arms vs with
      | some s, some k, some rest =>
        some fun sel fvs buf => if sel = s then k fvs 0 buf else rest sel fvs buf
      | _, _, _ => none
    | _, _ => none

/-- The generated conditions: marshalable-derive/src/lib.rs:710-722. -/
def elabCondsOn (m : Machine) (Γ : Ctx X) (vs : List VariantE) : List Cond → Option (Nat → UM (Val X))
  | [] => some fun _ => UM.fail .unknownSelector
  | c :: cs =>
    match Γ.sel c.sel, elabUOn m Γ c.body [], constructed Γ vs c.variant c.fields,
      elabCondsOn m Γ vs cs with
    | some s, some k, some d, some rest => some fun sel =>
      if sel = s then do
        let loc ← k []
        pure (.enum d (construct c.fields loc))
      else rest sel
    | _, _, _, _ => none

/-- The generated `impl MarshalableVariant`: marshalable-derive/src/lib.rs:382-397. -/
def elabVariantOn (m : Machine) (Γ : Ctx X) (vs : List VariantE) (arms : List Arm) (conds : List Cond) :
    Option (VariantCodec X) :=
  match elabArmsOn m Γ arms vs, elabCondsOn m Γ vs conds with
  | some ms, some u => some ⟨u, ms⟩
  | _, _ => none

/-- The generated `impl Marshalable` of an enum with a discriminant of `w` bytes:
marshalable-derive/src/lib.rs:473-478, 686-693. -/
def elabEnumOn (m : Machine) (w : Nat) (c : VariantCodec X) : Codec X where
  unmarshal := do
    let sel ← unmarshalPrim w
    c.unmarshal sel
  marshal v buf :=
    match v with
    | .enum sel fvs =>
      mthen (mstepOn m (marshalPrim w sel) 0 buf) fun written buf =>
        mstepOn m (fun b => c.marshal sel fvs b) written buf
    | _ => (.panic, buf)  -- not a value of the type

/-- The implementation of `Marshalable` among the generated items (marshalable-derive/src/lib.rs:125-204),
for an input whose enum discriminants have `w` bytes.  `none` if there is none, or if the generated code
does not compile.  Not here: sized buffers, which have no parts of the caller's own. -/
def implOfOn (m : Machine) (Γ : Ctx X) (w : Nat) (input : Input) : List Item → Option (Codec X)
  | [.marshalStruct _ ms u inst] =>
    match input.data with
    | .struct fs => elabStructOn m Γ fs ms u inst
    | _ => none
  | [.variant _ arms conds, .marshalEnum _] =>
    match input.data with
    | .enum vs => (elabVariantOn m Γ vs arms conds).map (elabEnumOn m w)
    | _ => none
  | _ => none

/-! ### Specification -/

/-- The codec implements the marshalable type on the machine. -/
def ImplementsOn (m : Machine) (c : Codec X) (t : Ty X) : Prop :=
  c.unmarshal = unmarshalOn m t ∧ ∀ v buf, Formed t v → c.marshal v buf = marshalOn m t v buf

end Verif.Own.Derive.Wide
