import Verif.Codec.Impl
import Verif.Codec.Spec

/-
Model of the code that `#[derive(Marshalable)]` generates for structures and enums some of whose
fields are of types with an implementation of `Marshalable` by the caller, and the specification
for C112.  `Verif.Codec.Impl` is about types all of whose parts are derived or of the crate.
-/

namespace Verif.Own
open Verif

/-! ### The code -/

/-- A type with an implementation of `Marshalable` by the caller: marshalable/src/lib.rs:30-36.
`default` is its `Default`, of which the slots of arrays are copies, and `asUsize` what `as usize`
makes of a value (of an enum without data, say; it does not matter for types that cannot be cast).
A slice `&mut [u8]` keeps its length. -/
structure Part (α : Type) where
  marshal : α → Bytes → MOut
  unmarshal : UM α
  default : α
  asUsize : α → Nat
  keeps_length : ∀ x b, (marshal x b).2.length = b.length

mutual
/-- A type as the derive macro sees it (marshalable-derive/src/lib.rs:125-204). -/
inductive Ty (X : Type) where
  /-- a type of the universe of `Verif.Codec.Ty` -/
  | std (t : Verif.Ty)
  /-- a type of the caller's own; `X` are the values of all of these -/
  | own (p : Part X)
  /-- a derived structure -/
  | struct (fs : Fields X)
  /-- a derived enum with primitive representation of `w` bytes -/
  | enum (w : Nat) (vs : Variants X)
/-- The fields, as in `Verif.Fields` (marshalable-derive/src/lib.rs:405-434, 458-468, 600-663). -/
inductive Fields (X : Type) where
  | nil
  | plain (t : Ty X) (rest : Fields X)
  | fixedArr (t : Ty X) (n : Nat) (rest : Fields X)
  | lenArr (k : Nat) (t : Ty X) (n : Nat) (rest : Fields X)
/-- The variants with their discriminants, as in `Verif.Variants`
(marshalable-derive/src/lib.rs:490-521, 695-727). -/
inductive Variants (X : Type) where
  | nil
  | cons (sel : Nat) (fs : Fields X) (rest : Variants X)
end

/-- In-memory values, as in `Verif.Val`. -/
inductive Val (X : Type) where
  | std (v : Verif.Val)
  | own (x : X)
  | struct (fs : List (Val X))
  | arr (es : List (Val X))
  | enum (sel : Nat) (fs : List (Val X))

variable {X : Type}

/-- `x as usize` for a length field of this type (marshalable-derive/src/lib.rs:415, 610, 614).
Simplified: a derived enum cannot be cast. -/
def asUsize : Ty X → Val X → Nat
  | .std _, .std v => Verif.asUsize v
  | .own p, .own x => p.asUsize x
  | _, _ => 0

mutual
/-- `Default::default()` (marshalable-derive/src/lib.rs:612, 621). -/
def Ty.default : Ty X → Val X
  | .std t => .std t.default
  | .own p => .own p.default
  | .struct fs => .struct fs.default
  | .enum _ vs => .enum vs.defaultSel vs.default
/-- Defaults of the fields (marshalable-derive/src/lib.rs:612, 621). -/
def Fields.default : Fields X → List (Val X)
  | .nil => []
  | .plain t r => t.default :: r.default
  | .fixedArr t n r => .arr (List.replicate n t.default) :: r.default
  | .lenArr _ t n r => .arr (List.replicate n t.default) :: r.default
/-- Data of the default variant (marshalable-derive/src/lib.rs:612, 621). -/
def Variants.default : Variants X → List (Val X)
  | .nil => []
  | .cons _ fs _ => fs.default
/-- Discriminant of the default variant (marshalable-derive/src/lib.rs:612, 621). -/
def Variants.defaultSel : Variants X → Nat
  | .nil => 0
  | .cons s _ _ => s
end

/-- `for i in name.iter_mut().take(n) { *i = T::try_unmarshal(buffer)?; }`:
marshalable-derive/src/lib.rs:613-615, 622-624. -/
def unmarshalLoop (u : UM (Val X)) : Nat → UM (List (Val X))
  | 0 => pure []
  | n + 1 => do
    let v ← u
    let vs ← unmarshalLoop u n
    pure (v :: vs)

mutual
/-- `T::try_unmarshal`: marshalable-derive/src/lib.rs:147-150, 187-189, 686-693. -/
def unmarshal : Ty X → UM (Val X)
  | .std t => do
    let v ← Verif.unmarshal t
    pure (.std v)
  | .own p => do
    let x ← p.unmarshal
    pure (.own x)
  | .struct fs => do
    let vs ← unmarshalFields fs []
    pure (.struct vs)
  | .enum w vs => do
    let sel ← unmarshalPrim w
    let fvs ← unmarshalVariant vs sel
    pure (.enum sel fvs)
/-- Field by field: marshalable-derive/src/lib.rs:597-634, 654-663. -/
def unmarshalFields : Fields X → List Nat → UM (List (Val X))
  | .nil, _ => pure []
  | .plain t r, env => do
    let v ← unmarshal t
    let vs ← unmarshalFields r (env ++ [asUsize t v])
    pure (v :: vs)
  | .fixedArr t n r, env => do
    let es ← unmarshalLoop (unmarshal t) n
    let vs ← unmarshalFields r (env ++ [0])
    pure (.arr (es ++ (List.replicate n t.default).drop n) :: vs)
  | .lenArr k t n r, env => do
    let len := env.getD k 0
    if len > n then UM.fail .arrayLengthExceeded
    else
      let es ← unmarshalLoop (unmarshal t) len
      let vs ← unmarshalFields r (env ++ [0])
      pure (.arr (es ++ (List.replicate n t.default).drop len) :: vs)
/-- `try_unmarshal_variant`: marshalable-derive/src/lib.rs:695-727. -/
def unmarshalVariant : Variants X → Nat → UM (List (Val X))
  | .nil, _ => UM.fail .unknownSelector
  | .cons s fs rest, sel =>
    if sel = s then unmarshalFields fs [] else unmarshalVariant rest sel
end

/-- `for i in 0..n { written += self.name[i].try_marshal(&mut buffer[written..])?; }`:
marshalable-derive/src/lib.rs:414-418, 421-425. -/
def marshalLoop (f : Val X → Bytes → MOut) : Nat → List (Val X) → Nat → Bytes → MOut
  | 0, _, written, buf => (.ok written, buf)
  | _ + 1, [], _, buf => (.panic, buf)
  | n + 1, v :: vs, written, buf =>
    mthen (mstep (f v) written buf) fun w buf => marshalLoop f n vs w buf

mutual
/-- `try_marshal`: marshalable-derive/src/lib.rs:191-195, 473-478. -/
def marshal : Ty X → Val X → Bytes → MOut
  | .std t, .std v, buf => Verif.marshal t v buf
  | .own p, .own x, buf => p.marshal x buf
  | .struct fs, .struct vs, buf => marshalFields fs [] vs 0 buf
  | .enum w vs, .enum sel fvs, buf =>
    mthen (mstep (marshalPrim w sel) 0 buf) fun written buf =>
      mstep (fun b => marshalVariant vs sel fvs b) written buf
  | _, _, buf => (.panic, buf)
/-- Field by field: marshalable-derive/src/lib.rs:405-434, 458-468. -/
def marshalFields : Fields X → List Nat → List (Val X) → Nat → Bytes → MOut
  | .nil, _, [], written, buf => (.ok written, buf)
  | .plain t r, env, v :: vs, written, buf =>
    mthen (mstep (fun b => marshal t v b) written buf) fun w buf =>
      marshalFields r (env ++ [asUsize t v]) vs w buf
  | .fixedArr t n r, env, .arr es :: vs, written, buf =>
    mthen (marshalLoop (fun v b => marshal t v b) n es written buf) fun w buf =>
      marshalFields r (env ++ [0]) vs w buf
  | .lenArr k t _ r, env, .arr es :: vs, written, buf =>
    mthen (marshalLoop (fun v b => marshal t v b) (env.getD k 0) es written buf) fun w buf =>
      marshalFields r (env ++ [0]) vs w buf
  | _, _, _, _, buf => (.panic, buf)
/-- `try_marshal_variant`: marshalable-derive/src/lib.rs:490-521. -/
def marshalVariant : Variants X → Nat → List (Val X) → Bytes → MOut
  | .nil, _, _, buf => (.panic, buf)
  | .cons s fs rest, sel, fvs, buf =>
    if sel = s then marshalFields fs [] fvs 0 buf else marshalVariant rest sel fvs buf
end

/-! ### Specification -/

/-- What the values of a type stand for: which are sound, their encoding, and the value that is
read back. -/
structure Meaning (α : Type) where
  sound : α → Prop
  bytes : α → Bytes
  canon : α → α

/-- An implementation of `Marshalable` that does what it should: it writes the encoding of sound
values if there is room for it, and nothing is written successfully without; it reads what is the
encoding of a sound value, and only that, leaving what comes behind; it does not panic when reading
and takes bytes from the front. -/
structure Lawful {α : Type} (p : Part α) (m : Meaning α) : Prop where
  writes : ∀ x buf, m.sound x → (m.bytes x).length ≤ buf.length →
    p.marshal x buf = (.ok (m.bytes x).length, m.bytes x ++ buf.drop (m.bytes x).length)
  refuses : ∀ x buf n, m.sound x → buf.length < (m.bytes x).length → (p.marshal x buf).1 ≠ .ok n
  reads : ∀ x r, m.sound x → p.unmarshal (m.bytes x ++ r) = (.ok (m.canon x), r)
  only : ∀ b x r, p.unmarshal b = (.ok x, r) → m.sound x ∧ m.canon x = x ∧ b = m.bytes x ++ r
  total : ∀ b, (p.unmarshal b).1 ≠ .panic ∧ ∃ q, b = q ++ (p.unmarshal b).2
  cast : ∀ x, m.sound x → p.asUsize (m.canon x) = p.asUsize x

/-- It does not panic when there is no room for a sound value. -/
def Calm {α : Type} (p : Part α) (m : Meaning α) : Prop :=
  ∀ x buf, m.sound x → (p.marshal x buf).1 ≠ .panic

mutual
/-- All types of the caller's own in the type are such. -/
def Ty.Own (P : Part X → Prop) : Ty X → Prop
  | .std _ => True
  | .own p => P p
  | .struct fs => fs.Own P
  | .enum _ vs => vs.Own P
/-- All types of the caller's own in the fields. -/
def Fields.Own (P : Part X → Prop) : Fields X → Prop
  | .nil => True
  | .plain t r => t.Own P ∧ r.Own P
  | .fixedArr t _ r => t.Own P ∧ r.Own P
  | .lenArr _ t _ r => t.Own P ∧ r.Own P
/-- All types of the caller's own in the variants. -/
def Variants.Own (P : Part X → Prop) : Variants X → Prop
  | .nil => True
  | .cons _ fs rest => fs.Own P ∧ rest.Own P
end

mutual
/-- All other types that are not derived here are such. -/
def Ty.Std (P : Verif.Ty → Prop) : Ty X → Prop
  | .std t => P t
  | .own _ => True
  | .struct fs => fs.Std P
  | .enum _ vs => vs.Std P
/-- All other types in the fields. -/
def Fields.Std (P : Verif.Ty → Prop) : Fields X → Prop
  | .nil => True
  | .plain t r => t.Std P ∧ r.Std P
  | .fixedArr t _ r => t.Std P ∧ r.Std P
  | .lenArr _ t _ r => t.Std P ∧ r.Std P
/-- All other types in the variants. -/
def Variants.Std (P : Verif.Ty → Prop) : Variants X → Prop
  | .nil => True
  | .cons _ fs rest => fs.Std P ∧ rest.Std P
end

mutual
/-- The value of which the unused slots of arrays are copies: the `Default` of the part, of every
field and of the first variant; arrays have all their slots. -/
def Blank : Ty X → Val X → Prop
  | .std t, v => v = .std t.default
  | .own p, v => v = .own p.default
  | .struct fs, v => ∃ vs, v = .struct vs ∧ BlankFields fs vs
  | .enum _ .nil, v => v = .enum 0 []
  | .enum _ (.cons s fs _), v => ∃ vs, v = .enum s vs ∧ BlankFields fs vs
/-- The same for fields. -/
def BlankFields : Fields X → List (Val X) → Prop
  | .nil, vs => vs = []
  | .plain t r, vs => ∃ v rest, vs = v :: rest ∧ Blank t v ∧ BlankFields r rest
  | .fixedArr t n r, vs => ∃ (es : List (Val X)) (rest : List (Val X)), vs = .arr es :: rest ∧
      es.length = n ∧ (∀ e ∈ es, Blank t e) ∧ BlankFields r rest
  | .lenArr _ t n r, vs => ∃ (es : List (Val X)) (rest : List (Val X)), vs = .arr es :: rest ∧
      es.length = n ∧ (∀ e ∈ es, Blank t e) ∧ BlankFields r rest
end

/-! Reading with parts of any kind: which value is read, and how reading ends otherwise. -/

/-- An end without a value: an error, or (`none`) a panic. -/
abbrev Halt := Option MErr

/-- The outcome without a value. -/
def Halt.res {α : Type} : Halt → Res MErr α
  | some e => .err e
  | none => .panic

/-- The first variant with the discriminant. -/
inductive Selects : Variants X → Nat → Fields X → Prop
  | here {s fs rest} : Selects (.cons s fs rest) s fs
  | there {s d fs fs' rest} : s ≠ d → Selects rest s fs' → Selects (.cons d fs rest) s fs'

mutual
/-- From the bytes the value is read, and the other bytes are left. -/
inductive Reads : Ty X → Bytes → Val X → Bytes → Prop
  | std {t b v r} : Verif.unmarshal t b = (.ok v, r) → Reads (.std t) b (.std v) r
  | own {p b x r} : p.unmarshal b = (.ok x, r) → Reads (.own p) b (.own x) r
  | struct {fs b vs r} : ReadsFields fs [] b vs r → Reads (.struct fs) b (.struct vs) r
  | enum {w vs b r fs fvs} (d : Bytes) : d.length = w → Selects vs (positional d) fs →
      ReadsFields fs [] b fvs r → Reads (.enum w vs) (d ++ b) (.enum (positional d) fvs) r
/-- The fields are read from left to right. -/
inductive ReadsFields : Fields X → List Nat → Bytes → List (Val X) → Bytes → Prop
  | nil {env b} : ReadsFields .nil env b [] b
  | plain {t rest env b v b' vs r} : Reads t b v b' →
      ReadsFields rest (env ++ [asUsize t v]) b' vs r → ReadsFields (.plain t rest) env b (v :: vs) r
  | fixedArr {t n rest env b es b' vs r} : ReadsAll t n b es b' →
      ReadsFields rest (env ++ [0]) b' vs r →
      ReadsFields (.fixedArr t n rest) env b (.arr es :: vs) r
  | lenArr {k t n rest env b es b' vs r} : env.getD k 0 ≤ n → ReadsAll t (env.getD k 0) b es b' →
      ReadsFields rest (env ++ [0]) b' vs r →
      ReadsFields (.lenArr k t n rest) env b
        (.arr (es ++ List.replicate (n - env.getD k 0) t.default) :: vs) r
/-- So many elements are read one after the other. -/
inductive ReadsAll : Ty X → Nat → Bytes → List (Val X) → Bytes → Prop
  | nil {t b} : ReadsAll t 0 b [] b
  | cons {t n b v b' vs r} : Reads t b v b' → ReadsAll t n b' vs r → ReadsAll t (n + 1) b (v :: vs) r
end

mutual
/-- Reading from the bytes ends so, with the other bytes left. -/
inductive Stops : Ty X → Bytes → Halt → Bytes → Prop
  | std {t b h r} : Verif.unmarshal t b = (h.res, r) → Stops (.std t) b h r
  | own {p b h r} : p.unmarshal b = (h.res, r) → Stops (.own p) b h r
  | struct {fs b h r} : StopsFields fs [] b h r → Stops (.struct fs) b h r
  | short {w vs b} : b.length < w → Stops (.enum w vs) b (some .unexpectedEndOfBuffer) b
  | unknown {w vs b} (d : Bytes) : d.length = w → (∀ fs, ¬ Selects vs (positional d) fs) →
      Stops (.enum w vs) (d ++ b) (some .unknownSelector) b
  | enum {w vs b h r fs} (d : Bytes) : d.length = w → Selects vs (positional d) fs →
      StopsFields fs [] b h r → Stops (.enum w vs) (d ++ b) h r
/-- The first field that cannot be read stops it. -/
inductive StopsFields : Fields X → List Nat → Bytes → Halt → Bytes → Prop
  | here {t rest env b h r} : Stops t b h r → StopsFields (.plain t rest) env b h r
  | there {t rest env b v b' h r} : Reads t b v b' →
      StopsFields rest (env ++ [asUsize t v]) b' h r → StopsFields (.plain t rest) env b h r
  | fixedHere {t n rest env b h r} : StopsAll t n b h r → StopsFields (.fixedArr t n rest) env b h r
  | fixedThere {t n rest env b es b' h r} : ReadsAll t n b es b' →
      StopsFields rest (env ++ [0]) b' h r → StopsFields (.fixedArr t n rest) env b h r
  | long {k t n rest env b} : n < env.getD k 0 →
      StopsFields (.lenArr k t n rest) env b (some .arrayLengthExceeded) b
  | lenHere {k t n rest env b h r} : env.getD k 0 ≤ n → StopsAll t (env.getD k 0) b h r →
      StopsFields (.lenArr k t n rest) env b h r
  | lenThere {k t n rest env b es b' h r} : env.getD k 0 ≤ n → ReadsAll t (env.getD k 0) b es b' →
      StopsFields rest (env ++ [0]) b' h r → StopsFields (.lenArr k t n rest) env b h r
/-- The first element that cannot be read stops it. -/
inductive StopsAll : Ty X → Nat → Bytes → Halt → Bytes → Prop
  | here {t n b h r} : Stops t b h r → StopsAll t (n + 1) b h r
  | there {t n b v b' h r} : Reads t b v b' → StopsAll t n b' h r → StopsAll t (n + 1) b h r
end

variable (M : Part X → Meaning X)

mutual
/-- Sound values: those whose parts are sound and whose counts are within the capacities.  `M` gives
the meaning of the types of the caller's own. -/
def Sound : Ty X → Val X → Prop
  | .std t, .std v => WF t v
  | .own p, .own x => (M p).sound x
  | .struct fs, .struct vs => SoundFields fs [] vs
  | .enum w vs, .enum sel fvs => sel < 256 ^ w ∧ SoundVariant vs sel fvs
  | _, _ => False
/-- Sound fields. -/
def SoundFields : Fields X → List Nat → List (Val X) → Prop
  | .nil, _, [] => True
  | .plain t r, env, v :: vs => Sound t v ∧ SoundFields r (env ++ [asUsize t v]) vs
  | .fixedArr t n r, env, .arr es :: vs =>
      es.length = n ∧ (∀ e ∈ es, Sound t e) ∧ SoundFields r (env ++ [0]) vs
  | .lenArr k t n r, env, .arr es :: vs =>
      es.length = n ∧ env.getD k 0 ≤ n ∧ (∀ e ∈ es.take (env.getD k 0), Sound t e) ∧
      SoundFields r (env ++ [0]) vs
  | _, _, _ => False
/-- Sound data of a variant. -/
def SoundVariant : Variants X → Nat → List (Val X) → Prop
  | .nil, _, _ => False
  | .cons s fs rest, sel, fvs => if sel = s then SoundFields fs [] fvs else SoundVariant rest sel fvs
end

mutual
/-- The encoding: that of the parts one after the other. -/
def wire : Ty X → Val X → Bytes
  | .std t, .std v => Verif.wire t v
  | .own p, .own x => (M p).bytes x
  | .struct fs, .struct vs => wireFields fs [] vs
  | .enum w vs, .enum sel fvs => digits256 w sel ++ wireVariant vs sel fvs
  | _, _ => []
/-- Of fields; a counted array has as many elements as its length field says. -/
def wireFields : Fields X → List Nat → List (Val X) → Bytes
  | .plain t r, env, v :: vs => wire t v ++ wireFields r (env ++ [asUsize t v]) vs
  | .fixedArr t _ r, env, .arr es :: vs =>
      (es.map fun e => wire t e).flatten ++ wireFields r (env ++ [0]) vs
  | .lenArr k t _ r, env, .arr es :: vs =>
      ((es.take (env.getD k 0)).map fun e => wire t e).flatten ++ wireFields r (env ++ [0]) vs
  | _, _, _ => []
/-- Of the data of the selected variant. -/
def wireVariant : Variants X → Nat → List (Val X) → Bytes
  | .nil, _, _ => []
  | .cons s fs rest, sel, fvs => if sel = s then wireFields fs [] fvs else wireVariant rest sel fvs
end

mutual
/-- The value that is read back: that of the parts, and the default in the slots of counted arrays
that are not used. -/
def canon : Ty X → Val X → Val X
  | .std t, .std v => .std (Verif.canon t v)
  | .own p, .own x => .own ((M p).canon x)
  | .struct fs, .struct vs => .struct (canonFields fs [] vs)
  | .enum _ vs, .enum sel fvs => .enum sel (canonVariant vs sel fvs)
  | _, v => v
/-- Of fields. -/
def canonFields : Fields X → List Nat → List (Val X) → List (Val X)
  | .plain t r, env, v :: vs => canon t v :: canonFields r (env ++ [asUsize t v]) vs
  | .fixedArr t _ r, env, .arr es :: vs =>
      .arr (es.map fun e => canon t e) :: canonFields r (env ++ [0]) vs
  | .lenArr k t n r, env, .arr es :: vs =>
      .arr (((es.take (env.getD k 0)).map fun e => canon t e) ++
        List.replicate (n - env.getD k 0) t.default) ::
        canonFields r (env ++ [0]) vs
  | _, _, vs => vs
/-- Of the data of a variant. -/
def canonVariant : Variants X → Nat → List (Val X) → List (Val X)
  | .nil, _, fvs => fvs
  | .cons s fs rest, sel, fvs => if sel = s then canonFields fs [] fvs else canonVariant rest sel fvs
end

/-- The meaning of a derived type. -/
def meaning (t : Ty X) : Meaning (Val X) := ⟨Sound M t, wire M t, canon M t⟩

end Verif.Own
