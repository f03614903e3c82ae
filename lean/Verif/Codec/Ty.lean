import Verif.Basic

/-
The universe of types that `#[derive(Marshalable)]` accepts, together with
in-memory values.  A `Ty` is what the derive macro sees (marshalable-derive/
src/lib.rs:125-204): primitive integers, `()`, byte arrays, `tpm2b_simple`
structures, structures, enums, plus the shape of the three hand-written
implementations in base/src/lib.rs (774-802, 1181-1204, 1249-1270).
-/

namespace Verif

mutual
/-- A marshalable Rust type. -/
inductive Ty where
  /-- an `n`-byte integer (marshalable/src/lib.rs:99-120); signed integers are
  represented by their two's complement bit pattern -/
  | prim (n : Nat)
  /-- the unit type (marshalable/src/lib.rs:122-129) -/
  | unit
  /-- `[u8; m]` (marshalable/src/lib.rs:131-150) -/
  | bytes (m : Nat)
  /-- a structure marked `tpm2b_simple` with a buffer of `cap` bytes
  (marshalable-derive/src/lib.rs:205-290) -/
  | tpm2b (cap : Nat)
  /-- a derived structure, named, unnamed or unit -/
  | struct (fs : Fields)
  /-- a derived enum with primitive representation of `w` bytes -/
  | enum (w : Nat) (vs : Variants)
  /-- a hand-written implementation: fields `pre`, the selector of `w` bytes,
  fields `mid`, then the data of the selected variant
  (base/src/lib.rs:774-802, 1181-1204, 1249-1270) -/
  | split (pre : Fields) (w : Nat) (mid : Fields) (vs : Variants)

/-- The fields of a structure or enum variant, in declaration order. -/
inductive Fields where
  | nil
  /-- a field that is not an array (marshalable-derive/src/lib.rs:426-433,
  627-634) or any unnamed field (458-468, 654-663) -/
  | plain (t : Ty) (rest : Fields)
  /-- a named `[t; n]` field without attribute
  (marshalable-derive/src/lib.rs:419-425, 617-626) -/
  | fixedArr (t : Ty) (n : Nat) (rest : Fields)
  /-- a named `[t; n]` field with `#[marshalable(length = f)]`, where `f` is the
  field number `k` of the same structure
  (marshalable-derive/src/lib.rs:411-418, 605-616) -/
  | lenArr (k : Nat) (t : Ty) (n : Nat) (rest : Fields)

/-- The variants of an enum with their explicit discriminants. -/
inductive Variants where
  | nil
  | cons (sel : Nat) (fs : Fields) (rest : Variants)
end

/-- In-memory values, untyped.  `HasTy` below says which value inhabits which
type. -/
inductive Val where
  | int (x : Nat)
  | unit
  | bytes (b : Bytes)
  /-- `size` and the whole backing array -/
  | tpm2b (size : Nat) (buf : Bytes)
  | struct (fs : List Val)
  /-- the whole backing array of an array field -/
  | arr (es : List Val)
  | enum (sel : Nat) (fs : List Val)
  | split (pre mid : List Val) (sel : Nat) (fs : List Val)

/-- `x as usize` for a length field; only integers can be cast, so the value
for the other constructors is irrelevant (such a derive does not compile). -/
def asUsize : Val → Nat
  | .int x => x
  | _ => 0

mutual
/-- Rust's typing of in-memory values: integer ranges, array lengths and enum
discriminants, and nothing else.  Public length fields may hold any value. -/
def HasTy : Ty → Val → Prop
  | .prim n, .int x => x < 256 ^ n
  | .unit, .unit => True
  | .bytes m, .bytes b => b.length = m
  | .tpm2b cap, .tpm2b size b => size < 65536 ∧ b.length = cap
  | .struct fs, .struct vs => HasTyFields fs vs
  | .enum w vs, .enum sel fvs => sel < 256 ^ w ∧ HasTyVariant vs sel fvs
  | .split pre w mid vs, .split pvs mvs sel fvs =>
      HasTyFields pre pvs ∧ HasTyFields mid mvs ∧ sel < 256 ^ w ∧ HasTyVariant vs sel fvs
  | _, _ => False
/-- Typing of field lists. -/
def HasTyFields : Fields → List Val → Prop
  | .nil, [] => True
  | .plain t r, v :: vs => HasTy t v ∧ HasTyFields r vs
  | .fixedArr t n r, .arr es :: vs => es.length = n ∧ (∀ e ∈ es, HasTy t e) ∧ HasTyFields r vs
  | .lenArr _ t n r, .arr es :: vs => es.length = n ∧ (∀ e ∈ es, HasTy t e) ∧ HasTyFields r vs
  | _, _ => False
/-- Typing of variant data: the first variant with this discriminant. -/
def HasTyVariant : Variants → Nat → List Val → Prop
  | .nil, _, _ => False
  | .cons s fs rest, sel, fvs => if sel = s then HasTyFields fs fvs else HasTyVariant rest sel fvs
end

mutual
/-- Well-formed values: typed, every sized buffer's size is within its
capacity and every length field is within the capacity of the array it
controls.  `env` holds the values of the preceding fields of the same
structure. -/
def WF : Ty → Val → Prop
  | .prim n, .int x => x < 256 ^ n
  | .unit, .unit => True
  | .bytes m, .bytes b => b.length = m
  | .tpm2b cap, .tpm2b size b => size < 65536 ∧ b.length = cap ∧ size ≤ cap
  | .struct fs, .struct vs => WFFields fs [] vs
  | .enum w vs, .enum sel fvs => sel < 256 ^ w ∧ WFVariant vs sel fvs
  | .split pre w mid vs, .split pvs mvs sel fvs =>
      WFFields pre [] pvs ∧ WFFields mid [] mvs ∧ sel < 256 ^ w ∧ WFVariant vs sel fvs
  | _, _ => False
/-- Well-formed field lists. Only the first `env[k]` elements of a counted
array carry information; nothing is required of the remaining slots. -/
def WFFields : Fields → List Nat → List Val → Prop
  | .nil, _, [] => True
  | .plain t r, env, v :: vs => WF t v ∧ WFFields r (env ++ [asUsize v]) vs
  | .fixedArr t n r, env, .arr es :: vs =>
      es.length = n ∧ (∀ e ∈ es, WF t e) ∧ WFFields r (env ++ [0]) vs
  | .lenArr k t n r, env, .arr es :: vs =>
      es.length = n ∧ env.getD k 0 ≤ n ∧ (∀ e ∈ es.take (env.getD k 0), WF t e) ∧
      WFFields r (env ++ [0]) vs
  | _, _, _ => False
/-- Well-formed variant data. -/
def WFVariant : Variants → Nat → List Val → Prop
  | .nil, _, _ => False
  | .cons s fs rest, sel, fvs => if sel = s then WFFields fs [] fvs else WFVariant rest sel fvs
end

mutual
/-- `Default::default()` of a type: zeros everywhere; derived `Default` for
structures, marshalable-derive/src/lib.rs:239-246 for sized buffers,
base/src/lib.rs:584-588 for `TpmtHa` (first variant, zeros), which is the only
enum with a default in the code base. -/
def Ty.default : Ty → Val
  | .prim _ => .int 0
  | .unit => .unit
  | .bytes m => .bytes (List.replicate m 0)
  | .tpm2b cap => .tpm2b 0 (List.replicate cap 0)
  | .struct fs => .struct fs.default
  | .enum _ vs => .enum vs.defaultSel vs.default
  | .split pre _ mid vs => .split pre.default mid.default vs.defaultSel vs.default
/-- Defaults of a field list. -/
def Fields.default : Fields → List Val
  | .nil => []
  | .plain t r => t.default :: r.default
  | .fixedArr t n r => .arr (List.replicate n t.default) :: r.default
  | .lenArr _ t n r => .arr (List.replicate n t.default) :: r.default
/-- Data of the default variant. -/
def Variants.default : Variants → List Val
  | .nil => []
  | .cons _ fs _ => fs.default
/-- Discriminant of the default variant. -/
def Variants.defaultSel : Variants → Nat
  | .nil => 0
  | .cons s _ _ => s
end

end Verif
