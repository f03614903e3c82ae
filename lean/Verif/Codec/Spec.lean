import Verif.Codec.Ty

/-
Specification of the TPM wire format, stated independently of the code:
an encoding is the concatenation of the encodings of the parts.  No buffers,
offsets, or errors appear here.
-/

namespace Verif

/-- Positional (base 256, most significant byte first) value of a byte string. -/
def positional : Bytes → Nat
  | [] => 0
  | b :: bs => b.toNat * 256 ^ bs.length + positional bs

/-- The `n` base-256 digits of `x`, most significant first, by listing the
digit of each position. -/
def digits256 (n x : Nat) : Bytes :=
  (List.range n).reverse.map fun i => UInt8.ofNat (x / 256 ^ i % 256)

mutual
/-- The wire encoding of a value. -/
def wire : Ty → Val → Bytes
  | .prim n, .int x => digits256 n x
  | .bytes _, .bytes b => b
  | .tpm2b _, .tpm2b size b => digits256 2 size ++ b.take size
  | .struct fs, .struct vs => wireFields fs [] vs
  | .enum w vs, .enum sel fvs => digits256 w sel ++ wireVariant vs sel fvs
  | .split pre w mid vs, .split pvs mvs sel fvs =>
      wireFields pre [] pvs ++ digits256 w sel ++ wireFields mid [] mvs ++ wireVariant vs sel fvs
  | _, _ => []
/-- The encodings of the fields one after the other; a counted array
contributes as many elements as its length field says. -/
def wireFields : Fields → List Nat → List Val → Bytes
  | .plain t r, env, v :: vs => wire t v ++ wireFields r (env ++ [asUsize v]) vs
  | .fixedArr t _ r, env, .arr es :: vs =>
      (es.map fun e => wire t e).flatten ++ wireFields r (env ++ [0]) vs
  | .lenArr k t _ r, env, .arr es :: vs =>
      ((es.take (env.getD k 0)).map fun e => wire t e).flatten ++ wireFields r (env ++ [0]) vs
  | _, _, _ => []
/-- The encoding of the data of the selected variant. -/
def wireVariant : Variants → Nat → List Val → Bytes
  | .nil, _, _ => []
  | .cons s fs rest, sel, fvs => if sel = s then wireFields fs [] fvs else wireVariant rest sel fvs
end

mutual
/-- The canonical form of a value: everything the encoding carries, with the
unused bytes of sized buffers zero and the unused slots of counted arrays
default.  Two values with the same canonical form are the same TPM value. -/
def canon : Ty → Val → Val
  | .tpm2b cap, .tpm2b size b => .tpm2b size (b.take size ++ List.replicate (cap - size) 0)
  | .struct fs, .struct vs => .struct (canonFields fs [] vs)
  | .enum _ vs, .enum sel fvs => .enum sel (canonVariant vs sel fvs)
  | .split pre _ mid vs, .split pvs mvs sel fvs =>
      .split (canonFields pre [] pvs) (canonFields mid [] mvs) sel (canonVariant vs sel fvs)
  | _, v => v
/-- Canonical form of field lists. -/
def canonFields : Fields → List Nat → List Val → List Val
  | .plain t r, env, v :: vs => canon t v :: canonFields r (env ++ [asUsize v]) vs
  | .fixedArr t _ r, env, .arr es :: vs =>
      .arr (es.map fun e => canon t e) :: canonFields r (env ++ [0]) vs
  | .lenArr k t n r, env, .arr es :: vs =>
      .arr (((es.take (env.getD k 0)).map fun e => canon t e) ++
        List.replicate (n - env.getD k 0) t.default) ::
        canonFields r (env ++ [0]) vs
  | _, _, vs => vs
/-- Canonical form of variant data. -/
def canonVariant : Variants → Nat → List Val → List Val
  | .nil, _, fvs => fvs
  | .cons s fs rest, sel, fvs => if sel = s then canonFields fs [] fvs else canonVariant rest sel fvs
end

/-- The declared selectors of a union. -/
def Variants.selectors : Variants → List Nat
  | .nil => []
  | .cons s _ rest => s :: rest.selectors

/-- The fields declared for a selector. -/
def Variants.find : Variants → Nat → Option Fields
  | .nil, _ => none
  | .cons s fs rest, sel => if sel = s then some fs else rest.find sel

end Verif
