import Verif.Tpm2.Impl
import Verif.Codec.Impl

/-
Model of the fixed-size values of the zero-copy structure crate
(crates/tpm2/src/marshal.rs:60-145, crates/tpm2/src/constants.rs:14, 60-74,
crates/tpm2/src/tpmi.rs:71-86) and of signed integers in both crates.
-/

namespace Verif.Tpm2
open Verif

/-- `iN::to_be_bytes` (core library): the bits of the two's complement. -/
def toBEi (n : Nat) (x : Int) : Bytes := toBE n (x % (256 ^ n : Nat)).toNat

/-- `iN::from_be_bytes` (core library). -/
def fromBEi (n : Nat) (b : Bytes) : Int :=
  if 2 * fromBE b < 256 ^ n then (fromBE b : Int) else (fromBE b : Int) - (256 ^ n : Nat)

/-- The types that implement `MarshalArray`: unsigned and signed integers of `n`
bytes (crates/tpm2/src/marshal.rs:121-136), `[u8; N]` (138-145), `Alg`
(crates/tpm2/src/constants.rs:60-74) and `TpmiAlgHash`
(crates/tpm2/src/tpmi.rs:71-86). -/
inductive Fixed where
  | uint (n : Nat)
  | sint (n : Nat)
  | bytes (n : Nat)
  | alg
  | hash

/-- Their values.  `Alg` is a `u16` (crates/tpm2/src/constants.rs:14). -/
@[reducible] def Fixed.Value : Fixed → Type
  | .uint n => { x : Nat // x < 256 ^ n }
  | .sint n => { x : Int // -(256 ^ n : Nat) ≤ 2 * x ∧ 2 * x < (256 ^ n : Nat) }
  | .bytes n => ByteArr n
  | .alg => { x : Nat // x < 256 ^ 2 }
  | .hash => Hash

/-- `MarshalArray::SIZE`: crates/tpm2/src/marshal.rs:62, 123, 139,
crates/tpm2/src/constants.rs:61, crates/tpm2/src/tpmi.rs:72. -/
def Fixed.size : Fixed → Nat
  | .uint n => n
  | .sint n => n
  | .bytes n => n
  | .alg => 2
  | .hash => 2

/-- `marshal_array`: crates/tpm2/src/marshal.rs:125-127, 142-144,
crates/tpm2/src/constants.rs:64-66, crates/tpm2/src/tpmi.rs:75-77. -/
def Fixed.enc : (f : Fixed) → f.Value → Bytes
  | .uint n, x => toBE n x.val
  | .sint n, x => toBEi n x.val
  | .bytes _, b => b.val
  | .alg, x => toBE 2 x.val
  | .hash, h => toBE 2 h.toAlg

/-- `Marshal::marshal` of all of them: crates/tpm2/src/marshal.rs:72-82. -/
def Fixed.marshal (f : Fixed) (v : f.Value) (buf : Bytes) : MOut :=
  marshalArray f.size (f.enc v) buf

/-- `marshaled_size`: crates/tpm2/src/marshal.rs:83-86. -/
def Fixed.marshaledSize (f : Fixed) (_ : f.Value) : Nat := f.size

/-- `marshaled_size_max`: crates/tpm2/src/marshal.rs:87-90. -/
def Fixed.marshaledSizeMax (f : Fixed) (_ : Limits) : Nat := f.size

/-- `unmarshal_array`: crates/tpm2/src/marshal.rs:131-133,
crates/tpm2/src/constants.rs:71-73, crates/tpm2/src/tpmi.rs:82-85.  `[u8; N]` does
not implement it. -/
def Fixed.dec : (f : Fixed) → Bytes → Option f.Value
  | .uint n, b => if h : fromBE b < 256 ^ n then some ⟨fromBE b, h⟩ else none
  | .sint n, b =>
      if h : -(256 ^ n : Nat) ≤ 2 * fromBEi n b ∧ 2 * fromBEi n b < (256 ^ n : Nat) then
        some ⟨fromBEi n b, h⟩ else none
  | .bytes _, _ => none
  | .alg, b => if h : fromBE b < 256 ^ 2 then some ⟨fromBE b, h⟩ else none
  | .hash, b => decodeHash b

/-- Does the type implement `UnmarshalArray`? -/
def Fixed.readable : Fixed → Bool
  | .bytes _ => false
  | _ => true

/-- `Unmarshal::unmarshal` of those that implement it:
crates/tpm2/src/marshal.rs:108-118. -/
def Fixed.unmarshal (f : Fixed) (self : f.Value) (buf : Bytes) : Option Bytes × f.Value :=
  unmarshalArray f.size f.dec self buf

/-! ### Signed integers of the other crate -/

/-- `try_marshal` of a signed integer: marshalable/src/lib.rs:107-109, 117-120. -/
def signedTryMarshal (n : Nat) (x : Int) (buf : Bytes) : Verif.MOut :=
  Verif.marshal (.bytes n) (.bytes (toBEi n x)) buf

/-- `try_unmarshal` of a signed integer: marshalable/src/lib.rs:102-105, 117-120. -/
def signedTryUnmarshal (n : Nat) (b : Bytes) : Res MErr Int × Bytes :=
  match Verif.unmarshal (.bytes n) b with
  | (.ok (.bytes x), rest) => (.ok (fromBEi n x), rest)
  | (.ok _, rest) => (.panic, rest)
  | (.err e, rest) => (.err e, rest)
  | (.panic, rest) => (.panic, rest)

end Verif.Tpm2
