import Verif.Codec.Impl

/-
The signed integers.  No declared type uses them, but they are marshalable, and may be the
length field of an array in a derived structure.
-/

namespace Verif

/-- `iN::from_be_bytes` (core library): the bits of `uN::from_be_bytes`, the highest of
which counts negatively; used in marshalable/src/lib.rs:102-105 for the types of 117-120. -/
def fromBESigned (b : Bytes) : Int :=
  if fromBE b < 2 ^ (8 * b.length - 1) then (fromBE b : Int)
  else (fromBE b : Int) - 2 ^ (8 * b.length)

/-- `iN::to_be_bytes` (core library): the bytes of `x as uN`; used in
marshalable/src/lib.rs:107-109 for the types of 117-120. -/
def toBESigned (n : Nat) (x : Int) : Bytes := toBE n (x % 256 ^ n).toNat

/-- `iN::try_unmarshal`: marshalable/src/lib.rs:102-105, 117-120. -/
def unmarshalSigned (n : Nat) : UM Int := do
  let x ← unmarshalBytes n
  pure (fromBESigned x)

/-- `iN::try_marshal`: marshalable/src/lib.rs:107-109, 117-120. -/
def marshalSigned (n : Nat) (x : Int) (buf : Bytes) : MOut := marshalBytes (toBESigned n x) buf

/-- `x as usize` of a signed `x` (core language), with a `usize` of `bits` bits: the sign is
extended, then the low-order bits are taken. -/
def signedAsUsize (bits : Nat) (x : Int) : Nat := (x % 2 ^ bits).toNat

/-- `try_unmarshal` derived for
`struct { count: iN, #[marshalable(length=count)] items: [T; max] }`:
marshalable-derive/src/lib.rs:606-616, 629-633. -/
def unmarshalSignedList (bits n : Nat) (t : Ty) (max : Nat) : UM (Int × List Val) := do
  let count ← unmarshalSigned n
  if signedAsUsize bits count > max then UM.fail .arrayLengthExceeded
  else
    let es ← unmarshalLoop (unmarshal t) (signedAsUsize bits count)
    pure (count, es ++ (List.replicate max t.default).drop (signedAsUsize bits count))

/-- `try_marshal` derived for the same structure: marshalable-derive/src/lib.rs:411-418,
430-432. -/
def marshalSignedList (bits n : Nat) (t : Ty) (count : Int) (items : List Val)
    (buf : Bytes) : MOut :=
  mthen (mstep (marshalSigned n count) 0 buf) fun w buf =>
    marshalLoop (fun v b => marshal t v b) (signedAsUsize bits count) items w buf

end Verif
