/-
Common vocabulary of the model: byte strings, outcomes with explicit panics,
slice primitives of Rust's core library and big-endian integers.
-/

namespace Verif

/-- A byte string: the contents of a Rust `[u8]` slice or array. -/
abbrev Bytes := List UInt8

/-- Outcome of a fallible Rust function that may also panic.
`ok`/`err` model `core::result::Result`, `panic` models an unwinding panic
(slice index out of range, `copy_from_slice` length mismatch, `unreachable!`,
`todo!`). -/
inductive Res (ε α : Type) where
  | ok (a : α)
  | err (e : ε)
  | panic
  deriving DecidableEq, Repr

namespace Res

/-- Did the call return `Ok`? -/
def isOk {ε α : Type} : Res ε α → Bool
  | .ok _ => true
  | _ => false

/-- `Result::map`. -/
def map {ε α β : Type} (f : α → β) : Res ε α → Res ε β
  | .ok a => .ok (f a)
  | .err e => .err e
  | .panic => .panic

/-- The `?` operator. -/
def bind {ε α β : Type} (r : Res ε α) (f : α → Res ε β) : Res ε β :=
  match r with
  | .ok a => f a
  | .err e => .err e
  | .panic => .panic

/-- `Result::map_err`. -/
def mapErr {ε ε' α : Type} (f : ε → ε') : Res ε α → Res ε' α
  | .ok a => .ok a
  | .err e => .err (f e)
  | .panic => .panic

end Res

/-- Model of `tpm2_rs_marshalable::Error`: marshalable/src/errors.rs:10-14. -/
inductive MErr where
  | arrayLengthExceeded
  | unexpectedEndOfBuffer
  | unknownSelector
  deriving DecidableEq, Repr

/-- Model of `uN::to_be_bytes` (core library) as used in
marshalable/src/lib.rs:107-109: the `n` low-order bytes of `x`, most
significant first. -/
def toBE : Nat → Nat → Bytes
  | 0, _ => []
  | n + 1, x => UInt8.ofNat (x / 256 ^ n) :: toBE n x

/-- Model of `uN::from_be_bytes` (core library) as used in
marshalable/src/lib.rs:102-105. -/
def fromBE (b : Bytes) : Nat :=
  b.foldl (fun acc x => acc * 256 + x.toNat) 0

/-- Model of `dst[..n].copy_from_slice(src)` (core library): `none` is a panic,
raised when `n` exceeds the destination or the lengths differ. -/
def copyPrefix (dst : Bytes) (n : Nat) (src : Bytes) : Option Bytes :=
  if n ≤ dst.length ∧ src.length = n then some (src ++ dst.drop n) else none

/-- Model of `&s[..n]` (core library): `none` is a panic. -/
def sliceTo (s : Bytes) (n : Nat) : Option Bytes :=
  if n ≤ s.length then some (s.take n) else none

/-- Model of `&s[n..]` (core library): `none` is a panic. -/
def sliceFrom (s : Bytes) (n : Nat) : Option Bytes :=
  if n ≤ s.length then some (s.drop n) else none

end Verif
