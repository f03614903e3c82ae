import Verif.EndToEnd.Impl

/-
Texts of errors (`Display`) and the conversion of the client's errors to `std::io::Error`,
the error type of the simulator connection.
-/

namespace Verif.Errors
open Verif

/-- The character of a decimal digit (core library). -/
def digitChar (d : Nat) : Char := Char.ofNat (48 + d)

/-- `Display` for `u32` without options (core library): digits from the end on. -/
def showDecimal (n : Nat) : List Char :=
  if n < 10 then [digitChar n] else showDecimal (n / 10) ++ [digitChar (n % 10)]

/-- `Display for TssError`: crates/tpm2/src/errors/mod.rs:56-60. -/
def TssError.show (e : TssError) : List Char := showDecimal e.code

/-- `Display for Error`: marshalable/src/errors.rs:16-30. -/
def _root_.Verif.MErr.show : MErr → String
  | .arrayLengthExceeded => "length of array is larger than the type allows"
  | .unexpectedEndOfBuffer => "expected to have more buffer data but found none"
  | .unknownSelector => "selector targeted is not known to the unmarshaling code"

end Verif.Errors

namespace Verif.EndToEnd
open Verif Verif.Errors Verif.Client

/-- `std::io::Error`: an error made by the connection or the operating system, or one made
from another error by `Error::other` (standard library). -/
inductive IoError where
  | plain (e : Tcp.IoErr)
  | other (e : TssError)

/-- `From<TssError> for std::io::Error`: crates/tpm2/src/errors/std.rs:6-10. -/
def IoError.fromTss (e : TssError) : IoError := .other e

/-- The error a call of the client over the simulator connection returns:
crates/tpm2-client/src/connection/tcp.rs:393 with the bound `T::Error: From<TssError>` of
crates/tpm2-client/src/lib.rs:53, 144. -/
def toIo : CErr Tcp.IoErr → IoError
  | .conn e => .plain e
  | .tss e => .fromTss e

/-- `e.get_ref().and_then(|e| e.downcast_ref::<TssError>())` (standard library): the error
it was made from. -/
def IoError.tssError : IoError → Option TssError
  | .plain _ => none
  | .other e => some e

/-- `Display for std::io::Error` (standard library) for errors made from others: theirs.
Not modelled for the rest. -/
def IoError.show : IoError → Option (List Char)
  | .plain _ => none
  | .other e => some e.show

end Verif.EndToEnd
