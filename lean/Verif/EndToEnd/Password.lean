import Verif.EndToEnd.Text

/-
Password sessions as values: the derived `Default`, `PartialEq` and `Debug` of
crates/tpm2-client/src/sessions/password.rs:20-23.
-/

namespace Verif.Client
open Verif Verif.Base Verif.Errors

/-- `PasswordSession::default()`: crates/tpm2-client/src/sessions/password.rs:20,
`Default` of a sized buffer being marshalable-derive/src/lib.rs:239-246.  As in
`passwordNew`, a session is its field `auth`. -/
def passwordDefault : Val := Tpm2bDigest.default

/-- `Debug` of `[u8; N]` after the opening bracket (core library), without options:
the elements in decimal with separators. -/
def debugItems : Bytes → List Char
  | [] => [']']
  | [x] => showDecimal x.toNat ++ [']']
  | x :: y :: r => showDecimal x.toNat ++ [',', ' '] ++ debugItems (y :: r)

/-- `Debug` of a password session, without options: derived for the session
(crates/tpm2-client/src/sessions/password.rs:20-23) and for its sized buffer
(base/src/lib.rs:601-606, 867).  `none` for what is not a sized buffer. -/
def passwordDebug : Val → Option (List Char)
  | .tpm2b size buffer =>
    some ("PasswordSession { auth: Tpm2bDigest { size: ".toList ++ showDecimal size ++
      ", buffer: [".toList ++ debugItems buffer ++ " } }".toList)
  | _ => none

end Verif.Client
