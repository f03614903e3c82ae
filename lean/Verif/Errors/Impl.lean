import Verif.Basic

/-
Model of the error crate: crates/tpm2/src/errors and the conversions of
marshalling errors in marshalable/src/errors.rs.  A `NonZeroU32` is a natural
number; that it is never zero is a theorem.
-/

namespace Verif.Errors
open Verif

/-- `TpmRcError`: crates/tpm2/src/errors/tpm_rc/mod.rs:10. -/
structure TpmRcError where
  code : Nat
  deriving DecidableEq, Repr

/-- `TssError`: crates/tpm2/src/errors/mod.rs:48. -/
structure TssError where
  code : Nat
  deriving DecidableEq, Repr

/-- `TpmRcError::new`: crates/tpm2/src/errors/tpm_rc/mod.rs:116-121; `none` is
the panic on zero. -/
def TpmRcError.new (val : Nat) : Option TpmRcError := if val = 0 then none else some ⟨val⟩

/-- `RC_FMT1`: crates/tpm2/src/errors/tpm_rc/mod.rs:16. -/
def RC_FMT1 : Nat := 0x080

namespace TpmRcError
/-- crates/tpm2/src/errors/tpm_rc/mod.rs:19 -/
def Asymmetric : TpmRcError := ⟨RC_FMT1 + 0x001⟩
/-- crates/tpm2/src/errors/tpm_rc/mod.rs:29 -/
def Value : TpmRcError := ⟨RC_FMT1 + 0x004⟩
/-- crates/tpm2/src/errors/tpm_rc/mod.rs:39 -/
def Size : TpmRcError := ⟨RC_FMT1 + 0x015⟩
/-- crates/tpm2/src/errors/tpm_rc/mod.rs:48 -/
def Selector : TpmRcError := ⟨RC_FMT1 + 0x018⟩
/-- crates/tpm2/src/errors/tpm_rc/mod.rs:57 -/
def BadTag : TpmRcError := ⟨0x1e⟩
/-- crates/tpm2/src/errors/tpm_rc/mod.rs:60 -/
def Initialize : TpmRcError := ⟨0x100⟩
/-- crates/tpm2/src/errors/tpm_rc/mod.rs:62 -/
def Failure : TpmRcError := ⟨0x101⟩
/-- crates/tpm2/src/errors/tpm_rc/mod.rs:64 -/
def Sequence : TpmRcError := ⟨0x102⟩
/-- crates/tpm2/src/errors/tpm_rc/mod.rs:69 -/
def CommandSize : TpmRcError := ⟨0x142⟩
/-- crates/tpm2/src/errors/tpm_rc/mod.rs:72 -/
def CommandCode : TpmRcError := ⟨0x143⟩
/-- crates/tpm2/src/errors/tpm_rc/mod.rs:75 -/
def ContextGap : TpmRcError := ⟨0x901⟩
/-- crates/tpm2/src/errors/tpm_rc/mod.rs:78 -/
def ObjectMemory : TpmRcError := ⟨0x902⟩
/-- crates/tpm2/src/errors/tpm_rc/mod.rs:81 -/
def SessionMemory : TpmRcError := ⟨0x903⟩
/-- crates/tpm2/src/errors/tpm_rc/mod.rs:84 -/
def Memory : TpmRcError := ⟨0x904⟩
end TpmRcError

/-- All constants of `TpmRcError`: crates/tpm2/src/errors/tpm_rc/mod.rs:18-84. -/
def tpm2Table : List (String × Nat) := [
  ("Asymmetric", TpmRcError.Asymmetric.code), ("Value", TpmRcError.Value.code),
  ("Size", TpmRcError.Size.code), ("Selector", TpmRcError.Selector.code),
  ("BadTag", TpmRcError.BadTag.code), ("Initialize", TpmRcError.Initialize.code),
  ("Failure", TpmRcError.Failure.code), ("Sequence", TpmRcError.Sequence.code),
  ("CommandSize", TpmRcError.CommandSize.code), ("CommandCode", TpmRcError.CommandCode.code),
  ("ContextGap", TpmRcError.ContextGap.code), ("ObjectMemory", TpmRcError.ObjectMemory.code),
  ("SessionMemory", TpmRcError.SessionMemory.code), ("Memory", TpmRcError.Memory.code)]

/-- `is_warning`: crates/tpm2/src/errors/tpm_rc/mod.rs:94-97. -/
def TpmRcError.isWarning (e : TpmRcError) : Bool := e.code &&& 0x980 == 0x900

/-- `ErrorType`: crates/tpm2/src/errors/tpm_rc/mod.rs:126-133. -/
inductive ErrorType where
  | handle | parameter | session
  deriving DecidableEq, Repr

/-- `ErrorType::to_mask`: crates/tpm2/src/errors/tpm_rc/mod.rs:136-146. -/
def ErrorType.toMask : ErrorType → Nat
  | .handle => 0x0
  | .parameter => 0x40
  | .session => 0x800

/-- `ErrorType::from_mask`: crates/tpm2/src/errors/tpm_rc/mod.rs:148-159.  The
second test of the source is `Self::SESSION_MASK != 0`, a constant. -/
def ErrorType.fromMask (val : Nat) : Option ErrorType :=
  if val &&& 0x80 = 0 then none
  else if val &&& 0x40 ≠ 0 then some .parameter
  else if (0x800 : Nat) ≠ 0 then some .session
  else some .handle

/-- `ErrorPosition`: crates/tpm2/src/errors/tpm_rc/mod.rs:164-195; position
`n + 1` is `Pos(n+1)`. -/
abbrev ErrorPosition := Fin 15

/-- `self as u32`: crates/tpm2/src/errors/tpm_rc/mod.rs:166 (discriminants
start at 1). -/
def ErrorPosition.num (p : ErrorPosition) : Nat := p.val + 1

/-- `ErrorPosition::to_mask`: crates/tpm2/src/errors/tpm_rc/mod.rs:198-200. -/
def ErrorPosition.toMask (p : ErrorPosition) : Nat := ErrorPosition.num p <<< 8

/-- `ErrorPosition::from_mask`: crates/tpm2/src/errors/tpm_rc/mod.rs:202-224. -/
def ErrorPosition.fromMask (val : Nat) : Option ErrorPosition :=
  if val &&& 0x80 = 0 then none
  else match val &&& 0xF00 with
    | 0x100 => some 0
    | 0x200 => some 1
    | 0x300 => some 2
    | 0x400 => some 3
    | 0x500 => some 4
    | 0x600 => some 5
    | 0x700 => some 6
    | 0x800 => some 7
    | 0x900 => some 8
    | 0xA00 => some 9
    | 0xB00 => some 10
    | 0xC00 => some 11
    | 0xD00 => some 12
    | 0xE00 => some 13
    | 0xF00 => some 14
    | _ => none

/-- `AsymmetricFor`, `ValueFor`, `SizeFor`, `SelectorFor`:
crates/tpm2/src/errors/tpm_rc/mod.rs:24-26, 34-36, 43-45, 52-54; `none` is the
panic of `new`. -/
def annotate (base : TpmRcError) (on : ErrorType) (pos : ErrorPosition) : Option TpmRcError :=
  TpmRcError.new (base.code ||| on.toMask ||| ErrorPosition.toMask pos)

/-- `format1_parameter`: crates/tpm2/src/errors/tpm_rc/mod.rs:100-109. -/
def format1Parameter (e : TpmRcError) : Option (ErrorType × ErrorPosition) :=
  match ErrorType.fromMask e.code, ErrorPosition.fromMask e.code with
  | some on, some pos => some (on, pos)
  | _, _ => none

/-- `TryFrom<u32> for TssError`: crates/tpm2/src/errors/mod.rs:68-76; `none` is
the error `TssErrorCannotBeZero`. -/
def TssError.tryFrom (val : Nat) : Option TssError := if val = 0 then none else some ⟨val⟩

/-- `TssError::get`: crates/tpm2/src/errors/mod.rs:50-52. -/
def TssError.get (e : TssError) : Nat := e.code

/-- `From<TpmRcError> for TssError`: crates/tpm2/src/errors/tpm_rc/mod.rs:227-231. -/
def TpmRcError.toTss (e : TpmRcError) : TssError := ⟨e.code⟩

/-- The client layers: crates/tpm2/src/errors/tss_rc.rs:61-63. -/
inductive Layer where
  | tddl | tcs | tsp
  deriving DecidableEq, Repr

/-- `$layer_value`: crates/tpm2/src/errors/tss_rc.rs:61-63. -/
def Layer.value : Layer → Nat
  | .tddl => 1
  | .tcs => 2
  | .tsp => 3

/-- `new` of a layer error: crates/tpm2/src/errors/tss_rc.rs:45-50; `none` is
`unreachable!()`. -/
def layerNew (l : Layer) (value : Nat) : Option Nat :=
  let v := value ||| (l.value <<< 12)
  if v = 0 then none else some v

/-- Common return codes: crates/tpm2/src/errors/tss_rc.rs:20-42. -/
def layerConstants : List (String × Nat) := [
  ("GeneralFailure", 2), ("BadParameter", 3), ("InternalError", 4), ("OutOfMemory", 5),
  ("NotImplemented", 6), ("KeyAlredyRegistered", 8), ("TpmUnexpected", 16),
  ("CommFailure", 17), ("Timeout", 18), ("Unsupported", 20), ("Canceled", 22)]

/-- `From<$error_name> for TssError`: crates/tpm2/src/errors/tss_rc.rs:53-57. -/
def layerError (l : Layer) (value : Nat) : TssError := ⟨value ||| (l.value <<< 12)⟩

/-- `TssTcsError::BadParameter`: crates/tpm2/src/errors/tss_rc.rs:22, 62. -/
def tcsBadParameter : TssError := layerError .tcs 3
/-- `TssTcsError::OutOfMemory`: crates/tpm2/src/errors/tss_rc.rs:26, 62. -/
def tcsOutOfMemory : TssError := layerError .tcs 5
/-- `TssTcsError::TpmUnexpected`: crates/tpm2/src/errors/tss_rc.rs:34, 62. -/
def tcsTpmUnexpected : TssError := layerError .tcs 16

/-- `From<marshalable::Error> for TpmRcError`: marshalable/src/errors.rs:32-40. -/
def merrToRc : MErr → TpmRcError
  | .arrayLengthExceeded => .Size
  | .unexpectedEndOfBuffer => .Memory
  | .unknownSelector => .Selector

/-- `From<marshalable::Error> for TssError`: marshalable/src/errors.rs:42-46. -/
def merrToTss (e : MErr) : TssError := (merrToRc e).toTss

/-- `TpmRc` of the structure crate, without `Success`: base/src/constants.rs:230-338. -/
def baseTable : List (String × Nat) :=
  [("Initialize", 0x000), ("Failure", 0x001), ("Sequence", 0x003), ("Private", 0x00B),
   ("Hmac", 0x019), ("Disabled", 0x020), ("Exclusive", 0x021), ("AuthType", 0x024),
   ("AuthMissing", 0x025), ("Policy", 0x026), ("Pcr", 0x027), ("PCRChanged", 0x028),
   ("Upgrade", 0x02D), ("TooManyContexts", 0x02E), ("AuthUnavailable", 0x02F),
   ("Reboot", 0x030), ("Unbalanced", 0x031), ("CommandSize", 0x042), ("CommandCode", 0x043),
   ("AuthSize", 0x044), ("AuthContext", 0x045), ("NVRange", 0x046), ("NVSize", 0x047),
   ("NVLocked", 0x048), ("NVAuthorization", 0x049), ("NVUninitialized", 0x04A),
   ("NVSpace", 0x04B), ("NVDefined", 0x04C), ("BadContext", 0x050), ("CPHash", 0x051),
   ("Parent", 0x052), ("NeedsTest", 0x053), ("NoResult", 0x054),
   ("Sensitive", 0x055)].map (fun p => (p.1, 0x100 + p.2)) ++
  [("CAsymmetric", 0x001), ("Attributes", 0x002), ("Hash", 0x003), ("Value", 0x004),
   ("Hierarchy", 0x005), ("KeySize", 0x007), ("Mgf", 0x008), ("Mode", 0x009), ("Type", 0x00A),
   ("Handle", 0x00B), ("Kdf", 0x00C), ("Range", 0x00D), ("AuthFail", 0x00E), ("Nonce", 0x00F),
   ("PP", 0x010), ("Scheme", 0x012), ("Size", 0x015), ("Symmetric", 0x016), ("Tag", 0x017),
   ("Selector", 0x018), ("Insufficient", 0x01A), ("Signature", 0x01B), ("Key", 0x01C),
   ("PolicyFail", 0x01D), ("Integrity", 0x01F), ("Ticket", 0x020), ("ReservedBits", 0x021),
   ("BadAuth", 0x022), ("Expired", 0x023), ("PolicyCC", 0x024), ("Binding", 0x025),
   ("Curve", 0x026), ("ECCPoint", 0x027)].map (fun p => (p.1, 0x080 + p.2)) ++
  [("ContextGap", 0x001), ("ObjectMemory", 0x002), ("SessionMemory", 0x003), ("Memory", 0x004),
   ("SessionHandles", 0x005), ("ObjectHandles", 0x006), ("Locality", 0x007), ("Yielded", 0x008),
   ("Canceled", 0x009), ("Testing", 0x00A), ("ReferenceH0", 0x010), ("ReferenceH1", 0x011),
   ("ReferenceH2", 0x012), ("ReferenceH3", 0x013), ("ReferenceH4", 0x014),
   ("ReferenceH5", 0x015), ("ReferenceH6", 0x016), ("ReferenceS0", 0x018),
   ("ReferenceS1", 0x019), ("ReferenceS2", 0x01A), ("ReferenceS3", 0x01B),
   ("ReferenceS4", 0x01C), ("ReferenceS5", 0x01D), ("ReferenceS6", 0x01E), ("NVRate", 0x020),
   ("Lockout", 0x021), ("Retry", 0x022), ("NVUnavailable", 0x023)].map
     (fun p => (p.1, 0x900 + p.2))

end Verif.Errors
