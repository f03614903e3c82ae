import Verif.Basic

/-
Model of the attribute words: base/src/lib.rs:20-140, 391-541 and the NV index
type (base/src/constants.rs:750-770).
-/

namespace Verif.Base

/-- `new_attribute_field`: base/src/lib.rs:20-22.  Rust's `value << shift`
discards the bits shifted out; all shifts in the source are below 32. -/
def newAttributeField (value mask : BitVec 32) (shift : Nat) : BitVec 32 := (value <<< shift) &&& mask

/-- `get_attribute_field`: base/src/lib.rs:24-26. -/
def getAttributeField (value mask : BitVec 32) (shift : Nat) : BitVec 32 := (value &&& mask) >>> shift

/-- `set_attribute_field`: base/src/lib.rs:28-30. -/
def setAttributeField (value fieldValue mask : BitVec 32) (shift : Nat) : BitVec 32 :=
  (value &&& ~~~mask) ||| newAttributeField fieldValue mask shift

/-- `TpmaNv::NT_MASK`: base/src/lib.rs:114. -/
def NT_MASK : BitVec 32 := 0xF0
/-- `TpmaNv::NT_SHIFT`: base/src/lib.rs:116. -/
def NT_SHIFT : Nat := 4
/-- `TpmaNv::from_index_type` and `From<TpmNt>`: base/src/lib.rs:119-125, 136-140. -/
def nvFromIndexType (t : BitVec 8) : BitVec 32 := newAttributeField (t.setWidth 32) NT_MASK NT_SHIFT
/-- `TpmaNv::get_index_type`: base/src/lib.rs:128-130 (`as u8` truncates). -/
def nvGetIndexType (w : BitVec 32) : BitVec 8 := (getAttributeField w NT_MASK NT_SHIFT).setWidth 8
/-- `TpmaNv::set_type`: base/src/lib.rs:132-134. -/
def nvSetType (w : BitVec 32) (t : BitVec 8) : BitVec 32 :=
  setAttributeField w (t.setWidth 32) NT_MASK NT_SHIFT

/-- `TpmaCc::COMMAND_INDEX_MASK`: base/src/lib.rs:496. -/
def COMMAND_INDEX_MASK : BitVec 32 := 0xFFFF
/-- `TpmaCc::COMMAND_INDEX_SHIFT`: base/src/lib.rs:494. -/
def COMMAND_INDEX_SHIFT : Nat := 0
/-- `TpmaCc::C_HANDLES_SHIFT`: base/src/lib.rs:498. -/
def C_HANDLES_SHIFT : Nat := 25
/-- `TpmaCc::C_HANDLES_MASK`: base/src/lib.rs:500. -/
def C_HANDLES_MASK : BitVec 32 := 0x7 <<< C_HANDLES_SHIFT
/-- `TpmaCc::command_index`: base/src/lib.rs:503-509. -/
def ccCommandIndex (i : BitVec 16) : BitVec 32 :=
  newAttributeField (i.setWidth 32) COMMAND_INDEX_MASK COMMAND_INDEX_SHIFT
/-- `TpmaCc::c_handles`: base/src/lib.rs:511-517. -/
def ccCHandles (n : BitVec 32) : BitVec 32 := newAttributeField n C_HANDLES_MASK C_HANDLES_SHIFT
/-- `TpmaCc::get_command_index`: base/src/lib.rs:520-522. -/
def ccGetCommandIndex (w : BitVec 32) : BitVec 16 :=
  (getAttributeField w COMMAND_INDEX_MASK COMMAND_INDEX_SHIFT).setWidth 16
/-- `TpmaCc::get_c_handles`: base/src/lib.rs:524-526. -/
def ccGetCHandles (w : BitVec 32) : BitVec 32 := getAttributeField w C_HANDLES_MASK C_HANDLES_SHIFT
/-- `TpmaCc::set_command_index`: base/src/lib.rs:529-536. -/
def ccSetCommandIndex (w : BitVec 32) (i : BitVec 16) : BitVec 32 :=
  setAttributeField w (i.setWidth 32) COMMAND_INDEX_MASK COMMAND_INDEX_SHIFT
/-- `TpmaCc::set_c_handles`: base/src/lib.rs:538-540. -/
def ccSetCHandles (w : BitVec 32) (n : BitVec 32) : BitVec 32 :=
  setAttributeField w n C_HANDLES_MASK C_HANDLES_SHIFT

/-- `bitflags` (external crate): `insert`, the union of the bits. -/
def flagInsert {n : Nat} (w f : BitVec n) : BitVec n := w ||| f
/-- `bitflags` (external crate): `remove`, the difference. -/
def flagRemove {n : Nat} (w f : BitVec n) : BitVec n := w &&& ~~~f
/-- `bitflags` (external crate): `contains`. -/
def flagContains {n : Nat} (w f : BitVec n) : Bool := w &&& f == f

/-- Single-bit flags of `TpmaNv`: base/src/lib.rs:62-109. -/
def nvFlags : List (String × Nat) := [
  ("PPWRITE", 0), ("OWNERWRITE", 1), ("AUTHWRITE", 2), ("POLICYWRITE", 3), ("POLICY_DELETE", 10),
  ("WRITELOCKED", 11), ("WRITEALL", 12), ("WRITEDEFINE", 13), ("WRITE_STCLEAR", 14),
  ("GLOBALLOCK", 15), ("PPREAD", 16), ("OWNERREAD", 17), ("AUTHREAD", 18), ("POLICYREAD", 19),
  ("NO_DA", 25), ("ORDERLY", 26), ("CLEAR_STCLEAR", 27), ("READLOCKED", 28), ("WRITTEN", 29),
  ("PLATFORMCREATE", 30), ("READ_STCLEAR", 31)]
/-- Single-bit flags of `TpmaCc`: base/src/lib.rs:477-490. -/
def ccFlags : List (String × Nat) :=
  [("NV", 22), ("EXTENSIVE", 23), ("FLUSHED", 24), ("R_HANDLE", 28), ("V", 29)]
/-- Flags of `TpmaObject`: base/src/lib.rs:397-422. -/
def objectFlags : List (String × Nat) := [
  ("FIXED_TPM", 1), ("ST_CLEAR", 2), ("FIXED_PARENT", 4), ("SENSITIVE_DATA_ORIGIN", 5),
  ("USER_WITH_AUTH", 6), ("ADMIN_WITH_POLICY", 7), ("NO_DA", 10), ("ENCRYPTED_DUPLICATION", 11),
  ("RESTRICTED", 16), ("DECRYPT", 17), ("SIGN_ENCRYPT", 18), ("X509_SIGN", 19)]
/-- Flags of `TpmaAlgorithm`: base/src/lib.rs:431-447. -/
def algorithmFlags : List (String × Nat) := [
  ("ASYMMETRIC", 0), ("SYMMETRIC", 1), ("HASH", 2), ("OBJECT", 3), ("SIGNING", 8),
  ("ENCRYPTING", 9), ("METHOD", 10)]
/-- Flags of `TpmaSession`: base/src/lib.rs:455-469. -/
def sessionFlags : List (String × Nat) := [
  ("CONTINUE_SESSION", 0), ("AUDIT_EXCLUSIVE", 1), ("AUDIT_RESET", 2), ("DECRYPT", 5),
  ("ENCRYPT", 6), ("AUDIT", 7)]
/-- Flags of `TpmaLocality`: base/src/lib.rs:38-46. -/
def localityFlags : List (String × Nat) := [
  ("LOC_ZERO", 0), ("LOC_ONE", 1), ("LOC_TWO", 2), ("LOC_THREE", 3), ("LOC_FOUR", 4)]

/-- `TpmaLocality::is_extended`: base/src/lib.rs:48-53. -/
def localityIsExtended (w : BitVec 8) : Bool := w &&& 0xE0 != 0

end Verif.Base
