import Verif.Tcg.Spec

/-
The tables of the TPM 2.0 Library Specification (TCG), Part 2: Structures and
Part 3: Commands, revision 1.59, for the types that base/src and
crates/tpm2-client/src/lib.rs declare.  They are written from the standard; the
comments name the clause or table of the standard, followed by the place in /repo
of the declaration that claims to be this type.  Member names are those of the
standard with underscores in place of capitals (`resetCount` is `reset_count`).

Numbers the standard leaves to the implementation are those of
base/src/constants.rs:6-31: all algorithms up to SHA-512 and SM3, keys of 4096
bits, 16 PCR banks of at most 32 PCRs.

Where the crate deliberately or by accident differs from the standard, the table
depends on `Choices`.
-/

namespace Verif.Tcg
open Verif

/-- A table with plain members only. -/
def rows : List (String × Shape) → Rows
  | [] => .nil
  | (x, t) :: r => .row x t (rows r)

/-- A structure with plain members only. -/
def T (l : List (String × Shape)) : Shape := .table (rows l)

/-- The rows of a union. -/
def cases : List (Nat × Shape) → Cases
  | [] => .nil
  | (s, t) :: r => .case s t (cases r)

/-- A list: `UINT32 count; T name[count]{:max}`. -/
def L (name : String) (t : Shape) (max : Nat) : Shape :=
  .table (.row "count" (.uint 4) (.array name t "count" max .nil))

/-- What the tables depend on. -/
structure Choices where
  /-- the largest `TPM2B_DATA` -/
  dataMax : Nat
  /-- may the symmetric algorithm of an object be XOR? -/
  objectXor : Bool
  /-- may RSA keys have ECC schemes and the other way round? -/
  mixedSchemes : Bool
  /-- is there private data of no type? -/
  sensitiveNull : Bool
  /-- attestation of NV digests -/
  nvDigest : Bool
  /-- capabilities about authenticated countdown timers -/
  act : Bool

/-- The standard. -/
def standard : Choices := ⟨66, false, false, false, true, true⟩

/-- The crate. -/
def crate : Choices := ⟨64, true, true, true, false, false⟩

/-! ### Base types -/

def UINT8 : Shape := .uint 1
def BYTE : Shape := .uint 1
def UINT16 : Shape := .uint 2
def UINT32 : Shape := .uint 4
def UINT64 : Shape := .uint 8

/-- Part 2, clause 6; base/src/constants.rs:39-79 -/
def TPM_ALG_ID : Shape := UINT16
/-- Part 2, clause 6; base/src/constants.rs:87-97 -/
def TPM_ECC_CURVE : Shape := UINT16
/-- Part 2, clause 6; base/src/constants.rs:105-224 -/
def TPM_CC : Shape := UINT32
/-- Part 2, clause 6; base/src/constants.rs:777-780 -/
def TPM_GENERATED : Shape := UINT32
/-- Part 2, clause 6; base/src/constants.rs:365-384 -/
def TPM_ST : Shape := UINT16
/-- Part 2, clause 6; base/src/constants.rs:392-395 -/
def TPM_SU : Shape := UINT16
/-- Part 2, clause 6; base/src/constants.rs:413-425 -/
def TPM_CAP : Shape := UINT32
/-- Part 2, clause 6; base/src/constants.rs:433-594 -/
def TPM_PT : Shape := UINT32
/-- Part 2, clause 6; base/src/constants.rs:602-648 -/
def TPM_PT_PCR : Shape := UINT32
/-- Part 2, clause 7; base/src/constants.rs:671-679 -/
def TPM_HANDLE : Shape := UINT32
/-- Part 2, clause 7; base/src/constants.rs:682-744 -/
def TPM_HC : Shape := TPM_HANDLE
/-- Part 2, clause 8; base/src/lib.rs:428-430 -/
def TPMA_ALGORITHM : Shape := UINT32
/-- Part 2, clause 8; base/src/lib.rs:394-396 -/
def TPMA_OBJECT : Shape := UINT32
/-- Part 2, clause 8; base/src/lib.rs:452-454 -/
def TPMA_SESSION : Shape := UINT8
/-- Part 2, clause 8; base/src/lib.rs:36 -/
def TPMA_LOCALITY : Shape := UINT8
/-- Part 2, clause 8; base/src/lib.rs:475-477 -/
def TPMA_CC : Shape := UINT32
/-- Part 2, clause 8 -/
def TPMA_ACT : Shape := UINT32
/-- Part 2, clause 13; base/src/lib.rs:60 -/
def TPMA_NV : Shape := UINT32
/-- Part 2, clause 9; base/src/lib.rs:349-356 -/
def TPMI_YES_NO : Shape := BYTE
/-- Part 2, clause 9; base/src/lib.rs:318-321 -/
def TPMI_SH_AUTH_SESSION : Shape := TPM_HANDLE
/-- Part 2, clause 9; base/src/lib.rs:302-305 -/
def TPMI_RH_NV_INDEX : Shape := TPM_HANDLE
/-- Part 2, clause 9; base/src/lib.rs:148-158 -/
def TPMI_ALG_HASH : Shape := TPM_ALG_ID
/-- Part 2, clause 9; base/src/lib.rs:207-218 -/
def TPMI_ALG_SYM_OBJECT : Shape := TPM_ALG_ID
/-- Part 2, clause 9; base/src/lib.rs:190-203 -/
def TPMI_ALG_SYM_MODE : Shape := TPM_ALG_ID
/-- Part 2, clause 9; base/src/lib.rs:162-171 -/
def TPMI_ALG_KDF : Shape := TPM_ALG_ID
/-- Part 2, clause 9; base/src/lib.rs:247-261 -/
def TPMI_ALG_SIG_SCHEME : Shape := TPM_ALG_ID
/-- Part 2, clause 9; base/src/lib.rs:543-552 -/
def TPMI_ST_COMMAND_TAG : Shape := TPM_ST
/-- Part 2, clause 10; base/src/lib.rs:360-373 -/
def TPMI_ST_ATTEST : Shape := TPM_ST
/-- Part 2, clause 11; base/src/lib.rs:376-390 -/
def KEY_BITS : Shape := UINT16
/-- Part 2, clause 11; base/src/lib.rs:222-231 -/
def TPMI_ALG_KEYEDHASH_SCHEME : Shape := TPM_ALG_ID
/-- Part 2, clause 11; base/src/lib.rs:282-299 -/
def TPMI_ALG_ASYM_SCHEME : Shape := TPM_ALG_ID
/-- Part 2, clause 11; base/src/lib.rs:235-250 -/
def TPMI_ALG_RSA_SCHEME : Shape := TPM_ALG_ID
/-- Part 2, clause 11; base/src/lib.rs:264-279 -/
def TPMI_ALG_ECC_SCHEME : Shape := TPM_ALG_ID
/-- Part 2, clause 11; base/src/lib.rs:342-345 -/
def TPMI_ECC_CURVE : Shape := TPM_ECC_CURVE
/-- Part 2, clause 12; base/src/lib.rs:175-186 -/
def TPMI_ALG_PUBLIC : Shape := TPM_ALG_ID

/-! ### Part 2, clause 10: structures -/

/-- Part 2, clause 10; base/src/lib.rs:565-567 -/
def TPMS_EMPTY : Shape := T []
/-- Part 2, clause 10; base/src/lib.rs:569-577.  Where a use allows it
(`+TPMT_HA`), the algorithm may be `TPM_ALG_NULL`, without digest. -/
def TPMT_HA (null : Bool) : Shape := .table <|
  .row "hash_alg" TPMI_ALG_HASH <|
  .union "digest" "hash_alg" (cases <| [
    (0x0004, .octets 20), (0x000B, .octets 32), (0x000C, .octets 48), (0x000D, .octets 64),
    (0x0012, .octets 32)] ++ if null then [(0x0010, TPMS_EMPTY)] else []) .nil
/-- Part 2, clause 10; base/src/lib.rs:600-606 -/
def TPM2B_DIGEST : Shape := .buffer 64
/-- Part 2, clause 10: `sizeof(TPMT_HA)`; base/src/lib.rs:611-617 -/
def TPM2B_DATA (c : Choices) : Shape := .buffer c.dataMax
/-- Part 2, clause 10; base/src/lib.rs:608 -/
def TPM2B_NONCE : Shape := TPM2B_DIGEST
/-- Part 2, clause 10; base/src/lib.rs:867 -/
def TPM2B_AUTH : Shape := TPM2B_DIGEST
/-- Part 2, clause 10; base/src/lib.rs:609 -/
def TPM2B_OPERAND : Shape := TPM2B_DIGEST
/-- Part 2, clause 10; base/src/lib.rs:619-625 -/
def TPM2B_EVENT : Shape := .buffer 1024
/-- Part 2, clause 10; base/src/lib.rs:627-633 -/
def TPM2B_MAX_BUFFER : Shape := .buffer 1024
/-- Part 2, clause 10; base/src/lib.rs:635-641 -/
def TPM2B_MAX_NV_BUFFER : Shape := .buffer 2048
/-- Part 2, clause 10; base/src/lib.rs:643-649 -/
def TPM2B_IV : Shape := .buffer 16
/-- Part 2, clause 10: the largest of a handle and a `TPMT_HA`; base/src/lib.rs:651-657 -/
def TPM2B_NAME : Shape := .buffer 66
/-- Part 2, clause 10; base/src/lib.rs:675-682 -/
def TPMS_PCR_SELECTION : Shape := .table <|
  .row "hash" TPMI_ALG_HASH <|
  .row "sizeof_select" UINT8 <|
  .array "pcr_select" BYTE "sizeof_select" 4 .nil
/-- Part 2, clause 10; base/src/lib.rs:1351-1356 -/
def TPMS_ALG_PROPERTY : Shape := T [("alg", TPM_ALG_ID), ("alg_properties", TPMA_ALGORITHM)]
/-- Part 2, clause 10; base/src/lib.rs:1358-1363 -/
def TPMS_TAGGED_PROPERTY : Shape := T [("property", TPM_PT), ("value", UINT32)]
/-- Part 2, clause 10; base/src/lib.rs:1365-1372 -/
def TPMS_TAGGED_PCR_SELECT : Shape := .table <|
  .row "tag" TPM_PT_PCR <|
  .row "sizeof_select" UINT8 <|
  .array "pcr_select" BYTE "sizeof_select" 4 .nil
/-- Part 2, clause 10; base/src/lib.rs:1374-1379 -/
def TPMS_TAGGED_POLICY : Shape := T [("handle", TPM_HANDLE), ("policy_hash", TPMT_HA false)]
/-- Part 2, clause 10 -/
def TPMS_ACT_DATA : Shape :=
  T [("handle", TPM_HANDLE), ("timeout", UINT32), ("attributes", TPMA_ACT)]

/-- Part 2, clause 10; base/src/lib.rs:1311-1317.  The capacities of lists that
`TPM2_GetCapability` returns follow from `MAX_CAP_DATA`, here 1016 bytes
(base/src/lib.rs:554-562). -/
def TPML_CC : Shape := L "command_codes" TPM_CC 254
/-- Part 2, clause 10; base/src/lib.rs:1303-1309 -/
def TPML_CCA : Shape := L "command_attributes" TPMA_CC 254
/-- Part 2, clause 10; base/src/lib.rs:1295-1301 -/
def TPML_HANDLE : Shape := L "handle" TPM_HANDLE 254
/-- Part 2, clause 10; base/src/lib.rs:1381-1387 -/
def TPML_DIGEST : Shape := L "digests" TPM2B_DIGEST 8
/-- Part 2, clause 10; base/src/lib.rs:684-690 -/
def TPML_PCR_SELECTION : Shape := L "pcr_selections" TPMS_PCR_SELECTION 16
/-- Part 2, clause 10; base/src/lib.rs:1287-1293 -/
def TPML_ALG_PROPERTY : Shape := L "alg_properties" TPMS_ALG_PROPERTY 127
/-- Part 2, clause 10; base/src/lib.rs:1319-1325 -/
def TPML_TAGGED_TPM_PROPERTY : Shape := L "tpm_property" TPMS_TAGGED_PROPERTY 127
/-- Part 2, clause 10; base/src/lib.rs:1327-1333 -/
def TPML_TAGGED_PCR_PROPERTY : Shape := L "pcr_property" TPMS_TAGGED_PCR_SELECT 84
/-- Part 2, clause 10; base/src/lib.rs:1335-1341 -/
def TPML_ECC_CURVE : Shape := L "ecc_curves" TPM_ECC_CURVE 508
/-- Part 2, clause 10; base/src/lib.rs:1343-1349 -/
def TPML_TAGGED_POLICY : Shape := L "policies" TPMS_TAGGED_POLICY 14
/-- Part 2, clause 10 -/
def TPML_ACT_DATA : Shape := L "act_data" TPMS_ACT_DATA 84

/-- Part 2, clause 10; base/src/lib.rs:1272-1285 -/
def TPMS_CAPABILITY_DATA (c : Choices) : Shape := .table <|
  .row "capability" TPM_CAP <|
  .union "data" "capability" (cases <| [
    (0x00, TPML_ALG_PROPERTY), (0x01, TPML_HANDLE), (0x02, TPML_CCA), (0x03, TPML_CC),
    (0x04, TPML_CC), (0x05, TPML_PCR_SELECTION), (0x06, TPML_TAGGED_TPM_PROPERTY),
    (0x07, TPML_TAGGED_PCR_PROPERTY), (0x08, TPML_ECC_CURVE), (0x09, TPML_TAGGED_POLICY)] ++
    if c.act then [(0x0A, TPML_ACT_DATA)] else []) .nil

/-- Part 2, clause 10; base/src/lib.rs:666-673 -/
def TPMS_CLOCK_INFO : Shape := T [("clock", UINT64), ("reset_count", UINT32),
  ("restart_count", UINT32), ("safe", TPMI_YES_NO)]
/-- Part 2, clause 10; base/src/lib.rs:729-734 -/
def TPMS_TIME_INFO : Shape := T [("time", UINT64), ("clock_info", TPMS_CLOCK_INFO)]
/-- Part 2, clause 10; base/src/lib.rs:736-741 -/
def TPMS_TIME_ATTEST_INFO : Shape := T [("time", TPMS_TIME_INFO), ("firmware_version", UINT64)]
/-- Part 2, clause 10; base/src/lib.rs:706-711 -/
def TPMS_CERTIFY_INFO : Shape := T [("name", TPM2B_NAME), ("qualified_name", TPM2B_NAME)]
/-- Part 2, clause 10; base/src/lib.rs:692-697 -/
def TPMS_QUOTE_INFO : Shape := T [("pcr_select", TPML_PCR_SELECTION), ("pcr_digest", TPM2B_DIGEST)]
/-- Part 2, clause 10; base/src/lib.rs:713-720 -/
def TPMS_COMMAND_AUDIT_INFO : Shape := T [("audit_counter", UINT64), ("digest_alg", TPM_ALG_ID),
  ("audit_digest", TPM2B_DIGEST), ("command_digest", TPM2B_DIGEST)]
/-- Part 2, clause 10; base/src/lib.rs:722-727 -/
def TPMS_SESSION_AUDIT_INFO : Shape :=
  T [("exclusive_session", TPMI_YES_NO), ("session_digest", TPM2B_DIGEST)]
/-- Part 2, clause 10; base/src/lib.rs:699-704 -/
def TPMS_CREATION_INFO : Shape := T [("object_name", TPM2B_NAME), ("creation_hash", TPM2B_DIGEST)]
/-- Part 2, clause 10; base/src/lib.rs:743-749 -/
def TPMS_NV_CERTIFY_INFO : Shape :=
  T [("index_name", TPM2B_NAME), ("offset", UINT16), ("nv_contents", TPM2B_MAX_NV_BUFFER)]
/-- Part 2, clause 10 -/
def TPMS_NV_DIGEST_CERTIFY_INFO : Shape := T [("index_name", TPM2B_NAME), ("nv_digest", TPM2B_DIGEST)]
/-- Part 2, clause 10; base/src/lib.rs:751-761 -/
def TPMU_ATTEST (c : Choices) : Cases := cases <| [
  (0x8017, TPMS_CERTIFY_INFO), (0x801A, TPMS_CREATION_INFO), (0x8018, TPMS_QUOTE_INFO),
  (0x8015, TPMS_COMMAND_AUDIT_INFO), (0x8016, TPMS_SESSION_AUDIT_INFO),
  (0x8019, TPMS_TIME_ATTEST_INFO), (0x8014, TPMS_NV_CERTIFY_INFO)] ++
  if c.nvDigest then [(0x801C, TPMS_NV_DIGEST_CERTIFY_INFO)] else []
/-- Part 2, clause 10; base/src/lib.rs:763-802 -/
def TPMS_ATTEST (c : Choices) : Shape := .table <|
  .row "magic" TPM_GENERATED <|
  .row "type" TPMI_ST_ATTEST <|
  .row "qualified_signer" TPM2B_NAME <|
  .row "extra_data" (TPM2B_DATA c) <|
  .row "clock_info" TPMS_CLOCK_INFO <|
  .row "firmware_version" UINT64 <|
  .union "attested" "type" (TPMU_ATTEST c) .nil
/-- Part 2, clause 10; base/src/lib.rs:1389-1396 -/
def TPMS_AUTH_COMMAND : Shape := T [("session_handle", TPMI_SH_AUTH_SESSION),
  ("nonce", TPM2B_NONCE), ("session_attributes", TPMA_SESSION), ("hmac", TPM2B_AUTH)]
/-- Part 2, clause 10; base/src/lib.rs:1398-1404 -/
def TPMS_AUTH_RESPONSE : Shape := T [("nonce", TPM2B_NONCE),
  ("session_attributes", TPMA_SESSION), ("hmac", TPM2B_AUTH)]

/-! ### Part 2, clause 11: algorithm parameters -/

/-- Part 2, clause 11: the key size and the mode are unions over
the algorithm; for the null algorithm both are empty; base/src/lib.rs:981-989.
`TPMI_ALG_SYM_OBJECT` has no XOR. -/
def TPMT_SYM_DEF_OBJECT (c : Choices) : Shape := .table <|
  .row "algorithm" TPMI_ALG_SYM_OBJECT <|
  .union "key_bits" "algorithm" (cases <| [
    (0x0006, KEY_BITS), (0x0013, KEY_BITS), (0x0026, KEY_BITS), (0x0010, TPMS_EMPTY)] ++
    if c.objectXor then [(0x000A, TPMI_ALG_HASH)] else []) <|
  .union "mode" "algorithm" (cases <| [
    (0x0006, TPMI_ALG_SYM_MODE), (0x0013, TPMI_ALG_SYM_MODE), (0x0026, TPMI_ALG_SYM_MODE),
    (0x0010, TPMS_EMPTY)] ++ if c.objectXor then [(0x000A, TPMS_EMPTY)] else []) .nil
/-- Part 2, clause 11; base/src/lib.rs:812-818 -/
def TPM2B_SYM_KEY : Shape := .buffer 32
/-- Part 2, clause 11; base/src/lib.rs:991-995 -/
def TPMS_SYMCIPHER_PARMS (c : Choices) : Shape := T [("sym", TPMT_SYM_DEF_OBJECT c)]
/-- Part 2, clause 11; base/src/lib.rs:820-826 -/
def TPM2B_LABEL : Shape := .buffer 32
/-- Part 2, clause 11; base/src/lib.rs:828-833 -/
def TPMS_DERIVE : Shape := T [("label", TPM2B_LABEL), ("context", TPM2B_LABEL)]
/-- Part 2, clause 11; base/src/lib.rs:859-865 -/
def TPM2B_SENSITIVE_DATA : Shape := .buffer 256
/-- Part 2, clause 11; base/src/lib.rs:869-874 -/
def TPMS_SENSITIVE_CREATE : Shape := T [("user_auth", TPM2B_AUTH), ("data", TPM2B_SENSITIVE_DATA)]
/-- Part 2, clause 11; base/src/lib.rs:1045-1049 -/
def TPMS_SCHEME_HASH : Shape := T [("hash_alg", TPMI_ALG_HASH)]
/-- Part 2, clause 11; base/src/lib.rs:1051-1056 -/
def TPMS_SCHEME_ECDAA : Shape := T [("hash_alg", TPMI_ALG_HASH), ("count", UINT16)]
/-- Part 2, clause 11; base/src/lib.rs:958-963 -/
def TPMS_SCHEME_XOR : Shape := T [("hash_alg", TPMI_ALG_HASH), ("kdf", TPMI_ALG_KDF)]
/-- Part 2, clause 11; base/src/lib.rs:967-973 -/
def TPMT_KEYEDHASH_SCHEME : Shape := .table <|
  .row "scheme" TPMI_ALG_KEYEDHASH_SCHEME <|
  .union "details" "scheme" (cases [
    (0x0005, TPMS_SCHEME_HASH), (0x000A, TPMS_SCHEME_XOR), (0x0010, TPMS_EMPTY)]) .nil
/-- Part 2, clause 11; base/src/lib.rs:1032-1043 -/
def TPMT_SIG_SCHEME : Shape := .table <|
  .row "scheme" TPMI_ALG_SIG_SCHEME <|
  .union "details" "scheme" (cases [
    (0x0014, TPMS_SCHEME_HASH), (0x0016, TPMS_SCHEME_HASH), (0x0018, TPMS_SCHEME_HASH),
    (0x001A, TPMS_SCHEME_ECDAA), (0x001B, TPMS_SCHEME_HASH), (0x001C, TPMS_SCHEME_HASH),
    (0x0005, TPMS_SCHEME_HASH), (0x0010, TPMS_EMPTY)]) .nil
/-- Part 2, clause 11; base/src/lib.rs:1111-1119 -/
def TPMT_KDF_SCHEME : Shape := .table <|
  .row "scheme" TPMI_ALG_KDF <|
  .union "details" "scheme" (cases [
    (0x0007, TPMS_SCHEME_HASH), (0x0020, TPMS_SCHEME_HASH), (0x0021, TPMS_SCHEME_HASH),
    (0x0022, TPMS_SCHEME_HASH), (0x0010, TPMS_EMPTY)]) .nil
/-- Signing schemes for RSA keys. -/
def rsaSigning : List (Nat × Shape) := [(0x0014, TPMS_SCHEME_HASH), (0x0016, TPMS_SCHEME_HASH)]
/-- Signing schemes for ECC keys. -/
def eccSigning : List (Nat × Shape) := [(0x0018, TPMS_SCHEME_HASH), (0x001A, TPMS_SCHEME_ECDAA),
  (0x001B, TPMS_SCHEME_HASH), (0x001C, TPMS_SCHEME_HASH)]
/-- Encryption schemes for RSA keys. -/
def rsaEncryption : List (Nat × Shape) := [(0x0015, TPMS_EMPTY), (0x0017, TPMS_SCHEME_HASH)]
/-- Key exchange schemes for ECC keys. -/
def eccExchange : List (Nat × Shape) := [(0x0019, TPMS_SCHEME_HASH), (0x001D, TPMS_SCHEME_HASH)]
/-- Part 2, clause 11; base/src/lib.rs:1130-1144 -/
def TPMT_ASYM_SCHEME : Shape := .table <|
  .row "scheme" TPMI_ALG_ASYM_SCHEME <|
  .union "details" "scheme" (cases
    (rsaSigning ++ eccSigning ++ rsaEncryption ++ eccExchange ++ [(0x0010, TPMS_EMPTY)])) .nil
/-- Part 2, clause 12; base/src/lib.rs:1146-1151 -/
def TPMS_ASYM_PARMS (c : Choices) : Shape :=
  T [("symmetric", TPMT_SYM_DEF_OBJECT c), ("scheme", TPMT_ASYM_SCHEME)]
/-- Part 2, clause 11; base/src/lib.rs:1069-1081 -/
def TPMT_RSA_SCHEME (c : Choices) : Shape := .table <|
  .row "scheme" TPMI_ALG_RSA_SCHEME <|
  .union "details" "scheme" (cases
    (rsaSigning ++ rsaEncryption ++ [(0x0010, TPMS_EMPTY)] ++
      if c.mixedSchemes then eccSigning else [])) .nil
/-- Part 2, clause 11; base/src/lib.rs:884-890 -/
def TPM2B_PUBLIC_KEY_RSA : Shape := .buffer 512
/-- Part 2, clause 11; base/src/lib.rs:892-898 -/
def TPM2B_PRIVATE_KEY_RSA : Shape := .buffer 256
/-- Part 2, clause 11; base/src/lib.rs:900-906 -/
def TPM2B_ECC_PARAMETER : Shape := .buffer 128
/-- Part 2, clause 11; base/src/lib.rs:908-913 -/
def TPMS_ECC_POINT : Shape := T [("x", TPM2B_ECC_PARAMETER), ("y", TPM2B_ECC_PARAMETER)]
/-- Part 2, clause 11; base/src/lib.rs:1092-1104 -/
def TPMT_ECC_SCHEME (c : Choices) : Shape := .table <|
  .row "scheme" TPMI_ALG_ECC_SCHEME <|
  .union "details" "scheme" (cases
    (eccSigning ++ eccExchange ++ [(0x0010, TPMS_EMPTY)] ++
      if c.mixedSchemes then rsaSigning else [])) .nil
/-- Part 2, clause 11; base/src/lib.rs:997-1002 -/
def TPMS_SIGNATURE_RSA : Shape := T [("hash", TPMI_ALG_HASH), ("sig", TPM2B_PUBLIC_KEY_RSA)]
/-- Part 2, clause 11; base/src/lib.rs:1004-1010 -/
def TPMS_SIGNATURE_ECC : Shape := T [("hash", TPMI_ALG_HASH),
  ("signature_r", TPM2B_ECC_PARAMETER), ("signature_s", TPM2B_ECC_PARAMETER)]
/-- Part 2, clause 11; base/src/lib.rs:1019-1030 -/
def TPMT_SIGNATURE : Shape := .table <|
  .row "sig_alg" TPMI_ALG_SIG_SCHEME <|
  .union "signature" "sig_alg" (cases [
    (0x0014, TPMS_SIGNATURE_RSA), (0x0016, TPMS_SIGNATURE_RSA), (0x0018, TPMS_SIGNATURE_ECC),
    (0x001A, TPMS_SIGNATURE_ECC), (0x001B, TPMS_SIGNATURE_ECC), (0x001C, TPMS_SIGNATURE_ECC),
    (0x0005, TPMT_HA false), (0x0010, TPMS_EMPTY)]) .nil
/-- Part 2, clause 11: the largest of a point, an RSA ciphertext and a digest;
base/src/lib.rs:950-956 -/
def TPM2B_ENCRYPTED_SECRET : Shape := .buffer 512

/-! ### Part 2, clause 12: keys and objects -/

/-- Part 2, clause 12; base/src/lib.rs:975-979 -/
def TPMS_KEYEDHASH_PARMS : Shape := T [("scheme", TPMT_KEYEDHASH_SCHEME)]
/-- Part 2, clause 12; base/src/lib.rs:1083-1090 -/
def TPMS_RSA_PARMS (c : Choices) : Shape := T [("symmetric", TPMT_SYM_DEF_OBJECT c),
  ("scheme", TPMT_RSA_SCHEME c), ("key_bits", KEY_BITS), ("exponent", UINT32)]
/-- Part 2, clause 12; base/src/lib.rs:1121-1128 -/
def TPMS_ECC_PARMS (c : Choices) : Shape := T [("symmetric", TPMT_SYM_DEF_OBJECT c),
  ("scheme", TPMT_ECC_SCHEME c), ("curve_id", TPMI_ECC_CURVE), ("kdf", TPMT_KDF_SCHEME)]
/-- Part 2, clause 12; base/src/lib.rs:1162-1169 -/
def TPMU_PUBLIC_PARMS (c : Choices) : Cases := cases [
  (0x0008, TPMS_KEYEDHASH_PARMS), (0x0025, TPMS_SYMCIPHER_PARMS c), (0x0001, TPMS_RSA_PARMS c),
  (0x0023, TPMS_ECC_PARMS c)]
/-- Part 2, clause 12; base/src/lib.rs:1162-1169 -/
def TPMU_PUBLIC_ID : Cases := cases [
  (0x0008, TPM2B_DIGEST), (0x0025, TPM2B_DIGEST), (0x0001, TPM2B_PUBLIC_KEY_RSA),
  (0x0023, TPMS_ECC_POINT)]
/-- Part 2, clause 12; base/src/lib.rs:1171-1204 -/
def TPMT_PUBLIC (c : Choices) : Shape := .table <|
  .row "type" TPMI_ALG_PUBLIC <|
  .row "name_alg" TPMI_ALG_HASH <|
  .row "object_attributes" TPMA_OBJECT <|
  .row "auth_policy" TPM2B_DIGEST <|
  .union "parameters" "type" (TPMU_PUBLIC_PARMS c) <|
  .union "unique" "type" TPMU_PUBLIC_ID .nil
/-- Part 2, clause 12; base/src/lib.rs:1222-1228 -/
def TPM2B_PRIVATE_VENDOR_SPECIFIC : Shape := .buffer 1280
/-- Part 2, clause 12; base/src/lib.rs:1230-1239 -/
def TPMU_SENSITIVE_COMPOSITE (c : Choices) : Cases := cases <| [
  (0x0001, TPM2B_PRIVATE_KEY_RSA), (0x0023, TPM2B_ECC_PARAMETER),
  (0x0008, TPM2B_SENSITIVE_DATA), (0x0025, TPM2B_SYM_KEY)] ++
  if c.sensitiveNull then [(0x0010, TPM2B_PRIVATE_VENDOR_SPECIFIC)] else []
/-- Part 2, clause 12; base/src/lib.rs:1241-1270 -/
def TPMT_SENSITIVE (c : Choices) : Shape := .table <|
  .row "sensitive_type" TPMI_ALG_PUBLIC <|
  .row "auth_value" TPM2B_AUTH <|
  .row "seed_value" TPM2B_DIGEST <|
  .union "sensitive" "sensitive_type" (TPMU_SENSITIVE_COMPOSITE c) .nil
/-- Part 2, clause 12; base/src/lib.rs:1429-1434 -/
def TPMS_ID_OBJECT : Shape := T [("integrity_hmac", TPM2B_DIGEST), ("enc_identity", TPM2B_DIGEST)]

/-! ### Part 2, clauses 13 to 15 -/

/-- Part 2, clause 13; base/src/lib.rs:1444-1452 -/
def TPMS_NV_PUBLIC : Shape := T [("nv_index", TPMI_RH_NV_INDEX), ("name_alg", TPMI_ALG_HASH),
  ("attributes", TPMA_NV), ("auth_policy", TPM2B_DIGEST), ("data_size", UINT16)]
/-- Part 2, clause 14; base/src/lib.rs:1461-1467 -/
def TPM2B_CONTEXT_SENSITIVE : Shape := .buffer 5120
/-- Part 2, clause 14; base/src/lib.rs:1469-1474 -/
def TPMS_CONTEXT_DATA : Shape :=
  T [("integrity", TPM2B_DIGEST), ("encrypted", TPM2B_CONTEXT_SENSITIVE)]
/-- Part 2, clause 15; base/src/lib.rs:1484-1494 -/
def TPMS_CREATION_DATA (c : Choices) : Shape := T [("pcr_select", TPML_PCR_SELECTION),
  ("pcr_digest", TPM2B_DIGEST), ("locality", TPMA_LOCALITY), ("parent_name_alg", TPM_ALG_ID),
  ("parent_name", TPM2B_NAME), ("parent_qualified_name", TPM2B_NAME),
  ("outside_info", TPM2B_DATA c)]

/-! ### Part 3: parameters of commands and responses; Part 1: headers -/

/-- Part 3, clause 30; base/src/commands/capability.rs:8-14 -/
def TPM2_GetCapability : Shape :=
  T [("capability", TPM_CAP), ("property", UINT32), ("property_count", UINT32)]
/-- Part 3, clause 30; base/src/commands/capability.rs:23-28 -/
def TPM2_GetCapability_Response (c : Choices) : Shape :=
  T [("more_data", TPMI_YES_NO), ("capability_data", TPMS_CAPABILITY_DATA c)]
/-- Part 3, clause 22; base/src/commands/pcr.rs:14-18 -/
def TPM2_PCR_Read : Shape := T [("pcr_selection_in", TPML_PCR_SELECTION)]
/-- Part 3, clause 22; base/src/commands/pcr.rs:26-32 -/
def TPM2_PCR_Read_Response : Shape := T [("pcr_update_counter", UINT32),
  ("pcr_selection_out", TPML_PCR_SELECTION), ("pcr_values", TPML_DIGEST)]
/-- Part 3, clause 16; base/src/commands/random.rs:8-12 -/
def TPM2_GetRandom : Shape := T [("bytes_requested", UINT16)]
/-- Part 3, clause 16; base/src/commands/random.rs:20-24 -/
def TPM2_GetRandom_Response : Shape := T [("random_bytes", TPM2B_DIGEST)]
/-- Part 3, clause 9; base/src/commands/startup.rs:9-13 -/
def TPM2_Startup : Shape := T [("startup_type", TPM_SU)]
/-- Part 1, clause 18; crates/tpm2-client/src/lib.rs:26-32 -/
def commandHeader : Shape :=
  T [("tag", TPMI_ST_COMMAND_TAG), ("command_size", UINT32), ("command_code", TPM_CC)]
/-- Part 1, clause 18; crates/tpm2-client/src/lib.rs:44-50 -/
def responseHeader : Shape :=
  T [("tag", TPM_ST), ("response_size", UINT32), ("response_code", UINT32)]

end Verif.Tcg
