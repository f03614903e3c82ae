import Verif.Derive.BaseProps
import Verif.Derive.Lite

/-
C72: the constants of the base crate against the tables of constants of the TPM
2.0 Library Specification, Part 2 (TCG), and the algorithms of the crate `tpm2`
against the same table.  The tables are written from the standard, with its
names; reserved and vendor-specific values are left out.
-/

namespace Verif.Tcg
open Verif

/-! ### The standard -/

/-- `TPM_ALG_ID`: Part 2, table of algorithm identifiers (clause 6.3), and TCG Algorithm
Registry; for `TpmAlgId`, base/src/constants.rs:35-79. -/
def ALG : List (String × Nat) := [
  ("RSA", 0x0001), ("TDES", 0x0003), ("SHA1", 0x0004), ("HMAC", 0x0005), ("AES", 0x0006),
  ("MGF1", 0x0007), ("KEYEDHASH", 0x0008), ("XOR", 0x000A), ("SHA256", 0x000B),
  ("SHA384", 0x000C), ("SHA512", 0x000D), ("NULL", 0x0010), ("SM3_256", 0x0012),
  ("SM4", 0x0013), ("RSASSA", 0x0014), ("RSAES", 0x0015), ("RSAPSS", 0x0016), ("OAEP", 0x0017),
  ("ECDSA", 0x0018), ("ECDH", 0x0019), ("ECDAA", 0x001A), ("SM2", 0x001B),
  ("ECSCHNORR", 0x001C), ("ECMQV", 0x001D), ("KDF1_SP800_56A", 0x0020), ("KDF2", 0x0021),
  ("KDF1_SP800_108", 0x0022), ("ECC", 0x0023), ("SYMCIPHER", 0x0025), ("CAMELLIA", 0x0026),
  ("SHA3_256", 0x0027), ("SHA3_384", 0x0028), ("SHA3_512", 0x0029), ("CMAC", 0x003F),
  ("CTR", 0x0040), ("OFB", 0x0041), ("CBC", 0x0042), ("CFB", 0x0043), ("ECB", 0x0044)]

/-- `TPM_ECC_CURVE`: Part 2, clause 6.4; for base/src/constants.rs:83-97. -/
def ECC : List (String × Nat) := [
  ("NONE", 0x0000), ("NIST_P192", 0x0001), ("NIST_P224", 0x0002), ("NIST_P256", 0x0003),
  ("NIST_P384", 0x0004), ("NIST_P521", 0x0005), ("BN_P256", 0x0010), ("BN_P638", 0x0011),
  ("SM2_P256", 0x0020)]

/-- `TPM_CC`: Part 2, clause 6.5.2 (the values 0x123, 0x15A, 0x15F, 0x166 and 0x175 are not
assigned); `MAC` and `MAC_Start` are the later names of `HMAC` and `HMAC_Start`; for
base/src/constants.rs:101-224. -/
def CC : List (String × Nat) := [
  ("NV_UndefineSpaceSpecial", 0x0000011F), ("EvictControl", 0x00000120),
  ("HierarchyControl", 0x00000121), ("NV_UndefineSpace", 0x00000122),
  ("ChangeEPS", 0x00000124), ("ChangePPS", 0x00000125), ("Clear", 0x00000126),
  ("ClearControl", 0x00000127), ("ClockSet", 0x00000128), ("HierarchyChangeAuth", 0x00000129),
  ("NV_DefineSpace", 0x0000012A), ("PCR_Allocate", 0x0000012B),
  ("PCR_SetAuthPolicy", 0x0000012C), ("PP_Commands", 0x0000012D),
  ("SetPrimaryPolicy", 0x0000012E), ("FieldUpgradeStart", 0x0000012F),
  ("ClockRateAdjust", 0x00000130), ("CreatePrimary", 0x00000131),
  ("NV_GlobalWriteLock", 0x00000132), ("GetCommandAuditDigest", 0x00000133),
  ("NV_Increment", 0x00000134), ("NV_SetBits", 0x00000135), ("NV_Extend", 0x00000136),
  ("NV_Write", 0x00000137), ("NV_WriteLock", 0x00000138),
  ("DictionaryAttackLockReset", 0x00000139), ("DictionaryAttackParameters", 0x0000013A),
  ("NV_ChangeAuth", 0x0000013B), ("PCR_Event", 0x0000013C), ("PCR_Reset", 0x0000013D),
  ("SequenceComplete", 0x0000013E), ("SetAlgorithmSet", 0x0000013F),
  ("SetCommandCodeAuditStatus", 0x00000140), ("FieldUpgradeData", 0x00000141),
  ("IncrementalSelfTest", 0x00000142), ("SelfTest", 0x00000143), ("Startup", 0x00000144),
  ("Shutdown", 0x00000145), ("StirRandom", 0x00000146), ("ActivateCredential", 0x00000147),
  ("Certify", 0x00000148), ("PolicyNV", 0x00000149), ("CertifyCreation", 0x0000014A),
  ("Duplicate", 0x0000014B), ("GetTime", 0x0000014C), ("GetSessionAuditDigest", 0x0000014D),
  ("NV_Read", 0x0000014E), ("NV_ReadLock", 0x0000014F), ("ObjectChangeAuth", 0x00000150),
  ("PolicySecret", 0x00000151), ("Rewrap", 0x00000152), ("Create", 0x00000153),
  ("ECDH_ZGen", 0x00000154), ("MAC", 0x00000155), ("Import", 0x00000156), ("Load", 0x00000157),
  ("Quote", 0x00000158), ("RSA_Decrypt", 0x00000159), ("MAC_Start", 0x0000015B),
  ("SequenceUpdate", 0x0000015C), ("Sign", 0x0000015D), ("Unseal", 0x0000015E),
  ("PolicySigned", 0x00000160), ("ContextLoad", 0x00000161), ("ContextSave", 0x00000162),
  ("ECDH_KeyGen", 0x00000163), ("EncryptDecrypt", 0x00000164), ("FlushContext", 0x00000165),
  ("LoadExternal", 0x00000167), ("MakeCredential", 0x00000168), ("NV_ReadPublic", 0x00000169),
  ("PolicyAuthorize", 0x0000016A), ("PolicyAuthValue", 0x0000016B),
  ("PolicyCommandCode", 0x0000016C), ("PolicyCounterTimer", 0x0000016D),
  ("PolicyCpHash", 0x0000016E), ("PolicyLocality", 0x0000016F), ("PolicyNameHash", 0x00000170),
  ("PolicyOR", 0x00000171), ("PolicyTicket", 0x00000172), ("ReadPublic", 0x00000173),
  ("RSA_Encrypt", 0x00000174), ("StartAuthSession", 0x00000176),
  ("VerifySignature", 0x00000177), ("ECC_Parameters", 0x00000178),
  ("FirmwareRead", 0x00000179), ("GetCapability", 0x0000017A), ("GetRandom", 0x0000017B),
  ("GetTestResult", 0x0000017C), ("Hash", 0x0000017D), ("PCR_Read", 0x0000017E),
  ("PolicyPCR", 0x0000017F), ("PolicyRestart", 0x00000180), ("ReadClock", 0x00000181),
  ("PCR_Extend", 0x00000182), ("PCR_SetAuthValue", 0x00000183), ("NV_Certify", 0x00000184),
  ("EventSequenceComplete", 0x00000185), ("HashSequenceStart", 0x00000186),
  ("PolicyPhysicalPresence", 0x00000187), ("PolicyDuplicationSelect", 0x00000188),
  ("PolicyGetDigest", 0x00000189), ("TestParms", 0x0000018A), ("Commit", 0x0000018B),
  ("PolicyPassword", 0x0000018C), ("ZGen_2Phase", 0x0000018D), ("EC_Ephemeral", 0x0000018E),
  ("PolicyNvWritten", 0x0000018F), ("PolicyTemplate", 0x00000190),
  ("CreateLoaded", 0x00000191), ("PolicyAuthorizeNV", 0x00000192),
  ("EncryptDecrypt2", 0x00000193), ("AC_GetCapability", 0x00000194), ("AC_Send", 0x00000195),
  ("Policy_AC_SendSelect", 0x00000196), ("CertifyX509", 0x00000197),
  ("ACT_SetTimeout", 0x00000198)]

/-- `TPM_EO`: Part 2, clause 6.8; for base/src/constants.rs:342-357. -/
def EO : List (String × Nat) := [
  ("EQ", 0x0000), ("NEQ", 0x0001), ("SIGNED_GT", 0x0002), ("UNSIGNED_GT", 0x0003),
  ("SIGNED_LT", 0x0004), ("UNSIGNED_LT", 0x0005), ("SIGNED_GE", 0x0006),
  ("UNSIGNED_GE", 0x0007), ("SIGNED_LE", 0x0008), ("UNSIGNED_LE", 0x0009), ("BITSET", 0x000A),
  ("BITCLEAR", 0x000B)]

/-- `TPM_ST`: Part 2, clause 6.9; for base/src/constants.rs:361-384. -/
def ST : List (String × Nat) := [
  ("RSP_COMMAND", 0x00C4), ("NULL", 0x8000), ("NO_SESSIONS", 0x8001), ("SESSIONS", 0x8002),
  ("ATTEST_NV", 0x8014), ("ATTEST_COMMAND_AUDIT", 0x8015), ("ATTEST_SESSION_AUDIT", 0x8016),
  ("ATTEST_CERTIFY", 0x8017), ("ATTEST_QUOTE", 0x8018), ("ATTEST_TIME", 0x8019),
  ("ATTEST_CREATION", 0x801A), ("ATTEST_NV_DIGEST", 0x801C), ("CREATION", 0x8021),
  ("VERIFIED", 0x8022), ("AUTH_SECRET", 0x8023), ("HASHCHECK", 0x8024),
  ("AUTH_SIGNED", 0x8025), ("FU_MANIFEST", 0x8029)]

/-- `TPM_SU`: Part 2, clause 6.10; for base/src/constants.rs:388-395. -/
def SU : List (String × Nat) := [
  ("CLEAR", 0x0000), ("STATE", 0x0001)]

/-- `TPM_SE`: Part 2, clause 6.11; for base/src/constants.rs:399-405. -/
def SE : List (String × Nat) := [
  ("HMAC", 0x00), ("POLICY", 0x01), ("TRIAL", 0x03)]

/-- `TPM_CAP`: Part 2, clause 6.12; for base/src/constants.rs:409-425. -/
def CAP : List (String × Nat) := [
  ("ALGS", 0), ("HANDLES", 1), ("COMMANDS", 2), ("PP_COMMANDS", 3), ("AUDIT_COMMANDS", 4),
  ("PCRS", 5), ("TPM_PROPERTIES", 6), ("PCR_PROPERTIES", 7), ("ECC_CURVES", 8),
  ("AUTH_POLICIES", 9), ("ACT", 10)]

/-- The group of the fixed properties: Part 2, clause 6.13 (base/src/constants.rs:429-594). -/
def PT_FIXED : Nat := 0x100
/-- The group of the variable properties: Part 2, clause 6.13 (base/src/constants.rs:429-594). -/
def PT_VAR : Nat := 0x200

/-- `TPM_PT`: Part 2, clause 6.13; for base/src/constants.rs:429-594. -/
def PT : List (String × Nat) := [
  ("FAMILY_INDICATOR", PT_FIXED + 0), ("LEVEL", PT_FIXED + 1), ("REVISION", PT_FIXED + 2),
  ("DAY_OF_YEAR", PT_FIXED + 3), ("YEAR", PT_FIXED + 4), ("MANUFACTURER", PT_FIXED + 5),
  ("VENDOR_STRING_1", PT_FIXED + 6), ("VENDOR_STRING_2", PT_FIXED + 7),
  ("VENDOR_STRING_3", PT_FIXED + 8), ("VENDOR_STRING_4", PT_FIXED + 9),
  ("VENDOR_TPM_TYPE", PT_FIXED + 10), ("FIRMWARE_VERSION_1", PT_FIXED + 11),
  ("FIRMWARE_VERSION_2", PT_FIXED + 12), ("INPUT_BUFFER", PT_FIXED + 13),
  ("HR_TRANSIENT_MIN", PT_FIXED + 14), ("HR_PERSISTENT_MIN", PT_FIXED + 15),
  ("HR_LOADED_MIN", PT_FIXED + 16), ("ACTIVE_SESSIONS_MAX", PT_FIXED + 17),
  ("PCR_COUNT", PT_FIXED + 18), ("PCR_SELECT_MIN", PT_FIXED + 19),
  ("CONTEXT_GAP_MAX", PT_FIXED + 20), ("NV_COUNTERS_MAX", PT_FIXED + 22),
  ("NV_INDEX_MAX", PT_FIXED + 23), ("MEMORY", PT_FIXED + 24), ("CLOCK_UPDATE", PT_FIXED + 25),
  ("CONTEXT_HASH", PT_FIXED + 26), ("CONTEXT_SYM", PT_FIXED + 27),
  ("CONTEXT_SYM_SIZE", PT_FIXED + 28), ("ORDERLY_COUNT", PT_FIXED + 29),
  ("MAX_COMMAND_SIZE", PT_FIXED + 30), ("MAX_RESPONSE_SIZE", PT_FIXED + 31),
  ("MAX_DIGEST", PT_FIXED + 32), ("MAX_OBJECT_CONTEXT", PT_FIXED + 33),
  ("MAX_SESSION_CONTEXT", PT_FIXED + 34), ("PS_FAMILY_INDICATOR", PT_FIXED + 35),
  ("PS_LEVEL", PT_FIXED + 36), ("PS_REVISION", PT_FIXED + 37),
  ("PS_DAY_OF_YEAR", PT_FIXED + 38), ("PS_YEAR", PT_FIXED + 39), ("SPLIT_MAX", PT_FIXED + 40),
  ("TOTAL_COMMANDS", PT_FIXED + 41), ("LIBRARY_COMMANDS", PT_FIXED + 42),
  ("VENDOR_COMMANDS", PT_FIXED + 43), ("NV_BUFFER_MAX", PT_FIXED + 44),
  ("MODES", PT_FIXED + 45), ("MAX_CAP_BUFFER", PT_FIXED + 46), ("PERMANENT", PT_VAR + 0),
  ("STARTUP_CLEAR", PT_VAR + 1), ("HR_NV_INDEX", PT_VAR + 2), ("HR_LOADED", PT_VAR + 3),
  ("HR_LOADED_AVAIL", PT_VAR + 4), ("HR_ACTIVE", PT_VAR + 5), ("HR_ACTIVE_AVAIL", PT_VAR + 6),
  ("HR_TRANSIENT_AVAIL", PT_VAR + 7), ("HR_PERSISTENT", PT_VAR + 8),
  ("HR_PERSISTENT_AVAIL", PT_VAR + 9), ("NV_COUNTERS", PT_VAR + 10),
  ("NV_COUNTERS_AVAIL", PT_VAR + 11), ("ALGORITHM_SET", PT_VAR + 12),
  ("LOADED_CURVES", PT_VAR + 13), ("LOCKOUT_COUNTER", PT_VAR + 14),
  ("MAX_AUTH_FAIL", PT_VAR + 15), ("LOCKOUT_INTERVAL", PT_VAR + 16),
  ("LOCKOUT_RECOVERY", PT_VAR + 17), ("NV_WRITE_RECOVERY", PT_VAR + 18),
  ("AUDIT_COUNTER_0", PT_VAR + 19), ("AUDIT_COUNTER_1", PT_VAR + 20)]

/-- `TPM_PT_PCR`: Part 2, clause 6.14; for base/src/constants.rs:598-648. -/
def PT_PCR : List (String × Nat) := [
  ("SAVE", 0), ("EXTEND_L0", 1), ("RESET_L0", 2), ("EXTEND_L1", 3), ("RESET_L1", 4),
  ("EXTEND_L2", 5), ("RESET_L2", 6), ("EXTEND_L3", 7), ("RESET_L3", 8), ("EXTEND_L4", 9),
  ("RESET_L4", 0x0A), ("NO_INCREMENT", 0x11), ("DRTM_RESET", 0x12), ("POLICY", 0x13),
  ("AUTH", 0x14)]

/-- `TPM_HT`: Part 2, clause 7.2; for base/src/constants.rs:652-663. -/
def HT : List (String × Nat) := [
  ("PCR", 0x00), ("NV_INDEX", 0x01), ("HMAC_SESSION", 0x02), ("POLICY_SESSION", 0x03),
  ("PERMANENT", 0x40), ("TRANSIENT", 0x80), ("PERSISTENT", 0x81), ("AC", 0x90)]

/-- `TPM_RH`: Part 2, clause 7.4; for base/src/constants.rs:667-679. -/
def RH : List (String × Nat) := [
  ("RH_OWNER", 0x40000001), ("RH_NULL", 0x40000007), ("RS_PW", 0x40000009),
  ("RH_LOCKOUT", 0x4000000A), ("RH_ENDORSEMENT", 0x4000000B), ("RH_PLATFORM", 0x4000000C),
  ("RH_PLATFORM_NV", 0x4000000D)]

/-- `TPM_NT`: Part 2, clause 13.4; for base/src/constants.rs:748-770. -/
def NT : List (String × Nat) := [
  ("ORDINARY", 0x0), ("COUNTER", 0x1), ("BITS", 0x2), ("EXTEND", 0x4), ("PIN_FAIL", 0x8),
  ("PIN_PASS", 0x9)]

/-- `TPM_GENERATED`: Part 2, clause 6.2 (0xFF and "TCG"); for base/src/constants.rs:774-780. -/
def GENERATED : List (String × Nat) := [
  ("VALUE", 0xFF544347)]

/-- `TPMI_YES_NO`: Part 2, clause 9.2; for base/src/lib.rs:348-355. -/
def YES_NO : List (String × Nat) := [
  ("NO", 0), ("YES", 1)]

/-- The types of constants of the base crate (base/src/constants.rs:35-780,
base/src/lib.rs:348-355) with the tables of the standard. -/
def tables : List (String × List (String × Nat)) := [
  ("TpmAlgId", ALG), ("TpmEccCurve", ECC), ("TpmCc", CC), ("TpmEo", EO), ("TpmSt", ST),
  ("TpmSu", SU), ("TpmSe", SE), ("TpmCap", CAP), ("TpmPt", PT), ("TpmPtPcr", PT_PCR),
  ("TpmHt", HT), ("TpmHandle", RH), ("TpmNt", NT), ("TpmGenerated", GENERATED),
  ("TpmiYesNo", YES_NO)]

/-- The interface types (base/src/lib.rs:144-299, 359-372, 545-552) with the type
of their values and the values the standard lists: Part 2, clauses 9.20-9.31, 11.1.5,
11.1.6, 11.2.1.5, 11.2.3.5, 11.2.4.1, 11.2.5.3, 12.2.2. -/
def interfaces : List (String × String × List String) := [
  ("TpmiAlgHash", "TpmAlgId",
    ["SHA1", "SHA256", "SHA384", "SHA512", "SM3_256", "SHA3_256", "SHA3_384", "SHA3_512"]),
  ("TpmiAlgKdf", "TpmAlgId", ["MGF1", "KDF1_SP800_56A", "KDF2", "KDF1_SP800_108"]),
  ("TpmiAlgPublic", "TpmAlgId", ["RSA", "KEYEDHASH", "ECC", "SYMCIPHER"]),
  ("TpmiAlgSymMode", "TpmAlgId", ["CMAC", "CTR", "OFB", "CBC", "CFB", "ECB"]),
  ("TpmiAlgSymObject", "TpmAlgId", ["TDES", "AES", "SM4", "CAMELLIA"]),
  ("TpmiAlgKeyedhashScheme", "TpmAlgId", ["HMAC", "XOR"]),
  ("TpmiAlgRsaScheme", "TpmAlgId", ["RSASSA", "RSAES", "RSAPSS", "OAEP"]),
  ("TpmiAlgSigScheme", "TpmAlgId",
    ["RSASSA", "RSAPSS", "ECDSA", "ECDAA", "SM2", "ECSCHNORR", "HMAC"]),
  ("TpmiAlgEccScheme", "TpmAlgId", ["ECDSA", "ECDH", "ECDAA", "SM2", "ECSCHNORR", "ECMQV"]),
  ("TpmiAlgAsymScheme", "TpmAlgId",
    ["RSASSA", "RSAES", "RSAPSS", "OAEP", "ECDSA", "ECDH", "ECDAA", "SM2", "ECSCHNORR", "ECMQV"]),
  ("TpmiStAttest", "TpmSt",
    ["ATTEST_CERTIFY", "ATTEST_QUOTE", "ATTEST_SESSION_AUDIT", "ATTEST_COMMAND_AUDIT",
     "ATTEST_TIME", "ATTEST_CREATION", "ATTEST_NV", "ATTEST_NV_DIGEST"]),
  ("TpmiStCommandTag", "TpmSt", ["NO_SESSIONS", "SESSIONS"])]

/-- The interface types with further values: the schemes for RSA list those for
elliptic curves and the other way round, base/src/lib.rs:230-244, 265-279. -/
def wider : List String := ["TpmiAlgRsaScheme", "TpmiAlgEccScheme"]

/-! ### Names -/

/-- A name without its capitals and underscores (only used to compare names;
nothing in /repo). -/
def plain (s : String) : List Char := (s.toList.filter (· != '_')).map Char.toLower

/-- Misspelt names: base/src/constants.rs:115, 209, 641. -/
def misspelt : List (String × String) := [
  ("HierarchyChanegAuth", "HierarchyChangeAuth"), ("TestParams", "TestParms"),
  ("DRTMRest", "DRTMReset")]

/-- The name that was meant. -/
def spelt (n : String) : String := (misspelt.lookup n).getD n

/-- The same name up to capitals, underscores and misspellings. -/
def Named (n x : String) : Prop := plain (spelt n) = plain x

instance (n x : String) : Decidable (Named n x) := inferInstanceAs (Decidable (_ = _))

/-! ### The check -/

/-- The constants of a type against the table of the standard. -/
def checkTable (l : List (String × Nat)) (r : List (String × Nat)) : Bool :=
  l.all (fun (n, v) => r.any fun (x, u) => v == u && decide (Named n x)) &&
  r.all (fun (x, u) => l.any fun (n, v) => v == u && decide (Named n x) && l.lookup n == some v) &&
  decide ((l.map (·.2)).Nodup)

/-- The constants of an interface type against those of the type of its values
and the list of the standard. -/
def checkInterface (exact : Bool) (l parent : List (String × Nat)) (r : List String) : Bool :=
  l.all (fun (n, v) => parent.lookup n == some v && (!exact || r.any fun x => decide (Named n x))) &&
  r.all (fun x => l.any fun (n, v) => decide (Named n x) && l.lookup n == some v)

/-- The constants of the crate, by type. -/
def assocs : List (String × List (String × Nat)) :=
  (Derive.Env.empty.addLiteAll Derive.Decls.all).assoc

/-- Tables. -/
def checkTables (l : List (String × List (String × Nat))) : Bool :=
  l.all fun (t, r) =>
    match assocs.lookup t with
    | some l => checkTable l r
    | none => false

/-- Interface types. -/
def checkInterfaces (l : List (String × String × List String)) : Bool :=
  l.all fun (t, p, r) =>
    match assocs.lookup t, assocs.lookup p with
    | some l, some m => checkInterface (!wider.contains t) l m r
    | _, _ => false

set_option maxRecDepth 100000 in
theorem checkTables_true : checkTables tables = true := by
  have h1 : checkTables (tables.take 2) = true := by decide +kernel
  have h2 : checkTables ((tables.drop 2).take 1) = true := by decide +kernel
  have h3 : checkTables (tables.drop 3) = true := by decide +kernel
  have h : tables = tables.take 2 ++ ((tables.drop 2).take 1 ++ tables.drop 3) := rfl
  rw [h]
  unfold checkTables at *
  rw [List.all_append, List.all_append, h1, h2, h3]
  rfl

set_option maxRecDepth 100000 in
theorem checkInterfaces_true : checkInterfaces interfaces = true := by
  have h1 : checkInterfaces (interfaces.take 4) = true := by decide +kernel
  have h2 : checkInterfaces ((interfaces.drop 4).take 4) = true := by decide +kernel
  have h3 : checkInterfaces (interfaces.drop 8) = true := by decide +kernel
  have h : interfaces = interfaces.take 4 ++ ((interfaces.drop 4).take 4 ++ interfaces.drop 8) := rfl
  rw [h]
  unfold checkInterfaces at *
  rw [List.all_append, List.all_append, h1, h2, h3]
  rfl

theorem const_eq (e : Derive.Env) (t n : String) (ht : t ≠ "constants") :
    e.const [t, n] = (e.assoc.lookup t).bind (·.lookup n) := by
  unfold Derive.Env.const
  split
  · simp at *
  · rename_i h; simp at h; exact absurd h.1 ht
  · rename_i h; simp at h; obtain ⟨rfl, rfl⟩ := h; rfl
  · rename_i h; exact absurd rfl (h t n)

theorem mem_of_lookup {α : Type} {n : String} {v : α} : ∀ {l : List (String × α)},
    l.lookup n = some v → (n, v) ∈ l
  | (m, u) :: l, h => by
    rw [List.lookup_cons] at h
    split at h
    · rename_i hb
      simp only [beq_iff_eq] at hb
      injection h with h
      subst h hb
      exact List.mem_cons_self
    · exact List.mem_cons_of_mem _ (mem_of_lookup h)

/-- What has been checked. -/
theorem checked (e : Derive.Env) (he : Derive.Env.empty.addAll Derive.Decls.all = some e) :
    (∀ t r, (t, r) ∈ tables → ∃ l, e.assoc.lookup t = some l ∧ checkTable l r = true) ∧
    (∀ t p r, (t, p, r) ∈ interfaces → ∃ l m, e.assoc.lookup t = some l ∧
      e.assoc.lookup p = some m ∧ checkInterface (!wider.contains t) l m r = true) := by
  have h : _ ∧ _ := ⟨checkTables_true, checkInterfaces_true⟩
  simp only [checkTables, checkInterfaces, List.all_eq_true] at h
  constructor
  · intro t r hm
    have := h.1 _ hm
    simp only at this
    split at this
    · rename_i l hl; exact ⟨l, Derive.lite_assoc he _ _ hl, this⟩
    · cases this
  · intro t p r hm
    have := h.2 _ hm
    simp only at this
    split at this
    · rename_i l m hl hm
      exact ⟨l, m, Derive.lite_assoc he _ _ hl, Derive.lite_assoc he _ _ hm, this⟩
    · cases this

theorem tables_ne : ∀ t r, (t, r) ∈ tables → t ≠ "constants" := by
  intro t r h
  have : tables.all (fun x => decide (x.1 ≠ "constants")) = true := by decide +kernel
  simpa using List.all_eq_true.mp this _ h

theorem interfaces_ne : ∀ t p r, (t, p, r) ∈ interfaces → t ≠ "constants" ∧ p ≠ "constants" := by
  intro t p r h
  have : interfaces.all (fun x => decide (x.1 ≠ "constants" ∧ x.2.1 ≠ "constants")) = true := by
    decide +kernel
  simpa using List.all_eq_true.mp this _ h

/-! ### C72 -/

/-- **C72.** Every constant of these types has the value the standard gives to
its name. -/
theorem C72_values (e : Derive.Env) (he : Derive.Env.empty.addAll Derive.Decls.all = some e)
    (t : String) (r : List (String × Nat)) (ht : (t, r) ∈ tables) (n : String) (v : Nat)
    (hn : e.const [t, n] = some v) : ∃ x, Named n x ∧ (x, v) ∈ r := by
  obtain ⟨l, hl, hc⟩ := (checked e he).1 t r ht
  rw [const_eq e t n (tables_ne t r ht), hl] at hn
  simp only [checkTable, Bool.and_eq_true, List.all_eq_true] at hc
  have := hc.1.1 _ (mem_of_lookup hn)
  simp only [List.any_eq_true, Bool.and_eq_true, beq_iff_eq, decide_eq_true_eq] at this
  obtain ⟨⟨x, u⟩, hx, rfl, hx'⟩ := this
  exact ⟨x, hx', hx⟩

/-- **C72**: every entry of the tables is there. -/
theorem C72_complete (e : Derive.Env) (he : Derive.Env.empty.addAll Derive.Decls.all = some e)
    (t : String) (r : List (String × Nat)) (ht : (t, r) ∈ tables) (x : String) (v : Nat)
    (hx : (x, v) ∈ r) : ∃ n, Named n x ∧ e.const [t, n] = some v := by
  obtain ⟨l, hl, hc⟩ := (checked e he).1 t r ht
  simp only [checkTable, Bool.and_eq_true, List.all_eq_true] at hc
  have := hc.1.2 _ hx
  simp only [List.any_eq_true, Bool.and_eq_true, beq_iff_eq, decide_eq_true_eq] at this
  obtain ⟨⟨n, u⟩, hm, ⟨rfl, hn⟩, hk⟩ := this
  exact ⟨n, hn, by rw [const_eq e t n (tables_ne t r ht), hl]; exact hk⟩

theorem nodup_snd {n m : String} {v : Nat} : ∀ {l : List (String × Nat)},
    (l.map (·.2)).Nodup → (n, v) ∈ l → (m, v) ∈ l → n = m
  | (k, u) :: l, hd, h1, h2 => by
    simp only [List.map_cons, List.nodup_cons, List.mem_map, not_exists, not_and] at hd
    rcases List.mem_cons.mp h1 with h1 | h1 <;> rcases List.mem_cons.mp h2 with h2 | h2
    · injection h1 with h1; injection h2 with h2; rw [h1, h2]
    · injection h1 with h1 h1'; exact absurd h1' (hd.1 _ h2)
    · injection h2 with h2 h2'; exact absurd h2' (hd.1 _ h1)
    · exact nodup_snd hd.2 h1 h2

/-- **C72**: different constants of a type have different values. -/
theorem C72_distinct (e : Derive.Env) (he : Derive.Env.empty.addAll Derive.Decls.all = some e)
    (t : String) (r : List (String × Nat)) (ht : (t, r) ∈ tables) (n m : String) (v : Nat)
    (hn : e.const [t, n] = some v) (hm : e.const [t, m] = some v) : n = m := by
  obtain ⟨l, hl, hc⟩ := (checked e he).1 t r ht
  rw [const_eq e t _ (tables_ne t r ht), hl] at hn hm
  simp only [checkTable, Bool.and_eq_true, decide_eq_true_eq] at hc
  exact nodup_snd hc.2 (mem_of_lookup hn) (mem_of_lookup hm)

/-- **C72** for interface types: every constant is the constant with the same
name of the type of its values, and, but for the two schemes in `wider`, is one
that the standard lists. -/
theorem C72_interfaces (e : Derive.Env) (he : Derive.Env.empty.addAll Derive.Decls.all = some e)
    (t p : String) (r : List String) (ht : (t, p, r) ∈ interfaces) (n : String) (v : Nat)
    (hn : e.const [t, n] = some v) :
    e.const [p, n] = some v ∧ (t ∉ wider → ∃ x ∈ r, Named n x) := by
  obtain ⟨l, m, hl, hm, hc⟩ := (checked e he).2 t p r ht
  obtain ⟨h1, h2⟩ := interfaces_ne t p r ht
  rw [const_eq e t _ h1, hl] at hn
  rw [const_eq e p _ h2, hm]
  simp only [checkInterface, Bool.and_eq_true, List.all_eq_true] at hc
  have := hc.1 _ (mem_of_lookup hn)
  simp only [beq_iff_eq, Bool.or_eq_true, Bool.not_not, List.contains_eq_mem,
    decide_eq_true_eq, List.any_eq_true] at this
  exact ⟨this.1, fun hw => this.2.resolve_left hw⟩

/-- **C72** for interface types: every value that the standard lists is there. -/
theorem C72_interfaces_complete (e : Derive.Env)
    (he : Derive.Env.empty.addAll Derive.Decls.all = some e)
    (t p : String) (r : List String) (ht : (t, p, r) ∈ interfaces) (x : String) (hx : x ∈ r) :
    ∃ n v, Named n x ∧ e.const [t, n] = some v := by
  obtain ⟨l, m, hl, hm, hc⟩ := (checked e he).2 t p r ht
  obtain ⟨h1, -⟩ := interfaces_ne t p r ht
  simp only [checkInterface, Bool.and_eq_true, List.all_eq_true] at hc
  have := hc.2 _ hx
  simp only [List.any_eq_true, Bool.and_eq_true, beq_iff_eq, decide_eq_true_eq] at this
  obtain ⟨⟨n, v⟩, -, hn, hk⟩ := this
  exact ⟨n, v, hn, by rw [const_eq e t _ h1, hl]; exact hk⟩

/-- Non-vacuity: the declarations can be read, the misspelt command code has the
right value, and the hash interface holds SHA-256. -/
example : ∃ e, Derive.Env.empty.addAll Derive.Decls.all = some e ∧
    (∃ n, Named n "HierarchyChangeAuth" ∧ e.const ["TpmCc", n] = some 0x129) ∧
    (∃ n v, Named n "SHA256" ∧ e.const ["TpmiAlgHash", n] = some v) := by
  obtain ⟨e, he, -⟩ := Derive.C67_table
  refine ⟨e, he, ?_, ?_⟩
  · exact C72_complete e he "TpmCc" CC (List.mem_of_getElem? (i := 2) rfl) "HierarchyChangeAuth" _
      (List.mem_of_getElem? (i := 9) rfl)
  · exact C72_interfaces_complete e he "TpmiAlgHash" "TpmAlgId" _
      (List.mem_of_getElem? (i := 0) rfl) "SHA256" (List.mem_of_getElem? (i := 1) rfl)

/-! ### The crate `tpm2` -/

/-- The constants of `Alg`: crates/tpm2/src/constants.rs:19-58. -/
def tpm2Alg : List (String × Nat) := [
  ("Rsa", 0x0001), ("Tdes", 0x0003), ("Sha1", 0x0004), ("Hmac", 0x0005), ("Aes", 0x0006),
  ("Mgf1", 0x0007), ("KeyedHash", 0x0008), ("Null", 0x0010), ("Xor", 0x000A),
  ("Sha256", 0x000B), ("Sha384", 0x000C), ("Sha512", 0x000D), ("Sm3_256", 0x0012),
  ("Sm4", 0x0013), ("RsaSsa", 0x0014), ("RsaEs", 0x0015), ("RsaPss", 0x0016), ("Oaep", 0x0017),
  ("Ecdsa", 0x0018), ("Ecdh", 0x0019), ("Ecdaa", 0x001A), ("Sm2", 0x001B),
  ("EcSchnorr", 0x001C), ("Ecmqv", 0x001D), ("Kdf1Sp800_56A", 0x0020), ("Kdf2", 0x0021),
  ("Kdf1Sp800_108", 0x0022), ("Ecc", 0x0023), ("SymCipher", 0x0025), ("Camellia", 0x0026),
  ("Sha3_256", 0x0027), ("Sha3_384", 0x0028), ("Sha3_512", 0x0029), ("Ctr", 0x0040),
  ("Ofb", 0x0041), ("Cbc", 0x0042), ("Cfb", 0x0043), ("Ecb", 0x0044)]

set_option maxRecDepth 100000 in
theorem checkTpm2_true : (tpm2Alg.all (fun (n, v) => ALG.any fun (x, u) => v == u && decide (Named n x)) &&
    ALG.all (fun (x, u) => x == "CMAC" || tpm2Alg.any fun (n, v) => v == u && decide (Named n x)) &&
    decide ((tpm2Alg.map (·.2)).Nodup)) = true := by decide +kernel

/-- **C72** for the other crate: its algorithms have the values the standard
gives to their names, all are there but CMAC, and they are different. -/
theorem C72_tpm2 :
    (∀ n v, (n, v) ∈ tpm2Alg → ∃ x, Named n x ∧ (x, v) ∈ ALG) ∧
    (∀ x v, (x, v) ∈ ALG → x ≠ "CMAC" → ∃ n, Named n x ∧ (n, v) ∈ tpm2Alg) ∧
    (∀ n m v, (n, v) ∈ tpm2Alg → (m, v) ∈ tpm2Alg → n = m) := by
  have h := checkTpm2_true
  simp only [Bool.and_eq_true, List.all_eq_true, decide_eq_true_eq] at h
  refine ⟨fun n v hn => ?_, fun x v hx hc => ?_, fun n m v hn hm => nodup_snd h.2 hn hm⟩
  · have := h.1.1 _ hn
    simp only [List.any_eq_true, Bool.and_eq_true, beq_iff_eq, decide_eq_true_eq] at this
    obtain ⟨⟨x, u⟩, hx, rfl, hx'⟩ := this
    exact ⟨x, hx', hx⟩
  · have := h.1.2 _ hx
    simp only [Bool.or_eq_true, List.any_eq_true, Bool.and_eq_true, beq_iff_eq, decide_eq_true_eq, hc,
      false_or] at this
    obtain ⟨⟨n, u⟩, hm, rfl, hn⟩ := this
    exact ⟨n, hn, hm⟩

/-- Non-vacuity: the key derivation functions have names with digits. -/
example : ("Kdf1Sp800_56A", 0x20) ∈ tpm2Alg ∧ ("KDF1_SP800_56A", 0x20) ∈ ALG ∧
    Named "Kdf1Sp800_56A" "KDF1_SP800_56A" := by
  refine ⟨List.mem_of_getElem? (i := 24) rfl, List.mem_of_getElem? (i := 24) rfl, by decide +kernel⟩

end Verif.Tcg
