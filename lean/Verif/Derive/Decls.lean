import Verif.Derive.Program

/-
The declarations of the base crate and of the client's headers as macro inputs,
in an order in which everything is declared before it is used (Rust does not
care).  Each is preceded by its place in the source; attributes other than
`marshalable` (`repr`, `derive`, documentation) are left out, `repr` being
recorded as the number of bytes of the discriminant.  `open_enum` turns an enum
into a structure around its representation, with a constant per value; it runs
before the derive macros.  `TpmRc` is left out (see `Errors/Impl`).
-/

namespace Verif.Derive.Decls
open Verif.Derive

/-- A type given by its name. -/
def ty (i : Ident) : TypeE := .path (.ident i)

/-- A constant given by its path. -/
def val (segs : List Ident) : Expr := .path false false (.mk (segs.map fun i => .mk i none))

/-- `size_of::<i>()`. -/
def sizeOf (i : Ident) : Expr :=
  .call (.path false false (.mk [.mk "size_of" (some [.type (ty i)])])) []

/-- `struct name(repr)`. -/
def wrapper (name repr : Ident) : Input := ⟨name, [], .struct (.unnamed [ty repr])⟩

/-- `#[marshalable(tpm2b_simple)]` -/
def sized : Attr := ⟨.ident "marshalable", some [.path (.ident "tpm2b_simple")]⟩

/-- `#[marshalable(length=l)] name: t` -/
def counted (l name : Ident) (t : TypeE) : NField :=
  ⟨name, t, [⟨.ident "marshalable", some [.path (.ident "length"), .eq, .path (.ident l)]⟩]⟩

/-- Part 1: declarations of base/src/constants.rs; places at each. -/
def part1 : List Decl := [
  -- base/src/constants.rs:6
  .const "TPM2_SHA_DIGEST_SIZE" (.lit 20),
  -- base/src/constants.rs:7
  .const "TPM2_SHA1_DIGEST_SIZE" (.lit 20),
  -- base/src/constants.rs:8
  .const "TPM2_SHA256_DIGEST_SIZE" (.lit 32),
  -- base/src/constants.rs:9
  .const "TPM2_SHA384_DIGEST_SIZE" (.lit 48),
  -- base/src/constants.rs:10
  .const "TPM2_SHA512_DIGEST_SIZE" (.lit 64),
  -- base/src/constants.rs:11
  .const "TPM2_SM3_256_DIGEST_SIZE" (.lit 32),
  -- base/src/constants.rs:13
  .const "TPM2_MAX_DIGEST_BUFFER" (.lit 1024),
  -- base/src/constants.rs:14
  .const "TPM2_MAX_NV_BUFFER_SIZE" (.lit 2048),
  -- base/src/constants.rs:15
  .const "TPM2_MAX_CAP_BUFFER" (.lit 1024),
  -- base/src/constants.rs:16
  .const "TPM2_NUM_PCR_BANKS" (.lit 16),
  -- base/src/constants.rs:17
  .const "TPM2_MAX_PCRS" (.lit 32),
  -- base/src/constants.rs:18
  .const "TPM2_PCR_SELECT_MAX" (.method (val ["TPM2_MAX_PCRS"]) "div_ceil" [(.lit 8)]),
  -- base/src/constants.rs:19
  .const "TPM2_LABEL_MAX_BUFFER" (.lit 32),
  -- base/src/constants.rs:22
  .const "TPM2_MAX_SYM_BLOCK_SIZE" (.lit 16),
  -- base/src/constants.rs:23
  .const "TPM2_MAX_SYM_DATA" (.lit 256),
  -- base/src/constants.rs:24
  .const "TPM2_MAX_ECC_KEY_BYTES" (.lit 128),
  -- base/src/constants.rs:25
  .const "TPM2_MAX_SYM_KEY_BYTES" (.lit 32),
  -- base/src/constants.rs:26
  .const "TPM2_MAX_RSA_KEY_BYTES" (.lit 512),
  -- base/src/constants.rs:28
  .const "TPM2_PRIVATE_VENDOR_SPECIFIC_BYTES" (.binary .mul (.paren (.binary .div (val ["TPM2_MAX_RSA_KEY_BYTES"]) (.lit 2))) (.paren (.binary .add (.lit 3) (.lit 2)))),
  -- base/src/constants.rs:30
  .const "TPM2_MAX_CONTEXT_SIZE" (.lit 5120),
  -- base/src/constants.rs:31
  .const "TPM2_MAX_ACTIVE_SESSIONS" (.lit 64),
  -- base/src/constants.rs:35-79
  .derive 0 (wrapper "TpmAlgId" "u16"),
  -- base/src/constants.rs:35-79
  .assoc "TpmAlgId" [("RSA", (.lit 0x0001)), ("TDES", (.lit 0x0003)), ("SHA1", (.lit 0x0004)),
      ("HMAC", (.lit 0x0005)), ("AES", (.lit 0x0006)), ("MGF1", (.lit 0x0007)), ("KeyedHash",
      (.lit 0x0008)), ("XOR", (.lit 0x000A)), ("SHA256", (.lit 0x000B)), ("SHA384",
      (.lit 0x000C)), ("SHA512", (.lit 0x000D)), ("Null", (.lit 0x0010)), ("SM3256",
      (.lit 0x0012)), ("SM4", (.lit 0x0013)), ("RSASSA", (.lit 0x0014)), ("RSAES",
      (.lit 0x0015)), ("RSAPSS", (.lit 0x0016)), ("OAEP", (.lit 0x0017)), ("ECDSA",
      (.lit 0x0018)), ("ECDH", (.lit 0x0019)), ("ECDAA", (.lit 0x001A)), ("SM2", (.lit 0x001B)),
      ("ECSchnorr", (.lit 0x001C)), ("ECMQV", (.lit 0x001D)), ("KDF1SP80056A", (.lit 0x0020)),
      ("KDF2", (.lit 0x0021)), ("KDF1SP800108", (.lit 0x0022)), ("ECC", (.lit 0x0023)),
      ("SymCipher", (.lit 0x0025)), ("Camellia", (.lit 0x0026)), ("SHA3256", (.lit 0x0027)),
      ("SHA3384", (.lit 0x0028)), ("SHA3512", (.lit 0x0029)), ("CMAC", (.lit 0x003F)), ("CTR",
      (.lit 0x0040)), ("OFB", (.lit 0x0041)), ("CBC", (.lit 0x0042)), ("CFB", (.lit 0x0043)),
      ("ECB", (.lit 0x0044))],
  -- base/src/constants.rs:83-97
  .derive 0 (wrapper "TpmEccCurve" "u16")]

/-- Part 2: declarations of base/src/constants.rs, base/src/lib.rs; places at each. -/
def part2 : List Decl := [
  -- base/src/constants.rs:83-97
  .assoc "TpmEccCurve" [("None", (.lit 0x0000)), ("NistP192", (.lit 0x0001)), ("NistP224",
      (.lit 0x0002)), ("NistP256", (.lit 0x0003)), ("NistP384", (.lit 0x0004)), ("NistP521",
      (.lit 0x0005)), ("BNP256", (.lit 0x0010)), ("BNP638", (.lit 0x0011)), ("SM2P256",
      (.lit 0x0020))],
  -- base/src/constants.rs:101-224
  .derive 0 (wrapper "TpmCc" "u32"),
  -- base/src/constants.rs:101-224
  .assoc "TpmCc" [("NVUndefineSpaceSpecial", (.lit 0x0000011F)), ("EvictControl",
      (.lit 0x00000120)), ("HierarchyControl", (.lit 0x00000121)), ("NVUndefineSpace",
      (.lit 0x00000122)), ("ChangeEPS", (.lit 0x00000124)), ("ChangePPS", (.lit 0x00000125)),
      ("Clear", (.lit 0x00000126)), ("ClearControl", (.lit 0x00000127)), ("ClockSet",
      (.lit 0x00000128)), ("HierarchyChanegAuth", (.lit 0x00000129)), ("NVDefineSpace",
      (.lit 0x0000012A)), ("PCRAllocate", (.lit 0x0000012B)), ("PCRSetAuthPolicy",
      (.lit 0x0000012C)), ("PPCommands", (.lit 0x0000012D)), ("SetPrimaryPolicy",
      (.lit 0x0000012E)), ("FieldUpgradeStart", (.lit 0x0000012F)), ("ClockRateAdjust",
      (.lit 0x00000130)), ("CreatePrimary", (.lit 0x00000131)), ("NVGlobalWriteLock",
      (.lit 0x00000132)), ("GetCommandAuditDigest", (.lit 0x00000133)), ("NVIncrement",
      (.lit 0x00000134)), ("NVSetBits", (.lit 0x00000135)), ("NVExtend", (.lit 0x00000136)),
      ("NVWrite", (.lit 0x00000137)), ("NVWriteLock", (.lit 0x00000138)),
      ("DictionaryAttackLockReset", (.lit 0x00000139)), ("DictionaryAttackParameters",
      (.lit 0x0000013A)), ("NVChangeAuth", (.lit 0x0000013B)), ("PCREvent", (.lit 0x0000013C)),
      ("PCRReset", (.lit 0x0000013D)), ("SequenceComplete", (.lit 0x0000013E)),
      ("SetAlgorithmSet", (.lit 0x0000013F)), ("SetCommandCodeAuditStatus", (.lit 0x00000140)),
      ("FieldUpgradeData", (.lit 0x00000141)), ("IncrementalSelfTest", (.lit 0x00000142)),
      ("SelfTest", (.lit 0x00000143)), ("Startup", (.lit 0x00000144)), ("Shutdown",
      (.lit 0x00000145)), ("StirRandom", (.lit 0x00000146)), ("ActivateCredential",
      (.lit 0x00000147)), ("Certify", (.lit 0x00000148)), ("PolicyNV", (.lit 0x00000149)),
      ("CertifyCreation", (.lit 0x0000014A)), ("Duplicate", (.lit 0x0000014B)), ("GetTime",
      (.lit 0x0000014C)), ("GetSessionAuditDigest", (.lit 0x0000014D)), ("NVRead",
      (.lit 0x0000014E)), ("NVReadLock", (.lit 0x0000014F)), ("ObjectChangeAuth",
      (.lit 0x00000150)), ("PolicySecret", (.lit 0x00000151)), ("Rewrap", (.lit 0x00000152)),
      ("Create", (.lit 0x00000153)), ("ECDHZGen", (.lit 0x00000154)), ("MAC", (.lit 0x00000155)),
      ("Import", (.lit 0x00000156)), ("Load", (.lit 0x00000157)), ("Quote", (.lit 0x00000158)),
      ("RSADecrypt", (.lit 0x00000159)), ("MACStart", (.lit 0x0000015B)), ("SequenceUpdate",
      (.lit 0x0000015C)), ("Sign", (.lit 0x0000015D)), ("Unseal", (.lit 0x0000015E)),
      ("PolicySigned", (.lit 0x00000160)), ("ContextLoad", (.lit 0x00000161)), ("ContextSave",
      (.lit 0x00000162)), ("ECDHKeyGen", (.lit 0x00000163)), ("EncryptDecrypt",
      (.lit 0x00000164)), ("FlushContext", (.lit 0x00000165)), ("LoadExternal",
      (.lit 0x00000167)), ("MakeCredential", (.lit 0x00000168)), ("NVReadPublic",
      (.lit 0x00000169)), ("PolicyAuthorize", (.lit 0x0000016A)), ("PolicyAuthValue",
      (.lit 0x0000016B)), ("PolicyCommandCode", (.lit 0x0000016C)), ("PolicyCounterTimer",
      (.lit 0x0000016D)), ("PolicyCpHash", (.lit 0x0000016E)), ("PolicyLocality",
      (.lit 0x0000016F)), ("PolicyNameHash", (.lit 0x00000170)), ("PolicyOR", (.lit 0x00000171)),
      ("PolicyTicket", (.lit 0x00000172)), ("ReadPublic", (.lit 0x00000173)), ("RSAEncrypt",
      (.lit 0x00000174)), ("StartAuthSession", (.lit 0x00000176)), ("VerifySignature",
      (.lit 0x00000177)), ("ECCParameters", (.lit 0x00000178)), ("FirmwareRead",
      (.lit 0x00000179)), ("GetCapability", (.lit 0x0000017A)), ("GetRandom", (.lit 0x0000017B)),
      ("GetTestResult", (.lit 0x0000017C)), ("Hash", (.lit 0x0000017D)), ("PCRRead",
      (.lit 0x0000017E)), ("PolicyPCR", (.lit 0x0000017F)), ("PolicyRestart", (.lit 0x00000180)),
      ("ReadClock", (.lit 0x00000181)), ("PCRExtend", (.lit 0x00000182)), ("PCRSetAuthValue",
      (.lit 0x00000183)), ("NVCertify", (.lit 0x00000184)), ("EventSequenceComplete",
      (.lit 0x00000185)), ("HashSequenceStart", (.lit 0x00000186)), ("PolicyPhysicalPresence",
      (.lit 0x00000187)), ("PolicyDuplicationSelect", (.lit 0x00000188)), ("PolicyGetDigest",
      (.lit 0x00000189)), ("TestParams", (.lit 0x0000018A)), ("Commit", (.lit 0x0000018B)),
      ("PolicyPassword", (.lit 0x0000018C)), ("ZGen2Phase", (.lit 0x0000018D)), ("ECEphemeral",
      (.lit 0x0000018E)), ("PolicyNvWritten", (.lit 0x0000018F)), ("PolicyTemplate",
      (.lit 0x00000190)), ("CreateLoaded", (.lit 0x00000191)), ("PolicyAuthorizeNV",
      (.lit 0x00000192)), ("EncryptDecrypt2", (.lit 0x00000193)), ("ACGetCapability",
      (.lit 0x00000194)), ("ACSend", (.lit 0x00000195)), ("PolicyACSendSelect",
      (.lit 0x00000196)), ("CertifyX509", (.lit 0x00000197)), ("ACTSetTimeout",
      (.lit 0x00000198))],
  -- base/src/constants.rs:342-357
  .assoc "TpmEo" [("Eq", (.lit 0x0000)), ("Neq", (.lit 0x0001)), ("SignedGT", (.lit 0x0002)),
      ("UnsignedGT", (.lit 0x0003)), ("SignedLT", (.lit 0x0004)), ("UnsignedLT", (.lit 0x0005)),
      ("SignedGE", (.lit 0x0006)), ("UnsignedGE", (.lit 0x0007)), ("SignedLE", (.lit 0x0008)),
      ("UnsignedLE", (.lit 0x0009)), ("BitSet", (.lit 0x000A)), ("BitClear", (.lit 0x000B))],
  -- base/src/constants.rs:361-384
  .derive 0 (wrapper "TpmSt" "u16"),
  -- base/src/constants.rs:361-384
  .assoc "TpmSt" [("RspCommand", (.lit 0x00C4)), ("Null", (.lit 0x8000)), ("NoSessions",
      (.lit 0x8001)), ("Sessions", (.lit 0x8002)), ("AttestNV", (.lit 0x8014)),
      ("AttestCommandAudit", (.lit 0x8015)), ("AttestSessionAudit", (.lit 0x8016)),
      ("AttestCertify", (.lit 0x8017)), ("AttestQuote", (.lit 0x8018)), ("AttestTime",
      (.lit 0x8019)), ("AttestCreation", (.lit 0x801A)), ("AttestNVDigest", (.lit 0x801C)),
      ("Creation", (.lit 0x8021)), ("Verified", (.lit 0x8022)), ("AuthSecret", (.lit 0x8023)),
      ("HashCheck", (.lit 0x8024)), ("AuthSigned", (.lit 0x8025)), ("FuManifest", (.lit 0x8029))],
  -- base/src/constants.rs:388-395
  .derive 0 (wrapper "TpmSu" "u16"),
  -- base/src/constants.rs:388-395
  .assoc "TpmSu" [("Clear", (.lit 0x0000)), ("State", (.lit 0x0001))],
  -- base/src/constants.rs:399-405
  .assoc "TpmSe" [("HMAC", (.lit 0x00)), ("Policy", (.lit 0x01)), ("Trial", (.lit 0x03))],
  -- base/src/constants.rs:409-425
  .derive 0 (wrapper "TpmCap" "u32"),
  -- base/src/constants.rs:409-425
  .assoc "TpmCap" [("Algs", (.lit 0x00000000)), ("Handles", (.lit 0x00000001)), ("Commands",
      (.lit 0x00000002)), ("PPCommands", (.lit 0x00000003)), ("AuditCommands",
      (.lit 0x00000004)), ("PCRs", (.lit 0x00000005)), ("TPMProperties", (.lit 0x00000006)),
      ("PCRProperties", (.lit 0x00000007)), ("ECCCurves", (.lit 0x00000008)), ("AuthPolicies",
      (.lit 0x00000009)), ("ACT", (.lit 0x0000000A))],
  -- base/src/constants.rs:429-594
  .derive 0 (wrapper "TpmPt" "u32"),
  -- base/src/constants.rs:429-594
  .assoc "TpmPt" [("FamilyIndicator", (.lit 0x00000100)), ("Level", (.lit 0x00000101)),
      ("Revision", (.lit 0x00000102)), ("DayofYear", (.lit 0x00000103)), ("Year",
      (.lit 0x00000104)), ("Manufacturer", (.lit 0x00000105)), ("VendorString1",
      (.lit 0x00000106)), ("VendorString2", (.lit 0x00000107)), ("VendorString3",
      (.lit 0x00000108)), ("VendorString4", (.lit 0x00000109)), ("VendorTPMType",
      (.lit 0x0000010A)), ("FirmwareVersion1", (.lit 0x0000010B)), ("FirmwareVersion2",
      (.lit 0x0000010C)), ("InputBuffer", (.lit 0x0000010D)), ("HRTransientMin",
      (.lit 0x0000010E)), ("HRPersistentMin", (.lit 0x0000010F)), ("HRLoadedMin",
      (.lit 0x00000110)), ("ActiveSessionsMax", (.lit 0x00000111)), ("PCRCount",
      (.lit 0x00000112)), ("PCRSelectMin", (.lit 0x00000113)), ("ContextGapMax",
      (.lit 0x00000114)), ("NVCountersMax", (.lit 0x00000116)), ("NVIndexMax",
      (.lit 0x00000117)), ("Memory", (.lit 0x00000118)), ("ClockUpdate", (.lit 0x00000119)),
      ("ContextHash", (.lit 0x0000011A)), ("ContextSym", (.lit 0x0000011B)), ("ContextSymSize",
      (.lit 0x0000011C)), ("OrderlyCount", (.lit 0x0000011D)), ("MaxCommandSize",
      (.lit 0x0000011E)), ("MaxResponseSize", (.lit 0x0000011F)), ("MaxDigest",
      (.lit 0x00000120)), ("MaxObjectContext", (.lit 0x00000121)), ("MaxSessionContext",
      (.lit 0x00000122)), ("PSFamilyIndicator", (.lit 0x00000123)), ("PSLevel",
      (.lit 0x00000124)), ("PSRevision", (.lit 0x00000125)), ("PSDayOfYear", (.lit 0x00000126)),
      ("PSYear", (.lit 0x00000127)), ("SplitMax", (.lit 0x00000128)), ("TotalCommands",
      (.lit 0x00000129)), ("LibraryCommands", (.lit 0x0000012A)), ("VendorCommands",
      (.lit 0x0000012B)), ("NVBufferMax", (.lit 0x0000012C)), ("Modes", (.lit 0x0000012D)),
      ("MaxCapBuffer", (.lit 0x0000012E)), ("Permanent", (.lit 0x00000200)), ("StartupClear",
      (.lit 0x00000201)), ("HRNVIndex", (.lit 0x00000202)), ("HRLoaded", (.lit 0x00000203)),
      ("HRLoadedAvail", (.lit 0x00000204)), ("HRActive", (.lit 0x00000205)), ("HRActiveAvail",
      (.lit 0x00000206)), ("HRTransientAvail", (.lit 0x00000207)), ("HRPersistent",
      (.lit 0x00000208)), ("HRPersistentAvail", (.lit 0x00000209)), ("NVCounters",
      (.lit 0x0000020A)), ("NVCountersAvail", (.lit 0x0000020B)), ("AlgorithmSet",
      (.lit 0x0000020C)), ("LoadedCurves", (.lit 0x0000020D)), ("LockoutCounter",
      (.lit 0x0000020E)), ("MaxAuthFail", (.lit 0x0000020F)), ("LockoutInterval",
      (.lit 0x00000210)), ("LockoutRecovery", (.lit 0x00000211)), ("NVWriteRecovery",
      (.lit 0x00000212)), ("AuditCounter0", (.lit 0x00000213)), ("AuditCounter1",
      (.lit 0x00000214))],
  -- base/src/constants.rs:598-648
  .derive 0 (wrapper "TpmPtPcr" "u32"),
  -- base/src/constants.rs:598-648
  .assoc "TpmPtPcr" [("Save", (.lit 0x00000000)), ("ExtendL0", (.lit 0x00000001)), ("ResetL0",
      (.lit 0x00000002)), ("ExtendL1", (.lit 0x00000003)), ("ResetL1", (.lit 0x00000004)),
      ("ExtendL2", (.lit 0x00000005)), ("ResetL2", (.lit 0x00000006)), ("ExtendL3",
      (.lit 0x00000007)), ("ResetL3", (.lit 0x00000008)), ("ExtendL4", (.lit 0x00000009)),
      ("ResetL4", (.lit 0x0000000A)), ("NoIncrement", (.lit 0x00000011)), ("DRTMRest",
      (.lit 0x00000012)), ("Policy", (.lit 0x00000013)), ("Auth", (.lit 0x00000014))],
  -- base/src/constants.rs:652-663
  .assoc "TpmHt" [("PCR", (.lit 0x00)), ("NVIndex", (.lit 0x01)), ("HMACSession", (.lit 0x02)),
      ("PolicySession", (.lit 0x03)), ("Permanent", (.lit 0x40)), ("Transient", (.lit 0x80)),
      ("Persistent", (.lit 0x81)), ("AC", (.lit 0x90))],
  -- base/src/constants.rs:667-679
  .derive 0 (wrapper "TpmHandle" "u32"),
  -- base/src/constants.rs:667-679
  .assoc "TpmHandle" [("RHOwner", (.lit 0x40000001)), ("RHNull", (.lit 0x40000007)), ("RSPW",
      (.lit 0x40000009)), ("RHLockout", (.lit 0x4000000A)), ("RHEndorsement", (.lit 0x4000000B)),
      ("RHPlatform", (.lit 0x4000000C)), ("RHPlatformNV", (.lit 0x4000000D))],
  -- base/src/constants.rs:682-683
  .derive 0 (wrapper "TpmHc" "u32"),
  -- base/src/constants.rs:748-770
  .assoc "TpmNt" [("Ordinary", (.lit 0x0)), ("Counter", (.lit 0x1)), ("Bits", (.lit 0x2)),
      ("Extend", (.lit 0x4)), ("PinFail", (.lit 0x8)), ("PinPass", (.lit 0x9))],
  -- base/src/constants.rs:774-780
  .derive 0 (wrapper "TpmGenerated" "u32"),
  -- base/src/constants.rs:774-780
  .assoc "TpmGenerated" [("VALUE", (.lit 0xFF544347))],
  -- base/src/lib.rs:34-36
  .derive 0 (wrapper "TpmaLocality" "u8"),
  -- base/src/lib.rs:58-60
  .derive 0 (wrapper "TpmaNv" "u32")]

/-- Part 3: declarations of base/src/lib.rs; places at each. -/
def part3 : List Decl := [
  -- base/src/lib.rs:144-157
  .derive 0 (wrapper "TpmiAlgHash" "u16"),
  -- base/src/lib.rs:144-157
  .assoc "TpmiAlgHash" [("SHA1", (.field (val ["TpmAlgId", "SHA1"]) 0)), ("SHA256",
      (.field (val ["TpmAlgId", "SHA256"]) 0)), ("SHA384", (.field (val ["TpmAlgId",
      "SHA384"]) 0)), ("SHA512", (.field (val ["TpmAlgId", "SHA512"]) 0)), ("SM3256",
      (.field (val ["TpmAlgId", "SM3256"]) 0)), ("SHA3256", (.field (val ["TpmAlgId",
      "SHA3256"]) 0)), ("SHA3384", (.field (val ["TpmAlgId", "SHA3384"]) 0)), ("SHA3512",
      (.field (val ["TpmAlgId", "SHA3512"]) 0))],
  -- base/src/lib.rs:161-170
  .derive 0 (wrapper "TpmiAlgKdf" "u16"),
  -- base/src/lib.rs:161-170
  .assoc "TpmiAlgKdf" [("MGF1", (.field (val ["TpmAlgId", "MGF1"]) 0)), ("KDF1SP80056A",
      (.field (val ["TpmAlgId", "KDF1SP80056A"]) 0)), ("KDF2", (.field (val ["TpmAlgId",
      "KDF2"]) 0)), ("KDF1SP800108", (.field (val ["TpmAlgId", "KDF1SP800108"]) 0))],
  -- base/src/lib.rs:174-184
  .derive 0 (wrapper "TpmiAlgPublic" "u16"),
  -- base/src/lib.rs:174-184
  .assoc "TpmiAlgPublic" [("RSA", (.field (val ["TpmAlgId", "RSA"]) 0)), ("KeyedHash",
      (.field (val ["TpmAlgId", "KeyedHash"]) 0)), ("ECC", (.field (val ["TpmAlgId", "ECC"]) 0)),
      ("SymCipher", (.field (val ["TpmAlgId", "SymCipher"]) 0))],
  -- base/src/lib.rs:188-200
  .derive 0 (wrapper "TpmiAlgSymMode" "u16"),
  -- base/src/lib.rs:188-200
  .assoc "TpmiAlgSymMode" [("CMAC", (.field (val ["TpmAlgId", "CMAC"]) 0)), ("CTR",
      (.field (val ["TpmAlgId", "CTR"]) 0)), ("OFB", (.field (val ["TpmAlgId", "OFB"]) 0)),
      ("CBC", (.field (val ["TpmAlgId", "CBC"]) 0)), ("CFB", (.field (val ["TpmAlgId",
      "CFB"]) 0)), ("ECB", (.field (val ["TpmAlgId", "ECB"]) 0))],
  -- base/src/lib.rs:204-214
  .derive 0 (wrapper "TpmiAlgSymObject" "u16"),
  -- base/src/lib.rs:204-214
  .assoc "TpmiAlgSymObject" [("TDES", (.field (val ["TpmAlgId", "TDES"]) 0)), ("AES",
      (.field (val ["TpmAlgId", "AES"]) 0)), ("SM4", (.field (val ["TpmAlgId", "SM4"]) 0)),
      ("Camellia", (.field (val ["TpmAlgId", "Camellia"]) 0))],
  -- base/src/lib.rs:218-226
  .derive 0 (wrapper "TpmiAlgKeyedhashScheme" "u16"),
  -- base/src/lib.rs:218-226
  .assoc "TpmiAlgKeyedhashScheme" [("HMAC", (.field (val ["TpmAlgId", "HMAC"]) 0)), ("XOR",
      (.field (val ["TpmAlgId", "XOR"]) 0))],
  -- base/src/lib.rs:230-244
  .derive 0 (wrapper "TpmiAlgRsaScheme" "u16"),
  -- base/src/lib.rs:230-244
  .assoc "TpmiAlgRsaScheme" [("RSAPSS", (.field (val ["TpmAlgId", "RSAPSS"]) 0)), ("RSASSA",
      (.field (val ["TpmAlgId", "RSASSA"]) 0)), ("ECDSA", (.field (val ["TpmAlgId",
      "ECDSA"]) 0)), ("ECDAA", (.field (val ["TpmAlgId", "ECDAA"]) 0)), ("SM2",
      (.field (val ["TpmAlgId", "SM2"]) 0)), ("ECSchnorr", (.field (val ["TpmAlgId",
      "ECSchnorr"]) 0)), ("RSAES", (.field (val ["TpmAlgId", "RSAES"]) 0)), ("OAEP",
      (.field (val ["TpmAlgId", "OAEP"]) 0))],
  -- base/src/lib.rs:248-261
  .derive 0 (wrapper "TpmiAlgSigScheme" "u16"),
  -- base/src/lib.rs:248-261
  .assoc "TpmiAlgSigScheme" [("RSAPSS", (.field (val ["TpmAlgId", "RSAPSS"]) 0)), ("RSASSA",
      (.field (val ["TpmAlgId", "RSASSA"]) 0)), ("ECDSA", (.field (val ["TpmAlgId",
      "ECDSA"]) 0)), ("ECDAA", (.field (val ["TpmAlgId", "ECDAA"]) 0)), ("SM2",
      (.field (val ["TpmAlgId", "SM2"]) 0)), ("ECSchnorr", (.field (val ["TpmAlgId",
      "ECSchnorr"]) 0)), ("HMAC", (.field (val ["TpmAlgId", "HMAC"]) 0))],
  -- base/src/lib.rs:265-279
  .derive 0 (wrapper "TpmiAlgEccScheme" "u16"),
  -- base/src/lib.rs:265-279
  .assoc "TpmiAlgEccScheme" [("RSAPSS", (.field (val ["TpmAlgId", "RSAPSS"]) 0)), ("RSASSA",
      (.field (val ["TpmAlgId", "RSASSA"]) 0)), ("ECDSA", (.field (val ["TpmAlgId",
      "ECDSA"]) 0)), ("ECDAA", (.field (val ["TpmAlgId", "ECDAA"]) 0)), ("SM2",
      (.field (val ["TpmAlgId", "SM2"]) 0)), ("ECSchnorr", (.field (val ["TpmAlgId",
      "ECSchnorr"]) 0)), ("ECDH", (.field (val ["TpmAlgId", "ECDH"]) 0)), ("ECMQV",
      (.field (val ["TpmAlgId", "ECMQV"]) 0))],
  -- base/src/lib.rs:283-299
  .derive 0 (wrapper "TpmiAlgAsymScheme" "u16"),
  -- base/src/lib.rs:283-299
  .assoc "TpmiAlgAsymScheme" [("SM2", (.field (val ["TpmAlgId", "SM2"]) 0)), ("ECDH",
      (.field (val ["TpmAlgId", "ECDH"]) 0)), ("ECMQV", (.field (val ["TpmAlgId", "ECMQV"]) 0)),
      ("RSAPSS", (.field (val ["TpmAlgId", "RSAPSS"]) 0)), ("RSASSA", (.field (val ["TpmAlgId",
      "RSASSA"]) 0)), ("ECDSA", (.field (val ["TpmAlgId", "ECDSA"]) 0)), ("ECDAA",
      (.field (val ["TpmAlgId", "ECDAA"]) 0)), ("ECSchnorr", (.field (val ["TpmAlgId",
      "ECSchnorr"]) 0)), ("RSAES", (.field (val ["TpmAlgId", "RSAES"]) 0)), ("OAEP",
      (.field (val ["TpmAlgId", "OAEP"]) 0))],
  -- base/src/lib.rs:303-305
  .derive 0 (wrapper "TpmiRhNvIndex" "u32"),
  -- base/src/lib.rs:319-321
  .derive 0 (wrapper "TpmiShAuthSession" "u32"),
  -- base/src/lib.rs:342-344
  .derive 0 (wrapper "TpmiEccCurve" "TpmEccCurve"),
  -- base/src/lib.rs:348-355
  .derive 0 (wrapper "TpmiYesNo" "u8")]

/-- Part 4: declarations of base/src/lib.rs; places at each. -/
def part4 : List Decl := [
  -- base/src/lib.rs:348-355
  .assoc "TpmiYesNo" [("NO", (.lit 0)), ("YES", (.lit 1))],
  -- base/src/lib.rs:359-372
  .derive 0 (wrapper "TpmiStAttest" "u16"),
  -- base/src/lib.rs:359-372
  .assoc "TpmiStAttest" [("AttestCertify", (.field (val ["TpmSt", "AttestCertify"]) 0)),
      ("AttestQuote", (.field (val ["TpmSt", "AttestQuote"]) 0)), ("AttestSessionAudit",
      (.field (val ["TpmSt", "AttestSessionAudit"]) 0)), ("AttestCommandAudit",
      (.field (val ["TpmSt", "AttestCommandAudit"]) 0)), ("AttestTime", (.field (val ["TpmSt",
      "AttestTime"]) 0)), ("AttestCreation", (.field (val ["TpmSt", "AttestCreation"]) 0)),
      ("AttestNV", (.field (val ["TpmSt", "AttestNV"]) 0)), ("AttestNVDigest",
      (.field (val ["TpmSt", "AttestNVDigest"]) 0))],
  -- base/src/lib.rs:375-377
  .derive 0 (wrapper "TpmiAesKeyBits" "u16"),
  -- base/src/lib.rs:379-381
  .derive 0 (wrapper "TpmiSm4KeyBits" "u16"),
  -- base/src/lib.rs:383-385
  .derive 0 (wrapper "TpmiCamelliaKeyBits" "u16"),
  -- base/src/lib.rs:387-389
  .derive 0 (wrapper "TpmiRsaKeyBits" "u16"),
  -- base/src/lib.rs:393-395
  .derive 0 (wrapper "TpmaObject" "u32"),
  -- base/src/lib.rs:427-429
  .derive 0 (wrapper "TpmaAlgorithm" "u32"),
  -- base/src/lib.rs:451-453
  .derive 0 (wrapper "TpmaSession" "u8"),
  -- base/src/lib.rs:473-475
  .derive 0 (wrapper "TpmaCc" "u32"),
  -- base/src/lib.rs:545-552
  .derive 0 (wrapper "TpmiStCommandTag" "u16"),
  -- base/src/lib.rs:545-552
  .assoc "TpmiStCommandTag" [("NoSessions", (.field (val ["TpmSt", "NoSessions"]) 0)), ("Sessions",
      (.field (val ["TpmSt", "Sessions"]) 0))],
  -- base/src/lib.rs:554-555
  .const "TPM2_MAX_CAP_DATA" (.binary .sub (.binary .sub (.cast (val ["TPM2_MAX_CAP_BUFFER"]) (ty "usize")) (sizeOf "TpmCap")) (sizeOf "u32")),
  -- base/src/lib.rs:1351-1356
  .derive 0 ⟨"TpmsAlgProperty", [], .struct (.named [
    ⟨"alg", (ty "TpmAlgId"), []⟩,
    ⟨"alg_properties", (ty "TpmaAlgorithm"), []⟩])⟩,
  -- base/src/lib.rs:556
  .const "TPM2_MAX_CAP_ALGS" (.binary .div (val ["TPM2_MAX_CAP_DATA"]) (sizeOf "TpmsAlgProperty")),
  -- base/src/lib.rs:557
  .const "TPM2_MAX_CAP_HANDLES" (.binary .div (val ["TPM2_MAX_CAP_DATA"]) (sizeOf "TpmHandle")),
  -- base/src/lib.rs:558
  .const "TPM2_MAX_CAP_CC" (.binary .div (val ["TPM2_MAX_CAP_DATA"]) (sizeOf "TpmCc")),
  -- base/src/lib.rs:1358-1363
  .derive 0 ⟨"TpmsTaggedProperty", [], .struct (.named [
    ⟨"property", (ty "TpmPt"), []⟩,
    ⟨"value", (ty "u32"), []⟩])⟩,
  -- base/src/lib.rs:559
  .const "TPM2_MAX_TPM_PROPERTIES" (.binary .div (val ["TPM2_MAX_CAP_DATA"]) (sizeOf "TpmsTaggedProperty")),
  -- base/src/lib.rs:1365-1372
  .derive 0 ⟨"TpmsTaggedPcrSelect", [], .struct (.named [
    ⟨"tag", (ty "TpmPtPcr"), []⟩,
    ⟨"size_of_select", (ty "u8"), []⟩,
    counted "size_of_select" "pcr_select" (.array (ty "u8") (.cast (val ["TPM2_PCR_SELECT_MAX"]) (ty "usize")))])⟩,
  -- base/src/lib.rs:560
  .const "TPM2_MAX_PCR_PROPERTIES" (.binary .div (val ["TPM2_MAX_CAP_DATA"]) (sizeOf "TpmsTaggedPcrSelect")),
  -- base/src/lib.rs:561
  .const "TPM2_MAX_ECC_CURVES" (.binary .div (val ["TPM2_MAX_CAP_DATA"]) (sizeOf "TpmEccCurve")),
  -- base/src/lib.rs:569-577
  .derive 2 ⟨"TpmtHa", [], .enum [
    ⟨"Sha1", .unnamed [(.array (ty "u8") (.cast (val ["constants",
      "TPM2_SHA_DIGEST_SIZE"]) (ty "usize")))], some (.field (val ["TpmAlgId", "SHA1"]) 0)⟩,
    ⟨"Sha256", .unnamed [(.array (ty "u8") (.cast (val ["constants",
      "TPM2_SHA256_DIGEST_SIZE"]) (ty "usize")))], some (.field (val ["TpmAlgId", "SHA256"]) 0)⟩,
    ⟨"Sha384", .unnamed [(.array (ty "u8") (.cast (val ["constants",
      "TPM2_SHA384_DIGEST_SIZE"]) (ty "usize")))], some (.field (val ["TpmAlgId", "SHA384"]) 0)⟩,
    ⟨"Sha512", .unnamed [(.array (ty "u8") (.cast (val ["constants",
      "TPM2_SHA512_DIGEST_SIZE"]) (ty "usize")))], some (.field (val ["TpmAlgId", "SHA512"]) 0)⟩,
    ⟨"Sm3_256", .unnamed [(.array (ty "u8") (.cast (val ["constants",
      "TPM2_SM3_256_DIGEST_SIZE"]) (ty "usize")))], some (.field (val ["TpmAlgId",
      "SM3256"]) 0)⟩]⟩]

/-- Part 5: declarations of base/src/lib.rs; places at each. -/
def part5 : List Decl := [
  -- base/src/lib.rs:579-582
  .assoc "TpmtHa" [("UNION_SIZE", (.lit 64))],
  -- base/src/lib.rs:1374-1379
  .derive 0 ⟨"TpmsTaggedPolicy", [], .struct (.named [
    ⟨"handle", (ty "TpmHandle"), []⟩,
    ⟨"policy_hash", (ty "TpmtHa"), []⟩])⟩,
  -- base/src/lib.rs:562
  .const "TPM2_MAX_TAGGED_POLICIES" (.binary .div (val ["TPM2_MAX_CAP_DATA"]) (sizeOf "TpmsTaggedPolicy")),
  -- base/src/lib.rs:563
  .const "TPML_DIGEST_MAX_DIGESTS" (.lit 8),
  -- base/src/lib.rs:565-567
  .derive 0 ⟨"TpmsEmpty", [], .struct .unit⟩,
  -- base/src/lib.rs:596-598
  .assoc "TpmuName" [("UNION_SIZE", (sizeOf "TpmtHa"))],
  -- base/src/lib.rs:600-606
  .derive 0 ⟨"Tpm2bDigest", [sized], .struct (.named [
    ⟨"size", (ty "u16"), []⟩,
    ⟨"buffer", (.array (ty "u8") (val ["TpmtHa", "UNION_SIZE"])), []⟩])⟩,
  -- base/src/lib.rs:608
  .alias "Tpm2bNonce" (ty "Tpm2bDigest"),
  -- base/src/lib.rs:609
  .alias "Tpm2bOperand" (ty "Tpm2bDigest"),
  -- base/src/lib.rs:611-617
  .derive 0 ⟨"Tpm2bData", [sized], .struct (.named [
    ⟨"size", (ty "u16"), []⟩,
    ⟨"buffer", (.array (ty "u8") (val ["TpmtHa", "UNION_SIZE"])), []⟩])⟩,
  -- base/src/lib.rs:619-625
  .derive 0 ⟨"Tpm2bEvent", [sized], .struct (.named [
    ⟨"size", (ty "u16"), []⟩,
    ⟨"buffer", (.array (ty "u8") (.lit 1024)), []⟩])⟩,
  -- base/src/lib.rs:627-633
  .derive 0 ⟨"Tpm2bMaxBuffer", [sized], .struct (.named [
    ⟨"size", (ty "u16"), []⟩,
    ⟨"buffer", (.array (ty "u8") (.cast (val ["TPM2_MAX_DIGEST_BUFFER"]) (ty "usize"))), []⟩])⟩,
  -- base/src/lib.rs:635-641
  .derive 0 ⟨"Tpm2bMaxNvBuffer", [sized], .struct (.named [
    ⟨"size", (ty "u16"), []⟩,
    ⟨"buffer", (.array (ty "u8") (.cast (val ["TPM2_MAX_NV_BUFFER_SIZE"]) (ty "usize"))), []⟩])⟩,
  -- base/src/lib.rs:643-649
  .derive 0 ⟨"Tpm2bIv", [sized], .struct (.named [
    ⟨"size", (ty "u16"), []⟩,
    ⟨"buffer", (.array (ty "u8") (.cast (val ["TPM2_MAX_SYM_BLOCK_SIZE"]) (ty "usize"))), []⟩])⟩,
  -- base/src/lib.rs:651-657
  .derive 0 ⟨"Tpm2bName", [sized], .struct (.named [
    ⟨"size", (ty "u16"), []⟩,
    ⟨"name", (.array (ty "u8") (val ["TpmuName", "UNION_SIZE"])), []⟩])⟩,
  -- base/src/lib.rs:666-673
  .derive 0 ⟨"TpmsClockInfo", [], .struct (.named [
    ⟨"clock", (ty "u64"), []⟩,
    ⟨"reset_count", (ty "u32"), []⟩,
    ⟨"restart_count", (ty "u32"), []⟩,
    ⟨"safe", (ty "TpmiYesNo"), []⟩])⟩,
  -- base/src/lib.rs:675-682
  .derive 0 ⟨"TpmsPcrSelection", [], .struct (.named [
    ⟨"hash", (ty "TpmiAlgHash"), []⟩,
    ⟨"sizeof_select", (ty "u8"), []⟩,
    counted "sizeof_select" "pcr_select" (.array (ty "u8") (.cast (val ["TPM2_PCR_SELECT_MAX"]) (ty "usize")))])⟩,
  -- base/src/lib.rs:684-690
  .derive 0 ⟨"TpmlPcrSelection", [], .struct (.named [
    ⟨"count", (ty "u32"), []⟩,
    counted "count" "pcr_selections" (.array (ty "TpmsPcrSelection") (.cast (val ["TPM2_NUM_PCR_BANKS"]) (ty "usize")))])⟩,
  -- base/src/lib.rs:692-697
  .derive 0 ⟨"TpmsQuoteInfo", [], .struct (.named [
    ⟨"pcr_select", (ty "TpmlPcrSelection"), []⟩,
    ⟨"pcr_digest", (ty "Tpm2bDigest"), []⟩])⟩,
  -- base/src/lib.rs:699-704
  .derive 0 ⟨"TpmsCreationInfo", [], .struct (.named [
    ⟨"object_name", (ty "Tpm2bName"), []⟩,
    ⟨"creation_hash", (ty "Tpm2bDigest"), []⟩])⟩,
  -- base/src/lib.rs:706-711
  .derive 0 ⟨"TpmsCertifyInfo", [], .struct (.named [
    ⟨"name", (ty "Tpm2bName"), []⟩,
    ⟨"qualified_name", (ty "Tpm2bName"), []⟩])⟩,
  -- base/src/lib.rs:713-720
  .derive 0 ⟨"TpmsCommandAuditInfo", [], .struct (.named [
    ⟨"audit_counter", (ty "u64"), []⟩,
    ⟨"digest_alg", (ty "u16"), []⟩,
    ⟨"audit_digest", (ty "Tpm2bDigest"), []⟩,
    ⟨"command_digest", (ty "Tpm2bDigest"), []⟩])⟩,
  -- base/src/lib.rs:722-727
  .derive 0 ⟨"TpmsSessionAuditInfo", [], .struct (.named [
    ⟨"exclusive_session", (ty "TpmiYesNo"), []⟩,
    ⟨"session_digest", (ty "Tpm2bDigest"), []⟩])⟩,
  -- base/src/lib.rs:729-734
  .derive 0 ⟨"TpmsTimeInfo", [], .struct (.named [
    ⟨"time", (ty "u64"), []⟩,
    ⟨"clock_info", (ty "TpmsClockInfo"), []⟩])⟩]

/-- Part 6: declarations of base/src/lib.rs; places at each. -/
def part6 : List Decl := [
  -- base/src/lib.rs:736-741
  .derive 0 ⟨"TpmsTimeAttestInfo", [], .struct (.named [
    ⟨"time", (ty "TpmsTimeInfo"), []⟩,
    ⟨"firmware_version", (ty "u64"), []⟩])⟩,
  -- base/src/lib.rs:743-749
  .derive 0 ⟨"TpmsNvCertifyInfo", [], .struct (.named [
    ⟨"index_name", (ty "Tpm2bName"), []⟩,
    ⟨"offset", (ty "u16"), []⟩,
    ⟨"nv_contents", (ty "Tpm2bMaxNvBuffer"), []⟩])⟩,
  -- base/src/lib.rs:751-761
  .derive 2 ⟨"TpmuAttest", [], .enum [
    ⟨"Certify", .unnamed [(ty "TpmsCertifyInfo")], some (.field (val ["TpmSt",
      "AttestCertify"]) 0)⟩,
    ⟨"Creation", .unnamed [(ty "TpmsCreationInfo")], some (.field (val ["TpmSt",
      "AttestCreation"]) 0)⟩,
    ⟨"Quote", .unnamed [(ty "TpmsQuoteInfo")], some (.field (val ["TpmSt", "AttestQuote"]) 0)⟩,
    ⟨"CommandAudit", .unnamed [(ty "TpmsCommandAuditInfo")], some (.field (val ["TpmSt",
      "AttestCommandAudit"]) 0)⟩,
    ⟨"SessionAudit", .unnamed [(ty "TpmsSessionAuditInfo")], some (.field (val ["TpmSt",
      "AttestSessionAudit"]) 0)⟩,
    ⟨"Time", .unnamed [(ty "TpmsTimeAttestInfo")], some (.field (val ["TpmSt", "AttestTime"]) 0)⟩,
    ⟨"Nv", .unnamed [(ty "TpmsNvCertifyInfo")], some (.field (val ["TpmSt", "AttestNV"]) 0)⟩]⟩,
  -- base/src/lib.rs:774-802
  .manual "TpmsAttest" [(ty "TpmGenerated")] [(ty "Tpm2bName"), (ty "Tpm2bData"),
      (ty "TpmsClockInfo"), (ty "u64")] "TpmuAttest",
  -- base/src/lib.rs:804-810
  .derive 0 ⟨"Tpm2bAttest", [sized], .struct (.named [
    ⟨"size", (ty "u16"), []⟩,
    ⟨"attestation_data", (.array (ty "u8") (sizeOf "TpmsAttest")), []⟩])⟩,
  -- base/src/lib.rs:812-818
  .derive 0 ⟨"Tpm2bSymKey", [sized], .struct (.named [
    ⟨"size", (ty "u16"), []⟩,
    ⟨"buffer", (.array (ty "u8") (.cast (val ["TPM2_MAX_SYM_KEY_BYTES"]) (ty "usize"))), []⟩])⟩,
  -- base/src/lib.rs:820-826
  .derive 0 ⟨"Tpm2bLabel", [sized], .struct (.named [
    ⟨"size", (ty "u16"), []⟩,
    ⟨"buffer", (.array (ty "u8") (.cast (val ["TPM2_LABEL_MAX_BUFFER"]) (ty "usize"))), []⟩])⟩,
  -- base/src/lib.rs:828-833
  .derive 0 ⟨"TpmsDerive", [], .struct (.named [
    ⟨"label", (ty "Tpm2bLabel"), []⟩,
    ⟨"context", (ty "Tpm2bLabel"), []⟩])⟩,
  -- base/src/lib.rs:847-857
  .largest "TpmuSensitiveCreate" "UNION_SIZE" [(.cast (val ["constants",
      "TPM2_MAX_SYM_DATA"]) (ty "usize")), (sizeOf "TpmsDerive")],
  -- base/src/lib.rs:859-865
  .derive 0 ⟨"Tpm2bSensitiveData", [sized], .struct (.named [
    ⟨"size", (ty "u16"), []⟩,
    ⟨"buffer", (.array (ty "u8") (val ["TpmuSensitiveCreate", "UNION_SIZE"])), []⟩])⟩,
  -- base/src/lib.rs:867
  .alias "Tpm2bAuth" (ty "Tpm2bDigest"),
  -- base/src/lib.rs:869-874
  .derive 0 ⟨"TpmsSensitiveCreate", [], .struct (.named [
    ⟨"user_auth", (ty "Tpm2bAuth"), []⟩,
    ⟨"data", (ty "Tpm2bSensitiveData"), []⟩])⟩,
  -- base/src/lib.rs:876-882
  .derive 0 ⟨"Tpm2bSensitiveCreate", [sized], .struct (.named [
    ⟨"size", (ty "u16"), []⟩,
    ⟨"sensitive", (.array (ty "u8") (sizeOf "TpmsSensitiveCreate")), []⟩])⟩,
  -- base/src/lib.rs:884-890
  .derive 0 ⟨"Tpm2bPublicKeyRsa", [sized], .struct (.named [
    ⟨"size", (ty "u16"), []⟩,
    ⟨"buffer", (.array (ty "u8") (.cast (val ["TPM2_MAX_RSA_KEY_BYTES"]) (ty "usize"))), []⟩])⟩,
  -- base/src/lib.rs:892-898
  .derive 0 ⟨"Tpm2bPrivateKeyRsa", [sized], .struct (.named [
    ⟨"size", (ty "u16"), []⟩,
    ⟨"buffer", (.array (ty "u8") (.cast (.paren (.binary .div (val ["TPM2_MAX_RSA_KEY_BYTES"]) (.lit 2))) (ty "usize"))), []⟩])⟩,
  -- base/src/lib.rs:900-906
  .derive 0 ⟨"Tpm2bEccParameter", [sized], .struct (.named [
    ⟨"size", (ty "u16"), []⟩,
    ⟨"buffer", (.array (ty "u8") (.cast (val ["TPM2_MAX_ECC_KEY_BYTES"]) (ty "usize"))), []⟩])⟩,
  -- base/src/lib.rs:908-913
  .derive 0 ⟨"TpmsEccPoint", [], .struct (.named [
    ⟨"x", (ty "Tpm2bEccParameter"), []⟩,
    ⟨"y", (ty "Tpm2bEccParameter"), []⟩])⟩,
  -- base/src/lib.rs:930-948
  .largest "TpmuEncryptedSecret" "UNION_SIZE" [(sizeOf "TpmsEccPoint"), (.cast (val ["constants",
      "TPM2_MAX_RSA_KEY_BYTES"]) (ty "usize")), (sizeOf "Tpm2bDigest"), (sizeOf "Tpm2bDigest")],
  -- base/src/lib.rs:950-956
  .derive 0 ⟨"Tpm2bEncryptedSecret", [sized], .struct (.named [
    ⟨"size", (ty "u16"), []⟩,
    ⟨"secret", (.array (ty "u8") (val ["TpmuEncryptedSecret", "UNION_SIZE"])), []⟩])⟩,
  -- base/src/lib.rs:958-963
  .derive 0 ⟨"TpmsSchemeXor", [], .struct (.named [
    ⟨"hash_alg", (ty "TpmiAlgHash"), []⟩,
    ⟨"kdf", (ty "TpmiAlgKdf"), []⟩])⟩,
  -- base/src/lib.rs:1045-1049
  .derive 0 ⟨"TpmsSchemeHash", [], .struct (.named [
    ⟨"hash_alg", (ty "TpmiAlgHash"), []⟩])⟩,
  -- base/src/lib.rs:965
  .alias "TpmsSchemeHmac" (ty "TpmsSchemeHash"),
  -- base/src/lib.rs:967-973
  .derive 2 ⟨"TpmtKeyedHashScheme", [], .enum [
    ⟨"Hmac", .unnamed [(ty "TpmsSchemeHmac")], some (.field (val ["TpmAlgId", "HMAC"]) 0)⟩,
    ⟨"ExclusiveOr", .unnamed [(ty "TpmsSchemeXor")], some (.field (val ["TpmAlgId", "XOR"]) 0)⟩,
    ⟨"Null", .unnamed [(ty "TpmsEmpty")], some (.field (val ["TpmAlgId", "Null"]) 0)⟩]⟩,
  -- base/src/lib.rs:975-979
  .derive 0 ⟨"TpmsKeyedHashParms", [], .struct (.named [
    ⟨"scheme", (ty "TpmtKeyedHashScheme"), []⟩])⟩]

/-- Part 7: declarations of base/src/lib.rs; places at each. -/
def part7 : List Decl := [
  -- base/src/lib.rs:981-989
  .derive 2 ⟨"TpmtSymDefObject", [], .enum [
    ⟨"Aes", .unnamed [(ty "TpmiAesKeyBits"), (ty "TpmiAlgSymMode")],
      some (.field (val ["TpmAlgId", "AES"]) 0)⟩,
    ⟨"Sm4", .unnamed [(ty "TpmiSm4KeyBits"), (ty "TpmiAlgSymMode")],
      some (.field (val ["TpmAlgId", "SM4"]) 0)⟩,
    ⟨"Camellia", .unnamed [(ty "TpmiCamelliaKeyBits"), (ty "TpmiAlgSymMode")],
      some (.field (val ["TpmAlgId", "Camellia"]) 0)⟩,
    ⟨"ExclusiveOr", .unnamed [(ty "TpmiAlgHash"), (ty "TpmsEmpty")],
      some (.field (val ["TpmAlgId", "XOR"]) 0)⟩,
    ⟨"Null", .unnamed [(ty "TpmsEmpty"), (ty "TpmsEmpty")], some (.field (val ["TpmAlgId",
      "Null"]) 0)⟩]⟩,
  -- base/src/lib.rs:991-995
  .derive 0 ⟨"TpmsSymCipherParms", [], .struct (.named [
    ⟨"sym", (ty "TpmtSymDefObject"), []⟩])⟩,
  -- base/src/lib.rs:997-1002
  .derive 0 ⟨"TpmsSignatureRsa", [], .struct (.named [
    ⟨"hash", (ty "TpmiAlgHash"), []⟩,
    ⟨"sig", (ty "Tpm2bPublicKeyRsa"), []⟩])⟩,
  -- base/src/lib.rs:1004-1010
  .derive 0 ⟨"TpmsSignatureEcc", [], .struct (.named [
    ⟨"hash", (ty "TpmiAlgHash"), []⟩,
    ⟨"signature_r", (ty "Tpm2bEccParameter"), []⟩,
    ⟨"signature_s", (ty "Tpm2bEccParameter"), []⟩])⟩,
  -- base/src/lib.rs:1012
  .alias "TpmsSignatureRsassa" (ty "TpmsSignatureRsa"),
  -- base/src/lib.rs:1013
  .alias "TpmsSignatureRsapss" (ty "TpmsSignatureRsa"),
  -- base/src/lib.rs:1014
  .alias "TpmsSignatureEcdsa" (ty "TpmsSignatureEcc"),
  -- base/src/lib.rs:1015
  .alias "TpmsSignatureEcdaa" (ty "TpmsSignatureEcc"),
  -- base/src/lib.rs:1016
  .alias "TpmsSignatureSm2" (ty "TpmsSignatureEcc"),
  -- base/src/lib.rs:1017
  .alias "TpmsSignatureEcschnorr" (ty "TpmsSignatureEcc"),
  -- base/src/lib.rs:1019-1030
  .derive 2 ⟨"TpmtSignature", [], .enum [
    ⟨"Rsassa", .unnamed [(ty "TpmsSignatureRsassa")], some (.field (val ["TpmAlgId",
      "RSASSA"]) 0)⟩,
    ⟨"Rsapss", .unnamed [(ty "TpmsSignatureRsapss")], some (.field (val ["TpmAlgId",
      "RSAPSS"]) 0)⟩,
    ⟨"Ecdsa", .unnamed [(ty "TpmsSignatureEcdsa")], some (.field (val ["TpmAlgId", "ECDSA"]) 0)⟩,
    ⟨"Ecdaa", .unnamed [(ty "TpmsSignatureEcdaa")], some (.field (val ["TpmAlgId", "ECDAA"]) 0)⟩,
    ⟨"Sm2", .unnamed [(ty "TpmsSignatureSm2")], some (.field (val ["TpmAlgId", "SM2"]) 0)⟩,
    ⟨"Ecschnorr", .unnamed [(ty "TpmsSignatureEcschnorr")], some (.field (val ["TpmAlgId",
      "ECSchnorr"]) 0)⟩,
    ⟨"Hmac", .unnamed [(ty "TpmtHa")], some (.field (val ["TpmAlgId", "HMAC"]) 0)⟩,
    ⟨"Null", .unnamed [(ty "TpmsEmpty")], some (.field (val ["TpmAlgId", "Null"]) 0)⟩]⟩,
  -- base/src/lib.rs:1060
  .alias "TpmsSigSchemeRsassa" (ty "TpmsSchemeHash"),
  -- base/src/lib.rs:1061
  .alias "TpmsSigSchemeRsapss" (ty "TpmsSchemeHash"),
  -- base/src/lib.rs:1062
  .alias "TpmsSigSchemeEcdsa" (ty "TpmsSchemeHash"),
  -- base/src/lib.rs:1063
  .alias "TpmsSigSchemeSm2" (ty "TpmsSchemeHash"),
  -- base/src/lib.rs:1064
  .alias "TpmsSigSchemeEcschnorr" (ty "TpmsSchemeHash"),
  -- base/src/lib.rs:1051-1056
  .derive 0 ⟨"TpmsSchemeEcdaa", [], .struct (.named [
    ⟨"hash_alg", (ty "TpmiAlgHash"), []⟩,
    ⟨"count", (ty "u16"), []⟩])⟩,
  -- base/src/lib.rs:1065
  .alias "TpmsSigSchemeEcdaa" (ty "TpmsSchemeEcdaa"),
  -- base/src/lib.rs:1032-1043
  .derive 2 ⟨"TpmtSigScheme", [], .enum [
    ⟨"Rsassa", .unnamed [(ty "TpmsSigSchemeRsassa")], some (.field (val ["TpmAlgId",
      "RSASSA"]) 0)⟩,
    ⟨"Rsapss", .unnamed [(ty "TpmsSigSchemeRsapss")], some (.field (val ["TpmAlgId",
      "RSAPSS"]) 0)⟩,
    ⟨"Ecdsa", .unnamed [(ty "TpmsSigSchemeEcdsa")], some (.field (val ["TpmAlgId", "ECDSA"]) 0)⟩,
    ⟨"Ecdaa", .unnamed [(ty "TpmsSigSchemeEcdaa")], some (.field (val ["TpmAlgId", "ECDAA"]) 0)⟩,
    ⟨"Sm2", .unnamed [(ty "TpmsSigSchemeSm2")], some (.field (val ["TpmAlgId", "SM2"]) 0)⟩,
    ⟨"Ecschnorr", .unnamed [(ty "TpmsSigSchemeEcschnorr")], some (.field (val ["TpmAlgId",
      "ECSchnorr"]) 0)⟩,
    ⟨"Hmac", .unnamed [(ty "TpmsSchemeHmac")], some (.field (val ["TpmAlgId", "HMAC"]) 0)⟩,
    ⟨"Null", .unnamed [(ty "TpmsEmpty")], some (.field (val ["TpmAlgId", "Null"]) 0)⟩]⟩,
  -- base/src/lib.rs:1058
  .alias "TpmsKeySchemeEcdh" (ty "TpmsSchemeHash"),
  -- base/src/lib.rs:1059
  .alias "TpmsKeySchemeEcmqv" (ty "TpmsSchemeHash"),
  -- base/src/lib.rs:1066
  .alias "TpmsEncSchemeOaep" (ty "TpmsSchemeHash"),
  -- base/src/lib.rs:1067
  .alias "TpmsEncSchemeRsaes" (ty "TpmsEmpty"),
  -- base/src/lib.rs:1069-1081
  .derive 2 ⟨"TpmtRsaScheme", [], .enum [
    ⟨"Rsapss", .unnamed [(ty "TpmsSigSchemeRsapss")], some (.field (val ["TpmAlgId",
      "RSAPSS"]) 0)⟩,
    ⟨"Rsassa", .unnamed [(ty "TpmsSigSchemeRsassa")], some (.field (val ["TpmAlgId",
      "RSASSA"]) 0)⟩,
    ⟨"Ecdsa", .unnamed [(ty "TpmsSigSchemeEcdsa")], some (.field (val ["TpmAlgId", "ECDSA"]) 0)⟩,
    ⟨"Ecdaa", .unnamed [(ty "TpmsSigSchemeEcdaa")], some (.field (val ["TpmAlgId", "ECDAA"]) 0)⟩,
    ⟨"Sm2", .unnamed [(ty "TpmsSigSchemeSm2")], some (.field (val ["TpmAlgId", "SM2"]) 0)⟩,
    ⟨"Ecschnorr", .unnamed [(ty "TpmsSigSchemeEcschnorr")], some (.field (val ["TpmAlgId",
      "ECSchnorr"]) 0)⟩,
    ⟨"Rsaes", .unnamed [(ty "TpmsEncSchemeRsaes")], some (.field (val ["TpmAlgId", "RSAES"]) 0)⟩,
    ⟨"Oaep", .unnamed [(ty "TpmsEncSchemeOaep")], some (.field (val ["TpmAlgId", "OAEP"]) 0)⟩,
    ⟨"Null", .unnamed [(ty "TpmsEmpty")], some (.field (val ["TpmAlgId", "Null"]) 0)⟩]⟩]

/-- Part 8: declarations of base/src/lib.rs; places at each. -/
def part8 : List Decl := [
  -- base/src/lib.rs:1083-1090
  .derive 0 ⟨"TpmsRsaParms", [], .struct (.named [
    ⟨"symmetric", (ty "TpmtSymDefObject"), []⟩,
    ⟨"scheme", (ty "TpmtRsaScheme"), []⟩,
    ⟨"key_bits", (ty "TpmiRsaKeyBits"), []⟩,
    ⟨"exponent", (ty "u32"), []⟩])⟩,
  -- base/src/lib.rs:1092-1104
  .derive 2 ⟨"TpmtEccScheme", [], .enum [
    ⟨"Rsapss", .unnamed [(ty "TpmsSigSchemeRsapss")], some (.field (val ["TpmAlgId",
      "RSAPSS"]) 0)⟩,
    ⟨"Rsassa", .unnamed [(ty "TpmsSigSchemeRsassa")], some (.field (val ["TpmAlgId",
      "RSASSA"]) 0)⟩,
    ⟨"Ecdsa", .unnamed [(ty "TpmsSigSchemeEcdsa")], some (.field (val ["TpmAlgId", "ECDSA"]) 0)⟩,
    ⟨"Ecdaa", .unnamed [(ty "TpmsSigSchemeEcdaa")], some (.field (val ["TpmAlgId", "ECDAA"]) 0)⟩,
    ⟨"Sm2", .unnamed [(ty "TpmsSigSchemeSm2")], some (.field (val ["TpmAlgId", "SM2"]) 0)⟩,
    ⟨"Ecschnorr", .unnamed [(ty "TpmsSigSchemeEcschnorr")], some (.field (val ["TpmAlgId",
      "ECSchnorr"]) 0)⟩,
    ⟨"Ecdh", .unnamed [(ty "TpmsKeySchemeEcdh")], some (.field (val ["TpmAlgId", "ECDH"]) 0)⟩,
    ⟨"Ecmqv", .unnamed [(ty "TpmsKeySchemeEcmqv")], some (.field (val ["TpmAlgId", "ECMQV"]) 0)⟩,
    ⟨"Null", .unnamed [(ty "TpmsEmpty")], some (.field (val ["TpmAlgId", "Null"]) 0)⟩]⟩,
  -- base/src/lib.rs:1106
  .alias "TpmsSchemeMgf1" (ty "TpmsSchemeHash"),
  -- base/src/lib.rs:1107
  .alias "TpmsSchemeKdf1Sp800_56a" (ty "TpmsSchemeHash"),
  -- base/src/lib.rs:1108
  .alias "TpmsSchemeKdf2" (ty "TpmsSchemeHash"),
  -- base/src/lib.rs:1109
  .alias "TpmsSchemeKdf1Sp800_108" (ty "TpmsSchemeHash"),
  -- base/src/lib.rs:1111-1119
  .derive 2 ⟨"TpmtKdfScheme", [], .enum [
    ⟨"Mgf1", .unnamed [(ty "TpmsSchemeMgf1")], some (.field (val ["TpmAlgId", "MGF1"]) 0)⟩,
    ⟨"Kdf1Sp800_56a", .unnamed [(ty "TpmsSchemeKdf1Sp800_56a")], some (.field (val ["TpmAlgId",
      "KDF1SP80056A"]) 0)⟩,
    ⟨"Kdf2", .unnamed [(ty "TpmsSchemeKdf2")], some (.field (val ["TpmAlgId", "KDF2"]) 0)⟩,
    ⟨"Kdf1Sp800_108", .unnamed [(ty "TpmsSchemeKdf1Sp800_108")], some (.field (val ["TpmAlgId",
      "KDF1SP800108"]) 0)⟩,
    ⟨"Null", .unnamed [(ty "TpmsEmpty")], some (.field (val ["TpmAlgId", "Null"]) 0)⟩]⟩,
  -- base/src/lib.rs:1121-1128
  .derive 0 ⟨"TpmsEccParms", [], .struct (.named [
    ⟨"symmetric", (ty "TpmtSymDefObject"), []⟩,
    ⟨"scheme", (ty "TpmtEccScheme"), []⟩,
    ⟨"curve_id", (ty "TpmiEccCurve"), []⟩,
    ⟨"kdf", (ty "TpmtKdfScheme"), []⟩])⟩,
  -- base/src/lib.rs:1130-1144
  .derive 2 ⟨"TpmtAsymScheme", [], .enum [
    ⟨"Ecdh", .unnamed [(ty "TpmsKeySchemeEcdh")], some (.field (val ["TpmAlgId", "ECDH"]) 0)⟩,
    ⟨"Ecmqv", .unnamed [(ty "TpmsKeySchemeEcmqv")], some (.field (val ["TpmAlgId", "ECMQV"]) 0)⟩,
    ⟨"Sm2", .unnamed [(ty "TpmsSigSchemeSm2")], some (.field (val ["TpmAlgId", "SM2"]) 0)⟩,
    ⟨"Rsapss", .unnamed [(ty "TpmsSigSchemeRsapss")], some (.field (val ["TpmAlgId",
      "RSAPSS"]) 0)⟩,
    ⟨"Rsassa", .unnamed [(ty "TpmsSigSchemeRsassa")], some (.field (val ["TpmAlgId",
      "RSASSA"]) 0)⟩,
    ⟨"Ecdsa", .unnamed [(ty "TpmsSigSchemeEcdsa")], some (.field (val ["TpmAlgId", "ECDSA"]) 0)⟩,
    ⟨"Ecdaa", .unnamed [(ty "TpmsSigSchemeEcdaa")], some (.field (val ["TpmAlgId", "ECDAA"]) 0)⟩,
    ⟨"Ecschnorr", .unnamed [(ty "TpmsSigSchemeEcschnorr")], some (.field (val ["TpmAlgId",
      "ECSchnorr"]) 0)⟩,
    ⟨"Rsaes", .unnamed [(ty "TpmsEncSchemeRsaes")], some (.field (val ["TpmAlgId", "RSAES"]) 0)⟩,
    ⟨"Oaep", .unnamed [(ty "TpmsEncSchemeOaep")], some (.field (val ["TpmAlgId", "OAEP"]) 0)⟩,
    ⟨"Null", .unnamed [(ty "TpmsEmpty")], some (.field (val ["TpmAlgId", "Null"]) 0)⟩]⟩,
  -- base/src/lib.rs:1146-1151
  .derive 0 ⟨"TpmsAsymParms", [], .struct (.named [
    ⟨"symmetric", (ty "TpmtSymDefObject"), []⟩,
    ⟨"scheme", (ty "TpmtAsymScheme"), []⟩])⟩,
  -- base/src/lib.rs:1162-1169
  .derive 2 ⟨"PublicParmsAndId", [], .enum [
    ⟨"KeyedHash", .unnamed [(ty "TpmsKeyedHashParms"), (ty "Tpm2bDigest")],
      some (.field (val ["TpmAlgId", "KeyedHash"]) 0)⟩,
    ⟨"Sym", .unnamed [(ty "TpmsSymCipherParms"), (ty "Tpm2bDigest")],
      some (.field (val ["TpmAlgId", "SymCipher"]) 0)⟩,
    ⟨"Rsa", .unnamed [(ty "TpmsRsaParms"), (ty "Tpm2bPublicKeyRsa")],
      some (.field (val ["TpmAlgId", "RSA"]) 0)⟩,
    ⟨"Ecc", .unnamed [(ty "TpmsEccParms"), (ty "TpmsEccPoint")], some (.field (val ["TpmAlgId",
      "ECC"]) 0)⟩]⟩,
  -- base/src/lib.rs:1180-1204
  .manual "TpmtPublic" [] [(ty "TpmiAlgHash"), (ty "TpmaObject"),
      (ty "Tpm2bDigest")] "PublicParmsAndId",
  -- base/src/lib.rs:1206-1212
  .derive 0 ⟨"Tpm2bPublic", [sized], .struct (.named [
    ⟨"size", (ty "u16"), []⟩,
    ⟨"public_area", (.array (ty "u8") (sizeOf "TpmtPublic")), []⟩])⟩,
  -- base/src/lib.rs:1214-1220
  .derive 0 ⟨"Tpm2bTemplate", [sized], .struct (.named [
    ⟨"size", (ty "u16"), []⟩,
    ⟨"buffer", (.array (ty "u8") (sizeOf "TpmtPublic")), []⟩])⟩,
  -- base/src/lib.rs:1222-1228
  .derive 0 ⟨"Tpm2bPrivateVendorSpecific", [sized], .struct (.named [
    ⟨"size", (ty "u16"), []⟩,
    ⟨"buffer", (.array (ty "u8") (.cast (val ["TPM2_PRIVATE_VENDOR_SPECIFIC_BYTES"]) (ty "usize"))), []⟩])⟩,
  -- base/src/lib.rs:1230-1239
  .derive 2 ⟨"TpmuSensitiveComposite", [], .enum [
    ⟨"Rsa", .unnamed [(ty "Tpm2bPrivateKeyRsa")], some (.field (val ["TpmAlgId", "RSA"]) 0)⟩,
    ⟨"Ecc", .unnamed [(ty "Tpm2bEccParameter")], some (.field (val ["TpmAlgId", "ECC"]) 0)⟩,
    ⟨"Bits", .unnamed [(ty "Tpm2bSensitiveData")], some (.field (val ["TpmAlgId",
      "KeyedHash"]) 0)⟩,
    ⟨"Sym", .unnamed [(ty "Tpm2bSymKey")], some (.field (val ["TpmAlgId", "SymCipher"]) 0)⟩,
    ⟨"Any", .unnamed [(ty "Tpm2bPrivateVendorSpecific")], some (.field (val ["TpmAlgId",
      "Null"]) 0)⟩]⟩,
  -- base/src/lib.rs:1249-1270
  .manual "TpmtSensitive" [] [(ty "Tpm2bAuth"), (ty "Tpm2bDigest")] "TpmuSensitiveComposite",
  -- base/src/lib.rs:1287-1293
  .derive 0 ⟨"TpmlAlgProperty", [], .struct (.named [
    ⟨"count", (ty "u32"), []⟩,
    counted "count" "alg_properties" (.array (ty "TpmsAlgProperty") (val ["TPM2_MAX_CAP_ALGS"]))])⟩,
  -- base/src/lib.rs:1295-1301
  .derive 0 ⟨"TpmlHandle", [], .struct (.named [
    ⟨"count", (ty "u32"), []⟩,
    counted "count" "handle" (.array (ty "TpmHandle") (val ["TPM2_MAX_CAP_HANDLES"]))])⟩,
  -- base/src/lib.rs:1303-1309
  .derive 0 ⟨"TpmlCca", [], .struct (.named [
    ⟨"count", (ty "u32"), []⟩,
    counted "count" "command_attributes" (.array (ty "TpmaCc") (val ["TPM2_MAX_CAP_CC"]))])⟩,
  -- base/src/lib.rs:1311-1317
  .derive 0 ⟨"TpmlCc", [], .struct (.named [
    ⟨"count", (ty "u32"), []⟩,
    counted "count" "command_codes" (.array (ty "TpmCc") (val ["TPM2_MAX_CAP_CC"]))])⟩,
  -- base/src/lib.rs:1319-1325
  .derive 0 ⟨"TpmlTaggedTpmProperty", [], .struct (.named [
    ⟨"count", (ty "u32"), []⟩,
    counted "count" "tpm_property" (.array (ty "TpmsTaggedProperty") (val ["TPM2_MAX_TPM_PROPERTIES"]))])⟩,
  -- base/src/lib.rs:1327-1333
  .derive 0 ⟨"TpmlTaggedPcrProperty", [], .struct (.named [
    ⟨"count", (ty "u32"), []⟩,
    counted "count" "pcr_property" (.array (ty "TpmsTaggedPcrSelect") (val ["TPM2_MAX_PCR_PROPERTIES"]))])⟩,
  -- base/src/lib.rs:1335-1341
  .derive 0 ⟨"TpmlEccCurve", [], .struct (.named [
    ⟨"count", (ty "u32"), []⟩,
    counted "count" "ecc_curves" (.array (ty "TpmEccCurve") (val ["TPM2_MAX_ECC_CURVES"]))])⟩]

/-- Part 9: declarations of base/src/commands/capability.rs, base/src/commands/pcr.rs, base/src/commands/random.rs, base/src/commands/startup.rs, base/src/lib.rs, crates/tpm2-client/src/lib.rs; places at each. -/
def part9 : List Decl := [
  -- base/src/lib.rs:1343-1349
  .derive 0 ⟨"TpmlTaggedPolicy", [], .struct (.named [
    ⟨"count", (ty "u32"), []⟩,
    counted "count" "policies" (.array (ty "TpmsTaggedPolicy") (val ["TPM2_MAX_TAGGED_POLICIES"]))])⟩,
  -- base/src/lib.rs:1272-1285
  .derive 4 ⟨"TpmsCapabilityData", [], .enum [
    ⟨"Algorithms", .unnamed [(ty "TpmlAlgProperty")], some (.field (val ["TpmCap", "Algs"]) 0)⟩,
    ⟨"Handles", .unnamed [(ty "TpmlHandle")], some (.field (val ["TpmCap", "Handles"]) 0)⟩,
    ⟨"Command", .unnamed [(ty "TpmlCca")], some (.field (val ["TpmCap", "Commands"]) 0)⟩,
    ⟨"PpCommands", .unnamed [(ty "TpmlCc")], some (.field (val ["TpmCap", "PPCommands"]) 0)⟩,
    ⟨"AuditCommands", .unnamed [(ty "TpmlCc")], some (.field (val ["TpmCap",
      "AuditCommands"]) 0)⟩,
    ⟨"AssignedPcr", .unnamed [(ty "TpmlPcrSelection")], some (.field (val ["TpmCap", "PCRs"]) 0)⟩,
    ⟨"TpmProperties", .unnamed [(ty "TpmlTaggedTpmProperty")], some (.field (val ["TpmCap",
      "TPMProperties"]) 0)⟩,
    ⟨"PcrProperties", .unnamed [(ty "TpmlTaggedPcrProperty")], some (.field (val ["TpmCap",
      "PCRProperties"]) 0)⟩,
    ⟨"EccCurves", .unnamed [(ty "TpmlEccCurve")], some (.field (val ["TpmCap", "ECCCurves"]) 0)⟩,
    ⟨"AuthPolicies", .unnamed [(ty "TpmlTaggedPolicy")], some (.field (val ["TpmCap",
      "AuthPolicies"]) 0)⟩]⟩,
  -- base/src/lib.rs:1381-1387
  .derive 0 ⟨"TpmlDigest", [], .struct (.named [
    ⟨"count", (ty "u32"), []⟩,
    counted "count" "digests" (.array (ty "Tpm2bDigest") (val ["TPML_DIGEST_MAX_DIGESTS"]))])⟩,
  -- base/src/lib.rs:1389-1396
  .derive 0 ⟨"TpmsAuthCommand", [], .struct (.named [
    ⟨"session_handle", (ty "TpmiShAuthSession"), []⟩,
    ⟨"nonce", (ty "Tpm2bNonce"), []⟩,
    ⟨"session_attributes", (ty "TpmaSession"), []⟩,
    ⟨"hmac", (ty "Tpm2bAuth"), []⟩])⟩,
  -- base/src/lib.rs:1398-1404
  .derive 0 ⟨"TpmsAuthResponse", [], .struct (.named [
    ⟨"nonce", (ty "Tpm2bNonce"), []⟩,
    ⟨"session_attributes", (ty "TpmaSession"), []⟩,
    ⟨"hmac", (ty "Tpm2bData"), []⟩])⟩,
  -- base/src/lib.rs:1406-1411
  .opaqueSized "Tpm2bSensitive" (sizeOf "TpmtSensitive"),
  -- base/src/lib.rs:1413-1419
  .opaque "_PRIVATE" [(ty "Tpm2bDigest"), (ty "Tpm2bDigest"), (ty "Tpm2bSensitive")],
  -- base/src/lib.rs:1421-1427
  .derive 0 ⟨"Tpm2bPrivate", [sized], .struct (.named [
    ⟨"size", (ty "u16"), []⟩,
    ⟨"buffer", (.array (ty "u8") (sizeOf "_PRIVATE")), []⟩])⟩,
  -- base/src/lib.rs:1429-1434
  .derive 0 ⟨"TpmsIdObject", [], .struct (.named [
    ⟨"integrity_hmac", (ty "Tpm2bDigest"), []⟩,
    ⟨"enc_identity", (ty "Tpm2bDigest"), []⟩])⟩,
  -- base/src/lib.rs:1436-1442
  .derive 0 ⟨"Tpm2bIdObject", [sized], .struct (.named [
    ⟨"size", (ty "u16"), []⟩,
    ⟨"credential", (.array (ty "u8") (sizeOf "TpmsIdObject")), []⟩])⟩,
  -- base/src/lib.rs:1444-1452
  .derive 0 ⟨"TpmsNvPublic", [], .struct (.named [
    ⟨"nv_index", (ty "TpmiRhNvIndex"), []⟩,
    ⟨"name_alg", (ty "TpmiAlgHash"), []⟩,
    ⟨"attributes", (ty "TpmaNv"), []⟩,
    ⟨"auth_policy", (ty "Tpm2bDigest"), []⟩,
    ⟨"data_size", (ty "u16"), []⟩])⟩,
  -- base/src/lib.rs:1461-1467
  .derive 0 ⟨"Tpm2bContextSensitive", [sized], .struct (.named [
    ⟨"size", (ty "u16"), []⟩,
    ⟨"buffer", (.array (ty "u8") (.cast (val ["TPM2_MAX_CONTEXT_SIZE"]) (ty "usize"))), []⟩])⟩,
  -- base/src/lib.rs:1469-1474
  .derive 0 ⟨"TpmsContextData", [], .struct (.named [
    ⟨"integrity", (ty "Tpm2bDigest"), []⟩,
    ⟨"encrypted", (ty "Tpm2bContextSensitive"), []⟩])⟩,
  -- base/src/lib.rs:1476-1482
  .derive 0 ⟨"Tpm2bContextData", [sized], .struct (.named [
    ⟨"size", (ty "u16"), []⟩,
    ⟨"buffer", (.array (ty "u8") (sizeOf "TpmsContextData")), []⟩])⟩,
  -- base/src/lib.rs:1484-1494
  .derive 0 ⟨"TpmsCreationData", [], .struct (.named [
    ⟨"pcr_select", (ty "TpmlPcrSelection"), []⟩,
    ⟨"pcr_digest", (ty "Tpm2bDigest"), []⟩,
    ⟨"locality", (ty "TpmaLocality"), []⟩,
    ⟨"parent_name_alg", (ty "TpmAlgId"), []⟩,
    ⟨"parent_name", (ty "Tpm2bName"), []⟩,
    ⟨"parent_qualified_name", (ty "Tpm2bName"), []⟩,
    ⟨"outside_info", (ty "Tpm2bData"), []⟩])⟩,
  -- base/src/lib.rs:1496-1502
  .derive 0 ⟨"Tpm2bCreationData", [sized], .struct (.named [
    ⟨"size", (ty "u16"), []⟩,
    ⟨"creation_data", (.array (ty "u8") (sizeOf "TpmsCreationData")), []⟩])⟩,
  -- base/src/commands/capability.rs:8-14
  .derive 0 ⟨"GetCapabilityCmd", [], .struct (.named [
    ⟨"capability", (ty "TpmCap"), []⟩,
    ⟨"property", (ty "TpmPt"), []⟩,
    ⟨"property_count", (ty "u32"), []⟩])⟩,
  -- base/src/commands/capability.rs:23-28
  .derive 0 ⟨"GetCapabilityResp", [], .struct (.named [
    ⟨"more_data", (ty "TpmiYesNo"), []⟩,
    ⟨"capability_data", (ty "TpmsCapabilityData"), []⟩])⟩,
  -- base/src/commands/pcr.rs:14-18
  .derive 0 ⟨"PcrReadCmd", [], .struct (.named [
    ⟨"pcr_selection_in", (ty "TpmlPcrSelection"), []⟩])⟩,
  -- base/src/commands/pcr.rs:26-32
  .derive 0 ⟨"PcrReadResp", [], .struct (.named [
    ⟨"pcr_update_counter", (ty "u32"), []⟩,
    ⟨"pcr_selection_out", (ty "TpmlPcrSelection"), []⟩,
    ⟨"pcr_values", (ty "TpmlDigest"), []⟩])⟩,
  -- base/src/commands/random.rs:8-12
  .derive 0 ⟨"GetRandomCmd", [], .struct (.named [
    ⟨"bytes_requested", (ty "u16"), []⟩])⟩,
  -- base/src/commands/random.rs:20-24
  .derive 0 ⟨"GetRandomResp", [], .struct (.named [
    ⟨"random_bytes", (ty "Tpm2bDigest"), []⟩])⟩,
  -- base/src/commands/startup.rs:9-13
  .derive 0 ⟨"StartupCmd", [], .struct (.named [
    ⟨"startup_type", (ty "TpmSu"), []⟩])⟩,
  -- crates/tpm2-client/src/lib.rs:26-32
  .derive 0 ⟨"CmdHeader", [], .struct (.named [
    ⟨"tag", (ty "TpmiStCommandTag"), []⟩,
    ⟨"size", (ty "u32"), []⟩,
    ⟨"code", (ty "TpmCc"), []⟩])⟩]

/-- Part 10: declarations of crates/tpm2-client/src/lib.rs; places at each. -/
def part10 : List Decl := [
  -- crates/tpm2-client/src/lib.rs:44-50
  .derive 0 ⟨"RespHeader", [], .struct (.named [
    ⟨"tag", (ty "TpmSt"), []⟩,
    ⟨"size", (ty "u32"), []⟩,
    ⟨"rc", (ty "u32"), []⟩])⟩]

/-- All declarations: base/src/lib.rs, base/src/constants.rs,
base/src/commands, crates/tpm2-client/src/lib.rs:26-50. -/
def all : List Decl :=
  part1 ++ part2 ++ part3 ++ part4 ++ part5 ++ part6 ++ part7 ++ part8 ++ part9 ++ part10

end Verif.Derive.Decls
