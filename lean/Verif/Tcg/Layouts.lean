import Verif.Tcg.Part2
import Verif.Tcg.Conform
import Verif.Derive.BaseProps
import Verif.Base.LayoutLemmas
import Verif.Codec.Props

/-! C73: the declared types against the structures of Part 2. -/

namespace Verif.Tcg
open Verif

/-- The declared types with the structures they claim to be. -/
def entries (c : Choices) : List (String × Shape) := [
  ("TpmAlgId", TPM_ALG_ID), ("TpmEccCurve", TPM_ECC_CURVE), ("TpmCc", TPM_CC),
  ("TpmSt", TPM_ST), ("TpmSu", TPM_SU), ("TpmCap", TPM_CAP), ("TpmPt", TPM_PT),
  ("TpmPtPcr", TPM_PT_PCR), ("TpmHandle", TPM_HANDLE), ("TpmHc", TPM_HC),
  ("TpmGenerated", TPM_GENERATED), ("TpmaLocality", TPMA_LOCALITY), ("TpmaNv", TPMA_NV),
  ("TpmiAlgHash", TPMI_ALG_HASH), ("TpmiAlgKdf", TPMI_ALG_KDF),
  ("TpmiAlgPublic", TPMI_ALG_PUBLIC), ("TpmiAlgSymMode", TPMI_ALG_SYM_MODE),
  ("TpmiAlgSymObject", TPMI_ALG_SYM_OBJECT),
  ("TpmiAlgKeyedhashScheme", TPMI_ALG_KEYEDHASH_SCHEME),
  ("TpmiAlgRsaScheme", TPMI_ALG_RSA_SCHEME), ("TpmiAlgSigScheme", TPMI_ALG_SIG_SCHEME),
  ("TpmiAlgEccScheme", TPMI_ALG_ECC_SCHEME), ("TpmiAlgAsymScheme", TPMI_ALG_ASYM_SCHEME),
  ("TpmiRhNvIndex", TPMI_RH_NV_INDEX), ("TpmiShAuthSession", TPMI_SH_AUTH_SESSION),
  ("TpmiEccCurve", TPMI_ECC_CURVE), ("TpmiYesNo", TPMI_YES_NO),
  ("TpmiStAttest", TPMI_ST_ATTEST), ("TpmiAesKeyBits", KEY_BITS), ("TpmiSm4KeyBits", KEY_BITS),
  ("TpmiCamelliaKeyBits", KEY_BITS), ("TpmiRsaKeyBits", KEY_BITS), ("TpmaObject", TPMA_OBJECT),
  ("TpmaAlgorithm", TPMA_ALGORITHM), ("TpmaSession", TPMA_SESSION), ("TpmaCc", TPMA_CC),
  ("TpmiStCommandTag", TPMI_ST_COMMAND_TAG), ("TpmsAlgProperty", TPMS_ALG_PROPERTY),
  ("TpmsTaggedProperty", TPMS_TAGGED_PROPERTY), ("TpmsTaggedPcrSelect", TPMS_TAGGED_PCR_SELECT),
  ("TpmtHa", TPMT_HA false), ("TpmsTaggedPolicy", TPMS_TAGGED_POLICY), ("TpmsEmpty", TPMS_EMPTY),
  ("Tpm2bDigest", TPM2B_DIGEST), ("Tpm2bNonce", TPM2B_NONCE), ("Tpm2bOperand", TPM2B_OPERAND),
  ("Tpm2bData", TPM2B_DATA c), ("Tpm2bEvent", TPM2B_EVENT), ("Tpm2bMaxBuffer", TPM2B_MAX_BUFFER),
  ("Tpm2bMaxNvBuffer", TPM2B_MAX_NV_BUFFER), ("Tpm2bIv", TPM2B_IV), ("Tpm2bName", TPM2B_NAME),
  ("TpmsClockInfo", TPMS_CLOCK_INFO), ("TpmsPcrSelection", TPMS_PCR_SELECTION),
  ("TpmlPcrSelection", TPML_PCR_SELECTION), ("TpmsQuoteInfo", TPMS_QUOTE_INFO),
  ("TpmsCreationInfo", TPMS_CREATION_INFO), ("TpmsCertifyInfo", TPMS_CERTIFY_INFO),
  ("TpmsCommandAuditInfo", TPMS_COMMAND_AUDIT_INFO),
  ("TpmsSessionAuditInfo", TPMS_SESSION_AUDIT_INFO), ("TpmsTimeInfo", TPMS_TIME_INFO),
  ("TpmsTimeAttestInfo", TPMS_TIME_ATTEST_INFO), ("TpmsNvCertifyInfo", TPMS_NV_CERTIFY_INFO),
  ("TpmsAttest", TPMS_ATTEST c), ("Tpm2bSymKey", TPM2B_SYM_KEY), ("Tpm2bLabel", TPM2B_LABEL),
  ("TpmsDerive", TPMS_DERIVE), ("Tpm2bSensitiveData", TPM2B_SENSITIVE_DATA),
  ("Tpm2bAuth", TPM2B_AUTH), ("TpmsSensitiveCreate", TPMS_SENSITIVE_CREATE),
  ("Tpm2bPublicKeyRsa", TPM2B_PUBLIC_KEY_RSA), ("Tpm2bPrivateKeyRsa", TPM2B_PRIVATE_KEY_RSA),
  ("Tpm2bEccParameter", TPM2B_ECC_PARAMETER), ("TpmsEccPoint", TPMS_ECC_POINT),
  ("Tpm2bEncryptedSecret", TPM2B_ENCRYPTED_SECRET), ("TpmsSchemeXor", TPMS_SCHEME_XOR),
  ("TpmsSchemeHash", TPMS_SCHEME_HASH), ("TpmsSchemeHmac", TPMS_SCHEME_HASH),
  ("TpmtKeyedHashScheme", TPMT_KEYEDHASH_SCHEME), ("TpmsKeyedHashParms", TPMS_KEYEDHASH_PARMS),
  ("TpmtSymDefObject", TPMT_SYM_DEF_OBJECT c), ("TpmsSymCipherParms", TPMS_SYMCIPHER_PARMS c),
  ("TpmsSignatureRsa", TPMS_SIGNATURE_RSA), ("TpmsSignatureEcc", TPMS_SIGNATURE_ECC),
  ("TpmsSignatureRsassa", TPMS_SIGNATURE_RSA), ("TpmsSignatureRsapss", TPMS_SIGNATURE_RSA),
  ("TpmsSignatureEcdsa", TPMS_SIGNATURE_ECC), ("TpmsSignatureEcdaa", TPMS_SIGNATURE_ECC),
  ("TpmsSignatureSm2", TPMS_SIGNATURE_ECC), ("TpmsSignatureEcschnorr", TPMS_SIGNATURE_ECC),
  ("TpmtSignature", TPMT_SIGNATURE), ("TpmsSigSchemeRsassa", TPMS_SCHEME_HASH),
  ("TpmsSigSchemeRsapss", TPMS_SCHEME_HASH), ("TpmsSigSchemeEcdsa", TPMS_SCHEME_HASH),
  ("TpmsSigSchemeSm2", TPMS_SCHEME_HASH), ("TpmsSigSchemeEcschnorr", TPMS_SCHEME_HASH),
  ("TpmsSchemeEcdaa", TPMS_SCHEME_ECDAA), ("TpmsSigSchemeEcdaa", TPMS_SCHEME_ECDAA),
  ("TpmtSigScheme", TPMT_SIG_SCHEME), ("TpmsKeySchemeEcdh", TPMS_SCHEME_HASH),
  ("TpmsKeySchemeEcmqv", TPMS_SCHEME_HASH), ("TpmsEncSchemeOaep", TPMS_SCHEME_HASH),
  ("TpmsEncSchemeRsaes", TPMS_EMPTY), ("TpmtRsaScheme", TPMT_RSA_SCHEME c),
  ("TpmsRsaParms", TPMS_RSA_PARMS c), ("TpmtEccScheme", TPMT_ECC_SCHEME c),
  ("TpmsSchemeMgf1", TPMS_SCHEME_HASH), ("TpmsSchemeKdf1Sp800_56a", TPMS_SCHEME_HASH),
  ("TpmsSchemeKdf2", TPMS_SCHEME_HASH), ("TpmsSchemeKdf1Sp800_108", TPMS_SCHEME_HASH),
  ("TpmtKdfScheme", TPMT_KDF_SCHEME), ("TpmsEccParms", TPMS_ECC_PARMS c),
  ("TpmtAsymScheme", TPMT_ASYM_SCHEME), ("TpmsAsymParms", TPMS_ASYM_PARMS c),
  ("TpmtPublic", TPMT_PUBLIC c),
  ("Tpm2bPrivateVendorSpecific", TPM2B_PRIVATE_VENDOR_SPECIFIC),
  ("TpmtSensitive", TPMT_SENSITIVE c), ("TpmlAlgProperty", TPML_ALG_PROPERTY),
  ("TpmlHandle", TPML_HANDLE), ("TpmlCca", TPML_CCA), ("TpmlCc", TPML_CC),
  ("TpmlTaggedTpmProperty", TPML_TAGGED_TPM_PROPERTY),
  ("TpmlTaggedPcrProperty", TPML_TAGGED_PCR_PROPERTY), ("TpmlEccCurve", TPML_ECC_CURVE),
  ("TpmlTaggedPolicy", TPML_TAGGED_POLICY), ("TpmsCapabilityData", TPMS_CAPABILITY_DATA c),
  ("TpmlDigest", TPML_DIGEST), ("TpmsAuthCommand", TPMS_AUTH_COMMAND),
  ("TpmsAuthResponse", TPMS_AUTH_RESPONSE), ("TpmsIdObject", TPMS_ID_OBJECT),
  ("TpmsNvPublic", TPMS_NV_PUBLIC), ("Tpm2bContextSensitive", TPM2B_CONTEXT_SENSITIVE),
  ("TpmsContextData", TPMS_CONTEXT_DATA), ("TpmsCreationData", TPMS_CREATION_DATA c),
  ("GetCapabilityCmd", TPM2_GetCapability), ("GetCapabilityResp", TPM2_GetCapability_Response c),
  ("PcrReadCmd", TPM2_PCR_Read), ("PcrReadResp", TPM2_PCR_Read_Response),
  ("GetRandomCmd", TPM2_GetRandom), ("GetRandomResp", TPM2_GetRandom_Response),
  ("StartupCmd", TPM2_Startup), ("CmdHeader", commandHeader), ("RespHeader", responseHeader)]

/-- Sized buffers whose contents are a structure: the structure, with its
declared type. -/
def wrapped : List (String × String) := [
  ("Tpm2bAttest", "TpmsAttest"), ("Tpm2bSensitiveCreate", "TpmsSensitiveCreate"),
  ("Tpm2bPublic", "TpmtPublic"), ("Tpm2bTemplate", "TpmtPublic"), ("Tpm2bIdObject", "TpmsIdObject"),
  ("Tpm2bContextData", "TpmsContextData"), ("Tpm2bCreationData", "TpmsCreationData")]

/-- Declared types that are no structures of the standard: the enums inside the
types with handwritten implementations, and the private area, whose contents the
standard leaves to the TPM. -/
def other : List String := ["TpmuAttest", "PublicParmsAndId", "TpmuSensitiveComposite",
  "Tpm2bPrivate"]

/-- The types that differ from the standard. -/
def deviating : List String := [
  "Tpm2bData", "TpmsAttest", "TpmtSymDefObject", "TpmsSymCipherParms", "TpmtRsaScheme",
  "TpmsRsaParms", "TpmtEccScheme", "TpmsEccParms", "TpmsAsymParms", "TpmtPublic",
  "TpmtSensitive", "TpmsCapabilityData", "TpmsCreationData", "GetCapabilityResp"]

/-- Every declared type is accounted for. -/
example : (Derive.baseTable.map (·.1)).all (fun n =>
    ((entries standard).lookup n).isSome || (wrapped.lookup n).isSome || other.contains n) = true := by
  decide +kernel
example : (entries standard).length = 143 := by decide +kernel

/-! ### The check, evaluated -/

/-- The check for a list of entries. -/
def checkAll (l : List (String × Shape)) : Bool := l.all fun x =>
  match Derive.baseTable.lookup x.1 with
  | some t => conf t x.2
  | none => false

set_option maxRecDepth 100000 in
theorem checkAll_crate : checkAll (entries crate) = true := by decide +kernel

set_option maxRecDepth 100000 in
theorem checkAll_standard :
    checkAll ((entries standard).filter fun x => !deviating.contains x.1) = true := by
  decide +kernel

theorem checkAll_mem {l : List (String × Shape)} (h : checkAll l = true) {n : String} {s : Shape}
    (hm : (n, s) ∈ l) : ∃ t, (n, t) ∈ Derive.baseTable ∧ conf t s = true := by
  have := List.all_eq_true.mp h _ hm
  split at this
  · rename_i t ht
    exact ⟨t, Derive.lookup_mem ht, this⟩
  · cases this

/-! ### C73 -/

/-- **C73.** Each of the declared types accepts exactly the bytes that are the
structure of the standard, as amended by `crate`. -/
theorem C73_crate (n : String) (s : Shape) (h : (n, s) ∈ entries crate) :
    ∃ t, (n, t) ∈ Derive.baseTable ∧
      ∀ b, (∃ v, unmarshal t b = (.ok v, [])) ↔ Valid s b := by
  obtain ⟨t, ht, hc⟩ := checkAll_mem checkAll_crate h
  exact ⟨t, ht, fun b => by rw [accepts_iff, conf_iff t s hc b]⟩

/-- **C73 (partial).** Except for those listed in `deviating`, each of the
declared types accepts exactly the bytes that are the structure of the standard.
Missing: the types in `deviating`, for which the claim is false
(`C73_violated`). -/
theorem C73_standard_partial (n : String) (s : Shape) (h : (n, s) ∈ entries standard)
    (hn : n ∉ deviating) :
    ∃ t, (n, t) ∈ Derive.baseTable ∧
      ∀ b, (∃ v, unmarshal t b = (.ok v, [])) ↔ Valid s b := by
  have hm : (n, s) ∈ (entries standard).filter fun x => !deviating.contains x.1 := by
    simp [List.mem_filter, h, hn]
  obtain ⟨t, ht, hc⟩ := checkAll_mem checkAll_standard hm
  exact ⟨t, ht, fun b => by rw [accepts_iff, conf_iff t s hc b]⟩

/-- Non-vacuity: the clock of an attestation, and bytes that are one. -/
example : ("TpmsClockInfo", TPMS_CLOCK_INFO) ∈ entries standard ∧ "TpmsClockInfo" ∉ deviating ∧
    Valid TPMS_CLOCK_INFO [0, 0, 0, 0, 0, 0, 1, 2, 0, 0, 0, 3, 0, 0, 0, 4, 1] := by
  refine ⟨List.mem_of_getElem? (i := 52) rfl, by decide, ?_⟩
  simp only [TPMS_CLOCK_INFO, T, rows, Valid, ValidRows, UINT64, UINT32, TPMI_YES_NO, BYTE]
  exact ⟨[0, 0, 0, 0, 0, 0, 1, 2], _, rfl, rfl, [0, 0, 0, 3], _, rfl, rfl,
    [0, 0, 0, 4], _, rfl, rfl, [1], _, rfl, rfl, rfl⟩

/-! ### Where the crate differs -/

/-- Does unmarshalling accept exactly these bytes? -/
def accepts (t : Ty) (b : Bytes) : Bool :=
  match unmarshal t b with
  | (.ok _, []) => true
  | _ => false

theorem accepts_eq {t : Ty} {b : Bytes} :
    accepts t b = true ↔ ∃ v, unmarshal t b = (.ok v, []) := by
  unfold accepts
  constructor
  · intro h
    split at h
    · rename_i v hv; exact ⟨v, hv⟩
    · cases h
  · rintro ⟨v, hv⟩; rw [hv]

/-- The types the standard asks for (used to evaluate the standard on the
witnesses; that they follow the tables is checked). -/
def symStd : Ty := Base.E 2 [
  (0x0006, [Base.u16, Base.u16]), (0x0013, [Base.u16, Base.u16]), (0x0026, [Base.u16, Base.u16]),
  (0x0010, [Base.TpmsEmpty, Base.TpmsEmpty])]
/-- RSA schemes of the standard. -/
def rsaStd : Ty := Base.E 2 [
  (0x0014, [Base.TpmsSchemeHash]), (0x0016, [Base.TpmsSchemeHash]), (0x0015, [Base.TpmsEmpty]),
  (0x0017, [Base.TpmsSchemeHash]), (0x0010, [Base.TpmsEmpty])]
/-- ECC schemes of the standard. -/
def eccStd : Ty := Base.E 2 [
  (0x0018, [Base.TpmsSchemeHash]), (0x001A, [Base.TpmsSchemeEcdaa]),
  (0x001B, [Base.TpmsSchemeHash]), (0x001C, [Base.TpmsSchemeHash]),
  (0x0019, [Base.TpmsSchemeHash]), (0x001D, [Base.TpmsSchemeHash]), (0x0010, [Base.TpmsEmpty])]
/-- Public areas of the standard. -/
def publicStd : Ty := .split .nil 2
  (Base.plains [Base.TpmiAlgHash, Base.TpmaObject, Base.Tpm2bDigest]) (Base.variants [
    (0x0008, [Base.TpmsKeyedHashParms, Base.Tpm2bDigest]),
    (0x0025, [Base.S [symStd], Base.Tpm2bDigest]),
    (0x0001, [Base.S [symStd, rsaStd, Base.u16, Base.u32], Base.Tpm2bPublicKeyRsa]),
    (0x0023, [Base.S [symStd, eccStd, Base.u16, Base.TpmtKdfScheme], Base.TpmsEccPoint])])
/-- Private areas of the standard. -/
def sensitiveStd : Ty := .split .nil 2 (Base.plains [Base.Tpm2bDigest, Base.Tpm2bDigest])
  (Base.variants [(0x0001, [Base.Tpm2bPrivateKeyRsa]), (0x0023, [Base.Tpm2bEccParameter]),
    (0x0008, [Base.Tpm2bSensitiveData]), (0x0025, [Base.Tpm2bSymKey])])
/-- Attestations of the standard. -/
def attestStd : Ty := .split (Base.plains [Base.u32]) 2
  (Base.plains [Base.Tpm2bName, .tpm2b 66, Base.TpmsClockInfo, Base.u64])
  (Base.variants (Base.attestVariants ++ [(0x801C, [Base.S [Base.Tpm2bName, Base.Tpm2bDigest]])]))
/-- Capabilities of the standard. -/
def capabilityStd : Ty := Base.E 4 [
  (0, [Base.TpmlAlgProperty]), (1, [Base.TpmlHandle]), (2, [Base.TpmlCca]), (3, [Base.TpmlCc]),
  (4, [Base.TpmlCc]), (5, [Base.TpmlPcrSelection]), (6, [Base.TpmlTaggedTpmProperty]),
  (7, [Base.TpmlTaggedPcrProperty]), (8, [Base.TpmlEccCurve]), (9, [Base.TpmlTaggedPolicy]),
  (10, [Base.tpml (Base.S [Base.u32, Base.u32, Base.u32]) 84])]
/-- Creation data of the standard. -/
def creationStd : Ty := Base.S [Base.TpmlPcrSelection, Base.Tpm2bDigest, Base.u8, Base.u16,
  Base.Tpm2bName, Base.Tpm2bName, .tpm2b 66]

/-- 66 bytes of data, for instance a name. -/
def data66 : Bytes := [0, 66] ++ List.replicate 66 0

/-- For each deviating type, the type the standard asks for, and bytes on which
they differ. -/
def witnesses : List (String × Ty × Bytes) := [
  ("Tpm2bData", .tpm2b 66, data66),
  -- attestation of the digest of an NV index
  ("TpmsAttest", attestStd, [0xFF, 0x54, 0x43, 0x47, 0x80, 0x1C, 0, 0, 0, 0] ++
    List.replicate 17 0 ++ List.replicate 8 0 ++ [0, 0, 0, 0]),
  -- XOR with SHA-256
  ("TpmtSymDefObject", symStd, [0, 0x0A, 0, 0x0B]),
  ("TpmsSymCipherParms", Base.S [symStd], [0, 0x0A, 0, 0x0B]),
  -- ECDSA with SHA-256
  ("TpmtRsaScheme", rsaStd, [0, 0x18, 0, 0x0B]),
  ("TpmsRsaParms", Base.S [symStd, rsaStd, Base.u16, Base.u32],
    [0, 0x10, 0, 0x18, 0, 0x0B, 8, 0, 0, 0, 0, 0]),
  -- RSASSA with SHA-256
  ("TpmtEccScheme", eccStd, [0, 0x14, 0, 0x0B]),
  ("TpmsEccParms", Base.S [symStd, eccStd, Base.u16, Base.TpmtKdfScheme],
    [0, 0x10, 0, 0x14, 0, 0x0B, 0, 3, 0, 0x10]),
  ("TpmsAsymParms", Base.S [symStd, Base.TpmtAsymScheme], [0, 0x0A, 0, 0x0B, 0, 0x10]),
  ("TpmtPublic", publicStd, [0, 0x25, 0, 0x0B, 0, 0, 0, 0, 0, 0, 0, 0x0A, 0, 0x0B, 0, 0]),
  ("TpmtSensitive", sensitiveStd, [0, 0x10, 0, 0, 0, 0, 0, 0]),
  -- no timers
  ("TpmsCapabilityData", capabilityStd, [0, 0, 0, 0x0A, 0, 0, 0, 0]),
  ("TpmsCreationData", creationStd, [0, 0, 0, 0, 0, 0, 0, 0, 0, 0, 0, 0, 0] ++ data66),
  ("GetCapabilityResp", Base.S [Base.TpmiYesNo, capabilityStd], [0, 0, 0, 0, 0x0A, 0, 0, 0, 0])]

/-- The witnesses are right. -/
def checkWitnesses : Bool := witnesses.all fun (n, u, b) =>
  match Derive.baseTable.lookup n, (entries standard).lookup n with
  | some t, some s => conf u s && (accepts t b != accepts u b)
  | _, _ => false

set_option maxRecDepth 100000 in
theorem checkWitnesses_true : checkWitnesses = true := by decide +kernel

/-- **C73 is violated** by each of the types in `deviating`: there are bytes it
accepts that are no structure of the standard, or the other way round. -/
theorem C73_violated (n : String) (hn : n ∈ deviating) :
    ∃ t s b, (n, t) ∈ Derive.baseTable ∧ (n, s) ∈ entries standard ∧
      ¬ ((∃ v, unmarshal t b = (.ok v, [])) ↔ Valid s b) := by
  have hw : deviating = witnesses.map (·.1) := rfl
  rw [hw, List.mem_map] at hn
  obtain ⟨⟨m, u, b⟩, hm, rfl⟩ := hn
  have h := List.all_eq_true.mp checkWitnesses_true _ hm
  simp only at h
  split at h
  · rename_i t s ht hs
    rw [Bool.and_eq_true] at h
    refine ⟨t, s, b, Derive.lookup_mem ht, Derive.lookup_mem hs, ?_⟩
    rw [conf_iff u s h.1 b, ← accepts_iff u b, ← accepts_eq, ← accepts_eq]
    intro heq
    have := h.2
    rw [bne_iff_ne] at this
    exact this (Bool.eq_iff_iff.mpr heq)
  · cases h

set_option maxRecDepth 20000 in
/-- **C73 is violated** by digests: where the standard allows the algorithm to be
`TPM_ALG_NULL` (`+TPMT_HA`), which a TPM uses for a policy that is not set, the
type does not. -/
theorem C73_violated_null :
    Valid (TPMT_HA true) [0, 0x10] ∧ unmarshal Base.TpmtHa [0, 0x10] = (.err .unknownSelector, []) := by
  refine ⟨?_, rfl⟩
  simp only [TPMT_HA, Valid, ValidRows, TPMI_ALG_HASH, TPM_ALG_ID, UINT16]
  refine ⟨[0, 0x10], [], rfl, rfl, 0x10, rfl, [], [], rfl, ?_, rfl⟩
  simp [cases, ValidCase, TPMS_EMPTY, T, rows, Valid, ValidRows]

/-! ### Structures in sized buffers -/

/-- The capacity of a wrapper is the size in memory of its contents. -/
def checkWrapped : Bool := wrapped.all fun (o, i) =>
  match Derive.baseTable.lookup o, Derive.baseTable.lookup i, (entries crate).lookup i with
  | some (.tpm2b cap), some t, some s => cap == sizeOfTy al64 t && conf t s
  | _, _, _ => false

set_option maxRecDepth 100000 in
theorem checkWrapped_true : checkWrapped = true := by decide +kernel

/-- **C73** for structures in sized buffers: every `TPM2B` of the structure is
accepted, and the buffer then holds the encoding of the structure, which is
accepted in turn. -/
theorem C73_wrapped (o i : String) (h : (o, i) ∈ wrapped) :
    ∃ cap t s, (o, .tpm2b cap) ∈ Derive.baseTable ∧ (i, t) ∈ Derive.baseTable ∧
      (i, s) ∈ entries crate ∧
      ∀ b, Valid (.sized s) b → ∃ v c w, unmarshal (.tpm2b cap) b = (.ok v, []) ∧
        tpm2bGetBuffer v = .ok c ∧ unmarshal t c = (.ok w, []) := by
  have h := List.all_eq_true.mp checkWrapped_true _ h
  simp only at h
  split at h
  · rename_i cap t s h1 h2 h3
    simp only [Bool.and_eq_true, beq_iff_eq] at h
    refine ⟨cap, t, s, Derive.lookup_mem h1, Derive.lookup_mem h2, Derive.lookup_mem h3, ?_⟩
    intro b hb
    rw [Valid] at hb
    obtain ⟨c, rfl, hc, hv⟩ := hb
    have hl := (conf_iff t s h.2 c).mp hv
    obtain ⟨w, hw⟩ := (accepts_iff t c).mpr hl
    obtain ⟨x, hx, rfl⟩ := hl
    have hcap : (wire t x).length ≤ cap := by rw [h.1]; exact wire_le al64 t x hx
    obtain ⟨v, h4, -, h5⟩ := (C11_from_wire cap (wire t x).length (wire t x) hc).1 ⟨hcap, Nat.le_refl _⟩
    refine ⟨v, wire t x, w, ?_, ?_, hw⟩
    · rw [h4, List.drop_length]
    · rw [h5, List.take_length]
  · cases h

/-- Non-vacuity: the template of a symmetric key without algorithm. -/
example : Valid (.sized (TPMT_PUBLIC crate))
    [0, 16, 0, 0x25, 0, 0x0B, 0, 0, 0, 0, 0, 0, 0, 0x0A, 0, 0x0B, 0, 0] := by
  rw [Valid]
  refine ⟨[0, 0x25, 0, 0x0B, 0, 0, 0, 0, 0, 0, 0, 0x0A, 0, 0x0B, 0, 0], rfl, by decide, ?_⟩
  have hc : conf Base.TpmtPublic (TPMT_PUBLIC crate) = true := by decide +kernel
  rw [conf_iff _ _ hc, ← accepts_iff, ← accepts_eq]
  decide +kernel

/-! ### Names of members -/

/-- The names of the members of a table. -/
def rowNames : Rows → List String
  | .nil => []
  | .row x _ r => x :: rowNames r
  | .array x _ _ _ r => x :: rowNames r
  | .union x _ _ r => x :: rowNames r

/-- Members with other names than in the standard: crates/tpm2-client/src/lib.rs:27-31,
45-49, base/src/lib.rs:1369. -/
def renamed : List (String × String × String) := [
  ("TpmsTaggedPcrSelect", "size_of_select", "sizeof_select"),
  ("CmdHeader", "size", "command_size"), ("CmdHeader", "code", "command_code"),
  ("RespHeader", "size", "response_size"), ("RespHeader", "rc", "response_code")]

/-- The name in the standard of a field. -/
def standardName (type field : String) : String :=
  match renamed.find? fun x => x.1 == type && x.2.1 == field with
  | some x => x.2.2
  | none => field

/-- The names of the fields against those of the members. -/
def checkNames : Bool := (Derive.derived Derive.Decls.all).all fun (_, i) =>
  match i.data, (entries standard).lookup i.ident with
  | .struct (.named fs), some (.table r) =>
    fs.map (fun f => standardName i.ident f.ident) == rowNames r
  | _, _ => true

set_option maxRecDepth 100000 in
theorem checkNames_true : checkNames = true := by decide +kernel

/-- **C73.** The fields of the declared structures are the members of the
standard's, in its order, by name. -/
theorem C73_names (w : Nat) (n : String) (attrs : List Derive.Attr) (fs : List Derive.NField)
    (hd : Derive.Decl.derive w ⟨n, attrs, .struct (.named fs)⟩ ∈ Derive.Decls.all)
    (r : Rows) (hr : (entries standard).lookup n = some (.table r)) :
    fs.map (fun f => standardName n f.ident) = rowNames r := by
  have h := List.all_eq_true.mp checkNames_true _ (Derive.mem_derived.mpr hd)
  simp only [hr] at h
  simpa using h

/-- Non-vacuity: the audit of commands, whose last two members have the same
type. -/
example : ∃ (w : Nat) (attrs : List Derive.Attr) (fs : List Derive.NField) (r : Rows),
    Derive.Decl.derive w ⟨"TpmsCommandAuditInfo", attrs, .struct (.named fs)⟩ ∈ Derive.Decls.all ∧
    (entries standard).lookup "TpmsCommandAuditInfo" = some (.table r) ∧
    rowNames r = ["audit_counter", "digest_alg", "audit_digest", "command_digest"] := by
  refine ⟨0, [], _, _, List.mem_of_getElem? (i := 117) rfl, rfl, rfl⟩

/-! ### The generated code -/

set_option maxRecDepth 100000 in
theorem baseNames_noDup : Derive.noDup (Derive.baseTable.map (·.1)) = true := by decide +kernel

theorem unique_of_nodup {α : Type} : ∀ {l : List (String × α)}, (l.map (·.1)).Nodup →
    ∀ {n t t'}, (n, t) ∈ l → (n, t') ∈ l → t = t'
  | [], _, _, _, _, h, _ => nomatch h
  | x :: l, hd, n, t, t', h, h' => by
    rw [List.map_cons, List.nodup_cons] at hd
    rcases List.mem_cons.1 h with rfl | h1 <;> rcases List.mem_cons.1 h' with h2 | h2
    · exact (Prod.mk.inj h2).2.symm
    · exact absurd (List.mem_map.2 ⟨_, h2, rfl⟩) hd.1
    · subst h2; exact absurd (List.mem_map.2 ⟨_, h1, rfl⟩) hd.1
    · exact unique_of_nodup hd.2 h1 h2

/-- **C73.** For each declaration with `#[derive(Marshalable)]` the generated code
accepts exactly the bytes that are the structure of the standard, as amended by
`crate`. -/
theorem C73_generated (w : Nat) (input : Derive.Input) (s : Shape)
    (hd : Derive.Decl.derive w input ∈ Derive.Decls.all) (hs : (input.ident, s) ∈ entries crate) :
    ∃ e items c, Derive.Env.empty.addAll Derive.Decls.all = some e ∧
      Derive.deriveMarshalable input = .ok items ∧ Derive.implOf e.ctx w input items = some c ∧
      ∀ b, (∃ v, c.unmarshal b = (.ok v, [])) ↔ Valid s b := by
  obtain ⟨e, he, _⟩ := Derive.C67_table
  obtain ⟨t, items, c, h1, _, h3, h4, h5⟩ := Derive.C67_derived e he w input hd
  obtain ⟨t', h6, h7⟩ := C73_crate _ s hs
  have := unique_of_nodup (Derive.noDup_nodup baseNames_noDup) h1 h6
  subst this
  exact ⟨e, items, c, he, h3, h4, fun b => by rw [h5.1, h7 b]⟩

/-- **C73 (partial).** The same with the structures of the standard themselves.
Missing: the types in `deviating`, for which the claim is false (`C73_violated`). -/
theorem C73_generated_partial (w : Nat) (input : Derive.Input) (s : Shape)
    (hd : Derive.Decl.derive w input ∈ Derive.Decls.all) (hs : (input.ident, s) ∈ entries standard)
    (hn : input.ident ∉ deviating) :
    ∃ e items c, Derive.Env.empty.addAll Derive.Decls.all = some e ∧
      Derive.deriveMarshalable input = .ok items ∧ Derive.implOf e.ctx w input items = some c ∧
      ∀ b, (∃ v, c.unmarshal b = (.ok v, [])) ↔ Valid s b := by
  obtain ⟨e, he, _⟩ := Derive.C67_table
  obtain ⟨t, items, c, h1, _, h3, h4, h5⟩ := Derive.C67_derived e he w input hd
  obtain ⟨t', h6, h7⟩ := C73_standard_partial _ s hs hn
  have := unique_of_nodup (Derive.noDup_nodup baseNames_noDup) h1 h6
  subst this
  exact ⟨e, items, c, he, h3, h4, fun b => by rw [h5.1, h7 b]⟩

/-- Non-vacuity: the audit of commands again, declared and in the standard. -/
example : ∃ (w : Nat) (input : Derive.Input) (s : Shape),
    Derive.Decl.derive w input ∈ Derive.Decls.all ∧ (input.ident, s) ∈ entries standard ∧
    input.ident = "TpmsCommandAuditInfo" ∧ input.ident ∉ deviating :=
  ⟨0, _, _, List.mem_of_getElem? (i := 117) rfl, Derive.lookup_mem (a := "TpmsCommandAuditInfo") rfl,
    rfl, by decide⟩

end Verif.Tcg
