import Verif.Base.Layout

/-
Every marshalable type of the base crate (base/src/lib.rs, base/src/constants.rs,
base/src/commands/) and the client's headers as elements of the type universe.
Type aliases of the source are not repeated.
-/

namespace Verif.Base
open Verif

/-- Unnamed or non-array fields in order. -/
def plains : List Ty → Fields
  | [] => .nil
  | t :: ts => .plain t (plains ts)

/-- A structure all of whose fields are plain. -/
def S (ts : List Ty) : Ty := .struct (plains ts)

/-- An enum with `w`-byte representation. -/
def variants : List (Nat × List Ty) → Variants
  | [] => .nil
  | (s, ts) :: r => .cons s (plains ts) (variants r)

/-- An enum with `w`-byte representation. -/
def E (w : Nat) (l : List (Nat × List Ty)) : Ty := .enum w (variants l)

/-- A counted list: `count: u32` and `#[marshalable(length=count)] [t; n]`. -/
def tpml (t : Ty) (n : Nat) : Ty := .struct (.plain (.prim 4) (.lenArr 0 t n .nil))

abbrev u8 : Ty := .prim 1
abbrev u16 : Ty := .prim 2
abbrev u32 : Ty := .prim 4
abbrev u64 : Ty := .prim 8

/-! Algorithm identifiers: base/src/constants.rs:39-79. -/
namespace Alg
def RSA := 0x0001
def SHA1 := 0x0004
def HMAC := 0x0005
def AES := 0x0006
def MGF1 := 0x0007
def KeyedHash := 0x0008
def XOR := 0x000A
def SHA256 := 0x000B
def SHA384 := 0x000C
def SHA512 := 0x000D
def Null := 0x0010
def SM3256 := 0x0012
def SM4 := 0x0013
def RSASSA := 0x0014
def RSAES := 0x0015
def RSAPSS := 0x0016
def OAEP := 0x0017
def ECDSA := 0x0018
def ECDH := 0x0019
def ECDAA := 0x001A
def SM2 := 0x001B
def ECSchnorr := 0x001C
def ECMQV := 0x001D
def KDF1SP80056A := 0x0020
def KDF2 := 0x0021
def KDF1SP800108 := 0x0022
def ECC := 0x0023
def SymCipher := 0x0025
def Camellia := 0x0026
end Alg

/-! Structure tags: base/src/constants.rs:365-384. -/
namespace St
def NoSessions := 0x8001
def Sessions := 0x8002
def AttestNV := 0x8014
def AttestCommandAudit := 0x8015
def AttestSessionAudit := 0x8016
def AttestCertify := 0x8017
def AttestQuote := 0x8018
def AttestTime := 0x8019
def AttestCreation := 0x801A
end St

/-! Command codes: base/src/constants.rs:105-224. -/
namespace Cc
def Startup := 0x144
def GetCapability := 0x17A
def GetRandom := 0x17B
def PCRRead := 0x17E
end Cc

/-! Integer wrappers (`open_enum`, `repr(transparent)`): tuple structures with
one unnamed field. -/

/-- base/src/constants.rs:39-79 -/
def TpmAlgId : Ty := S [u16]
/-- base/src/constants.rs:87-97 -/
def TpmEccCurve : Ty := S [u16]
/-- base/src/constants.rs:105-224 -/
def TpmCc : Ty := S [u32]
/-- base/src/constants.rs:365-384 -/
def TpmSt : Ty := S [u16]
/-- base/src/constants.rs:392-395 -/
def TpmSu : Ty := S [u16]
/-- base/src/constants.rs:413-425 -/
def TpmCap : Ty := S [u32]
/-- base/src/constants.rs:433-594 -/
def TpmPt : Ty := S [u32]
/-- base/src/constants.rs:602-648 -/
def TpmPtPcr : Ty := S [u32]
/-- base/src/constants.rs:671-679 -/
def TpmHandle : Ty := S [u32]
/-- base/src/constants.rs:682-744 -/
def TpmHc : Ty := S [u32]
/-- base/src/constants.rs:777-780 -/
def TpmGenerated : Ty := S [u32]
/-- base/src/lib.rs:36 -/
def TpmaLocality : Ty := S [u8]
/-- base/src/lib.rs:60 -/
def TpmaNv : Ty := S [u32]
/-- base/src/lib.rs:148-158 -/
def TpmiAlgHash : Ty := S [u16]
/-- base/src/lib.rs:162-171 -/
def TpmiAlgKdf : Ty := S [u16]
/-- base/src/lib.rs:175-186 -/
def TpmiAlgPublic : Ty := S [u16]
/-- base/src/lib.rs:190-203 -/
def TpmiAlgSymMode : Ty := S [u16]
/-- base/src/lib.rs:207-218 -/
def TpmiAlgSymObject : Ty := S [u16]
/-- base/src/lib.rs:222-231 -/
def TpmiAlgKeyedhashScheme : Ty := S [u16]
/-- base/src/lib.rs:235-250 -/
def TpmiAlgRsaScheme : Ty := S [u16]
/-- base/src/lib.rs:247-261 -/
def TpmiAlgSigScheme : Ty := S [u16]
/-- base/src/lib.rs:264-279 -/
def TpmiAlgEccScheme : Ty := S [u16]
/-- base/src/lib.rs:282-299 -/
def TpmiAlgAsymScheme : Ty := S [u16]
/-- base/src/lib.rs:302-305 -/
def TpmiRhNvIndex : Ty := S [u32]
/-- base/src/lib.rs:318-321 -/
def TpmiShAuthSession : Ty := S [u32]
/-- base/src/lib.rs:342-345; a wrapper of a wrapper -/
def TpmiEccCurve : Ty := S [TpmEccCurve]
/-- base/src/lib.rs:349-356 -/
def TpmiYesNo : Ty := S [u8]
/-- base/src/lib.rs:360-373 -/
def TpmiStAttest : Ty := S [u16]
/-- base/src/lib.rs:376-378 -/
def TpmiAesKeyBits : Ty := S [u16]
/-- base/src/lib.rs:380-382 -/
def TpmiSm4KeyBits : Ty := S [u16]
/-- base/src/lib.rs:384-386 -/
def TpmiCamelliaKeyBits : Ty := S [u16]
/-- base/src/lib.rs:388-390 -/
def TpmiRsaKeyBits : Ty := S [u16]
/-- base/src/lib.rs:394-396 -/
def TpmaObject : Ty := S [u32]
/-- base/src/lib.rs:428-430 -/
def TpmaAlgorithm : Ty := S [u32]
/-- base/src/lib.rs:452-454 -/
def TpmaSession : Ty := S [u8]
/-- base/src/lib.rs:475-477 -/
def TpmaCc : Ty := S [u32]
/-- base/src/lib.rs:543-552 -/
def TpmiStCommandTag : Ty := S [u16]

/-! Digests and sized buffers. -/

/-- base/src/lib.rs:565-567 -/
def TpmsEmpty : Ty := S []
/-- base/src/lib.rs:569-577 -/
def TpmtHa : Ty := E 2 [
  (Alg.SHA1, [.bytes 20]), (Alg.SHA256, [.bytes 32]), (Alg.SHA384, [.bytes 48]),
  (Alg.SHA512, [.bytes 64]), (Alg.SM3256, [.bytes 32])]
/-- base/src/lib.rs:600-606 -/
def Tpm2bDigest : Ty := .tpm2b 64
/-- base/src/lib.rs:611-617 -/
def Tpm2bData : Ty := .tpm2b 64
/-- base/src/lib.rs:619-625 -/
def Tpm2bEvent : Ty := .tpm2b 1024
/-- base/src/lib.rs:627-633 -/
def Tpm2bMaxBuffer : Ty := .tpm2b 1024
/-- base/src/lib.rs:635-641 -/
def Tpm2bMaxNvBuffer : Ty := .tpm2b 2048
/-- base/src/lib.rs:643-649 -/
def Tpm2bIv : Ty := .tpm2b 16
/-- base/src/lib.rs:651-657; capacity `size_of::<TpmtHa>()` (596-598) -/
def Tpm2bName : Ty := .tpm2b (sizeOfTy al64 TpmtHa)
/-- base/src/lib.rs:666-673 -/
def TpmsClockInfo : Ty := S [u64, u32, u32, TpmiYesNo]
/-- base/src/lib.rs:675-682 -/
def TpmsPcrSelection : Ty := .struct (.plain TpmiAlgHash (.plain u8 (.lenArr 1 u8 4 .nil)))
/-- base/src/lib.rs:684-690 -/
def TpmlPcrSelection : Ty := tpml TpmsPcrSelection 16

/-! Attestation. -/

/-- base/src/lib.rs:692-697 -/
def TpmsQuoteInfo : Ty := S [TpmlPcrSelection, Tpm2bDigest]
/-- base/src/lib.rs:699-704 -/
def TpmsCreationInfo : Ty := S [Tpm2bName, Tpm2bDigest]
/-- base/src/lib.rs:706-711 -/
def TpmsCertifyInfo : Ty := S [Tpm2bName, Tpm2bName]
/-- base/src/lib.rs:713-720 -/
def TpmsCommandAuditInfo : Ty := S [u64, u16, Tpm2bDigest, Tpm2bDigest]
/-- base/src/lib.rs:722-727 -/
def TpmsSessionAuditInfo : Ty := S [TpmiYesNo, Tpm2bDigest]
/-- base/src/lib.rs:729-734 -/
def TpmsTimeInfo : Ty := S [u64, TpmsClockInfo]
/-- base/src/lib.rs:736-741 -/
def TpmsTimeAttestInfo : Ty := S [TpmsTimeInfo, u64]
/-- base/src/lib.rs:743-749 -/
def TpmsNvCertifyInfo : Ty := S [Tpm2bName, u16, Tpm2bMaxNvBuffer]
/-- Variants of `TpmuAttest`: base/src/lib.rs:751-761 -/
def attestVariants : List (Nat × List Ty) := [
  (St.AttestCertify, [TpmsCertifyInfo]), (St.AttestCreation, [TpmsCreationInfo]),
  (St.AttestQuote, [TpmsQuoteInfo]), (St.AttestCommandAudit, [TpmsCommandAuditInfo]),
  (St.AttestSessionAudit, [TpmsSessionAuditInfo]), (St.AttestTime, [TpmsTimeAttestInfo]),
  (St.AttestNV, [TpmsNvCertifyInfo])]
/-- base/src/lib.rs:751-761 -/
def TpmuAttest : Ty := E 2 attestVariants
/-- base/src/lib.rs:763-802 -/
def TpmsAttest : Ty := .split (plains [TpmGenerated]) 2
  (plains [Tpm2bName, Tpm2bData, TpmsClockInfo, u64]) (variants attestVariants)
/-- base/src/lib.rs:804-810 -/
def Tpm2bAttest : Ty := .tpm2b (sizeOfTy al64 TpmsAttest)

/-! Keys and sensitive data. -/

/-- base/src/lib.rs:812-818 -/
def Tpm2bSymKey : Ty := .tpm2b 32
/-- base/src/lib.rs:820-826 -/
def Tpm2bLabel : Ty := .tpm2b 32
/-- base/src/lib.rs:828-833 -/
def TpmsDerive : Ty := S [Tpm2bLabel, Tpm2bLabel]
/-- base/src/lib.rs:859-865; capacity 847-857 -/
def Tpm2bSensitiveData : Ty := .tpm2b (max 256 (sizeOfTy al64 TpmsDerive))
/-- base/src/lib.rs:869-874 -/
def TpmsSensitiveCreate : Ty := S [Tpm2bDigest, Tpm2bSensitiveData]
/-- base/src/lib.rs:876-882 -/
def Tpm2bSensitiveCreate : Ty := .tpm2b (sizeOfTy al64 TpmsSensitiveCreate)
/-- base/src/lib.rs:884-890 -/
def Tpm2bPublicKeyRsa : Ty := .tpm2b 512
/-- base/src/lib.rs:892-898 -/
def Tpm2bPrivateKeyRsa : Ty := .tpm2b 256
/-- base/src/lib.rs:900-906 -/
def Tpm2bEccParameter : Ty := .tpm2b 128
/-- base/src/lib.rs:908-913 -/
def TpmsEccPoint : Ty := S [Tpm2bEccParameter, Tpm2bEccParameter]
/-- base/src/lib.rs:950-956; capacity 930-948 -/
def Tpm2bEncryptedSecret : Ty :=
  .tpm2b (max (max (sizeOfTy al64 TpmsEccPoint) 512) (sizeOfTy al64 Tpm2bDigest))

/-! Schemes. -/

/-- base/src/lib.rs:1045-1049 -/
def TpmsSchemeHash : Ty := S [TpmiAlgHash]
/-- base/src/lib.rs:958-963 -/
def TpmsSchemeXor : Ty := S [TpmiAlgHash, TpmiAlgKdf]
/-- base/src/lib.rs:967-973 -/
def TpmtKeyedHashScheme : Ty := E 2 [
  (Alg.HMAC, [TpmsSchemeHash]), (Alg.XOR, [TpmsSchemeXor]), (Alg.Null, [TpmsEmpty])]
/-- base/src/lib.rs:975-979 -/
def TpmsKeyedHashParms : Ty := S [TpmtKeyedHashScheme]
/-- base/src/lib.rs:981-989 -/
def TpmtSymDefObject : Ty := E 2 [
  (Alg.AES, [TpmiAesKeyBits, TpmiAlgSymMode]), (Alg.SM4, [TpmiSm4KeyBits, TpmiAlgSymMode]),
  (Alg.Camellia, [TpmiCamelliaKeyBits, TpmiAlgSymMode]),
  (Alg.XOR, [TpmiAlgHash, TpmsEmpty]), (Alg.Null, [TpmsEmpty, TpmsEmpty])]
/-- base/src/lib.rs:991-995 -/
def TpmsSymCipherParms : Ty := S [TpmtSymDefObject]
/-- base/src/lib.rs:997-1002 -/
def TpmsSignatureRsa : Ty := S [TpmiAlgHash, Tpm2bPublicKeyRsa]
/-- base/src/lib.rs:1004-1010 -/
def TpmsSignatureEcc : Ty := S [TpmiAlgHash, Tpm2bEccParameter, Tpm2bEccParameter]
/-- base/src/lib.rs:1019-1030 -/
def TpmtSignature : Ty := E 2 [
  (Alg.RSASSA, [TpmsSignatureRsa]), (Alg.RSAPSS, [TpmsSignatureRsa]),
  (Alg.ECDSA, [TpmsSignatureEcc]), (Alg.ECDAA, [TpmsSignatureEcc]),
  (Alg.SM2, [TpmsSignatureEcc]), (Alg.ECSchnorr, [TpmsSignatureEcc]),
  (Alg.HMAC, [TpmtHa]), (Alg.Null, [TpmsEmpty])]
/-- base/src/lib.rs:1051-1056 -/
def TpmsSchemeEcdaa : Ty := S [TpmiAlgHash, u16]
/-- base/src/lib.rs:1032-1043 -/
def TpmtSigScheme : Ty := E 2 [
  (Alg.RSASSA, [TpmsSchemeHash]), (Alg.RSAPSS, [TpmsSchemeHash]),
  (Alg.ECDSA, [TpmsSchemeHash]), (Alg.ECDAA, [TpmsSchemeEcdaa]),
  (Alg.SM2, [TpmsSchemeHash]), (Alg.ECSchnorr, [TpmsSchemeHash]),
  (Alg.HMAC, [TpmsSchemeHash]), (Alg.Null, [TpmsEmpty])]
/-- base/src/lib.rs:1069-1081 -/
def TpmtRsaScheme : Ty := E 2 [
  (Alg.RSAPSS, [TpmsSchemeHash]), (Alg.RSASSA, [TpmsSchemeHash]),
  (Alg.ECDSA, [TpmsSchemeHash]), (Alg.ECDAA, [TpmsSchemeEcdaa]),
  (Alg.SM2, [TpmsSchemeHash]), (Alg.ECSchnorr, [TpmsSchemeHash]),
  (Alg.RSAES, [TpmsEmpty]), (Alg.OAEP, [TpmsSchemeHash]), (Alg.Null, [TpmsEmpty])]
/-- base/src/lib.rs:1083-1090 -/
def TpmsRsaParms : Ty := S [TpmtSymDefObject, TpmtRsaScheme, TpmiRsaKeyBits, u32]
/-- base/src/lib.rs:1092-1104 -/
def TpmtEccScheme : Ty := E 2 [
  (Alg.RSAPSS, [TpmsSchemeHash]), (Alg.RSASSA, [TpmsSchemeHash]),
  (Alg.ECDSA, [TpmsSchemeHash]), (Alg.ECDAA, [TpmsSchemeEcdaa]),
  (Alg.SM2, [TpmsSchemeHash]), (Alg.ECSchnorr, [TpmsSchemeHash]),
  (Alg.ECDH, [TpmsSchemeHash]), (Alg.ECMQV, [TpmsSchemeHash]), (Alg.Null, [TpmsEmpty])]
/-- base/src/lib.rs:1111-1119 -/
def TpmtKdfScheme : Ty := E 2 [
  (Alg.MGF1, [TpmsSchemeHash]), (Alg.KDF1SP80056A, [TpmsSchemeHash]),
  (Alg.KDF2, [TpmsSchemeHash]), (Alg.KDF1SP800108, [TpmsSchemeHash]), (Alg.Null, [TpmsEmpty])]
/-- base/src/lib.rs:1121-1128 -/
def TpmsEccParms : Ty := S [TpmtSymDefObject, TpmtEccScheme, TpmiEccCurve, TpmtKdfScheme]
/-- base/src/lib.rs:1130-1144 -/
def TpmtAsymScheme : Ty := E 2 [
  (Alg.ECDH, [TpmsSchemeHash]), (Alg.ECMQV, [TpmsSchemeHash]), (Alg.SM2, [TpmsSchemeHash]),
  (Alg.RSAPSS, [TpmsSchemeHash]), (Alg.RSASSA, [TpmsSchemeHash]),
  (Alg.ECDSA, [TpmsSchemeHash]), (Alg.ECDAA, [TpmsSchemeEcdaa]),
  (Alg.ECSchnorr, [TpmsSchemeHash]), (Alg.RSAES, [TpmsEmpty]),
  (Alg.OAEP, [TpmsSchemeHash]), (Alg.Null, [TpmsEmpty])]
/-- base/src/lib.rs:1146-1151 -/
def TpmsAsymParms : Ty := S [TpmtSymDefObject, TpmtAsymScheme]

/-! Objects. -/

/-- Variants of `PublicParmsAndId`: base/src/lib.rs:1162-1169 -/
def publicVariants : List (Nat × List Ty) := [
  (Alg.KeyedHash, [TpmsKeyedHashParms, Tpm2bDigest]),
  (Alg.SymCipher, [TpmsSymCipherParms, Tpm2bDigest]),
  (Alg.RSA, [TpmsRsaParms, Tpm2bPublicKeyRsa]), (Alg.ECC, [TpmsEccParms, TpmsEccPoint])]
/-- base/src/lib.rs:1162-1169 -/
def PublicParmsAndId : Ty := E 2 publicVariants
/-- base/src/lib.rs:1171-1204 -/
def TpmtPublic : Ty := .split .nil 2
  (plains [TpmiAlgHash, TpmaObject, Tpm2bDigest]) (variants publicVariants)
/-- base/src/lib.rs:1206-1212 -/
def Tpm2bPublic : Ty := .tpm2b (sizeOfTy al64 TpmtPublic)
/-- base/src/lib.rs:1214-1220 -/
def Tpm2bTemplate : Ty := .tpm2b (sizeOfTy al64 TpmtPublic)
/-- base/src/lib.rs:1222-1228; base/src/constants.rs:28 -/
def Tpm2bPrivateVendorSpecific : Ty := .tpm2b 1280
/-- Variants of `TpmuSensitiveComposite`: base/src/lib.rs:1230-1239 -/
def sensitiveVariants : List (Nat × List Ty) := [
  (Alg.RSA, [Tpm2bPrivateKeyRsa]), (Alg.ECC, [Tpm2bEccParameter]),
  (Alg.KeyedHash, [Tpm2bSensitiveData]), (Alg.SymCipher, [Tpm2bSymKey]),
  (Alg.Null, [Tpm2bPrivateVendorSpecific])]
/-- base/src/lib.rs:1230-1239 -/
def TpmuSensitiveComposite : Ty := E 2 sensitiveVariants
/-- base/src/lib.rs:1241-1270 -/
def TpmtSensitive : Ty := .split .nil 2 (plains [Tpm2bDigest, Tpm2bDigest])
  (variants sensitiveVariants)
/-- base/src/lib.rs:1421-1427; capacity `size_of::<_PRIVATE>()` (1406-1419) -/
def Tpm2bPrivate : Ty :=
  .tpm2b (sizeOfTy al64 (S [Tpm2bDigest, Tpm2bDigest, .tpm2b (sizeOfTy al64 TpmtSensitive)]))
/-- base/src/lib.rs:1429-1434 -/
def TpmsIdObject : Ty := S [Tpm2bDigest, Tpm2bDigest]
/-- base/src/lib.rs:1436-1442 -/
def Tpm2bIdObject : Ty := .tpm2b (sizeOfTy al64 TpmsIdObject)
/-- base/src/lib.rs:1444-1452 -/
def TpmsNvPublic : Ty := S [TpmiRhNvIndex, TpmiAlgHash, TpmaNv, Tpm2bDigest, u16]
/-- base/src/lib.rs:1461-1467 -/
def Tpm2bContextSensitive : Ty := .tpm2b 5120
/-- base/src/lib.rs:1469-1474 -/
def TpmsContextData : Ty := S [Tpm2bDigest, Tpm2bContextSensitive]
/-- base/src/lib.rs:1476-1482 -/
def Tpm2bContextData : Ty := .tpm2b (sizeOfTy al64 TpmsContextData)
/-- base/src/lib.rs:1484-1494 -/
def TpmsCreationData : Ty := S [TpmlPcrSelection, Tpm2bDigest, TpmaLocality, TpmAlgId,
  Tpm2bName, Tpm2bName, Tpm2bData]
/-- base/src/lib.rs:1496-1502 -/
def Tpm2bCreationData : Ty := .tpm2b (sizeOfTy al64 TpmsCreationData)

/-! Capabilities and lists. -/

/-- base/src/lib.rs:1351-1356 -/
def TpmsAlgProperty : Ty := S [TpmAlgId, TpmaAlgorithm]
/-- base/src/lib.rs:1358-1363 -/
def TpmsTaggedProperty : Ty := S [TpmPt, u32]
/-- base/src/lib.rs:1365-1372 -/
def TpmsTaggedPcrSelect : Ty := .struct (.plain TpmPtPcr (.plain u8 (.lenArr 1 u8 4 .nil)))
/-- base/src/lib.rs:1374-1379 -/
def TpmsTaggedPolicy : Ty := S [TpmHandle, TpmtHa]

/-- `TPM2_MAX_CAP_DATA`: base/src/lib.rs:554-555, base/src/constants.rs:15 -/
def maxCapData : Nat := 1024 - sizeOfTy al64 TpmCap - 4

/-- base/src/lib.rs:556, 1287-1293 -/
def TpmlAlgProperty : Ty := tpml TpmsAlgProperty (maxCapData / sizeOfTy al64 TpmsAlgProperty)
/-- base/src/lib.rs:557, 1295-1301 -/
def TpmlHandle : Ty := tpml TpmHandle (maxCapData / sizeOfTy al64 TpmHandle)
/-- base/src/lib.rs:558, 1303-1309 -/
def TpmlCca : Ty := tpml TpmaCc (maxCapData / sizeOfTy al64 TpmCc)
/-- base/src/lib.rs:558, 1311-1317 -/
def TpmlCc : Ty := tpml TpmCc (maxCapData / sizeOfTy al64 TpmCc)
/-- base/src/lib.rs:559, 1319-1325 -/
def TpmlTaggedTpmProperty : Ty :=
  tpml TpmsTaggedProperty (maxCapData / sizeOfTy al64 TpmsTaggedProperty)
/-- base/src/lib.rs:560, 1327-1333 -/
def TpmlTaggedPcrProperty : Ty :=
  tpml TpmsTaggedPcrSelect (maxCapData / sizeOfTy al64 TpmsTaggedPcrSelect)
/-- base/src/lib.rs:561, 1335-1341 -/
def TpmlEccCurve : Ty := tpml TpmEccCurve (maxCapData / sizeOfTy al64 TpmEccCurve)
/-- base/src/lib.rs:562, 1343-1349 -/
def TpmlTaggedPolicy : Ty := tpml TpmsTaggedPolicy (maxCapData / sizeOfTy al64 TpmsTaggedPolicy)
/-- base/src/lib.rs:563, 1381-1387 -/
def TpmlDigest : Ty := tpml Tpm2bDigest 8
/-- base/src/lib.rs:1272-1285 -/
def TpmsCapabilityData : Ty := E 4 [
  (0, [TpmlAlgProperty]), (1, [TpmlHandle]), (2, [TpmlCca]), (3, [TpmlCc]), (4, [TpmlCc]),
  (5, [TpmlPcrSelection]), (6, [TpmlTaggedTpmProperty]), (7, [TpmlTaggedPcrProperty]),
  (8, [TpmlEccCurve]), (9, [TpmlTaggedPolicy])]

/-! Authorizations. -/

/-- base/src/lib.rs:1389-1396 -/
def TpmsAuthCommand : Ty := S [TpmiShAuthSession, Tpm2bDigest, TpmaSession, Tpm2bDigest]
/-- base/src/lib.rs:1398-1404 -/
def TpmsAuthResponse : Ty := S [Tpm2bDigest, TpmaSession, Tpm2bData]

/-! Commands and headers. -/

/-- base/src/commands/capability.rs:8-14 -/
def GetCapabilityCmd : Ty := S [TpmCap, TpmPt, u32]
/-- base/src/commands/capability.rs:23-28 -/
def GetCapabilityResp : Ty := S [TpmiYesNo, TpmsCapabilityData]
/-- base/src/commands/pcr.rs:14-18 -/
def PcrReadCmd : Ty := S [TpmlPcrSelection]
/-- base/src/commands/pcr.rs:26-32 -/
def PcrReadResp : Ty := S [u32, TpmlPcrSelection, TpmlDigest]
/-- base/src/commands/random.rs:8-12 -/
def GetRandomCmd : Ty := S [u16]
/-- base/src/commands/random.rs:20-24 -/
def GetRandomResp : Ty := S [Tpm2bDigest]
/-- base/src/commands/startup.rs:9-13 -/
def StartupCmd : Ty := S [TpmSu]
/-- crates/tpm2-client/src/lib.rs:26-32 -/
def CmdHeader : Ty := S [TpmiStCommandTag, u32, TpmCc]
/-- crates/tpm2-client/src/lib.rs:44-50 -/
def RespHeader : Ty := S [TpmSt, u32, u32]

/-- All structure types above, by name. -/
def allTypes : List (String × Ty) := [
  ("TpmtHa", TpmtHa), ("Tpm2bDigest", Tpm2bDigest), ("Tpm2bName", Tpm2bName),
  ("TpmsClockInfo", TpmsClockInfo), ("TpmsPcrSelection", TpmsPcrSelection),
  ("TpmlPcrSelection", TpmlPcrSelection), ("TpmsQuoteInfo", TpmsQuoteInfo),
  ("TpmsCreationInfo", TpmsCreationInfo), ("TpmsCertifyInfo", TpmsCertifyInfo),
  ("TpmsCommandAuditInfo", TpmsCommandAuditInfo), ("TpmsSessionAuditInfo", TpmsSessionAuditInfo),
  ("TpmsTimeInfo", TpmsTimeInfo), ("TpmsTimeAttestInfo", TpmsTimeAttestInfo),
  ("TpmsNvCertifyInfo", TpmsNvCertifyInfo), ("TpmuAttest", TpmuAttest),
  ("TpmsAttest", TpmsAttest), ("Tpm2bAttest", Tpm2bAttest), ("TpmsDerive", TpmsDerive),
  ("TpmsSensitiveCreate", TpmsSensitiveCreate), ("Tpm2bSensitiveCreate", Tpm2bSensitiveCreate),
  ("TpmsEccPoint", TpmsEccPoint), ("Tpm2bEncryptedSecret", Tpm2bEncryptedSecret),
  ("TpmtKeyedHashScheme", TpmtKeyedHashScheme), ("TpmtSymDefObject", TpmtSymDefObject),
  ("TpmtSignature", TpmtSignature), ("TpmtSigScheme", TpmtSigScheme),
  ("TpmtRsaScheme", TpmtRsaScheme), ("TpmsRsaParms", TpmsRsaParms),
  ("TpmtEccScheme", TpmtEccScheme), ("TpmtKdfScheme", TpmtKdfScheme),
  ("TpmsEccParms", TpmsEccParms), ("TpmtAsymScheme", TpmtAsymScheme),
  ("PublicParmsAndId", PublicParmsAndId), ("TpmtPublic", TpmtPublic),
  ("Tpm2bPublic", Tpm2bPublic), ("TpmuSensitiveComposite", TpmuSensitiveComposite),
  ("TpmtSensitive", TpmtSensitive), ("Tpm2bPrivate", Tpm2bPrivate),
  ("TpmsIdObject", TpmsIdObject), ("Tpm2bIdObject", Tpm2bIdObject),
  ("TpmsNvPublic", TpmsNvPublic), ("TpmsContextData", TpmsContextData),
  ("Tpm2bContextData", Tpm2bContextData), ("TpmsCreationData", TpmsCreationData),
  ("Tpm2bCreationData", Tpm2bCreationData), ("TpmsCapabilityData", TpmsCapabilityData),
  ("TpmlAlgProperty", TpmlAlgProperty), ("TpmlHandle", TpmlHandle), ("TpmlCca", TpmlCca),
  ("TpmlCc", TpmlCc), ("TpmlTaggedTpmProperty", TpmlTaggedTpmProperty),
  ("TpmlTaggedPcrProperty", TpmlTaggedPcrProperty), ("TpmlEccCurve", TpmlEccCurve),
  ("TpmlTaggedPolicy", TpmlTaggedPolicy), ("TpmlDigest", TpmlDigest),
  ("TpmsAuthCommand", TpmsAuthCommand), ("TpmsAuthResponse", TpmsAuthResponse),
  ("GetCapabilityCmd", GetCapabilityCmd), ("GetCapabilityResp", GetCapabilityResp),
  ("PcrReadCmd", PcrReadCmd), ("PcrReadResp", PcrReadResp), ("GetRandomCmd", GetRandomCmd),
  ("GetRandomResp", GetRandomResp), ("StartupCmd", StartupCmd), ("CmdHeader", CmdHeader),
  ("RespHeader", RespHeader)]

end Verif.Base
