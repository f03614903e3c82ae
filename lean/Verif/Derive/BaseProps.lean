import Verif.Derive.ProgramLemmas
import Verif.Derive.Decls
import Verif.Base.Types

/-! C67: the layouts of the base crate. -/

namespace Verif.Derive
open Verif

/-! ### Comparing layouts by evaluation -/

mutual
/-- Equality of types. -/
def sameTy : Ty → Ty → Bool
  | .prim n, .prim m => n == m
  | .unit, .unit => true
  | .bytes n, .bytes m => n == m
  | .tpm2b n, .tpm2b m => n == m
  | .struct f, .struct g => sameFields f g
  | .enum w v, .enum x u => w == x && sameVariants v u
  | .split p w m v, .split q x n u => sameFields p q && w == x && sameFields m n && sameVariants v u
  | _, _ => false
/-- Equality of field lists. -/
def sameFields : Fields → Fields → Bool
  | .nil, .nil => true
  | .plain t r, .plain u s => sameTy t u && sameFields r s
  | .fixedArr t n r, .fixedArr u m s => sameTy t u && n == m && sameFields r s
  | .lenArr k t n r, .lenArr l u m s => k == l && sameTy t u && n == m && sameFields r s
  | _, _ => false
/-- Equality of variants. -/
def sameVariants : Variants → Variants → Bool
  | .nil, .nil => true
  | .cons a f r, .cons b g s => a == b && sameFields f g && sameVariants r s
  | _, _ => false
end

mutual
theorem sameTy_eq : ∀ {t u : Ty}, sameTy t u = true → t = u := by
  intro t u h
  cases t <;> cases u <;> simp only [sameTy, Bool.and_eq_true, beq_iff_eq, Bool.false_eq_true] at h
  · rw [h]
  · rfl
  · rw [h]
  · rw [h]
  · rw [sameFields_eq h]
  · rw [h.1, sameVariants_eq h.2]
  · obtain ⟨⟨⟨h1, h2⟩, h3⟩, h4⟩ := h
    rw [sameFields_eq h1, h2, sameFields_eq h3, sameVariants_eq h4]
theorem sameFields_eq : ∀ {f g : Fields}, sameFields f g = true → f = g := by
  intro f g h
  cases f <;> cases g <;>
    simp only [sameFields, Bool.and_eq_true, beq_iff_eq, Bool.false_eq_true] at h
  · rfl
  · rw [sameTy_eq h.1, sameFields_eq h.2]
  · obtain ⟨⟨h1, h2⟩, h3⟩ := h
    rw [sameTy_eq h1, h2, sameFields_eq h3]
  · obtain ⟨⟨⟨h1, h2⟩, h3⟩, h4⟩ := h
    rw [h1, sameTy_eq h2, h3, sameFields_eq h4]
theorem sameVariants_eq : ∀ {v u : Variants}, sameVariants v u = true → v = u := by
  intro v u h
  cases v <;> cases u <;>
    simp only [sameVariants, Bool.and_eq_true, beq_iff_eq, Bool.false_eq_true] at h
  · rfl
  · obtain ⟨⟨h1, h2⟩, h3⟩ := h
    rw [h1, sameFields_eq h2, sameVariants_eq h3]
end

/-- Equality of tables. -/
def sameTable : List (Ident × Ty) → List (Ident × Ty) → Bool
  | [], [] => true
  | (i, t) :: l, (j, u) :: m => i == j && sameTy t u && sameTable l m
  | _, _ => false

theorem sameTable_eq : ∀ {l m : List (Ident × Ty)}, sameTable l m = true → l = m
  | [], [], _ => rfl
  | (i, t) :: l, (j, u) :: m, h => by
    simp only [sameTable, Bool.and_eq_true, beq_iff_eq] at h
    obtain ⟨⟨h1, h2⟩, h3⟩ := h
    rw [h1, sameTy_eq h2, sameTable_eq h3]
  | [], _ :: _, h => by simp [sameTable] at h
  | _ :: _, [], h => by simp [sameTable] at h

/-! ### C67 -/

/-- The marshalable types of the base crate and the client by name, in the order
of `Decls.all`, aliases included. -/
def baseTable : List (Ident × Ty) := [
  ("TpmAlgId", Base.TpmAlgId), ("TpmEccCurve", Base.TpmEccCurve), ("TpmCc", Base.TpmCc),
  ("TpmSt", Base.TpmSt), ("TpmSu", Base.TpmSu), ("TpmCap", Base.TpmCap), ("TpmPt", Base.TpmPt),
  ("TpmPtPcr", Base.TpmPtPcr), ("TpmHandle", Base.TpmHandle), ("TpmHc", Base.TpmHc),
  ("TpmGenerated", Base.TpmGenerated), ("TpmaLocality", Base.TpmaLocality),
  ("TpmaNv", Base.TpmaNv), ("TpmiAlgHash", Base.TpmiAlgHash), ("TpmiAlgKdf", Base.TpmiAlgKdf),
  ("TpmiAlgPublic", Base.TpmiAlgPublic), ("TpmiAlgSymMode", Base.TpmiAlgSymMode),
  ("TpmiAlgSymObject", Base.TpmiAlgSymObject),
  ("TpmiAlgKeyedhashScheme", Base.TpmiAlgKeyedhashScheme),
  ("TpmiAlgRsaScheme", Base.TpmiAlgRsaScheme), ("TpmiAlgSigScheme", Base.TpmiAlgSigScheme),
  ("TpmiAlgEccScheme", Base.TpmiAlgEccScheme), ("TpmiAlgAsymScheme", Base.TpmiAlgAsymScheme),
  ("TpmiRhNvIndex", Base.TpmiRhNvIndex), ("TpmiShAuthSession", Base.TpmiShAuthSession),
  ("TpmiEccCurve", Base.TpmiEccCurve), ("TpmiYesNo", Base.TpmiYesNo),
  ("TpmiStAttest", Base.TpmiStAttest), ("TpmiAesKeyBits", Base.TpmiAesKeyBits),
  ("TpmiSm4KeyBits", Base.TpmiSm4KeyBits), ("TpmiCamelliaKeyBits", Base.TpmiCamelliaKeyBits),
  ("TpmiRsaKeyBits", Base.TpmiRsaKeyBits), ("TpmaObject", Base.TpmaObject),
  ("TpmaAlgorithm", Base.TpmaAlgorithm), ("TpmaSession", Base.TpmaSession),
  ("TpmaCc", Base.TpmaCc), ("TpmiStCommandTag", Base.TpmiStCommandTag),
  ("TpmsAlgProperty", Base.TpmsAlgProperty), ("TpmsTaggedProperty", Base.TpmsTaggedProperty),
  ("TpmsTaggedPcrSelect", Base.TpmsTaggedPcrSelect), ("TpmtHa", Base.TpmtHa),
  ("TpmsTaggedPolicy", Base.TpmsTaggedPolicy), ("TpmsEmpty", Base.TpmsEmpty),
  ("Tpm2bDigest", Base.Tpm2bDigest), ("Tpm2bNonce", Base.Tpm2bDigest),
  ("Tpm2bOperand", Base.Tpm2bDigest), ("Tpm2bData", Base.Tpm2bData),
  ("Tpm2bEvent", Base.Tpm2bEvent), ("Tpm2bMaxBuffer", Base.Tpm2bMaxBuffer),
  ("Tpm2bMaxNvBuffer", Base.Tpm2bMaxNvBuffer), ("Tpm2bIv", Base.Tpm2bIv),
  ("Tpm2bName", Base.Tpm2bName), ("TpmsClockInfo", Base.TpmsClockInfo),
  ("TpmsPcrSelection", Base.TpmsPcrSelection), ("TpmlPcrSelection", Base.TpmlPcrSelection),
  ("TpmsQuoteInfo", Base.TpmsQuoteInfo), ("TpmsCreationInfo", Base.TpmsCreationInfo),
  ("TpmsCertifyInfo", Base.TpmsCertifyInfo), ("TpmsCommandAuditInfo", Base.TpmsCommandAuditInfo),
  ("TpmsSessionAuditInfo", Base.TpmsSessionAuditInfo), ("TpmsTimeInfo", Base.TpmsTimeInfo),
  ("TpmsTimeAttestInfo", Base.TpmsTimeAttestInfo), ("TpmsNvCertifyInfo", Base.TpmsNvCertifyInfo),
  ("TpmuAttest", Base.TpmuAttest), ("TpmsAttest", Base.TpmsAttest),
  ("Tpm2bAttest", Base.Tpm2bAttest), ("Tpm2bSymKey", Base.Tpm2bSymKey),
  ("Tpm2bLabel", Base.Tpm2bLabel), ("TpmsDerive", Base.TpmsDerive),
  ("Tpm2bSensitiveData", Base.Tpm2bSensitiveData), ("Tpm2bAuth", Base.Tpm2bDigest),
  ("TpmsSensitiveCreate", Base.TpmsSensitiveCreate),
  ("Tpm2bSensitiveCreate", Base.Tpm2bSensitiveCreate),
  ("Tpm2bPublicKeyRsa", Base.Tpm2bPublicKeyRsa), ("Tpm2bPrivateKeyRsa", Base.Tpm2bPrivateKeyRsa),
  ("Tpm2bEccParameter", Base.Tpm2bEccParameter), ("TpmsEccPoint", Base.TpmsEccPoint),
  ("Tpm2bEncryptedSecret", Base.Tpm2bEncryptedSecret), ("TpmsSchemeXor", Base.TpmsSchemeXor),
  ("TpmsSchemeHash", Base.TpmsSchemeHash), ("TpmsSchemeHmac", Base.TpmsSchemeHash),
  ("TpmtKeyedHashScheme", Base.TpmtKeyedHashScheme),
  ("TpmsKeyedHashParms", Base.TpmsKeyedHashParms), ("TpmtSymDefObject", Base.TpmtSymDefObject),
  ("TpmsSymCipherParms", Base.TpmsSymCipherParms), ("TpmsSignatureRsa", Base.TpmsSignatureRsa),
  ("TpmsSignatureEcc", Base.TpmsSignatureEcc), ("TpmsSignatureRsassa", Base.TpmsSignatureRsa),
  ("TpmsSignatureRsapss", Base.TpmsSignatureRsa), ("TpmsSignatureEcdsa", Base.TpmsSignatureEcc),
  ("TpmsSignatureEcdaa", Base.TpmsSignatureEcc), ("TpmsSignatureSm2", Base.TpmsSignatureEcc),
  ("TpmsSignatureEcschnorr", Base.TpmsSignatureEcc), ("TpmtSignature", Base.TpmtSignature),
  ("TpmsSigSchemeRsassa", Base.TpmsSchemeHash), ("TpmsSigSchemeRsapss", Base.TpmsSchemeHash),
  ("TpmsSigSchemeEcdsa", Base.TpmsSchemeHash), ("TpmsSigSchemeSm2", Base.TpmsSchemeHash),
  ("TpmsSigSchemeEcschnorr", Base.TpmsSchemeHash), ("TpmsSchemeEcdaa", Base.TpmsSchemeEcdaa),
  ("TpmsSigSchemeEcdaa", Base.TpmsSchemeEcdaa), ("TpmtSigScheme", Base.TpmtSigScheme),
  ("TpmsKeySchemeEcdh", Base.TpmsSchemeHash), ("TpmsKeySchemeEcmqv", Base.TpmsSchemeHash),
  ("TpmsEncSchemeOaep", Base.TpmsSchemeHash), ("TpmsEncSchemeRsaes", Base.TpmsEmpty),
  ("TpmtRsaScheme", Base.TpmtRsaScheme), ("TpmsRsaParms", Base.TpmsRsaParms),
  ("TpmtEccScheme", Base.TpmtEccScheme), ("TpmsSchemeMgf1", Base.TpmsSchemeHash),
  ("TpmsSchemeKdf1Sp800_56a", Base.TpmsSchemeHash), ("TpmsSchemeKdf2", Base.TpmsSchemeHash),
  ("TpmsSchemeKdf1Sp800_108", Base.TpmsSchemeHash), ("TpmtKdfScheme", Base.TpmtKdfScheme),
  ("TpmsEccParms", Base.TpmsEccParms), ("TpmtAsymScheme", Base.TpmtAsymScheme),
  ("TpmsAsymParms", Base.TpmsAsymParms), ("PublicParmsAndId", Base.PublicParmsAndId),
  ("TpmtPublic", Base.TpmtPublic), ("Tpm2bPublic", Base.Tpm2bPublic),
  ("Tpm2bTemplate", Base.Tpm2bTemplate),
  ("Tpm2bPrivateVendorSpecific", Base.Tpm2bPrivateVendorSpecific),
  ("TpmuSensitiveComposite", Base.TpmuSensitiveComposite), ("TpmtSensitive", Base.TpmtSensitive),
  ("TpmlAlgProperty", Base.TpmlAlgProperty), ("TpmlHandle", Base.TpmlHandle),
  ("TpmlCca", Base.TpmlCca), ("TpmlCc", Base.TpmlCc),
  ("TpmlTaggedTpmProperty", Base.TpmlTaggedTpmProperty),
  ("TpmlTaggedPcrProperty", Base.TpmlTaggedPcrProperty), ("TpmlEccCurve", Base.TpmlEccCurve),
  ("TpmlTaggedPolicy", Base.TpmlTaggedPolicy), ("TpmsCapabilityData", Base.TpmsCapabilityData),
  ("TpmlDigest", Base.TpmlDigest), ("TpmsAuthCommand", Base.TpmsAuthCommand),
  ("TpmsAuthResponse", Base.TpmsAuthResponse), ("Tpm2bPrivate", Base.Tpm2bPrivate),
  ("TpmsIdObject", Base.TpmsIdObject), ("Tpm2bIdObject", Base.Tpm2bIdObject),
  ("TpmsNvPublic", Base.TpmsNvPublic), ("Tpm2bContextSensitive", Base.Tpm2bContextSensitive),
  ("TpmsContextData", Base.TpmsContextData), ("Tpm2bContextData", Base.Tpm2bContextData),
  ("TpmsCreationData", Base.TpmsCreationData), ("Tpm2bCreationData", Base.Tpm2bCreationData),
  ("GetCapabilityCmd", Base.GetCapabilityCmd), ("GetCapabilityResp", Base.GetCapabilityResp),
  ("PcrReadCmd", Base.PcrReadCmd), ("PcrReadResp", Base.PcrReadResp),
  ("GetRandomCmd", Base.GetRandomCmd), ("GetRandomResp", Base.GetRandomResp),
  ("StartupCmd", Base.StartupCmd), ("CmdHeader", Base.CmdHeader), ("RespHeader", Base.RespHeader)]

/-- All declarations can be read, with the layouts of the table. -/
def baseCheck : Bool :=
  match Env.empty.addAll Decls.all with
  | some e => sameTable e.types.reverse baseTable
  | none => false

set_option maxRecDepth 100000 in
theorem baseCheck_true : baseCheck = true := by decide +kernel

/-- **C67.** Reading the declarations of the base crate gives the layouts of the
model. -/
theorem C67_table : ∃ e, Env.empty.addAll Decls.all = some e ∧ e.types.reverse = baseTable := by
  have h := baseCheck_true
  unfold baseCheck at h
  split at h
  · rename_i e he
    exact ⟨e, he, sameTable_eq h⟩
  · cases h

/-- The inputs of the derive macro among declarations. -/
def derived : List Decl → List (Nat × Input)
  | [] => []
  | .derive w input :: ds => (w, input) :: derived ds
  | _ :: ds => derived ds

theorem mem_derived {w : Nat} {input : Input} : ∀ {ds : List Decl},
    (w, input) ∈ derived ds ↔ Decl.derive w input ∈ ds := by
  intro ds
  induction ds with
  | nil => simp [derived]
  | cons d ds ih => cases d <;> simp [derived, ih]

set_option maxRecDepth 100000 in
theorem derived_ok : (derived Decls.all).all (fun x => x.2.ok) = true := by decide +kernel

/-- There are 127 uses of `#[derive(Marshalable)]`. -/
example : (derived Decls.all).length = 127 := by decide +kernel

theorem lookup_mem {α β : Type} [BEq α] [LawfulBEq α] : ∀ {l : List (α × β)} {a : α} {b : β},
    l.lookup a = some b → (a, b) ∈ l := by
  intro l
  induction l with
  | nil => intro a b h; cases h
  | cons x l ih =>
    intro a b h
    obtain ⟨k, v⟩ := x
    rw [List.lookup_cons] at h
    split at h
    · rename_i hk
      have : a = k := by simpa using hk
      subst this
      cases h
      simp
    · exact List.mem_cons_of_mem _ (ih h)

/-- **C67.** Every `#[derive(Marshalable)]` of the base crate and of the client
is accepted by the macro, the generated code compiles, and it implements the
layout of the table. -/
theorem C67_derived (e : Env) (he : Env.empty.addAll Decls.all = some e) (w : Nat) (input : Input)
    (h : Decl.derive w input ∈ Decls.all) :
    ∃ t items c, (input.ident, t) ∈ baseTable ∧ e.ctx.ty (.path (.ident input.ident)) = some t ∧
      deriveMarshalable input = .ok items ∧ implOf e.ctx w input items = some c ∧
      c.Implements t := by
  obtain ⟨t, ht, hi, hr⟩ := addAll_derive he w input h
  have hok := List.all_eq_true.mp derived_ok (w, input) (mem_derived.mpr h)
  obtain ⟨items, c, h1, h2, h3⟩ := readInput_derive hr hok
  refine ⟨t, items, c, ?_, ?_, h1, h2, h3⟩
  · obtain ⟨e', he', htab⟩ := C67_table
    rw [he] at he'
    cases he'
    rw [← htab]
    exact List.mem_reverse.mpr (lookup_mem ht)
  · simp [Env.ctx, Env.ty, getIdent_iff.mpr rfl, hi, ht]

/-- Non-vacuity: the key derivation schemes (base/src/lib.rs:1111-1119), which
the table lays out as a two-byte selector and, unless it is `Null`, the
identifier of a hash algorithm. -/
example : ∃ w input, Decl.derive w input ∈ Decls.all ∧ input.ident = "TpmtKdfScheme" ∧ w = 2 ∧
    ("TpmtKdfScheme", Base.E 2 [(0x07, [.struct (.plain (.struct (.plain (.prim 2) .nil)) .nil)]),
      (0x20, [.struct (.plain (.struct (.plain (.prim 2) .nil)) .nil)]),
      (0x21, [.struct (.plain (.struct (.plain (.prim 2) .nil)) .nil)]),
      (0x22, [.struct (.plain (.struct (.plain (.prim 2) .nil)) .nil)]),
      (0x10, [.struct .nil])]) ∈ baseTable :=
  ⟨_, _, List.mem_of_getElem? (i := 174) rfl, rfl, rfl, List.mem_of_getElem? (i := 113) rfl⟩

/-- **C67.** An array that is itself a marshalable type is an array of bytes
(marshalable/src/lib.rs:131-150): there is no implementation for arrays of
other elements. -/
theorem C67_array {e : Env} {elem : TypeE} {n : Expr} {t : Ty}
    (h : e.ctx.ty (.array elem n) = some t) :
    elem = .path (.ident "u8") ∧ ∃ k, e.ctx.size n = some k ∧ t = .bytes k := by
  cases elem with
  | path p =>
    simp only [Env.ctx, Env.ty] at h
    split at h
    · rename_i hp
      obtain ⟨k, hk, rfl⟩ := Option.map_eq_some_iff.mp h
      refine ⟨?_, k, hk, rfl⟩
      rw [Path.isIdent, beq_iff_eq] at hp
      exact congrArg _ (getIdent_iff.mp hp)
    · cases h
  | array _ _ => cases h
  | other => cases h

/-- Non-vacuity: four bytes are a marshalable type, four `u16` are not. -/
example : Env.empty.ctx.ty (.array (Decls.ty "u8") (.lit 4)) = some (.bytes 4) ∧
    Env.empty.ctx.ty (.array (Decls.ty "u16") (.lit 4)) = none := ⟨rfl, rfl⟩

/-- A structure of a size and a buffer of the size of a type. -/
def structInput (name field inner : Ident) : Input :=
  ⟨name, [Decls.sized], .struct (.named [⟨"size", Decls.ty "u16", []⟩,
    ⟨field, .array (Decls.ty "u8") (Decls.sizeOf inner), []⟩])⟩

/-- **C67.** For the declarations that also derive `Tpm2bStruct`
(base/src/lib.rs:877, 1207, 1497), the macro finds the contents, and the
capacity is their size in memory. -/
theorem C67_structs : ∀ x ∈ [("Tpm2bSensitiveCreate", "TpmsSensitiveCreate", "sensitive"),
      ("Tpm2bPublic", "TpmtPublic", "public_area"),
      ("Tpm2bCreationData", "TpmsCreationData", "creation_data")],
    ∃ input t, Decl.derive 0 input ∈ Decls.all ∧ input.ident = x.1 ∧
      deriveTpm2bStruct input = .ok [.tpm2bStruct x.1 (.ident x.2.1) x.2.2] ∧
      (x.2.1, t) ∈ baseTable ∧ (x.1, .tpm2b (sizeOfTy al64 t)) ∈ baseTable := by
  intro x hx
  simp only [List.mem_cons, List.not_mem_nil, or_false] at hx
  rcases hx with rfl | rfl | rfl
  · exact ⟨structInput "Tpm2bSensitiveCreate" "sensitive" "TpmsSensitiveCreate",
      Base.TpmsSensitiveCreate,
      List.mem_of_getElem? (i := 132) rfl, rfl, rfl,
      List.mem_of_getElem? (i := 71) rfl, List.mem_of_getElem? (i := 72) rfl⟩
  · exact ⟨structInput "Tpm2bPublic" "public_area" "TpmtPublic", Base.TpmtPublic,
      List.mem_of_getElem? (i := 180) rfl, rfl, rfl,
      List.mem_of_getElem? (i := 118) rfl, List.mem_of_getElem? (i := 119) rfl⟩
  · exact ⟨structInput "Tpm2bCreationData" "creation_data" "TpmsCreationData",
      Base.TpmsCreationData,
      List.mem_of_getElem? (i := 207) rfl, rfl, rfl,
      List.mem_of_getElem? (i := 143) rfl, List.mem_of_getElem? (i := 144) rfl⟩

end Verif.Derive
