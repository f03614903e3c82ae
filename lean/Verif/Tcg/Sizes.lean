import Verif.Codec.Sizes
import Verif.Tcg.Responses

/-
C78: the shortest and the longest encodings of the declared types, and that
commands and responses of the standard fit the buffers of the client.
-/

namespace Verif.Tcg
open Verif Verif.Client

/-- Bytes of the shortest and of the longest encoding, by the names of the
declarations (base/src/constants.rs:37-461, base/src/lib.rs:36-1500,
base/src/commands/, crates/tpm2-client/src/lib.rs:26-50). -/
def sizes : List (String × Nat × Nat) := [
  ("TpmAlgId", 2, 2), ("TpmEccCurve", 2, 2), ("TpmCc", 4, 4), ("TpmSt", 2, 2), ("TpmSu", 2, 2),
  ("TpmCap", 4, 4), ("TpmPt", 4, 4), ("TpmPtPcr", 4, 4), ("TpmHandle", 4, 4), ("TpmHc", 4, 4),
  ("TpmGenerated", 4, 4), ("TpmaLocality", 1, 1), ("TpmaNv", 4, 4), ("TpmiAlgHash", 2, 2),
  ("TpmiAlgKdf", 2, 2), ("TpmiAlgPublic", 2, 2), ("TpmiAlgSymMode", 2, 2),
  ("TpmiAlgSymObject", 2, 2), ("TpmiAlgKeyedhashScheme", 2, 2), ("TpmiAlgRsaScheme", 2, 2),
  ("TpmiAlgSigScheme", 2, 2), ("TpmiAlgEccScheme", 2, 2), ("TpmiAlgAsymScheme", 2, 2),
  ("TpmiRhNvIndex", 4, 4), ("TpmiShAuthSession", 4, 4), ("TpmiEccCurve", 2, 2),
  ("TpmiYesNo", 1, 1), ("TpmiStAttest", 2, 2), ("TpmiAesKeyBits", 2, 2), ("TpmiSm4KeyBits", 2, 2),
  ("TpmiCamelliaKeyBits", 2, 2), ("TpmiRsaKeyBits", 2, 2), ("TpmaObject", 4, 4),
  ("TpmaAlgorithm", 4, 4), ("TpmaSession", 1, 1), ("TpmaCc", 4, 4), ("TpmiStCommandTag", 2, 2),
  ("TpmsAlgProperty", 6, 6), ("TpmsTaggedProperty", 8, 8), ("TpmsTaggedPcrSelect", 5, 9),
  ("TpmtHa", 22, 66), ("TpmsTaggedPolicy", 26, 70), ("TpmsEmpty", 0, 0), ("Tpm2bDigest", 2, 66),
  ("Tpm2bNonce", 2, 66), ("Tpm2bOperand", 2, 66), ("Tpm2bData", 2, 66), ("Tpm2bEvent", 2, 1026),
  ("Tpm2bMaxBuffer", 2, 1026), ("Tpm2bMaxNvBuffer", 2, 2050), ("Tpm2bIv", 2, 18),
  ("Tpm2bName", 2, 68), ("TpmsClockInfo", 17, 17), ("TpmsPcrSelection", 3, 7),
  ("TpmlPcrSelection", 4, 116), ("TpmsQuoteInfo", 6, 182), ("TpmsCreationInfo", 4, 134),
  ("TpmsCertifyInfo", 4, 136), ("TpmsCommandAuditInfo", 14, 142), ("TpmsSessionAuditInfo", 3, 67),
  ("TpmsTimeInfo", 25, 25), ("TpmsTimeAttestInfo", 33, 33), ("TpmsNvCertifyInfo", 6, 2120),
  ("TpmuAttest", 5, 2122), ("TpmsAttest", 38, 2285), ("Tpm2bAttest", 2, 2306),
  ("Tpm2bSymKey", 2, 34), ("Tpm2bLabel", 2, 34), ("TpmsDerive", 4, 68),
  ("Tpm2bSensitiveData", 2, 258), ("Tpm2bAuth", 2, 66), ("TpmsSensitiveCreate", 4, 324),
  ("Tpm2bSensitiveCreate", 2, 326), ("Tpm2bPublicKeyRsa", 2, 514), ("Tpm2bPrivateKeyRsa", 2, 258),
  ("Tpm2bEccParameter", 2, 130), ("TpmsEccPoint", 4, 260), ("Tpm2bEncryptedSecret", 2, 514),
  ("TpmsSchemeXor", 4, 4), ("TpmsSchemeHash", 2, 2), ("TpmsSchemeHmac", 2, 2),
  ("TpmtKeyedHashScheme", 2, 6), ("TpmsKeyedHashParms", 2, 6), ("TpmtSymDefObject", 2, 6),
  ("TpmsSymCipherParms", 2, 6), ("TpmsSignatureRsa", 4, 516), ("TpmsSignatureEcc", 6, 262),
  ("TpmsSignatureRsassa", 4, 516), ("TpmsSignatureRsapss", 4, 516), ("TpmsSignatureEcdsa", 6, 262),
  ("TpmsSignatureEcdaa", 6, 262), ("TpmsSignatureSm2", 6, 262), ("TpmsSignatureEcschnorr", 6, 262),
  ("TpmtSignature", 2, 518), ("TpmsSigSchemeRsassa", 2, 2), ("TpmsSigSchemeRsapss", 2, 2),
  ("TpmsSigSchemeEcdsa", 2, 2), ("TpmsSigSchemeSm2", 2, 2), ("TpmsSigSchemeEcschnorr", 2, 2),
  ("TpmsSchemeEcdaa", 4, 4), ("TpmsSigSchemeEcdaa", 4, 4), ("TpmtSigScheme", 2, 6),
  ("TpmsKeySchemeEcdh", 2, 2), ("TpmsKeySchemeEcmqv", 2, 2), ("TpmsEncSchemeOaep", 2, 2),
  ("TpmsEncSchemeRsaes", 0, 0), ("TpmtRsaScheme", 2, 6), ("TpmsRsaParms", 10, 18),
  ("TpmtEccScheme", 2, 6), ("TpmsSchemeMgf1", 2, 2), ("TpmsSchemeKdf1Sp800_56a", 2, 2),
  ("TpmsSchemeKdf2", 2, 2), ("TpmsSchemeKdf1Sp800_108", 2, 2), ("TpmtKdfScheme", 2, 4),
  ("TpmsEccParms", 8, 18), ("TpmtAsymScheme", 2, 6), ("TpmsAsymParms", 4, 12),
  ("PublicParmsAndId", 6, 534), ("TpmtPublic", 14, 606), ("Tpm2bPublic", 2, 618),
  ("Tpm2bTemplate", 2, 618), ("Tpm2bPrivateVendorSpecific", 2, 1282),
  ("TpmuSensitiveComposite", 4, 1284), ("TpmtSensitive", 8, 1416), ("TpmlAlgProperty", 4, 766),
  ("TpmlHandle", 4, 1020), ("TpmlCca", 4, 1020), ("TpmlCc", 4, 1020),
  ("TpmlTaggedTpmProperty", 4, 1020), ("TpmlTaggedPcrProperty", 4, 760), ("TpmlEccCurve", 4, 1020),
  ("TpmlTaggedPolicy", 4, 984), ("TpmsCapabilityData", 8, 1024), ("TpmlDigest", 4, 532),
  ("TpmsAuthCommand", 9, 137), ("TpmsAuthResponse", 5, 133), ("Tpm2bPrivate", 2, 1552),
  ("TpmsIdObject", 4, 132), ("Tpm2bIdObject", 2, 134), ("TpmsNvPublic", 14, 78),
  ("Tpm2bContextSensitive", 2, 5122), ("TpmsContextData", 4, 5188), ("Tpm2bContextData", 2, 5190),
  ("TpmsCreationData", 15, 387), ("Tpm2bCreationData", 2, 406), ("GetCapabilityCmd", 12, 12),
  ("GetCapabilityResp", 9, 1025), ("PcrReadCmd", 4, 116), ("PcrReadResp", 12, 652),
  ("GetRandomCmd", 2, 2), ("GetRandomResp", 2, 66), ("StartupCmd", 2, 2), ("CmdHeader", 10, 10),
  ("RespHeader", 10, 10)]

/-- The check of a row of the table. -/
def checkSize : String × Nat × Nat → Bool := fun (n, lo, hi) =>
  Derive.baseTable.any fun (m, t) => n == m &&
    t.shortest == lo && t.longest == hi &&
    wfCheck t t.large && tyCheck t t.large && (wire t t.large).length == hi &&
    wfCheck t t.small && tyCheck t t.small && (wire t t.small).length == lo

theorem all_parts {α : Type} (f : α → Bool) (n : Nat) (l : List α) (h1 : (l.take n).all f = true)
    (h2 : (l.drop n).all f = true) : l.all f = true := by
  rw [← List.take_append_drop n l, List.all_append, h1, h2]
  rfl

set_option maxRecDepth 100000 in
theorem checkSizes_true :
    (sizes.all checkSize &&
      Derive.baseTable.all (fun (m, _) => sizes.any fun (n, _) => n == m)) = true := by
  have h : sizes.all checkSize = true := by
    refine all_parts _ 40 _ (by decide +kernel) (all_parts _ 40 _ (by decide +kernel)
      (all_parts _ 40 _ (by decide +kernel) (by decide +kernel)))
  rw [h]
  decide +kernel

/-- **C78.** Every declared type is in the table.  Marshalling reports at least
the smaller and at most the larger number there, and both occur; a buffer with
the larger number of bytes is enough for every value, and for some value no
smaller one is; unmarshalling consumes a number of bytes in between. -/
theorem C78_sizes :
    (∀ n t, (n, t) ∈ Derive.baseTable → ∃ lo hi, (n, lo, hi) ∈ sizes) ∧
    ∀ n lo hi, (n, lo, hi) ∈ sizes → ∃ t, (n, t) ∈ Derive.baseTable ∧
      (∀ v buf k, HasTy t v → (marshal t v buf).1 = .ok k → lo ≤ k ∧ k ≤ hi) ∧
      (∀ v buf, WF t v → hi ≤ buf.length → ∃ k, (marshal t v buf).1 = .ok k) ∧
      (∃ v, HasTy t v ∧ ∀ buf, ((marshal t v buf).1 = .ok hi ↔ hi ≤ buf.length)) ∧
      (∃ v, HasTy t v ∧ ∀ buf, ((marshal t v buf).1 = .ok lo ↔ lo ≤ buf.length)) ∧
      (∀ b v r, unmarshal t b = (.ok v, r) → lo + r.length ≤ b.length ∧ b.length ≤ hi + r.length) := by
  have h := checkSizes_true
  simp only [Bool.and_eq_true, List.all_eq_true] at h
  constructor
  · intro n t hn
    have := h.2 _ hn
    simp only [List.any_eq_true, beq_iff_eq] at this
    obtain ⟨⟨m, lo, hi⟩, hm, rfl⟩ := this
    exact ⟨lo, hi, hm⟩
  · intro n lo hi hn
    have := h.1 _ hn
    simp only [checkSize, List.any_eq_true, Bool.and_eq_true, beq_iff_eq, wfCheck_iff, tyCheck_iff] at this
    obtain ⟨⟨m, t⟩, hm, ⟨⟨⟨⟨⟨⟨⟨⟨rfl, rfl⟩, rfl⟩, w1⟩, t1⟩, l1⟩, w2⟩, t2⟩, l2⟩⟩ := this
    simp only at w1 t1 l1 w2 t2 l2
    have key : ∀ v k, WF t v → HasTy t v → (wire t v).length = k →
        ∀ buf, ((marshal t v buf).1 = .ok k ↔ k ≤ buf.length) := by
      intro v k hw hty hl buf
      constructor
      · intro hk
        have := (C06_marshal_writes_only_reported t v buf hty).2 k hk
        have h6 := (C06_marshal_writes_only_reported t v buf hty).1
        rw [this.2, List.length_append] at h6
        omega
      · intro hb
        have := (writesTy t v hw).fit buf (by omega)
        rw [this, hl]
    refine ⟨t, hm, fun v buf k hv hk => ?_, fun v buf hv hb => ?_, ⟨_, t1, key _ _ w1 t1 l1⟩,
      ⟨_, t2, key _ _ w2 t2 l2⟩, fun b v r hu => ?_⟩
    · have hw := marshal_ok_wf t v buf k hv hk
      obtain ⟨rfl, -⟩ := (C06_marshal_writes_only_reported t v buf hv).2 k hk
      exact ⟨wire_shortest t v hw, wire_longest t v hw⟩
    · have := (writesTy t v hv).fit buf (Nat.le_trans (wire_longest t v hv) hb)
      exact ⟨_, by rw [this]⟩
    · obtain ⟨hw, -, rfl⟩ := (goodTy t).sound _ _ _ hu
      have h1 := wire_shortest t v hw
      have h2 := wire_longest t v hw
      rw [List.length_append]
      simp only
      omega

theorem Agrees.length_le {t : Ty} {s : Shape} (h : Agrees t s) {b : Bytes} (hb : Valid s b) :
    b.length ≤ t.longest := by
  obtain ⟨v, hv, -, rfl⟩ := (h.wire b).mp hb
  exact wire_longest t v hv

theorem flatten_le (auths : List Bytes) (m : Nat) (h : ∀ a ∈ auths, a.length ≤ m)
    (hn : auths.length ≤ 3) : auths.flatten.length ≤ 3 * m :=
  Nat.le_trans (flatten_length_le auths h) (Nat.mul_le_mul_right m hn)

/-- **C78**: capability data of the standard fits `TPM2_MAX_CAP_BUFFER` (1024
bytes), and some fills it. -/
theorem C78_capability (b : Bytes) (h : Valid (TPMS_CAPABILITY_DATA standard) b) :
    b.length ≤ 1024 :=
  (agrees_of_conf (t := capabilityStd) (by decide +kernel)).length_le h

/-- **C78**: every command of the standard with at most three authorizations
fits the command buffer of the client. -/
theorem C78_commands (n : String) (p : Part3) (h : (n, p) ∈ part3 standard) (params : Bytes)
    (auths : List Bytes) (b : Bytes) (hb : IsCommand p.code p.params params auths b)
    (hn : auths.length ≤ 3) : b.length ≤ 4096 := by
  obtain ⟨i, q, hi, hm, h1, h2, -⟩ := meets_standard n p h
  have hp : params.length ≤ 116 := by
    refine Nat.le_trans (hm.params.length_le (h2 ▸ hb.1)) ?_
    have : impls.all (fun x => decide (x.2.paramTy.longest ≤ 116)) = true := by decide +kernel
    exact of_decide_eq_true (List.all_eq_true.mp this _ hi)
  have ha := flatten_le auths 137 (fun a ha => agrees_auth.length_le (hb.2.1 a ha)) hn
  have hl := congrArg List.length hb.2.2
  simp only [List.length_append, digits256_length] at hl
  have : ((if auths = [] then [] else digits256 4 auths.flatten.length ++ auths.flatten : Bytes)).length
      ≤ 4 + auths.flatten.length := by
    split
    · simp
    · simp
  omega

/-- **C78**: every successful response of the standard with at most three
authorizations fits the response buffer of the client. -/
theorem C78_responses (n : String) (p : Part3) (h : (n, p) ∈ part3 standard) (params : Bytes)
    (auths : List Bytes) (b : Bytes) (hb : IsResponse p.response params auths b)
    (hn : auths.length ≤ 3) : b.length ≤ 4096 := by
  have hp : params.length ≤ 1025 := by
    simp only [part3, List.mem_cons, List.not_mem_nil, or_false, Prod.mk.injEq] at h
    obtain ⟨-, rfl⟩ | ⟨-, rfl⟩ | ⟨-, rfl⟩ | ⟨-, rfl⟩ := h
    · exact Nat.le_trans (agrees_unit.length_le hb.1) (by decide)
    · exact Nat.le_trans (agrees_random.length_le hb.1) (by decide)
    · exact Nat.le_trans ((agrees_of_conf (t := Base.PcrReadResp) (by decide +kernel)).length_le hb.1)
        (by decide)
    · exact Nat.le_trans ((agrees_of_conf (t := Base.S [Base.TpmiYesNo, capabilityStd])
        (by decide +kernel)).length_le hb.1) (by decide)
  have ha := flatten_le auths 133 (fun a ha => agrees_authResponse.length_le (hb.2.1 a ha)) hn
  have hl := congrArg List.length hb.2.2
  simp only [List.length_append, digits256_length] at hl
  have : (if auths = [] then [] else digits256 4 params.length : Bytes).length ≤ 4 := by
    split <;> simp
  omega

/-- **C74_every** without the assumption on the length: every command of the
standard with at most three authorizations can be sent. -/
theorem C78_every (n : String) (p : Part3) (h : (n, p) ∈ part3 standard) (params : Bytes)
    (auths : List Bytes) (b : Bytes) (hb : IsCommand p.code p.params params auths b)
    (hn : auths.length ≤ 3) :
    ∃ i v a, (n, i) ∈ impls ∧ HasTy i.paramTy v ∧
      (∀ x ∈ a.active, HasTy Base.TpmsAuthCommand x.authCommand) ∧
      ∀ (σ ε : Type) (tr : Transport σ ε) (s : σ),
        (runCommandWithHandles (recording tr) (i.with v) a (s, [])).state.2 =
          [(b, List.replicate 4096 0)] :=
  C74_every n p h params auths b hb (C78_commands n p h params auths b hb hn) hn

/-! ### Non-vacuity -/

example := C78_every "GetRandom" _ (List.mem_of_getElem? (i := 1) rfl) _ _ exCommand exCommand_is
  (by decide)
example := C78_responses "GetRandom" _ (List.mem_of_getElem? (i := 1) rfl) _ _ exAnswer exAnswer_is
  (by decide)

/-- 254 handles are as long as capability data may be. -/
theorem exHandles : Valid (TPMS_CAPABILITY_DATA standard)
    ([0, 0, 0, 1] ++ [0, 0, 0, 254] ++ List.replicate 1016 0x81) ∧
    ([0, 0, 0, 1] ++ [0, 0, 0, 254] ++ List.replicate 1016 0x81 : Bytes).length = 1024 := by
  refine ⟨?_, by decide +kernel⟩
  rw [← agrees_of_conf (t := capabilityStd) (by decide +kernel), ← accepts_eq]
  decide +kernel

end Verif.Tcg
