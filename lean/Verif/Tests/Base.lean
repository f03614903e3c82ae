import Verif.Codec.Props
import Verif.Base.Attr
import Verif.Base.Handle
import Verif.Base.TpmlProps
import Verif.Tests.Marshalable

/-! The unit tests of base/src/tests.rs, as in `Tests/Marshalable`. -/

namespace Verif.Tests
open Verif Verif.Base

/-! ### Sized buffers -/

/-- An array of `n` bytes 0xFF with `n - 2` marshalled to its beginning. -/
def framed (n : Nat) : Bytes := (marshal (.prim 2) (.int (n - 2)) (List.replicate n 0xFF)).2

/-- The macro `impl_test_tpm2b_simple`: base/src/tests.rs:12-84; `n` is `SIZE_OF_TYPE`. -/
def Simple (t : Ty) : Prop :=
  ∃ n, n = sizeOfTy al64 t ∧
  (∃ e, (unmarshal t [0]).1 = .err e) ∧
  (∃ e, (unmarshal t (framed (n + 8))).1 = .err e) ∧
  (∃ field, (unmarshal t (framed (n - 8))).1 = .ok (.tpm2b (n - 8 - 2) field) ∧
    tpm2bGetBuffer (.tpm2b (n - 8 - 2) field) = .ok ((framed (n - 8)).drop 2)) ∧
  ∃ field, (unmarshal t (framed n)).1 = .ok (.tpm2b (n - 2) field) ∧
    tpm2bGetBuffer (.tpm2b (n - 2) field) = .ok ((framed n).drop 2) ∧
    (∃ e, (marshal t (.tpm2b (n - 2) field) [0]).1 = .err e) ∧
    (marshal t (.tpm2b (n - 2) field) (framed n)).1 = .ok (n - 2 + 2) ∧
    (unmarshal t (marshal t (.tpm2b (n - 2) field) (framed n)).2).1 = .ok (.tpm2b (n - 2) field) ∧
    (marshal t (.tpm2b (n - 2) field) (framed (n + 8))).1 = .ok (n - 2 + 2) ∧
    (unmarshal t ((marshal t (.tpm2b (n - 2) field) (framed (n + 8))).2.take n)).1 =
      .ok (.tpm2b (n - 2) field)

theorem framed_eq (n : Nat) (h : 2 ≤ n) (hn : n < 65538) :
    framed n = digits256 2 (n - 2) ++ List.replicate (n - 2) 0xFF := by
  have h1 : WF (.prim 2) (.int (n - 2)) := by simp only [WF]; omega
  have h2 := (writesTy (.prim 2) (.int (n - 2)) h1).fit (List.replicate n 0xFF)
    (by simp [wire, digits256_length, h])
  unfold framed
  rw [h2]
  simp [wire, digits256_length]

theorem simple (cap : Nat) (h : 8 ≤ cap) (hc : cap < 65528)
    (hs : sizeOfTy al64 (.tpm2b cap) = cap + 2) : Simple (.tpm2b cap) := by
  have hwf : WF (.tpm2b cap) (.tpm2b cap (List.replicate cap 0xFF)) := by
    simp only [WF]
    exact ⟨by omega, by simp, by omega⟩
  have hw : wire (.tpm2b cap) (.tpm2b cap (List.replicate cap 0xFF)) =
      digits256 2 cap ++ List.replicate cap 0xFF := by simp [wire]
  have hcan : canon (.tpm2b cap) (.tpm2b cap (List.replicate cap 0xFF)) =
      .tpm2b cap (List.replicate cap 0xFF) := by simp [canon]
  have hcomp := fun x => (goodTy (.tpm2b cap)).complete (.tpm2b cap (List.replicate cap 0xFF)) x hwf
  have hfit := (writesTy _ _ hwf).fit
  rw [hw] at hfit hcomp
  rw [hcan] at hcomp
  have hlen : (digits256 2 cap ++ List.replicate cap (0xFF : UInt8)).length = cap + 2 := by
    simp [digits256_length]; omega
  rw [hlen] at hfit
  have f0 : framed (cap + 2) = digits256 2 cap ++ List.replicate cap 0xFF := by
    rw [framed_eq _ (by omega) (by omega)]; simp
  have f1 : framed (cap + 2 + 8) = digits256 2 (cap + 8) ++ List.replicate (cap + 8) 0xFF := by
    rw [framed_eq _ (by omega) (by omega)]
    have : cap + 2 + 8 - 2 = cap + 8 := by omega
    rw [this]
  have f2 : framed (cap + 2 - 8) = digits256 2 (cap - 8) ++ List.replicate (cap - 8) 0xFF := by
    by_cases hz : cap + 2 - 8 = cap - 8 + 2
    · rw [hz, framed_eq _ (by omega) (by omega)]; simp
    · omega
  have e2 : cap + 2 - 8 - 2 = cap - 8 := by omega
  have e0 : cap + 2 - 2 = cap := by omega
  have l1 : (framed (cap + 2 + 8)).length = cap + 10 := by rw [f1]; simp [digits256_length]; omega
  refine ⟨cap + 2, hs.symm, ⟨_, C11_from_wire_no_size cap [0] (by decide)⟩, ⟨.unexpectedEndOfBuffer, ?_⟩, ?_,
    List.replicate cap 0xFF, ?_, ?_, ⟨.unexpectedEndOfBuffer, ?_⟩, ?_, ?_, ?_, ?_⟩
  · rw [f1]
    exact (C11_from_wire cap (cap + 8) _ (by omega)).2 (by omega)
  · have h8 : WF (.tpm2b cap) (.tpm2b (cap - 8) (List.replicate (cap - 8) 0xFF ++ List.replicate 8 0)) := by
      simp only [WF, List.length_append, List.length_replicate]; omega
    have hc8 := (goodTy (.tpm2b cap)).complete _ [] h8
    have hw8 : wire (.tpm2b cap) (.tpm2b (cap - 8) (List.replicate (cap - 8) 0xFF ++ List.replicate 8 0)) =
        digits256 2 (cap - 8) ++ List.replicate (cap - 8) 0xFF := by simp [wire]
    rw [hw8, List.append_nil] at hc8
    rw [e2, f2, hc8]
    refine ⟨List.replicate (cap - 8) 0xFF ++ List.replicate (cap - (cap - 8)) 0, ?_, ?_⟩
    · simp [canon]
    · simp [tpm2bGetBuffer, sliceTo, digits256_length]
  · have := hcomp []
    rw [List.append_nil] at this
    rw [f0, this, e0]
  · rw [f0, e0]
    simp [tpm2bGetBuffer, sliceTo, digits256_length]
  · rw [e0]
    rfl
  · rw [e0, hfit _ (by rw [f0, hlen]; exact Nat.le_refl _)]
  · have := hcomp []
    rw [List.append_nil] at this
    rw [e0, hfit _ (by rw [f0, hlen]; exact Nat.le_refl _), f0, List.drop_of_length_le (by rw [hlen]; omega),
      List.append_nil, this]
  · rw [e0, hfit _ (by rw [l1]; omega)]
  · have := hcomp []
    rw [List.append_nil] at this
    rw [e0, hfit _ (by rw [l1]; omega), List.take_append_of_le_length (by rw [hlen]; omega),
      List.take_of_length_le (by rw [hlen]; omega), this]

/-- base/src/tests.rs:85-88 -/
theorem test_try_unmarshal_tpm2b_name : Simple Tpm2bName :=
  simple _ (by decide) (by decide) rfl

/-- base/src/tests.rs:90-93 -/
theorem test_try_unmarshal_tpm2b_attest : Simple Tpm2bAttest :=
  simple _ (by decide) (by decide) rfl

/-- base/src/tests.rs:95-98 -/
theorem test_try_unmarshal_tpm2b_context_data : Simple Tpm2bContextData :=
  simple _ (by decide) (by decide) rfl

/-- base/src/tests.rs:100-103 -/
theorem test_try_unmarshal_tpm2b_context_sensitive : Simple Tpm2bContextSensitive :=
  simple _ (by decide) (by decide) rfl

/-- base/src/tests.rs:105-108 -/
theorem test_try_unmarshal_tpm2b_data : Simple Tpm2bData :=
  simple _ (by decide) (by decide) rfl

/-- base/src/tests.rs:110-113 -/
theorem test_try_unmarshal_tpm2b_digest : Simple Tpm2bDigest :=
  simple _ (by decide) (by decide) rfl

/-- base/src/tests.rs:115-118 -/
theorem test_try_unmarshal_tpm2b_ecc_parameter : Simple Tpm2bEccParameter :=
  simple _ (by decide) (by decide) rfl

/-- base/src/tests.rs:120-123 -/
theorem test_try_unmarshal_tpm2b_encrypted_secret : Simple Tpm2bEncryptedSecret :=
  simple _ (by decide) (by decide) rfl

/-- base/src/tests.rs:125-128 -/
theorem test_try_unmarshal_tpm2b_event : Simple Tpm2bEvent :=
  simple _ (by decide) (by decide) rfl

/-- base/src/tests.rs:130-133 -/
theorem test_try_unmarshal_tpm2b_id_object : Simple Tpm2bIdObject :=
  simple _ (by decide) (by decide) rfl

/-- base/src/tests.rs:135-138 -/
theorem test_try_unmarshal_tpm2b_iv : Simple Tpm2bIv :=
  simple _ (by decide) (by decide) rfl

/-- base/src/tests.rs:140-143 -/
theorem test_try_unmarshal_tpm2b_max_buffer : Simple Tpm2bMaxBuffer :=
  simple _ (by decide) (by decide) rfl

/-- base/src/tests.rs:145-148 -/
theorem test_try_unmarshal_tpm2b_max_nv_buffer : Simple Tpm2bMaxNvBuffer :=
  simple _ (by decide) (by decide) rfl

/-- base/src/tests.rs:150-153 -/
theorem test_try_unmarshal_tpm2b_private : Simple Tpm2bPrivate :=
  simple _ (by decide) (by decide) rfl

/-- base/src/tests.rs:155-158 -/
theorem test_try_unmarshal_tpm2b_private_key_rsa : Simple Tpm2bPrivateKeyRsa :=
  simple _ (by decide) (by decide) rfl

/-- base/src/tests.rs:160-163 -/
theorem test_try_unmarshal_tpm2b_private_vendor_specific : Simple Tpm2bPrivateVendorSpecific :=
  simple _ (by decide) (by decide) rfl

/-- base/src/tests.rs:165-168 -/
theorem test_try_unmarshal_tpm2b_public_key_rsa : Simple Tpm2bPublicKeyRsa :=
  simple _ (by decide) (by decide) rfl

/-- base/src/tests.rs:170-173 -/
theorem test_try_unmarshal_tpm2b_sensitive_data : Simple Tpm2bSensitiveData :=
  simple _ (by decide) (by decide) rfl

/-- base/src/tests.rs:175-178 -/
theorem test_try_unmarshal_tpm2b_sym_key : Simple Tpm2bSymKey :=
  simple _ (by decide) (by decide) rfl

/-- base/src/tests.rs:180-183 -/
theorem test_try_unmarshal_tpm2b_template : Simple Tpm2bTemplate :=
  simple _ (by decide) (by decide) rfl

/-! ### Lists -/

/-- `TPM2_MAX_CAP_HANDLES`: base/src/lib.rs:557. -/
def maxHandles : Nat := maxCapData / sizeOfTy al64 TpmHandle

/-- One handle more than a list has room for: base/src/tests.rs:187-189. -/
def handles : List Val := (List.range (maxHandles + 1)).map fun i => .struct [.int i]

theorem handles_wf : ∀ e ∈ handles, WF TpmHandle e := by
  intro e he
  obtain ⟨i, hi, rfl⟩ := List.mem_map.mp he
  have := List.mem_range.mp hi
  have hm : maxHandles = 254 := rfl
  simp only [TpmHandle, S, plains, WF, WFFields, and_true]
  omega

theorem handles_getElem? {x : Nat} (hx : x ≤ maxHandles) :
    handles[x]? = some (handles.getD x .unit) := by
  have hl : handles.length = maxHandles + 1 := by simp [handles]
  rw [List.getD_eq_getElem?_getD, List.getElem?_eq_getElem (by omega)]
  rfl

/-- base/src/tests.rs:185-200 -/
theorem test_impl_tpml_new :
    (∀ x < maxHandles, ∃ list, tpmlNew TpmHandle maxHandles (handles.take x) = .ok list ∧
      tpmlCount list = x ∧ tpmlElems maxHandles list = .ok (handles.take x)) ∧
    ∃ e, tpmlNew TpmHandle maxHandles handles = .err e := by
  have hl : handles.length = maxHandles + 1 := by simp [handles]
  have hw := fun x => C17_new TpmHandle maxHandles (handles.take x) (by decide)
    (fun e he => handles_wf e (List.mem_of_mem_take he))
  refine ⟨fun x hx => ?_, _, (C17_new TpmHandle maxHandles handles (by decide) handles_wf).2 (by omega)⟩
  obtain ⟨v, h1, -, h2, h3⟩ := (hw x).1 (by simp; omega)
  refine ⟨v, h1, ?_, h3⟩
  rw [h2]; simp; omega

/-- base/src/tests.rs:202-219; the list after adding the first `x` handles. -/
theorem test_impl_tpml_default_add :
    ∃ list : Nat → Val, list 0 = tpmlDefault TpmHandle maxHandles ∧
      (∀ x < maxHandles, tpmlElems maxHandles (list x) = .ok (handles.take x) ∧
        ∃ h, handles[x]? = some h ∧ tpmlAdd (list x) h = (.ok (), list (x + 1)) ∧
          tpmlCount (list (x + 1)) = x + 1) ∧
      ∃ e, tpmlNew TpmHandle maxHandles handles = .err e := by
  have hl : handles.length = maxHandles + 1 := by simp [handles]
  let list : Nat → Val := fun x => Nat.rec (tpmlDefault TpmHandle maxHandles)
    (fun x v => (tpmlAdd v (handles.getD x .unit)).2) x
  have key : ∀ x ≤ maxHandles, WF (tpml TpmHandle maxHandles) (list x) ∧
      Shows maxHandles (list x) (handles.take x) ∧
      (x < maxHandles → (tpmlAdd (list x) (handles.getD x .unit)).1 = .ok ()) := by
    intro x
    induction x with
    | zero =>
      intro _
      obtain ⟨a, b, -⟩ := C17_default TpmHandle maxHandles
      refine ⟨a, b, fun h => ?_⟩
      have he := List.mem_of_getElem? (handles_getElem? (x := 0) (by omega))
      exact ((C17_add TpmHandle maxHandles _ _ _ (by decide) a (handles_wf _ he) b).1 h).1
    | succ x ih =>
      intro hx
      obtain ⟨a, b, -⟩ := ih (by omega)
      have hg : ∀ y ≤ maxHandles, handles.getD y .unit ∈ handles := fun y hy =>
        List.mem_of_getElem? (handles_getElem? hy)
      obtain ⟨-, c, d⟩ := (C17_add TpmHandle maxHandles _ _ _ (by decide) a
        (handles_wf _ (hg x (by omega))) b).1 (by simp; omega)
      have ht : handles.take x ++ [handles.getD x .unit] = handles.take (x + 1) := by
        rw [List.take_add_one, handles_getElem? (by omega)]
        rfl
      rw [ht] at d
      refine ⟨c, d, fun h => ?_⟩
      exact ((C17_add TpmHandle maxHandles _ _ _ (by decide) c
        (handles_wf _ (hg (x + 1) (by omega))) d).1 (by simp; omega)).1
  refine ⟨list, rfl, fun x hx => ⟨(key x (by omega)).2.1.2, handles.getD x .unit, ?_, ?_, ?_⟩,
    _, (C17_new TpmHandle maxHandles handles (by decide) handles_wf).2 (by omega)⟩
  · exact handles_getElem? (by omega)
  · exact Prod.ext ((key x (by omega)).2.2 hx) rfl
  · rw [(key (x + 1) (by omega)).2.1.1]; simp; omega

/-! ### Structures -/

/-- `Tpm2bName::from_bytes`. -/
def name (b : Bytes) : Res MErr Val := tpm2bFromBytes (sizeOfTy al64 TpmtHa) b

set_option maxRecDepth 20000 in
/-- base/src/tests.rs:221-248 -/
theorem test_marshal_struct_derive : ∃ indexName nvContents bytes buffer,
    name [1, 2, 3, 4] = .ok indexName ∧
    tpm2bFromBytes 2048 (List.replicate 10 24) = .ok nvContents ∧
    marshal TpmsNvCertifyInfo (.struct [indexName, .int 10, nvContents]) (List.replicate 48 0) =
      (.ok bytes, buffer) ∧
    buffer.take bytes = toBE 2 4 ++ [1, 2, 3, 4] ++ toBE 2 10 ++ toBE 2 10 ++ List.replicate 10 24 ∧
    bytes = (toBE 2 4 ++ [1, 2, 3, 4] ++ toBE 2 10 ++ toBE 2 10 ++ List.replicate 10 24).length ∧
    (unmarshal TpmsNvCertifyInfo buffer).1 = .ok (.struct [indexName, .int 10, nvContents]) :=
  ⟨.tpm2b 4 ([1, 2, 3, 4] ++ List.replicate 62 0),
   .tpm2b 10 (List.replicate 10 24 ++ List.replicate 2038 0), 20, _, rfl, rfl, rfl, rfl, rfl, rfl⟩

/-- base/src/tests.rs:250-258 -/
theorem test_marshal_enum_override :
    (marshal TpmtKeyedHashScheme (.enum Alg.HMAC [.struct [.struct [.int Alg.SHA256]]])
      (List.replicate (sizeOfTy al64 TpmtKeyedHashScheme) 0)).1.isOk = true := rfl

/-- The scheme of base/src/tests.rs:262. -/
def xorSymDefObj : Val := .enum Alg.XOR [.struct [.int Alg.SHA256], .struct []]

/-- The parameters of base/src/tests.rs:267-276. -/
def rsaParms : Val := .struct [xorSymDefObj,
  .enum Alg.ECDSA [.struct [.struct [.int Alg.SHA256]]], .struct [.int 74], .int 2]

/-- The attributes of base/src/tests.rs:283. -/
def attributes : Nat := ((objectFlags.lookup "RESTRICTED").map (2 ^ ·)).getD 0 |||
  ((objectFlags.lookup "SENSITIVE_DATA_ORIGIN").map (2 ^ ·)).getD 0

/-- The public area of base/src/tests.rs:281-286 with its two sized buffers. -/
def examplePublic (authPolicy pubkey : Val) : Val :=
  .split [] [.struct [.int Alg.SHA256], .struct [.int attributes], authPolicy] Alg.RSA [rsaParms, pubkey]

/-- The key of base/src/tests.rs:278-279. -/
def pubkey : Val := .tpm2b 24 (List.replicate 24 9 ++ List.replicate 488 0)

/-- The policy of base/src/tests.rs:284. -/
def policy : Val := .tpm2b 4 ([2, 2, 4, 4] ++ List.replicate 60 0)

/-- The expected bytes: base/src/tests.rs:292-295. -/
def publicBytes : Bytes :=
  [0, 1, 0, 11, 0, 1, 0, 32, 0, 4, 2, 2, 4, 4, 0, 10, 0, 11, 0, 24, 0, 11, 0, 74, 0, 0, 0, 2,
   0, 24, 9, 9, 9, 9, 9, 9, 9, 9, 9, 9, 9, 9, 9, 9, 9, 9, 9, 9, 9, 9, 9, 9, 9, 9]

set_option maxRecDepth 20000 in
/-- base/src/tests.rs:260-313 -/
theorem test_marshal_tpmt_public :
    (∃ n, (marshal TpmtSymDefObject xorSymDefObj
        (List.replicate (sizeOfTy al64 TpmtSymDefObject) 0)).1 = .ok n ∧
      n < sizeOfTy al64 TpmtSymDefObject) ∧
    ∃ pubkey policy n buffer v alg auth sel parms remarshaled,
      tpm2bFromBytes 512 (List.replicate 24 9) = .ok pubkey ∧
      tpm2bFromBytes 64 [2, 2, 4, 4] = .ok policy ∧
      marshal TpmtPublic (examplePublic policy pubkey) (List.replicate 256 0) = (.ok n, buffer) ∧
      buffer.take publicBytes.length = publicBytes ∧
      (unmarshal TpmtPublic buffer).1 = .ok v ∧
      v = .split [] [alg, .struct [.int attributes], auth] sel parms ∧
      marshal TpmtPublic v (List.replicate 256 1) = (.ok n, remarshaled) ∧
      remarshaled.take n = buffer.take n ∧
      (marshal TpmAlgId (.struct [.int Alg.SHA256]) buffer).1.isOk = true ∧
      (unmarshal TpmtPublic (marshal TpmAlgId (.struct [.int Alg.SHA256]) buffer).2).1 =
        .err .unknownSelector := by
  refine ⟨⟨_, rfl, by decide⟩, pubkey, policy, 54, publicBytes ++ List.replicate 202 0,
    examplePublic policy pubkey, _, _, _, _, publicBytes ++ List.replicate 202 1,
    rfl, rfl, rfl, rfl, rfl, rfl, rfl, rfl, rfl, rfl⟩

/-- The bit of a flag of `TpmaCc`. -/
def ccFlag (f : String) : BitVec 32 := (((ccFlags.lookup f).map (2 ^ ·)).getD 0 : Nat)

/-- base/src/tests.rs:315-328 -/
theorem test_attributes_field : ∃ cc1 cc2 cc3,
    cc1 = ccFlag "NV" ||| ccFlag "FLUSHED" ||| ccCommandIndex 8 ∧ ccGetCommandIndex cc1 = 8 ∧
    cc2 = ccSetCommandIndex cc1 0xA0 ∧ ccGetCommandIndex cc2 = 0xA0 ∧
    cc3 = ccSetCHandles cc2 0xFFFFFFFF ∧ ccGetCHandles cc3 = 7 ∧ ccGetCommandIndex cc3 = 0xA0 ∧
    flagContains cc3 (ccFlag "NV") = true ∧ cc3 &&& ccFlag "FLUSHED" ≠ 0 :=
  ⟨_, _, _, rfl, by decide, rfl, by decide, rfl, by decide, by decide, by decide, by decide⟩

/-- base/src/tests.rs:330-339; the first and last index are those of base/src/constants.rs:737-739. -/
theorem test_nv_index_range : ∃ lowest highest,
    lowest = hcNew Ht.NVIndex ∧ highest = hcNew Ht.NVIndex + 0x00FFFFFF ∧
    (nvIndexTryFrom (lowest - 1)).isOk = false ∧ (nvIndexTryFrom lowest).isOk = true ∧
    (nvIndexTryFrom (lowest + 432)).isOk = true ∧
    (nvIndexTryFrom highest).isOk = true ∧ (nvIndexTryFrom (highest + 1)).isOk = false :=
  ⟨_, _, rfl, rfl, by decide, by decide, by decide, by decide, by decide⟩

/-- The PCR selection of base/src/tests.rs:344-348. -/
def pcrSelection : Val := .struct [.struct [.int Alg.SHA256], .int 2,
  .arr [.int 0xF, .int 0xF, .int 0, .int 0]]

/-- The data of base/src/tests.rs:343-357. -/
def creationData : Val := .struct [
  .struct [.int 1, .arr (pcrSelection :: List.replicate 15 TpmsPcrSelection.default)],
  .tpm2b 9 ([1, 2, 3, 4, 5, 6, 7, 8, 9] ++ List.replicate 55 0), .struct [.int 0xA],
  .struct [.int Alg.SHA384], .tpm2b 6 ([0xA, 0xB, 0xC, 0xD, 0xE, 0xF] ++ List.replicate 60 0),
  Tpm2bName.default, .tpm2b 32 (List.replicate 32 1 ++ List.replicate 32 0)]

set_option maxRecDepth 20000 in
/-- base/src/tests.rs:341-361 -/
theorem test_2b_struct : ∃ pcrs digest parent outside data sized,
    tpmlNew TpmsPcrSelection 16 [pcrSelection] = .ok pcrs ∧
    tpm2bFromBytes 64 [1, 2, 3, 4, 5, 6, 7, 8, 9] = .ok digest ∧
    name [0xA, 0xB, 0xC, 0xD, 0xE, 0xF] = .ok parent ∧
    tpm2bFromBytes 64 (List.replicate 32 1) = .ok outside ∧
    data = .struct [pcrs, digest, .struct [.int 0xA], .struct [.int Alg.SHA384], parent,
      Tpm2bName.default, outside] ∧
    tpm2bFromStruct (sizeOfTy al64 TpmsCreationData) TpmsCreationData data = .ok sized ∧
    tpm2bToStruct TpmsCreationData sized = .ok data := by
  obtain ⟨sized, h1, -, -, h2⟩ := C14_wrap_general al64 TpmsCreationData _ creationData (by decide)
    (Nat.le_refl _) (by decide)
  exact ⟨_, _, _, _, creationData, sized, rfl, rfl, rfl, rfl, rfl, h1, h2⟩

end Verif.Tests
