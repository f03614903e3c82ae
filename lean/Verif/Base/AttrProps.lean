import Verif.Base.Attr

/-
Property theorems C19 and C20: attribute words, stated bit by bit.
-/

namespace Verif.Base

/-- The bits `s, ..., s + w - 1`. -/
def inField (s w i : Nat) : Bool := s ≤ i && i < s + w

/-- `mask` covers exactly the `w` bits from `s`. -/
def MaskIs (mask : BitVec 32) (s w : Nat) : Prop := ∀ i, i < 32 → mask.getLsbD i = inField s w i

instance (mask : BitVec 32) (s w : Nat) : Decidable (MaskIs mask s w) := by
  unfold MaskIs; infer_instance

/-- The three multi-bit fields of the source: mask, shift, width. -/
def attrFields : List (BitVec 32 × Nat × Nat) :=
  [(NT_MASK, NT_SHIFT, 4), (COMMAND_INDEX_MASK, COMMAND_INDEX_SHIFT, 16),
   (C_HANDLES_MASK, C_HANDLES_SHIFT, 3)]

theorem attrFields_mask : ∀ f ∈ attrFields, MaskIs f.1 f.2.1 f.2.2 ∧ f.2.1 + f.2.2 ≤ 32 := by decide

/-- **C19.** Writing a multi-bit field: inside the field the bits of the value
(truncated to the width), outside unchanged. -/
theorem C19_set_field_bits (f : BitVec 32 × Nat × Nat) (hf : f ∈ attrFields)
    (word value : BitVec 32) (i : Nat) (hi : i < 32) :
    (setAttributeField word value f.1 f.2.1).getLsbD i =
      if inField f.2.1 f.2.2 i then value.getLsbD (i - f.2.1) else word.getLsbD i := by
  obtain ⟨hm, -⟩ := attrFields_mask f hf
  have := hm i hi
  simp only [setAttributeField, newAttributeField, BitVec.getLsbD_or, BitVec.getLsbD_and,
    BitVec.getLsbD_not, BitVec.getLsbD_shiftLeft, this, hi]
  by_cases h : inField f.2.1 f.2.2 i
  · have h2 : ¬ i < f.2.1 := by
      simp only [inField, Bool.and_eq_true, decide_eq_true_eq] at h; omega
    simp [h, h2]
  · simp [h]

/-- **C19.** Reading a field: the field's bits of the word, nothing above. -/
theorem C19_get_field_bits (f : BitVec 32 × Nat × Nat) (hf : f ∈ attrFields)
    (word : BitVec 32) (i : Nat) :
    (getAttributeField word f.1 f.2.1).getLsbD i = (decide (i < f.2.2) && word.getLsbD (f.2.1 + i)) := by
  obtain ⟨hm, hw⟩ := attrFields_mask f hf
  simp only [getAttributeField, BitVec.getLsbD_ushiftRight, BitVec.getLsbD_and]
  by_cases hi : f.2.1 + i < 32
  · rw [hm _ hi, Bool.and_comm]
    congr 1
    simp [inField]
  · rw [BitVec.getLsbD_of_ge _ _ (by omega)]
    simp

/-- **C19.** Reading back what was written gives the value masked to the
field's width. -/
theorem C19_get_after_set (f : BitVec 32 × Nat × Nat) (hf : f ∈ attrFields)
    (word value : BitVec 32) :
    (getAttributeField (setAttributeField word value f.1 f.2.1) f.1 f.2.1).toNat =
      value.toNat % 2 ^ f.2.2 := by
  obtain ⟨-, hw⟩ := attrFields_mask f hf
  apply Nat.eq_of_testBit_eq
  intro i
  rw [Nat.testBit_mod_two_pow, BitVec.testBit_toNat, BitVec.testBit_toNat, C19_get_field_bits f hf]
  by_cases hi : i < f.2.2
  · rw [C19_set_field_bits f hf _ _ _ (by omega)]
    have : inField f.2.1 f.2.2 (f.2.1 + i) = true := by simp [inField]; omega
    simp [this, hi]
  · simp [hi]

/-- **C19.** Other fields and flags are not affected: any group of bits disjoint
from the written field reads the same. -/
theorem C19_other_bits (f : BitVec 32 × Nat × Nat) (hf : f ∈ attrFields) (word value : BitVec 32)
    (other : BitVec 32) (hd : ∀ i, i < 32 → inField f.2.1 f.2.2 i = true → other.getLsbD i = false) :
    setAttributeField word value f.1 f.2.1 &&& other = word &&& other := by
  apply BitVec.eq_of_getLsbD_eq
  intro i hi
  rw [BitVec.getLsbD_and, BitVec.getLsbD_and, C19_set_field_bits f hf _ _ _ hi]
  by_cases h : inField f.2.1 f.2.2 i
  · simp [h, hd i hi h]
  · simp [h]

/-- Non-vacuity: setting the number of command handles keeps the command index
and the `NV` flag. -/
example (word value : BitVec 32) :
    ccGetCommandIndex (ccSetCHandles word value) = ccGetCommandIndex word := by
  unfold ccGetCommandIndex getAttributeField
  rw [show ccSetCHandles word value &&& COMMAND_INDEX_MASK = word &&& COMMAND_INDEX_MASK from
    C19_other_bits (C_HANDLES_MASK, C_HANDLES_SHIFT, 3) (by decide) word value _ (by decide)]

/-- **C19.** The two fields of a command attribute word are independent and
complete: each getter returns what its own setter wrote and is unaffected by
the other setter. -/
theorem C19_command_attributes (word n : BitVec 32) (i : BitVec 16) :
    ccGetCommandIndex (ccSetCommandIndex word i) = i ∧
    (ccGetCHandles (ccSetCHandles word n)).toNat = n.toNat % 8 ∧
    ccGetCommandIndex (ccSetCHandles word n) = ccGetCommandIndex word ∧
    ccGetCHandles (ccSetCommandIndex word i) = ccGetCHandles word ∧
    ccGetCommandIndex (ccCommandIndex i) = i ∧ (ccGetCHandles (ccCHandles n)).toNat = n.toNat % 8 := by
  have h0 : ∀ word : BitVec 32, ccGetCommandIndex (ccSetCommandIndex word i) = i := by
    intro word
    apply BitVec.eq_of_toNat_eq
    have := C19_get_after_set (COMMAND_INDEX_MASK, COMMAND_INDEX_SHIFT, 16) (by decide) word
      (i.setWidth 32)
    simp only [ccGetCommandIndex, ccSetCommandIndex, BitVec.toNat_setWidth] at this ⊢
    rw [this]
    have := i.isLt
    omega
  have h1 : ∀ word : BitVec 32, (ccGetCHandles (ccSetCHandles word n)).toNat = n.toNat % 8 :=
    fun word => C19_get_after_set (C_HANDLES_MASK, C_HANDLES_SHIFT, 3) (by decide) word n
  have e0 : ccCommandIndex i = ccSetCommandIndex 0 i := by
    simp [ccCommandIndex, ccSetCommandIndex, setAttributeField]
  have e1 : ccCHandles n = ccSetCHandles 0 n := by
    simp [ccCHandles, ccSetCHandles, setAttributeField]
  refine ⟨h0 word, h1 word, ?_, ?_, e0 ▸ h0 0, e1 ▸ h1 0⟩
  · unfold ccGetCommandIndex getAttributeField
    rw [show ccSetCHandles word n &&& COMMAND_INDEX_MASK = word &&& COMMAND_INDEX_MASK from
      C19_other_bits (C_HANDLES_MASK, C_HANDLES_SHIFT, 3) (by decide) word n _ (by decide)]
  · unfold ccGetCHandles getAttributeField
    rw [show ccSetCommandIndex word i &&& C_HANDLES_MASK = word &&& C_HANDLES_MASK from
      C19_other_bits (COMMAND_INDEX_MASK, COMMAND_INDEX_SHIFT, 16) (by decide) word _ _ (by decide)]

/-- **C19.** Boolean attributes: inserting a flag sets exactly its bit, removing
it clears exactly its bit, and `contains` reads exactly it. -/
theorem C19_flags (n : Nat) (w : BitVec n) (k i : Nat) (hk : k < n) (hi : i < n) :
    (flagInsert w (1#n <<< k)).getLsbD i = (decide (i = k) || w.getLsbD i) ∧
    (flagRemove w (1#n <<< k)).getLsbD i = (!decide (i = k) && w.getLsbD i) ∧
    (flagContains w (1#n <<< k) = w.getLsbD k) := by
  have hbit : ∀ j, j < n → (1#n <<< k).getLsbD j = decide (j = k) := by
    intro j hj
    rw [BitVec.getLsbD_shiftLeft, BitVec.getLsbD_one]
    by_cases h : j = k
    · subst h; simp [hj]; omega
    · by_cases h2 : j < k
      · simp [h, h2]
      · have : j - k ≠ 0 := by omega
        simp [h, this]
  refine ⟨?_, ?_, ?_⟩
  · rw [flagInsert, BitVec.getLsbD_or, hbit i hi, Bool.or_comm]
  · rw [flagRemove, BitVec.getLsbD_and, BitVec.getLsbD_not, hbit i hi, Bool.and_comm]
    simp [hi]
  · unfold flagContains
    by_cases h : w.getLsbD k = true
    · rw [h, beq_iff_eq]
      apply BitVec.eq_of_getLsbD_eq
      intro j hj
      rw [BitVec.getLsbD_and, hbit j hj]
      by_cases h2 : j = k
      · subst h2; simp [h]
      · simp [h2]
    · have h' : w.getLsbD k = false := by simpa using h
      rw [h', beq_eq_false_iff_ne]
      intro he
      have := congrArg (fun x => x.getLsbD k) he
      simp only [BitVec.getLsbD_and, hbit k hk, h'] at this
      simp at this

/-- **C19.** No two flags of an attribute word share a bit, no flag lies in a
multi-bit field, and all fit the word. -/
theorem C19_flag_tables :
    (nvFlags.map (·.2)).Nodup ∧ (ccFlags.map (·.2)).Nodup ∧ (objectFlags.map (·.2)).Nodup ∧
    (algorithmFlags.map (·.2)).Nodup ∧ (sessionFlags.map (·.2)).Nodup ∧
    (localityFlags.map (·.2)).Nodup ∧
    (∀ p ∈ nvFlags, p.2 < 32 ∧ NT_MASK.getLsbD p.2 = false) ∧
    (∀ p ∈ ccFlags, p.2 < 32 ∧ COMMAND_INDEX_MASK.getLsbD p.2 = false ∧
      C_HANDLES_MASK.getLsbD p.2 = false) ∧
    (∀ p ∈ objectFlags ++ algorithmFlags, p.2 < 32) ∧
    (∀ p ∈ sessionFlags ++ localityFlags, p.2 < 8) ∧
    COMMAND_INDEX_MASK &&& C_HANDLES_MASK = 0 := by decide

/-! The attribute words of the TPM 2.0 specification, Part 2 (Structures), as masks. -/

/-- TPMA_NV, section 13.4. -/
def tcgNv : List (String × Nat) := [
  ("PPWRITE", 0x00000001), ("OWNERWRITE", 0x00000002), ("AUTHWRITE", 0x00000004),
  ("POLICYWRITE", 0x00000008), ("POLICY_DELETE", 0x00000400), ("WRITELOCKED", 0x00000800),
  ("WRITEALL", 0x00001000), ("WRITEDEFINE", 0x00002000), ("WRITE_STCLEAR", 0x00004000),
  ("GLOBALLOCK", 0x00008000), ("PPREAD", 0x00010000), ("OWNERREAD", 0x00020000),
  ("AUTHREAD", 0x00040000), ("POLICYREAD", 0x00080000), ("NO_DA", 0x02000000),
  ("ORDERLY", 0x04000000), ("CLEAR_STCLEAR", 0x08000000), ("READLOCKED", 0x10000000),
  ("WRITTEN", 0x20000000), ("PLATFORMCREATE", 0x40000000), ("READ_STCLEAR", 0x80000000)]
/-- TPMA_CC, section 8.9. -/
def tcgCc : List (String × Nat) := [
  ("NV", 0x00400000), ("EXTENSIVE", 0x00800000), ("FLUSHED", 0x01000000),
  ("R_HANDLE", 0x10000000), ("V", 0x20000000)]
/-- TPMA_OBJECT, section 8.3. -/
def tcgObject : List (String × Nat) := [
  ("FIXED_TPM", 0x00000002), ("ST_CLEAR", 0x00000004), ("FIXED_PARENT", 0x00000010),
  ("SENSITIVE_DATA_ORIGIN", 0x00000020), ("USER_WITH_AUTH", 0x00000040),
  ("ADMIN_WITH_POLICY", 0x00000080), ("NO_DA", 0x00000400),
  ("ENCRYPTED_DUPLICATION", 0x00000800), ("RESTRICTED", 0x00010000), ("DECRYPT", 0x00020000),
  ("SIGN_ENCRYPT", 0x00040000), ("X509_SIGN", 0x00080000)]
/-- TPMA_ALGORITHM, section 8.2. -/
def tcgAlgorithm : List (String × Nat) := [
  ("ASYMMETRIC", 0x00000001), ("SYMMETRIC", 0x00000002), ("HASH", 0x00000004),
  ("OBJECT", 0x00000008), ("SIGNING", 0x00000100), ("ENCRYPTING", 0x00000200),
  ("METHOD", 0x00000400)]
/-- TPMA_SESSION, section 8.4. -/
def tcgSession : List (String × Nat) := [
  ("CONTINUE_SESSION", 0x01), ("AUDIT_EXCLUSIVE", 0x02), ("AUDIT_RESET", 0x04),
  ("DECRYPT", 0x20), ("ENCRYPT", 0x40), ("AUDIT", 0x80)]
/-- TPMA_LOCALITY, section 8.5. -/
def tcgLocality : List (String × Nat) := [
  ("LOC_ZERO", 0x01), ("LOC_ONE", 0x02), ("LOC_TWO", 0x04), ("LOC_THREE", 0x08),
  ("LOC_FOUR", 0x10)]

/-- **C19.** Every flag denotes the bit the TPM specification assigns to it, and the
multi-bit fields have the specified masks. -/
theorem C19_tcg_masks :
    nvFlags.map (fun p => (p.1, 2 ^ p.2)) = tcgNv ∧
    ccFlags.map (fun p => (p.1, 2 ^ p.2)) = tcgCc ∧
    objectFlags.map (fun p => (p.1, 2 ^ p.2)) = tcgObject ∧
    algorithmFlags.map (fun p => (p.1, 2 ^ p.2)) = tcgAlgorithm ∧
    sessionFlags.map (fun p => (p.1, 2 ^ p.2)) = tcgSession ∧
    localityFlags.map (fun p => (p.1, 2 ^ p.2)) = tcgLocality ∧
    NT_MASK.toNat = 0x000000F0 ∧ COMMAND_INDEX_MASK.toNat = 0x0000FFFF ∧
    C_HANDLES_MASK.toNat = 0x0E000000 := by decide

/-- **C19.** A locality is extended exactly when one of its upper three bits is
set, i.e. when it is at least 32. -/
theorem C19_locality_extended (w : BitVec 8) : localityIsExtended w = true ↔ 32 ≤ w.toNat := by
  revert w; decide

/-! ### C20 -/

/-- **C20.** The NV index type codec, for every word and every type value. -/
theorem C20_nv_type (word : BitVec 32) (t : BitVec 8) :
    (nvGetIndexType (nvSetType word t)).toNat = t.toNat % 16 ∧
    (t.toNat < 16 → nvGetIndexType (nvSetType word t) = t) ∧
    nvSetType word t &&& ~~~NT_MASK = word &&& ~~~NT_MASK ∧
    (nvGetIndexType (nvFromIndexType t)).toNat = t.toNat % 16 ∧
    nvFromIndexType t &&& ~~~NT_MASK = 0 := by
  have h0 : ∀ word : BitVec 32, (nvGetIndexType (nvSetType word t)).toNat = t.toNat % 16 := by
    intro word
    have := C19_get_after_set (NT_MASK, NT_SHIFT, 4) (by decide) word (t.setWidth 32)
    simp only [nvGetIndexType, nvSetType, BitVec.toNat_setWidth] at this ⊢
    rw [this]
    have := t.isLt
    omega
  have e0 : nvFromIndexType t = nvSetType 0 t := by
    simp [nvFromIndexType, nvSetType, setAttributeField]
  have h1 : ∀ word : BitVec 32, nvSetType word t &&& ~~~NT_MASK = word &&& ~~~NT_MASK :=
    fun word => C19_other_bits (NT_MASK, NT_SHIFT, 4) (by decide) word _ _ (by decide)
  refine ⟨h0 word, fun h => ?_, h1 word, e0 ▸ h0 0, ?_⟩
  · apply BitVec.eq_of_toNat_eq
    rw [h0]; omega
  · rw [e0, h1 0]; simp

/-- Non-vacuity: changing the type of a written counter index to `Extend`. -/
example : nvGetIndexType (nvSetType 0x20000012 4) = 4 ∧ nvSetType 0x20000012 4 = 0x20000042 := by
  decide

end Verif.Base
