import Verif.Tcg.Constants
import Verif.Errors.Props
import Verif.Base.AttrProps

/-
C75: the response codes of the base crate and of the crate `tpm2` against Part 2,
clause 6.6.  C76: the attribute words against Part 2, clauses 8 and 13.4.  The
tables are written from the standard, with its names.
-/

namespace Verif.Tcg
open Verif

/-! ### Response codes of the standard -/

/-- Format-zero errors: Part 2, clause 6.6.3 (`RC_VER1`); for
base/src/constants.rs:233-266. -/
def RC_VER1 : List (String × Nat) := [
  ("INITIALIZE", 0x000), ("FAILURE", 0x001), ("SEQUENCE", 0x003), ("PRIVATE", 0x00B),
  ("HMAC", 0x019), ("DISABLED", 0x020), ("EXCLUSIVE", 0x021), ("AUTH_TYPE", 0x024),
  ("AUTH_MISSING", 0x025), ("POLICY", 0x026), ("PCR", 0x027), ("PCR_CHANGED", 0x028),
  ("UPGRADE", 0x02D), ("TOO_MANY_CONTEXTS", 0x02E), ("AUTH_UNAVAILABLE", 0x02F),
  ("REBOOT", 0x030), ("UNBALANCED", 0x031), ("COMMAND_SIZE", 0x042), ("COMMAND_CODE", 0x043),
  ("AUTHSIZE", 0x044), ("AUTH_CONTEXT", 0x045), ("NV_RANGE", 0x046), ("NV_SIZE", 0x047),
  ("NV_LOCKED", 0x048), ("NV_AUTHORIZATION", 0x049), ("NV_UNINITIALIZED", 0x04A),
  ("NV_SPACE", 0x04B), ("NV_DEFINED", 0x04C), ("BAD_CONTEXT", 0x050), ("CPHASH", 0x051),
  ("PARENT", 0x052), ("NEEDS_TEST", 0x053), ("NO_RESULT", 0x054), ("SENSITIVE", 0x055)].map
    fun p => (p.1, 0x100 + p.2)

/-- Format-one errors, which may refer to a handle, session or parameter: Part 2,
clause 6.6.3 (`RC_FMT1`); for base/src/constants.rs:268-300. -/
def RC_FMT1 : List (String × Nat) := [
  ("ASYMMETRIC", 0x001), ("ATTRIBUTES", 0x002), ("HASH", 0x003), ("VALUE", 0x004),
  ("HIERARCHY", 0x005), ("KEY_SIZE", 0x007), ("MGF", 0x008), ("MODE", 0x009), ("TYPE", 0x00A),
  ("HANDLE", 0x00B), ("KDF", 0x00C), ("RANGE", 0x00D), ("AUTH_FAIL", 0x00E), ("NONCE", 0x00F),
  ("PP", 0x010), ("SCHEME", 0x012), ("SIZE", 0x015), ("SYMMETRIC", 0x016), ("TAG", 0x017),
  ("SELECTOR", 0x018), ("INSUFFICIENT", 0x01A), ("SIGNATURE", 0x01B), ("KEY", 0x01C),
  ("POLICY_FAIL", 0x01D), ("INTEGRITY", 0x01F), ("TICKET", 0x020), ("RESERVED_BITS", 0x021),
  ("BAD_AUTH", 0x022), ("EXPIRED", 0x023), ("POLICY_CC", 0x024), ("BINDING", 0x025),
  ("CURVE", 0x026), ("ECC_POINT", 0x027)].map fun p => (p.1, 0x080 + p.2)

/-- Warnings: Part 2, clause 6.6.3 (`RC_WARN`; `NOT_USED`, which no TPM sends, is
left out); for base/src/constants.rs:302-329. -/
def RC_WARN : List (String × Nat) := [
  ("CONTEXT_GAP", 0x001), ("OBJECT_MEMORY", 0x002), ("SESSION_MEMORY", 0x003), ("MEMORY", 0x004),
  ("SESSION_HANDLES", 0x005), ("OBJECT_HANDLES", 0x006), ("LOCALITY", 0x007), ("YIELDED", 0x008),
  ("CANCELED", 0x009), ("TESTING", 0x00A), ("REFERENCE_H0", 0x010), ("REFERENCE_H1", 0x011),
  ("REFERENCE_H2", 0x012), ("REFERENCE_H3", 0x013), ("REFERENCE_H4", 0x014),
  ("REFERENCE_H5", 0x015), ("REFERENCE_H6", 0x016), ("REFERENCE_S0", 0x018),
  ("REFERENCE_S1", 0x019), ("REFERENCE_S2", 0x01A), ("REFERENCE_S3", 0x01B),
  ("REFERENCE_S4", 0x01C), ("REFERENCE_S5", 0x01D), ("REFERENCE_S6", 0x01E), ("NV_RATE", 0x020),
  ("LOCKOUT", 0x021), ("RETRY", 0x022), ("NV_UNAVAILABLE", 0x023)].map fun p => (p.1, 0x900 + p.2)

/-- The response codes other than success: Part 2, clause 6.6.3 (`BAD_TAG` is the
code of TPM 1.2); for base/src/constants.rs:230-330. -/
def RC : List (String × Nat) := ("BAD_TAG", 0x01E) :: (RC_VER1 ++ RC_FMT1 ++ RC_WARN)

/-- The same name, `CAsymmetric` being meant for `ASYMMETRIC`
(base/src/constants.rs:268). -/
def RcNamed (n x : String) : Prop := Named n x ∨ n = "CAsymmetric" ∧ x = "ASYMMETRIC"

instance (n x : String) : Decidable (RcNamed n x) := inferInstanceAs (Decidable (_ ∨ _))

/-! ### C75 -/

set_option maxRecDepth 100000 in
theorem checkRc_true :
    (Errors.baseTable.all (fun (n, v) => RC.any fun (x, u) => v == u && decide (RcNamed n x)) &&
      RC.all (fun (x, u) => x == "BAD_TAG" ||
        Errors.baseTable.any fun (n, v) => v == u && decide (RcNamed n x)) &&
      Errors.tpm2Table.all (fun (n, v) => n == "Sequence" ||
        RC.any fun (x, u) => v == u && decide (RcNamed n x))) = true := by decide +kernel

/-- **C75 (partial).** Every response code of the base crate has the value the
standard gives to its name, and so has every code of the crate `tpm2`.  Missing:
`Sequence` of the latter. -/
theorem C75_values_partial :
    (∀ n v, (n, v) ∈ Errors.baseTable → ∃ x, RcNamed n x ∧ (x, v) ∈ RC) ∧
    (∀ n v, (n, v) ∈ Errors.tpm2Table → n ≠ "Sequence" → ∃ x, RcNamed n x ∧ (x, v) ∈ RC) := by
  have h := checkRc_true
  simp only [Bool.and_eq_true, List.all_eq_true] at h
  constructor
  · intro n v hn
    have := h.1.1 _ hn
    simp only [List.any_eq_true, Bool.and_eq_true, beq_iff_eq, decide_eq_true_eq] at this
    obtain ⟨⟨x, u⟩, hx, rfl, hx'⟩ := this
    exact ⟨x, hx', hx⟩
  · intro n v hn hs
    have := h.2 _ hn
    simp only [Bool.or_eq_true, hs, beq_iff_eq, List.any_eq_true, Bool.and_eq_true,
      decide_eq_true_eq, false_or] at this
    obtain ⟨⟨x, u⟩, hx, rfl, hx'⟩ := this
    exact ⟨x, hx', hx⟩

/-- **C75**: the crate `tpm2` has these codes. -/
theorem C75_names :
    Errors.tpm2Table.map (·.1) = ["Asymmetric", "Value", "Size", "Selector", "BadTag", "Initialize",
      "Failure", "Sequence", "CommandSize", "CommandCode", "ContextGap", "ObjectMemory",
      "SessionMemory", "Memory"] := rfl

/-- **C75 (partial)**: every response code of the standard is there in the base
crate.  Missing: `BAD_TAG`. -/
theorem C75_complete_partial (x : String) (v : Nat) (hx : (x, v) ∈ RC) (hb : x ≠ "BAD_TAG") :
    ∃ n, RcNamed n x ∧ (n, v) ∈ Errors.baseTable := by
  have h := checkRc_true
  simp only [Bool.and_eq_true, List.all_eq_true] at h
  have := h.1.2 _ hx
  simp only [Bool.or_eq_true, hb, beq_iff_eq, List.any_eq_true, Bool.and_eq_true,
    decide_eq_true_eq, false_or] at this
  obtain ⟨⟨n, u⟩, hm, rfl, hn⟩ := this
  exact ⟨n, hn, hm⟩

set_option maxRecDepth 100000 in
/-- **C75 is violated**: in the crate `tpm2` the code `Sequence` is 0x102, which is
no response code, instead of 0x103; and the base crate has no `BAD_TAG`. -/
theorem C75_violated :
    ("Sequence", 0x102) ∈ Errors.tpm2Table ∧ ("SEQUENCE", 0x103) ∈ RC ∧
    (∀ x, (x, 0x102) ∉ RC) ∧
    ("BAD_TAG", 0x01E) ∈ RC ∧ (∀ n, (n, 0x01E) ∉ Errors.baseTable) := by
  have h1 : RC.all (fun p => p.2 != 0x102) = true := by decide +kernel
  have h2 : Errors.baseTable.all (fun p => p.2 != 0x01E) = true := by decide +kernel
  refine ⟨by decide, List.mem_of_getElem? (i := 3) rfl, fun x hx => ?_,
    List.mem_of_getElem? (i := 0) rfl, fun n hn => ?_⟩
  · simpa using List.all_eq_true.mp h1 _ hx
  · simpa using List.all_eq_true.mp h2 _ hn

/-- **C75**: a code of format one with the number of a parameter (`p = 1`), a handle or
a session added is no warning either. -/
theorem C75_annotated (x : String) (v p n : Nat) (hx : (x, v) ∈ RC_FMT1) (hp : p < 2) (hn : n < 16) :
    Errors.TpmRcError.isWarning ⟨v + 0x40 * p + 0x100 * n⟩ = false := by
  have h : RC_FMT1.all (fun q => (List.range 2).all fun p => (List.range 16).all fun n =>
      !(Errors.TpmRcError.isWarning ⟨q.2 + 0x40 * p + 0x100 * n⟩)) = true := by decide +kernel
  have h := List.all_eq_true.mp (List.all_eq_true.mp (List.all_eq_true.mp h _ hx) p
    (List.mem_range.mpr hp)) n (List.mem_range.mpr hn)
  simpa using h

/-- Parameter 9: bits 8 and 11 are those of a warning. -/
example : Errors.TpmRcError.isWarning ⟨0x084 + 0x40 * 1 + 0x100 * 9⟩ = false :=
  C75_annotated "VALUE" 0x084 1 9 (by decide) (by decide) (by decide)

/-- **C75**: of the codes of the standard, `is_warning` holds for exactly the
warnings. -/
theorem C75_warnings (x : String) (v : Nat) (hx : (x, v) ∈ RC) :
    (Errors.TpmRcError.isWarning ⟨v⟩ = true ↔ (x, v) ∈ RC_WARN) := by
  have h1 : (("BAD_TAG", 0x01E) :: (RC_VER1 ++ RC_FMT1)).all
      (fun p => !(Errors.TpmRcError.isWarning ⟨p.2⟩) && !RC_WARN.contains p) = true := by
    decide +kernel
  have h2 : RC_WARN.all (fun p => Errors.TpmRcError.isWarning ⟨p.2⟩) = true := by decide +kernel
  have hx' : (x, v) ∈ (("BAD_TAG", 0x01E) :: (RC_VER1 ++ RC_FMT1)) ++ RC_WARN := by
    simpa [RC, List.append_assoc] using hx
  rcases List.mem_append.mp hx' with h | h
  · have := List.all_eq_true.mp h1 _ h
    simp only [Bool.and_eq_true, Bool.not_eq_true', List.contains_eq_mem, decide_eq_false_iff_not] at this
    simp [this.1, this.2]
  · have := List.all_eq_true.mp h2 _ h
    simp only at this
    simp [this, h]

/-- Codes of each kind. -/
example : ("NVLocked", 0x148) ∈ Errors.baseTable ∧ RcNamed "NVLocked" "NV_LOCKED" ∧
    ("CAsymmetric", 0x081) ∈ Errors.baseTable ∧ RcNamed "CAsymmetric" "ASYMMETRIC" ∧
    ("Memory", 0x904) ∈ Errors.tpm2Table ∧ RcNamed "Memory" "MEMORY" ∧ ("MEMORY", 0x904) ∈ RC_WARN := by
  decide +kernel

/-! ### Attributes of the standard -/

/-- `TPMA_NV`: Part 2, clause 13.4; for base/src/lib.rs:62-109. -/
def NV_BITS : List (String × Nat) := [
  ("PPWRITE", 0), ("OWNERWRITE", 1), ("AUTHWRITE", 2), ("POLICYWRITE", 3), ("POLICY_DELETE", 10),
  ("WRITELOCKED", 11), ("WRITEALL", 12), ("WRITEDEFINE", 13), ("WRITE_STCLEAR", 14),
  ("GLOBALLOCK", 15), ("PPREAD", 16), ("OWNERREAD", 17), ("AUTHREAD", 18), ("POLICYREAD", 19),
  ("NO_DA", 25), ("ORDERLY", 26), ("CLEAR_STCLEAR", 27), ("READLOCKED", 28), ("WRITTEN", 29),
  ("PLATFORMCREATE", 30), ("READ_STCLEAR", 31)]
/-- `TPMA_CC`: Part 2, clause 8.9; for base/src/lib.rs:477-490. -/
def CC_BITS : List (String × Nat) := [
  ("nv", 22), ("extensive", 23), ("flushed", 24), ("rHandle", 28), ("V", 29)]
/-- `TPMA_OBJECT`: Part 2, clause 8.3 (bit 18 is written `sign / encrypt`); for
base/src/lib.rs:397-422. -/
def OBJECT_BITS : List (String × Nat) := [
  ("fixedTPM", 1), ("stClear", 2), ("fixedParent", 4), ("sensitiveDataOrigin", 5),
  ("userWithAuth", 6), ("adminWithPolicy", 7), ("noDA", 10), ("encryptedDuplication", 11),
  ("restricted", 16), ("decrypt", 17), ("sign_encrypt", 18), ("x509sign", 19)]
/-- `TPMA_ALGORITHM`: Part 2, clause 8.2; for base/src/lib.rs:431-447. -/
def ALGORITHM_BITS : List (String × Nat) := [
  ("asymmetric", 0), ("symmetric", 1), ("hash", 2), ("object", 3), ("signing", 8),
  ("encrypting", 9), ("method", 10)]
/-- `TPMA_SESSION`: Part 2, clause 8.4; for base/src/lib.rs:455-469. -/
def SESSION_BITS : List (String × Nat) := [
  ("continueSession", 0), ("auditExclusive", 1), ("auditReset", 2), ("decrypt", 5),
  ("encrypt", 6), ("audit", 7)]
/-- `TPMA_LOCALITY`: Part 2, clause 8.5; for base/src/lib.rs:38-46. -/
def LOCALITY_BITS : List (String × Nat) := [
  ("LOC_ZERO", 0), ("LOC_ONE", 1), ("LOC_TWO", 2), ("LOC_THREE", 3), ("LOC_FOUR", 4)]

/-- The attribute types with their widths, the flags of the crate and the bits of
the standard: base/src/lib.rs:36, 60, 395, 429, 453, 475. -/
def attributes : List (String × Nat × List (String × Nat) × List (String × Nat)) := [
  ("TpmaNv", 32, Base.nvFlags, NV_BITS), ("TpmaCc", 32, Base.ccFlags, CC_BITS),
  ("TpmaObject", 32, Base.objectFlags, OBJECT_BITS),
  ("TpmaAlgorithm", 32, Base.algorithmFlags, ALGORITHM_BITS),
  ("TpmaSession", 8, Base.sessionFlags, SESSION_BITS),
  ("TpmaLocality", 8, Base.localityFlags, LOCALITY_BITS)]

/-! ### C76 -/

set_option maxRecDepth 100000 in
theorem checkAttributes_true : attributes.all (fun (_, w, l, r) =>
    l.all (fun (n, k) => r.any fun (x, j) => k == j && decide (Named n x)) &&
    r.all (fun (x, j) => decide (j < w) && l.any fun (n, k) => k == j && decide (Named n x)) &&
    decide ((l.map (·.1)).Nodup) && decide ((l.map (·.2)).Nodup)) = true := by decide +kernel

/-- Flag `n` of a type is the bit `k`: `1 << k` (base/src/lib.rs:39-43 and so on). -/
def flag (w k : Nat) : BitVec w := 1#w <<< k

theorem getLsbD_flag (w k i : Nat) (hk : k < w) : (flag w k).getLsbD i = decide (i = k) := by
  unfold flag
  rw [BitVec.getLsbD_shiftLeft]
  have : (1#w).getLsbD (i - k) = decide (i - k = 0) := by
    rw [BitVec.getLsbD_one]; simp; omega
  rw [this]
  by_cases h : i = k
  · subst h; simp [hk]
  · by_cases h' : i < k
    · simp [h', h]
    · have : i - k ≠ 0 := by omega
      simp [this, h]

/-- **C76.** Every bit that the standard names has a flag of that name, which is
tested, set and cleared independently of all others; the crate has no other
flags. -/
theorem C76_flags (t : String) (w : Nat) (l r : List (String × Nat))
    (ht : (t, w, l, r) ∈ attributes) :
    (∀ x k, (x, k) ∈ r → ∃ n, Named n x ∧ (n, k) ∈ l ∧ ∀ word : BitVec w,
      Base.flagContains word (flag w k) = word.getLsbD k ∧
      (∀ i, (Base.flagInsert word (flag w k)).getLsbD i = (word.getLsbD i || decide (i = k))) ∧
      (∀ i, i < w → (Base.flagRemove word (flag w k)).getLsbD i =
        (word.getLsbD i && decide (i ≠ k)))) ∧
    (∀ n k, (n, k) ∈ l → ∃ x, Named n x ∧ (x, k) ∈ r) ∧
    (∀ n k j, (n, k) ∈ l → (n, j) ∈ l → k = j) ∧ (∀ n m k, (n, k) ∈ l → (m, k) ∈ l → n = m) := by
  have h := List.all_eq_true.mp checkAttributes_true _ ht
  simp only [Bool.and_eq_true, List.all_eq_true, decide_eq_true_eq] at h
  obtain ⟨⟨⟨h1, h2⟩, h3⟩, h4⟩ := h
  refine ⟨fun x k hx => ?_, fun n k hn => ?_, fun n k j hk hj => ?_, fun n m k hn hm => nodup_snd h4 hn hm⟩
  · obtain ⟨hw, hl⟩ := h2 _ hx
    simp only [List.any_eq_true, Bool.and_eq_true, beq_iff_eq, decide_eq_true_eq] at hl
    obtain ⟨⟨n, j⟩, hm, rfl, hn⟩ := hl
    simp only at hw
    refine ⟨n, hn, hm, fun word => ⟨?_, fun i => ?_, fun i hi => ?_⟩⟩
    · unfold Base.flagContains
      rw [Bool.eq_iff_iff, beq_iff_eq]
      constructor
      · intro e
        have := congrArg (fun b => b.getLsbD j) e
        simpa [BitVec.getLsbD_and, getLsbD_flag _ _ _ hw] using this
      · intro e
        apply BitVec.eq_of_getLsbD_eq
        intro i hi
        rw [BitVec.getLsbD_and, getLsbD_flag _ _ _ hw]
        by_cases h : i = j
        · subst h; simp [e]
        · simp [h]
    · simp [Base.flagInsert, BitVec.getLsbD_or, getLsbD_flag _ _ _ hw]
    · rw [Base.flagRemove, BitVec.getLsbD_and, BitVec.getLsbD_not, getLsbD_flag _ _ _ hw]
      simp [hi]
  · have := h1 _ hn
    simp only [List.any_eq_true, Bool.and_eq_true, beq_iff_eq, decide_eq_true_eq] at this
    obtain ⟨⟨x, j⟩, hx, rfl, hx'⟩ := this
    exact ⟨x, hx', hx⟩
  · exact key_unique h3 hk hj
where
  key_unique {n : String} {k j : Nat} : ∀ {l : List (String × Nat)}, (l.map (·.1)).Nodup →
      (n, k) ∈ l → (n, j) ∈ l → k = j
    | (m, u) :: l, hd, h1, h2 => by
      simp only [List.map_cons, List.nodup_cons, List.mem_map, not_exists, not_and] at hd
      rcases List.mem_cons.mp h1 with e1 | e1 <;> rcases List.mem_cons.mp h2 with e2 | e2
      · injection e1 with _ e1; injection e2 with _ e2; rw [e1, e2]
      · injection e1 with e1 _; exact absurd e1 (hd.1 (n, j) e2)
      · injection e2 with e2 _; exact absurd e2 (hd.1 (n, k) e1)
      · exact key_unique hd.2 e1 e2

/-- Bits `hi` to `lo` of a word, as the standard writes fields. -/
def bits (hi lo word : Nat) : Nat := word / 2 ^ lo % 2 ^ (hi + 1 - lo)

theorem getField (word mask : BitVec 32) (lo w : Nat) (h : (mask, lo, w) ∈ Base.attrFields) :
    (Base.getAttributeField word mask lo).toNat = bits (lo + w - 1) lo word.toNat := by
  have hw : 0 < w := by
    revert h; simp only [Base.attrFields, List.mem_cons, Prod.mk.injEq, List.not_mem_nil, or_false]
    rintro (h | h | h) <;> omega
  apply Nat.eq_of_testBit_eq
  intro i
  unfold bits
  have e : lo + w - 1 + 1 - lo = w := by omega
  rw [e, Nat.testBit_mod_two_pow, Nat.testBit_div_two_pow, BitVec.testBit_toNat, BitVec.testBit_toNat,
    Base.C19_get_field_bits _ h, Nat.add_comm lo i]

/-- **C76** for the fields: the index type of `TPMA_NV` is bits 7:4, the command
index of `TPMA_CC` bits 15:0, its number of handles bits 27:25, and a locality is
extended exactly if bits 7:5 of `TPMA_LOCALITY` are not zero. -/
theorem C76_fields (word : BitVec 32) (loc : BitVec 8) :
    (Base.nvGetIndexType word).toNat = bits 7 4 word.toNat ∧
    (Base.ccGetCommandIndex word).toNat = bits 15 0 word.toNat ∧
    (Base.ccGetCHandles word).toNat = bits 27 25 word.toNat ∧
    (Base.localityIsExtended loc = true ↔ bits 7 5 loc.toNat ≠ 0) := by
  refine ⟨?_, ?_, ?_, ?_⟩
  · unfold Base.nvGetIndexType
    rw [BitVec.toNat_setWidth, getField word Base.NT_MASK Base.NT_SHIFT 4 (by decide)]
    have : bits 7 4 word.toNat < 16 := Nat.mod_lt _ (by decide)
    exact Nat.mod_eq_of_lt (Nat.lt_trans this (by decide))
  · unfold Base.ccGetCommandIndex
    rw [BitVec.toNat_setWidth,
      getField word Base.COMMAND_INDEX_MASK Base.COMMAND_INDEX_SHIFT 16 (by decide)]
    exact Nat.mod_eq_of_lt (Nat.mod_lt _ (by decide))
  · exact getField word Base.C_HANDLES_MASK Base.C_HANDLES_SHIFT 3 (by decide)
  · revert loc
    decide

theorem set_bits (word value mask : BitVec 32) (lo w : Nat) (h : (mask, lo, w) ∈ Base.attrFields) :
    bits (lo + w - 1) lo (Base.setAttributeField word value mask lo).toNat = value.toNat % 2 ^ w ∧
    ∀ i, i < 32 → (i < lo ∨ lo + w ≤ i) →
      (Base.setAttributeField word value mask lo).getLsbD i = word.getLsbD i := by
  refine ⟨?_, fun i hi ho => ?_⟩
  · rw [← getField _ _ _ _ h, Base.C19_get_after_set _ h]
  · rw [Base.C19_set_field_bits _ h _ _ _ hi, if_neg]
    simp only [Base.inField, Bool.and_eq_true, decide_eq_true_eq]
    omega

/-- **C76** for writing the fields: these bits hold the value afterwards, the
other bits are as before. -/
theorem C76_set (word : BitVec 32) (t : BitVec 8) (idx : BitVec 16) (n : BitVec 32) :
    (bits 7 4 (Base.nvSetType word t).toNat = t.toNat % 16 ∧
      ∀ i, i < 32 → (i < 4 ∨ 8 ≤ i) → (Base.nvSetType word t).getLsbD i = word.getLsbD i) ∧
    (bits 15 0 (Base.ccSetCommandIndex word idx).toNat = idx.toNat ∧
      ∀ i, i < 32 → 16 ≤ i → (Base.ccSetCommandIndex word idx).getLsbD i = word.getLsbD i) ∧
    (bits 27 25 (Base.ccSetCHandles word n).toNat = n.toNat % 8 ∧
      ∀ i, i < 32 → (i < 25 ∨ 28 ≤ i) → (Base.ccSetCHandles word n).getLsbD i = word.getLsbD i) := by
  have h1 := set_bits word (t.setWidth 32) Base.NT_MASK Base.NT_SHIFT 4 (by decide)
  have h2 := set_bits word (idx.setWidth 32) Base.COMMAND_INDEX_MASK Base.COMMAND_INDEX_SHIFT 16
    (by decide)
  have h3 := set_bits word n Base.C_HANDLES_MASK Base.C_HANDLES_SHIFT 3 (by decide)
  refine ⟨⟨?_, h1.2⟩, ⟨?_, fun i hi hk => h2.2 i hi (.inr hk)⟩, ⟨h3.1, h3.2⟩⟩
  · have e : (t.setWidth 32).toNat = t.toNat := by
      rw [BitVec.toNat_setWidth]; exact Nat.mod_eq_of_lt (Nat.lt_trans t.isLt (by decide))
    have := h1.1
    rw [e] at this
    exact this
  · have e : (idx.setWidth 32).toNat = idx.toNat := by
      rw [BitVec.toNat_setWidth]; exact Nat.mod_eq_of_lt (Nat.lt_trans idx.isLt (by decide))
    have := h2.1
    rw [e] at this
    rw [show idx.toNat = idx.toNat % 2 ^ 16 from (Nat.mod_eq_of_lt idx.isLt).symm]
    exact this

/-- The attributes of `TPM2_NV_Write` (command index 0x137, NV, two handles). -/
example : bits 15 0 0x04400137 = 0x137 ∧ bits 27 25 0x04400137 = 2 ∧
    Base.flagContains (0x04400137 : BitVec 32) (flag 32 22) = true ∧
    ("NV", 22) ∈ Base.ccFlags ∧ Named "NV" "nv" := by decide +kernel

end Verif.Tcg
