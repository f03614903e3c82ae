import Verif.Base.Handle
import Verif.Codec.Unmarshal

/-
Property theorems C21 and C22: handles.
-/

namespace Verif.Base
open Verif Verif.Errors

/-- The handle type is the most significant byte, the rest is the handle's
number (TPM 2.0 Part 2, 7.2). -/
def handleType (v : Nat) : Nat := v / 0x1000000
/-- The number of a handle within its type. -/
def handleNumber (v : Nat) : Nat := v % 0x1000000

private theorem hc1 : hcNew Ht.NVIndex = 16777216 := by decide
private theorem hc2 : hcNew Ht.HMACSession = 33554432 := by decide
private theorem hc3 : hcNew Ht.PolicySession = 50331648 := by decide

/-- **C21.** The checked conversions accept exactly the specified handles and
keep the value. -/
theorem C21_classification (v : Nat) :
    (nvIndexTryFrom v = if handleType v = 1 then .ok (.struct [.int v]) else .err .Value) ∧
    (authSessionTryFrom v =
      if (handleType v = 2 ∧ handleNumber v < 64) ∨ (handleType v = 3 ∧ handleNumber v < 64) ∨
        v = 0x40000009 then .ok (.struct [.int v]) else .err .Value) := by
  constructor
  · unfold nvIndexTryFrom
    have : isNvIndex v = true ↔ handleType v = 1 := by
      simp only [isNvIndex, hc1, handleType, Bool.and_eq_true, decide_eq_true_eq]
      omega
    by_cases h : handleType v = 1 <;> simp [h, this]
  · unfold authSessionTryFrom
    have : (isHmacSession v || isPolicySession v || v == RS_PW) = true ↔
        ((handleType v = 2 ∧ handleNumber v < 64) ∨ (handleType v = 3 ∧ handleNumber v < 64) ∨
        v = 0x40000009) := by
      simp only [isHmacSession, isPolicySession, hc2, hc3, RS_PW,
        maxActiveSessions, handleType, handleNumber, Bool.and_eq_true, Bool.or_eq_true,
        decide_eq_true_eq, beq_iff_eq]
      omega
    simp only [this]

/-- **C21.** No value is both an NV index and an authorization session, the
HMAC-session, policy-session and password handles differ, and accepted values
have 32 bits. -/
theorem C21_disjoint (v : Nat) :
    ¬ ((nvIndexTryFrom v).isOk = true ∧ (authSessionTryFrom v).isOk = true) ∧
    ¬ (handleType v = 2 ∧ handleType v = 3) ∧
    ¬ (handleType v = 2 ∧ v = 0x40000009) ∧ ¬ (handleType v = 3 ∧ v = 0x40000009) ∧
    ((nvIndexTryFrom v).isOk = true ∨ (authSessionTryFrom v).isOk = true → v < 0x100000000) := by
  obtain ⟨h1, h2⟩ := C21_classification v
  have e1 : (nvIndexTryFrom v).isOk = true ↔ handleType v = 1 := by
    rw [h1]; split <;> simp [Res.isOk, *]
  have e2 : (authSessionTryFrom v).isOk = true ↔
      ((handleType v = 2 ∧ handleNumber v < 64) ∨ (handleType v = 3 ∧ handleNumber v < 64) ∨
        v = 0x40000009) := by
    rw [h2]; split <;> simp only [Res.isOk, *] <;> simp
  rw [e1, e2]
  simp only [handleType, handleNumber]
  omega

example : nvIndexTryFrom 0x01C00002 = .ok (.struct [.int 0x01C00002]) ∧
    nvIndexTryFrom 0x02000000 = .err .Value ∧
    authSessionTryFrom 0x0300003F = .ok (.struct [.int 0x0300003F]) ∧
    authSessionTryFrom 0x03000040 = .err .Value := ⟨rfl, rfl, rfl, rfl⟩

/-! ### C22 -/

/-- **C22 is violated**: unmarshalling accepts handles that the checked
conversion rejects (the derived implementation does not check ranges). -/
theorem C22_violated :
    unmarshal TpmiRhNvIndex [0x81, 0, 0, 1] = (.ok (.struct [.int 0x81000001]), []) ∧
    nvIndexTryFrom 0x81000001 = .err .Value ∧
    unmarshal TpmiShAuthSession [0x80, 0, 0, 0] = (.ok (.struct [.int 0x80000000]), []) ∧
    authSessionTryFrom 0x80000000 = .err .Value := ⟨rfl, rfl, rfl, rfl⟩

/-- **C22 (partial).** Unmarshalling either handle type delivers exactly the
four-byte value on the wire, so a caller can apply the range check afterwards;
the check itself is missing for every value. -/
theorem C22_wire_value_partial (b rest : Bytes) (hb : b.length = 4) :
    unmarshal TpmiRhNvIndex (b ++ rest) = (.ok (.struct [.int (positional b)]), rest) ∧
    unmarshal TpmiShAuthSession (b ++ rest) = (.ok (.struct [.int (positional b)]), rest) := by
  have h := positional_lt b
  rw [hb] at h
  have hd := digits256_positional b
  rw [hb] at hd
  have key : unmarshal (S [u32]) (b ++ rest) = (.ok (.struct [.int (positional b)]), rest) := by
    have := (goodTy (S [u32])).complete (.struct [.int (positional b)]) rest
      (by simpa [WF, WFFields, S, plains] using h)
    simpa [wire, wireFields, canon, canonFields, S, plains, hd] using this
  exact ⟨key, key⟩

end Verif.Base
