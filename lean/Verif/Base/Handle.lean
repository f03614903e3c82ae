import Verif.Base.Types
import Verif.Codec.Impl
import Verif.Errors.Impl

/-
Model of handle classification and the range-checked handle types:
base/src/constants.rs:650-744, base/src/lib.rs:301-338.
-/

namespace Verif.Base
open Verif Verif.Errors

/-! `TpmHt`: base/src/constants.rs:654-663. -/
namespace Ht
def NVIndex := 0x01
def HMACSession := 0x02
def PolicySession := 0x03
def Persistent := 0x81
end Ht

/-- `TpmHc::new`: base/src/constants.rs:693-695. -/
def hcNew (ht : Nat) : Nat := ht <<< 24
/-- `TPM2_MAX_ACTIVE_SESSIONS`: base/src/constants.rs:31. -/
def maxActiveSessions : Nat := 64
/-- `TpmHc::is_hmac_session`: base/src/constants.rs:720-722. -/
def isHmacSession (v : Nat) : Bool :=
  hcNew Ht.HMACSession ≤ v && v ≤ hcNew Ht.HMACSession + maxActiveSessions - 1
/-- `TpmHc::is_policy_session`: base/src/constants.rs:729-731. -/
def isPolicySession (v : Nat) : Bool :=
  hcNew Ht.PolicySession ≤ v && v ≤ hcNew Ht.PolicySession + maxActiveSessions - 1
/-- `TpmHc::is_nv_index`: base/src/constants.rs:741-743. -/
def isNvIndex (v : Nat) : Bool := hcNew Ht.NVIndex ≤ v && v ≤ hcNew Ht.NVIndex + 0x00FFFFFF
/-- `TpmHandle::RSPW`, `TpmiShAuthSession::RS_PW`: base/src/constants.rs:674,
base/src/lib.rs:335-338. -/
def RS_PW : Nat := 0x40000009

/-- `TryFrom<u32> for TpmiRhNvIndex`: base/src/lib.rs:306-315. -/
def nvIndexTryFrom (v : Nat) : Res TpmRcError Val :=
  if isNvIndex v then .ok (.struct [.int v]) else .err .Value

/-- `TryFrom<u32> for TpmiShAuthSession`: base/src/lib.rs:322-334. -/
def authSessionTryFrom (v : Nat) : Res TpmRcError Val :=
  if isHmacSession v || isPolicySession v || v == RS_PW then .ok (.struct [.int v])
  else .err .Value

end Verif.Base
