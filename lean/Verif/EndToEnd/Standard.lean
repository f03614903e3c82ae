import Verif.EndToEnd.ProgramProps
import Verif.Client.Outcome

/-
Specification for C111: programs with a TPM that answers commands as the standard says, in terms of
commands and answers instead of bytes.
-/

namespace Verif.EndToEnd
open Verif Verif.Base Verif.Errors Verif.Client Verif.Tcp

variable {τ α : Type}

/-- What a TPM answers to a command: a response code, or response handles, parameters and
authorization responses. -/
inductive Answer where
  | failure (rc : Nat)
  | success (handles params : Val) (auths : List Val)

/-- A TPM: what it answers to a command with authorizations at a locality, and its next state. -/
abbrev Tpm (τ : Type) := τ → Nat → Command → List Val → Answer × τ

/-- The answer as the standard (TPM 2.0 part 1, "Command and Response Structure") says: a failure
is a header; a success has the tag of the command, and with sessions the size of the parameters. -/
def Answer.bytes (c : Command) (sessions : Bool) : Answer → Bytes
  | .failure rc => digits256 2 0x8001 ++ digits256 4 10 ++ digits256 4 rc
  | .success h p auths =>
    responseBytes c ⟨if sessions then 0x8002 else 0x8001, h, (wire c.respTy p).length, p, auths⟩

/-- The device answers the commands in `known` as the TPM does. -/
def Conforms (d : Device τ) (known : Command → Prop) (tpm : Tpm τ) : Prop :=
  ∀ t l c a, known c → CmdWF c a → d.send t l (commandBytes c a.active) =
    ((tpm t l c (a.active.map (·.authCommand))).1.bytes c (!a.active.isEmpty),
      (tpm t l c (a.active.map (·.authCommand))).2)

/-- The first session to refuse its authorization response does so with this error. -/
inductive Refused : List Session → List Val → TssError → Prop
  | here {s ss v vs e} : s.validate v = some e → Refused (s :: ss) (v :: vs) e
  | later {s ss v vs e} : s.validate v = none → Refused ss vs e → Refused (s :: ss) (v :: vs) e

/-- What a program gets from the TPM.  Commands fit into the buffer of the client, and so do the
answers; the answers consist of values of the types of the command.  Calls that are not commands
are those of C83. -/
inductive Prog.Meets (d : Device τ) (known : Command → Prop) (tpm : Tpm τ) :
    Prog α → Nat → τ → α → Nat → τ → Prop
  | done {x l t} : Meets d known tpm (.done x) l t x l t
  | other {y k l t o l1 t1 x l' t'} : (∀ c a, y ≠ .command c a) →
      ideal d y l t = some (o, l1, t1) → Meets d known tpm (k o) l1 t1 x l' t' →
      Meets d known tpm (.call y k) l t x l' t'
  | failure {c a k l t rc t1 x l' t'} : known c → CmdWF c a →
      (commandBytes c a.active).length ≤ 4096 →
      tpm t l c (a.active.map (·.authCommand)) = (.failure rc, t1) → rc ≠ 0 → rc < 2 ^ 32 →
      Meets d known tpm (k (.result (.err ⟨rc⟩))) l t1 x l' t' →
      Meets d known tpm (.call (.command c a) k) l t x l' t'
  | success {c a k l t hv pv auths t1 x l' t'} : known c → CmdWF c a →
      (commandBytes c a.active).length ≤ 4096 →
      tpm t l c (a.active.map (·.authCommand)) = (.success hv pv auths, t1) →
      WF c.respHandlesTy hv → WF c.respTy pv → (∀ v ∈ auths, WF TpmsAuthResponse v) →
      ((Answer.success hv pv auths).bytes c (!a.active.isEmpty)).length ≤ 4096 →
      Accepted a.active (auths.map (canon TpmsAuthResponse)) →
      Meets d known tpm (k (.result (.ok (canon c.respTy pv, canon c.respHandlesTy hv)))) l t1 x l' t' →
      Meets d known tpm (.call (.command c a) k) l t x l' t'
  | refused {c a k l t hv pv auths t1 e x l' t'} : known c → CmdWF c a →
      (commandBytes c a.active).length ≤ 4096 →
      tpm t l c (a.active.map (·.authCommand)) = (.success hv pv auths, t1) →
      WF c.respHandlesTy hv → WF c.respTy pv → (∀ v ∈ auths, WF TpmsAuthResponse v) →
      ((Answer.success hv pv auths).bytes c (!a.active.isEmpty)).length ≤ 4096 →
      Refused a.active (auths.map (canon TpmsAuthResponse)) e →
      Meets d known tpm (k (.result (.err e))) l t1 x l' t' →
      Meets d known tpm (.call (.command c a) k) l t x l' t'

end Verif.EndToEnd
