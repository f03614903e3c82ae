import Verif.Client.Impl
import Verif.Codec.Spec

/-
Specification of TPM commands and responses (TPM 2.0 part 1, "Command and
Response Structure"), stated independently of buffers and offsets.
-/

namespace Verif.Client
open Verif Verif.Base Verif.Errors

/-- The sessions of an authorization area: up to the first missing one. -/
def Area.active (a : Area) : List Session :=
  match a.s1, a.s2, a.s3 with
  | none, _, _ => []
  | some s, none, _ => [s]
  | some s, some t, none => [s, t]
  | some s, some t, some u => [s, t, u]

/-- A connection whose every use is written down: the commands handed to it, in
order, with the buffers for their responses. -/
def recording {σ ε : Type} (tr : Transport σ ε) : Transport (σ × List (Bytes × Bytes)) ε where
  transact s cmd rsp :=
    ((tr.transact s.1 cmd rsp).1, (tr.transact s.1 cmd rsp).2.1,
      ((tr.transact s.1 cmd rsp).2.2, s.2 ++ [(cmd, rsp)]))
  keeps_length s cmd rsp := tr.keeps_length s.1 cmd rsp
  reports_slice s cmd rsp := tr.reports_slice s.1 cmd rsp

/-- The encodings of a list of values of one type, one after the other. -/
def wires (t : Ty) (vs : List Val) : Bytes := (vs.map (wire t)).flatten

/-- The authorization area of a command: nothing without authorizations,
otherwise its size and the authorizations in order. -/
def authArea (ss : List Session) : Bytes :=
  if ss.isEmpty then []
  else
    let auths := wires TpmsAuthCommand (ss.map (·.authCommand))
    digits256 4 auths.length ++ auths

/-- What follows the header of a command. -/
def commandBody (c : Command) (ss : List Session) : Bytes :=
  wire c.handlesTy c.handles ++ authArea ss ++ wire c.paramTy c.param

/-- A TPM command: tag, size of the whole command, command code and body. -/
def commandBytes (c : Command) (ss : List Session) : Bytes :=
  digits256 2 (if ss.isEmpty then 0x8001 else 0x8002) ++
  digits256 4 (10 + (commandBody c ss).length) ++ digits256 4 c.code ++ commandBody c ss

/-- The contents of a successful response: response handles, the parameter
size (present exactly if the tag says sessions), parameters and authorization
responses. -/
structure Response where
  tag : Nat
  handles : Val
  paramSize : Nat
  params : Val
  auths : List Val

/-- What follows the header of a response. -/
def responseBody (c : Command) (r : Response) : Bytes :=
  wire c.respHandlesTy r.handles ++ (if r.tag = 0x8002 then digits256 4 r.paramSize else []) ++
  wire c.respTy r.params ++ wires TpmsAuthResponse r.auths

/-- A successful TPM response: tag, size of the whole response, response code
zero and body. -/
def responseBytes (c : Command) (r : Response) : Bytes :=
  digits256 2 r.tag ++ digits256 4 (10 + (responseBody c r).length) ++ digits256 4 0 ++
  responseBody c r

/-- The parts of a response are well-formed values of their types. -/
def Response.WellFormed (c : Command) (r : Response) : Prop :=
  r.tag < 65536 ∧ r.paramSize < 2 ^ 32 ∧ WF c.respHandlesTy r.handles ∧
  WF c.respTy r.params ∧ ∀ v ∈ r.auths, WF TpmsAuthResponse v

/-- Every session accepts its authorization response, in order. -/
def Accepted : List Session → List Val → Prop
  | [], [] => True
  | s :: ss, v :: vs => s.validate v = none ∧ Accepted ss vs
  | _, _ => False

/-- The client's values are well-formed. -/
structure CmdWF (c : Command) (a : Area) : Prop where
  code : c.code < 2 ^ 32
  handles : WF c.handlesTy c.handles
  param : WF c.paramTy c.param
  auths : ∀ s ∈ a.active, WF TpmsAuthCommand s.authCommand

end Verif.Client
