import Verif.Client.Live

/-
Model of the client with an authorization area that does as it pleases: the
trait `AuthorizationArea` is public, so a caller may implement both of its
methods, and they may answer differently at every call.
-/

namespace Verif.Client
open Verif Verif.Base Verif.Errors

/-- `AuthorizationArea`: crates/tpm2-client/src/sessions/authorization_area/mod.rs:10-15.
`ω` is the state of the program, `none` a panic.  The result of `decompose_ref` is
given as the three optional sessions. -/
structure FreeArea (ω : Type) where
  isEmpty : ω → Option Bool × ω
  decompose : ω → Option (LiveArea ω) × ω

/-- An implementation of `decompose_ref` with the provided `is_empty`:
crates/tpm2-client/src/sessions/authorization_area/mod.rs:12-14. -/
def FreeArea.provided {ω : Type} (decompose : ω → Option (LiveArea ω) × ω) : FreeArea ω where
  isEmpty w :=
    match decompose w with
    | (none, w) => (none, w)
    | (some d, w) => (some d.s1.isNone, w)
  decompose := decompose

/-- `()`: crates/tpm2-client/src/sessions/authorization_area/s0.rs:3-7. -/
def free0 {ω : Type} : FreeArea ω := .provided fun w => (some ⟨none, none, none⟩, w)
/-- A single session: crates/tpm2-client/src/sessions/authorization_area/s1.rs:3-7. -/
def free1 {ω : Type} (s : LiveSession ω) : FreeArea ω :=
  .provided fun w => (some ⟨some s, none, none⟩, w)
/-- `(T, U)`: crates/tpm2-client/src/sessions/authorization_area/s2.rs:5-9. -/
def free2 {ω : Type} (s t : LiveSession ω) : FreeArea ω :=
  .provided fun w => (some ⟨some s, some t, none⟩, w)
/-- `(T, U, V)`: crates/tpm2-client/src/sessions/authorization_area/s3.rs:3-7. -/
def free3 {ω : Type} (s t u : LiveSession ω) : FreeArea ω :=
  .provided fun w => (some ⟨some s, some t, some u⟩, w)

/-- `AuthorizationArea1Plus::decompose_ref`, the result:
crates/tpm2-client/src/sessions/authorization_area/mod.rs:18-22. -/
abbrev Plus1 (ω : Type) : Type :=
  LiveSession ω × Option (LiveSession ω) × Option (LiveSession ω)
/-- `AuthorizationArea2Plus::decompose_ref`, the result:
crates/tpm2-client/src/sessions/authorization_area/mod.rs:25-29. -/
abbrev Plus2 (ω : Type) : Type := LiveSession ω × LiveSession ω × Option (LiveSession ω)

/-- A single session: crates/tpm2-client/src/sessions/authorization_area/s1.rs:8-12. -/
def plus1of1 {ω : Type} (s : LiveSession ω) : Plus1 ω := (s, none, none)
/-- `(T, U)`: crates/tpm2-client/src/sessions/authorization_area/s2.rs:11-15. -/
def plus1of2 {ω : Type} (s t : LiveSession ω) : Plus1 ω := (s, some t, none)
/-- `(T, U)`: crates/tpm2-client/src/sessions/authorization_area/s2.rs:17-21. -/
def plus2of2 {ω : Type} (s t : LiveSession ω) : Plus2 ω := (s, t, none)
/-- `(T, U, V)`: crates/tpm2-client/src/sessions/authorization_area/s3.rs:8-12. -/
def plus1of3 {ω : Type} (s t u : LiveSession ω) : Plus1 ω := (s, some t, some u)
/-- `(T, U, V)`: crates/tpm2-client/src/sessions/authorization_area/s3.rs:13-17. -/
def plus2of3 {ω : Type} (s t u : LiveSession ω) : Plus2 ω := (s, t, some u)

/-- `write_command_sessions`: crates/tpm2-client/src/lib.rs:73-106. -/
def writeCommandSessionsF {ω : Type} (a : FreeArea ω) (buffer : Bytes) (w : ω) : LOut ω :=
  match a.isEmpty w with
  | (none, w) => ((.panic, buffer), w)
  | (some true, w) => ((.ok 0, buffer), w)
  | (some false, w) =>
    match a.decompose w with
    | (none, w) => ((.panic, buffer), w)
    | (some d, w) =>
      match d.s1 with
      | none => (marshalAuthSize 4 buffer, w)
      | some s1 =>
        lthen (writeAuthL s1 4 buffer w) fun authOffset buffer w =>
        match d.s2 with
        | none => (marshalAuthSize authOffset buffer, w)
        | some s2 =>
          lthen (writeAuthL s2 authOffset buffer w) fun authOffset buffer w =>
          match d.s3 with
          | none => (marshalAuthSize authOffset buffer, w)
          | some s3 =>
            lthen (writeAuthL s3 authOffset buffer w) fun authOffset buffer w =>
            (marshalAuthSize authOffset buffer, w)

/-- The first part of `run_command_with_handles`, which fills the command
buffer: crates/tpm2-client/src/lib.rs:155-173. -/
def buildCommandF {ω : Type} (c : Command) (a : FreeArea ω) (w : ω) : LOut ω :=
  let buf := List.replicate cmdBufferSize 0
  match a.isEmpty w with
  | (none, w) => ((.panic, buf), w)
  | (some empty, w) =>
    lthen (toTss (marshal CmdHeader (cmdHeader empty c.code 0) buf), w) fun written buf w =>
    lthen (tstep (fun b => toTss (marshal c.handlesTy c.handles b)) written buf, w)
      fun written buf w =>
    lthen (lstep (writeCommandSessionsF a) written buf w) fun written buf w =>
    lthen (tstep (fun b => toTss (marshal c.paramTy c.param b)) written buf, w) fun written buf w =>
    lthen (toTss (marshal CmdHeader (cmdHeader empty c.code (written % 2 ^ 32)) buf), w)
      fun _ buf w => ((.ok written, buf), w)

/-- `read_response_sessions`: crates/tpm2-client/src/lib.rs:119-139. -/
def readResponseSessionsF {ω : Type} (a : FreeArea ω) (b : Bytes) (w : ω) : Res TssError Bytes × ω :=
  match a.decompose w with
  | (none, w) => (.panic, w)
  | (some d, w) => readResponseSessionsL d b w

/-- Response handles, parameter size, parameters, sessions and the check that
nothing is left: crates/tpm2-client/src/lib.rs:184-194. -/
def readBodyF {ω : Type} (c : Command) (a : FreeArea ω) (tag : Nat) (b : Bytes) (w : ω) :
    Res TssError (Val × Val) × ω :=
  lbind (tum c.respHandlesTy b, w) fun h w =>
  lbind (if tag = St.Sessions then (tum u32 h.2).map (·.2) else .ok h.2, w) fun b w =>
  lbind (tum c.respTy b, w) fun p w =>
  lbind (readResponseSessionsF a p.2 w) fun b w =>
  (if b.isEmpty then .ok (p.1, h.1) else .err tcsTpmUnexpected, w)

/-- The part of `run_command_with_handles` after the transaction:
crates/tpm2-client/src/lib.rs:178-194. -/
def readResponseF {ω : Type} (c : Command) (a : FreeArea ω) (respBuffer : Bytes) (w : ω) :
    Res TssError (Val × Val) × ω :=
  lbind (readResponseHeader respBuffer, w) fun x w =>
  if x.2.1 > respBuffer.length then (.err tcsOutOfMemory, w)
  else if x.2.2 ≤ x.2.1 ∧ x.2.1 ≤ respBuffer.length then
    readBodyF c a x.1 ((respBuffer.take x.2.1).drop x.2.2) w
  else (.panic, w)

/-- `run_command_with_handles`: crates/tpm2-client/src/lib.rs:142-195. -/
def runFree {ω ε : Type} (tr : LiveTransport ω ε) (c : Command) (a : FreeArea ω) (w : ω) :
    Run ω ε (Val × Val) :=
  match buildCommandF c a w with
  | ((.err e, _), w) => ⟨.err (.tss e), w⟩
  | ((.panic, _), w) => ⟨.panic, w⟩
  | ((.ok written, cmdBuffer), w) =>
    match sliceTo cmdBuffer written with
    | none => ⟨.panic, w⟩
    | some cmd =>
      match tr.transact w cmd (List.replicate respBufferSize 0) with
      | (none, _, w) => ⟨.panic, w⟩
      | (some (.failed e), _, w) => ⟨.err (.conn e), w⟩
      | (some (.reported _), respBuffer, w) =>
        let r := readResponseF c a respBuffer w
        ⟨r.1.mapErr .tss, r.2⟩

/-! ### Specification -/

/-- The command for an area that first said whether it is empty (`empty`) and then
gave these authorizations (`none`: it said it is empty): the first answer decides
the tag, the second the authorization area. -/
def framed (c : Command) (empty : Bool) (auths : Option (List Val)) : Bytes :=
  let area := match auths with
    | none => []
    | some vs => digits256 4 (wires TpmsAuthCommand vs).length ++ wires TpmsAuthCommand vs
  let body := wire c.handlesTy c.handles ++ area ++ wire c.paramTy c.param
  digits256 2 (if empty then 0x8001 else 0x8002) ++ digits256 4 (10 + body.length) ++
    digits256 4 c.code ++ body

/-- What an area answers while a command is built: whether it is empty, twice; if
the second answer is no, its sessions, and these are asked for their
authorizations.  With the first answer, the authorizations, and the states before
and after. -/
inductive Gives {ω : Type} (a : FreeArea ω) (w : ω) : Bool → Option (List Val) → ω → Prop
  | nothing {empty : Bool} {w1 w2 : ω} (h1 : a.isEmpty w = (some empty, w1))
      (h2 : a.isEmpty w1 = (some true, w2)) : Gives a w empty none w2
  | auths {empty : Bool} {w1 w2 w3 w4 : ω} {d : LiveArea ω} {vs : List Val}
      (h1 : a.isEmpty w = (some empty, w1)) (h2 : a.isEmpty w1 = (some false, w2))
      (h3 : a.decompose w2 = (some d, w3)) (h4 : Answers d.active w3 vs w4) :
      Gives a w empty (some vs) w4

/-- The values of the command can be encoded, and the command fits. -/
def Sendable (c : Command) (empty : Bool) (auths : Option (List Val)) : Prop :=
  WF c.handlesTy c.handles ∧ WF c.paramTy c.param ∧
  (∀ vs, auths = some vs → ∀ v ∈ vs, WF TpmsAuthCommand v) ∧ (framed c empty auths).length ≤ 4096

/-- The area `a`, looked at from outside: it has the sessions of `d`, always. -/
def FreeArea.Is {ω : Type} (a : FreeArea ω) (d : LiveArea ω) : Prop :=
  ∀ w, a.isEmpty w = (some d.active.isEmpty, w) ∧ a.decompose w = (some d, w)

end Verif.Client
