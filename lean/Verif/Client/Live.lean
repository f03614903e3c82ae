import Verif.Client.Spec

/-
Model of the client with sessions and a connection that do as they please: every
call of one of their methods may change the state of the program (of all
sessions, of the connection, of anything they share) and may panic.  The
functions are those of `Verif.Client.Impl`; there a session is a constant.
-/

namespace Verif.Client
open Verif Verif.Base Verif.Errors

/-- `Session`: crates/tpm2-client/src/sessions/session.rs:4-9.  `ω` is the state
of the program.  `none` is a panic of `get_auth_command`. -/
structure LiveSession (ω : Type) where
  authCommand : ω → Option Val × ω
  validate : Val → ω → Res TssError Unit × ω

/-- `AuthorizationArea`: the result of `decompose_ref`,
crates/tpm2-client/src/sessions/authorization_area/mod.rs:10-11.  Simplified: it
is the same at every call, as it is for the implementations s0.rs to s3.rs. -/
structure LiveArea (ω : Type) where
  s1 : Option (LiveSession ω)
  s2 : Option (LiveSession ω)
  s3 : Option (LiveSession ω)

/-- `is_empty`: crates/tpm2-client/src/sessions/authorization_area/mod.rs:12-14. -/
def LiveArea.isEmpty {ω : Type} (a : LiveArea ω) : Bool := a.s1.isNone

/-- `Connection`: crates/tpm2-client/src/connection/mod.rs:11-26.  `none` is a
panic of `transact`. -/
structure LiveTransport (ω ε : Type) where
  transact : ω → Bytes → Bytes → Option (Outcome ε) × Bytes × ω
  keeps_length : ∀ w cmd rsp, (transact w cmd rsp).2.1.length = rsp.length

/-- `NoSession`: crates/tpm2-client/src/sessions/nosession.rs:8-23. -/
def noSession {ω : Type} : LiveSession ω := ⟨fun w => (none, w), fun _ w => (.panic, w)⟩

/-- `PasswordSession` and any other session without changing state: both methods
take `&self` (crates/tpm2-client/src/sessions/password.rs:54-74). -/
def Session.live {ω : Type} (s : Session) : LiveSession ω :=
  ⟨fun w => (some s.authCommand, w), fun x w =>
    (match s.validate x with
     | none => .ok ()
     | some e => .err e, w)⟩

/-- A connection that does not panic: crates/tpm2-client/src/connection/mod.rs:11-26. -/
def Transport.live {ω ε : Type} (tr : Transport ω ε) : LiveTransport ω ε where
  transact w cmd rsp := (some (tr.transact w cmd rsp).1, (tr.transact w cmd rsp).2)
  keeps_length := tr.keeps_length

/-- An authorization area of such sessions:
crates/tpm2-client/src/sessions/authorization_area/s3.rs:3-7. -/
def Area.live {ω : Type} (a : Area) : LiveArea ω :=
  ⟨a.s1.map Session.live, a.s2.map Session.live, a.s3.map Session.live⟩

/-! ### Commands -/

/-- A function on a buffer that may change the state of the program. -/
abbrev LOut (ω : Type) : Type := TOut × ω

/-- `tthen` with the state of the program. -/
def lthen {ω : Type} (r : LOut ω) (k : Nat → Bytes → ω → LOut ω) : LOut ω :=
  match r with
  | ((.ok n, buf), w) => k n buf w
  | ((.err e, buf), w) => ((.err e, buf), w)
  | ((.panic, buf), w) => ((.panic, buf), w)

/-- `tstep` with the state of the program. -/
def lstep {ω : Type} (f : Bytes → ω → LOut ω) (written : Nat) (buf : Bytes) (w : ω) : LOut ω :=
  if written ≤ buf.length then
    match f (buf.drop written) w with
    | ((.ok n, sub), w) => ((.ok (written + n), buf.take written ++ sub), w)
    | ((.err e, sub), w) => ((.err e, buf.take written ++ sub), w)
    | ((.panic, sub), w) => ((.panic, buf.take written ++ sub), w)
  else ((.panic, buf), w)

/-- `auth_offset += s.get_auth_command().try_marshal(&mut buffer[auth_offset..])?`:
crates/tpm2-client/src/lib.rs:90-92.  The method is called before the buffer is
sliced. -/
def writeAuthL {ω : Type} (s : LiveSession ω) (authOffset : Nat) (buffer : Bytes) (w : ω) : LOut ω :=
  match s.authCommand w with
  | (none, w) => ((.panic, buffer), w)
  | (some v, w) => (tstep (fun b => toTss (marshal TpmsAuthCommand v b)) authOffset buffer, w)

/-- `write_command_sessions`: crates/tpm2-client/src/lib.rs:73-106. -/
def writeCommandSessionsL {ω : Type} (a : LiveArea ω) (buffer : Bytes) (w : ω) : LOut ω :=
  if a.isEmpty then ((.ok 0, buffer), w)
  else
    match a.s1 with
    | none => (marshalAuthSize 4 buffer, w)
    | some s1 =>
      lthen (writeAuthL s1 4 buffer w) fun authOffset buffer w =>
      match a.s2 with
      | none => (marshalAuthSize authOffset buffer, w)
      | some s2 =>
        lthen (writeAuthL s2 authOffset buffer w) fun authOffset buffer w =>
        match a.s3 with
        | none => (marshalAuthSize authOffset buffer, w)
        | some s3 =>
          lthen (writeAuthL s3 authOffset buffer w) fun authOffset buffer w =>
          (marshalAuthSize authOffset buffer, w)

/-- The first part of `run_command_with_handles`, which fills the command
buffer: crates/tpm2-client/src/lib.rs:155-173. -/
def buildCommandL {ω : Type} (c : Command) (a : LiveArea ω) (w : ω) : LOut ω :=
  let buf := List.replicate cmdBufferSize 0
  lthen (toTss (marshal CmdHeader (cmdHeader a.isEmpty c.code 0) buf), w) fun written buf w =>
  lthen (tstep (fun b => toTss (marshal c.handlesTy c.handles b)) written buf, w)
    fun written buf w =>
  lthen (lstep (writeCommandSessionsL a) written buf w) fun written buf w =>
  lthen (tstep (fun b => toTss (marshal c.paramTy c.param b)) written buf, w) fun written buf w =>
  lthen (toTss (marshal CmdHeader (cmdHeader a.isEmpty c.code (written % 2 ^ 32)) buf), w)
    fun _ buf w => ((.ok written, buf), w)

/-! ### Responses -/

/-- `Res.bind` with the state of the program. -/
def lbind {ω α β : Type} (r : Res TssError α × ω) (k : α → ω → Res TssError β × ω) :
    Res TssError β × ω :=
  match r with
  | (.ok x, w) => k x w
  | (.err e, w) => (.err e, w)
  | (.panic, w) => (.panic, w)

/-- `TpmsAuthResponse::try_unmarshal(buffer)?; s.validate_auth_response(&auth)?`:
crates/tpm2-client/src/lib.rs:130-131. -/
def readAuthL {ω : Type} (s : LiveSession ω) (b : Bytes) (w : ω) : Res TssError Bytes × ω :=
  lbind (tum TpmsAuthResponse b, w) fun x w =>
  lbind (s.validate x.1 w) fun _ w => (.ok x.2, w)

/-- `read_response_sessions`: crates/tpm2-client/src/lib.rs:119-139. -/
def readResponseSessionsL {ω : Type} (a : LiveArea ω) (b : Bytes) (w : ω) : Res TssError Bytes × ω :=
  match a.s1 with
  | none => (.ok b, w)
  | some s1 =>
    lbind (readAuthL s1 b w) fun b w =>
    match a.s2 with
    | none => (.ok b, w)
    | some s2 =>
      lbind (readAuthL s2 b w) fun b w =>
      match a.s3 with
      | none => (.ok b, w)
      | some s3 => lbind (readAuthL s3 b w) fun b w => (.ok b, w)

/-- Response handles, parameter size, parameters, sessions and the check that
nothing is left: crates/tpm2-client/src/lib.rs:184-194. -/
def readBodyL {ω : Type} (c : Command) (a : LiveArea ω) (tag : Nat) (b : Bytes) (w : ω) :
    Res TssError (Val × Val) × ω :=
  lbind (tum c.respHandlesTy b, w) fun h w =>
  lbind (if tag = St.Sessions then (tum u32 h.2).map (·.2) else .ok h.2, w) fun b w =>
  lbind (tum c.respTy b, w) fun p w =>
  lbind (readResponseSessionsL a p.2 w) fun b w =>
  (if b.isEmpty then .ok (p.1, h.1) else .err tcsTpmUnexpected, w)

/-- The part of `run_command_with_handles` after the transaction:
crates/tpm2-client/src/lib.rs:178-194. -/
def readResponseL {ω : Type} (c : Command) (a : LiveArea ω) (respBuffer : Bytes) (w : ω) :
    Res TssError (Val × Val) × ω :=
  lbind (readResponseHeader respBuffer, w) fun x w =>
  if x.2.1 > respBuffer.length then (.err tcsOutOfMemory, w)
  else if x.2.2 ≤ x.2.1 ∧ x.2.1 ≤ respBuffer.length then
    readBodyL c a x.1 ((respBuffer.take x.2.1).drop x.2.2) w
  else (.panic, w)

/-- `run_command_with_handles`: crates/tpm2-client/src/lib.rs:142-195. -/
def runLive {ω ε : Type} (tr : LiveTransport ω ε) (c : Command) (a : LiveArea ω) (w : ω) :
    Run ω ε (Val × Val) :=
  match buildCommandL c a w with
  | ((.err e, _), w) => ⟨.err (.tss e), w⟩
  | ((.panic, _), w) => ⟨.panic, w⟩
  | ((.ok written, cmdBuffer), w) =>
    match sliceTo cmdBuffer written with
    | none => ⟨.panic, w⟩
    | some cmd =>
      match tr.transact w cmd (List.replicate respBufferSize 0) with
      | (none, _, w) => ⟨.panic, w⟩
      | (some (.failed e), _, w) => ⟨.err (.conn e), w⟩
      | (some (.reported _), respBuffer, w) =>
        let r := readResponseL c a respBuffer w
        ⟨r.1.mapErr .tss, r.2⟩

/-! ### Specification -/

/-- The sessions of an authorization area: up to the first missing one. -/
def LiveArea.active {ω : Type} (a : LiveArea ω) : List (LiveSession ω) :=
  match a.s1, a.s2, a.s3 with
  | none, _, _ => []
  | some s, none, _ => [s]
  | some s, some t, none => [s, t]
  | some s, some t, some u => [s, t, u]

/-- The sessions are asked for their authorizations, once each and in order;
these are their answers, and the states before and after. -/
inductive Answers {ω : Type} : List (LiveSession ω) → ω → List Val → ω → Prop
  | nil (w : ω) : Answers [] w [] w
  | cons {s : LiveSession ω} {ss : List (LiveSession ω)} {w w1 w2 : ω} {v : Val} {vs : List Val}
      (h : s.authCommand w = (some v, w1)) (t : Answers ss w1 vs w2) :
      Answers (s :: ss) w (v :: vs) w2

/-- The sessions are given their authorization responses, once each and in
order, and accept them; with the states before and after. -/
inductive Accepts {ω : Type} : List (LiveSession ω) → List Val → ω → ω → Prop
  | nil (w : ω) : Accepts [] [] w w
  | cons {s : LiveSession ω} {ss : List (LiveSession ω)} {w w1 w2 : ω} {x : Val} {xs : List Val}
      (h : s.validate x w = (.ok (), w1)) (t : Accepts ss xs w1 w2) :
      Accepts (s :: ss) (x :: xs) w w2

/-- A session that has these answers. -/
def fixed (v : Val) : Session := ⟨v, fun _ => none⟩

/-- A call of a method of the sessions (by their number) or the connection. -/
inductive LEv (ε : Type) where
  | asked (i : Nat) (answer : Option Val)
  | sent (cmd rsp : Bytes) (outcome : Option (Outcome ε)) (response : Bytes)
  | validated (i : Nat) (auth : Val) (verdict : Res TssError Unit)

/-- A session whose calls are written down. -/
def LiveSession.watched {ω ε : Type} (i : Nat) (s : LiveSession ω) :
    LiveSession (ω × List (LEv ε)) where
  authCommand w := ((s.authCommand w.1).1, (s.authCommand w.1).2,
    w.2 ++ [.asked i (s.authCommand w.1).1])
  validate x w := ((s.validate x w.1).1, (s.validate x w.1).2,
    w.2 ++ [.validated i x (s.validate x w.1).1])

/-- An authorization area whose sessions' calls are written down. -/
def LiveArea.watched {ω ε : Type} (a : LiveArea ω) : LiveArea (ω × List (LEv ε)) :=
  ⟨a.s1.map (·.watched 0), a.s2.map (·.watched 1), a.s3.map (·.watched 2)⟩

/-- A connection whose calls are written down. -/
def LiveTransport.watched {ω ε : Type} (tr : LiveTransport ω ε) :
    LiveTransport (ω × List (LEv ε)) ε where
  transact w cmd rsp := ((tr.transact w.1 cmd rsp).1, (tr.transact w.1 cmd rsp).2.1,
    (tr.transact w.1 cmd rsp).2.2,
    w.2 ++ [.sent cmd rsp (tr.transact w.1 cmd rsp).1 (tr.transact w.1 cmd rsp).2.1])
  keeps_length w cmd rsp := tr.keeps_length w.1 cmd rsp

/-- The record of asking sessions `i`, `i + 1`, ... that answer. -/
def askedAll {ε : Type} : Nat → List Val → List (LEv ε)
  | _, [] => []
  | i, v :: vs => .asked i (some v) :: askedAll (i + 1) vs

/-- The record of sessions `i`, `i + 1`, ... accepting their responses. -/
def acceptedAll {ε : Type} : Nat → List Val → List (LEv ε)
  | _, [] => []
  | i, x :: xs => .validated i x (.ok ()) :: acceptedAll (i + 1) xs

/-- The order of calls for a command with `n` sessions, and the result: the
sessions are asked in order; the command is sent when all have answered, with
their answers; then they are given their responses in order, as long as they
accept.  A panic or error of any of them ends the run, with it as the result; and
there is success only if all have accepted. -/
inductive Protocol {ε : Type} (n : Nat) (command : List Val → Bytes) :
    List (LEv ε) → Res (CErr ε) (Val × Val) → Prop
  | unsent (vs : List Val) (h : vs.length ≤ n) (res : Res (CErr ε) (Val × Val))
      (hr : ∀ v, res ≠ .ok v) : Protocol n command (askedAll 0 vs) res
  | refused (vs : List Val) (h : vs.length < n) :
      Protocol n command (askedAll 0 vs ++ [.asked vs.length none]) .panic
  | crashed (vs : List Val) (h : vs.length = n) (rsp : Bytes) :
      Protocol n command (askedAll 0 vs ++
        [.sent (command vs) (List.replicate 4096 0) none rsp]) .panic
  | failed (vs : List Val) (h : vs.length = n) (e : ε) (rsp : Bytes) :
      Protocol n command (askedAll 0 vs ++
        [.sent (command vs) (List.replicate 4096 0) (some (.failed e)) rsp]) (.err (.conn e))
  | accepted (vs xs : List Val) (h : vs.length = n) (h' : xs.length ≤ n) (k : Nat) (rsp : Bytes)
      (res : Res (CErr ε) (Val × Val)) (hr : xs.length = n ∨ ∀ v, res ≠ .ok v) :
      Protocol n command (askedAll 0 vs ++
        [.sent (command vs) (List.replicate 4096 0) (some (.reported k)) rsp] ++ acceptedAll 0 xs)
        res
  | rejected (vs xs : List Val) (x : Val) (e : TssError) (h : vs.length = n)
      (h' : xs.length < n) (k : Nat) (rsp : Bytes) :
      Protocol n command (askedAll 0 vs ++
        [.sent (command vs) (List.replicate 4096 0) (some (.reported k)) rsp] ++ acceptedAll 0 xs ++
        [.validated xs.length x (.err e)]) (.err (.tss e))
  | broken (vs xs : List Val) (x : Val) (h : vs.length = n) (h' : xs.length < n) (k : Nat)
      (rsp : Bytes) :
      Protocol n command (askedAll 0 vs ++
        [.sent (command vs) (List.replicate 4096 0) (some (.reported k)) rsp] ++ acceptedAll 0 xs ++
        [.validated xs.length x .panic]) .panic

end Verif.Client
