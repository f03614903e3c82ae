import Verif.Base.Types
import Verif.Base.Handle
import Verif.Codec.Impl
import Verif.Errors.Impl

/-
Model of the client: crates/tpm2-client/src/lib.rs, sessions/ and the
`Connection` trait (connection/mod.rs:11-26).
-/

namespace Verif.Client
open Verif Verif.Base Verif.Errors

/-- `CMD_BUFFER_SIZE`: crates/tpm2-client/src/lib.rs:16. -/
def cmdBufferSize : Nat := 4096
/-- `RESP_BUFFER_SIZE`: crates/tpm2-client/src/lib.rs:17. -/
def respBufferSize : Nat := 4096

/-- A command with its handles and the types of its response: the items of the
trait `TpmCommand` (base/src/commands.rs:105-114) together with the arguments
`cmd` and `cmd_handles` (crates/tpm2-client/src/lib.rs:150-151). -/
structure Command where
  code : Nat
  handlesTy : Ty
  handles : Val
  paramTy : Ty
  param : Val
  respTy : Ty
  respHandlesTy : Ty

/-- `Session`: crates/tpm2-client/src/sessions/session.rs:4-9.  Simplified: both
methods are pure functions that return (no interior mutability, no panic).
`validate` gives `none` for `Ok(())`. -/
structure Session where
  authCommand : Val
  validate : Val → Option TssError

/-- `AuthorizationArea`: the result of `decompose_ref`,
crates/tpm2-client/src/sessions/authorization_area/mod.rs:10-11. -/
structure Area where
  s1 : Option Session
  s2 : Option Session
  s3 : Option Session

/-- `is_empty`: crates/tpm2-client/src/sessions/authorization_area/mod.rs:12-14. -/
def Area.isEmpty (a : Area) : Bool := a.s1.isNone

/-- `()`: crates/tpm2-client/src/sessions/authorization_area/s0.rs:3-7. -/
def area0 : Area := ⟨none, none, none⟩
/-- A single session: crates/tpm2-client/src/sessions/authorization_area/s1.rs:3-7. -/
def area1 (s : Session) : Area := ⟨some s, none, none⟩
/-- `(T, U)`: crates/tpm2-client/src/sessions/authorization_area/s2.rs:5-9. -/
def area2 (s t : Session) : Area := ⟨some s, some t, none⟩
/-- `(T, U, V)`: crates/tpm2-client/src/sessions/authorization_area/s3.rs:3-7. -/
def area3 (s t u : Session) : Area := ⟨some s, some t, some u⟩

/-- The outcome of `transact`: `Ok` with the returned slice of the response, or
a connection error.  Simplified: the returned slice is a prefix of `rsp`, given
by its length. -/
inductive Outcome (ε : Type) where
  | reported (n : Nat)
  | failed (e : ε)

/-- `Connection`: crates/tpm2-client/src/connection/mod.rs:11-26.  The state of
the connection, and for each state, command and response buffer an arbitrary
outcome, response buffer afterwards and next state.  A Rust slice keeps its
length. -/
structure Transport (σ ε : Type) where
  transact : σ → Bytes → Bytes → Outcome ε × Bytes × σ
  keeps_length : ∀ s cmd rsp, (transact s cmd rsp).2.1.length = rsp.length
  reports_slice : ∀ s cmd rsp n, (transact s cmd rsp).1 = .reported n → n ≤ rsp.length

/-- `T::Error` with its conversion from `TssError`
(crates/tpm2-client/src/lib.rs:53, 144). -/
inductive CErr (ε : Type) where
  | conn (e : ε)
  | tss (e : TssError)
  deriving DecidableEq

/-! ### Commands -/

/-- A function taking `buffer: &mut [u8]` and returning `TssResult<usize>`, and
the buffer afterwards. -/
abbrev TOut : Type := Res TssError Nat × Bytes

/-- `.map_err(TssError::from)` or `?` on a marshalling result. -/
def toTss (r : MOut) : TOut := (r.1.mapErr merrToTss, r.2)

/-- `written += f(&mut buffer[written..])?;`. -/
def tstep (f : Bytes → TOut) (written : Nat) (buf : Bytes) : TOut :=
  if written ≤ buf.length then
    match f (buf.drop written) with
    | (.ok n, sub) => (.ok (written + n), buf.take written ++ sub)
    | (.err e, sub) => (.err e, buf.take written ++ sub)
    | (.panic, sub) => (.panic, buf.take written ++ sub)
  else (.panic, buf)

/-- Continue with the next statement unless the previous one failed. -/
def tthen (r : TOut) (k : Nat → Bytes → TOut) : TOut :=
  match r with
  | (.ok w, buf) => k w buf
  | (.err e, buf) => (.err e, buf)
  | (.panic, buf) => (.panic, buf)

/-- `CmdHeader::new` with `size` filled in: crates/tpm2-client/src/lib.rs:34-41,
170.  The first argument is called `has_sessions` in the code, but the caller
passes `is_empty()` and the branches are exchanged accordingly. -/
def cmdHeader (hasSessions : Bool) (code size : Nat) : Val :=
  let tag := if hasSessions then St.NoSessions else St.Sessions
  .struct [.struct [.int tag], .int size, .struct [.int code]]

/-- `marshal_auth_size`: crates/tpm2-client/src/lib.rs:66-70. -/
def marshalAuthSize (authOffset : Nat) (buffer : Bytes) : TOut :=
  let authSize := (authOffset - 4) % 2 ^ 32  -- `as u32`
  tthen (toTss (marshalPrim 4 authSize buffer)) fun _ buffer => (.ok authOffset, buffer)

/-- `auth_offset += s.get_auth_command().try_marshal(&mut buffer[auth_offset..])?`:
crates/tpm2-client/src/lib.rs:90-92. -/
def writeAuth (s : Session) (authOffset : Nat) (buffer : Bytes) : TOut :=
  tstep (fun b => toTss (marshal TpmsAuthCommand s.authCommand b)) authOffset buffer

/-- `write_command_sessions`: crates/tpm2-client/src/lib.rs:73-106. -/
def writeCommandSessions (a : Area) (buffer : Bytes) : TOut :=
  if a.isEmpty then (.ok 0, buffer)
  else
    match a.s1 with
    | none => marshalAuthSize 4 buffer
    | some s1 =>
      tthen (writeAuth s1 4 buffer) fun authOffset buffer =>
      match a.s2 with
      | none => marshalAuthSize authOffset buffer
      | some s2 =>
        tthen (writeAuth s2 authOffset buffer) fun authOffset buffer =>
        match a.s3 with
        | none => marshalAuthSize authOffset buffer
        | some s3 =>
          tthen (writeAuth s3 authOffset buffer) fun authOffset buffer =>
          marshalAuthSize authOffset buffer

/-- The first part of `run_command_with_handles`, which fills the command
buffer: crates/tpm2-client/src/lib.rs:155-173. -/
def buildCommand (c : Command) (a : Area) : TOut :=
  let buf := List.replicate cmdBufferSize 0
  tthen (toTss (marshal CmdHeader (cmdHeader a.isEmpty c.code 0) buf)) fun written buf =>
  tthen (tstep (fun b => toTss (marshal c.handlesTy c.handles b)) written buf) fun written buf =>
  tthen (tstep (writeCommandSessions a) written buf) fun written buf =>
  tthen (tstep (fun b => toTss (marshal c.paramTy c.param b)) written buf) fun written buf =>
  tthen (toTss (marshal CmdHeader (cmdHeader a.isEmpty c.code (written % 2 ^ 32)) buf))
    fun _ buf => (.ok written, buf)

/-! ### Responses -/

/-- `T::try_unmarshal(buffer)?` with the error converted to `TssError`; the
value and what is left in the buffer. -/
def tum (t : Ty) (b : Bytes) : Res TssError (Val × Bytes) :=
  match unmarshal t b with
  | (.ok v, r) => .ok (v, r)
  | (.err e, _) => .err (merrToTss e)
  | (.panic, _) => .panic

/-- `read_response_header`: crates/tpm2-client/src/lib.rs:109-116.  Returns tag,
size and the number of bytes read. -/
def readResponseHeader (buffer : Bytes) : Res TssError (Nat × Nat × Nat) :=
  (tum RespHeader buffer).bind fun (v, rest) =>
  match v with
  | .struct [.struct [.int tag], .int size, .int rc] =>
    match TssError.tryFrom rc with
    | some error => .err error
    | none => .ok (tag, size, buffer.length - rest.length)
  | _ => .panic  -- not a header value

/-- `TpmsAuthResponse::try_unmarshal(buffer)?; s.validate_auth_response(&auth)?`:
crates/tpm2-client/src/lib.rs:130-131. -/
def readAuth (s : Session) (b : Bytes) : Res TssError Bytes :=
  (tum TpmsAuthResponse b).bind fun (auth, b) =>
  match s.validate auth with
  | none => .ok b
  | some e => .err e

/-- `read_response_sessions`: crates/tpm2-client/src/lib.rs:119-139. -/
def readResponseSessions (a : Area) (b : Bytes) : Res TssError Bytes :=
  match a.s1 with
  | none => .ok b
  | some s1 =>
    (readAuth s1 b).bind fun b =>
    match a.s2 with
    | none => .ok b
    | some s2 =>
      (readAuth s2 b).bind fun b =>
      match a.s3 with
      | none => .ok b
      | some s3 => (readAuth s3 b).bind fun b => .ok b

/-- Response handles, parameter size, parameters, sessions and the check that
nothing is left: crates/tpm2-client/src/lib.rs:184-194. -/
def readBody (c : Command) (a : Area) (tag : Nat) (b : Bytes) : Res TssError (Val × Val) :=
  (tum c.respHandlesTy b).bind fun (respHandles, b) =>
  (if tag = St.Sessions then (tum u32 b).map (·.2) else .ok b).bind fun b =>
  (tum c.respTy b).bind fun (resp, b) =>
  (readResponseSessions a b).bind fun b =>
  if b.isEmpty then .ok (resp, respHandles) else .err tcsTpmUnexpected

/-- The part of `run_command_with_handles` after the transaction:
crates/tpm2-client/src/lib.rs:178-194.  `&resp_buffer[read..resp_size]` panics
unless `read ≤ resp_size ≤ len`. -/
def readResponse (c : Command) (a : Area) (respBuffer : Bytes) : Res TssError (Val × Val) :=
  (readResponseHeader respBuffer).bind fun (tag, respSize, read) =>
  if respSize > respBuffer.length then .err tcsOutOfMemory
  else if read ≤ respSize ∧ respSize ≤ respBuffer.length then
    readBody c a tag ((respBuffer.take respSize).drop read)
  else .panic

/-! ### Running a command -/

/-- What running a command did: its result and the next state of the
connection (`&mut T`, crates/tpm2-client/src/lib.rs:55, 153). -/
structure Run (σ ε α : Type) where
  result : Res (CErr ε) α
  state : σ

/-- `run_command_with_handles`: crates/tpm2-client/src/lib.rs:142-195.  The
slice returned by `transact` is ignored (line 176). -/
def runCommandWithHandles {σ ε : Type} (tr : Transport σ ε) (c : Command) (a : Area) (s : σ) :
    Run σ ε (Val × Val) :=
  match buildCommand c a with
  | (.err e, _) => ⟨.err (.tss e), s⟩
  | (.panic, _) => ⟨.panic, s⟩
  | (.ok written, cmdBuffer) =>
    match sliceTo cmdBuffer written with
    | none => ⟨.panic, s⟩
    | some cmd =>
      match tr.transact s cmd (List.replicate respBufferSize 0) with
      | (.failed e, _, s) => ⟨.err (.conn e), s⟩
      | (.reported _, respBuffer, s) => ⟨(readResponse c a respBuffer).mapErr .tss, s⟩

/-- `run_command`: crates/tpm2-client/src/lib.rs:53-58: default handles, no
sessions, only the response parameters returned. -/
def runCommand {σ ε : Type} (tr : Transport σ ε) (c : Command) (s : σ) : Run σ ε Val :=
  let r := runCommandWithHandles tr { c with handles := c.handlesTy.default } area0 s
  ⟨r.result.map (·.1), r.state⟩

/-- `get_capability`: crates/tpm2-client/src/lib.rs:19-24 with
base/src/commands/capability.rs:15-20. -/
def getCapability {σ ε : Type} (tr : Transport σ ε) (cmd : Val) (s : σ) : Run σ ε Val :=
  runCommand tr ⟨Cc.GetCapability, .unit, .unit, GetCapabilityCmd, cmd, GetCapabilityResp, .unit⟩ s

/-! ### Password sessions -/

/-- `PasswordSession::new`: crates/tpm2-client/src/sessions/password.rs:43-47,
`Tpm2bAuth` having a buffer of 64 bytes (base/src/lib.rs:600-606, 867).  Returns
the field `auth`. -/
def passwordNew (password : Bytes) : Res TpmRcError Val :=
  (tpm2bFromBytes 64 password).mapErr merrToRc

/-- `get_secret`: crates/tpm2-client/src/sessions/password.rs:49-51. -/
def passwordSecret (auth : Val) : Res MErr Bytes := tpm2bGetBuffer auth

/-- `get_auth_command`: crates/tpm2-client/src/sessions/password.rs:55-62. -/
def passwordAuthCommand (auth : Val) : Val :=
  .struct [.struct [.int RS_PW], Tpm2bDigest.default, .struct [.int 0], auth]

/-- `validate_auth_response`: crates/tpm2-client/src/sessions/password.rs:63-73. -/
def passwordValidate (auth : Val) : Option TssError :=
  match auth with
  | .struct [.tpm2b nonceSize _, .struct [.int attributes], .tpm2b hmacSize _] =>
    if nonceSize ≠ 0 ∨ attributes ≠ 1 ∨ hmacSize ≠ 0 then some tcsBadParameter else none
  | _ => some tcsBadParameter  -- not an authorization response

/-- `impl Session for PasswordSession`: crates/tpm2-client/src/sessions/password.rs:54-74. -/
def passwordSession (auth : Val) : Session :=
  ⟨passwordAuthCommand auth, passwordValidate⟩

end Verif.Client
