import Verif.Client.Area

/-
Model of the client with commands of the caller's own: the traits `TpmCommand`
and `Marshalable` are public, so the handles, the parameters and the two parts of
the response may be of any types with any implementation of `Marshalable`.  These
may report another number of bytes than they wrote, change any part of the buffer
they are given, put other bytes into the `UnmarshalBuf`, panic, and depend on and
change the state of the program.
-/

namespace Verif.Client
open Verif Verif.Base Verif.Errors

/-- `TpmCommand`: base/src/commands.rs:105-114, with the arguments `cmd` and
`cmd_handles` (crates/tpm2-client/src/lib.rs:150-151), which are only used through
`Marshalable` (marshalable/src/lib.rs:30-36).  `P` and `H` are `RespT` and
`RespHandles`.  A slice `&mut [u8]` keeps its length. -/
structure OwnCommand (ω P H : Type) where
  code : Nat
  handles : Bytes → ω → MOut × ω
  param : Bytes → ω → MOut × ω
  resp : Bytes → ω → (Res MErr P × Bytes) × ω
  respHandles : Bytes → ω → (Res MErr H × Bytes) × ω
  handles_length : ∀ b w, (handles b w).1.2.length = b.length
  param_length : ∀ b w, (param b w).1.2.length = b.length

/-- `.map_err(TssError::from)?` on the result of a `try_marshal`:
crates/tpm2-client/src/lib.rs:161-163, 165-167. -/
def ownTss {ω : Type} (f : Bytes → ω → MOut × ω) (b : Bytes) (w : ω) : LOut ω :=
  (toTss (f b w).1, (f b w).2)

/-- The first part of `run_command_with_handles`, which fills the command
buffer: crates/tpm2-client/src/lib.rs:155-173.  Simplified: `written += n` does not
overflow; a sum that is too large makes the next use of `written` panic. -/
def buildOwn {ω P H : Type} (c : OwnCommand ω P H) (a : FreeArea ω) (w : ω) : LOut ω :=
  let buf := List.replicate cmdBufferSize 0
  match a.isEmpty w with
  | (none, w) => ((.panic, buf), w)
  | (some empty, w) =>
    lthen (toTss (marshal CmdHeader (cmdHeader empty c.code 0) buf), w) fun written buf w =>
    lthen (lstep (ownTss c.handles) written buf w) fun written buf w =>
    lthen (lstep (writeCommandSessionsF a) written buf w) fun written buf w =>
    lthen (lstep (ownTss c.param) written buf w) fun written buf w =>
    lthen (toTss (marshal CmdHeader (cmdHeader empty c.code (written % 2 ^ 32)) buf), w)
      fun _ buf w => ((.ok written, buf), w)

/-- `T::try_unmarshal(&mut unmarsh).map_err(TssError::from)?`:
crates/tpm2-client/src/lib.rs:184, 188. -/
def ownUm {ω α : Type} (f : Bytes → ω → (Res MErr α × Bytes) × ω) (b : Bytes) (w : ω) :
    Res TssError (α × Bytes) × ω :=
  match f b w with
  | ((.ok v, r), w) => (.ok (v, r), w)
  | ((.err e, _), w) => (.err (merrToTss e), w)
  | ((.panic, _), w) => (.panic, w)

/-- Response handles, parameter size, parameters, sessions and the check that
nothing is left: crates/tpm2-client/src/lib.rs:184-194. -/
def readBodyOwn {ω P H : Type} (c : OwnCommand ω P H) (a : FreeArea ω) (tag : Nat) (b : Bytes)
    (w : ω) : Res TssError (P × H) × ω :=
  lbind (ownUm c.respHandles b w) fun h w =>
  lbind (if tag = St.Sessions then (tum u32 h.2).map (·.2) else .ok h.2, w) fun b w =>
  lbind (ownUm c.resp b w) fun p w =>
  lbind (readResponseSessionsF a p.2 w) fun b w =>
  (if b.isEmpty then .ok (p.1, h.1) else .err tcsTpmUnexpected, w)

/-- The part of `run_command_with_handles` after the transaction:
crates/tpm2-client/src/lib.rs:178-194. -/
def readResponseOwn {ω P H : Type} (c : OwnCommand ω P H) (a : FreeArea ω) (respBuffer : Bytes)
    (w : ω) : Res TssError (P × H) × ω :=
  lbind (readResponseHeader respBuffer, w) fun x w =>
  if x.2.1 > respBuffer.length then (.err tcsOutOfMemory, w)
  else if x.2.2 ≤ x.2.1 ∧ x.2.1 ≤ respBuffer.length then
    readBodyOwn c a x.1 ((respBuffer.take x.2.1).drop x.2.2) w
  else (.panic, w)

/-- `run_command_with_handles`: crates/tpm2-client/src/lib.rs:142-195. -/
def runOwn {ω ε P H : Type} (tr : LiveTransport ω ε) (c : OwnCommand ω P H) (a : FreeArea ω)
    (w : ω) : Run ω ε (P × H) :=
  match buildOwn c a w with
  | ((.err e, _), w) => ⟨.err (.tss e), w⟩
  | ((.panic, _), w) => ⟨.panic, w⟩
  | ((.ok written, cmdBuffer), w) =>
    match sliceTo cmdBuffer written with
    | none => ⟨.panic, w⟩
    | some cmd =>
      match tr.transact w cmd (List.replicate respBufferSize 0) with
      | (none, _, w) => ⟨.panic, w⟩
      | (some (.failed e), _, w) => ⟨.err (.conn e), w⟩
      | (some (.reported _), respBuffer, w) =>
        let r := readResponseOwn c a respBuffer w
        ⟨r.1.mapErr .tss, r.2⟩

/-- A command all of whose types are derived or of the kinds of the base crate:
base/src/commands/ (the implementations of `TpmCommand`). -/
def Command.own {ω : Type} (c : Command) (hh : ∀ b, (marshal c.handlesTy c.handles b).2.length = b.length)
    (hp : ∀ b, (marshal c.paramTy c.param b).2.length = b.length) : OwnCommand ω Val Val where
  code := c.code
  handles b w := (marshal c.handlesTy c.handles b, w)
  param b w := (marshal c.paramTy c.param b, w)
  resp b w := (unmarshal c.respTy b, w)
  respHandles b w := (unmarshal c.respHandlesTy b, w)
  handles_length b _ := hh b
  param_length b _ := hp b

/-! ### Specification -/

/-- The authorization area between handles and parameters: nothing if the area
said it is empty, otherwise the size of the authorizations and these. -/
def authBytes : Option (List Val) → Bytes
  | none => []
  | some vs => digits256 4 (wires TpmsAuthCommand vs).length ++ wires TpmsAuthCommand vs

/-- What an area answers when its sessions are to be written, with the states
before and after: that it is empty, or its sessions' authorizations. -/
inductive Contributes {ω : Type} (a : FreeArea ω) (w : ω) : Option (List Val) → ω → Prop
  | nothing {w1 : ω} (h : a.isEmpty w = (some true, w1)) : Contributes a w none w1
  | auths {w1 w2 w3 : ω} {d : LiveArea ω} {vs : List Val} (h1 : a.isEmpty w = (some false, w1))
      (h2 : a.decompose w1 = (some d, w2)) (h3 : Answers d.active w2 vs w3) :
      Contributes a w (some vs) w3

/-- How a command comes about, and the state in which it is handed over: the area
says whether it is empty, which decides the tag; the handles are given the 4086
bytes after the header and report a number of them; the area gives its
authorizations; the parameters are given what is left and report a number of
bytes.  The command consists of the header, with the number of all these bytes,
the bytes that the handles left in their part, the authorizations, and the bytes
that the parameters left in theirs. -/
inductive Composes {ω P H : Type} (c : OwnCommand ω P H) (a : FreeArea ω) (w : ω) : Bytes → ω → Prop
  | mk {empty : Bool} {n m : Nat} {hs ps : Bytes} {auths : Option (List Val)} {w1 w2 w3 w4 : ω}
      (h1 : a.isEmpty w = (some empty, w1))
      (h2 : c.handles (List.replicate 4086 0) w1 = ((.ok n, hs), w2))
      (h3 : Contributes a w2 auths w3)
      (h4 : ∀ vs, auths = some vs → ∀ v ∈ vs, WF TpmsAuthCommand v)
      (h5 : c.param (hs.drop (n + (authBytes auths).length)) w3 = ((.ok m, ps), w4))
      (h6 : n + (authBytes auths).length + m ≤ 4086) :
      Composes c a w (digits256 2 (if empty then 0x8001 else 0x8002) ++
        digits256 4 (10 + (n + (authBytes auths).length + m)) ++ digits256 4 c.code ++
        (hs.take n ++ authBytes auths ++ ps.take m)) w4

/-- How a response is taken apart, the state before and after: the response
handles are given the declared bytes after the header and leave some; then comes
the parameter size if the tag says sessions; the response parameters are given the
rest and leave exactly the authorization responses of the sessions that the area
gives afterwards, which accept them. -/
inductive Decomposes {ω P H : Type} (c : OwnCommand ω P H) (a : FreeArea ω) (w : ω) :
    Bytes → P → H → ω → Prop
  | mk {tag paramSize : Nat} {body rest b1 b2 : Bytes} {p : P} {h : H} {d : LiveArea ω}
      {auths : List Val} {w1 w2 w3 w4 : ω}
      (htag : tag < 65536) (hsize : paramSize < 2 ^ 32)
      (h1 : c.respHandles body w = ((.ok h, (if tag = 0x8002 then digits256 4 paramSize else []) ++
        b1), w1))
      (h2 : c.resp b1 w1 = ((.ok p, b2), w2))
      (h3 : a.decompose w2 = (some d, w3))
      (h4 : b2 = wires TpmsAuthResponse auths)
      (h5 : ∀ v ∈ auths, WF TpmsAuthResponse v ∧ canon TpmsAuthResponse v = v)
      (h6 : Accepts d.active auths w3 w4) :
      Decomposes c a w (digits256 2 tag ++ digits256 4 (10 + body.length) ++ digits256 4 0 ++ body ++
        rest) p h w4

end Verif.Client
