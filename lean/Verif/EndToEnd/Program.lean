import Verif.Tcp.Reference
import Verif.EndToEnd.Impl

/-
Programs that use a simulator connection, and the same programs with the device
itself instead of a connection.  Specification for C83.
-/

namespace Verif.EndToEnd
open Verif Verif.Errors Verif.Client Verif.Tcp

variable {σ τ α : Type}

/-- A call of a method of the connection, or of the client with the connection. -/
inductive Call where
  | transact (command response : Bytes)
  | command (c : Command) (a : Area)
  | locality (l : Nat)
  | op (o : Op)

/-- What a call returns when the connection does not fail. -/
inductive Out where
  | done
  | response (n : Nat) (buffer : Bytes)
  | result (r : Res TssError (Val × Val))
  | handshake (server endpoint : Nat)
  | sizes (b : Bytes)
  | signaled (n : Nat)

/-- The result of a method with its value renamed. -/
def returns (f : α → Out) (r : Except IoErr α × Conn σ) : Except IoErr Out × Conn σ :=
  match r with
  | (.ok a, c) => (.ok (f a), c)
  | (.error e, c) => (.error e, c)

/-- What a TPM command returns; its errors are results like others, unless the
connection failed. -/
def outcome {ε : Type} : Res (CErr ε) (Val × Val) → Except ε Out
  | .ok x => .ok (.result (.ok x))
  | .err (.tss e) => .ok (.result (.err e))
  | .err (.conn e) => .error e
  | .panic => .ok (.result .panic)

/-- A call, with the model of the code. -/
def real (os : Os σ) (call : Call) (c : Conn σ) : Except IoErr Out × Conn σ :=
  match call with
  | .transact cmd rsp =>
    match Tcp.transact os cmd rsp c with
    | (.ok n, b, c) => (.ok (.response n b), c)
    | (.error e, _, c) => (.error e, c)
  | .command cmd a =>
    let r := runCommandWithHandles (tcpTransport os) cmd a c
    (outcome r.result, r.state)
  | .locality l => returns (fun _ => .done) (setLocality l c)
  | .op (.hcrtmSequence b) => returns (fun _ => .done) (hcrtmSequence os b c)
  | .op (.remoteHandshake v) => returns (fun xy => .handshake xy.1 xy.2) (remoteHandshake os v c)
  | .op (.setAlternativeResult r) => returns (fun _ => .done) (setAlternativeResult os r c)
  | .op (.platformSignal s) => returns (fun _ => .done) (platformSignal os s c)
  | .op .reinit => returns (fun _ => .done) (reinit os c)
  | .op .testFailureMode => returns (fun _ => .done) (testFailureMode os c)
  | .op .getCommandResponseSizes => returns .sizes (getCommandResponseSizes os c)
  | .op (.actGetSignaled h) => returns .signaled (actGetSignaled os h c)
  | .op (.setFirmwareHash h) => returns (fun _ => .done) (setFirmwareHash os h c)
  | .op (.setFirmwareSvn n) => returns (fun _ => .done) (setFirmwareSvn os n c)
  | .op .sessionEnd => returns (fun _ => .done) (sessionEnd os c)
  | .op .stopSimulator => returns (fun _ => .done) (stopSimulator os c)

/-- The device as a transport of the client: the response is in the buffer, or it
does not fit. -/
def deviceTransport (d : Device τ) (l : Nat) : Transport τ Unit where
  transact t cmd rsp :=
    if (d.send t l cmd).1.length ≤ rsp.length then
      (.reported (d.send t l cmd).1.length,
        (d.send t l cmd).1 ++ rsp.drop (d.send t l cmd).1.length, (d.send t l cmd).2)
    else (.failed (), rsp, (d.send t l cmd).2)
  keeps_length := by
    intro t cmd rsp
    split
    · rw [List.length_append, List.length_drop]; omega
    · rfl
  reports_slice := by
    intro t cmd rsp n h
    split at h
    · injection h with h; omega
    · simp at h

/-- A call, with the device; `none` if there is no result: the device refuses a
handshake, a response does not fit, a command is too long for the protocol, or the
connection is ended. -/
def ideal (d : Device τ) (call : Call) (l : Nat) (t : τ) : Option (Out × Nat × τ) :=
  match call with
  | .transact cmd rsp =>
    if cmd.length < 2 ^ 32 ∧ (d.send t l cmd).1.length ≤ rsp.length then
      some (.response (d.send t l cmd).1.length
        ((d.send t l cmd).1 ++ rsp.drop (d.send t l cmd).1.length), l, (d.send t l cmd).2)
    else none
  | .command cmd a =>
    let r := runCommandWithHandles (deviceTransport d l) cmd a t
    match outcome r.result with
    | .ok o => some (o, l, r.state)
    | .error _ => none
  | .locality l => some (.done, l, t)
  | .op (.hcrtmSequence b) =>
    some (.done, l, [Plain.hashStart, .hashData b, .hashEnd].foldl d.perform t)
  | .op (.remoteHandshake v) =>
    (d.handshake t v).1.map fun xy => (.handshake xy.1 xy.2, l, (d.handshake t v).2)
  | .op (.setAlternativeResult r) => some (.done, l, d.perform t (.alternative r))
  | .op (.platformSignal s) => some (.done, l, d.perform t (.signal s))
  | .op .reinit =>
    some (.done, l, [Plain.signal .nvOff, .signal .powerOff, .signal .powerOn, .signal .nvOn].foldl
      d.perform t)
  | .op .testFailureMode => some (.done, l, d.perform t .failureMode)
  | .op .getCommandResponseSizes => some (.sizes (d.sizes t).1, l, (d.sizes t).2)
  | .op (.actGetSignaled h) => some (.signaled (d.act t h).1, l, (d.act t h).2)
  | .op (.setFirmwareHash h) => some (.done, l, d.perform t (.firmwareHash h))
  | .op (.setFirmwareSvn n) => some (.done, l, d.perform t (.firmwareSvn n))
  | .op .sessionEnd => none
  | .op .stopSimulator => none

/-- The arguments are values of their types (`u8`, `u32`), and the call does not end
the connection. -/
def Call.Typed : Call → Prop
  | .locality l => l < 256
  | .op (.remoteHandshake v) | .op (.setAlternativeResult v) | .op (.actGetSignaled v)
  | .op (.setFirmwareHash v) | .op (.setFirmwareSvn v) => v < 2 ^ 32
  | .op .sessionEnd | .op .stopSimulator => False
  | _ => True

/-- The data of an H-CRTM sequence are shorter than 4 GiB. -/
def Call.Short : Call → Prop
  | .op (.hcrtmSequence b) => b.length < 2 ^ 32
  | _ => True

/-- A program: it makes calls, each depending on the results of the earlier ones. -/
inductive Prog (α : Type) where
  | done (a : α)
  | call (c : Call) (k : Out → Prog α)

/-- Every call that the program may make satisfies `P`. -/
def Prog.Calls (P : Call → Prop) : Prog α → Prop
  | .done _ => True
  | .call c k => P c ∧ ∀ o, (k o).Calls P

/-- The program with a connection; it ends when the connection fails. -/
def Prog.play (os : Os σ) : Prog α → Conn σ → Except IoErr α × Conn σ
  | .done a, c => (.ok a, c)
  | .call x k, c =>
    match real os x c with
    | (.ok o, c) => (k o).play os c
    | (.error e, c) => (.error e, c)

/-- The program with the device. -/
def Prog.dream (d : Device τ) : Prog α → Nat → τ → Option (α × Nat × τ)
  | .done a, l, t => some (a, l, t)
  | .call x k, l, t =>
    match ideal d x l t with
    | some (o, l, t) => (k o).dream d l t
    | none => none

end Verif.EndToEnd
