import Verif.Tcp.InterruptsLemmas
import Verif.EndToEnd.ProgramProps

/-
Programs that use a simulator connection on an operating system that interrupts system calls.
Specification for C109.
-/

namespace Verif.EndToEnd
open Verif Verif.Errors Verif.Client Verif.Tcp

variable {σ τ α : Type} (os : Os σ) {m : σ → Nat} (hm : Patient os m)

/-! ### Model -/

/-- `impl Connection for TcpConnection`: crates/tpm2-client/src/connection/tcp.rs:392-433, with
system calls that are interrupted. -/
def rawTransport : Transport (Conn σ) IoErr where
  transact c cmd rsp :=
    let r := Raw.transact os hm cmd rsp c
    match r.1 with
    | .ok n => (.reported n, r.2.1, r.2.2)
    | .error e => (.failed e, r.2.1, r.2.2)
  keeps_length := by
    intro c cmd rsp
    have h : (Raw.transact os hm cmd rsp c).2.1.length = rsp.length := by
      rcases transact_cases hm cmd rsp c with h | ⟨c', -, -, h⟩ <;> rw [h]
      exact tcp_length _ cmd rsp c
    simp only
    split <;> exact h
  reports_slice := by
    intro c cmd rsp n h
    rcases transact_cases hm cmd rsp c with hx | ⟨c', -, -, hx⟩
    · rw [hx] at h
      exact (tcpTransport (calm os hm)).reports_slice c cmd rsp n h
    · rw [hx] at h
      simp at h

/-- A call, with the model of the code. -/
def realRaw (call : Call) (c : Conn σ) : Except IoErr Out × Conn σ :=
  match call with
  | .transact cmd rsp =>
    match Raw.transact os hm cmd rsp c with
    | (.ok n, b, c) => (.ok (.response n b), c)
    | (.error e, _, c) => (.error e, c)
  | .command cmd a =>
    let r := runCommandWithHandles (rawTransport os hm) cmd a c
    (outcome r.result, r.state)
  | .locality l => returns (fun _ => .done) (setLocality l c)
  | .op (.hcrtmSequence b) => returns (fun _ => .done) (Raw.hcrtmSequence os hm b c)
  | .op (.remoteHandshake v) =>
    returns (fun xy => .handshake xy.1 xy.2) (Raw.remoteHandshake os hm v c)
  | .op (.setAlternativeResult r) => returns (fun _ => .done) (Raw.setAlternativeResult os hm r c)
  | .op (.platformSignal s) => returns (fun _ => .done) (Raw.platformSignal os hm s c)
  | .op .reinit => returns (fun _ => .done) (Raw.reinit os hm c)
  | .op .testFailureMode => returns (fun _ => .done) (Raw.testFailureMode os hm c)
  | .op .getCommandResponseSizes => returns .sizes (Raw.getCommandResponseSizes os hm c)
  | .op (.actGetSignaled h) => returns .signaled (Raw.actGetSignaled os hm h c)
  | .op (.setFirmwareHash h) => returns (fun _ => .done) (Raw.setFirmwareHash os hm h c)
  | .op (.setFirmwareSvn n) => returns (fun _ => .done) (Raw.setFirmwareSvn os hm n c)
  | .op .sessionEnd => returns (fun _ => .done) (Raw.sessionEnd os hm c)
  | .op .stopSimulator => returns (fun _ => .done) (Raw.stopSimulator os hm c)

/-- The program with a connection; it ends when the connection fails. -/
def Prog.playRaw : Prog α → Conn σ → Except IoErr α × Conn σ
  | .done a, c => (.ok a, c)
  | .call x k, c =>
    match realRaw os hm x c with
    | (.ok o, c) => (k o).playRaw c
    | (.error e, c) => (.error e, c)

/-! ### Specification -/

/-- The calls that send their request in one piece. -/
def Call.onePiece : Call → Bool
  | .transact .. | .command .. => true
  | .op (.remoteHandshake _) | .op (.setAlternativeResult _) | .op (.actGetSignaled _)
  | .op (.setFirmwareHash _) | .op (.setFirmwareSvn _) => true
  | _ => false

/-- The calls that send in as many pieces as it takes. -/
def Call.pieces : Call → Bool
  | .locality _ => true
  | .op (.platformSignal _) | .op .reinit | .op .testFailureMode | .op .getCommandResponseSizes
  | .op .sessionEnd | .op .stopSimulator => true
  | _ => false

/-- An interrupted system call transports nothing, though the simulator may go on meanwhile. -/
structure Idle (os : Os σ) (d : Device τ) (obs : σ → World τ) : Prop where
  write : ∀ s p b, (os.write s p b).1 = .error interrupted →
    Later d (obs s) (obs (os.write s p b).2)
  read : ∀ s p n, (os.read s p n).1 = .error interrupted →
    Later d (obs s) (obs (os.read s p n).2)

/-- The caller repeats the call while it is interrupted, and ends with this result. -/
inductive Repeated (os : Os σ) {m : σ → Nat} (hm : Patient os m) (call : Call) :
    Conn σ → Except IoErr Out × Conn σ → Prop
  | last {c} : (realRaw os hm call c).1 ≠ .error interrupted →
      Repeated os hm call c (realRaw os hm call c)
  | again {c c' r} : realRaw os hm call c = (.error interrupted, c') → Repeated os hm call c' r →
      Repeated os hm call c r

end Verif.EndToEnd
