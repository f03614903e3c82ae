import Verif.Tcp.CallsLemmas
import Verif.Tcp.Props

/-
Property theorems C85: the system calls of a connection.
-/

namespace Verif.Tcp
open Verif

variable {σ τ : Type}

/-- A connection on which system calls are written down from now on. -/
def Conn.watched (c : Conn σ) : Conn (σ × List SysCall) := ⟨(c.net, []), c.locality, c.log⟩

/-- C85, for every operation, operating system and state: writing down the
system calls changes nothing; the events of the connection are what the system
calls transferred, in order; each call is the one that the exchange asks for,
for exactly the bytes outstanding; none follows a call that failed or
transferred nothing; and if the operation succeeds, no call failed and the
exchange is complete. -/
theorem C85_operations (os : Os σ) (op : Op) (c : Conn σ) :
    let r := runOp (watch os) op c.watched
    r.1 = (runOp os op c).1 ∧ r.2.plain = (runOp os op c).2 ∧
    (runOp os op c).2.log = c.log ++ moved r.2.net.2 ∧
    Orderly op.pieces r.2.net.2 ∧
    ((runOp os op c).1 = true →
      (∀ s ∈ r.2.net.2, s.events ≠ []) ∧ Complete op.pieces (moved r.2.net.2)) := by
  obtain ⟨h1, h2, calls, h3, h4, h5, h6⟩ := op_watch os op c.watched
  have h3 : (runOp (watch os) op c.watched).2.net.2 = calls := by rw [h3]; rfl
  have hp : c.watched.plain = c := rfl
  rw [hp] at h1 h2
  refine ⟨h1, h2, ?_, ?_, ?_⟩
  · rw [h3, ← h2]; exact h4
  · rw [h3]; exact h5
  · rw [h3, ← h1]; exact h6

/-- C85, for every TPM command: the same.  A command of 2³² bytes or more makes
no system call. -/
theorem C85_commands (os : Os σ) (command response : Bytes) (c : Conn σ) :
    let r := transact (watch os) command response c.watched
    let r' := transact os command response c
    r.1 = r'.1 ∧ r.2.1 = r'.2.1 ∧ r.2.2.plain = r'.2.2 ∧
    r'.2.2.log = c.log ++ moved r.2.2.net.2 ∧
    (2 ^ 32 ≤ command.length → r.2.2.net.2 = []) ∧
    (command.length < 2 ^ 32 →
      Orderly (commandPieces c.locality command response.length) r.2.2.net.2 ∧
      (r'.1.isOk = true → (∀ s ∈ r.2.2.net.2, s.events ≠ []) ∧
        Complete (commandPieces c.locality command response.length) (moved r.2.2.net.2))) := by
  by_cases hc : command.length < 2 ^ 32
  · obtain ⟨h1, h2, calls, h3, h4, h5, h6⟩ := transact_watch os command response c.watched hc
    have h3 : (transact (watch os) command response c.watched).2.2.net.2 = calls := by
      simp only at h3; rw [h3]; rfl
    have hp : c.watched.plain = c := rfl
    rw [hp] at h1 h2
    injection h1 with h1 h1'
    refine ⟨h1, h1', h2, ?_, fun h => absurd hc (by omega), fun _ => ⟨?_, ?_⟩⟩
    · rw [h3, ← h2]; exact h4
    · rw [h3]; exact h5
    · rw [h3, ← h1]; exact h6
  · have hc : 2 ^ 32 ≤ command.length := by omega
    unfold transact
    rw [if_pos hc, if_pos hc]
    exact ⟨rfl, rfl, rfl, by simp [moved, Conn.watched], fun _ => rfl, fun h => by omega⟩

/-- C85: the number of system calls is at most one more than the number of bytes
transferred and streams shut down; no operation and no command calls for ever,
whatever the operating system does. -/
theorem C85_bounded (os : Os σ) (c : Conn σ) :
    (∀ op, (runOp (watch os) op c.watched).2.net.2.length ≤
      (runOp os op c).2.log.length - c.log.length + 1) ∧
    (∀ command response, (transact (watch os) command response c.watched).2.2.net.2.length ≤
      (transact os command response c).2.2.log.length - c.log.length + 1) := by
  constructor
  · intro op
    obtain ⟨_, _, h3, h4, _⟩ := C85_operations os op c
    have := orderly_bound h4
    rw [h3, List.length_append]; omega
  · intro command response
    obtain ⟨_, _, _, h4, h5, h6⟩ := C85_commands os command response c
    by_cases hc : command.length < 2 ^ 32
    · have := orderly_bound (h6 hc).1
      rw [h4, List.length_append]; omega
    · rw [h5 (by omega)]; simp

/-- C85: a call that fails or transfers nothing is the last one, and the
operation fails. -/
theorem C85_stops (os : Os σ) (op : Op) (c : Conn σ) (pre post : List SysCall) (s : SysCall)
    (h : (runOp (watch os) op c.watched).2.net.2 = pre ++ s :: post) (hs : s.events = []) :
    post = [] ∧ (runOp os op c).1 = false := by
  obtain ⟨_, _, _, h4, h5⟩ := C85_operations os op c
  refine ⟨?_, ?_⟩
  · cases post with
    | nil => rfl
    | cons x xs => exact absurd hs ((h4 pre s _ h).2 (by simp))
  · cases hr : (runOp os op c).1 with
    | false => rfl
    | true => exact absurd hs ((h5 hr).1 s (by rw [h]; simp))

/-- C85: likewise for a TPM command. -/
theorem C85_command_stops (os : Os σ) (command response : Bytes) (c : Conn σ)
    (pre post : List SysCall) (s : SysCall)
    (h : (transact (watch os) command response c.watched).2.2.net.2 = pre ++ s :: post)
    (hs : s.events = []) :
    post = [] ∧ (transact os command response c).1.isOk = false := by
  obtain ⟨_, _, _, _, h5, h6⟩ := C85_commands os command response c
  have hc : command.length < 2 ^ 32 := by
    by_cases hc : command.length < 2 ^ 32
    · exact hc
    · have := h5 (by omega)
      rw [this] at h; simp at h
  obtain ⟨h4, h7⟩ := h6 hc
  refine ⟨?_, ?_⟩
  · cases post with
    | nil => rfl
    | cons x xs => exact absurd hs ((h4 pre s _ h).2 (by simp))
  · cases hr : (transact os command response c).1.isOk with
    | false => rfl
    | true => exact absurd hs ((h7 hr).1 s (by rw [h]; simp))

/-- The calls of a command of two bytes whose response of two bytes is delivered
three bytes at a time: the request at once, the length in two reads, the
response in one, the zero word in two. -/
example : (transact (watch (demoOs (fun (n : Nat) _ cmd => (cmd.reverse, n + 1)) 2)) [1, 2]
      (List.replicate 8 0) (Conn.watched ⟨⟨[], [], 0⟩, 3, []⟩)).2.2.net.2.map SysCall.ask =
    [.write .tpm [0, 0, 0, 8, 3, 0, 0, 0, 2, 1, 2], .read .tpm 4, .read .tpm 1, .read .tpm 2,
      .read .tpm 4, .read .tpm 1] := by
  decide +kernel

/-- And of an operation on a stream that accepts three bytes at a time and ends
too early: the code in two writes, two bytes of the acknowledgement, the end. -/
example : (runOp (watch (streamOs 3)) (.platformSignal .powerOn)
      (Conn.watched ⟨[0, 0], 0, []⟩)).2.net.2.map (fun s => (s.ask, s.events)) =
    [(.write .plat [0, 0, 0, 1], outs .plat [0, 0, 0]), (.write .plat [1], outs .plat [1]),
      (.read .plat 4, inps .plat [0, 0]), (.read .plat 2, [])] := by
  decide +kernel

end Verif.Tcp
