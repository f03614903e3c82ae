import Verif.Client.Impl
import Verif.Server.Props
import Verif.Tcp.Props

/-
Composition of the client with the server and with the simulator connection.
-/

namespace Verif.EndToEnd
open Verif Verif.Errors

variable {D E σ : Type}

/-- A `Connection` (crates/tpm2-client/src/connection/mod.rs:11-26) that executes
the command by `execute_command_separate`
(crates/tpm2-impl/src/tpmctx.rs:24-34) and returns the response's slice of the
buffer.  Not in the repository.  A panic of the server is a failure of the
connection. -/
def serverTransport (g : Server.Drbg D) (es : Server.Entropy E) :
    Client.Transport (Server.Crypto D E) Unit where
  transact k cmd rsp :=
    let r := Server.executeSeparate g es k cmd rsp
    match r.1 with
    | some size => (.reported size, r.2.1, r.2.2)
    | none => (.failed (), r.2.1, r.2.2)
  keeps_length := by
    intro k cmd rsp
    have h := (Server.C46_bounds g es k cmd rsp _ (.inl rfl)).1
    simp only
    split <;> exact h
  reports_slice := by
    intro k cmd rsp n h
    have hb := (Server.C46_bounds g es k cmd rsp _ (.inl rfl)).2.1
    simp only at h
    split at h
    · rename_i size hs
      injection h with h
      subst h
      exact (hb _ hs).1
    · simp at h

theorem tcp_length (os : Tcp.Os σ) (cmd rsp : Bytes) (c : Tcp.Conn σ) :
    (Tcp.transact os cmd rsp c).2.1.length = rsp.length := by
  by_cases hc : cmd.length < 2 ^ 32
  · rw [Tcp.transact_eq os cmd rsp c hc]
    rcases Tcp.writeVectored os .tpm (Tcp.request c.locality cmd) c with ⟨e | u, c1⟩
    · rfl
    · exact (Tcp.receive_spec os rsp c1).2.1
  · unfold Tcp.transact
    rw [if_pos (by omega)]

/-- `impl Connection for TcpConnection`: crates/tpm2-client/src/connection/tcp.rs:392-433. -/
def tcpTransport (os : Tcp.Os σ) : Client.Transport (Tcp.Conn σ) Tcp.IoErr where
  transact c cmd rsp :=
    let r := Tcp.transact os cmd rsp c
    match r.1 with
    | .ok n => (.reported n, r.2.1, r.2.2)
    | .error e => (.failed e, r.2.1, r.2.2)
  keeps_length := by
    intro c cmd rsp
    have h := tcp_length os cmd rsp c
    simp only
    split <;> exact h
  reports_slice := by
    intro c cmd rsp n h
    rcases hx : Tcp.transact os cmd rsp c with ⟨e | m, b, c'⟩
    · simp only [hx] at h; simp at h
    · simp only [hx] at h
      injection h with h
      subst h
      exact (Tcp.C40_framing os cmd rsp c c' m b hx).2.1

end Verif.EndToEnd
