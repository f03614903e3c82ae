import Verif.EndToEnd.Handlers
import Verif.EndToEnd.Program

/-
Programs of any commands with a server with any handlers, called directly and over a
connection to a simulator in which the server is the TPM.  Specification for C108.
-/

namespace Verif.EndToEnd
open Verif Verif.Base Verif.Errors Verif.Client Verif.Server Verif.Tcp

variable {K α : Type}

/-! ### Model -/

/-- A program of the client: it runs commands, each depending on the results of earlier
ones. -/
inductive Dialog (α : Type) where
  | done (a : α)
  | ask (c : Command) (a : Area) (next : Res TssError (Val × Val) → Dialog α)

/-- What `run_command_with_handles` (crates/tpm2-client/src/lib.rs:142-195) returned; `none` if the
connection failed or the client panicked. -/
def returned {ε : Type} (r : Run K ε (Val × Val)) : Option (Res TssError (Val × Val)) × K :=
  match r with
  | ⟨.ok x, k⟩ => (some (.ok x), k)
  | ⟨.err (.tss e), k⟩ => (some (.err e), k)
  | ⟨.err (.conn _), k⟩ => (none, k)
  | ⟨.panic, k⟩ => (none, k)

/-- The program, with the given way to run its commands; it ends where one fails. -/
def Dialog.runWith (run : Command → Area → K → Option (Res TssError (Val × Val)) × K) :
    Dialog α → K → Option α × K
  | .done x, k => (some x, k)
  | .ask c a next, k =>
    match run c a k with
    | (some r, k) => (next r).runWith run k
    | (none, k) => (none, k)

/-- The program with the server: every command is one call of `run_command_with_handles`
(crates/tpm2-client/src/lib.rs:142-195) over `execute_command_separate`
(crates/tpm2-impl/src/tpmctx.rs:24-34) with any handlers. -/
def Dialog.direct (h : Handlers K) (s : Dialog α) (k : K) : Option α × K :=
  s.runWith (fun c a k => returned (runCommandWithHandles (serverTransportWith h) c a k)) k

/-- The program over a connection: every command is one call of `run_command_with_handles`
(crates/tpm2-client/src/lib.rs:142-195) with the `TcpSimulator`
(crates/tpm2-client/src/connection/tcp.rs:303-332). -/
def Dialog.remote : Dialog α → Prog (Option α)
  | .done x => .done (some x)
  | .ask c a next => .call (.command c a) fun
    | .result (.ok x) => (next (.ok x)).remote
    | .result (.err e) => (next (.err e)).remote
    | _ => .done none

/-! ### Specification -/

/-- The device in the simulator answers commands as the server with the handlers does
(`execute_command_separate`, crates/tpm2-impl/src/tpmctx.rs:24-34), which is given a fresh
buffer of 4096 bytes each time.  Nothing is said about what it does instead of a panic. -/
def RunsWith (d : Device K) (h : Handlers K) : Prop :=
  ∀ k l cmd size buf k', executeSeparateWith h k cmd (List.replicate 4096 0) = (some size, buf, k') →
    d.send k l cmd = (buf.take size, k')

/-- What the program would get if it called the handlers itself, giving them the handles,
authorizations and parameters of its commands, and taking what they write. -/
inductive Dialog.Handled (h : Handlers K) : Dialog α → K → α → K → Prop
  | done {x k} : Handled h (.done x) k x k
  | refused {c a next k x k'} : CmdWF c a → (commandBytes c a.active).length ≤ 4096 →
      h c.code = none → Handled h (next (.err ⟨0x143⟩)) k x k' →
      Handled h (.ask c a next) k x k'
  | error {c a next f k w out e k1 x k'} : CmdWF c a → (commandBytes c a.active).length ≤ 4096 →
      h c.code = some f →
      (f k).Reads (wire c.handlesTy c.handles ++ authArea a.active ++ wire c.paramTy c.param) w →
      w.Writes (List.replicate 4086 0) out (.err e) k1 → e.code ≠ 0 → e.code < 2 ^ 32 →
      Handled h (next (.err ⟨e.code⟩)) k1 x k' →
      Handled h (.ask c a next) k x k'
  | answer {c a next f k w hv pv auths k1 x k'} : CmdWF c a →
      (commandBytes c a.active).length ≤ 4096 → h c.code = some f →
      (f k).Reads (wire c.handlesTy c.handles ++ authArea a.active ++ wire c.paramTy c.param) w →
      WF c.respHandlesTy hv → WF c.respTy pv → (∀ v ∈ auths, WF TpmsAuthResponse v) →
      Accepted a.active (auths.map (canon TpmsAuthResponse)) →
      w.Writes (List.replicate 4086 0)
        (wire c.respHandlesTy hv ++ wire c.respTy pv ++ wires TpmsAuthResponse auths) (.ok ()) k1 →
      Handled h (next (.ok (canon c.respTy pv, canon c.respHandlesTy hv))) k1 x k' →
      Handled h (.ask c a next) k x k'

end Verif.EndToEnd
