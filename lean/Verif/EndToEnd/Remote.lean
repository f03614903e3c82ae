import Verif.EndToEnd.Program
import Verif.EndToEnd.Random

/-
All parts together: programs of the client that use the server over a connection to a
simulator in which the server is the TPM.  Specification for C101.
-/

namespace Verif.EndToEnd
open Verif Verif.Errors Verif.Client Verif.Server Verif.Tcp

variable {D E α : Type}

/-- The device in the simulator answers commands as the server does
(`execute_command_separate`, crates/tpm2-impl/src/tpmctx.rs:24-34), which is given a fresh
buffer of 4096 bytes each time.  Nothing is said about what it does instead of a panic. -/
def Runs (d : Device (Crypto D E)) (g : Drbg D) (es : Entropy E) : Prop :=
  ∀ k l cmd size buf k', executeSeparate g es k cmd (List.replicate 4096 0) = (some size, buf, k') →
    d.send k l cmd = (buf.take size, k')

/-- What a program sees of the result of a command over the connection
(`run_command_with_handles`, crates/tpm2-client/src/lib.rs:142-195). -/
def Seen.ofOut (f : Val → Seen) : Out → Option Seen
  | .result (.ok (p, _)) => some (f p)
  | .result (.err e) => some (.code e.code)
  | _ => none

/-- The program over a connection: every command is one call of
`run_command_with_handles` (crates/tpm2-client/src/lib.rs:142-195); `none` if the client
panics. -/
def Script.remote : Script α → Prog (Option α)
  | .done a => .done (some a)
  | .random n next => .call (.command (getRandomCommand n) area0) fun o =>
    match Seen.ofOut (fun p => .bytes (randomBytes p)) o with
    | some x => (next x).remote
    | none => .done none
  | .other c a next => .call (.command c a) fun o =>
    match Seen.ofOut .response o with
    | some x => (next x).remote
    | none => .done none

end Verif.EndToEnd
