import Verif.EndToEnd.Props
import Verif.Client.Outcome
import Verif.Server.History

/-
Programs that use the server through the client, each call depending on the results of
earlier ones.
-/

namespace Verif.EndToEnd
open Verif Verif.Base Verif.Errors Verif.Client Verif.Server

variable {D E α : Type}

/-- What a program sees of a command: random bytes, another response, or an error. -/
inductive Seen where
  | bytes (b : Bytes)
  | response (p : Val)
  | code (rc : Nat)

/-- The random bytes of a response to GetRandom: `random_bytes.get_buffer()`
(base/src/commands/random.rs:21-24, marshalable-derive/src/lib.rs:221-223). -/
def randomBytes : Val → Bytes
  | .struct [.tpm2b size buffer] => buffer.take size
  | _ => []

/-- A program: it asks for random bytes, or runs another command, and goes on with what
it sees. -/
inductive Script (α : Type) where
  | done : α → Script α
  | random : Nat → (Seen → Script α) → Script α
  | other : Command → Area → (Seen → Script α) → Script α

/-- The result of `run_command_with_handles` (crates/tpm2-client/src/lib.rs:142-195) as a
program sees it; `none` is a failure of the connection, here a panic of the server. -/
def Seen.of (f : Val → Seen) : Res (CErr Unit) (Val × Val) → Option Seen
  | .ok (p, _) => some (f p)
  | .err (.tss e) => some (.code e.code)
  | .err (.conn _) => none
  | .panic => none

/-- One command of the program: `run_command_with_handles`
(crates/tpm2-client/src/lib.rs:142-195) over `execute_command_separate`
(crates/tpm2-impl/src/tpmctx.rs:24-34). -/
def ask (g : Drbg D) (es : Entropy E) (f : Val → Seen) (c : Command) (a : Area) (k : Crypto D E) :
    Option Seen × Crypto D E :=
  let r := runCommandWithHandles (serverTransport g es) c a k
  (Seen.of f r.result, r.state)

/-- The program, with the given way to run its commands; it ends where one fails. -/
def Script.runWith {σ : Type} (rnd : Nat → σ → Option Seen × σ)
    (oth : Command → Area → σ → Option Seen × σ) : Script α → σ → Option α × σ
  | .done a, k => (some a, k)
  | .random n next, k =>
    match rnd n k with
    | (some x, k) => (next x).runWith rnd oth k
    | (none, k) => (none, k)
  | .other c a next, k =>
    match oth c a k with
    | (some x, k) => (next x).runWith rnd oth k
    | (none, k) => (none, k)

/-- The program with client and server: every command is one call of
`run_command_with_handles` (crates/tpm2-client/src/lib.rs:142-195). -/
def Script.play (g : Drbg D) (es : Entropy E) (s : Script α) (k : Crypto D E) :
    Option α × Crypto D E :=
  s.runWith (fun n => ask g es (fun p => .bytes (randomBytes p)) (getRandomCommand n) area0)
    (ask g es .response) k

/-! ### Specification -/

/-- All commands of the program besides GetRandom have well-formed arguments, fit, and are
not GetRandom; numbers of random bytes have 16 bits. -/
def Script.Fine : Script α → Prop
  | .done _ => True
  | .random n next => n < 65536 ∧ ∀ x, (next x).Fine
  | .other c a next => CmdWF c a ∧ (commandBytes c a.active).length ≤ 4096 ∧ c.code ≠ 0x17B ∧
      ∀ x, (next x).Fine

/-- What the program would see with the generator itself at hand, with `shown` what it is
shown of generated bytes: every request for up to 4086 bytes gets the next bytes of the
generator, larger ones `TPM_RC_MEMORY`, and all other commands `TPM_RC_COMMAND_CODE`. -/
inductive Script.Dreams (shown : Bytes → Seen) (g : Drbg D) (es : Entropy E) :
    Script α → Crypto D E → α → Crypto D E → Prop
  | done {a k} : Dreams shown g es (.done a) k a k
  | random {n next k out k1 a k2} (hn : n ≤ 4086) (h : Produces g es k (List.replicate n 0) out k1)
      (rest : Dreams shown g es (next (shown out)) k1 a k2) :
      Dreams shown g es (.random n next) k a k2
  | tooMany {n next k a k2} (hn : 4086 < n) (rest : Dreams shown g es (next (.code 0x904)) k a k2) :
      Dreams shown g es (.random n next) k a k2
  | other {c area next k a k2} (rest : Dreams shown g es (next (.code 0x143)) k a k2) :
      Dreams shown g es (.other c area next) k a k2

/-- The generated bytes taken for a sized buffer of at most 64 bytes. -/
def misread : Bytes → Seen
  | x :: y :: r =>
    let size := 256 * x.toNat + y.toNat
    if size ≤ r.length ∧ size ≤ 64 then
      if size = r.length then .bytes r else .code 0x2010
    else .code 0x904
  | _ => .code 0x904

end Verif.EndToEnd
