import Verif.Tcp.Impl

/-
Model of `TcpSimulator`, which starts a simulator process and connects to it:
crates/tpm2-client/src/connection/tcp.rs:623-722.
-/

namespace Verif.Tcp
open Verif

/-- What is started, and the directory in which the port files appear
(arguments of crates/tpm2-client/src/connection/tcp.rs:632-637). -/
structure Cmd where
  bin : String
  args : List String
  cwd : String
  deriving DecidableEq, Repr

/-- The operating system with processes and files.  `spawn` returns the process
number, `readFile` the text of the file with the given name in a directory
(text that is not UTF-8 is an error of `read_to_string`). -/
structure Sys (σ : Type) extends Os σ where
  spawn : σ → Cmd → Except IoErr Nat × σ
  kill : σ → Nat → Except IoErr Unit × σ
  readFile : σ → String → String → Except IoErr (List Char) × σ

variable {σ : Type}

/-! ### Parsing -/

/-- `char::is_whitespace` (core library). -/
def isWhitespace (c : Char) : Bool :=
  c == ' ' || (0x09 ≤ c.toNat && c.toNat ≤ 0x0d) ||
  (0x7f < c.toNat &&
    (c.toNat == 0x85 || c.toNat == 0xa0 || c.toNat == 0x1680 ||
      (0x2000 ≤ c.toNat && c.toNat ≤ 0x200a) || c.toNat == 0x2028 || c.toNat == 0x2029 ||
      c.toNat == 0x202f || c.toNat == 0x205f || c.toNat == 0x3000))

/-- `str::trim` (core library). -/
def trim (t : List Char) : List Char :=
  ((t.dropWhile isWhitespace).reverse.dropWhile isWhitespace).reverse

/-- `char::to_digit(10)` (core library). -/
def toDigit (c : Char) : Option Nat :=
  if 48 ≤ c.toNat ∧ c.toNat ≤ 57 then some (c.toNat - 48) else none

/-- The loop of `u16::from_str` (core library): checked multiplication and
addition. -/
def parseLoop (acc : Nat) : List Char → Option Nat
  | [] => some acc
  | c :: cs =>
    match toDigit c with
    | none => none
    | some d =>
      if 65535 < acc * 10 then none
      else if 65535 < acc * 10 + d then none
      else parseLoop (acc * 10 + d) cs

/-- `u16::from_str` (core library). -/
def parseU16 : List Char → Option Nat
  | [] => none
  | ['+'] => none
  | ['-'] => none
  | '+' :: cs => parseLoop 0 cs
  | cs => parseLoop 0 cs

/-! ### Starting -/

/-- `read_port_from_file_with_retries` after `attempts` attempts:
crates/tpm2-client/src/connection/tcp.rs:673-693. -/
def readPort (sys : Sys σ) (cwd name : String) (attempts : Nat) (s : σ) : Except IoErr Nat × σ :=
  match sys.readFile s cwd name with
  | (.ok text, s) =>
    match parseU16 (trim text) with
    | some port => (.ok port, s)
    | none => (.error .invalidData, s)
  | (.error err, s) =>
    if attempts + 1 > 3 then (.error err, s)
    else readPort sys cwd name (attempts + 1) (sys.sleep s)
  termination_by 4 - attempts

/-- `TcpSimulator`: crates/tpm2-client/src/connection/tcp.rs:625-628. -/
structure Sim (σ : Type) where
  child : Nat
  conn : Conn σ

/-- `TcpSimulator::new`: crates/tpm2-client/src/connection/tcp.rs:632-670.
Dropping the `Child` on failure does nothing to the process (std::process). -/
def Sim.new (sys : Sys σ) (cmd : Cmd) (s : σ) : Except IoErr (Sim σ) × σ :=
  match sys.spawn s cmd with
  | (.error e, s) => (.error e, s)
  | (.ok child, s) =>
    match readPort sys cmd.cwd "command.port" 0 s with
    | (.error e, s) => (.error e, s)
    | (.ok tpmPort, s) =>
      match readPort sys cmd.cwd "platform.port" 0 s with
      | (.error e, s) => (.error e, s)
      | (.ok platPort, s) =>
        match connectWithRetries sys.toOs (some tpmPort) (some platPort) s with
        | (.error e, s) => (.error e, s)
        | (.ok conn, s) => (.ok ⟨child, conn⟩, s)

/-! ### Stopping -/

/-- `stop_nicely`: crates/tpm2-client/src/connection/tcp.rs:696-698. -/
def Sim.stopNicely (sys : Sys σ) (sim : Sim σ) : Except IoErr Unit × Sim σ :=
  ((stopSimulator sys.toOs sim.conn).1, ⟨sim.child, (stopSimulator sys.toOs sim.conn).2⟩)

/-- `stop`: crates/tpm2-client/src/connection/tcp.rs:701-705. -/
def Sim.stop (sys : Sys σ) (sim : Sim σ) : Except IoErr Unit × Sim σ :=
  match sys.kill sim.conn.net sim.child with
  | (.ok _, s) => (.ok (), ⟨sim.child, { sim.conn with net := s }⟩)
  | (.error _, s) => (.error .other, ⟨sim.child, { sim.conn with net := s }⟩)

/-- `drop`: crates/tpm2-client/src/connection/tcp.rs:719-721. -/
def Sim.drop (sys : Sys σ) (sim : Sim σ) : Sim σ :=
  match sim.stopNicely sys with
  | (.ok _, sim) => sim
  | (.error _, sim) => (sim.stop sys).2

end Verif.Tcp
