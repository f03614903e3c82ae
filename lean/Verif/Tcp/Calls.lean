import Verif.Tcp.Spec

/-
Specification of the system calls of a connection, stated independently of the
code: which call may come next, given what has been transferred so far.
-/

namespace Verif.Tcp
open Verif

variable {σ : Type}

/-- What is asked of the operating system. -/
inductive Ask where
  /-- accept these bytes, or the first of them -/
  | write (p : Port) (b : Bytes)
  /-- deliver at most so many bytes -/
  | read (p : Port) (n : Nat)
  | shut (p : Port)
  deriving DecidableEq

/-- A system call and its result. -/
inductive SysCall where
  | write (p : Port) (b : Bytes) (r : Except IoErr Nat)
  | read (p : Port) (n : Nat) (r : Except IoErr Bytes)
  | shut (p : Port) (r : Except IoErr Unit)

/-- What was asked. -/
def SysCall.ask : SysCall → Ask
  | .write p b _ => .write p b
  | .read p n _ => .read p n
  | .shut p _ => .shut p

/-- What was transferred. -/
def SysCall.events : SysCall → List Ev
  | .write p b (.ok n) => outs p (b.take n)
  | .read p _ (.ok b) => inps p b
  | .shut p (.ok _) => [.shut p]
  | _ => []

/-- What system calls transferred altogether. -/
def moved (calls : List SysCall) : List Ev := calls.flatMap SysCall.events

/-- An operating system that writes down the system calls on streams. -/
def watch (os : Os σ) : Os (σ × List SysCall) where
  connect s p n := ((os.connect s.1 p n).1, (os.connect s.1 p n).2, s.2)
  write s p b := ((os.write s.1 p b).1, (os.write s.1 p b).2, s.2 ++ [.write p b (os.write s.1 p b).1])
  write_le s p b n h := os.write_le s.1 p b n h
  read s p n := ((os.read s.1 p n).1, (os.read s.1 p n).2, s.2 ++ [.read p n (os.read s.1 p n).1])
  read_le s p k b h := os.read_le s.1 p k b h
  shutdown s p := ((os.shutdown s.1 p).1, (os.shutdown s.1 p).2, s.2 ++ [.shut p (os.shutdown s.1 p).1])
  sleep s := (os.sleep s.1, s.2)

/-- A part of an exchange. -/
inductive Piece where
  /-- bytes to send, in as many pieces as it takes -/
  | send (p : Port) (b : Bytes)
  /-- bytes to send in one piece -/
  | once (p : Port) (b : Bytes)
  /-- bytes to receive -/
  | recv (p : Port) (n : Nat)
  /-- a word to receive, which must be this -/
  | expect (p : Port) (w : Nat)
  /-- a word to receive, which must be at most `cap`, and so many bytes -/
  | reply (p : Port) (cap : Nat)
  | shut (p : Port)

/-- The byte of an event. -/
def Ev.byte : Ev → UInt8
  | .out _ b => b
  | .inp _ b => b
  | .shut _ => 0

/-- The length announced by the first four bytes. -/
def announced (l : List Ev) : Nat := positional ((l.take 4).map Ev.byte)

/-- The only system call that may come next in an exchange of these pieces of
which `l` has been transferred; `none` if there is none: everything is done, or
something is wrong. -/
def due : List Piece → List Ev → Option Ask
  | [], _ => none
  | .send p b :: rest, l =>
      if l.length < b.length then some (.write p (b.drop l.length)) else due rest (l.drop b.length)
  | .once p b :: rest, l =>
      if l.length < b.length then (if l = [] then some (.write p b) else none)
      else due rest (l.drop b.length)
  | .recv p n :: rest, l =>
      if l.length < n then some (.read p (n - l.length)) else due rest (l.drop n)
  | .expect p w :: rest, l =>
      if l.length < 4 then some (.read p (4 - l.length))
      else if announced l = w then due rest (l.drop 4) else none
  | .reply p cap :: rest, l =>
      if l.length < 4 then some (.read p (4 - l.length))
      else if cap < announced l then none
      else if l.length < 4 + announced l then some (.read p (4 + announced l - l.length))
      else due rest (l.drop (4 + announced l))
  | .shut p :: rest, l => if l = [] then some (.shut p) else due rest (l.drop 1)

/-- Has everything been transferred, and was nothing wrong? -/
def Complete : List Piece → List Ev → Prop
  | [], l => l = []
  | .send p b :: rest, l | .once p b :: rest, l => ∃ l', l = outs p b ++ l' ∧ Complete rest l'
  | .recv p n :: rest, l => ∃ b l', b.length = n ∧ l = inps p b ++ l' ∧ Complete rest l'
  | .expect p w :: rest, l =>
      ∃ b l', b.length = 4 ∧ positional b = w ∧ l = inps p b ++ l' ∧ Complete rest l'
  | .reply p cap :: rest, l =>
      ∃ h b l', h.length = 4 ∧ positional h ≤ cap ∧ b.length = positional h ∧
        l = inps p h ++ (inps p b ++ l') ∧ Complete rest l'
  | .shut p :: rest, l => ∃ l', l = .shut p :: l' ∧ Complete rest l'

/-- The system calls of an exchange: each is the one that may come next, and
none comes after one that failed or transferred nothing. -/
def Orderly (pieces : List Piece) (calls : List SysCall) : Prop :=
  ∀ pre c post, calls = pre ++ c :: post →
    due pieces (moved pre) = some c.ask ∧ (post ≠ [] → c.events ≠ [])

/-- The pieces of each operation. -/
def Op.pieces : Op → List Piece
  | .hcrtmSequence data =>
      [.send .tpm (word 5), .expect .tpm 0,
        .once .tpm (word 6 ++ word (data.length % 2 ^ 32) ++ data), .expect .tpm 0,
        .send .tpm (word 7), .expect .tpm 0]
  | .remoteHandshake v => [.once .tpm (word 15 ++ word v), .recv .tpm 8, .expect .tpm 0]
  | .setAlternativeResult r => [.once .tpm (word 16 ++ word r), .expect .tpm 0]
  | .platformSignal s => [.send .plat (word (signalCode s)), .expect .plat 0]
  | .reinit =>
      [.send .plat (word 12), .expect .plat 0, .send .plat (word 2), .expect .plat 0,
        .send .plat (word 1), .expect .plat 0, .send .plat (word 11), .expect .plat 0]
  | .testFailureMode => [.send .plat (word 30), .expect .plat 0]
  | .getCommandResponseSizes =>
      [.send .plat (word 25), .expect .plat 16, .recv .plat 16, .expect .plat 0]
  | .actGetSignaled h => [.once .plat (word 26 ++ word h), .recv .plat 4, .expect .plat 0]
  | .setFirmwareHash h => [.once .plat (word 35 ++ word h), .expect .plat 0]
  | .setFirmwareSvn n => [.once .plat (word 36 ++ word n), .expect .plat 0]
  | .sessionEnd => [.send .tpm (word 20), .shut .tpm, .send .plat (word 20), .shut .plat]
  | .stopSimulator => [.send .tpm (word 21), .shut .tpm, .send .plat (word 21), .shut .plat]

/-- The pieces of a TPM command. -/
def commandPieces (locality : Nat) (command : Bytes) (cap : Nat) : List Piece :=
  [.once .tpm (request locality command), .reply .tpm cap, .expect .tpm 0]

end Verif.Tcp
