import Verif.Tcp.Impl
import Verif.Codec.Spec

/-
Specification of the simulator protocol, stated independently of the code:
the bytes exchanged for each operation, traces of operations, and what a
simulator is.
-/

namespace Verif.Tcp
open Verif

variable {σ : Type}

/-- Bytes accepted by a stream. -/
def outs (p : Port) (b : Bytes) : List Ev := b.map (.out p)

/-- Bytes delivered by a stream. -/
def inps (p : Port) (b : Bytes) : List Ev := b.map (.inp p)

/-- The stream an event belongs to. -/
def Ev.port : Ev → Port
  | .out p _ => p
  | .inp p _ => p
  | .shut p => p

/-- The zero word that completes every exchange. -/
def ackBytes : Bytes := [0, 0, 0, 0]

/-- The request for a TPM command: code 8, locality, length and command. -/
def request (locality : Nat) (command : Bytes) : Bytes :=
  [0, 0, 0, 8] ++ digits256 1 locality ++ digits256 4 command.length ++ command

/-- The reply to a TPM command: length, response and the zero word. -/
def reply (response : Bytes) : Bytes := digits256 4 response.length ++ response ++ ackBytes

/-! ### Traces -/

/-- One step of an operation: send these bytes, receive so many bytes, receive
the acknowledgement, shut the stream down. -/
inductive Step where
  | send (p : Port) (b : Bytes)
  | recv (p : Port) (n : Nat)
  | ack (p : Port)
  | shut (p : Port)

/-- The traces of a sequence of steps.  If `done`, all steps were performed and
every acknowledgement was zero.  Otherwise the steps stopped somewhere. -/
def Trace : List Step → List Ev → Bool → Prop
  | [], l, done => l = [] ∧ done = true
  | .send p b :: rest, l, done =>
      (∃ l', l = outs p b ++ l' ∧ Trace rest l' done) ∨
      (done = false ∧ ∃ k, l = outs p (b.take k))
  | .recv p n :: rest, l, done =>
      (∃ b l', b.length = n ∧ l = inps p b ++ l' ∧ Trace rest l' done) ∨
      (done = false ∧ ∃ b, b.length ≤ n ∧ l = inps p b)
  | .ack p :: rest, l, done =>
      (∃ l', l = inps p ackBytes ++ l' ∧ Trace rest l' done) ∨
      (done = false ∧ ∃ b, b.length ≤ 4 ∧ l = inps p b)
  | .shut p :: rest, l, done =>
      (∃ l', l = .shut p :: l' ∧ Trace rest l' done) ∨ (done = false ∧ l = [])

/-- The operations of a connection other than TPM commands. -/
inductive Op where
  | hcrtmSequence (data : Bytes)
  | remoteHandshake (clientVersion : Nat)
  | setAlternativeResult (result : Nat)
  | platformSignal (s : Signal)
  | reinit
  | testFailureMode
  | getCommandResponseSizes
  | actGetSignaled (actHandle : Nat)
  | setFirmwareHash (hash : Nat)
  | setFirmwareSvn (svn : Nat)
  | sessionEnd
  | stopSimulator

/-- The operations of the platform port. -/
def Op.onPlatform : Op → Bool
  | .platformSignal _ | .reinit | .testFailureMode | .getCommandResponseSizes
  | .actGetSignaled _ | .setFirmwareHash _ | .setFirmwareSvn _ => true
  | _ => false

/-- The operations of the TPM port. -/
def Op.onTpm : Op → Bool
  | .hcrtmSequence _ | .remoteHandshake _ | .setAlternativeResult _ => true
  | _ => false

/-- A word on the wire. -/
def word (x : Nat) : Bytes := digits256 4 x

/-- Codes of the platform signals in the simulator protocol. -/
def signalCode : Signal → Nat
  | .powerOn => 1
  | .powerOff => 2
  | .physicalPresenceOn => 3
  | .physicalPresenceOff => 4
  | .cancelOn => 9
  | .cancelOff => 10
  | .nvOn => 11
  | .nvOff => 12
  | .keyCacheOn => 13
  | .keyCacheOff => 14
  | .reset => 17
  | .restart => 18

/-- The steps of each operation. -/
def Op.steps : Op → List Step
  | .hcrtmSequence data =>
      [.send .tpm (word 5), .ack .tpm, .send .tpm (word 6 ++ word data.length ++ data), .ack .tpm,
        .send .tpm (word 7), .ack .tpm]
  | .remoteHandshake v => [.send .tpm (word 15 ++ word v), .recv .tpm 8, .ack .tpm]
  | .setAlternativeResult r => [.send .tpm (word 16 ++ word r), .ack .tpm]
  | .platformSignal s => [.send .plat (word (signalCode s)), .ack .plat]
  | .reinit =>
      [.send .plat (word 12), .ack .plat, .send .plat (word 2), .ack .plat,
        .send .plat (word 1), .ack .plat, .send .plat (word 11), .ack .plat]
  | .testFailureMode => [.send .plat (word 30), .ack .plat]
  | .getCommandResponseSizes =>
      [.send .plat (word 25), .recv .plat 4, .recv .plat 16, .ack .plat]
  | .actGetSignaled h => [.send .plat (word 26 ++ word h), .recv .plat 4, .ack .plat]
  | .setFirmwareHash h => [.send .plat (word 35 ++ word h), .ack .plat]
  | .setFirmwareSvn n => [.send .plat (word 36 ++ word n), .ack .plat]
  | .sessionEnd => [.send .tpm (word 20), .shut .tpm, .send .plat (word 20), .shut .plat]
  | .stopSimulator => [.send .tpm (word 21), .shut .tpm, .send .plat (word 21), .shut .plat]

/-- Performing an operation with the model of the code; did it succeed? -/
def runOp (os : Os σ) (op : Op) (c : Conn σ) : Bool × Conn σ :=
  match op with
  | .hcrtmSequence d => ((hcrtmSequence os d c).1.isOk, (hcrtmSequence os d c).2)
  | .remoteHandshake v => ((remoteHandshake os v c).1.isOk, (remoteHandshake os v c).2)
  | .setAlternativeResult r => ((setAlternativeResult os r c).1.isOk, (setAlternativeResult os r c).2)
  | .platformSignal s => ((platformSignal os s c).1.isOk, (platformSignal os s c).2)
  | .reinit => ((reinit os c).1.isOk, (reinit os c).2)
  | .testFailureMode => ((testFailureMode os c).1.isOk, (testFailureMode os c).2)
  | .getCommandResponseSizes =>
      ((getCommandResponseSizes os c).1.isOk, (getCommandResponseSizes os c).2)
  | .actGetSignaled h => ((actGetSignaled os h c).1.isOk, (actGetSignaled os h c).2)
  | .setFirmwareHash h => ((setFirmwareHash os h c).1.isOk, (setFirmwareHash os h c).2)
  | .setFirmwareSvn n => ((setFirmwareSvn os n c).1.isOk, (setFirmwareSvn os n c).2)
  | .sessionEnd => ((sessionEnd os c).1.isOk, (sessionEnd os c).2)
  | .stopSimulator => ((stopSimulator os c).1.isOk, (stopSimulator os c).2)

/-! ### Peers -/

/-- Reading from port `p` delivers the bytes `pend s` in order, in chunks of any
size, then the end of the stream; the peer's state `st` is not affected. -/
structure Feeds {τ : Type} (os : Os σ) (p : Port) (pend : σ → Bytes) (st : σ → τ) : Prop where
  read : ∀ s n, 0 < n → ∃ k, k ≤ n ∧ (pend s ≠ [] → 1 ≤ k) ∧
    (os.read s p n).1 = .ok ((pend s).take k) ∧
    pend (os.read s p n).2 = (pend s).drop k ∧ st (os.read s p n).2 = st s

/-- A simulator whose TPM behaves like `f` (state, locality, command to
response, state): it accepts every request, and the reply is delivered after
everything that was to be delivered before. -/
structure Simulator {τ : Type} (os : Os σ) (f : τ → Nat → Bytes → Bytes × τ)
    (pend : σ → Bytes) (st : σ → τ) : Prop extends Feeds os .tpm pend st where
  send : ∀ s locality command, locality < 256 → command.length < 2 ^ 32 →
    (os.write s .tpm (request locality command)).1 = .ok (request locality command).length ∧
    pend (os.write s .tpm (request locality command)).2 =
      pend s ++ reply (f (st s) locality command).1 ∧
    st (os.write s .tpm (request locality command)).2 = (f (st s) locality command).2

end Verif.Tcp
