import Verif.Tcp.Spec

/-
What the TCG's reference simulator does with the bytes it receives, stated
independently of the code: the loops `TpmServer` and `PlatformServer` of
TcpServer.c in the reference implementation (not in /repo), around an arbitrary
device.  Between the client and these loops are two streams of bytes in each
direction that lose, reorder and invent nothing, but may cut everything into
pieces; the loops run whenever they like.  Specification for C83.
-/

namespace Verif.Tcp
open Verif

variable {σ τ : Type}

/-- Requests that are answered with nothing but the final zero word. -/
inductive Plain where
  | hashStart
  | hashData (b : Bytes)
  | hashEnd
  | alternative (result : Nat)
  | signal (s : Signal)
  | failureMode
  | firmwareHash (hash : Nat)
  | firmwareSvn (svn : Nat)
  deriving DecidableEq

/-- The device in the simulator, with states `τ`.  `handshake` may refuse, and then
the simulator closes the connection.  `leave`: a port is left because of a code.
Answers are as long as the protocol has room for. -/
structure Device (τ : Type) where
  perform : τ → Plain → τ
  send : τ → Nat → Bytes → Bytes × τ
  send_lt : ∀ t l b, (send t l b).1.length < 2 ^ 32
  handshake : τ → Nat → Option (Nat × Nat) × τ
  handshake_lt : ∀ t v x y, (handshake t v).1 = some (x, y) → x < 2 ^ 32 ∧ y < 2 ^ 32
  sizes : τ → Bytes × τ
  sizes_length : ∀ t, (sizes t).1.length = 16
  act : τ → Nat → Nat × τ
  act_lt : ∀ t h, (act t h).1 < 2 ^ 32
  leave : τ → Port → Nat → τ

/-- A request as the simulator understands it; `leave` for codes that end the
session or stop the simulator, and unknown ones. -/
inductive Req where
  | plain (p : Plain)
  | send (locality : Nat) (command : Bytes)
  | handshake (version : Nat)
  | sizes
  | act (handle : Nat)
  | leave (p : Port) (code : Nat)

/-- The number in the next four bytes, and the bytes after them. -/
def nextWord (b : Bytes) : Option (Nat × Bytes) :=
  if 4 ≤ b.length then some (positional (b.take 4), b.drop 4) else none

/-- The next `n` bytes, and the bytes after them. -/
def nextBytes (n : Nat) (b : Bytes) : Option (Bytes × Bytes) :=
  if n ≤ b.length then some (b.take n, b.drop n) else none

/-- One part of a request and then the others. -/
def andThen {α β : Type} (x : Option (α × Bytes)) (k : α → Bytes → Option (β × Bytes)) :
    Option (β × Bytes) :=
  match x with
  | none => none
  | some (a, b) => k a b

/-- The next request on the TPM port, if it has arrived completely. -/
def nextTpm (b : Bytes) : Option (Req × Bytes) :=
  andThen (nextWord b) fun code b =>
  if code = 5 then some (.plain .hashStart, b)
  else if code = 6 then
    andThen (nextWord b) fun n b =>
    andThen (nextBytes n b) fun data b => some (.plain (.hashData data), b)
  else if code = 7 then some (.plain .hashEnd, b)
  else if code = 8 then
    andThen (nextBytes 1 b) fun locality b =>
    andThen (nextWord b) fun n b =>
    andThen (nextBytes n b) fun command b => some (.send (positional locality) command, b)
  else if code = 15 then andThen (nextWord b) fun v b => some (.handshake v, b)
  else if code = 16 then andThen (nextWord b) fun r b => some (.plain (.alternative r), b)
  else some (.leave .tpm code, b)

/-- The signal with a code. -/
def signalOf (code : Nat) : Option Signal :=
  [Signal.powerOn, .powerOff, .physicalPresenceOn, .physicalPresenceOff, .cancelOn, .cancelOff,
    .nvOn, .nvOff, .keyCacheOn, .keyCacheOff, .reset, .restart].find? (signalCode · = code)

/-- The next request on the platform port, if it has arrived completely. -/
def nextPlat (b : Bytes) : Option (Req × Bytes) :=
  andThen (nextWord b) fun code b =>
  if code = 25 then some (.sizes, b)
  else if code = 26 then andThen (nextWord b) fun h b => some (.act h, b)
  else if code = 30 then some (.plain .failureMode, b)
  else if code = 35 then andThen (nextWord b) fun h b => some (.plain (.firmwareHash h), b)
  else if code = 36 then andThen (nextWord b) fun n b => some (.plain (.firmwareSvn n), b)
  else
    match signalOf code with
    | some s => some (.plain (.signal s), b)
    | none => some (.leave .plat code, b)

/-- The next request on a port. -/
def next : Port → Bytes → Option (Req × Bytes)
  | .tpm => nextTpm
  | .plat => nextPlat

/-- What the simulator writes for a request (`none`: it closes the connection), and
the device afterwards. -/
def Device.answer (d : Device τ) (t : τ) : Req → Option Bytes × τ
  | .plain p => (some ackBytes, d.perform t p)
  | .send l c => (some (reply (d.send t l c).1), (d.send t l c).2)
  | .handshake v =>
      ((d.handshake t v).1.map fun xy => word xy.1 ++ word xy.2 ++ ackBytes, (d.handshake t v).2)
  | .sizes => (some (word 16 ++ (d.sizes t).1 ++ ackBytes), (d.sizes t).2)
  | .act h => (some (word (d.act t h).1 ++ ackBytes), (d.act t h).2)
  | .leave p code => (none, d.leave t p code)

/-- A connection seen from the simulator: bytes that have not been read by it, bytes
that have not been read by the client, and whether the simulator closed it. -/
structure Side where
  unread : Bytes
  out : Bytes
  closed : Bool

/-- Both connections and the device. -/
structure World (τ : Type) where
  side : Port → Side
  dev : τ

/-- One side replaced. -/
def World.set (w : World τ) (p : Port) (x : Side) (t : τ) : World τ :=
  ⟨fun q => if q = p then x else w.side q, t⟩

/-- The simulator takes the next request of one port. -/
inductive Serve (d : Device τ) : World τ → World τ → Prop
  | answer (w : World τ) (p : Port) (r : Req) (rest : Bytes) (a : Bytes) (t : τ)
      (hc : (w.side p).closed = false) (hn : next p (w.side p).unread = some (r, rest))
      (ha : d.answer w.dev r = (some a, t)) :
      Serve d w (w.set p ⟨rest, (w.side p).out ++ a, false⟩ t)
  | close (w : World τ) (p : Port) (r : Req) (rest : Bytes) (t : τ)
      (hc : (w.side p).closed = false) (hn : next p (w.side p).unread = some (r, rest))
      (ha : d.answer w.dev r = (none, t)) :
      Serve d w (w.set p ⟨rest, (w.side p).out, true⟩ t)

/-- The simulator runs for a while. -/
inductive Later (d : Device τ) : World τ → World τ → Prop
  | refl (w : World τ) : Later d w w
  | step {w w' w'' : World τ} (h : Serve d w w') (hl : Later d w' w'') : Later d w w''

/-- Bytes of the client arrive. -/
def World.give (w : World τ) (p : Port) (b : Bytes) : World τ :=
  w.set p { w.side p with unread := (w.side p).unread ++ b } w.dev

/-- Bytes are delivered to the client. -/
def World.drop (w : World τ) (p : Port) (n : Nat) : World τ :=
  w.set p { w.side p with out := (w.side p).out.drop n } w.dev

/-- The operating system transports bytes between the client and the simulator:
accepted bytes arrive, delivered bytes are the next ones written by the simulator.
It may accept and deliver as few bytes as it likes, or fail. -/
structure Link (os : Os σ) (d : Device τ) (obs : σ → World τ) : Prop where
  write : ∀ s p b n, (os.write s p b).1 = .ok n →
    ∃ w, Later d (obs s) w ∧ Later d (w.give p (b.take n)) (obs (os.write s p b).2)
  read : ∀ s p k b, 0 < k → (os.read s p k).1 = .ok b →
    ∃ w, Later d (obs s) w ∧ (∃ rest, (w.side p).out = b ++ rest) ∧
      Later d (w.drop p b.length) (obs (os.read s p k).2)

/-- It does so without failing: writes are accepted whole, and a read ends without
any byte only if the simulator has come to rest with nothing to deliver. -/
structure Willing (os : Os σ) (d : Device τ) (obs : σ → World τ) : Prop extends Link os d obs where
  accepts : ∀ s p b, (os.write s p b).1 = .ok b.length
  delivers : ∀ s p k, 0 < k → ∃ b, (os.read s p k).1 = .ok b ∧
    (b = [] → ∃ w, Later d (obs s) w ∧ (w.side p).out = [] ∧ ∀ w', ¬ Serve d w w')

/-- Nothing is under way. -/
def World.Quiet (w : World τ) : Prop := ∀ p, w.side p = ⟨[], [], false⟩

end Verif.Tcp
