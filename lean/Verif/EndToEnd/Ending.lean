import Verif.EndToEnd.Program

/-
The end of a session with the reference simulator: what the operating system does
with streams that have been shut down, and where the simulator is when the client has
told it on both ports to end the session or to stop.  Specification for C88.
-/

namespace Verif.EndToEnd
open Verif Verif.Tcp

variable {σ τ : Type}

/-- What the operating system does with `shutdown`; `shut s p` says that stream `p`
has been shut down.  The bytes written before still arrive.  Afterwards nothing is
accepted any more on the stream, and the simulator notices nothing of the attempt. -/
structure Shuts (os : Os σ) (d : Device τ) (obs : σ → World τ) (shut : σ → Port → Prop) : Prop where
  later : ∀ s p, Later d (obs s) (obs (os.shutdown s p).2)
  down : ∀ s p, (os.shutdown s p).1 = .ok () → shut (os.shutdown s p).2 p
  stays : ∀ s p q, shut s q → shut (os.shutdown s p).2 q
  write_stays : ∀ s p b q, shut s q → shut (os.write s p b).2 q
  refuses : ∀ s p b, shut s p → b ≠ [] →
    (∃ e, (os.write s p b).1 = .error e) ∧ Later d (obs s) (obs (os.write s p b).2)

/-- It does so without failing: what is written on a stream that has not been shut
down is accepted whole, and such a stream can be shut down; neither touches the other
stream. -/
structure Gentle (os : Os σ) (shut : σ → Port → Prop) : Prop where
  accepts : ∀ s p b, ¬ shut s p → (os.write s p b).1 = .ok b.length
  write_keeps : ∀ s p b q, ¬ shut s q → ¬ shut (os.write s p b).2 q
  shuts : ∀ s p, ¬ shut s p → (os.shutdown s p).1 = .ok ()
  keeps : ∀ s p q, q ≠ p → ¬ shut s q → ¬ shut (os.shutdown s p).2 q

/-- The code has arrived on both ports, and nothing else.  On the ports in `left` the
simulator has read it and closed the connection without an answer; that is all that has
happened to the device since it was in state `t`. -/
def World.Told (d : Device τ) (w : World τ) (t : τ) (code : Nat) : Prop :=
  ∃ left : List Port, left.Nodup ∧
    w.dev = left.foldl (fun t p => d.leave t p code) t ∧
    ∀ p, w.side p = if p ∈ left then ⟨[], [], true⟩ else ⟨word code, [], false⟩

/-- The client is done: both streams are shut down, and the simulator has been told. -/
def Ended (d : Device τ) (obs : σ → World τ) (shut : σ → Port → Prop) (t : τ) (code : Nat)
    (c : Conn σ) : Prop :=
  World.Told d (obs c.net) t code ∧ ∀ p, shut c.net p

/-- The calls that end a connection, with the code of the protocol. -/
inductive Ends : Call → Nat → Prop
  | session : Ends (.op .sessionEnd) 20
  | stop : Ends (.op .stopSimulator) 21

/-- The device when the simulator has ended, whichever port it looked at first. -/
def Gone (d : Device τ) (t : τ) (code : Nat) (t' : τ) : Prop :=
  t' = d.leave (d.leave t .tpm code) .plat code ∨ t' = d.leave (d.leave t .plat code) .tpm code

end Verif.EndToEnd
