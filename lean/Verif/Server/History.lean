import Verif.Server.Props

/-
Histories of the server: many requests, served one after the other, with any buffers.
-/

namespace Verif.Server
open Verif Verif.Errors

variable {D E : Type}

/-! ### Specification -/

/-- The bytes of the request of a call: the parameters of the two public functions,
crates/tpm2-impl/src/tpmctx.rs:24-28, 38-42. -/
def Call.request : Call → Bytes
  | .separate request _ => request
  | .inPlace buffer size => buffer.take size

/-- The buffer a call puts its response into: crates/tpm2-impl/src/tpmctx.rs:27, 40. -/
def Call.buffer : Call → Bytes
  | .separate _ response => response
  | .inPlace buffer _ => buffer

/-- How many random bytes a call is to get: those it asks for, if they fit. -/
def Call.wants (c : Call) : Option Nat :=
  if AsksRandom c.request ∧ 10 + field c.request 10 2 ≤ c.buffer.length then
    some (field c.request 10 2)
  else none

/-- The response code for a call that gets none. -/
def refusalCode (request : Bytes) : Nat :=
  if AsksRandom request then 0x904
  else if WellSized request ∧ field request 6 4 ≠ 0x17B then 0x143
  else 0x142

/-- Size and buffer after a call that gets none. -/
def Call.refusal (c : Call) : Option Nat × Bytes :=
  if 10 ≤ c.buffer.length then
    (some 10, c.buffer.take 6 ++ digits256 4 (refusalCode c.request) ++ c.buffer.drop 10)
  else (some 0, c.buffer)

/-- Asked for these numbers of bytes in turn, from state `k`, the generator yields these
byte strings. -/
inductive Yields (g : Drbg D) (es : Entropy E) :
    Crypto D E → List Nat → List Bytes → Crypto D E → Prop
  | done (k : Crypto D E) : Yields g es k [] [] k
  | more {k k1 k2 : Crypto D E} {n : Nat} {out : Bytes} {ns : List Nat} {outs : List Bytes}
      (h : Produces g es k (List.replicate n 0) out k1) (rest : Yields g es k1 ns outs k2) :
      Yields g es k (n :: ns) (out :: outs) k2

/-- The outcomes of the calls if those that are to get random bytes get `outs`, in order. -/
def handOut : List Call → List Bytes → List (Option Nat × Bytes)
  | [], _ => []
  | c :: cs, outs =>
    match c.wants with
    | none => c.refusal :: handOut cs outs
    | some n =>
      match outs with
      | [] => []
      | out :: outs =>
        (some (10 + n), responseOf 0 out ++ c.buffer.drop (10 + n)) :: handOut cs outs

/-- The same request, and as much space for the response. -/
def Alike (c c' : Call) : Prop :=
  c.request = c'.request ∧ c.buffer.length = c'.buffer.length

/-- Two histories of calls that are alike one by one. -/
inductive AllAlike : List Call → List Call → Prop
  | nil : AllAlike [] []
  | cons {c c' : Call} {cs cs' : List Call} (h : Alike c c') (rest : AllAlike cs cs') :
      AllAlike (c :: cs) (c' :: cs')

/-- What a caller may look at: the size, and of the response that many bytes; after an
error only the response code. -/
def visible (r : Option Nat × Bytes) : Option Nat × Bytes :=
  match r.1 with
  | none => (none, [])
  | some size =>
    if field r.2 6 4 = 0 then (some size, r.2.take size) else (some size, (r.2.take size).drop 6)

/-- The uses of the generator while `n` random bytes are produced. -/
inductive Uses (n : Nat) : List Ev → Prop
  | direct : Uses n [.asked false, .drawn n []]
  | reseeded (seed : Bytes) : Uses n [.asked true, .reseeded seed [] true, .drawn n []]
  | failed (seed : Bytes) : Uses n [.asked true, .reseeded seed [] false]

/-- The uses of the generator while these numbers of random bytes are produced one after
the other. -/
inductive AllUses : List Nat → List Ev → Prop
  | done : AllUses [] []
  | more {n : Nat} {ns : List Nat} {l l' : List Ev} (h : Uses n l) (rest : AllUses ns l') :
      AllUses (n :: ns) (l ++ l')

end Verif.Server
