import Verif.Server.Impl
import Verif.Codec.Spec

/-
Specification vocabulary for the server: the fields of requests and responses
and what it means that the generator produced bytes.
-/

namespace Verif.Server
open Verif Verif.Errors

/-- The big-endian number in `n` bytes at an offset. -/
def field (b : Bytes) (offset n : Nat) : Nat := positional ((b.drop offset).take n)

/-- A request with a complete header whose size field is its length. -/
def WellSized (req : Bytes) : Prop := 10 ≤ req.length ∧ field req 2 4 = req.length

/-- A request for random bytes that contains the number of bytes. -/
def AsksRandom (req : Bytes) : Prop := WellSized req ∧ field req 6 4 = 0x17B ∧ 12 ≤ req.length

instance (req : Bytes) : Decidable (WellSized req) := by unfold WellSized; infer_instance
instance (req : Bytes) : Decidable (AsksRandom req) := by unfold AsksRandom; infer_instance

/-- A TPM response without sessions: tag, size, code, parameters. -/
def responseOf (code : Nat) (params : Bytes) : Bytes :=
  [0x80, 0x01] ++ digits256 4 (10 + params.length) ++ digits256 4 code ++ params

variable {D E : Type}

/-- From state `k`, the generator fills `dest` with `out`, after a reseed with
fresh entropy if it demands one; `k'` is the state afterwards. -/
inductive Produces (g : Drbg D) (es : Entropy E) (k : Crypto D E) (dest : Bytes) :
    Bytes → Crypto D E → Prop
  | direct (d1 d2 : D) (out : Bytes)
      (h1 : g.requiresReseeding k.drbg = (false, d1))
      (h2 : g.fillBytes d1 [] dest = (true, out, d2)) :
      Produces g es k dest out
        ⟨d2, k.entropy⟩
  | reseeded (d1 d2 d3 : D) (e : E) (seed out : Bytes)
      (h1 : g.requiresReseeding k.drbg = (true, d1))
      (h2 : es.fill k.entropy g.entropyDefault = (seed, e))
      (h3 : g.reseed d1 seed [] = (true, d2))
      (h4 : g.fillBytes d2 [] dest = (true, out, d3)) :
      Produces g es k dest out
        ⟨d3, e⟩

/-- The answer with an error code: the code is written if it fits. -/
def errorAnswer (rsp : Bytes) (code : Nat) (k : Crypto D E) : Option Nat × Bytes × Crypto D E :=
  if 10 ≤ rsp.length then (some 10, rsp.take 6 ++ digits256 4 code ++ rsp.drop 10, k)
  else (some 0, rsp, k)

/-- `r` is the outcome of executing `req` with response buffer `rsp`, in one of
the two buffer modes. -/
def Served (g : Drbg D) (es : Entropy E) (k : Crypto D E) (req rsp : Bytes)
    (r : Option Nat × Bytes × Crypto D E) : Prop :=
  r = executeSeparate g es k req rsp ∨
  ∃ size, rsp.take size = req ∧ r = executeInPlace g es k rsp size

/-- A call of one of the two public functions. -/
inductive Call where
  | separate (request response : Bytes)
  | inPlace (buffer : Bytes) (size : Nat)

/-- The outcome of a call. -/
def Call.run (g : Drbg D) (es : Entropy E) (k : Crypto D E) : Call → Option Nat × Bytes × Crypto D E
  | .separate request response => executeSeparate g es k request response
  | .inPlace buffer size => executeInPlace g es k buffer size

/-- The outcomes (size and response buffer) of a sequence of calls and the state
afterwards. -/
def runCalls (g : Drbg D) (es : Entropy E) :
    Crypto D E → List Call → List (Option Nat × Bytes) × Crypto D E
  | k, [] => ([], k)
  | k, call :: calls =>
    let r := call.run g es k
    let rest := runCalls g es r.2.2 calls
    ((r.1, r.2.1) :: rest.1, rest.2)

/-- A use of a generator, with what it was given and what it answered. -/
inductive Ev where
  | instantiated (entropy nonce extra : Bytes)
  | asked (needed : Bool)
  | reseeded (seed extra : Bytes) (ok : Bool)
  | nextU32 (extra : Bytes)
  | nextU64 (extra : Bytes)
  | drawn (n : Nat) (extra : Bytes)
  deriving DecidableEq, Repr

/-- The generator `g` that in addition keeps a record of its uses. -/
def watched (g : Drbg D) : Drbg (D × List Ev) where
  entropyDefault := g.entropyDefault
  nonceDefault := g.nonceDefault
  instantiate e n x := (g.instantiate e n x).map (fun d => (d, [.instantiated e n x]))
  reseed d s x :=
    let r := g.reseed d.1 s x
    (r.1, r.2, d.2 ++ [.reseeded s x r.1])
  nextU32 d x := let r := g.nextU32 d.1 x; (r.1, r.2, d.2 ++ [.nextU32 x])
  nextU64 d x := let r := g.nextU64 d.1 x; (r.1, r.2, d.2 ++ [.nextU64 x])
  fillBytes d x b :=
    let r := g.fillBytes d.1 x b
    (r.1, r.2.1, r.2.2, d.2 ++ [.drawn b.length x])
  fillBytes_length d x b := g.fillBytes_length d.1 x b
  requiresReseeding d :=
    let r := g.requiresReseeding d.1
    (r.1, r.2, d.2 ++ [.asked r.1])

/-- The entropy source `es` that in addition keeps a record of what it
delivered. -/
def watchedEntropy (es : Entropy E) : Entropy (E × List Bytes) where
  start := (es.start, [])
  fill e b := let r := es.fill e.1 b; (r.1, r.2, e.2 ++ [r.1])
  fill_length e b := es.fill_length e.1 b

/-- The values given to the generator as entropy, nonce or seed. -/
def fed : List Ev → List Bytes
  | [] => []
  | .instantiated e n _ :: l => e :: n :: fed l
  | .reseeded s _ _ :: l => s :: fed l
  | _ :: l => fed l

/-- Every use of the generator that yields random values is `fill_bytes`, and is
directly preceded by the generator's answer that it does not need reseeding, or
by a successful reseed after the answer that it does. -/
def DrawsSafe (log : List Ev) : Prop :=
  (∀ x, .nextU32 x ∉ log ∧ .nextU64 x ∉ log) ∧
  ∀ i n x, log[i]? = some (.drawn n x) →
    (1 ≤ i ∧ log[i - 1]? = some (.asked false)) ∨
    (2 ≤ i ∧ ∃ seed x', log[i - 1]? = some (.reseeded seed x' true) ∧
      log[i - 2]? = some (.asked true))

/-- The generator never fails. -/
def Reliable (g : Drbg D) : Prop :=
  (∀ d s a, (g.reseed d s a).1 = true) ∧ ∀ d a b, (g.fillBytes d a b).1 = true

/-- The generator's output does not depend on what is in the destination. -/
def Fills (g : Drbg D) : Prop :=
  ∀ d a b b', b.length = b'.length → g.fillBytes d a b = g.fillBytes d a b'

end Verif.Server
