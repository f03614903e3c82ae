import Verif.Basic

/-
Model of the random generator interface and its helpers:
crates/tpm2-impl/src/platform/crypto.
-/

namespace Verif.Server
open Verif

/-- `uN::to_le_bytes` (core library) as used in
crates/tpm2-impl/src/platform/crypto/drbg/helpers.rs:17, 23, 26. -/
def toLE : Nat → Nat → Bytes
  | 0, _ => []
  | n + 1, x => UInt8.ofNat x :: toLE n (x / 256)

/-- `uN::from_le_bytes` (core library) as used in
crates/tpm2-impl/src/platform/crypto/drbg/helpers.rs:36, 43. -/
def fromLE (b : Bytes) : Nat :=
  b.foldr (fun x acc => x.toNat + 256 * acc) 0

/-- The trait `Drbg`: crates/tpm2-impl/src/platform/crypto/drbg/mod.rs:57-151.
`DrbgError` (crates/tpm2-impl/src/platform/crypto/drbg/error.rs:4) carries
nothing, so failing is `none` or `false`.  The types `Entropy` and `Nonce` are
byte strings of a fixed length with default contents.  An implementation may do
anything, also change the destination when it fails, except change the length of
a slice. -/
structure Drbg (D : Type) where
  entropyDefault : Bytes
  nonceDefault : Bytes
  instantiate : Bytes → Bytes → Bytes → Option D
  reseed : D → Bytes → Bytes → Bool × D
  nextU32 : D → Bytes → Option (BitVec 32) × D
  nextU64 : D → Bytes → Option (BitVec 64) × D
  fillBytes : D → Bytes → Bytes → Bool × Bytes × D
  fillBytes_length : ∀ d a b, (fillBytes d a b).2.1.length = b.length
  requiresReseeding : D → Bool × D

/-- The trait `EntropySource`: crates/tpm2-impl/src/platform/crypto/entropy.rs:2-7;
it cannot fail.  `start` is the result of `instantiate`. -/
structure Entropy (E : Type) where
  start : E
  fill : E → Bytes → Bytes × E
  fill_length : ∀ e b, (fill e b).1.length = b.length

variable {D : Type}

/-- The parts of `fill_bytes_via_next` after the loop
(crates/tpm2-impl/src/platform/crypto/drbg/helpers.rs:21-29). -/
def fillTail (g : Drbg D) (d : D) (additional dest : Bytes) : Bool × Bytes × D :=
  let n := dest.length
  if n > 4 then
    match g.nextU64 d additional with
    | (none, d) => (false, dest, d)
    | (some w, d) => (true, (toLE 8 w.toNat).take n, d)
  else if n > 0 then
    match g.nextU32 d additional with
    | (none, d) => (false, dest, d)
    | (some w, d) => (true, (toLE 4 w.toNat).take n, d)
  else (true, dest, d)

/-- `fill_bytes_via_next`: crates/tpm2-impl/src/platform/crypto/drbg/helpers.rs:9-30.
`Bool` is success; the destination afterwards is returned also on failure. -/
def fillBytesViaNext (g : Drbg D) (d : D) (additional dest : Bytes) : Bool × Bytes × D :=
  if 8 ≤ dest.length then
    match g.nextU64 d additional with
    | (none, d) => (false, dest, d)
    | (some w, d) =>
      let r := fillBytesViaNext g d [] (dest.drop 8)
      (r.1, toLE 8 w.toNat ++ r.2.1, r.2.2)
  else fillTail g d additional dest
termination_by dest.length
decreasing_by simp only [List.length_drop]; omega

/-- `next_u32_via_fill`: crates/tpm2-impl/src/platform/crypto/drbg/helpers.rs:33-37. -/
def nextU32ViaFill (g : Drbg D) (d : D) (additional : Bytes) : Option (BitVec 32) × D :=
  match g.fillBytes d additional [0, 0, 0, 0] with
  | (false, _, d) => (none, d)
  | (true, b, d) => (some (BitVec.ofNat 32 (fromLE b)), d)

/-- `next_u64_via_fill`: crates/tpm2-impl/src/platform/crypto/drbg/helpers.rs:40-44. -/
def nextU64ViaFill (g : Drbg D) (d : D) (additional : Bytes) : Option (BitVec 64) × D :=
  match g.fillBytes d additional [0, 0, 0, 0, 0, 0, 0, 0] with
  | (false, _, d) => (none, d)
  | (true, b, d) => (some (BitVec.ofNat 64 (fromLE b)), d)

/-- `next_u64_via_u32`: crates/tpm2-impl/src/platform/crypto/drbg/helpers.rs:47-52. -/
def nextU64ViaU32 (g : Drbg D) (d : D) (additional : Bytes) : Option (BitVec 64) × D :=
  match g.nextU32 d additional with
  | (none, d) => (none, d)
  | (some x, d) =>
    match g.nextU32 d [] with
    | (none, d) => (none, d)
    | (some y, d) => (some ((y.setWidth 64 <<< 32) ||| x.setWidth 64), d)

end Verif.Server
