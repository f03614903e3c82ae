import Verif.Tpm2.Impl

/-
Model of crates/tpm2/src/{marshal,tpmt}.rs with an arbitrary implementation of
`Limits`, whose methods may have state, may panic, and may replace
`max_digest_size`.
-/

namespace Verif.Tpm2
open Verif

variable {σ : Type}

/-- An implementation of `Limits` (crates/tpm2/src/marshal.rs:27-38) with state
elsewhere.  The answer `none` is a panic.  `maxDigestSize` is the caller's own
version of the provided method, if any. -/
structure OwnLimits (σ : Type) where
  supportsHash : Hash → σ → Option Bool × σ
  maxDigestSize : Option (σ → Option Nat × σ)

/-- The loop of `max_digest_size`: crates/tpm2/src/marshal.rs:31-35. -/
def OwnLimits.maxLoop (l : OwnLimits σ) : List Hash → σ → Option Nat × σ
  | [], s => (some 0, s)
  | h :: hs, s =>
    match l.supportsHash h s with
    | (none, s) => (none, s)
    | (some true, s) => (some h.digestSize, s)
    | (some false, s) => l.maxLoop hs s

/-- `max_digest_size`: crates/tpm2/src/marshal.rs:30-37. -/
def OwnLimits.max (l : OwnLimits σ) (s : σ) : Option Nat × σ :=
  match l.maxDigestSize with
  | some f => f s
  | none => l.maxLoop Hash.bySizeDesc s

/-- `TpmtHa::marshal`: crates/tpm2/src/tpmt.rs:42-57. -/
def TpmtHa.marshalOwn (l : OwnLimits σ) (v : TpmtHa) (buf : Bytes) (s : σ) :
    (Res Unit Nat × Bytes) × σ :=
  match l.supportsHash v.hashAlg s with
  | (none, s) => ((.panic, buf), s)
  | (some false, s) => ((.err (), buf), s)
  | (some true, s) =>
    match marshalHash v.hashAlg buf with
    | (none, buf) => ((.err (), buf), s)
    | (some n, buf) =>
      let (r, sub) := match v with
        | .sha1 d => marshalArray 20 d.val (buf.drop n)
        | .sha256 d => marshalArray 32 d.val (buf.drop n)
        | .sha384 d => marshalArray 48 d.val (buf.drop n)
        | .sha512 d => marshalArray 64 d.val (buf.drop n)
      match r with
      | none => ((.err (), buf.take n ++ sub), s)
      | some k => ((.ok (n + k), buf.take n ++ sub), s)

/-- `usize` addition: with overflow checks a panic (`none`), else modulo 2^w
(core library). -/
def addUsize (checks : Bool) (w a b : Nat) : Option Nat :=
  if a + b < 2 ^ w then some (a + b) else if checks then none else some ((a + b) % 2 ^ w)

/-- `marshaled_size_max`: crates/tpm2/src/tpmt.rs:61-63. -/
def OwnLimits.marshaledSizeMax (checks : Bool) (w : Nat) (l : OwnLimits σ) (s : σ) :
    Option Nat × σ :=
  match l.max s with
  | (none, s) => (none, s)
  | (some k, s) => (addUsize checks w 2 k, s)

/-- One arm of `TpmtHa::unmarshal`: crates/tpm2/src/tpmt.rs:74-78. -/
def ownArm (l : OwnLimits σ) (h : Hash) (n : Nat) (mk : ByteArr n → TpmtHa) (self : TpmtHa)
    (buf : Bytes) (s : σ) : (Res Unit Bytes × TpmtHa) × σ :=
  match l.supportsHash h s with
  | (none, s) => ((.panic, self), s)
  | (some false, s) => ((.err (), self), s)
  | (some true, s) =>
    match takeDigest n mk self buf with
    | (none, self) => ((.err (), self), s)
    | (some rest, self) => ((.ok rest, self), s)

/-- `TpmtHa::unmarshal`: crates/tpm2/src/tpmt.rs:65-97. -/
def TpmtHa.unmarshalOwn (l : OwnLimits σ) (self : TpmtHa) (buf : Bytes) (s : σ) :
    (Res Unit Bytes × TpmtHa) × σ :=
  match splitFirstChunk 2 buf with
  | none => ((.err (), self), s)
  | some (arr, buf) =>
    match decodeHash arr with
    | some .sha1 => ownArm l .sha1 20 .sha1 self buf s
    | some .sha256 => ownArm l .sha256 32 .sha256 self buf s
    | some .sha384 => ownArm l .sha384 48 .sha384 self buf s
    | some .sha512 => ownArm l .sha512 64 .sha512 self buf s
    | _ => ((.err (), self), s)

end Verif.Tpm2
