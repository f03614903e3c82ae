import Verif.Basic

/-
Model of the zero-copy structure crate: crates/tpm2/src/{marshal,tpmi,tpmt}.rs
and the algorithm identifiers of crates/tpm2/src/constants.rs.
-/

namespace Verif.Tpm2
open Verif

/-! ### Algorithm identifiers -/

/-! `Alg`: a `u16`, represented as a natural number below 65536;
crates/tpm2/src/constants.rs:14, hash algorithms: 22, 29-32, 52-54. -/
namespace AlgId
def Sha1 := 0x0004
def Sha256 := 0x000B
def Sha384 := 0x000C
def Sha512 := 0x000D
def Sm3_256 := 0x0012
def Sha3_256 := 0x0027
def Sha3_384 := 0x0028
def Sha3_512 := 0x0029
end AlgId

/-- `TpmiAlgHash`: crates/tpm2/src/tpmi.rs:12-21. -/
inductive Hash where
  | sha1 | sha256 | sha384 | sha512 | sm3_256 | sha3_256 | sha3_384 | sha3_512
  deriving DecidableEq, Repr

/-- `TpmiAlgHash::digest_size`: crates/tpm2/src/tpmi.rs:24-36. -/
def Hash.digestSize : Hash → Nat
  | .sha1 => 20
  | .sha256 => 32
  | .sha384 => 48
  | .sha512 => 64
  | .sm3_256 => 32
  | .sha3_256 => 32
  | .sha3_384 => 48
  | .sha3_512 => 64

/-- `TpmiAlgHash::BY_SIZE_DESC`: crates/tpm2/src/tpmi.rs:39-47. -/
def Hash.bySizeDesc : List Hash :=
  [.sha512, .sha3_512, .sha384, .sha3_384, .sha256, .sha3_256, .sm3_256, .sha1]

/-- `Alg::from(TpmiAlgHash)`: crates/tpm2/src/tpmi.rs:49-53 with the
discriminants of 12-21. -/
def Hash.toAlg : Hash → Nat
  | .sha1 => AlgId.Sha1
  | .sha256 => AlgId.Sha256
  | .sha384 => AlgId.Sha384
  | .sha512 => AlgId.Sha512
  | .sm3_256 => AlgId.Sm3_256
  | .sha3_256 => AlgId.Sha3_256
  | .sha3_384 => AlgId.Sha3_384
  | .sha3_512 => AlgId.Sha3_512

/-- `TpmiAlgHash::try_from(Alg)`: crates/tpm2/src/tpmi.rs:54-70; `none` is
`HashError`. -/
def Hash.tryFrom (a : Nat) : Option Hash :=
  if a = AlgId.Sha1 then some .sha1
  else if a = AlgId.Sha256 then some .sha256
  else if a = AlgId.Sha384 then some .sha384
  else if a = AlgId.Sha512 then some .sha512
  else if a = AlgId.Sm3_256 then some .sm3_256
  else if a = AlgId.Sha3_256 then some .sha3_256
  else if a = AlgId.Sha3_384 then some .sha3_384
  else if a = AlgId.Sha3_512 then some .sha3_512
  else none

/-! ### Limits -/

/-- `Limits`: crates/tpm2/src/marshal.rs:27-29.  An implementation is any set of
supported algorithms.  Simplified: `supports_hash` is a pure function and the
provided method `max_digest_size` is not overridden. -/
structure Limits where
  supportsHash : Hash → Bool

/-- The loop of `max_digest_size`: crates/tpm2/src/marshal.rs:31-35. -/
def maxDigestLoop (l : Limits) : List Hash → Nat
  | [] => 0
  | h :: hs => if l.supportsHash h then h.digestSize else maxDigestLoop l hs

/-- `Limits::max_digest_size`: crates/tpm2/src/marshal.rs:30-37. -/
def Limits.maxDigestSize (l : Limits) : Nat := maxDigestLoop l Hash.bySizeDesc

/-! ### Fixed-size values -/

/-- `split_first_chunk::<N>` (core library). -/
def splitFirstChunk (n : Nat) (b : Bytes) : Option (Bytes × Bytes) :=
  if n ≤ b.length then some (b.take n, b.drop n) else none

/-- A function taking `buf: &mut [u8]` and returning the rest of `buf` or
`MarshalError`: the number of bytes before the returned slice (`none` for the
error) and the contents of the whole of `buf` afterwards. -/
abbrev MOut := Option Nat × Bytes

/-- The blanket `Marshal::marshal` of a `MarshalArray` type of size `n` whose
`marshal_array` stores `enc`: crates/tpm2/src/marshal.rs:74-82. -/
def marshalArray (n : Nat) (enc : Bytes) (buf : Bytes) : MOut :=
  match splitFirstChunk n buf with
  | none => (none, buf)
  | some (_, rest) => (some n, enc ++ rest)

/-- The blanket `Unmarshal::unmarshal` of an `UnmarshalArray` type:
crates/tpm2/src/marshal.rs:108-118.  Returns the rest of the input (`none` for
`UnmarshalError`) and `*self` afterwards. -/
def unmarshalArray {α : Type} (n : Nat) (dec : Bytes → Option α) (self : α) (buf : Bytes) :
    Option Bytes × α :=
  match splitFirstChunk n buf with
  | none => (none, self)
  | some (arr, rest) =>
    match dec arr with
    | none => (none, self)
    | some x => (some rest, x)

/-- `marshal` of an `n`-byte integer: crates/tpm2/src/marshal.rs:121-128. -/
def marshalInt (n x : Nat) (buf : Bytes) : MOut := marshalArray n (toBE n x) buf
/-- `unmarshal` of an `n`-byte integer: crates/tpm2/src/marshal.rs:129-134. -/
def unmarshalInt (n : Nat) (self : Nat) (buf : Bytes) : Option Bytes × Nat :=
  unmarshalArray n (fun b => some (fromBE b)) self buf

/-- `TpmiAlgHash::marshal`: crates/tpm2/src/tpmi.rs:71-78 through
crates/tpm2/src/constants.rs:62-69. -/
def marshalHash (h : Hash) (buf : Bytes) : MOut := marshalArray 2 (toBE 2 h.toAlg) buf
/-- `TpmiAlgHash::unmarshal_array`: crates/tpm2/src/tpmi.rs:79-86 through
crates/tpm2/src/constants.rs:70-74. -/
def decodeHash (arr : Bytes) : Option Hash := Hash.tryFrom (fromBE arr)

/-! ### Tagged digests -/

/-- `[u8; N]`. -/
abbrev ByteArr (n : Nat) := { b : Bytes // b.length = n }

/-- `TpmtHa`: crates/tpm2/src/tpmt.rs:14-20. -/
inductive TpmtHa where
  | sha1 (d : ByteArr 20)
  | sha256 (d : ByteArr 32)
  | sha384 (d : ByteArr 48)
  | sha512 (d : ByteArr 64)

/-- `hash_alg`: crates/tpm2/src/tpmt.rs:23-30. -/
def TpmtHa.hashAlg : TpmtHa → Hash
  | .sha1 _ => .sha1
  | .sha256 _ => .sha256
  | .sha384 _ => .sha384
  | .sha512 _ => .sha512

/-- `digest`: crates/tpm2/src/tpmt.rs:31-38. -/
def TpmtHa.digest : TpmtHa → Bytes
  | .sha1 d => d.val
  | .sha256 d => d.val
  | .sha384 d => d.val
  | .sha512 d => d.val

/-- `TpmtHa::marshal`: crates/tpm2/src/tpmt.rs:42-57. -/
def TpmtHa.marshal (l : Limits) (v : TpmtHa) (buf : Bytes) : MOut :=
  if !l.supportsHash v.hashAlg then (none, buf)
  else
    match marshalHash v.hashAlg buf with
    | (none, buf) => (none, buf)
    | (some n, buf) =>
      let (r, sub) := match v with
        | .sha1 d => marshalArray 20 d.val (buf.drop n)
        | .sha256 d => marshalArray 32 d.val (buf.drop n)
        | .sha384 d => marshalArray 48 d.val (buf.drop n)
        | .sha512 d => marshalArray 64 d.val (buf.drop n)
      (r.map (n + ·), buf.take n ++ sub)

/-- `marshaled_size`: crates/tpm2/src/tpmt.rs:58-60. -/
def TpmtHa.marshaledSize (v : TpmtHa) : Nat := 2 + v.hashAlg.digestSize
/-- `marshaled_size_max`: crates/tpm2/src/tpmt.rs:61-63. -/
def marshaledSizeMax (l : Limits) : Nat := 2 + l.maxDigestSize

/-- `split_first_chunk().ok_or(UnmarshalError)?; *self = Self::X(arr); Ok(buf)`:
crates/tpm2/src/tpmt.rs:74-77. -/
def takeDigest (n : Nat) (mk : ByteArr n → TpmtHa) (self : TpmtHa) (buf : Bytes) :
    Option Bytes × TpmtHa :=
  if h : n ≤ buf.length then
    (some (buf.drop n), mk ⟨buf.take n, by simp [h]⟩)
  else (none, self)

/-- `TpmtHa::unmarshal`: crates/tpm2/src/tpmt.rs:65-97.  Returns the rest of the
input (`none` for `UnmarshalError`) and `*self` afterwards. -/
def TpmtHa.unmarshal (l : Limits) (self : TpmtHa) (buf : Bytes) : Option Bytes × TpmtHa :=
  match splitFirstChunk 2 buf with
  | none => (none, self)
  | some (arr, buf) =>
    match decodeHash arr with
    | none => (none, self)
    | some .sha1 => if l.supportsHash .sha1 then takeDigest 20 .sha1 self buf else (none, self)
    | some .sha256 =>
      if l.supportsHash .sha256 then takeDigest 32 .sha256 self buf else (none, self)
    | some .sha384 =>
      if l.supportsHash .sha384 then takeDigest 48 .sha384 self buf else (none, self)
    | some .sha512 =>
      if l.supportsHash .sha512 then takeDigest 64 .sha512 self buf else (none, self)
    | some _ => (none, self)

end Verif.Tpm2
