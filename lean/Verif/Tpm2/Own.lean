import Verif.Tpm2.Fixed
import Verif.Codec.IntLemmas

/-
Model of the blanket implementations of crates/tpm2/src/marshal.rs for a type of
the caller's own: the traits `MarshalArray` and `UnmarshalArray` are public.  Their
functions may panic, may depend on what is in the array, and may use state kept
elsewhere.
-/

namespace Verif.Tpm2
open Verif

variable {σ α : Type}

/-- An implementation of `MarshalArray` and `UnmarshalArray`
(crates/tpm2/src/marshal.rs:61-70, 98-106) for the type `α`.  `n` is the length of
the type `Array`, `size` the constant `SIZE`; that they are equal is only asked for
in a comment (63).  `put` is `marshal_array` (`none` is a panic); an array keeps its
length.  `get` is `unmarshal_array` with the conversion of its error. -/
structure OwnArray (σ α : Type) where
  n : Nat
  size : Nat
  put : α → Bytes → σ → (Option Unit × Bytes) × σ
  put_length : ∀ v arr s, (put v arr s).1.2.length = arr.length
  get : Bytes → σ → Res Unit α × σ

/-- `Marshal::marshal`: crates/tpm2/src/marshal.rs:72-82. -/
def OwnArray.marshal (t : OwnArray σ α) (v : α) (buf : Bytes) (s : σ) :
    (Res Unit Nat × Bytes) × σ :=
  match splitFirstChunk t.n buf with
  | none => ((.err (), buf), s)
  | some (arr, rest) =>
    match t.put v arr s with
    | ((none, arr), s) => ((.panic, arr ++ rest), s)
    | ((some (), arr), s) => ((.ok t.n, arr ++ rest), s)

/-- `marshaled_size`: crates/tpm2/src/marshal.rs:83-86. -/
def OwnArray.marshaledSize (t : OwnArray σ α) (_ : α) : Nat := t.size

/-- `marshaled_size_max`: crates/tpm2/src/marshal.rs:87-90. -/
def OwnArray.marshaledSizeMax (t : OwnArray σ α) (_ : Limits) : Nat := t.size

/-- `Unmarshal::unmarshal`: crates/tpm2/src/marshal.rs:108-118.  Returns the rest of
the input and `*self` afterwards. -/
def OwnArray.unmarshal (t : OwnArray σ α) (self : α) (buf : Bytes) (s : σ) :
    (Res Unit Bytes × α) × σ :=
  match splitFirstChunk t.n buf with
  | none => ((.err (), self), s)
  | some (arr, rest) =>
    match t.get arr s with
    | (.ok x, s) => ((.ok rest, x), s)
    | (.err (), s) => ((.err (), self), s)
    | (.panic, s) => ((.panic, self), s)

/-- An encoding has the length of the array. -/
theorem Fixed.enc_length (f : Fixed) (v : f.Value) : (f.enc v).length = f.size := by
  cases f with
  | bytes n => exact v.2
  | _ => exact (congrArg List.length (toBE_eq_digits256 _ _)).trans (digits256_length _ _)

/-- The fixed-size types of the crate: crates/tpm2/src/marshal.rs:121-145,
crates/tpm2/src/constants.rs:60-74, crates/tpm2/src/tpmi.rs:71-86.  (An array always
has its length, so the other case of `put` does not occur.) -/
def Fixed.own (f : Fixed) : OwnArray σ f.Value where
  n := f.size
  size := f.size
  put v arr s := ((some (), if arr.length = f.size then f.enc v else arr), s)
  put_length := by
    intro v arr s
    dsimp only
    split
    · rename_i he; rw [f.enc_length, he]
    · rfl
  get arr s := (match f.dec arr with | some x => .ok x | none => .err (), s)

end Verif.Tpm2
