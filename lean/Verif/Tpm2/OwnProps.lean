import Verif.Tpm2.Own
import Verif.Tpm2.FixedProps

/-
Property theorems C94: fixed-size values of the caller's own.
-/

namespace Verif.Tpm2
open Verif

variable {σ α : Type}

theorem split_append {n : Nat} {arr rest : Bytes} (h : arr.length = n) :
    splitFirstChunk n (arr ++ rest) = some (arr, rest) := by
  unfold splitFirstChunk
  rw [if_pos (by rw [List.length_append]; omega), List.take_left' h, List.drop_left' h]

/-- **C94**: with fewer bytes than the array has, neither direction asks the
implementation: the call fails, and buffer, destination and state are as before. -/
theorem C94_short (t : OwnArray σ α) (v self : α) (buf : Bytes) (s : σ) (h : buf.length < t.n) :
    t.marshal v buf s = ((.err (), buf), s) ∧ t.unmarshal self buf s = ((.err (), self), s) := by
  have h : ¬ t.n ≤ buf.length := by omega
  constructor
  · simp only [OwnArray.marshal, splitFirstChunk, if_neg h]
  · simp only [OwnArray.unmarshal, splitFirstChunk, if_neg h]

/-- **C94**: otherwise the implementation of marshalling is given the first bytes of
the buffer, as they are, exactly once; what it makes of them stands there, also if
it panics; what comes after them is untouched and is what is returned. -/
theorem C94_marshal (t : OwnArray σ α) (v : α) (arr rest : Bytes) (s : σ) (h : arr.length = t.n) :
    ∃ arr' s', arr'.length = arr.length ∧
      ((t.put v arr s = ((some (), arr'), s') ∧
          t.marshal v (arr ++ rest) s = ((.ok arr.length, arr' ++ rest), s')) ∨
        (t.put v arr s = ((none, arr'), s') ∧
          t.marshal v (arr ++ rest) s = ((.panic, arr' ++ rest), s'))) := by
  have hl := t.put_length v arr s
  rcases hp : t.put v arr s with ⟨⟨_ | ⟨⟩, arr'⟩, s'⟩
  · rw [hp] at hl
    exact ⟨arr', s', hl, .inr ⟨rfl, by simp only [OwnArray.marshal, split_append h, hp]⟩⟩
  · rw [hp] at hl
    exact ⟨arr', s', hl, .inl ⟨rfl, by simp only [OwnArray.marshal, split_append h, hp, h]⟩⟩

/-- **C94**: unmarshalling asks the implementation exactly once, with the first bytes
of the input; the destination changes exactly if that accepts them, and then the rest
of the input is returned. -/
theorem C94_unmarshal (t : OwnArray σ α) (self : α) (arr rest : Bytes) (s : σ)
    (h : arr.length = t.n) :
    (∀ x s', t.get arr s = (.ok x, s') →
      t.unmarshal self (arr ++ rest) s = ((.ok rest, x), s')) ∧
    (∀ s', t.get arr s = (.err (), s') →
      t.unmarshal self (arr ++ rest) s = ((.err (), self), s')) ∧
    (∀ s', t.get arr s = (.panic, s') →
      t.unmarshal self (arr ++ rest) s = ((.panic, self), s')) := by
  refine ⟨?_, ?_, ?_⟩ <;> intros <;> simp only [OwnArray.unmarshal, split_append h, *]

/-- **C94**: both sizes are the number of bytes that marshalling writes exactly if the
constant is the length of the array. -/
theorem C94_sizes (t : OwnArray σ α) (l : Limits) (v : α) (buf : Bytes) (s s' : σ) (k : Nat)
    (buf' : Bytes) (h : t.marshal v buf s = ((.ok k, buf'), s')) :
    t.marshaledSizeMax l = t.marshaledSize v ∧ (t.marshaledSize v = k ↔ t.size = t.n) := by
  refine ⟨rfl, ?_⟩
  unfold OwnArray.marshal at h
  split at h
  · simp at h
  · split at h
    · simp at h
    · simp only [Prod.mk.injEq, Res.ok.injEq] at h
      rw [← h.1.1]
      rfl

/-- **C94**: a type whose implementation writes encodings that it reads back is
marshalled and unmarshalled, with anything after it. -/
theorem C94_round_trip (t : OwnArray σ α) (enc : α → Bytes) (hlen : ∀ v, (enc v).length = t.n)
    (hput : ∀ v arr s, arr.length = t.n → t.put v arr s = ((some (), enc v), s))
    (hget : ∀ v s, t.get (enc v) s = (.ok v, s)) (v self : α) (buf rest : Bytes) (s : σ)
    (hb : t.n ≤ buf.length) :
    t.marshal v buf s = ((.ok t.n, enc v ++ buf.drop t.n), s) ∧
    t.unmarshal self (enc v ++ rest) s = ((.ok rest, v), s) := by
  constructor
  · have hl : (buf.take t.n).length = t.n := by rw [List.length_take]; omega
    have := split_append (rest := buf.drop t.n) hl
    rw [List.take_append_drop] at this
    simp only [OwnArray.marshal, this, hput _ _ _ hl]
  · exact (C94_unmarshal t self (enc v) rest s (hlen v)).1 v s (hget v s)

/-- **C94**: the types of the crate (C86) are such types. -/
theorem C94_fixed (f : Fixed) (v self : f.Value)
    (buf : Bytes) (s : σ) :
    (∀ k b, (f.marshal v buf = (some k, b) ↔
      (f.own : OwnArray σ _).marshal v buf s = ((.ok k, b), s)) ∧
      (f.marshal v buf = (none, b) ↔ (f.own : OwnArray σ _).marshal v buf s = ((.err (), b), s))) ∧
    (∀ rest x, (f.unmarshal self buf = (some rest, x) ↔
      (f.own : OwnArray σ _).unmarshal self buf s = ((.ok rest, x), s)) ∧
      (f.unmarshal self buf = (none, x) ↔
      (f.own : OwnArray σ _).unmarshal self buf s = ((.err (), x), s))) := by
  by_cases h : f.size ≤ buf.length
  · have hl : (buf.take f.size).length = f.size := by rw [List.length_take]; omega
    have hs : splitFirstChunk f.size buf = some (buf.take f.size, buf.drop f.size) := if_pos h
    constructor
    · intro k b
      simp [Fixed.marshal, marshalArray, OwnArray.marshal, Fixed.own, hs, hl]
    · intro rest x
      rcases hd : f.dec (buf.take f.size) with _ | y <;>
        simp [Fixed.unmarshal, unmarshalArray, OwnArray.unmarshal, Fixed.own, hs, hd]
  · have hs : splitFirstChunk f.size buf = none := if_neg h
    constructor
    · intro k b
      simp [Fixed.marshal, marshalArray, OwnArray.marshal, Fixed.own, hs]
    · intro rest x
      simp [Fixed.unmarshal, unmarshalArray, OwnArray.unmarshal, Fixed.own, hs]

/-! ### Examples -/

/-- A byte that is added to what is in the array, in which the calls are counted, and
which claims to have two bytes; ten or more panics, and zero cannot be read. -/
def odd : OwnArray Nat UInt8 where
  n := 1
  size := 2
  put v arr s := (if v < 10 then (some (), arr.map (· + v)) else (none, arr), s + 1)
  put_length := by intro v arr s; dsimp only; split <;> simp
  get arr s := (match arr with | [0] => .err () | [x] => .ok x | _ => .panic, s + 1)

example : odd.marshal 3 [] 7 = ((.err (), []), 7) ∧ odd.unmarshal 3 [] 7 = ((.err (), 3), 7) :=
  C94_short odd 3 3 [] 7 (by decide)

example : odd.marshal 3 [4, 5] 7 = ((.ok 1, [7, 5]), 8) ∧
    odd.marshal 10 [4, 5] 7 = ((.panic, [4, 5]), 8) := ⟨rfl, rfl⟩

example : odd.unmarshal 3 [4, 5] 7 = ((.ok [5], 4), 8) ∧
    odd.unmarshal 3 [0, 5] 7 = ((.err (), 3), 8) :=
  ⟨(C94_unmarshal odd 3 [4] [5] 7 rfl).1 4 8 rfl, (C94_unmarshal odd 3 [0] [5] 7 rfl).2.1 8 rfl⟩

/-- Its size is not the number of bytes it writes. -/
example : odd.marshaledSize 3 ≠ 1 := by
  have h := (C94_sizes odd ⟨fun _ => true⟩ 3 [4, 5] 7 8 1 [7, 5] rfl).2
  rw [Ne, h]
  decide

/-- Signed integers of two bytes. -/
example (s : σ) : ((Fixed.sint 2).own : OwnArray σ _).marshal ⟨-2, by decide⟩ [1, 2, 3] s =
    ((.ok 2, [0xFF, 0xFE, 3]), s) :=
  ((C94_fixed (.sint 2) ⟨-2, by decide⟩ ⟨0, by decide⟩ [1, 2, 3] s).1 _ _).1.1 rfl

end Verif.Tpm2
