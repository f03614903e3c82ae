import Verif.Server.Props

/-!
The unit tests of crates/tpm2-impl/src/tests/drbg.rs and
crates/tpm2-impl/src/tests/mod.rs, as in `Tests/Marshalable`.
-/

namespace Verif.Tests
open Verif Verif.Server

/-- The loop of `fill_bytes`: crates/tpm2-impl/src/tests/drbg.rs:41-47. -/
def countUp : UInt8 → Nat → Bytes × UInt8
  | c, 0 => ([], c)
  | c, n + 1 => let r := countUp (c + 1) n; ((c + 1) :: r.1, r.2)

theorem countUp_length (c : UInt8) (n : Nat) : (countUp c n).1.length = n := by
  induction n generalizing c with
  | zero => rfl
  | succ n ih => simp [countUp, ih]

/-- The first byte of the array `entropy_input`: crates/tpm2-impl/src/tests/drbg.rs:33, 37. -/
def firstByte : Bytes → UInt8
  | b :: _ => b
  | [] => 0  -- does not happen: the array has one element

/-- `FakeDrbg` without `next_u32` and `next_u64`: crates/tpm2-impl/src/tests/drbg.rs:28-59.
The addition in `reseed` is that of a release build. -/
def fillOnly : Drbg UInt8 where
  entropyDefault := [0]
  nonceDefault := []
  instantiate entropy _ _ := some (firstByte entropy)
  reseed d entropy _ := (true, d + firstByte entropy)
  nextU32 d _ := (none, d)
  nextU64 d _ := (none, d)
  fillBytes d _ b := (true, countUp d b.length)
  fillBytes_length := by intro d a b; exact countUp_length d b.length
  requiresReseeding d := (false, d)

/-- `FakeDrbg`: crates/tpm2-impl/src/tests/drbg.rs:28-59. -/
def testDrbg : Drbg UInt8 :=
  { fillOnly with nextU32 := nextU32ViaFill fillOnly, nextU64 := nextU64ViaFill fillOnly }

/-- `fill_entropy` from position `i` on: crates/tpm2-impl/src/tests/entropy.rs:6-10. -/
def indices : Nat → Bytes → Bytes
  | _, [] => []
  | i, _ :: r => UInt8.ofNat (i &&& 0xFF) :: indices (i + 1) r

/-- `FakeEntropy`: crates/tpm2-impl/src/tests/entropy.rs:3-15. -/
def testEntropy : Entropy Unit where
  start := ()
  fill _ b := (indices 0 b, ())
  fill_length := by
    intro _ b
    suffices h : ∀ i, (indices i b).length = b.length from h 0
    induction b with
    | nil => intro i; rfl
    | cons x r ih => intro i; simp [indices, ih]

/-- crates/tpm2-impl/src/tests/drbg.rs:61-71 -/
theorem test_get_random_bytes :
    ∃ d, testDrbg.fillBytes 0 [] (List.replicate 10 0) = (true, [1, 2, 3, 4, 5, 6, 7, 8, 9, 10], d) ∧
      ∃ d', testDrbg.fillBytes d [] [1, 2, 3, 4, 5, 6, 7, 8, 9, 10] =
        (true, [11, 12, 13, 14, 15, 16, 17, 18, 19, 20], d') :=
  ⟨10, by decide, 20, by decide⟩

/-- `request`: crates/tpm2-impl/src/tests/mod.rs:29-34, 50-55. -/
def testRequest : Bytes := [0x80, 0x01, 0, 0, 0, 0x0C, 0, 0, 0x01, 0x7B, 0, 0x0C]

/-- `expected_response`: crates/tpm2-impl/src/tests/mod.rs:35-40, 56-61. -/
def testResponse : Bytes :=
  [0x80, 0x01, 0, 0, 0, 0x16, 0, 0, 0, 0, 1, 2, 3, 4, 5, 6, 7, 8, 9, 10, 11, 12]

theorem served (rsp : Bytes) (h : rsp.length = 256) (r : Option Nat × Bytes × Crypto UInt8 Unit)
    (hs : Served testDrbg testEntropy ⟨0, ()⟩ testRequest rsp r) :
    ∃ size, r.1 = some size ∧ r.2.1.take size = testResponse := by
  have e : field testRequest 10 2 = 12 := by decide
  have hl : ((rsp.drop 10).take 12).length = 12 := by simp [h]
  have := (C48_success testDrbg testEntropy ⟨0, ()⟩ ⟨12, ()⟩ testRequest rsp
    [1, 2, 3, 4, 5, 6, 7, 8, 9, 10, 11, 12] (by decide) (by rw [e]; omega)
    (by
      rw [e]
      refine .direct 0 12 _ rfl ?_
      show (true, countUp 0 ((rsp.drop 10).take 12).length) = _
      rw [hl]
      decide) r hs).1
  rw [this, e]
  exact ⟨22, rfl, List.take_left' (by decide)⟩

/-- crates/tpm2-impl/src/tests/mod.rs:25-46 -/
theorem get_random_in_place :
    ∃ k, Crypto.new testDrbg testEntropy = some k ∧
      ∃ size, (executeInPlace testDrbg testEntropy k
          (testRequest ++ List.replicate (256 - 12) 0xFF) 12).1 = some size ∧
        (executeInPlace testDrbg testEntropy k
          (testRequest ++ List.replicate (256 - 12) 0xFF) 12).2.1.take size = testResponse :=
  ⟨⟨0, ()⟩, rfl, served _ (by rw [List.length_append, List.length_replicate]; rfl) _
    (.inr ⟨12, List.take_left' rfl, rfl⟩)⟩

/-- crates/tpm2-impl/src/tests/mod.rs:48-69 -/
theorem get_random_separate :
    ∃ k, Crypto.new testDrbg testEntropy = some k ∧
      ∃ size, (executeSeparate testDrbg testEntropy k testRequest (List.replicate 256 0xFF)).1 = some size ∧
        (executeSeparate testDrbg testEntropy k testRequest (List.replicate 256 0xFF)).2.1.take size =
          testResponse :=
  ⟨⟨0, ()⟩, rfl, served _ List.length_replicate _ (.inl rfl)⟩

end Verif.Tests
