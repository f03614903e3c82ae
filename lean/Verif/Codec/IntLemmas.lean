import Verif.Codec.Impl
import Verif.Codec.Spec

/-! Helper lemmas: big-endian integers. -/

namespace Verif

theorem toBE_eq_digits256 (n x : Nat) : toBE n x = digits256 n x := by
  induction n with
  | zero => rfl
  | succ n ih =>
    have h : digits256 (n + 1) x = UInt8.ofNat (x / 256 ^ n % 256) :: digits256 n x := by
      simp [digits256, List.range_succ]
    rw [h, toBE, ih]
    congr 1
    apply UInt8.toNat_inj.mp
    simp

@[simp] theorem digits256_length (n x : Nat) : (digits256 n x).length = n := by
  simp [digits256]

theorem digits256_succ (n x : Nat) :
    digits256 (n + 1) x = UInt8.ofNat (x / 256 ^ n % 256) :: digits256 n x := by
  simp [digits256, List.range_succ]

theorem fromBE_eq_positional (b : Bytes) : fromBE b = positional b := by
  have key : ∀ (b : Bytes) (acc : Nat),
      b.foldl (fun acc x => acc * 256 + x.toNat) acc = acc * 256 ^ b.length + positional b := by
    intro b
    induction b with
    | nil => intro acc; simp [positional]
    | cons x xs ih =>
      intro acc
      simp only [List.foldl_cons, ih, positional, List.length_cons, Nat.pow_succ]
      rw [Nat.add_mul, Nat.mul_assoc, Nat.mul_comm 256, Nat.add_assoc]
  simpa [fromBE] using key b 0

theorem positional_lt (b : Bytes) : positional b < 256 ^ b.length := by
  induction b with
  | nil => simp [positional]
  | cons x xs ih =>
    simp only [positional, List.length_cons, Nat.pow_succ]
    have hx : x.toNat < 256 := x.toNat_lt
    have : x.toNat * 256 ^ xs.length + 256 ^ xs.length ≤ 256 * 256 ^ xs.length := by
      rw [← Nat.succ_mul]; exact Nat.mul_le_mul_right _ hx
    omega

theorem positional_digits256 (n x : Nat) : positional (digits256 n x) = x % 256 ^ n := by
  induction n with
  | zero => simp [digits256, positional, Nat.mod_one]
  | succ n ih =>
    rw [digits256_succ, positional, ih, digits256_length]
    have : (UInt8.ofNat (x / 256 ^ n % 256)).toNat = x / 256 ^ n % 256 := by simp
    rw [this, Nat.pow_succ, Nat.mod_mul, Nat.mul_comm, Nat.add_comm]

theorem digits256_add_mul (n x k : Nat) : digits256 n (k * 256 ^ n + x) = digits256 n x := by
  unfold digits256
  apply List.map_congr_left
  intro i hi
  have hi : i < n := by simpa using hi
  congr 1
  obtain ⟨d, rfl⟩ : ∃ d, n = i + 1 + d := ⟨n - i - 1, by omega⟩
  have : k * 256 ^ (i + 1 + d) + x = x + 256 ^ i * (256 * (k * 256 ^ d)) := by
    rw [Nat.pow_add, Nat.pow_succ]; ac_rfl
  rw [this, Nat.add_mul_div_left _ _ (Nat.pow_pos (by decide)), Nat.add_mul_mod_self_left]

theorem digits256_positional (b : Bytes) : digits256 b.length (positional b) = b := by
  induction b with
  | nil => rfl
  | cons x xs ih =>
    rw [List.length_cons, digits256_succ, positional]
    have hlt := positional_lt xs
    have h1 : (x.toNat * 256 ^ xs.length + positional xs) / 256 ^ xs.length = x.toNat := by
      rw [Nat.add_comm, Nat.add_mul_div_right _ _ (Nat.pow_pos (by decide)),
        Nat.div_eq_of_lt hlt, Nat.zero_add]
    rw [h1, digits256_add_mul, ih]
    congr 1
    apply UInt8.toNat_inj.mp
    simp

theorem positional_digits256_of_lt {n x : Nat} (h : x < 256 ^ n) :
    positional (digits256 n x) = x := by
  rw [positional_digits256, Nat.mod_eq_of_lt h]

end Verif
