import Verif.Server.Props

/-
Property theorems C53-C55: the helpers for random generators and the creation of
a generator.
-/

namespace Verif.Server
open Verif

variable {D E : Type}

/-! ### Specification vocabulary -/

/-- The `n` low-order base-256 digits, least significant first. -/
def leBytes (n x : Nat) : Bytes := (digits256 n x).reverse

/-- The number with the given digits, least significant first. -/
def leValue (b : Bytes) : Nat := positional b.reverse

/-- The two word sizes. -/
inductive Word where
  | u32
  | u64
  deriving DecidableEq, Repr

/-- The bytes of the next word. -/
def nextWord (g : Drbg D) (d : D) (additional : Bytes) : Word → Option Bytes × D
  | .u32 => ((g.nextU32 d additional).1.map (fun w => leBytes 4 w.toNat), (g.nextU32 d additional).2)
  | .u64 => ((g.nextU64 d additional).1.map (fun w => leBytes 8 w.toNat), (g.nextU64 d additional).2)

/-- Drawing words in sequence, the first with the additional input, up to the
first failure: the words' bytes, success, and the generator afterwards. -/
def drawAll (g : Drbg D) : D → Bytes → List Word → List Bytes × Bool × D
  | d, _, [] => ([], true, d)
  | d, additional, w :: ws =>
    match nextWord g d additional w with
    | (none, d') => ([], false, d')
    | (some b, d') => let r := drawAll g d' [] ws; (b :: r.1, r.2.1, r.2.2)

/-- The words for a buffer: 64-bit words, and for a tail of at most four bytes a
32-bit word. -/
def wordPlan (len : Nat) : List Word :=
  List.replicate (len / 8) .u64 ++
    (if len % 8 = 0 then [] else if len % 8 ≤ 4 then [.u32] else [.u64])

/-! ### Little-endian lemmas -/

theorem digits256_snoc (n x : Nat) : digits256 (n + 1) x = digits256 n (x / 256) ++ [UInt8.ofNat x] := by
  rw [← toBE_eq_digits256, ← toBE_eq_digits256]
  induction n with
  | zero => simp [toBE]
  | succ n ih =>
    rw [toBE, ih]
    conv => rhs; rw [toBE]
    rw [List.cons_append, Nat.div_div_eq_div_mul]
    congr 2
    rw [Nat.mul_comm, ← Nat.pow_succ]

theorem toLE_eq (n x : Nat) : toLE n x = leBytes n x := by
  induction n generalizing x with
  | zero => rfl
  | succ n ih =>
    rw [toLE, ih, leBytes, leBytes, digits256_snoc]
    simp

theorem leBytes_length (n x : Nat) : (leBytes n x).length = n := by simp [leBytes]

theorem positional_snoc (b : Bytes) (x : UInt8) : positional (b ++ [x]) = positional b * 256 + x.toNat := by
  rw [← fromBE_eq_positional, ← fromBE_eq_positional]
  simp [fromBE]

theorem fromLE_eq (b : Bytes) : fromLE b = leValue b := by
  induction b with
  | nil => rfl
  | cons x b ih =>
    have : fromLE (x :: b) = x.toNat + 256 * fromLE b := rfl
    rw [this, ih, leValue, leValue, List.reverse_cons, positional_snoc]
    omega

theorem leBytes_leValue (b : Bytes) : leBytes b.length (leValue b) = b := by
  have := digits256_positional b.reverse
  rw [List.length_reverse] at this
  rw [leBytes, leValue, this, List.reverse_reverse]

theorem leValue_leBytes {n x : Nat} (h : x < 256 ^ n) : leValue (leBytes n x) = x := by
  rw [leBytes, leValue, List.reverse_reverse, positional_digits256_of_lt h]

theorem leValue_lt (b : Bytes) : leValue b < 256 ^ b.length := by
  have := positional_lt b.reverse
  rwa [List.length_reverse] at this

theorem leBytes_inj {n x y : Nat} (hx : x < 256 ^ n) (hy : y < 256 ^ n)
    (h : leBytes n x = leBytes n y) : x = y := by
  rw [← leValue_leBytes hx, h, leValue_leBytes hy]

theorem leValue_append (a b : Bytes) : leValue (a ++ b) = leValue a + 256 ^ a.length * leValue b := by
  induction a with
  | nil => simp [leValue, positional]
  | cons x a ih =>
    rw [← fromLE_eq, ← fromLE_eq, ← fromLE_eq] at *
    have e1 : fromLE (x :: a ++ b) = x.toNat + 256 * fromLE (a ++ b) := rfl
    have e2 : fromLE (x :: a) = x.toNat + 256 * fromLE a := rfl
    rw [e1, e2, ih, List.length_cons, Nat.pow_succ]
    rw [Nat.mul_add, Nat.mul_comm (256 ^ a.length) 256, Nat.mul_assoc]
    omega

/-! ### C53 -/

theorem fillTail_eq (g : Drbg D) (d : D) (a dest : Bytes) (h : dest.length < 8) :
    fillTail g d a dest =
      ((drawAll g d a (wordPlan dest.length)).2.1,
       (drawAll g d a (wordPlan dest.length)).1.flatten.take dest.length ++
         dest.drop (drawAll g d a (wordPlan dest.length)).1.flatten.length,
       (drawAll g d a (wordPlan dest.length)).2.2) := by
  unfold fillTail wordPlan
  have h8 : dest.length / 8 = 0 := by omega
  have hm : dest.length % 8 = dest.length := by omega
  rw [h8, hm]
  simp only [List.replicate_zero, List.nil_append]
  by_cases h4 : dest.length > 4
  · rw [if_pos h4, if_neg (by omega), if_neg (by omega)]
    simp only [drawAll, nextWord]
    rcases hw : g.nextU64 d a with ⟨_ | w, d'⟩
    · simp
    · simp only [Option.map_some, List.flatten_cons, List.flatten_nil, List.append_nil, toLE_eq]
      rw [List.drop_of_length_le (by rw [leBytes_length]; omega), List.append_nil]
  · rw [if_neg h4]
    by_cases h0 : dest.length > 0
    · rw [if_pos h0, if_neg (by omega), if_pos (by omega)]
      simp only [drawAll, nextWord]
      rcases hw : g.nextU32 d a with ⟨_ | w, d'⟩
      · simp
      · simp only [Option.map_some, List.flatten_cons, List.flatten_nil, List.append_nil, toLE_eq]
        rw [List.drop_of_length_le (by rw [leBytes_length]; omega), List.append_nil]
    · have : dest = [] := List.length_eq_zero_iff.1 (by omega)
      subst this
      simp [drawAll]

theorem wordPlan_step (len : Nat) (h : 8 ≤ len) : wordPlan len = .u64 :: wordPlan (len - 8) := by
  unfold wordPlan
  have e1 : len / 8 = (len - 8) / 8 + 1 := by omega
  have e2 : len % 8 = (len - 8) % 8 := by omega
  rw [e1, e2, List.replicate_succ, List.cons_append]

/-- **C53**: filling a buffer from a word generator draws exactly the planned
words, the first with the additional input, up to the first failure.  The buffer
receives the words' bytes in order, truncated to its length; the part that was
not reached because of a failure is unchanged. -/
theorem C53_fill (g : Drbg D) (d : D) (additional dest : Bytes) :
    fillBytesViaNext g d additional dest =
      ((drawAll g d additional (wordPlan dest.length)).2.1,
       (drawAll g d additional (wordPlan dest.length)).1.flatten.take dest.length ++
         dest.drop (drawAll g d additional (wordPlan dest.length)).1.flatten.length,
       (drawAll g d additional (wordPlan dest.length)).2.2) := by
  induction hn : dest.length using Nat.strongRecOn generalizing d additional dest with
  | ind n ih =>
    subst hn
    rw [fillBytesViaNext]
    by_cases h : 8 ≤ dest.length
    · rw [if_pos h, wordPlan_step _ h]
      simp only [drawAll, nextWord]
      rcases hw : g.nextU64 d additional with ⟨_ | w, d'⟩
      · simp
      · have hd : (dest.drop 8).length = dest.length - 8 := List.length_drop
        have := ih (dest.drop 8).length (by omega) d' [] (dest.drop 8) rfl
        rw [hd] at this
        simp only [this, Option.map_some, List.flatten_cons, toLE_eq]
        have h8 := leBytes_length 8 w.toNat
        have ht : (leBytes 8 w.toNat).take dest.length = leBytes 8 w.toNat :=
          List.take_of_length_le (by rw [h8]; exact h)
        rw [List.length_append, h8, List.take_append, h8, ht, List.append_assoc, List.drop_drop]
    · rw [if_neg h, fillTail_eq g d additional dest (by omega)]

/-- **C53**: on success the buffer is filled completely. -/
theorem C53_success (g : Drbg D) (d : D) (additional dest : Bytes)
    (h : (fillBytesViaNext g d additional dest).1 = true) :
    (fillBytesViaNext g d additional dest).2.1 =
      (drawAll g d additional (wordPlan dest.length)).1.flatten.take dest.length ∧
    dest.length ≤ (drawAll g d additional (wordPlan dest.length)).1.flatten.length := by
  have key : ∀ (ws : List Word) (d : D) (a : Bytes), (drawAll g d a ws).2.1 = true →
      (drawAll g d a ws).1.flatten.length = (ws.map (fun | .u32 => 4 | .u64 => 8)).sum := by
    intro ws
    induction ws with
    | nil => intro d a _; rfl
    | cons w ws ih =>
      intro d a h
      simp only [drawAll] at h ⊢
      rcases hw : nextWord g d a w with ⟨_ | b, d'⟩
      · rw [hw] at h; simp at h
      · rw [hw] at h
        simp only at h ⊢
        rw [List.flatten_cons, List.length_append, ih d' [] h]
        cases w with
        | u32 =>
          simp only [nextWord] at hw
          rcases hx : (g.nextU32 d a).1 with _ | x
          · rw [hx] at hw; simp at hw
          · rw [hx] at hw
            simp at hw
            rw [← hw.1, leBytes_length]; simp
        | u64 =>
          simp only [nextWord] at hw
          rcases hx : (g.nextU64 d a).1 with _ | x
          · rw [hx] at hw; simp at hw
          · rw [hx] at hw
            simp at hw
            rw [← hw.1, leBytes_length]; simp
  have hsum : dest.length ≤ ((wordPlan dest.length).map (fun | .u32 => 4 | .u64 => 8)).sum := by
    generalize dest.length = n
    induction n using Nat.strongRecOn with
    | ind n ih =>
      by_cases h8 : 8 ≤ n
      · rw [wordPlan_step n h8, List.map_cons, List.sum_cons]
        have := ih (n - 8) (by omega)
        simp only
        omega
      · have h0 : n / 8 = 0 := by omega
        unfold wordPlan
        rw [h0]
        split
        · omega
        · split
          · simp; omega
          · simp; omega
  rw [C53_fill] at h ⊢
  have hk := key _ d additional h
  refine ⟨?_, by omega⟩
  simp only
  rw [List.drop_of_length_le (by omega), List.append_nil]

/-- Eleven bytes: a 64-bit word and a 32-bit word. -/
example : wordPlan 11 = [.u64, .u32] ∧ wordPlan 13 = [.u64, .u64] ∧ wordPlan 16 = [.u64, .u64] := by
  decide
example : (fillBytesViaNext fakeDrbg 0x0102 [] (List.replicate 11 0)).2.1 =
    [2, 1, 0, 0, 0, 0, 0, 0, 3, 1, 0] := by
  rw [C53_fill]; rfl

/-! ### C54 -/

/-- **C54**: the word helpers return the little-endian value of the generated
bytes and fail exactly if the generator fails. -/
theorem C54_words (g : Drbg D) (d : D) (additional : Bytes) :
    (∀ w d', nextU32ViaFill g d additional = (some w, d') ↔
      ∃ b, g.fillBytes d additional [0, 0, 0, 0] = (true, b, d') ∧ leBytes 4 w.toNat = b) ∧
    (∀ w d', nextU64ViaFill g d additional = (some w, d') ↔
      ∃ b, g.fillBytes d additional [0, 0, 0, 0, 0, 0, 0, 0] = (true, b, d') ∧
        leBytes 8 w.toNat = b) := by
  have p32 : (256 : Nat) ^ 4 = 2 ^ 32 := by decide
  have p64 : (256 : Nat) ^ 8 = 2 ^ 64 := by decide
  constructor
  · intro w d'
    have hl := g.fillBytes_length d additional [0, 0, 0, 0]
    unfold nextU32ViaFill
    rcases hf : g.fillBytes d additional [0, 0, 0, 0] with ⟨ok, b, d1⟩
    rw [hf] at hl
    have hl : b.length = 4 := hl
    have hlt := leValue_lt b
    have hinv := leBytes_leValue b
    rw [hl] at hlt hinv
    cases ok
    · simp
    · simp only [fromLE_eq, Prod.mk.injEq, Option.some.injEq, true_and]
      constructor
      · rintro ⟨rfl, rfl⟩
        refine ⟨b, ⟨rfl, rfl⟩, ?_⟩
        rw [BitVec.toNat_ofNat, Nat.mod_eq_of_lt (by omega), hinv]
      · rintro ⟨b', ⟨rfl, rfl⟩, h⟩
        refine ⟨?_, rfl⟩
        apply BitVec.eq_of_toNat_eq
        rw [BitVec.toNat_ofNat, Nat.mod_eq_of_lt (by omega), ← h,
          leValue_leBytes (by rw [p32]; exact w.isLt)]
  · intro w d'
    have hl := g.fillBytes_length d additional [0, 0, 0, 0, 0, 0, 0, 0]
    unfold nextU64ViaFill
    rcases hf : g.fillBytes d additional [0, 0, 0, 0, 0, 0, 0, 0] with ⟨ok, b, d1⟩
    rw [hf] at hl
    have hl : b.length = 8 := hl
    have hlt := leValue_lt b
    have hinv := leBytes_leValue b
    rw [hl] at hlt hinv
    cases ok
    · simp
    · simp only [fromLE_eq, Prod.mk.injEq, Option.some.injEq, true_and]
      constructor
      · rintro ⟨rfl, rfl⟩
        refine ⟨b, ⟨rfl, rfl⟩, ?_⟩
        rw [BitVec.toNat_ofNat, Nat.mod_eq_of_lt (by omega), hinv]
      · rintro ⟨b', ⟨rfl, rfl⟩, h⟩
        refine ⟨?_, rfl⟩
        apply BitVec.eq_of_toNat_eq
        rw [BitVec.toNat_ofNat, Nat.mod_eq_of_lt (by omega), ← h,
          leValue_leBytes (by rw [p64]; exact w.isLt)]

/-- **C54**: a 64-bit word from two 32-bit words consists of the bytes of the
first and then the second; only the first is drawn with the additional input. -/
theorem C54_combine (g : Drbg D) (d d' : D) (additional : Bytes) (w : BitVec 64) :
    nextU64ViaU32 g d additional = (some w, d') ↔
      ∃ x y d1, g.nextU32 d additional = (some x, d1) ∧ g.nextU32 d1 [] = (some y, d') ∧
        leBytes 8 w.toNat = leBytes 4 x.toNat ++ leBytes 4 y.toNat := by
  have p32 : (256 : Nat) ^ 4 = 2 ^ 32 := by decide
  have p64 : (256 : Nat) ^ 8 = 2 ^ 64 := by decide
  have hval : ∀ x y : BitVec 32, ((y.setWidth 64 <<< 32) ||| x.setWidth 64).toNat =
      x.toNat + 2 ^ 32 * y.toNat := by
    intro x y
    have hx := x.isLt
    have hy := y.isLt
    rw [BitVec.toNat_or, BitVec.toNat_shiftLeft, BitVec.toNat_setWidth, BitVec.toNat_setWidth,
      Nat.mod_eq_of_lt (by omega : y.toNat < 2 ^ 64), Nat.mod_eq_of_lt (by omega : x.toNat < 2 ^ 64),
      Nat.shiftLeft_eq, Nat.mod_eq_of_lt (by omega), Nat.mul_comm, ← Nat.two_pow_add_eq_or_of_lt hx]
    omega
  have hbytes : ∀ (x y : BitVec 32) (w : BitVec 64),
      leBytes 8 w.toNat = leBytes 4 x.toNat ++ leBytes 4 y.toNat ↔
        w.toNat = x.toNat + 2 ^ 32 * y.toNat := by
    intro x y w
    have hv : leValue (leBytes 4 x.toNat ++ leBytes 4 y.toNat) = x.toNat + 2 ^ 32 * y.toNat := by
      rw [leValue_append, leBytes_length, leValue_leBytes (by rw [p32]; exact x.isLt),
        leValue_leBytes (by rw [p32]; exact y.isLt), p32]
    constructor
    · intro h
      rw [← hv, ← h, leValue_leBytes (by rw [p64]; exact w.isLt)]
    · intro h
      have := leBytes_leValue (leBytes 4 x.toNat ++ leBytes 4 y.toNat)
      rw [List.length_append, leBytes_length, leBytes_length, hv, ← h] at this
      exact this
  unfold nextU64ViaU32
  rcases h1 : g.nextU32 d additional with ⟨_ | x, d1⟩
  · simp
  · simp only
    rcases h2 : g.nextU32 d1 [] with ⟨_ | y, d2⟩
    · simp only [Prod.mk.injEq, Option.some.injEq]
      constructor
      · rintro ⟨h, _⟩; simp at h
      · rintro ⟨x', y', d1', ⟨rfl, rfl⟩, h, _⟩
        rw [h2] at h; simp at h
    · simp only [Prod.mk.injEq, Option.some.injEq]
      constructor
      · rintro ⟨rfl, rfl⟩
        exact ⟨x, y, d1, ⟨rfl, rfl⟩, h2, (hbytes x y _).2 (hval x y)⟩
      · rintro ⟨x', y', d1', ⟨rfl, rfl⟩, h, hb⟩
        rw [h2] at h
        simp only [Prod.mk.injEq, Option.some.injEq] at h
        obtain ⟨rfl, rfl⟩ := h
        refine ⟨?_, rfl⟩
        apply BitVec.eq_of_toNat_eq
        rw [hval, (hbytes x y w).1 hb]

/-- **C54**: the byte and word helpers are inverse to each other: words from
bytes from words are the words. -/
theorem C54_inverse (g : Drbg D) (hfill : ∀ d a b, g.fillBytes d a b = fillBytesViaNext g d a b)
    (d : D) (additional : Bytes) :
    nextU32ViaFill g d additional = g.nextU32 d additional ∧
    nextU64ViaFill g d additional = g.nextU64 d additional := by
  have p32 : (256 : Nat) ^ 4 = 2 ^ 32 := by decide
  have p64 : (256 : Nat) ^ 8 = 2 ^ 64 := by decide
  constructor
  · unfold nextU32ViaFill
    rw [hfill, C53_fill]
    have : wordPlan [(0 : UInt8), 0, 0, 0].length = [.u32] := by decide
    rw [this]
    simp only [drawAll, nextWord]
    rcases h : g.nextU32 d additional with ⟨_ | w, d'⟩
    · rfl
    · simp only [Option.map_some, List.flatten_cons, List.flatten_nil, List.append_nil]
      have h4 := leBytes_length 4 w.toNat
      rw [List.take_of_length_le (by rw [h4]; decide), h4]
      have hd : [(0 : UInt8), 0, 0, 0].drop 4 = [] := rfl
      rw [hd, List.append_nil, fromLE_eq, leValue_leBytes (by rw [p32]; exact w.isLt)]
      simp
  · unfold nextU64ViaFill
    rw [hfill, C53_fill]
    have : wordPlan [(0 : UInt8), 0, 0, 0, 0, 0, 0, 0].length = [.u64] := by decide
    rw [this]
    simp only [drawAll, nextWord]
    rcases h : g.nextU64 d additional with ⟨_ | w, d'⟩
    · rfl
    · simp only [Option.map_some, List.flatten_cons, List.flatten_nil, List.append_nil]
      have h8 := leBytes_length 8 w.toNat
      rw [List.take_of_length_le (by rw [h8]; decide), h8]
      have hd : [(0 : UInt8), 0, 0, 0, 0, 0, 0, 0].drop 8 = [] := rfl
      rw [hd, List.append_nil, fromLE_eq, leValue_leBytes (by rw [p64]; exact w.isLt)]
      simp

/-- A generator whose bytes come from its words. -/
def wordDrbg : Drbg Nat where
  entropyDefault := [0]
  nonceDefault := []
  instantiate e _ _ := some (positional e)
  reseed d s _ := (true, d + positional s)
  nextU32 d _ := (some (BitVec.ofNat 32 (d * 0x01020304)), d + 1)
  nextU64 d _ := (some (BitVec.ofNat 64 (d * 0x0102030405060708)), d + 1)
  fillBytes d _ b := (true, (fakeFill d b.length).1, d)
  fillBytes_length := by intro d a b; exact fakeFill_length d b.length
  requiresReseeding d := (false, d)

theorem fillBytesViaNext_length (g : Drbg D) (d : D) (a dest : Bytes) :
    (fillBytesViaNext g d a dest).2.1.length = dest.length := by
  rw [C53_fill]
  simp only [List.length_append, List.length_take, List.length_drop]; omega

/-- The same generator with `fill_bytes` by the helper; it meets the hypothesis of
`C54_inverse`. -/
def wordDrbg' : Drbg Nat :=
  { wordDrbg with
    fillBytes := fillBytesViaNext wordDrbg
    fillBytes_length := fillBytesViaNext_length wordDrbg }

theorem drawAll_congr (g g' : Drbg D) (h32 : g.nextU32 = g'.nextU32) (h64 : g.nextU64 = g'.nextU64)
    (ws : List Word) (d : D) (a : Bytes) : drawAll g d a ws = drawAll g' d a ws := by
  induction ws generalizing d a with
  | nil => rfl
  | cons w ws ih =>
    have : nextWord g d a w = nextWord g' d a w := by
      cases w <;> simp [nextWord, h32, h64]
    simp only [drawAll, this, ih]

example : (nextU64ViaFill wordDrbg' 1 []).1 = some 0x0102030405060708#64 := by
  rw [(C54_inverse wordDrbg' (by
    intro d a b
    show fillBytesViaNext wordDrbg d a b = _
    rw [C53_fill, C53_fill, drawAll_congr wordDrbg wordDrbg' rfl rfl]) 1 []).2]
  rfl

example : nextU64ViaU32 wordDrbg 1 [] = (some 0x0204060801020304#64, 3) := by rfl

/-- **C54**: it fails exactly if one of the two draws does, and leaves the generator as that
draw left it. -/
theorem C54_combine_fails (g : Drbg D) (d d' : D) (additional : Bytes) :
    nextU64ViaU32 g d additional = (none, d') ↔
      g.nextU32 d additional = (none, d') ∨
      ∃ x d1, g.nextU32 d additional = (some x, d1) ∧ g.nextU32 d1 [] = (none, d') := by
  unfold nextU64ViaU32
  rcases h1 : g.nextU32 d additional with ⟨_ | x, d1⟩
  · simp
  · simp only
    rcases h2 : g.nextU32 d1 [] with ⟨_ | y, d2⟩
    · simp only [Prod.mk.injEq, true_and, reduceCtorEq, false_and, false_or, Option.some.injEq]
      constructor
      · rintro rfl; exact ⟨x, d1, ⟨rfl, rfl⟩, h2⟩
      · rintro ⟨x', d1', ⟨rfl, rfl⟩, h⟩
        rw [h2] at h
        simpa using h
    · simp only [Prod.mk.injEq, reduceCtorEq, false_and, false_or, Option.some.injEq, false_iff]
      rintro ⟨x', d1', ⟨rfl, rfl⟩, h⟩
      rw [h2] at h
      simp at h

/-- A generator that fails at its second word. -/
example : nextU64ViaU32 { wordDrbg with nextU32 := fun d _ => (if d = 2 then none else some 7, d + 1) }
    1 [] = (none, 3) := by rfl

/-! ### C55 -/

/-- **C55**: creating a server draws the entropy input and then the nonce from a
new entropy source, and instantiates the generator with exactly these and no
personalization; the server exists exactly if this succeeds, with this generator
and the entropy source as left by the two draws. -/
theorem C55_creation (g : Drbg D) (es : Entropy E) (input nonce : Bytes) (e1 e2 : E)
    (h1 : es.fill es.start g.entropyDefault = (input, e1))
    (h2 : es.fill e1 g.nonceDefault = (nonce, e2)) :
    (∀ k, Crypto.new g es = some k ↔
      ∃ d, g.instantiate input nonce [] = some d ∧ k = ⟨d, e2⟩) ∧
    (Crypto.new g es = none ↔ g.instantiate input nonce [] = none) := by
  unfold Crypto.new
  simp only [h1, h2]
  rcases hi : g.instantiate input nonce [] with _ | d
  · simp
  · refine ⟨?_, by simp⟩
    intro k
    constructor
    · intro h
      injection h with h
      exact ⟨d, rfl, h.symm⟩
    · rintro ⟨d', h, rfl⟩
      injection h with h
      rw [h]

/-- **C55**: after the creation, the generator has been used once, to
instantiate it, and the entropy source twice. -/
theorem C55_uses (g : Drbg D) (es : Entropy E) (k : Crypto (D × List Ev) (E × List Bytes))
    (hk : Crypto.new (watched g) (watchedEntropy es) = some k) :
    ∃ input nonce, k.drbg.2 = [.instantiated input nonce []] ∧ k.entropy.2 = [input, nonce] ∧
      input.length = g.entropyDefault.length ∧ nonce.length = g.nonceDefault.length := by
  obtain ⟨d, h1, rfl⟩ := ((C55_creation (watched g) (watchedEntropy es) _ _ _ _ rfl rfl).1 k).1 hk
  simp only [watched, Option.map_eq_some_iff] at h1
  obtain ⟨d', -, rfl⟩ := h1
  exact ⟨_, _, rfl, rfl, es.fill_length _ _, es.fill_length _ _⟩

/-- The entropy source that delivers the successive bytes of a stream. -/
def streamEntropy (s : Nat → UInt8) : Entropy Nat where
  start := 0
  fill e b := ((List.range b.length).map (fun i => s (e + i)), e + b.length)
  fill_length := by simp

/-- **C55**: no entropy is used twice: from a stream, the input is its beginning,
the nonce the following bytes, and later seeds come from after these. -/
theorem C55_stream (g : Drbg D) (s : Nat → UInt8) (k : Crypto D Nat)
    (h : Crypto.new g (streamEntropy s) = some k) :
    g.instantiate ((List.range g.entropyDefault.length).map s)
      ((List.range g.nonceDefault.length).map (fun i => s (g.entropyDefault.length + i))) [] =
        some k.drbg ∧
    k.entropy = g.entropyDefault.length + g.nonceDefault.length := by
  have := (C55_creation g (streamEntropy s) _ _ _ _ rfl rfl).1 k
  obtain ⟨d, h1, rfl⟩ := this.1 h
  refine ⟨?_, ?_⟩
  · simp only [streamEntropy, Nat.zero_add] at h1
    exact h1
  · simp [streamEntropy]

example : (Crypto.new fakeDrbg (streamEntropy (fun i => UInt8.ofNat (7 + i)))).map (·.drbg) =
    some 7 := by rfl

end Verif.Server
