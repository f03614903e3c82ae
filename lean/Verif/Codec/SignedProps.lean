import Verif.Codec.Signed
import Verif.Codec.Props

/-
Property theorems C103: the signed integers, and arrays counted by one.
-/

namespace Verif

/-! ### Specification -/

/-- Two's complement: the positional value of the bytes, the first counted from -128 to
127. -/
def twos : Bytes → Int
  | [] => 0
  | b :: bs => (if b.toNat < 128 then (b.toNat : Int) else b.toNat - 256) * 256 ^ bs.length +
      positional bs

example : twos [0xff, 0xfe] = -2 := by decide
example : twos [0x80, 0] = -32768 ∧ twos [0x7f, 0xff] = 32767 := by decide

/-- The range of a signed integer of `n` bytes. -/
def InSigned (n : Nat) (x : Int) : Prop := -(2 : Int) ^ (8 * n - 1) ≤ x ∧ x < 2 ^ (8 * n - 1)

/-- The structure `{ count: uN, #[marshalable(length=count)] items: [T; max] }`, with an
unsigned count, covered by C01-C16. -/
def unsignedList (n : Nat) (t : Ty) (max : Nat) : Ty :=
  .struct (.plain (.prim n) (.lenArr 0 t max .nil))

/-! ### Lemmas -/

theorem pow256 (k : Nat) : (2 : Nat) ^ (8 * k) = 256 ^ k := by
  rw [Nat.pow_mul]

theorem pow256_half (k : Nat) : (2 : Nat) ^ (8 * (k + 1) - 1) = 128 * 256 ^ k := by
  rw [show 8 * (k + 1) - 1 = 8 * k + 7 by omega, Nat.pow_add, pow256]; omega

theorem ipow256 (k : Nat) : (2 : Int) ^ (8 * k) = ((256 ^ k : Nat) : Int) := by
  rw [← pow256]; simp

theorem ipow256_half (k : Nat) : (2 : Int) ^ (8 * (k + 1) - 1) = ((128 * 256 ^ k : Nat) : Int) := by
  rw [← pow256_half]; simp

/-- The two's complement value in terms of the unsigned one. -/
theorem twos_cons (b : UInt8) (bs : Bytes) : twos (b :: bs) =
    if b.toNat < 128 then ((positional (b :: bs) : Nat) : Int)
    else ((positional (b :: bs) : Nat) : Int) - ((256 ^ (bs.length + 1) : Nat) : Int) := by
  have e : ((256 : Int) ^ bs.length) = ((256 ^ bs.length : Nat) : Int) := by simp
  rw [twos, e]
  split
  · simp [positional]
  · rw [positional, Nat.pow_succ, Int.sub_mul]
    simp only [Int.natCast_add, Int.natCast_mul]
    omega

theorem positional_half (b : UInt8) (bs : Bytes) :
    positional (b :: bs) < 128 * 256 ^ bs.length ↔ b.toNat < 128 := by
  have h := positional_lt bs
  rw [positional]
  constructor
  · intro h1
    rcases Nat.lt_or_ge b.toNat 128 with h2 | h2
    · exact h2
    · have := Nat.mul_le_mul_right (256 ^ bs.length) h2; omega
  · intro h1
    have := Nat.mul_le_mul_right (256 ^ bs.length) (Nat.succ_le_of_lt h1)
    rw [Nat.succ_mul] at this; omega

theorem fromBESigned_eq (b : Bytes) (h : b ≠ []) : fromBESigned b = twos b := by
  match b, h with
  | x :: bs, _ =>
    rw [twos_cons, fromBESigned, fromBE_eq_positional, List.length_cons, pow256_half, ipow256]
    simp only [positional_half]

theorem twos_range (b : Bytes) (h : b ≠ []) : InSigned b.length (twos b) := by
  match b, h with
  | x :: bs, _ =>
    rw [InSigned, twos_cons, List.length_cons, ipow256_half]
    have h1 := positional_half x bs
    have h2 := positional_lt (x :: bs)
    rw [List.length_cons, Nat.pow_succ] at h2
    rw [Nat.pow_succ]
    split <;> omega

theorem twos_neg (b : UInt8) (bs : Bytes) : twos (b :: bs) < 0 ↔ 128 ≤ b.toNat := by
  have h2 := positional_lt (b :: bs)
  rw [List.length_cons] at h2
  rw [twos_cons]
  split <;> omega

/-- The bytes written for a number in range have that value. -/
theorem twos_toBESigned (n : Nat) (x : Int) (hn : 1 ≤ n) (hx : InSigned n x) :
    (toBESigned n x).length = n ∧ twos (toBESigned n x) = x := by
  obtain ⟨k, rfl⟩ : ∃ k, n = k + 1 := ⟨n - 1, by omega⟩
  have hlen : (toBESigned (k + 1) x).length = k + 1 := by
    rw [toBESigned, toBE_eq_digits256, digits256_length]
  refine ⟨hlen, ?_⟩
  have hp : (256 : Int) ^ (k + 1) = ((256 ^ (k + 1) : Nat) : Int) := by simp
  have hpos : 0 < 256 ^ k := Nat.pow_pos (by decide)
  have hs : 256 ^ (k + 1) = 256 ^ k * 256 := Nat.pow_succ ..
  have hlt : (x % 256 ^ (k + 1)).toNat < 256 ^ (k + 1) := by
    have h1 := Int.emod_lt_of_pos x (b := 256 ^ (k + 1)) (by rw [hp]; omega)
    have h2 := Int.emod_nonneg x (b := 256 ^ (k + 1)) (by rw [hp]; omega)
    omega
  have hval : positional (toBESigned (k + 1) x) = (x % 256 ^ (k + 1)).toNat := by
    rw [toBESigned, toBE_eq_digits256, positional_digits256_of_lt hlt]
  obtain ⟨b, bs, e⟩ : ∃ b bs, toBESigned (k + 1) x = b :: bs := by
    cases h : toBESigned (k + 1) x with
    | nil => rw [h] at hlen; simp at hlen
    | cons b bs => exact ⟨b, bs, rfl⟩
  rw [e] at hlen hval ⊢
  have hl : bs.length = k := by simpa using hlen
  have h1 := positional_half b bs
  rw [twos_cons, hl]
  rw [hl] at h1
  rw [InSigned, ipow256_half] at hx
  rcases (by omega : x < 0 ∨ 0 ≤ x) with hneg | hneg
  · have : x % 256 ^ (k + 1) = x + ((256 ^ (k + 1) : Nat) : Int) := by
      rw [hp, ← Int.add_emod_right]
      exact Int.emod_eq_of_lt (by omega) (by omega)
    rw [this] at hval
    split <;> omega
  · have : x % 256 ^ (k + 1) = x := Int.emod_eq_of_lt hneg (by rw [hp]; omega)
    rw [this] at hval
    split <;> omega

/-- Different bytes have different values. -/
theorem twos_inj {b b' : Bytes} (hl : b.length = b'.length) (h : twos b = twos b') : b = b' := by
  match b, b', hl with
  | [], [], _ => rfl
  | x :: bs, y :: cs, hl =>
    have hl' : bs.length = cs.length := by simpa using hl
    have h1 := positional_half x bs
    have h2 := positional_half y cs
    have h3 := positional_lt (x :: bs)
    have h4 := positional_lt (y :: cs)
    rw [twos_cons, twos_cons] at h
    simp only [List.length_cons] at h3 h4
    rw [← hl'] at h h2 h4
    have : positional (x :: bs) = positional (y :: cs) := by
      by_cases hx : x.toNat < 128 <;> by_cases hy : y.toNat < 128 <;>
        simp only [hx, hy, if_true, if_false] at h <;> omega
    rw [← digits256_positional (x :: bs), ← digits256_positional (y :: cs), this, hl]

theorem unmarshalSigned_eq (n : Nat) (b : Bytes) (hn : 1 ≤ n) : unmarshalSigned n b =
    if n ≤ b.length then (.ok (twos (b.take n)), b.drop n)
    else (.err .unexpectedEndOfBuffer, b) := by
  rw [unmarshalSigned, UM.bind_eq, unmarshalBytes_eq]
  by_cases h : n ≤ b.length
  · simp only [h, if_true]
    rw [← fromBESigned_eq]
    · rfl
    · intro h0
      have := congrArg List.length h0
      simp at this
      have : b.length = 0 := by rcases this with h | h; omega; simp [h]
      omega
  · simp [h]

/-! ### C103 -/

/-- **C103.** Reading a signed integer of `n` bytes fails on fewer bytes, consuming nothing;
otherwise it takes exactly `n`, whatever they are, and gives their value in two's
complement. -/
theorem C103_read (n : Nat) (hn : 1 ≤ n) :
    (∀ b : Bytes, b.length < n → unmarshalSigned n b = (.err .unexpectedEndOfBuffer, b)) ∧
    (∀ b rest : Bytes, b.length = n → unmarshalSigned n (b ++ rest) = (.ok (twos b), rest) ∧
      InSigned n (twos b)) := by
  refine ⟨fun b hb => ?_, fun b rest hb => ⟨?_, ?_⟩⟩
  · rw [unmarshalSigned_eq n b hn, if_neg (by omega)]
  · rw [unmarshalSigned_eq n _ hn, if_pos (by simp; omega)]
    subst hb; simp
  · subst hb
    exact twos_range b (by intro h; subst h; simp at hn)

/-- **C103.** Writing a signed integer of `n` bytes into a shorter buffer fails, without
changing it; otherwise exactly `n` bytes are written, whose value in two's complement is the
number, and there are no other such bytes. -/
theorem C103_write (n : Nat) (x : Int) (buf : Bytes) (hn : 1 ≤ n) (hx : InSigned n x) :
    (buf.length < n → marshalSigned n x buf = (.err .unexpectedEndOfBuffer, buf)) ∧
    (n ≤ buf.length → ∃ b : Bytes, marshalSigned n x buf = (.ok n, b ++ buf.drop n) ∧
      b.length = n ∧ twos b = x ∧ ∀ b' : Bytes, b'.length = n → twos b' = x → b' = b) := by
  obtain ⟨h1, h2⟩ := twos_toBESigned n x hn hx
  refine ⟨fun h => ?_, fun h => ⟨toBESigned n x, ?_, h1, h2, fun b' h3 h4 => ?_⟩⟩
  · rw [marshalSigned, marshalBytes, h1, if_neg (by omega)]
  · rw [marshalSigned, marshalBytes, h1, if_pos h, copyPrefix, if_pos ⟨h, h1⟩]
  · exact twos_inj (by rw [h1, h3]) (by rw [h2, h4])

/-- **C103.** What is written is read back, and what is read is written again as the same
bytes. -/
theorem C103_round_trip (n : Nat) (hn : 1 ≤ n) :
    (∀ (x : Int) (buf rest : Bytes), InSigned n x → n ≤ buf.length →
      ∃ buf', marshalSigned n x buf = (.ok n, buf') ∧
        unmarshalSigned n (buf' ++ rest) = (.ok x, buf.drop n ++ rest)) ∧
    (∀ (b r buf : Bytes) (x : Int), unmarshalSigned n b = (.ok x, r) → n ≤ buf.length →
      ∃ w, b = w ++ r ∧ marshalSigned n x buf = (.ok n, w ++ buf.drop n)) := by
  constructor
  · intro x buf rest hx hb
    obtain ⟨b, h1, h2, h3, -⟩ := (C103_write n x buf hn hx).2 hb
    refine ⟨_, h1, ?_⟩
    rw [List.append_assoc, ((C103_read n hn).2 b _ h2).1, h3]
  · intro b r buf x h hb
    have hl : n ≤ b.length := by
      rcases Nat.lt_or_ge b.length n with h' | h'
      · rw [(C103_read n hn).1 b h'] at h; simp at h
      · exact h'
    have hlen : (b.take n).length = n := by simp; omega
    have h1 := (C103_read n hn).2 (b.take n) (b.drop n) hlen
    rw [List.take_append_drop, h] at h1
    simp only [Prod.mk.injEq, Res.ok.injEq] at h1
    obtain ⟨⟨rfl, rfl⟩, hr⟩ := h1
    obtain ⟨w, h2, h3, h4, h5⟩ := (C103_write n _ buf hn hr).2 hb
    refine ⟨w, ?_, h2⟩
    rw [← h5 _ hlen rfl, List.take_append_drop]

example : unmarshalSigned 4 [0xff, 0xff, 0xff, 0xfb, 7] = (.ok (-5), [7]) := by
  have h := ((C103_read 4 (by decide)).2 [0xff, 0xff, 0xff, 0xfb] [7] rfl).1
  rwa [show twos [0xff, 0xff, 0xff, 0xfb] = -5 by decide] at h
example : InSigned 2 (-32768) ∧ InSigned 2 32767 ∧ ¬ InSigned 2 32768 := by
  refine ⟨⟨?_, ?_⟩, ⟨?_, ?_⟩, fun h => absurd h.2 ?_⟩ <;> decide
example : ∃ b : Bytes, marshalSigned 2 (-2) [1, 2, 3] = (.ok 2, b ++ [3]) ∧ b = [0xff, 0xfe] := by
  obtain ⟨b, h1, -, -, h4⟩ := (C103_write 2 (-2) [1, 2, 3] (by decide)
    (by simp [InSigned])).2 (by decide)
  exact ⟨b, h1, (h4 _ rfl (by decide)).symm⟩

/-! ### Counted arrays -/

theorem signedAsUsize_nonneg (bits n : Nat) (k : Nat) (hn : 1 ≤ n) (hb : 8 * n ≤ bits)
    (hk : InSigned n k) : signedAsUsize bits k = k := by
  have hle : 2 ^ (8 * n - 1) ≤ 2 ^ bits := Nat.pow_le_pow_right (by decide) (by omega)
  have hk2 : k < 2 ^ (8 * n - 1) := by
    have h := hk.2
    have e : (2 : Int) ^ (8 * n - 1) = ((2 ^ (8 * n - 1) : Nat) : Int) := by simp
    rw [e] at h; omega
  have e : (2 : Int) ^ bits = ((2 ^ bits : Nat) : Int) := by simp
  rw [signedAsUsize, e, Int.emod_eq_of_lt (by omega) (by omega)]
  omega

theorem signedAsUsize_neg (bits n : Nat) (x : Int) (hn : 1 ≤ n) (hb : 8 * n ≤ bits)
    (hx : InSigned n x) (hneg : x < 0) : 2 ^ (bits - 1) ≤ signedAsUsize bits x := by
  obtain ⟨c, rfl⟩ : ∃ c, bits = c + 1 := ⟨bits - 1, by omega⟩
  have hle : 2 ^ (8 * n - 1) ≤ 2 ^ c := Nat.pow_le_pow_right (by decide) (by omega)
  have h1 := hx.1
  have e1 : (2 : Int) ^ (8 * n - 1) = ((2 ^ (8 * n - 1) : Nat) : Int) := by simp
  have e : (2 : Int) ^ (c + 1) = ((2 ^ (c + 1) : Nat) : Int) := by simp
  have h2 : 2 ^ (c + 1) = 2 ^ c * 2 := Nat.pow_succ ..
  rw [e1] at h1
  rw [signedAsUsize, e, ← Int.add_emod_right, Int.emod_eq_of_lt (by omega) (by omega)]
  simp only [Nat.add_sub_cancel]
  omega

theorem loop_over_not_ok {f : Val → Bytes → MOut} :
    ∀ (es : List Val) (n w : Nat) (buf : Bytes), es.length < n → ∀ k,
      (marshalLoop f n es w buf).1 ≠ .ok k
  | [], n + 1, w, buf, _, k => by simp [marshalLoop]
  | e :: es, n + 1, w, buf, hn, k => by
    rw [marshalLoop]
    rcases h : mstep (f e) w buf with ⟨r | r | _, b⟩
    · exact loop_over_not_ok es n _ _ (by simpa using hn) k
    · simp [mthen]
    · simp [mthen]
  | _, 0, _, _, hn, _ => by omega

theorem signedList_eq (bits n k : Nat) (t : Ty) (max : Nat) (b rest : Bytes)
    (h1 : unmarshalSigned n b = (.ok (k : Int), rest)) (hcast : signedAsUsize bits k = k) :
    unmarshalSignedList bits n t max b =
      if k > max then (.err .arrayLengthExceeded, rest)
      else match unmarshalLoop (unmarshal t) k rest with
        | (.ok es, r) => (.ok ((k : Int), es ++ (List.replicate max t.default).drop k), r)
        | (.err e, r) => (.err e, r)
        | (.panic, r) => (.panic, r) := by
  rw [unmarshalSignedList, UM.bind_eq, h1]
  simp only [hcast]
  split
  · rfl
  · rw [UM.bind_eq]
    rcases unmarshalLoop (unmarshal t) k rest with ⟨es | e | _, r⟩ <;> rfl

theorem unsignedList_eq (n k : Nat) (t : Ty) (max : Nat) (b rest : Bytes)
    (hu : unmarshalPrim n b = (.ok k, rest)) :
    unmarshal (unsignedList n t max) b =
      if k > max then (.err .arrayLengthExceeded, rest)
      else match unmarshalLoop (unmarshal t) k rest with
        | (.ok es, r) => (.ok (.struct [.int k,
            .arr (es ++ (List.replicate max t.default).drop k)]), r)
        | (.err e, r) => (.err e, r)
        | (.panic, r) => (.panic, r) := by
  simp only [unsignedList, unmarshal, unmarshalFields, UM.bind_eq, hu, UM.pure_eq, asUsize,
    List.nil_append, List.getD_cons_zero]
  by_cases hgt : k > max
  · simp only [hgt, if_true]; rfl
  · simp only [hgt, if_false, UM.bind_eq]
    rcases unmarshalLoop (unmarshal t) k rest with ⟨es | e | _, r⟩ <;> rfl

/-- **C103.** Reading a structure whose array is counted by a signed integer of `n` bytes: a
negative count is rejected as too large, having consumed it alone; with any other count
reading gives what it gives for an unsigned one. -/
theorem C103_count_read (bits n : Nat) (t : Ty) (max : Nat) (hn : 1 ≤ n) (hb : 8 * n ≤ bits)
    (hmax : max < 2 ^ (bits - 1)) (c rest : Bytes) (hc : c.length = n) :
    (twos c < 0 → unmarshalSignedList bits n t max (c ++ rest) =
      (.err .arrayLengthExceeded, rest)) ∧
    (0 ≤ twos c →
      (∀ (x : Int) es r, unmarshalSignedList bits n t max (c ++ rest) = (.ok (x, es), r) ↔
        0 ≤ x ∧ unmarshal (unsignedList n t max) (c ++ rest) =
          (.ok (.struct [.int x.toNat, .arr es]), r)) ∧
      (∀ e r, unmarshalSignedList bits n t max (c ++ rest) = (.err e, r) ↔
        unmarshal (unsignedList n t max) (c ++ rest) = (.err e, r)) ∧
      (unmarshalSignedList bits n t max (c ++ rest)).1 ≠ .panic) := by
  obtain ⟨h1, hr⟩ := (C103_read n hn).2 c rest hc
  constructor
  · intro hneg
    have hbig := signedAsUsize_neg bits n _ hn hb hr hneg
    rw [unmarshalSignedList, UM.bind_eq, h1]
    simp only
    rw [if_pos (by omega)]
    rfl
  · intro hpos
    have hu : unmarshalPrim n (c ++ rest) = (.ok (twos c).toNat, rest) := by
      have : positional c = (twos c).toNat := by
        match c, hc with
        | [], hc => simp at hc; omega
        | x :: bs, _ =>
          rw [twos_cons] at hpos ⊢
          have := positional_lt (x :: bs)
          rw [List.length_cons] at this
          split at hpos
          · rw [if_pos (by assumption)]; rfl
          · omega
      rw [← this]
      have h2 := unmarshalPrim_digits n (positional c) rest (by rw [← hc]; exact positional_lt c)
      rw [← hc, digits256_positional c] at h2
      rw [← hc]; exact h2
    obtain ⟨k, hk⟩ : ∃ k : Nat, twos c = k := ⟨(twos c).toNat, by omega⟩
    rw [hk] at h1 hr hu
    have hcast := signedAsUsize_nonneg bits n k hn hb hr
    have hl := signedList_eq bits n k t max (c ++ rest) rest h1 hcast
    have hR := unsignedList_eq n k t max (c ++ rest) rest (by simpa using hu)
    have hp := (C03_unmarshal_total (unsignedList n t max) (c ++ rest)).1
    rw [hl]
    rw [hR] at hp ⊢
    by_cases hgt : k > max
    · simp [hgt]
    · simp only [hgt, if_false] at hp ⊢
      rcases hloop : unmarshalLoop (unmarshal t) k rest with ⟨es | e | _, r⟩
      · simp only [Prod.mk.injEq, Res.ok.injEq, Val.struct.injEq, List.cons.injEq, Val.int.injEq,
          Val.arr.injEq, and_true]
        refine ⟨fun x es' r' => ⟨?_, ?_⟩, by simp, by simp⟩
        · rintro ⟨⟨rfl, rfl⟩, rfl⟩; simp
        · rintro ⟨h0, ⟨h2, rfl⟩, rfl⟩; exact ⟨⟨by omega, rfl⟩, rfl⟩
      · simp
      · rw [hloop] at hp; simp at hp

/-- **C103.** Writing such a structure: with a negative count it never succeeds; with any
other it does what it does for an unsigned one. -/
theorem C103_count_write (bits n : Nat) (t : Ty) (count : Int) (items : List Val) (buf : Bytes)
    (hn : 1 ≤ n) (hb : 8 * n ≤ bits) (hmax : items.length < 2 ^ (bits - 1))
    (hx : InSigned n count) :
    (count < 0 → ∀ k, (marshalSignedList bits n t count items buf).1 ≠ .ok k) ∧
    (0 ≤ count → marshalSignedList bits n t count items buf =
      marshal (unsignedList n t items.length) (.struct [.int count.toNat, .arr items]) buf) := by
  constructor
  · intro hneg k
    have hbig := signedAsUsize_neg bits n _ hn hb hx hneg
    rw [marshalSignedList]
    rcases h : mstep (marshalSigned n count) 0 buf with ⟨r | r | _, b⟩
    · exact loop_over_not_ok items _ _ _ (by omega) k
    · simp [mthen]
    · simp [mthen]
  · intro hpos
    obtain ⟨k, rfl⟩ : ∃ k : Nat, count = k := ⟨count.toNat, by omega⟩
    have hcast := signedAsUsize_nonneg bits n k hn hb hx
    have hbytes : marshalSigned n k = marshalPrim n k := by
      funext b
      have hlt : ((k : Int) % 256 ^ n).toNat = k := by
        have h1 : k < 256 ^ n := by
          have := hx.2
          obtain ⟨m, rfl⟩ : ∃ m, n = m + 1 := ⟨n - 1, by omega⟩
          rw [ipow256_half] at this
          rw [Nat.pow_succ]; omega
        have e : (256 : Int) ^ n = ((256 ^ n : Nat) : Int) := by simp
        rw [e, Int.emod_eq_of_lt (by omega) (by omega)]; omega
      rw [marshalSigned, marshalPrim, toBESigned, hlt]
    simp only [marshalSignedList, unsignedList, marshal, marshalFields, hcast, hbytes,
      Int.toNat_natCast, asUsize, List.nil_append, List.getD_cons_zero]
    congr 1
    funext w b
    rcases marshalLoop (fun v b => marshal t v b) k items w b with ⟨r | r | _, b'⟩ <;> rfl

/-- A count of -1 with two bytes as items. -/
example : unmarshalSignedList 64 1 Base.u8 2 [0xff, 1, 2] = (.err .arrayLengthExceeded, [1, 2]) :=
  (C103_count_read 64 1 Base.u8 2 (by decide) (by decide) (by decide) [0xff] [1, 2] rfl).1
    (by decide)
example : unmarshalSignedList 64 1 Base.u8 3 [2, 1, 2, 9] =
    (.ok (2, [.int 1, .int 2, .int 0]), [9]) :=
  (((C103_count_read 64 1 Base.u8 3 (by decide) (by decide) (by decide) [2] [1, 2, 9] rfl).2
    (by decide)).1 2 _ _).2 ⟨by decide, rfl⟩
/-- The panic of C12 also occurs here. -/
example (k : Nat) : (marshalSignedList 64 1 Base.u8 (-1) [.int 1, .int 2] [0, 0, 0, 0]).1 ≠ .ok k :=
  (C103_count_write 64 1 Base.u8 (-1) [.int 1, .int 2] [0, 0, 0, 0] (by decide) (by decide)
    (by decide) (by simp [InSigned])).1 (by decide) k
example : marshalSignedList 64 2 Base.u8 2 [.int 7, .int 8, .int 9] [0, 0, 0, 0, 5] =
    (.ok 4, [0, 2, 7, 8, 5]) := by
  rw [(C103_count_write 64 2 Base.u8 2 [.int 7, .int 8, .int 9] [0, 0, 0, 0, 5] (by decide)
    (by decide) (by decide) (by simp [InSigned])).2 (by decide)]
  rfl

end Verif
