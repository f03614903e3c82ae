import Verif.Width.OwnCodec

/-! C116: derived types with parts of the caller's own on machines of any width. -/

namespace Verif.Own
open Verif

variable {X : Type} {M : Part X → Meaning X} {m : Machine}

/-- **C116**: whatever the parts do, writing succeeds exactly if each can be written behind what those
before it reported, and what is reported is the sum. -/
theorem C116_puts (t : Ty X) (v : Val X) (b : Bytes) (n : Nat) (b' : Bytes) :
    (derived t).marshal v b = (.ok n, b') ↔ Puts t v b n b' := marshal_puts t v b n b'

/-- **C116**: on machines of 32 bits and more a derived type reads what it does without limits, if no
length field is wider. -/
theorem C116_reads (hm : 32 ≤ m.bits) (t : Ty X) (ht : t.Counts) (b : Bytes) :
    unmarshalOn m t b = (derived t).unmarshal b := congrFun (unmarshalOn_eq hm t ht) b

/-- **C116**, as far as it holds: it writes what it does without limits if no part reports more than it
was given.  Missing are parts that do, on machines without overflow checks (`C116_violated`). -/
theorem C116_same_partial (hm : 32 ≤ m.bits) (t : Ty X) (ht : t.Counts) (v : Val X)
    (hv : Held Truthful t v) (b : Bytes) (hb : b.length < 2 ^ m.bits) :
    marshalOn m t v b = (derived t).marshal v b ∧
      ∀ n, (marshalOn m t v b).1 = .ok n → n ≤ b.length := by
  obtain ⟨h1, _, h3⟩ := marshalOn_agrees hm t v ht hv b hb
  exact ⟨h1, fun n hn => h3 n (h1 ▸ hn)⟩

/-- **C116**: with overflow checks, whatever the parts report, it succeeds exactly if they can be
written one behind the other and the sum of the reports is a `usize`. -/
theorem C116_checked (hc : m.checked = true) (hm : 32 ≤ m.bits) (t : Ty X) (ht : t.Counts) (v : Val X)
    (hv : Held (Reports m) t v) (b : Bytes) (hb : b.length < 2 ^ m.bits) (n : Nat) (b' : Bytes) :
    marshalOn m t v b = (.ok n, b') ↔ Puts t v b n b' ∧ n < 2 ^ m.bits := by
  rw [(marshalOn_checks hc hm t v ht hv).2 b hb, marshal_puts]

/-- **C116**: a derived type whose parts do what they should does so on every such machine: sound
values are written if there is room, not without, and read back, and nothing else is read. -/
theorem C116_lawful (hm : 32 ≤ m.bits) (t : Ty X) (ht : t.Counts)
    (h : t.Own fun p => Lawful p (M p)) :
    (∀ v b, Sound M t v → Held (fun p x => (M p).sound x) t v → b.length < 2 ^ m.bits →
      ((wire M t v).length ≤ b.length →
        marshalOn m t v b = (.ok (wire M t v).length, wire M t v ++ b.drop (wire M t v).length)) ∧
      (b.length < (wire M t v).length → ∀ n, (marshalOn m t v b).1 ≠ .ok n)) ∧
    (∀ v r, Sound M t v → unmarshalOn m t (wire M t v ++ r) = (.ok (canon M t v), r)) ∧
    (∀ b v r, unmarshalOn m t b = (.ok v, r) → Sound M t v ∧ canon M t v = v ∧ b = wire M t v ++ r) ∧
    ∀ b, (unmarshalOn m t b).1 ≠ .panic := by
  have l := C112_derived t h
  have e := fun b => C116_reads hm t ht b
  refine ⟨fun v b hv hh hb => ?_, fun v r hv => (e _).trans (l.reads v r hv),
    fun b v r hu => l.only b v r ((e b).symm.trans hu), fun b => by rw [e]; exact (l.total b).1⟩
  have hq : Held Truthful t v := Held.mono (P := fun p => Lawful p (M p)) (fun p x hp hx b n hn => by
    by_cases hl : ((M p).bytes x).length ≤ b.length
    · rw [hp.writes x b hx hl] at hn
      cases hn
      exact hl
    · exact absurd hn (hp.refuses x b n hx (Nat.lt_of_not_le hl))) t v h hh
  have := (C116_same_partial hm t ht v hq b hb).1
  rw [this]
  exact ⟨l.writes v b hv, fun hl n => l.refuses v b n hv hl⟩

/-! ### Cases -/

/-- `small` as a length field. -/
def smallCount : Part Nat := { small with asUsize := (· % 256) }

theorem smallCount_lawful : Lawful smallCount smallMeaning :=
  have l := small_lawful
  ⟨l.writes, l.refuses, l.reads, l.only, l.total, fun _ _ => rfl⟩

/-- A count, so many elements out of at most three, and a choice. -/
def wideTy : Ty Nat :=
  .struct (.plain (.own smallCount) (.lenArr 0 (.own small) 3 (.plain (.enum 1 exVs) .nil)))

theorem wideTy_counts : wideTy.Counts := by
  refine ⟨trivial, ?_, trivial, ?_, trivial⟩
  · show ∀ x, x % 256 < 2 ^ 32
    intro x; omega
  · exact ⟨⟨trivial, trivial⟩, ⟨rfl, trivial⟩, trivial⟩

theorem wideTy_own : wideTy.Own fun p => Lawful p smallMeaning :=
  ⟨smallCount_lawful, small_lawful, ⟨⟨small_lawful, trivial⟩, ⟨trivial, trivial⟩, trivial⟩, trivial⟩

theorem wide_sound : Sound (fun _ => smallMeaning) wideTy exVal := by
  refine ⟨show 2 < 4 by decide, rfl, show 2 ≤ 3 by decide, ?_, ⟨by decide, ?_⟩, trivial⟩
  · intro e he
    have : e = .own 1 ∨ e = .own 0 := by
      simpa [asUsize, smallCount] using he
    rcases this with rfl | rfl
    · exact show 1 < 4 by decide
    · exact show 0 < 4 by decide
  · exact ⟨show 0x1234 < 256 ^ 2 by decide, trivial⟩

theorem wide_held : Held (fun _ x => smallMeaning.sound x) wideTy exVal := by
  refine ⟨show 2 < 4 by decide, ?_, ?_, trivial⟩
  · intro e he
    have : e = .own 1 ∨ e = .own 0 := by
      simpa [asUsize, smallCount] using he
    rcases this with rfl | rfl
    · exact show 1 < 4 by decide
    · exact show 0 < 4 by decide
  · exact ⟨show 0x1234 < 256 ^ 2 by decide, trivial⟩

/-- On 32 bits it is written and read back as on 64. -/
example : marshalOn ⟨32, false⟩ wideTy exVal (List.replicate 8 0xFF) =
      (.ok 6, [2, 1, 0, 2, 0x12, 0x34, 0xFF, 0xFF]) ∧
    ∀ r, unmarshalOn ⟨32, false⟩ wideTy ([2, 1, 0, 2, 0x12, 0x34] ++ r) =
      (.ok (.struct [.own 2, .arr [.own 1, .own 0, .own 3], .enum 2 [.std (.int 0x1234)]]), r) := by
  have l := C116_lawful (M := fun _ => smallMeaning) (m := ⟨32, false⟩) (Nat.le_refl _) wideTy wideTy_counts
    wideTy_own
  exact ⟨(l.1 exVal (List.replicate 8 0xFF) wide_sound wide_held (by decide)).1 (by decide),
    fun r => l.2.1 exVal r wide_sound⟩

/-- Writes nothing and reports the value. -/
def claims : Part Nat where
  marshal x b := (.ok x, b)
  unmarshal b := (.ok 0, b)
  default := 0
  asUsize _ := 0
  keeps_length _ _ := rfl

/-- A byte, such a part, and another byte. -/
def claimTy : Ty Nat :=
  .struct (.plain (.std (.prim 1)) (.plain (.own claims) (.plain (.std (.prim 1)) .nil)))

/-- The part reports so many bytes. -/
def claimVal (n : Nat) : Val Nat := .struct [.std (.int 1), .own n, .std (.int 2)]

theorem claimTy_counts : claimTy.Counts := ⟨rfl, trivial, rfl, trivial⟩

theorem claim_held {Q : Part Nat → Nat → Prop} {n : Nat} (h : Q claims n) : Held Q claimTy (claimVal n) :=
  ⟨show 1 < 256 ^ 1 by decide, h, show 2 < 256 ^ 1 by decide, trivial⟩

/-- The part reports one byte, which stays as it was. -/
theorem claim_puts : Puts claimTy (claimVal 1) [7, 8, 9] 3 [1, 8, 2] :=
  (C116_puts claimTy (claimVal 1) [7, 8, 9] 3 [1, 8, 2]).1 rfl

/-- With overflow checks so it is on any machine. -/
example (hm : 32 ≤ m.bits) (hc : m.checked = true) :
    marshalOn m claimTy (claimVal 1) [7, 8, 9] = (.ok 3, [1, 8, 2]) := by
  have hp : 2 ^ 32 ≤ 2 ^ m.bits := Nat.pow_le_pow_right (by decide) hm
  exact (C116_checked hc hm claimTy claimTy_counts (claimVal 1) (claim_held fun b n hn => by
    cases hn; omega) [7, 8, 9] (show 3 < _ by omega) 3 [1, 8, 2]).2 ⟨claim_puts, by omega⟩

/-- **C116** is violated: without overflow checks a part that reports 2^64 − 1 bytes makes the count
wrap around.  The next field overwrites the first, and one byte is reported where the same code
without limits, or with checks, panics. -/
theorem C116_violated :
    claimTy.Counts ∧ Held (Reports ⟨64, false⟩) claimTy (claimVal (2 ^ 64 - 1)) ∧
    marshalOn ⟨64, false⟩ claimTy (claimVal (2 ^ 64 - 1)) [7, 8, 9] = (.ok 1, [2, 8, 9]) ∧
    (derived claimTy).marshal (claimVal (2 ^ 64 - 1)) [7, 8, 9] = (.panic, [1, 8, 9]) ∧
    marshalOn ⟨64, true⟩ claimTy (claimVal (2 ^ 64 - 1)) [7, 8, 9] = (.panic, [1, 8, 9]) ∧
    ∀ n b', ¬ Puts claimTy (claimVal (2 ^ 64 - 1)) [7, 8, 9] n b' := by
  have hp : (derived claimTy).marshal (claimVal (2 ^ 64 - 1)) [7, 8, 9] = (.panic, [1, 8, 9]) := by
    decide +kernel
  refine ⟨claimTy_counts, claim_held fun b n hn => ?_, by decide +kernel, hp, by decide +kernel,
    fun n b' h => ?_⟩
  · cases hn; decide
  · rw [← C116_puts, hp] at h
    simp at h

end Verif.Own
