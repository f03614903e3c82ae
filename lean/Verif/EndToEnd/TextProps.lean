import Verif.EndToEnd.Text
import Verif.EndToEnd.Props

/-
C92: the text of an error and the I/O error made of it keep the code.
-/

namespace Verif.Errors
open Verif

/-! ### Specification -/

/-- The text is the number in decimal, without leading zeros. -/
def IsDecimal (t : List Char) (n : Nat) : Prop :=
  t ≠ [] ∧ (∀ c ∈ t, 48 ≤ c.toNat ∧ c.toNat ≤ 57) ∧ (t.head? = some '0' → t = ['0']) ∧
  t.foldl (fun a c => 10 * a + (c.toNat - 48)) 0 = n

/-! ### Proof -/

theorem digitChar_toNat (d : Nat) (h : d < 10) : (digitChar d).toNat = 48 + d := by
  have : d = 0 ∨ d = 1 ∨ d = 2 ∨ d = 3 ∨ d = 4 ∨ d = 5 ∨ d = 6 ∨ d = 7 ∨ d = 8 ∨ d = 9 := by omega
  rcases this with rfl | rfl | rfl | rfl | rfl | rfl | rfl | rfl | rfl | rfl <;> rfl

theorem digitChar_of (c : Char) (h : 48 ≤ c.toNat ∧ c.toNat ≤ 57) : digitChar (c.toNat - 48) = c := by
  unfold digitChar
  rw [show 48 + (c.toNat - 48) = c.toNat by omega, Char.ofNat_toNat]

theorem head_append {α : Type} {l : List α} (m : List α) (h : l ≠ []) : (l ++ m).head? = l.head? := by
  cases l with
  | nil => exact absurd rfl h
  | cons => rfl

theorem showDecimal_ne (n : Nat) : showDecimal n ≠ [] := by
  unfold showDecimal
  split <;> simp

theorem showDecimal_head (n : Nat) (h : (showDecimal n).head? = some '0') : n = 0 := by
  induction n using showDecimal.induct with
  | case1 n hn =>
    unfold showDecimal at h
    rw [if_pos hn] at h
    have := digitChar_toNat n hn
    simp only [List.head?_cons, Option.some.injEq] at h
    rw [h] at this
    have e : '0'.toNat = 48 := rfl
    omega
  | case2 n hn ih =>
    unfold showDecimal at h
    rw [if_neg hn, head_append _ (showDecimal_ne _)] at h
    have := ih h
    omega

theorem showDecimal_isDecimal (n : Nat) : IsDecimal (showDecimal n) n := by
  refine ⟨showDecimal_ne n, ?_, fun h => ?_, ?_⟩
  · induction n using showDecimal.induct with
    | case1 n hn =>
      unfold showDecimal
      rw [if_pos hn]
      intro c hc
      simp only [List.mem_singleton] at hc
      rw [hc, digitChar_toNat n hn]
      omega
    | case2 n hn ih =>
      unfold showDecimal
      rw [if_neg hn]
      intro c hc
      rcases List.mem_append.1 hc with hc | hc
      · exact ih c hc
      · simp only [List.mem_singleton] at hc
        rw [hc, digitChar_toNat _ (Nat.mod_lt _ (by decide))]
        omega
  · rw [showDecimal_head n h, showDecimal]
    rfl
  · induction n using showDecimal.induct with
    | case1 n hn =>
      unfold showDecimal
      rw [if_pos hn]
      simp only [List.foldl_cons, List.foldl_nil, digitChar_toNat n hn]
      omega
    | case2 n hn ih =>
      unfold showDecimal
      rw [if_neg hn, List.foldl_append, ih]
      simp only [List.foldl_cons, List.foldl_nil, digitChar_toNat _ (Nat.mod_lt n (by decide : 0 < 10))]
      omega

theorem isDecimal_unique (t : List Char) (n : Nat) (h : IsDecimal t n) : t = showDecimal n := by
  obtain ⟨h1, h2, h3, h4⟩ := h
  suffices key : ∀ m (t : List Char), t.length = m → t ≠ [] →
      (∀ c ∈ t, 48 ≤ c.toNat ∧ c.toNat ≤ 57) → (t.head? = some '0' → t = ['0']) →
      t = showDecimal (t.foldl (fun a c => 10 * a + (c.toNat - 48)) 0) by
    rw [← h4]; exact key _ t rfl h1 h2 h3
  intro m
  induction m using Nat.strongRecOn with
  | ind m ih =>
    intro t hm h1 h2 h3
    rcases List.eq_nil_or_concat t with rfl | ⟨u, c, rfl⟩
    · exact absurd rfl h1
    · rw [List.concat_eq_append] at *
      have hc := h2 c (by simp)
      rw [List.foldl_append]
      simp only [List.foldl_cons, List.foldl_nil]
      by_cases hu : u = []
      · subst hu
        simp only [List.foldl_nil, List.nil_append]
        unfold showDecimal
        rw [if_pos (by omega), show 10 * 0 + (c.toNat - 48) = c.toNat - 48 by omega, digitChar_of c hc]
      · have hlead : u.head? ≠ some '0' := by
          intro h
          have := h3 (by rw [head_append _ hu]; exact h)
          have := congrArg List.length this
          have hl : 0 < u.length := List.length_pos_iff.2 hu
          simp only [List.length_append, List.length_cons, List.length_nil] at this
          omega
        have e := ih u.length (by rw [← hm]; simp) u rfl hu
          (fun c hc => h2 c (by simp [hc])) (fun h => absurd h hlead)
        generalize hx : u.foldl (fun a c => 10 * a + (c.toNat - 48)) 0 = x at e ⊢
        have hx0 : x ≠ 0 := by
          rintro rfl
          exact hlead (by rw [e, showDecimal]; rfl)
        rw [showDecimal, if_neg (by omega), show (10 * x + (c.toNat - 48)) / 10 = x by omega,
          show (10 * x + (c.toNat - 48)) % 10 = c.toNat - 48 by omega, digitChar_of c hc, ← e]

/-! ### Properties -/

/-- **C92**: the text of an error is its code in decimal, and nothing else is. -/
theorem C92_text (e : TssError) (t : List Char) : e.show = t ↔ IsDecimal t e.code :=
  ⟨fun h => h ▸ showDecimal_isDecimal e.code, fun h => (isDecimal_unique t _ h).symm⟩

/-- `TPM_RC_MEMORY` is shown as 2308. -/
example : TssError.show ⟨0x904⟩ = ['2', '3', '0', '8'] := by
  simp [TssError.show, showDecimal]; decide

/-- **C92**: different errors have different texts. -/
theorem C92_distinct (e e' : TssError) : e.show = e'.show ↔ e = e' := by
  constructor
  · intro h
    have h1 := ((C92_text e _).1 h).2.2.2
    have h2 := ((C92_text e' _).1 rfl).2.2.2
    obtain ⟨a⟩ := e
    obtain ⟨b⟩ := e'
    rw [h2] at h1
    simp only at h1
    rw [h1]
  · rintro rfl; rfl

/-- **C92**: so have the errors of the codec, and none of their texts is that of a code. -/
theorem C92_codec : (∀ e e' : MErr, e.show = e'.show ↔ e = e') ∧
    ∀ (e : MErr) (n : Nat), ¬ IsDecimal e.show.toList n := by
  constructor
  · intro e e'; cases e <;> cases e' <;> decide
  · intro e n h
    have := h.2.1
    cases e
    · exact absurd (this 'l' (by decide)) (by decide)
    · exact absurd (this 'e' (by decide)) (by decide)
    · exact absurd (this 's' (by decide)) (by decide)

end Verif.Errors

namespace Verif.EndToEnd
open Verif Verif.Errors Verif.Client

variable {σ : Type}

/-- **C92**: a program that runs a command over the simulator connection gets an I/O error
from which it recovers a code exactly if the client reported this code, and it is shown
as this code; otherwise it is the error of the connection. -/
theorem C92_io (os : Tcp.Os σ) (c : Command) (a : Area) (s : Tcp.Conn σ) (x : IoError)
    (h : (runCommandWithHandles (tcpTransport os) c a s).result.mapErr toIo = .err x) :
    (∀ e, x.tssError = some e ↔
      (runCommandWithHandles (tcpTransport os) c a s).result = .err (.tss e)) ∧
    (∀ e, x.tssError = some e → ∃ t, x.show = some t ∧ IsDecimal t e.code) ∧
    (∀ e, x = .plain e ↔
      (runCommandWithHandles (tcpTransport os) c a s).result = .err (.conn e)) := by
  rcases hr : (runCommandWithHandles (tcpTransport os) c a s).result with v | (e | e) | _ <;>
    rw [hr] at h <;> simp only [Res.mapErr, Res.err.injEq, reduceCtorEq] at h
  · subst h
    simp [toIo, IoError.tssError]
  · subst h
    refine ⟨fun e' => ?_, fun e' h' => ⟨e.show, rfl, ?_⟩, fun e' => ?_⟩
    · simp [toIo, IoError.fromTss, IoError.tssError]
    · simp only [toIo, IoError.fromTss, IoError.tssError, Option.some.injEq] at h'
      exact (C92_text e' _).1 (h' ▸ rfl)
    · simp [toIo, IoError.fromTss]

/-- Startup over a connection to the TPM of this repository, which refuses it with
`TPM_RC_COMMAND_CODE`: the program is shown 323. -/
example : ∃ x : IoError,
    (runCommandWithHandles (tcpTransport (Tcp.demoOs (tpmOf sizedDrbg Server.fakeEntropy) 2))
      ⟨Base.Cc.Startup, .unit, .unit, Base.StartupCmd, .struct [.struct [.int 0]], .unit, .unit⟩
      (area1 exSession) ⟨⟨[], [], ⟨(), ()⟩⟩, 0, []⟩).result.mapErr toIo = .err x ∧
    x.tssError = some ⟨0x143⟩ ∧ x.show = some ['3', '2', '3'] := by
  refine ⟨.other ⟨0x143⟩, ?_, rfl, ?_⟩
  · rw [C58_server_errors (Tcp.demoOs (tpmOf sizedDrbg Server.fakeEntropy) 2) sizedDrbg sized_reliable
      Server.fakeEntropy _ _ (Tcp.demo_simulator _ 2)
      ⟨Base.Cc.Startup, .unit, .unit, Base.StartupCmd, .struct [.struct [.int 0]], .unit, .unit⟩
      (area1 exSession) ⟨⟨[], [], ⟨(), ()⟩⟩, 0, []⟩ (by decide) rfl
      ⟨by decide, by decide, by decide, exCmdWF.auths⟩ (by decide) (by decide)]
    rfl
  · simp [IoError.show, TssError.show, showDecimal]
    decide

end Verif.EndToEnd
