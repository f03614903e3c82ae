import Verif.Width.Own

/-!
C114: commands with types of the caller's own, on machines of any width.

The full claim is that what is sent always begins with a header that declares its length, whatever
the implementations of the caller report and on whatever machine (C93 says so for numbers without
limit, and with overflow checks).  It fails where sums wrap around.
-/

namespace Verif.Client
open Verif Verif.Base Verif.Errors Verif.Own

variable {ω ε P H : Type}

/-- **C114 (missing: implementations that report nearly the largest `usize` on machines that do not
check for overflow)**: a command has the same result and effect on all machines, and that of
numbers without limit. -/
theorem C114_same_partial (m : Machine) (hb : 32 ≤ m.bits) (tr : LiveTransport ω ε)
    (c : OwnCommand ω P H) (a : FreeArea ω) (ha : a.Typed) (hcode : c.code < 2 ^ 32)
    (hm : m.checked = true ∨ (Modest m c.handles ∧ Modest m c.param)) (w : ω) :
    runOwnOn m tr c a w = runOwn tr c a w := by
  rw [runOwnOn_afterwards, runOwn_afterwards, build_handOver hb c a ha hcode hm w,
    show readResponseOwnOn m c a = readResponseOwn c a from
      funext fun b => funext fun w => readResponseOwnOn_eq hb c a b w]

/-- **C114**: and then what the connection is given begins with a header that declares its length and
the code of the command.  Stated by way of the errors of the connection. -/
theorem C114_declares_partial (m : Machine) (hb : 32 ≤ m.bits) (tr : LiveTransport ω ε)
    (c : OwnCommand ω P H) (a : FreeArea ω) (ha : a.Typed) (hcode : c.code < 2 ^ 32)
    (hm : m.checked = true ∨ (Modest m c.handles ∧ Modest m c.param)) (w w' : ω) (e : ε)
    (hr : runOwnOn m tr c a w = ⟨.err (.conn e), w'⟩) :
    ∃ cmd w1 buf, tr.transact w1 cmd (List.replicate 4096 0) = (some (.failed e), buf, w') ∧
      DeclaresItself c.code cmd := by
  rw [C114_same_partial m hb tr c a ha hcode hm] at hr
  obtain ⟨cmd, w1, buf, h1, h2⟩ := (C93_sent_iff tr c a w w' hcode ha e).1 hr
  exact ⟨cmd, w1, buf, h2, (C93_header c a w w1 cmd h1).2.2⟩

/-- **C114**: types that are implemented as they should be are covered: a command with such types is
the same on any two machines, whether they check for overflow or not. -/
theorem C114_lawful {A B : Type} {ph : Own.Part A} {pp : Own.Part B} {mh : Meaning A} {mp : Meaning B}
    (lh : Lawful ph mh) (lp : Lawful pp mp) (h : A) (v : B) (sh : mh.sound h) (sv : mp.sound v)
    (code : Nat) (hcode : code < 2 ^ 32) (qp : Own.Part P) (qh : Own.Part H) (m₁ m₂ : Machine)
    (h₁ : 32 ≤ m₁.bits) (h₂ : 32 ≤ m₂.bits) (tr : LiveTransport ω ε) (a : FreeArea ω) (ha : a.Typed)
    (w : ω) :
    runOwnOn m₁ tr (commandOf code ph h pp v qp qh) a w =
      runOwnOn m₂ tr (commandOf code ph h pp v qp qh) a w := by
  have key : ∀ {α : Type} {p : Own.Part α} {q : Meaning α} (_ : Lawful p q) (x : α) (_ : q.sound x)
      (m : Machine) (_ : 32 ≤ m.bits), Modest (ω := ω) m fun b w => (p.marshal x b, w) := by
    intro α p q l x hx m hb b w n hbl hn
    have hp : 2 ^ 32 ≤ 2 ^ m.bits := Nat.pow_le_pow_right (n := 2) (by decide) hb
    by_cases hle : (q.bytes x).length ≤ b.length
    · have e := l.writes x b hx hle
      simp only [e, Res.ok.injEq] at hn
      omega
    · exact absurd hn (l.refuses x b n hx (by omega))
  rw [C114_same_partial m₁ h₁ tr _ a ha hcode (.inr ⟨key lh h sh m₁ h₁, key lp v sv m₁ h₁⟩),
    C114_same_partial m₂ h₂ tr _ a ha hcode (.inr ⟨key lh h sh m₂ h₂, key lp v sv m₂ h₂⟩)]

/-- Handles that report 2^64 - 10 bytes, and nothing else. -/
def braggart : OwnCommand Nat Unit Unit where
  code := 0x144
  handles b w := ((.ok (2 ^ 64 - 10), b), w)
  param b w := ((.ok 0, b), w)
  resp b w := ((.ok (), b), w)
  respHandles b w := ((.ok (), b), w)
  handles_length := fun _ _ => rfl
  param_length := fun _ _ => rfl

/-- On a machine of 64 bits without overflow checks an empty command is sent. -/
theorem braggart_sends : runOwnOn ⟨64, false⟩ mirror braggart free0 7 = ⟨.err (.conn []), 7⟩ := by
  have hrl : (List.replicate cmdBufferSize (0 : UInt8)).length = 4096 := by
    rw [List.length_replicate]; rfl
  have hh : ∀ n (b : Bytes), n < 2 ^ 32 → b.length = 4096 →
      toTss (marshalOn ⟨64, false⟩ CmdHeader (cmdHeader true 0x144 n) b) =
        (.ok 10, (digits256 2 0x8001 ++ digits256 4 n ++ digits256 4 0x144) ++ b.drop 10) := by
    intro n b hn hbl
    have e := (tagrees_toTss (marshalOn_agrees (m := ⟨64, false⟩) (c := 4) (by decide) (by decide) _ _
      header_countsIn (cmdHeader_typed true (code := 0x144) (by decide) hn)) b (by rw [hbl]; decide)).1
    exact e.trans (header_fit true 0x144 n (by decide) hn b (by omega))
  have hb : buildOwnOn ⟨64, false⟩ braggart free0 7 = ((.ok 0, (digits256 2 0x8001 ++ digits256 4 0 ++
      digits256 4 0x144) ++ List.replicate 4086 0), 7) := by
    unfold buildOwnOn
    simp only [free0, FreeArea.provided, Option.isNone_none, braggart]
    rw [hh 0 _ (by decide) hrl, lthen_of_ok]
    have hd : (List.replicate cmdBufferSize (0 : UInt8)).drop 10 = List.replicate 4086 0 := by
      rw [List.drop_replicate]; rfl
    rw [hd]
    have hl : (digits256 2 0x8001 ++ digits256 4 0 ++ digits256 4 0x144).length = 10 := by
      simp only [List.length_append, digits256_length]
    generalize hx : digits256 2 0x8001 ++ digits256 4 0 ++ digits256 4 0x144 = x at hl
    have e : ∀ y : Bytes, (x ++ y).take 10 = x ∧ (x ++ y).drop 10 = y :=
      fun y => ⟨List.take_left' hl, List.drop_left' hl⟩
    have s1 : lstepOn ⟨64, false⟩ (ownTss fun b (w : Nat) => ((.ok (2 ^ 64 - 10), b), w)) 10
        (x ++ List.replicate 4086 0) 7 = ((.ok 0, x ++ List.replicate 4086 0), 7) := by
      unfold lstepOn
      rw [if_pos (by rw [List.length_append]; omega), (e _).2, (e _).1]
      rfl
    have s0 : ∀ f : Bytes → Nat → LOut Nat, (∀ b w, f b w = ((.ok 0, b), w)) →
        lstepOn ⟨64, false⟩ f 0 (x ++ List.replicate 4086 0) 7 =
          ((.ok 0, x ++ List.replicate 4086 0), 7) := by
      intro f hf
      unfold lstepOn
      rw [if_pos (by omega), hf]
      rfl
    rw [s1, lthen_of_ok, s0 (writeCommandSessionsFOn _ _) (fun _ _ => rfl), lthen_of_ok,
      s0 (ownTss _) (fun _ _ => rfl), lthen_of_ok, hh _ _ (by decide) (by rw [List.length_append, hl, List.length_replicate]), lthen_of_ok, (e _).2, ← hx]
  rw [runOwnOn_afterwards, hb]
  simp only [handOver, sliceTo, if_pos (Nat.zero_le _), List.take_zero, afterwards, mirror]

/-- **C114 is violated**: on a machine of 64 bits without overflow checks (a release build) something
is sent that does not begin with such a header. -/
theorem C114_violated : ¬ ∀ (m : Machine) (c : OwnCommand Nat Unit Unit) (a : FreeArea Nat) (w w' : Nat)
    (cmd : Bytes), 32 ≤ m.bits → a.Typed → c.code < 2 ^ 32 →
    runOwnOn m mirror c a w = ⟨.err (.conn cmd), w'⟩ → DeclaresItself c.code cmd := by
  intro h
  obtain ⟨tag, body, -, e⟩ := h ⟨64, false⟩ braggart free0 7 7 [] (by decide) free0_typed (by decide)
    braggart_sends
  have := congrArg List.length e
  simp at this
  omega

/-! ### A case -/

/-- With overflow checks the same command panics, on any machine. -/
example (bits : Nat) (h : 32 ≤ bits) : runOwnOn ⟨bits, true⟩ mirror braggart free0 7 = ⟨.panic, 7⟩ := by
  rw [C114_same_partial ⟨bits, true⟩ h mirror braggart free0 free0_typed (by decide) (.inl rfl) 7]
  exact C93_overlong mirror braggart free0 7 7 7 (by decide) true (2 ^ 64 - 10) (List.replicate 4086 0) rfl
    rfl (by decide)

/-- The command of C93 that reports four bytes is the same without them. -/
example : runOwnOn ⟨32, false⟩ mirror sloppy free0 7 =
    ⟨.err (.conn [0x80, 1, 0, 0, 0, 14, 0, 0, 1, 0x7B, 0xAA, 0xAA, 0xAA, 0xAA]), 7⟩ := by
  rw [C114_same_partial ⟨32, false⟩ (by decide) mirror sloppy free0 free0_typed (by decide)
    (.inr ⟨fun b w n _ h => by cases h; decide, fun b w n _ h => by cases h; decide⟩) 7]
  exact (C93_sent_iff mirror sloppy free0 7 7 (by decide) free0_typed _).2 ⟨_, 7, _, sloppy_composes, rfl⟩

end Verif.Client
