import Verif.Width.Declared

/-! C121 on machines of any width. -/

namespace Verif.Client
open Verif Verif.Base Verif.Errors Verif.Own

variable {ω ε A B P H : Type} {m : Machine} {code : Nat} {dh : Declared A} {h : Own.Val A}
  {dp : Declared B}
  {v : Own.Val B} {dq : Declared P} {dr : Declared H} {th : Own.Ty A} {tp : Own.Ty B} {tq : Own.Ty P}
  {tr : Own.Ty H} {Mh : Own.Part A → Meaning A} {Mp : Own.Part B → Meaning B}
  {c c' : OwnCommand ω (Own.Val P) (Own.Val H)}

/-- **C121**: a command with declared types has the same result and effects on every machine of 32 bits
and more, with and without overflow checks, as without limits, if length fields say less than 2^32. -/
theorem C121_machines (hm : 32 ≤ m.bits) (hc : Made c code dh h dp v dq dr)
    (hc' : MadeOn m c' code dh h dp v dq dr) (eh : dh.Says th) (ep : dp.Says tp) (eq : dq.Says tq)
    (er : dr.Says tr) (nh : th.Counts) (np : tp.Counts) (nq : tq.Counts) (nr : tr.Counts)
    (lh : th.Own fun p => Lawful p (Mh p)) (lp : tp.Own fun p => Lawful p (Mp p))
    (sh : Sound Mh th h) (sv : Sound Mp tp v) (gh : Held (fun p x => (Mh p).sound x) th h)
    (gv : Held (fun p x => (Mp p).sound x) tp v) (hcode : code < 2 ^ 32) (con : LiveTransport ω ε)
    (a : FreeArea ω) (ha : a.Typed) (w : ω) : runOwnOn m con c' a w = runOwn con c a w := by
  have hp : 2 ^ 32 ≤ 2 ^ m.bits := Nat.pow_le_pow_right (n := 2) (by decide) hm
  have e := made_eq hc eh ep eq er (dh.formed eh h sh) (dp.formed ep v sv)
  subst e
  obtain ⟨h1, ⟨k2, i2, h2⟩, ⟨k3, i3, h3⟩, ⟨k4, i4, h4⟩, ⟨k5, i5, h5⟩⟩ := hc'
  have r4 : c'.resp = fun b w => ((derived tq).unmarshal b, w) := by
    funext b w
    rw [h4, (dq.onMachine eq i4).1, C116_reads hm tq nq]
  have r5 : c'.respHandles = fun b w => ((derived tr).unmarshal b, w) := by
    funext b w
    rw [h5, (dr.onMachine er i5).1, C116_reads hm tr nr]
  have key : ∀ {α : Type} {p : Own.Part α} {q : Meaning α} (_ : Lawful p q) (x : α) (_ : q.sound x),
      Modest (ω := ω) m fun b w => (p.marshal x b, w) := by
    intro α p q l x hx b w n hbl hn
    by_cases hle : (q.bytes x).length ≤ b.length
    · have e := l.writes x b hx hle
      simp only [e, Res.ok.injEq] at hn
      omega
    · exact absurd hn (l.refuses x b n hx (by omega))
  rw [runOwnOn_afterwards, runOwn_afterwards,
    build_handOver_congr hm c' (commandOf code (derived th) h (derived tp) v (derived tq) (derived tr))
      a ha h1
      (fun b w hl => by rw [h2 b w (by omega), dh.writes_same hm eh nh lh gh i2 b (by omega)]; rfl)
      (fun b w hl => by rw [h3 b w (by omega), dp.writes_same hm ep np lp gv i3 b (by omega)]; rfl)
      hcode (.inr ⟨key (q := meaning Mh th) (C112_derived th lh) h sh,
        key (q := meaning Mp tp) (C112_derived tp lp) v sv⟩) w]
  congr 1
  funext b w
  rw [readResponseOwnOn_eq hm]
  simp only [readResponseOwn, readBodyOwn, r4, r5, commandOf]

/-- **C121**: there is such a command on every machine. -/
theorem C121_made_on (hm : 32 ≤ m.bits) (hc : Made c code dh h dp v dq dr) (eh : dh.Says th)
    (ep : dp.Says tp) (eq : dq.Says tq) (er : dr.Says tr) (nh : th.Counts) (np : tp.Counts) (nq : tq.Counts)
    (nr : tr.Counts) (lh : th.Own fun p => Lawful p (Mh p)) (lp : tp.Own fun p => Lawful p (Mp p))
    (sh : Sound Mh th h) (sv : Sound Mp tp v) (gh : Held (fun p x => (Mh p).sound x) th h)
    (gv : Held (fun p x => (Mp p).sound x) tp v) : MadeOn m c code dh h dp v dq dr := by
  have e := made_eq hc eh ep eq er (dh.formed eh h sh) (dp.formed ep v sv)
  subst e
  obtain ⟨k2, i2⟩ := dh.everywhere m
  obtain ⟨k3, i3⟩ := dp.everywhere m
  obtain ⟨k4, i4⟩ := dq.everywhere m
  obtain ⟨k5, i5⟩ := dr.everywhere m
  refine ⟨rfl, ⟨k2, i2, fun b w hl => ?_⟩, ⟨k3, i3, fun b w hl => ?_⟩, ⟨k4, i4, fun b w => ?_⟩,
    ⟨k5, i5, fun b w => ?_⟩⟩
  · rw [dh.writes_same hm eh nh lh gh i2 b hl]; rfl
  · rw [dp.writes_same hm ep np lp gv i3 b hl]; rfl
  · rw [(dq.onMachine eq i4).1, C116_reads hm tq nq]; rfl
  · rw [(dr.onMachine er i5).1, C116_reads hm tr nr]; rfl

/-! ### A case -/

/-- The declaration `struct Wide` of C120 in a program. -/
theorem wideDeclared : ∃ d : Declared Nat, d.Says wideTy := by
  obtain ⟨items, c, h, hc⟩ := (Own.Derive.C119_compiles Own.Derive.Wide.wideCtx 0 Own.Derive.Wide.wideInput
    Own.Derive.Wide.wideDistinct.1 Own.Derive.Wide.wideDistinct.2).2
    ⟨Own.Derive.Wide.wideUsable.1, Own.Derive.Wide.wideUsable.2, _, Own.Derive.Wide.wideMeans⟩
  exact ⟨⟨Own.Derive.Wide.wideCtx, 0, Own.Derive.Wide.wideInput, items, c, Own.Derive.Wide.wideDistinct.1,
    Own.Derive.Wide.wideDistinct.2, h, hc⟩, Own.Derive.Wide.wideMeans⟩

/-- A handle `One(2)`, the structure as parameters and as response, and no response handles: the same
answer on every machine. -/
example : ∃ (d0 d1 dx : Declared Nat), ∀ m : Machine, 32 ≤ m.bits →
    (∃ c : OwnCommand Nat (Own.Val Nat) (Own.Val Nat),
      MadeOn m c 0x2000_0001 d1 (.struct [.own 2]) dx exVal dx d0) ∧
    ∀ c : OwnCommand Nat (Own.Val Nat) (Own.Val Nat),
      MadeOn m c 0x2000_0001 d1 (.struct [.own 2]) dx exVal dx d0 →
      runOwnOn m (answering [0x80, 1, 0, 0, 0, 16, 0, 0, 0, 0, 2, 1, 0, 2, 0x12, 0x34] (by decide)) c free0 7 =
      ⟨.ok (.struct [.own 2, .arr [.own 1, .own 0, .own 3], .enum 2 [.std (.int 0x1234)]], .struct []), 7⟩ := by
  obtain ⟨d0, e0⟩ := smallDeclared [] .nil .nil
  obtain ⟨d1, e1⟩ := smallDeclared [.path (.ident "Small")] (.plain (.own small) .nil) (.cons rfl .nil)
  obtain ⟨dx, ex⟩ := wideDeclared
  have s1 : Sound (fun _ => smallMeaning) (.struct (.plain (.own small) .nil)) (.struct [.own 2]) :=
    ⟨show 2 < 4 by decide, trivial⟩
  have g1 : Held (fun _ x => smallMeaning.sound x) (.struct (.plain (.own small) .nil)) (.struct [.own 2]) :=
    ⟨show 2 < 4 by decide, trivial⟩
  have s0 : Sound (fun _ => smallMeaning) (.struct .nil) (.struct [] : Own.Val Nat) := trivial
  have l0 : (Own.Ty.struct .nil : Own.Ty Nat).Own fun p => Lawful p smallMeaning := trivial
  have l1 : (Own.Ty.struct (.plain (.own small) .nil)).Own fun p => Lawful p smallMeaning :=
    ⟨small_lawful, trivial⟩
  have n0 : (Own.Ty.struct .nil : Own.Ty Nat).Counts := trivial
  have n1 : (Own.Ty.struct (.plain (.own small) .nil)).Counts := ⟨trivial, trivial⟩
  obtain ⟨c, hc⟩ := C121_made (ω := Nat) 0x2000_0001 dx d0 e1 ex s1 wide_sound
  have hs : Composes c free0 7 [0x80, 1, 0, 0, 0, 17, 0x20, 0, 0, 1, 2, 2, 1, 0, 2, 0x12, 0x34] 7 :=
    (C121_sent hc e1 ex l1 wideTy_own s1 wide_sound free0 7 7 _).2
      ⟨true, none, 7, rfl, .nothing rfl, (fun _ h => nomatch h), by decide, by decide⟩
  refine ⟨d0, d1, dx, fun m hm => ⟨⟨c, C121_made_on hm hc e1 ex ex e0 n1 wideTy_counts wideTy_counts n0 l1
    wideTy_own s1 wide_sound g1 wide_held⟩, fun c' hc' => ?_⟩⟩
  rw [C121_machines hm hc hc' e1 ex ex e0 n1 wideTy_counts wideTy_counts n0 l1 wideTy_own s1 wide_sound g1
    wide_held (by decide) _ free0 free0_typed 7]
  refine C121_result hc e1 ex ex e0 s1 wide_sound wideTy_own l0 (by decide) _ free0
    free0_typed 7 7 7 7 7 _ (List.drop 16 (List.replicate 4096 0)) 16 0x8001 0 [] ⟨none, none, none⟩
    exVal (.struct []) hs ?_ (by decide) (by decide) wide_sound s0 rfl (fun _ h => nomatch h) (.nil _)
  simp only [answering, List.length_replicate, if_true]
  rfl

end Verif.Client
