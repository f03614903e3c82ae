import Verif.Client.Endings

/-
Property theorems C115: every way in which a command with types, areas, sessions and connections of
the caller's own can end.
-/

namespace Verif.Client
open Verif Verif.Base Verif.Errors

set_option maxRecDepth 8000

variable {ω ε P H : Type}

/-- **C115**: a run ends with an error that is not the connection's, or a panic, in a state, exactly if
composing the command stops so, or it is composed and handed over, and either the connection panics or
it reports a response and reading what is then in the buffer stops so. -/
theorem C115_ends (tr : LiveTransport ω ε) (c : OwnCommand ω P H) (a : FreeArea ω) (w w' : ω) (h : Ending)
    (hcode : c.code < 2 ^ 32) (ha : a.Typed) :
    runOwn tr c a w = ⟨h.res, w'⟩ ↔
      BuildStops c a w h w' ∨
      ∃ cmd w1, Composes c a w cmd w1 ∧
        ((∃ buf, tr.transact w1 cmd (List.replicate 4096 0) = (none, buf, w') ∧ h = none) ∨
         ∃ n buf w2, tr.transact w1 cmd (List.replicate 4096 0) = (some (.reported n), buf, w2) ∧
          ReadStops c a w2 buf h w') := by
  have hres : ∀ (h h' : Ending), (h.res : Res (CErr ε) (P × H)) = h'.res → h = h' := by
    intro h h' e
    cases h <;> cases h' <;> simp_all [Ending.res]
  have hc : ∀ cmd w1, handOver (buildOwn c a w) = (.ok cmd, w1) ↔ Composes c a w cmd w1 := by
    intro cmd w1
    rw [← buildOwn_iff c a w w1 cmd hcode ha]
    generalize buildOwn c a w = o
    rcases o with ⟨⟨n | e | _, b⟩, w2⟩
    · simp only [handOver, Prod.mk.injEq, Res.ok.injEq]
      rcases hs : sliceTo b n with _ | x
      · simp only [reduceCtorEq, false_and, false_iff, not_exists, not_and]
        rintro _ _ ⟨⟨rfl, rfl⟩, rfl⟩ e
        rw [hs] at e
        cases e
      · simp only [Res.ok.injEq]
        constructor
        · rintro ⟨rfl, rfl⟩; exact ⟨n, b, ⟨⟨rfl, rfl⟩, rfl⟩, hs⟩
        · rintro ⟨_, _, ⟨⟨rfl, rfl⟩, rfl⟩, e⟩
          rw [hs] at e
          cases e
          exact ⟨rfl, rfl⟩
    · simp [handOver]
    · simp [handOver]
  rw [runOwn_afterwards]
  rcases hb : handOver (buildOwn c a w) with ⟨r, w1⟩
  rcases res_cases r with ⟨cmd, rfl⟩ | ⟨h1, rfl⟩
  · have hcmp := (hc cmd w1).1 hb
    have hone : ∀ cmd' w2, Composes c a w cmd' w2 → cmd' = cmd ∧ w2 = w1 := by
      intro cmd' w2 hx
      have := (hc cmd' w2).2 hx
      rw [hb] at this
      simp only [Prod.mk.injEq, Res.ok.injEq] at this
      exact ⟨this.1.symm, this.2.symm⟩
    have hno : ¬ BuildStops c a w h w' := by
      intro hx
      have := (build_stops c a ha hcode w h w').2 hx
      rw [hb] at this
      simp only [Prod.mk.injEq] at this
      exact tss_ne h _ this.1.symm
    have hk := tr.keeps_length w1 cmd (List.replicate respBufferSize 0)
    unfold afterwards
    dsimp only
    rcases ht : tr.transact w1 cmd (List.replicate respBufferSize 0) with ⟨_ | n | e, buf, w2⟩ <;>
      rw [ht] at hk
    · dsimp only
      constructor
      · intro e
        simp only [Run.mk.injEq] at e
        obtain ⟨e, rfl⟩ := e
        have : h = none := (hres none h e).symm
        subst this
        exact .inr ⟨cmd, w1, hcmp, .inl ⟨buf, ht, rfl⟩⟩
      · rintro (hx | ⟨cmd', w3, hx, hy⟩)
        · exact absurd hx hno
        · obtain ⟨rfl, rfl⟩ := hone _ _ hx
          rcases hy with ⟨buf', hy, rfl⟩ | ⟨n, buf', w4, hy, -⟩
          · have := ht.symm.trans hy
            simp only [Prod.mk.injEq, true_and] at this
            rw [this.2]
            rfl
          · have := ht.symm.trans hy
            simp at this
    · have hl : buf.length = 4096 := by
        have := hk
        rw [List.length_replicate] at this
        exact this
      dsimp only
      have hrd : (⟨(readResponseOwn c a buf w2).1.mapErr .tss, (readResponseOwn c a buf w2).2⟩ : Run ω ε (P × H)) =
          ⟨h.res, w'⟩ ↔ ReadStops c a w2 buf h w' := by
        rw [← read_stops c a buf hl w2 w' h]
        rcases readResponseOwn c a buf w2 with ⟨x | e | _, w3⟩ <;> rcases h with _ | e' <;>
          simp [Res.mapErr, Ending.res, Ending.tss]
      rw [hrd]
      constructor
      · exact fun e => .inr ⟨cmd, w1, hcmp, .inr ⟨n, buf, w2, ht, e⟩⟩
      · rintro (hx | ⟨cmd', w3, hx, hy⟩)
        · exact absurd hx hno
        · obtain ⟨rfl, rfl⟩ := hone _ _ hx
          rcases hy with ⟨buf', hy, rfl⟩ | ⟨n, buf', w4, hy, hz⟩
          · have := ht.symm.trans hy
            simp at this
          · have := ht.symm.trans hy
            simp only [Prod.mk.injEq] at this
            obtain ⟨-, rfl, rfl⟩ := this
            exact hz
    · dsimp only
      constructor
      · intro e
        simp only [Run.mk.injEq] at e
        rcases h with _ | _ <;> simp [Ending.res] at e
      · rintro (hx | ⟨cmd', w3, hx, hy⟩)
        · exact absurd hx hno
        · obtain ⟨rfl, rfl⟩ := hone _ _ hx
          rcases hy with ⟨buf', hy, rfl⟩ | ⟨n, buf', w4, hy, hz⟩
          · have := ht.symm.trans hy
            simp at this
          · have := ht.symm.trans hy
            simp at this
  · have hst := (build_stops c a ha hcode w h1 w1).1 hb
    have he : (afterwards tr (readResponseOwn c a) (h1.tss, w1) : Run ω ε (P × H)) = ⟨h1.res, w1⟩ := by
      rcases h1 with _ | _ <;> rfl
    rw [he]
    constructor
    · intro e
      simp only [Run.mk.injEq] at e
      obtain ⟨e, rfl⟩ := e
      rw [← hres _ _ e]
      exact .inl hst
    · rintro (hx | ⟨cmd', w3, hx, -⟩)
      · have := (build_stops c a ha hcode w h w').2 hx
        rw [hb] at this
        simp only [Prod.mk.injEq] at this
        rw [tss_inj this.1, this.2]
      · have := (hc _ _).2 hx
        rw [hb] at this
        simp only [Prod.mk.injEq] at this
        exact absurd this.1 (tss_ne h1 _)

/-- **C115**: every run succeeds, ends with the error of the connection, or ends in one of these ways. -/
theorem C115_all (tr : LiveTransport ω ε) (c : OwnCommand ω P H) (a : FreeArea ω) (w : ω)
    (hcode : c.code < 2 ^ 32) (ha : a.Typed) :
    (∃ cmd w1, Composes c a w cmd w1 ∧
      ((∃ n buf w2 p h w', tr.transact w1 cmd (List.replicate 4096 0) = (some (.reported n), buf, w2) ∧
          Decomposes c a w2 buf p h w' ∧ runOwn tr c a w = ⟨.ok (p, h), w'⟩) ∨
       (∃ e buf w', tr.transact w1 cmd (List.replicate 4096 0) = (some (.failed e), buf, w') ∧
          runOwn tr c a w = ⟨.err (.conn e), w'⟩) ∨
       (∃ buf w', tr.transact w1 cmd (List.replicate 4096 0) = (none, buf, w') ∧
          runOwn tr c a w = ⟨.panic, w'⟩) ∨
       (∃ n buf w2 h w', tr.transact w1 cmd (List.replicate 4096 0) = (some (.reported n), buf, w2) ∧
          ReadStops c a w2 buf h w' ∧ runOwn tr c a w = ⟨h.res, w'⟩))) ∨
    ∃ h w', BuildStops c a w h w' ∧ runOwn tr c a w = ⟨h.res, w'⟩ := by
  have key : ∀ (h : Ending) w', runOwn tr c a w = ⟨h.res, w'⟩ → _ := fun h w' e =>
    (C115_ends tr c a w w' h hcode ha).1 e
  rcases hr : runOwn tr c a w with ⟨⟨p, y⟩ | e | _, w'⟩
  · obtain ⟨cmd, w1, n, buf, w2, h1, h2, h3⟩ := (C93_success_iff tr c a w w' hcode ha p y).1 hr
    exact .inl ⟨cmd, w1, h1, .inl ⟨n, buf, w2, p, y, w', h2, h3, rfl⟩⟩
  · rcases e with e | ⟨⟨e⟩⟩
    · obtain ⟨cmd, w1, buf, h1, h2⟩ := (C93_sent_iff tr c a w w' hcode ha e).1 hr
      exact .inl ⟨cmd, w1, h1, .inr (.inl ⟨e, buf, w', h2, rfl⟩)⟩
    · rcases key (some e) w' hr with h1 | ⟨cmd, w1, h1, ⟨buf, h2, h3⟩ | ⟨n, buf, w2, h2, h3⟩⟩
      · exact .inr ⟨_, _, h1, rfl⟩
      · cases h3
      · exact .inl ⟨cmd, w1, h1, .inr (.inr (.inr ⟨n, buf, w2, _, _, h2, h3, rfl⟩))⟩
  · rcases key none w' hr with h1 | ⟨cmd, w1, h1, ⟨buf, h2, -⟩ | ⟨n, buf, w2, h2, h3⟩⟩
    · exact .inr ⟨_, _, h1, rfl⟩
    · exact .inl ⟨cmd, w1, h1, .inr (.inr (.inl ⟨buf, w', h2, rfl⟩))⟩
    · exact .inl ⟨cmd, w1, h1, .inr (.inr (.inr ⟨n, buf, w2, _, _, h2, h3, rfl⟩))⟩

/-- **C115**: the ways exclude each other: where composing stops, nothing is sent whatever the connection
is, and there is one end. -/
theorem C115_unsent (c : OwnCommand ω P H) (a : FreeArea ω) (w w' : ω) (h : Ending)
    (hcode : c.code < 2 ^ 32) (ha : a.Typed) (hb : BuildStops c a w h w') :
    (∀ (ε : Type) (tr : LiveTransport ω ε), runOwn tr c a w = ⟨h.res, w'⟩) ∧
    (∀ cmd w1, ¬ Composes c a w cmd w1) ∧
    (∀ h1 w1, BuildStops c a w h1 w1 → h1 = h ∧ w1 = w') := by
  refine ⟨fun ε tr => (C115_ends tr c a w w' h hcode ha).2 (.inl hb), ?_, ?_⟩
  · intro cmd w1 hc
    let tr : LiveTransport ω Unit := ⟨fun w _ b => (some (.failed ()), b, w), fun _ _ _ => rfl⟩
    have h1 := (C115_ends tr c a w w' h hcode ha).2 (.inl hb)
    have h2 := (C93_sent_iff tr c a w w1 hcode ha ()).2 ⟨cmd, w1, _, hc, rfl⟩
    rw [h1] at h2
    rcases h with _ | _ <;> simp [Ending.res] at h2
  · intro h1 w1 hb1
    have e1 := (build_stops c a ha hcode w h w').2 hb
    have e2 := (build_stops c a ha hcode w h1 w1).2 hb1
    rw [e1] at e2
    simp only [Prod.mk.injEq] at e2
    exact ⟨(tss_inj e2.1).symm, e2.2.symm⟩

/-- **C115**: the same for the response: one end, and no result. -/
theorem C115_unread (c : OwnCommand ω P H) (a : FreeArea ω) (buf : Bytes) (w w' : ω) (h : Ending)
    (hl : buf.length = 4096) (hb : ReadStops c a w buf h w') :
    (∀ p y w1, ¬ Decomposes c a w buf p y w1) ∧
    (∀ h1 w1, ReadStops c a w buf h1 w1 → h1 = h ∧ w1 = w') := by
  have e1 := (read_stops c a buf hl w w' h).2 hb
  constructor
  · intro p y w1 hd
    have e2 := (readOwn_ok_iff c a buf w w1 p y hl).2 hd
    rw [e1] at e2
    simp only [Prod.mk.injEq] at e2
    exact tss_ne h _ e2.1
  · intro h1 w1 hb1
    have e2 := (read_stops c a buf hl w w1 h1).2 hb1
    rw [e1] at e2
    simp only [Prod.mk.injEq] at e2
    exact ⟨(tss_inj e2.1).symm, e2.2.symm⟩

/-- **C115**: the same on machines of any width, with overflow checks, or without if no report comes
close to the largest number. -/
theorem C115_machines (m : Machine) (hm : 32 ≤ m.bits) (tr : LiveTransport ω ε) (c : OwnCommand ω P H)
    (a : FreeArea ω) (w w' : ω) (h : Ending) (hcode : c.code < 2 ^ 32) (ha : a.Typed)
    (hmod : m.checked = true ∨ (Modest m c.handles ∧ Modest m c.param)) :
    runOwnOn m tr c a w = ⟨h.res, w'⟩ ↔
      BuildStops c a w h w' ∨
      ∃ cmd w1, Composes c a w cmd w1 ∧
        ((∃ buf, tr.transact w1 cmd (List.replicate 4096 0) = (none, buf, w') ∧ h = none) ∨
         ∃ n buf w2, tr.transact w1 cmd (List.replicate 4096 0) = (some (.reported n), buf, w2) ∧
          ReadStops c a w2 buf h w') := by
  rw [C114_same_partial m hm tr c a ha hcode hmod w, C115_ends tr c a w w' h hcode ha]

/-! ### Cases -/

/-- Handles of 4084 bytes, so that two are left. -/
def greedy : OwnCommand Nat Unit Unit where
  code := 0x144
  handles b w := ((.ok 4084, b), w)
  param b w := ((.ok 0, b), w)
  resp b w := ((.ok (), b), w)
  respHandles b w := ((.ok (), b), w)
  handles_length := fun _ _ => rfl
  param_length := fun _ _ => rfl

theorem free1_rolling_typed : (free1 rolling).Typed := by
  intro w d w' h s hs
  simp only [free1, FreeArea.provided, Prod.mk.injEq, Option.some.injEq] at h
  rw [← h.1] at hs
  exact rolling_hasTy s hs

/-- There is no room for the size of the authorization area: the session is asked (the state counts it),
and the client panics. -/
example (tr : LiveTransport Nat ε) : runOwn tr greedy (free1 rolling) 7 = ⟨.panic, 8⟩ :=
  (C115_ends tr greedy (free1 rolling) 7 8 none (by decide) free1_rolling_typed).2
    (.inl (.area (n := 4084) (hs := List.replicate 4086 0) (empty := false) (w1 := 7) (w2 := 7) rfl rfl
      (by decide) (.crash (s := rolling) (ss := []) rfl rfl rfl (by decide) rfl)))

/-- Without sessions it is the error for a lack of memory. -/
example (tr : LiveTransport Nat ε) : runOwn tr greedy boasting 7 = ⟨.err (.tss ⟨0x904⟩), 7⟩ :=
  (C115_ends tr greedy boasting 7 7 (some 0x904) (by decide) (by
    intro w d w' h s hs
    simp only [boasting, Prod.mk.injEq, Option.some.injEq] at h
    rw [← h.1] at hs
    cases hs)).2
    (.inl (.area (n := 4084) (hs := List.replicate 4086 0) (empty := false) (w1 := 7) (w2 := 7) rfl rfl
      (by decide) (.noRoom rfl rfl rfl (by decide))))

/-- A response that declares four bytes: a panic, in the state the connection left. -/
example : runOwn (answering [0x80, 1, 0, 0, 0, 4, 0, 0, 0, 0] (by decide)) sloppy free0 7 = ⟨.panic, 7⟩ :=
  (C115_ends _ sloppy free0 7 7 none (by decide) free0_typed).2
    (.inr ⟨_, 7, sloppy_composes, .inr ⟨10, _, 7,
      by simp only [answering, List.length_replicate, if_true]; rfl,
      ReadStops.small (c := sloppy) (a := free0) (tag := 0x8001) (size := 4)
        (rest := List.drop 10 (List.replicate 4096 0)) (by decide) (by decide)⟩⟩)

/-- A response with a byte behind what is read of it. -/
example : runOwn (answering [0x80, 1, 0, 0, 0, 13, 0, 0, 0, 0, 5, 6, 7] (by decide)) sloppy free0 7 =
    ⟨.err (.tss ⟨0x2010⟩), 8⟩ :=
  (C115_ends _ sloppy free0 7 8 (some 0x2010) (by decide) free0_typed).2
    (.inr ⟨_, 7, sloppy_composes, .inr ⟨13, _, 7,
      by simp only [answering, List.length_replicate, if_true]; rfl,
      ReadStops.body (c := sloppy) (a := free0) (tag := 0x8001) (body := [5, 6, 7])
        (rest := List.drop 13 (List.replicate 4096 0)) (by decide)
        (BodyStops.surplus (n := 0) (b1 := [5, 6, 7]) (w1 := 7) (x := [5, 6]) (vs := []) (z := 7)
          (more := []) (w2 := 8) (d := ⟨none, none, none⟩) (w3 := 8) (by decide) rfl rfl rfl
          (fun _ h => nomatch h) (.nil _))⟩⟩)

end Verif.Client
