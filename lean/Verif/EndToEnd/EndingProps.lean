import Verif.EndToEnd.EndingLemmas
import Verif.EndToEnd.ProgramCases

/-
Property theorems C88: ending a session with the reference simulator, or stopping it.
-/

namespace Verif.EndToEnd
open Verif Verif.Errors Verif.Client Verif.Tcp

variable {σ τ α : Type} {os : Os σ} {d : Device τ} {obs : σ → World τ} {shut : σ → Port → Prop}

/-- C88: when the call that ends the session or stops the simulator returns, exactly the
code of the protocol has been sent on both ports, nothing is to be read on either, the
device has seen nothing else, and both streams are shut down.  Holds however the bytes
are cut into pieces and whenever the simulator runs.  `Quiet` is where C83 leaves any
program. -/
theorem C88_ends (hl : Link os d obs) (hs : Shuts os d obs shut) {x : Call} {code : Nat}
    (he : Ends x code) (c c' : Conn σ) (o : Out) (hc : (obs c.net).Quiet)
    (hr : real os x c = (.ok o, c')) : o = .done ∧ Ended d obs shut (obs c.net).dev code c' := by
  have key : ∀ {m : M σ Unit}, returns (fun _ => Out.done) (m c) = (.ok o, c') →
      o = .done ∧ m c = (.ok (), c') := by
    intro m h
    rcases hm : m c with ⟨e | u, c1⟩ <;> rw [hm] at h
    · simp [returns] at h
    · simp only [returns, Prod.mk.injEq, Except.ok.injEq] at h
      exact ⟨h.1.symm, by rw [h.2]⟩
  cases he with
  | session =>
    obtain ⟨h1, h2⟩ := key (m := sessionEnd os) hr
    rw [(ends_eq os).1] at h2
    exact ⟨h1, ending hl hs (.inl rfl) hc h2⟩
  | stop =>
    obtain ⟨h1, h2⟩ := key (m := stopSimulator os) hr
    rw [(ends_eq os).2] at h2
    exact ⟨h1, ending hl hs (.inr rfl) hc h2⟩

/-- C88: from then on the simulator can only do one thing: read the code on each port,
once, and close the connection.  It can always go on until it has done so, and when it
comes to rest it has. -/
theorem C88_settles {x : Call} {code : Nat} (he : Ends x code) (t : τ) (c : Conn σ)
    (h : Ended d obs shut t code c) (w : World τ) (hw : Later d (obs c.net) w) :
    World.Told d w t code ∧
    (∃ w', Later d w w' ∧ ∀ w'', ¬ Serve d w' w'') ∧
    ((∀ w', ¬ Serve d w w') → (∀ p, w.side p = ⟨[], [], true⟩) ∧ Gone d t code w.dev) := by
  have hc := he.code
  have ht := told_later hc h.1 hw
  have step : ∀ (p : Port) (w : World τ), World.Told d w t code → ∃ w', Later d w w' ∧
      World.Told d w' t code ∧ (w'.side p).closed = true ∧
      ∀ q, (w.side q).closed = true → (w'.side q).closed = true := by
    intro p w ht
    rcases hp : (w.side p).closed with _ | _
    · obtain ⟨w', h1, h2, h3⟩ := told_serve hc ht hp
      exact ⟨w', .step h1 (.refl _), told_later hc ht (.step h1 (.refl _)), h2, h3⟩
    · exact ⟨w, .refl w, ht, hp, fun _ h => h⟩
  refine ⟨ht, ?_, fun hrest => ?_⟩
  · obtain ⟨w1, l1, t1, k1, -⟩ := step .tpm w ht
    obtain ⟨w2, l2, t2, k2, k3⟩ := step .plat w1 t1
    refine ⟨w2, l1.trans l2, fun w'' hs => ?_⟩
    obtain ⟨p, _, _, _, _, hp, -⟩ := serve_cases hs
    cases p
    · rw [k3 .tpm k1] at hp
      simp at hp
    · rw [k2] at hp
      simp at hp
  · obtain ⟨left, h1, h2, h3⟩ := ht
    have hall : ∀ p, p ∈ left := by
      intro p
      apply Classical.byContradiction
      intro hp
      obtain ⟨w', hs, -⟩ := told_serve hc ⟨left, h1, h2, h3⟩ (p := p) (by rw [h3 p, if_neg hp])
      exact hrest w' hs
    refine ⟨fun p => by rw [h3 p, if_pos (hall p)], ?_⟩
    rcases two_ports h1 hall with e | e <;> rw [e] at h2
    · exact .inl h2
    · exact .inr h2

/-- C88: every later call leaves things as they are: no byte is accepted or delivered,
and the simulator is where it would be without the call.  The call fails, unless it only
sets the locality, or is a TPM command that fails before anything is sent; no TPM
command succeeds. -/
theorem C88_nothing_after (hs : Shuts os d obs shut) {x : Call} {code : Nat} (he : Ends x code)
    (t : τ) (c : Conn σ) (h : Ended d obs shut t code c) (y : Call) (r : Except IoErr Out)
    (c' : Conn σ) (hr : real os y c = (r, c')) :
    Ended d obs shut t code c' ∧ c'.log = c.log ∧ Later d (obs c.net) (obs c'.net) ∧
    ∀ o, r = .ok o → (∃ l, y = .locality l) ∨
      ∃ cmd a e, y = .command cmd a ∧ o = .result e ∧ ∀ v, e ≠ .ok v := by
  have lift : Inert d obs shut c c' → Ended d obs shut t code c' ∧ c'.log = c.log ∧
      Later d (obs c.net) (obs c'.net) := fun ⟨h1, h2, h3⟩ =>
    ⟨⟨told_later he.code h.1 h2, fun p => h3 p (h.2 p)⟩, h1, h2⟩
  cases y with
  | transact cmd rsp =>
    obtain ⟨e, c1, h1, h2⟩ := transact_dead hs cmd rsp h.2
    unfold real at hr
    dsimp only at hr
    rw [h1] at hr
    simp only [Prod.mk.injEq] at hr
    obtain ⟨rfl, rfl⟩ := hr
    exact ⟨(lift h2).1, (lift h2).2.1, (lift h2).2.2, fun o ho => by simp at ho⟩
  | command cmd a =>
    obtain ⟨h1, h2⟩ := command_dead (d := d) (obs := obs) hs cmd a h.2
    unfold real at hr
    simp only [Prod.mk.injEq] at hr
    obtain ⟨rfl, rfl⟩ := hr
    refine ⟨(lift h2).1, (lift h2).2.1, (lift h2).2.2, fun o ho => .inr ⟨cmd, a, ?_⟩⟩
    rcases hres : (runCommandWithHandles (tcpTransport os) cmd a c).result with v | e | _
    · exact (h1 v hres).elim
    · rw [hres] at ho
      cases e with
      | tss e =>
        simp only [outcome, Except.ok.injEq] at ho
        exact ⟨.err e, rfl, ho.symm, by simp⟩
      | conn e => simp [outcome] at ho
    · rw [hres] at ho
      simp only [outcome, Except.ok.injEq] at ho
      exact ⟨.panic, rfl, ho.symm, by simp⟩
  | locality l =>
    simp only [real, returns, setLocality, Prod.mk.injEq] at hr
    obtain ⟨rfl, rfl⟩ := hr
    exact ⟨h, rfl, .refl _, fun o _ => .inl ⟨l, rfl⟩⟩
  | op o =>
    obtain ⟨e, c1, h1, h2⟩ := op_dead hs o h.2
    rw [h1] at hr
    simp only [Prod.mk.injEq] at hr
    obtain ⟨rfl, rfl⟩ := hr
    exact ⟨(lift h2).1, (lift h2).2.1, (lift h2).2.2, fun o ho => by simp at ho⟩

/-- C88: the calls return if the operating system does not fail. -/
theorem C88_succeeds (hg : Gentle os shut) {x : Call} {code : Nat} (he : Ends x code) (c : Conn σ)
    (hc : ∀ p, ¬ shut c.net p) : ∃ c', real os x c = (.ok .done, c') := by
  cases he with
  | session =>
    obtain ⟨c', h⟩ := ending_gentle hg (b := word 20) hc
    exact ⟨c', by unfold real; dsimp only; rw [(ends_eq os).1, h]; rfl⟩
  | stop =>
    obtain ⟨c', h⟩ := ending_gentle hg (b := word 21) hc
    exact ⟨c', by unfold real; dsimp only; rw [(ends_eq os).2, h]; rfl⟩

/-! ### A concrete case -/

/-- The simulator that runs (`refOs`), with streams that can be shut down.  Not in the
repository. -/
def closingOs (d : Device τ) : Os (World τ × (Port → Bool)) where
  connect s _ _ := (.ok (), s)
  write s p b :=
    if s.2 p then (.error (.os 32), s)
    else (((refOs d).write s.1 p b).1, ((refOs d).write s.1 p b).2, s.2)
  write_le := by
    intro s p b n h
    split at h
    · simp at h
    · exact (refOs d).write_le s.1 p b n h
  read s p k :=
    if s.2 p then (.ok [], s)
    else (((refOs d).read s.1 p k).1, ((refOs d).read s.1 p k).2, s.2)
  read_le := by
    intro s p k b h
    split at h
    · simp only [Except.ok.injEq] at h
      rw [← h]
      simp
    · exact (refOs d).read_le s.1 p k b h
  shutdown s p := (.ok (), (s.1, fun q => q = p || s.2 q))
  sleep s := s

theorem closingOs_link (d : Device τ) : Link (closingOs d) d Prod.fst where
  write s p b n h := by
    unfold closingOs at h ⊢
    dsimp only at h ⊢
    split at h
    · simp at h
    · rename_i hp
      rw [if_neg hp]
      exact (refOs_willing d).write s.1 p b n h
  read s p k b hk h := by
    unfold closingOs at h ⊢
    dsimp only at h ⊢
    split at h
    · rename_i hp
      simp only [Except.ok.injEq] at h
      subst h
      rw [if_pos hp]
      exact ⟨s.1, .refl _, ⟨_, rfl⟩, by
        have : s.1.drop p 0 = s.1 := by
          unfold World.drop World.set
          congr
          funext q
          split
          · rename_i hq; subst hq; rfl
          · rfl
        show Later d (s.1.drop p 0) s.1
        rw [this]
        exact .refl _⟩
    · rename_i hp
      rw [if_neg hp]
      exact (refOs_willing d).read s.1 p k b hk h

theorem closingOs_shuts (d : Device τ) :
    Shuts (closingOs d) d Prod.fst fun s p => s.2 p = true where
  later s p := .refl _
  down s p _ := by simp [closingOs]
  stays s p q h := by simp [closingOs, h]
  write_stays s p b q h := by
    unfold closingOs
    dsimp only
    split <;> exact h
  refuses s p b h _ := by
    unfold closingOs
    dsimp only
    rw [if_pos h]
    exact ⟨⟨_, rfl⟩, .refl _⟩

theorem closingOs_gentle (d : Device τ) : Gentle (closingOs d) fun s p => s.2 p = true where
  accepts s p b h := by
    unfold closingOs
    dsimp only
    rw [if_neg h]
    rfl
  write_keeps s p b q h := by
    unfold closingOs
    dsimp only
    split <;> exact h
  shuts s p _ := rfl
  keeps s p q hq h := by
    simpa [closingOs, hq] using h

/-- C88, a case: a simulator is stopped whose device has seen a signal; when it has come
to rest the device has seen the code on both ports besides, and a further signal fails. -/
example : ∃ c1 c2 e,
    real (closingOs tape) (.op .stopSimulator)
      ⟨(World.start [.signal .cancelOn], fun _ => false), 0, []⟩ = (.ok .done, c1) ∧
    (∃ w, Later tape c1.net.1 w ∧ (∀ p, w.side p = ⟨[], [], true⟩) ∧
      (w.dev = [.signal .cancelOn, .firmwareSvn 21, .firmwareHash 21] ∨
       w.dev = [.signal .cancelOn, .firmwareHash 21, .firmwareSvn 21])) ∧
    real (closingOs tape) (.op (.platformSignal .cancelOff)) c1 = (.error e, c2) ∧
    c2.log = c1.log := by
  have hl := closingOs_link tape
  have hs := closingOs_shuts tape
  obtain ⟨c1, h1⟩ := C88_succeeds (closingOs_gentle tape) .stop
    ⟨(World.start [.signal .cancelOn], fun _ => false), 0, []⟩ (fun p => by simp)
  obtain ⟨-, h2⟩ := C88_ends hl hs .stop _ c1 _ (World.start_quiet _) h1
  obtain ⟨-, ⟨w, hw, hr⟩, -⟩ := C88_settles .stop _ c1 h2 c1.net.1 (.refl _)
  obtain ⟨-, -, h3⟩ := C88_settles .stop _ c1 h2 w hw
  rcases hx : real (closingOs tape) (.op (.platformSignal .cancelOff)) c1 with ⟨e | o, c2⟩
  · exact ⟨c1, c2, e, h1, ⟨w, hw, (h3 hr).1, (h3 hr).2⟩, hx,
      (C88_nothing_after hs .stop _ c1 h2 _ _ c2 hx).2.1⟩
  · rcases (C88_nothing_after hs .stop _ c1 h2 _ _ c2 hx).2.2.2 o rfl with ⟨l, h⟩ | ⟨_, _, _, h, _⟩
    · simp at h
    · simp at h

end Verif.EndToEnd
