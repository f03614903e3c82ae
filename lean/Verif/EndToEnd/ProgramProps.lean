import Verif.EndToEnd.ProgramCases

/-
Property theorems C83: a program that uses a connection to the reference simulator
observes the device itself.
-/

namespace Verif.EndToEnd
open Verif Verif.Errors Verif.Client Verif.Tcp

variable {σ τ α : Type} {os : Os σ} {d : Device τ} {obs : σ → World τ}

/-- C83, all but one thing: if a program runs to its end with a connection to the
reference simulator, it has the result it has with the device itself, the device is in
the same state, and nothing is left over on the connections.  Holds however the bytes
are cut into pieces and whenever the simulator runs, and also if some connections
fail, since then the program does not run to its end.  Missing: H-CRTM data of 4 GiB
or more (`C83_violated`). -/
theorem C83_observes_device_partial (hl : Link os d obs) (prog : Prog α) (ht : prog.Calls Call.Typed)
    (hs : prog.Calls Call.Short) (c c' : Conn σ) (a : α) (hc : (obs c.net).Quiet)
    (hlt : c.locality < 256) (hr : prog.play os c = (.ok a, c')) :
    prog.dream d c.locality (obs c.net).dev = some (a, c'.locality, (obs c'.net).dev) ∧
    (obs c'.net).Quiet := by
  induction prog generalizing c with
  | done b =>
    simp only [Prog.play, Prod.mk.injEq, Except.ok.injEq] at hr
    obtain ⟨rfl, rfl⟩ := hr
    exact ⟨rfl, hc⟩
  | call x k ih =>
    rw [Prog.play] at hr
    rcases hx : real os x c with ⟨e | o, c1⟩ <;> rw [hx] at hr
    · simp at hr
    · dsimp only at hr
      obtain ⟨l', t', h1, ⟨h2, rfl, rfl⟩, h3⟩ := call_sound hl ht.1 hs.1 hlt ⟨hc, rfl, rfl⟩ hx
      rw [Prog.dream, h1]
      exact ih o (ht.2 o) (hs.2 o) c1 h2 h3 hr

/-- C83, all but one thing: with an operating system that does not fail, a program that
runs to its end with the device itself does so with a connection.  Missing: H-CRTM data
of 4 GiB or more. -/
theorem C83_completes_partial (hl : Willing os d obs) (prog : Prog α) (ht : prog.Calls Call.Typed)
    (hs : prog.Calls Call.Short) (c : Conn σ) (a : α) (l : Nat) (t : τ) (hc : (obs c.net).Quiet)
    (hlt : c.locality < 256) (hr : prog.dream d c.locality (obs c.net).dev = some (a, l, t)) :
    ∃ c', prog.play os c = (.ok a, c') := by
  induction prog generalizing c with
  | done b =>
    simp only [Prog.dream, Option.some.injEq, Prod.mk.injEq] at hr
    obtain ⟨rfl, -, -⟩ := hr
    exact ⟨c, rfl⟩
  | call x k ih =>
    rw [Prog.dream] at hr
    rcases hx : ideal d x c.locality (obs c.net).dev with _ | ⟨o, l1, t1⟩ <;> rw [hx] at hr
    · simp at hr
    · dsimp only at hr
      obtain ⟨c1, h1⟩ := call_live hl ht.1 hs.1 hlt ⟨hc, rfl, rfl⟩ hx
      obtain ⟨l', t', h2, ⟨h3, rfl, rfl⟩, h4⟩ := call_sound hl.toLink ht.1 hs.1 hlt ⟨hc, rfl, rfl⟩ h1
      rw [hx] at h2
      simp only [Option.some.injEq, Prod.mk.injEq, true_and] at h2
      obtain ⟨rfl, rfl⟩ := h2
      rw [Prog.play, h1]
      exact ih o (ht.2 o) (hs.2 o) c1 h3 h4 hr

/-- The program has this result with the simulator, and leaves the device in this
state. -/
example : ∃ c', sample.play (refOs tape) ⟨World.start [], 0, []⟩ = (.ok 131, c') ∧
    c'.net.dev = [.alternative 3, .signal .cancelOn, .hashStart, .hashData [3, 9, 2, 1], .hashEnd] ∧
    c'.locality = 3 ∧ c'.net.Quiet := by
  obtain ⟨c', h⟩ := C83_completes_partial (refOs_willing tape) sample sample_typed sample_short
    ⟨World.start [], 0, []⟩ 131 3 _ (World.start_quiet []) (by decide) sample_dream
  obtain ⟨h1, h2⟩ := C83_observes_device_partial (refOs_willing tape).toLink sample sample_typed
    sample_short ⟨World.start [], 0, []⟩ c' 131 (World.start_quiet []) (by decide) h
  have h3 := sample_dream.symm.trans h1
  simp only [Option.some.injEq, Prod.mk.injEq, true_and] at h3
  exact ⟨c', h, h3.2.symm, h3.1.symm, h2⟩

/-- C83 fails for H-CRTM data of 4 GiB: the length field is truncated, the simulator
takes the data for another request, the call returns success although the device has
not hashed the data, and an answer is left over for the next call. -/
theorem C83_violated : ∃ (data : Bytes) (c' : Conn (World (List Plain))),
    real (refOs tape) (.op (.hcrtmSequence data)) ⟨World.start [], 0, []⟩ = (.ok .done, c') ∧
    ideal tape (.op (.hcrtmSequence data)) 0 [] =
      some (.done, 0, [.hashStart, .hashData data, .hashEnd]) ∧
    c'.net.dev ≠ [.hashStart, .hashData data, .hashEnd] ∧ .hashData data ∉ c'.net.dev ∧
    ¬ c'.net.Quiet := by
  obtain ⟨c', h1, h2⟩ := long_case longData_length next_longData
  have hne : ∀ x : Bytes, x.length < 2 ^ 32 → x ≠ longData := by
    intro x hx h
    rw [h, longData_length] at hx
    exact Nat.lt_irrefl _ hx
  have hnot : Plain.hashData longData ∉ [Plain.hashStart, .hashData [], .hashData zeros, .hashEnd] := by
    intro h
    simp only [List.mem_cons, Plain.hashData.injEq, List.not_mem_nil, or_false, reduceCtorEq, false_or] at h
    rcases h with h | h
    · exact hne [] (by decide) h.symm
    · exact hne zeros (by rw [zeros_length]; decide) h.symm
  refine ⟨longData, c', ?_, rfl, ?_, ?_, ?_⟩
  · unfold real
    dsimp only
    rw [h1]
    rfl
  · rw [h2]
    intro h
    have h := congrArg List.length h
    exact absurd h (by decide)
  · rw [h2]
    exact hnot
  · rw [h2]
    intro h
    have h := congrArg Side.out (h .tpm)
    exact absurd h (by decide)

end Verif.EndToEnd
