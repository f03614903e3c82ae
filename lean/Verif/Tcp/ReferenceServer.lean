import Verif.Tcp.ReferenceLemmas

/-
A simulator that runs: an operating system for any device that satisfies the
specification of the reference simulator.  It serves requests as soon as they have
arrived and delivers one byte at a time.  For the examples and the counterexample of
C83.
-/

namespace Verif.Tcp
open Verif

variable {σ τ : Type} {d : Device τ}

/-- The simulator takes the next request of a port, if there is one.  Not in the repository. -/
def serveOne (d : Device τ) (w : World τ) (p : Port) : Option (World τ) :=
  if (w.side p).closed then none
  else
    match next p (w.side p).unread with
    | none => none
    | some (r, rest) =>
      some (w.set p ⟨rest, (w.side p).out ++ (d.answer w.dev r).1.getD [], (d.answer w.dev r).1.isNone⟩
        (d.answer w.dev r).2)

/-- The simulator takes up to `n` requests.  Not in the repository. -/
def settle (d : Device τ) : Nat → World τ → World τ
  | 0, w => w
  | n + 1, w =>
    match serveOne d w .tpm with
    | some w' => settle d n w'
    | none =>
      match serveOne d w .plat with
      | some w' => settle d n w'
      | none => w

/-- Bytes that have arrived and not been read.  Not in the repository. -/
def World.size (w : World τ) : Nat := (w.side .tpm).unread.length + (w.side .plat).unread.length

/-- The operating system with the simulator.  Not in the repository. -/
def refOs (d : Device τ) : Os (World τ) where
  connect w _ _ := (.ok (), w)
  write w p b := (.ok b.length, settle d (w.give p b).size (w.give p b))
  write_le := by
    intro s p b n h
    injection h with h
    omega
  read w p k :=
    (.ok (((settle d w.size w).side p).out.take (min k 1)),
      (settle d w.size w).drop p (((settle d w.size w).side p).out.take (min k 1)).length)
  read_le := by
    intro s p k b h
    injection h with h
    subst h
    rw [List.length_take]
    omega
  shutdown w _ := (.ok (), w)
  sleep w := w

/-! ### It satisfies the specification -/

theorem serveOne_serve {w w' : World τ} {p : Port} (h : serveOne d w p = some w') : Serve d w w' := by
  unfold serveOne at h
  split at h
  · simp at h
  · rename_i hc
    have hc : (w.side p).closed = false := by simpa using hc
    rcases hn : next p (w.side p).unread with _ | ⟨r, rest⟩ <;> rw [hn] at h
    · simp at h
    · simp only [Option.some.injEq] at h
      subst h
      rcases ha : d.answer w.dev r with ⟨_ | a, t⟩
      · have := Serve.close (d := d) w p r rest t hc hn ha
        simpa using this
      · exact Serve.answer (d := d) w p r rest a t hc hn ha

theorem serve_serveOne {w w' : World τ} (h : Serve d w w') : ∃ p, serveOne d w p ≠ none := by
  obtain ⟨p, r, rest, a, t, hc, hn, ha, -⟩ := serve_cases h
  exact ⟨p, by simp [serveOne, hc, hn]⟩

/-- A parser that leaves no more than there was. -/
def Shrinks {α : Type} (f : Bytes → Option (α × Bytes)) : Prop :=
  ∀ x a y, f x = some (a, y) → y.length ≤ x.length

theorem Shrinks.andThen {α β : Type} {f : Bytes → Option (α × Bytes)}
    {g : α → Bytes → Option (β × Bytes)} (hf : Shrinks f) (hg : ∀ a, Shrinks (g a)) :
    Shrinks fun x => Tcp.andThen (f x) g := by
  intro x a y h
  dsimp only at h
  rcases hx : f x with _ | ⟨a', y'⟩ <;> rw [hx] at h
  · simp [Tcp.andThen] at h
  · exact Nat.le_trans (hg a' y' a y h) (hf x a' y' hx)

theorem Shrinks.some {α : Type} (a : α) : Shrinks fun x => some (a, x) := by
  intro x a' y h
  simp only [Option.some.injEq, Prod.mk.injEq] at h
  rw [h.2]
  exact Nat.le_refl _

theorem Shrinks.ite {α : Type} {P : Prop} [Decidable P] {f g : Bytes → Option (α × Bytes)}
    (hf : Shrinks f) (hg : Shrinks g) : Shrinks fun x => if P then f x else g x := by
  intro x a y h
  dsimp only at h
  split at h
  · exact hf _ _ _ h
  · exact hg _ _ _ h

theorem nextBytes_shrinks (n : Nat) : Shrinks (nextBytes n) := by
  intro x b y h
  unfold nextBytes at h
  split at h
  · simp only [Option.some.injEq, Prod.mk.injEq] at h
    rw [← h.2, List.length_drop]; omega
  · simp at h

theorem nextWord_lt {x y : Bytes} {n : Nat} (h : nextWord x = some (n, y)) : y.length < x.length := by
  unfold nextWord at h
  split at h
  · simp only [Option.some.injEq, Prod.mk.injEq] at h
    rw [← h.2, List.length_drop]; omega
  · simp at h

theorem nextWord_shrinks : Shrinks nextWord := fun _ _ _ h => Nat.le_of_lt (nextWord_lt h)

theorem word_first {β : Type} {g : Nat → Bytes → Option (β × Bytes)} (hg : ∀ a, Shrinks (g a))
    {x y : Bytes} {r : β} (h : Tcp.andThen (nextWord x) g = some (r, y)) : y.length < x.length := by
  rcases hw : nextWord x with _ | ⟨code, z⟩ <;> rw [hw] at h
  · simp [Tcp.andThen] at h
  · exact Nat.lt_of_le_of_lt (hg code z r y h) (nextWord_lt hw)

/-- A request takes at least one byte. -/
theorem next_lt {p : Port} {x y : Bytes} {r : Req} (h : next p x = some (r, y)) :
    y.length < x.length := by
  have w := nextWord_shrinks
  have n := nextBytes_shrinks
  cases p
  · refine word_first (fun code => ?_) h
    apply Shrinks.ite (.some _)
    apply Shrinks.ite (w.andThen fun k => (n k).andThen fun _ => .some _)
    apply Shrinks.ite (.some _)
    apply Shrinks.ite ((n 1).andThen fun _ => w.andThen fun k => (n k).andThen fun _ => .some _)
    apply Shrinks.ite (w.andThen fun _ => .some _)
    exact Shrinks.ite (w.andThen fun _ => .some _) (.some _)
  · refine word_first (fun code => ?_) h
    apply Shrinks.ite (.some _)
    apply Shrinks.ite (w.andThen fun _ => .some _)
    apply Shrinks.ite (.some _)
    apply Shrinks.ite (w.andThen fun _ => .some _)
    apply Shrinks.ite (w.andThen fun _ => .some _)
    cases signalOf code <;> exact .some _

theorem serve_size {w w' : World τ} {p : Port} (h : serveOne d w p = some w') : w'.size < w.size := by
  unfold serveOne at h
  split at h
  · simp at h
  · rcases hn : next p (w.side p).unread with _ | ⟨r, rest⟩ <;> rw [hn] at h
    · simp at h
    · simp only [Option.some.injEq] at h
      subst h
      have := next_lt hn
      cases p <;> simp [World.size, set_side] <;> omega

theorem settle_later (n : Nat) : ∀ w : World τ, Later d w (settle d n w) := by
  induction n with
  | zero => intro w; exact .refl w
  | succ n ih =>
    intro w
    rw [settle]
    rcases h1 : serveOne d w .tpm with _ | w'
    · rcases h2 : serveOne d w .plat with _ | w'
      · exact .refl w
      · exact .step (serveOne_serve h2) (ih w')
    · exact .step (serveOne_serve h1) (ih w')

theorem settle_done (n : Nat) : ∀ w : World τ, w.size ≤ n → ∀ w', ¬ Serve d (settle d n w) w' := by
  induction n with
  | zero =>
    intro w hw w' hs
    obtain ⟨p, h⟩ := serve_serveOne hs
    rcases h1 : serveOne d (settle d 0 w) p with _ | w1
    · exact h h1
    · have := serve_size h1
      simp only [settle] at this
      omega
  | succ n ih =>
    intro w hw
    rw [settle]
    rcases h1 : serveOne d w .tpm with _ | w'
    · rcases h2 : serveOne d w .plat with _ | w'
      · intro w' hs
        obtain ⟨p, h⟩ := serve_serveOne hs
        cases p
        · exact h h1
        · exact h h2
      · exact ih w' (by have := serve_size h2; omega)
    · exact ih w' (by have := serve_size h1; omega)

/-- The simulator that runs satisfies the specification. -/
theorem refOs_willing (d : Device τ) : Willing (refOs d) d id where
  write s p b n h := by
    injection h with h
    subst h
    refine ⟨s, .refl s, ?_⟩
    rw [List.take_length]
    exact settle_later _ _
  read s p k b _ h := by
    injection h with h
    subst h
    exact ⟨settle d s.size s, settle_later _ _, ⟨_, (List.take_append_drop _ _).symm⟩, .refl _⟩
  accepts s p b := rfl
  delivers s p k hk := by
    refine ⟨_, rfl, fun hb => ⟨settle d s.size s, settle_later _ _, ?_, settle_done _ _ (Nat.le_refl _)⟩⟩
    rcases ho : ((settle d s.size s).side p).out with _ | ⟨x, y⟩
    · rfl
    · rw [ho] at hb
      have hk1 : min k 1 = 1 := by omega
      rw [hk1] at hb
      simp at hb

/-- Nothing under way, the device in state `t`. -/
def World.start (t : τ) : World τ := ⟨fun _ => ⟨[], [], false⟩, t⟩

theorem World.start_quiet (t : τ) : (World.start t).Quiet := fun _ => rfl

end Verif.Tcp
