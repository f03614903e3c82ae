import Verif.Tcp.Reference
import Verif.Tcp.ResultProps

/-! Lemmas for C83: exchanges with the reference simulator. -/

namespace Verif.Tcp
open Verif

variable {σ τ : Type} {os : Os σ} {d : Device τ} {obs : σ → World τ}

/-! ### Requests -/

/-- A parser does not look beyond what it takes. -/
def Mono {α : Type} (f : Bytes → Option (α × Bytes)) : Prop :=
  ∀ x a y z, f x = some (a, y) → f (x ++ z) = some (a, y ++ z)

theorem Mono.andThen {α β : Type} {f : Bytes → Option (α × Bytes)}
    {g : α → Bytes → Option (β × Bytes)} (hf : Mono f) (hg : ∀ a, Mono (g a)) :
    Mono fun x => andThen (f x) g := by
  intro x a y z h
  dsimp only at h ⊢
  rcases hx : f x with _ | ⟨a', y'⟩
  · rw [hx] at h; simp [Tcp.andThen] at h
  · rw [hx] at h
    rw [hf x a' y' z hx]
    exact hg a' y' a y z h

theorem Mono.some {α : Type} (a : α) : Mono fun x => some (a, x) := by
  intro x a' y z h
  simp only [Option.some.injEq, Prod.mk.injEq] at h ⊢
  exact ⟨h.1, by rw [h.2]⟩

theorem Mono.ite {α : Type} {P : Prop} [Decidable P] {f g : Bytes → Option (α × Bytes)}
    (hf : Mono f) (hg : Mono g) : Mono fun x => if P then f x else g x := by
  intro x a y z h
  dsimp only at h ⊢
  split at h
  · rw [if_pos ‹_›]; exact hf _ _ _ _ h
  · rw [if_neg ‹_›]; exact hg _ _ _ _ h

theorem nextBytes_mono (n : Nat) : Mono (nextBytes n) := by
  intro x b y z h
  unfold nextBytes at h ⊢
  split at h
  · rename_i hl
    simp only [Option.some.injEq, Prod.mk.injEq] at h
    obtain ⟨rfl, rfl⟩ := h
    rw [if_pos (by rw [List.length_append]; omega), List.take_append_of_le_length hl,
      List.drop_append_of_le_length hl]
  · simp at h

theorem nextWord_mono : Mono nextWord := by
  intro x n y z h
  unfold nextWord at h ⊢
  split at h
  · rename_i hl
    simp only [Option.some.injEq, Prod.mk.injEq] at h
    obtain ⟨rfl, rfl⟩ := h
    rw [if_pos (by rw [List.length_append]; omega), List.take_append_of_le_length hl,
      List.drop_append_of_le_length hl]
  · simp at h

theorem next_mono (p : Port) : Mono (next p) := by
  have w := nextWord_mono
  have n := nextBytes_mono
  cases p
  · refine w.andThen fun code => ?_
    apply Mono.ite (.some _)
    apply Mono.ite (w.andThen fun k => (n k).andThen fun _ => .some _)
    apply Mono.ite (.some _)
    apply Mono.ite ((n 1).andThen fun _ => w.andThen fun k => (n k).andThen fun _ => .some _)
    apply Mono.ite (w.andThen fun _ => .some _)
    exact Mono.ite (w.andThen fun _ => .some _) (.some _)
  · refine w.andThen fun code => ?_
    apply Mono.ite (.some _)
    apply Mono.ite (w.andThen fun _ => .some _)
    apply Mono.ite (.some _)
    apply Mono.ite (w.andThen fun _ => .some _)
    apply Mono.ite (w.andThen fun _ => .some _)
    cases signalOf code <;> exact .some _

/-- No request is the beginning of another one. -/
theorem next_prefix {p : Port} {x z : Bytes} {r : Req} (h : next p (x ++ z) = some (r, []))
    (hz : z ≠ []) : next p x = none := by
  rcases hx : next p x with _ | ⟨r', y⟩
  · rfl
  · rw [next_mono p _ _ _ z hx] at h
    simp at h
    exact absurd h.2.2 hz

theorem next_nil (p : Port) : next p [] = none := by cases p <;> rfl

theorem answer_ne_nil {t t' : τ} {r : Req} (h : d.answer t r = (some [], t')) : False := by
  have h := congrArg Prod.fst h
  cases r with
  | handshake v =>
    simp only [Device.answer, Option.map_eq_some_iff] at h
    obtain ⟨xy, -, h⟩ := h
    simp [ackBytes] at h
  | _ => simp [Device.answer, ackBytes, reply] at h

/-! ### Worlds -/

theorem set_side (w : World τ) (p q : Port) (x : Side) (t : τ) :
    (w.set p x t).side q = if q = p then x else w.side q := rfl

/-- The other connection is at rest. -/
def World.Rest (w : World τ) (p : Port) : Prop := ∀ q, q ≠ p → w.side q = ⟨[], [], false⟩

theorem Rest.set {w : World τ} {p : Port} (h : w.Rest p) (x : Side) (t : τ) : (w.set p x t).Rest p := by
  intro q hq
  rw [set_side, if_neg hq]
  exact h q hq

/-- A part of a request has been sent. -/
def World.Partial (w : World τ) (p : Port) (x : Bytes) (t : τ) : Prop :=
  w.Rest p ∧ w.side p = ⟨x, [], false⟩ ∧ w.dev = t ∧ next p x = none

/-- After a request the simulator still has to deliver `a` (`none`: it closes the
connection), and the device will be in state `t`. -/
def World.Owes (d : Device τ) (w : World τ) (p : Port) (a : Option Bytes) (t : τ) : Prop :=
  w.Rest p ∧
  ((∃ b, a = some b ∧ w.side p = ⟨[], b, false⟩ ∧ w.dev = t) ∨
   (a = none ∧ (∃ u, w.side p = ⟨u, [], true⟩) ∧ w.dev = t) ∨
   (∃ u r, w.side p = ⟨u, [], false⟩ ∧ next p u = some (r, []) ∧ d.answer w.dev r = (a, t)))

theorem serve_cases {w w' : World τ} (h : Serve d w w') : ∃ p r rest a t,
    (w.side p).closed = false ∧ next p (w.side p).unread = some (r, rest) ∧
    d.answer w.dev r = (a, t) ∧ w' = w.set p ⟨rest, (w.side p).out ++ a.getD [], a.isNone⟩ t := by
  cases h with
  | answer p r rest a t hc hn ha => exact ⟨p, r, rest, _, t, hc, hn, ha, rfl⟩
  | close p r rest t hc hn ha => exact ⟨p, r, rest, _, t, hc, hn, ha, by simp⟩

theorem World.Partial.serve {w w' : World τ} {p : Port} {x : Bytes} {t : τ} (h : w.Partial p x t)
    (hs : Serve d w w') : False := by
  obtain ⟨q, r, rest, a, t', h1, h2, h3, -⟩ := serve_cases hs
  obtain ⟨g1, g2, -, g4⟩ := h
  by_cases hq : q = p
  · subst hq; rw [g2, g4] at h2; simp at h2
  · rw [g1 q hq, next_nil] at h2; simp at h2

theorem World.Partial.later {w w' : World τ} {p : Port} {x : Bytes} {t : τ} (h : w.Partial p x t)
    (hs : Later d w w') : w' = w := by
  cases hs with
  | refl => rfl
  | step h1 _ => exact (h.serve h1).elim

theorem World.Owes.serve {w w' : World τ} {p : Port} {a : Option Bytes} {t : τ} (h : w.Owes d p a t)
    (hs : Serve d w w') : w'.Owes d p a t := by
  obtain ⟨q, r, rest, a', t', h1, h2, h3, rfl⟩ := serve_cases hs
  obtain ⟨g1, g⟩ := h
  have hq : q = p := by
    apply Classical.byContradiction
    intro hq
    rw [g1 q hq, next_nil] at h2; simp at h2
  subst hq
  refine ⟨Rest.set g1 _ _, ?_⟩
  simp only [set_side, if_true]
  rcases g with ⟨b, rfl, g2, g3⟩ | ⟨rfl, ⟨u, g2⟩, g3⟩ | ⟨u, r', g2, g3, g4⟩
  · rw [g2, next_nil] at h2; simp at h2
  · rw [g2] at h1; simp at h1
  · rw [g2, g3] at h2
    simp only [Option.some.injEq, Prod.mk.injEq] at h2
    obtain ⟨rfl, rfl⟩ := h2
    rw [g4] at h3
    simp only [Prod.mk.injEq] at h3
    obtain ⟨rfl, rfl⟩ := h3
    rw [g2]
    cases a with
    | none => exact .inr (.inl ⟨rfl, ⟨_, rfl⟩, rfl⟩)
    | some b => exact .inl ⟨b, rfl, rfl, rfl⟩

theorem World.Owes.later {w w' : World τ} {p : Port} {a : Option Bytes} {t : τ} (h : w.Owes d p a t)
    (hs : Later d w w') : w'.Owes d p a t := by
  induction hs with
  | refl => exact h
  | step h1 _ ih => exact ih (h.serve h1)

theorem World.Owes.drop {w : World τ} {p : Port} {a : Option Bytes} {t : τ} (h : w.Owes d p a t)
    {b rest : Bytes} (hb : (w.side p).out = b ++ rest) :
    ∃ a', a = a'.map (b ++ ·) ∧ (a = none → b = []) ∧ (w.drop p b.length).Owes d p a' t := by
  obtain ⟨g1, g⟩ := h
  have g1' := Rest.set g1 { w.side p with out := (w.side p).out.drop b.length } w.dev
  rcases g with ⟨x, rfl, g2, g3⟩ | ⟨rfl, ⟨u, g2⟩, g3⟩ | ⟨u, r', g2, g3, g4⟩
  · rw [g2] at hb
    dsimp only at hb
    subst hb
    refine ⟨some rest, rfl, by simp, g1', .inl ⟨rest, rfl, ?_, g3⟩⟩
    simp [World.drop, set_side, g2]
  · rw [g2] at hb
    have hb : b = [] := by simpa using (List.append_eq_nil_iff.1 hb.symm).1
    subst hb
    refine ⟨none, rfl, fun _ => rfl, g1', .inr (.inl ⟨rfl, ⟨u, ?_⟩, g3⟩)⟩
    simp [World.drop, set_side, g2]
  · rw [g2] at hb
    have hb : b = [] := by simpa using (List.append_eq_nil_iff.1 hb.symm).1
    subst hb
    refine ⟨a, by cases a <;> simp, fun _ => rfl, g1', .inr (.inr ⟨u, r', ?_, g3, g4⟩)⟩
    simp [World.drop, set_side, g2]

theorem World.Owes.quiet {w : World τ} {p : Port} {t : τ} (h : w.Owes d p (some []) t) :
    w.Quiet ∧ w.dev = t := by
  obtain ⟨g1, ⟨b, hb, g2, g3⟩ | ⟨hb, -⟩ | ⟨u, r', g2, g3, g4⟩⟩ := h
  · simp only [Option.some.injEq] at hb
    subst hb
    refine ⟨fun q => ?_, g3⟩
    by_cases hq : q = p
    · subst hq; exact g2
    · exact g1 q hq
  · simp at hb
  · exact (answer_ne_nil g4).elim

theorem Quiet.partial {w : World τ} (h : w.Quiet) (p : Port) : w.Partial p [] w.dev :=
  ⟨fun q _ => h q, h p, rfl, next_nil p⟩

/-! ### Sending -/

theorem World.Partial.give {w : World τ} {p : Port} {x b : Bytes} {t : τ} {r : Req} (h : w.Partial p x t)
    (hn : next p (x ++ b) = some (r, [])) :
    (w.give p b).Owes d p (d.answer t r).1 (d.answer t r).2 := by
  obtain ⟨g1, g2, g3, g4⟩ := h
  refine ⟨Rest.set g1 _ _, .inr (.inr ⟨x ++ b, r, ?_, hn, ?_⟩)⟩
  · simp [World.give, set_side, g2]
  · show d.answer w.dev r = _
    rw [g3]

theorem World.Partial.more {w : World τ} {p : Port} {x b : Bytes} {t : τ} (h : w.Partial p x t)
    (hn : next p (x ++ b) = none) : (w.give p b).Partial p (x ++ b) t := by
  obtain ⟨g1, g2, g3, g4⟩ := h
  refine ⟨Rest.set g1 _ _, ?_, g3, hn⟩
  simp [World.give, set_side, g2]

/-- One write, accepted whole. -/
theorem write_whole (hl : Link os d obs) {p : Port} {x b : Bytes} {t : τ} {r : Req} {c c' : Conn σ}
    (h : (obs c.net).Partial p x t) (hn : next p (x ++ b) = some (r, []))
    (hw : write os p b c = (.ok b.length, c')) :
    (obs c'.net).Owes d p (d.answer t r).1 (d.answer t r).2 ∧ c'.locality = c.locality := by
  unfold write at hw
  rcases ho : os.write c.net p b with ⟨e | n, s'⟩ <;> rw [ho] at hw
  · simp at hw
  · simp only [Prod.mk.injEq, Except.ok.injEq] at hw
    obtain ⟨rfl, rfl⟩ := hw
    obtain ⟨w, h1, h2⟩ := hl.write c.net p b b.length (by rw [ho])
    rw [h.later h1, List.take_length, ho] at h2
    exact ⟨(h.give hn).later h2, rfl⟩

theorem writeVectored_ok (hl : Link os d obs) {p : Port} {m : Bytes} {r : Req} {c c' : Conn σ}
    {u : Unit} (h : (obs c.net).Quiet) (hn : next p m = some (r, []))
    (hw : writeVectored os p m c = (.ok u, c')) :
    (obs c'.net).Owes d p (d.answer (obs c.net).dev r).1 (d.answer (obs c.net).dev r).2 ∧
      c'.locality = c.locality := by
  unfold writeVectored at hw
  simp only [bind_def] at hw
  obtain ⟨n, c1, h1, h2⟩ := bind_ok hw
  split at h2
  · simp [M.fail] at h2
  · rename_i hne
    have : n = m.length := Decidable.not_not.1 hne
    subst this
    simp only [M.pure, Prod.mk.injEq] at h2
    obtain ⟨-, rfl⟩ := h2
    exact write_whole hl (Quiet.partial h p) hn h1

theorem writeAll_partial (hl : Link os d obs) {p : Port} {t : τ} {r : Req} (b : Bytes) :
    ∀ (x : Bytes) (c c' : Conn σ) (u : Unit), (obs c.net).Partial p x t →
    next p (x ++ b) = some (r, []) → writeAll os p b c = (.ok u, c') →
    (obs c'.net).Owes d p (d.answer t r).1 (d.answer t r).2 ∧ c'.locality = c.locality := by
  induction hk : b.length using Nat.strongRecOn generalizing b with
  | ind k ih =>
    intro x c c' u h hn hw
    rw [writeAll] at hw
    split at hw
    · rename_i hb
      have hb : b = [] := by simpa using hb
      subst hb
      rw [List.append_nil, h.2.2.2] at hn
      simp at hn
    · rcases ho : write os p b c with ⟨e | n, c1⟩ <;> rw [ho] at hw
      · simp at hw
      · dsimp only at hw
        split at hw
        · simp at hw
        · rename_i hn0
          have hle : n ≤ b.length := by
            unfold write at ho
            rcases hx : os.write c.net p b with ⟨e | n', s'⟩ <;> rw [hx] at ho
            · simp at ho
            · simp only [Prod.mk.injEq, Except.ok.injEq] at ho
              rw [← ho.1]
              exact os.write_le c.net p b n' (by rw [hx])
          by_cases hnb : n = b.length
          · subst hnb
            obtain ⟨g1, g2⟩ := write_whole hl h hn ho
            rw [List.drop_length, writeAll, if_pos (by rfl)] at hw
            simp only [Prod.mk.injEq] at hw
            obtain ⟨-, rfl⟩ := hw
            exact ⟨g1, g2⟩
          · have hsplit : x ++ b = (x ++ b.take n) ++ b.drop n := by
              rw [List.append_assoc, List.take_append_drop]
            rw [hsplit] at hn
            have hne : b.drop n ≠ [] := by
              intro h0
              have := congrArg List.length h0
              rw [List.length_drop] at this
              simp at this
              omega
            have hnone := next_prefix hn hne
            unfold write at ho
            rcases hx : os.write c.net p b with ⟨e | n', s'⟩ <;> rw [hx] at ho
            · simp at ho
            · simp only [Prod.mk.injEq, Except.ok.injEq] at ho
              obtain ⟨rfl, rfl⟩ := ho
              obtain ⟨w, h1, h2⟩ := hl.write c.net p b n' (by rw [hx])
              rw [h.later h1, hx] at h2
              have h3 := h.more hnone
              have h4 := h3.later h2
              dsimp only at h4
              obtain ⟨g1, g2⟩ := ih (b.drop n').length (by rw [List.length_drop]; omega) (b.drop n') rfl
                _ _ c' u (by dsimp only; rw [h4]; exact h3) hn hw
              exact ⟨g1, g2⟩

theorem writeAll_ok (hl : Link os d obs) {p : Port} {m : Bytes} {r : Req} {c c' : Conn σ}
    {u : Unit} (h : (obs c.net).Quiet) (hn : next p m = some (r, []))
    (hw : writeAll os p m c = (.ok u, c')) :
    (obs c'.net).Owes d p (d.answer (obs c.net).dev r).1 (d.answer (obs c.net).dev r).2 ∧
      c'.locality = c.locality :=
  writeAll_partial hl m [] c c' u (Quiet.partial h p) hn hw

/-! ### Receiving -/

theorem readExact_owed (hl : Link os d obs) {p : Port} {t : τ} (n : Nat) :
    ∀ (a : Option Bytes) (c c' : Conn σ) (b : Bytes), (obs c.net).Owes d p a t →
    readExact os p n c = (.ok (), b, c') →
    b.length = n ∧ c'.locality = c.locality ∧ (a = none → b = []) ∧
    ∃ a', a = a'.map (b ++ ·) ∧ (obs c'.net).Owes d p a' t := by
  induction n using Nat.strongRecOn with
  | ind n ih =>
    intro a c c' b h hr
    rw [readExact] at hr
    split at hr
    · simp only [Prod.mk.injEq] at hr
      obtain ⟨-, rfl, rfl⟩ := hr
      subst n
      exact ⟨rfl, rfl, fun _ => rfl, a, by cases a <;> simp, h⟩
    · rename_i hn0
      unfold read at hr
      rcases ho : os.read c.net p n with ⟨e | b1, s'⟩ <;> rw [ho] at hr
      · simp at hr
      · dsimp only at hr
        split at hr
        · simp at hr
        · rename_i hb0
          obtain ⟨w, h1, ⟨rest, h2⟩, h3⟩ := hl.read c.net p n b1 (by omega) (by rw [ho])
          obtain ⟨a1, e1, e2, h4⟩ := (h.later h1).drop h2
          rw [ho] at h3
          have h5 := h4.later h3
          have hle : b1.length ≤ n := os.read_le c.net p n b1 (by rw [ho])
          rcases hr2 : readExact os p (n - b1.length)
            { c with net := s', log := c.log ++ b1.map (.inp p) } with ⟨r', b', c2⟩
          rw [hr2] at hr
          simp only [Prod.mk.injEq] at hr
          obtain ⟨rfl, rfl, rfl⟩ := hr
          obtain ⟨g1, g2, g3, a2, g4, g5⟩ := ih (n - b1.length) (by omega) a1 _ _ _ h5 hr2
          refine ⟨by rw [List.length_append]; omega, g2, fun h0 => ?_, a2, ?_, g5⟩
          · have := e2 h0
            rw [this] at hb0
            simp at hb0
          · rw [e1, g4]
            cases a2 <;> simp

/-- Reading a positive number of bytes succeeds only if they are answered. -/
theorem readLocal_owed (hl : Link os d obs) {p : Port} {t : τ} {n : Nat} (hn : 0 < n)
    {a : Option Bytes} {c c' : Conn σ} {b : Bytes} (h : (obs c.net).Owes d p a t)
    (hr : readLocal os p n c = (.ok b, c')) :
    b.length = n ∧ c'.locality = c.locality ∧
    ∃ x, a = some (b ++ x) ∧ (obs c'.net).Owes d p (some x) t := by
  unfold readLocal at hr
  rcases ho : readExact os p n c with ⟨e | u, b1, c1⟩ <;> rw [ho] at hr
  · simp at hr
  · simp only [Prod.mk.injEq, Except.ok.injEq] at hr
    obtain ⟨rfl, rfl⟩ := hr
    obtain ⟨g1, g2, g3, a', g4, g5⟩ := readExact_owed hl n a c _ _ h ho
    refine ⟨g1, g2, ?_⟩
    cases a' with
    | none =>
      rw [g3 g4] at g1
      simp at g1
      omega
    | some x => exact ⟨x, g4, g5⟩

theorem ack_owed (hl : Link os d obs) {p : Port} {t : τ} {a : Option Bytes} {c c' : Conn σ}
    {u : Unit} (h : (obs c.net).Owes d p a t) (hr : checkResponseEnd os p c = (.ok u, c')) :
    c'.locality = c.locality ∧ ∃ x, a = some (ackBytes ++ x) ∧ (obs c'.net).Owes d p (some x) t := by
  unfold checkResponseEnd at hr
  simp only [bind_def] at hr
  obtain ⟨b, c1, h1, h2⟩ := bind_ok hr
  obtain ⟨g1, g2, x, g3, g4⟩ := readLocal_owed hl (by decide) h h1
  split at h2
  · simp [M.fail] at h2
  · rename_i hz
    simp only [M.pure, Prod.mk.injEq] at h2
    obtain ⟨-, rfl⟩ := h2
    have hz := Decidable.not_not.1 hz
    rw [fromBE_eq_positional] at hz
    rw [positional_ack g1 hz] at g3
    exact ⟨g2, x, g3, g4⟩

/-! ### The requests of the client -/

theorem nextWord_word {x : Nat} (h : x < 2 ^ 32) (b : Bytes) : nextWord (word x ++ b) = some (x, b) := by
  have hl : (word x).length = 4 := by simp [word]
  unfold nextWord
  rw [if_pos (by rw [List.length_append]; omega), List.take_left' hl, List.drop_left' hl, word,
    positional_digits256_of_lt (by simpa using h)]

theorem nextBytes_append {n : Nat} {x : Bytes} (h : x.length = n) (b : Bytes) :
    nextBytes n (x ++ b) = some (x, b) := by
  unfold nextBytes
  rw [if_pos (by rw [List.length_append]; omega), List.take_left' h, List.drop_left' h]

theorem andThen_some {α β : Type} {x : Option (α × Bytes)} {a : α} {b : Bytes} (h : x = some (a, b))
    (k : α → Bytes → Option (β × Bytes)) : andThen x k = k a b := by subst h; rfl

theorem next_code {b rest : Bytes} {code : Nat} (h : nextWord b = some (code, rest)) :
    (code = 6 → next .tpm b =
      andThen (nextWord rest) fun n b =>
      andThen (nextBytes n b) fun data b => some (.plain (.hashData data), b)) ∧
    (code = 8 → next .tpm b =
      andThen (nextBytes 1 rest) fun locality b =>
      andThen (nextWord b) fun n b =>
      andThen (nextBytes n b) fun command b => some (.send (positional locality) command, b)) := by
  unfold next nextTpm
  dsimp only
  rw [andThen_some h]
  constructor <;> (intro hc; subst hc; rfl)

theorem next_signalCode {b rest : Bytes} {s : Signal} (h : nextWord b = some (signalCode s, rest)) :
    next .plat b = some (.plain (.signal s), rest) := by
  unfold next nextPlat
  dsimp only
  rw [andThen_some h]
  cases s <;> rfl

theorem next_hashData {data : Bytes} (h : data.length < 2 ^ 32) :
    next .tpm (word 6 ++ word data.length ++ data) = some (.plain (.hashData data), []) := by
  have hb := nextBytes_append (rfl : data.length = data.length) []
  rw [List.append_nil] at hb
  rw [List.append_assoc, (next_code (nextWord_word (by decide) _)).1 rfl,
    andThen_some (nextWord_word h data), andThen_some hb]

theorem next_request {l : Nat} {cmd : Bytes} (hl : l < 256) (h : cmd.length < 2 ^ 32) :
    next .tpm (request l cmd) = some (.send l cmd, []) := by
  have e : request l cmd = word 8 ++ (digits256 1 l ++ (word cmd.length ++ cmd)) := by
    unfold request word
    rw [List.append_assoc, List.append_assoc, show digits256 4 8 = [0, 0, 0, 8] by decide]
  have hb := nextBytes_append (rfl : cmd.length = cmd.length) []
  rw [List.append_nil] at hb
  rw [e, (next_code (nextWord_word (by decide) _)).2 rfl,
    andThen_some (nextBytes_append (by simp) (word cmd.length ++ cmd)),
    andThen_some (nextWord_word h cmd), andThen_some hb,
    positional_digits256_of_lt (by simpa using hl)]

theorem next_handshake {v : Nat} (h : v < 2 ^ 32) :
    next .tpm (word 15 ++ word v) = some (.handshake v, []) := by
  have hc := nextWord_word (x := 15) (by decide) (word v)
  have hv := nextWord_word h []
  rw [List.append_nil] at hv
  simp [next, nextTpm, andThen, hc, hv]

theorem next_alternative {v : Nat} (h : v < 2 ^ 32) :
    next .tpm (word 16 ++ word v) = some (.plain (.alternative v), []) := by
  have hc := nextWord_word (x := 16) (by decide) (word v)
  have hv := nextWord_word h []
  rw [List.append_nil] at hv
  simp [next, nextTpm, andThen, hc, hv]

theorem next_signal (s : Signal) :
    next .plat (word (signalCode s)) = some (.plain (.signal s), []) := by
  have h : signalCode s < 2 ^ 32 := by cases s <;> decide
  have hv := nextWord_word h []
  rw [List.append_nil] at hv
  exact next_signalCode hv

theorem next_act {v : Nat} (h : v < 2 ^ 32) :
    next .plat (word 26 ++ word v) = some (.act v, []) := by
  have := nextWord_word h []
  rw [List.append_nil] at this
  show nextPlat _ = _
  unfold nextPlat
  rw [nextWord_word (by decide)]
  simp only [andThen, this]
  rfl

theorem next_firmwareHash {v : Nat} (h : v < 2 ^ 32) :
    next .plat (word 35 ++ word v) = some (.plain (.firmwareHash v), []) := by
  have := nextWord_word h []
  rw [List.append_nil] at this
  show nextPlat _ = _
  unfold nextPlat
  rw [nextWord_word (by decide)]
  simp only [andThen, this]
  rfl

theorem next_firmwareSvn {v : Nat} (h : v < 2 ^ 32) :
    next .plat (word 36 ++ word v) = some (.plain (.firmwareSvn v), []) := by
  have := nextWord_word h []
  rw [List.append_nil] at this
  show nextPlat _ = _
  unfold nextPlat
  rw [nextWord_word (by decide)]
  simp only [andThen, this]
  rfl

theorem next_hashStart : next .tpm (word 5) = some (.plain .hashStart, []) := by
  have hv := nextWord_word (x := 5) (by decide) []
  rw [List.append_nil] at hv
  simp [next, nextTpm, andThen, hv]

theorem next_hashEnd : next .tpm (word 7) = some (.plain .hashEnd, []) := by
  have hv := nextWord_word (x := 7) (by decide) []
  rw [List.append_nil] at hv
  simp [next, nextTpm, andThen, hv]

theorem next_sizes : next .plat (word 25) = some (.sizes, []) := by
  have hv := nextWord_word (x := 25) (by decide) []
  rw [List.append_nil] at hv
  simp [next, nextPlat, andThen, hv]

theorem next_failureMode : next .plat (word 30) = some (.plain .failureMode, []) := by
  have hv := nextWord_word (x := 30) (by decide) []
  rw [List.append_nil] at hv
  simp [next, nextPlat, andThen, hv]

/-! ### A willing operating system -/

theorem write_live (hl : Willing os d obs) (p : Port) (b : Bytes) (c : Conn σ) :
    ∃ c', write os p b c = (.ok b.length, c') := by
  have h := hl.accepts c.net p b
  unfold write
  rcases ho : os.write c.net p b with ⟨e | n, s'⟩
  · rw [ho] at h; simp at h
  · rw [ho] at h
    simp only [Except.ok.injEq] at h
    subst h
    exact ⟨_, rfl⟩

theorem writeVectored_live (hl : Willing os d obs) (p : Port) (b : Bytes) (c : Conn σ) :
    ∃ c', writeVectored os p b c = (.ok (), c') := by
  obtain ⟨c', h⟩ := write_live hl p b c
  refine ⟨c', ?_⟩
  unfold writeVectored
  rw [bind_def, M.bind, h]
  simp [M.pure]

theorem writeAll_live (hl : Willing os d obs) (p : Port) (b : Bytes) (c : Conn σ) :
    ∃ c', writeAll os p b c = (.ok (), c') := by
  rw [writeAll]
  split
  · exact ⟨c, rfl⟩
  · rename_i hb
    obtain ⟨c', h⟩ := write_live hl p b c
    have h0 : b.length ≠ 0 := by intro h0; exact hb (by simpa using h0)
    rw [h]
    simp only [h0, dite_false, List.drop_length]
    refine ⟨c', ?_⟩
    rw [writeAll, if_pos (by rfl)]

theorem Later.trans {w w' w'' : World τ} (h : Later d w w') (h' : Later d w' w'') : Later d w w'' := by
  induction h with
  | refl => exact h'
  | step h1 _ ih => exact .step h1 (ih h')

theorem readExact_live (hl : Willing os d obs) {p : Port} {t : τ} (n : Nat) :
    ∀ (a : Bytes) (c : Conn σ), (obs c.net).Owes d p (some a) t → n ≤ a.length →
    ∃ b c', readExact os p n c = (.ok (), b, c') := by
  induction n using Nat.strongRecOn with
  | ind n ih =>
    intro a c h hn
    rw [readExact]
    split
    · exact ⟨_, _, rfl⟩
    · rename_i hn0
      obtain ⟨b1, h1, h2⟩ := hl.delivers c.net p n (by omega)
      unfold read
      rcases ho : os.read c.net p n with ⟨e | b2, s'⟩
      · rw [ho] at h1; simp at h1
      · rw [ho] at h1
        simp only [Except.ok.injEq] at h1
        subst h1
        dsimp only
        have hb : b2 ≠ [] := by
          intro hb
          obtain ⟨w, g1, g2, g3⟩ := h2 hb
          obtain ⟨-, k⟩ := h.later g1
          rcases k with ⟨x, hx, k2, k3⟩ | ⟨hx, -⟩ | ⟨u, r, k2, k3, k4⟩
          · rw [k2] at g2
            simp only [Option.some.injEq] at hx
            subst hx
            dsimp only at g2
            subst g2
            simp at hn
            omega
          · simp at hx
          · exact g3 _ (.answer w p r [] a t (by rw [k2]) (by rw [k2]; exact k3) k4)
        have hb0 : ¬ b2.length = 0 := by intro h0; exact hb (List.length_eq_zero_iff.1 h0)
        rw [dif_neg hb0]
        obtain ⟨w, g1, ⟨rest, g2⟩, g3⟩ := hl.read c.net p n b2 (by omega) (by rw [ho])
        obtain ⟨a1, e1, -, h4⟩ := (h.later g1).drop g2
        rw [ho] at g3
        have h5 := h4.later g3
        cases a1 with
        | none => simp at e1
        | some x =>
          simp only [Option.map_some, Option.some.injEq] at e1
          have hle : b2.length ≤ n := os.read_le c.net p n b2 (by rw [ho])
          obtain ⟨b3, c3, h6⟩ := ih (n - b2.length) (by omega) x
            { c with net := s', log := c.log ++ b2.map (.inp p) } h5 (by
              rw [e1, List.length_append] at hn; omega)
          rw [h6]
          exact ⟨_, _, rfl⟩

theorem readLocal_live (hl : Willing os d obs) {p : Port} {t : τ} {b x : Bytes} {c : Conn σ}
    (h : (obs c.net).Owes d p (some (b ++ x)) t) (hb : 0 < b.length) :
    ∃ c', readLocal os p b.length c = (.ok b, c') := by
  obtain ⟨b', c', h1⟩ := readExact_live hl b.length (b ++ x) c h (by rw [List.length_append]; omega)
  have h2 : readLocal os p b.length c = (.ok b', c') := by
    unfold readLocal
    rw [h1]
  obtain ⟨g1, -, y, g3, -⟩ := readLocal_owed hl.toLink hb h h2
  simp only [Option.some.injEq] at g3
  obtain ⟨rfl, -⟩ := List.append_inj g3 g1.symm
  exact ⟨c', h2⟩

theorem ack_live (hl : Willing os d obs) {p : Port} {t : τ} {x : Bytes} {c : Conn σ}
    (h : (obs c.net).Owes d p (some (ackBytes ++ x)) t) :
    ∃ c', checkResponseEnd os p c = (.ok (), c') := by
  obtain ⟨c', h1⟩ := readLocal_live hl h (by decide)
  refine ⟨c', ?_⟩
  unfold checkResponseEnd
  rw [bind_def, M.bind]
  have : ackBytes.length = 4 := rfl
  rw [this] at h1
  rw [h1]
  simp [ackBytes, fromBE, M.pure]

end Verif.Tcp
