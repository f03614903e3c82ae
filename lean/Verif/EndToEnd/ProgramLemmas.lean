import Verif.EndToEnd.Program
import Verif.EndToEnd.Props
import Verif.Tcp.ReferenceLemmas

/-! Lemmas for C83: each call against the device. -/

namespace Verif.EndToEnd
open Verif Verif.Errors Verif.Client Verif.Tcp

variable {σ τ α β : Type} {os : Os σ} {d : Device τ} {obs : σ → World τ}

/-- The client is connected to the device in state `t`, and nothing is under way. -/
def At (obs : σ → World τ) (c : Conn σ) (l : Nat) (t : τ) : Prop :=
  (obs c.net).Quiet ∧ (obs c.net).dev = t ∧ c.locality = l

/-- When the method returns, it has done what is specified. -/
def Sound (obs : σ → World τ) (m : M σ α) (f : τ → Option (α × τ)) : Prop :=
  ∀ c l t, At obs c l t → ∀ a c', m c = (.ok a, c') → ∃ t', f t = some (a, t') ∧ At obs c' l t'

/-- The method returns when it is specified to return. -/
def Live (obs : σ → World τ) (m : M σ α) (f : τ → Option (α × τ)) : Prop :=
  ∀ c l t, At obs c l t → ∀ a t', f t = some (a, t') → ∃ c', m c = (.ok a, c')

theorem Sound.bind {m : M σ α} {f : τ → Option (α × τ)} {k : α → M σ β} {g : α → τ → Option (β × τ)}
    (hm : Sound obs m f) (hk : ∀ a, Sound obs (k a) (g a)) :
    Sound obs (M.bind m k) fun t => (f t).bind fun x => g x.1 x.2 := by
  intro c l t h b c' hb
  obtain ⟨a, c1, h1, h2⟩ := bind_ok hb
  obtain ⟨t1, e1, g1⟩ := hm c l t h a c1 h1
  obtain ⟨t2, e2, g2⟩ := hk a c1 l t1 g1 b c' h2
  exact ⟨t2, by simp [e1, e2], g2⟩

theorem Live.bind {m : M σ α} {f : τ → Option (α × τ)} {k : α → M σ β} {g : α → τ → Option (β × τ)}
    (hs : Sound obs m f) (hm : Live obs m f) (hk : ∀ a, Live obs (k a) (g a)) :
    Live obs (M.bind m k) fun t => (f t).bind fun x => g x.1 x.2 := by
  intro c l t h b t2 hb
  rcases hf : f t with _ | ⟨a, t1⟩
  · simp [hf] at hb
  · simp only [hf, Option.bind_some] at hb
    obtain ⟨c1, h1⟩ := hm c l t h a t1 hf
    obtain ⟨t1', e1, g1⟩ := hs c l t h a c1 h1
    rw [hf] at e1
    simp only [Option.some.injEq, Prod.mk.injEq, true_and] at e1
    subst e1
    obtain ⟨c2, h2⟩ := hk a c1 l t1 g1 b t2 hb
    exact ⟨c2, by rw [M.bind, h1]; exact h2⟩

theorem bind_assoc' {γ : Type} (m : M σ α) (f : α → M σ β) (g : β → M σ γ) :
    M.bind (M.bind m f) g = M.bind m fun a => M.bind (f a) g := by
  funext c
  unfold M.bind
  rcases m c with ⟨e | a, c1⟩ <;> rfl

theorem Sound.pure (a : α) : Sound obs (M.pure a) fun t => some (a, t) := by
  intro c l t h a' c' hm
  simp only [M.pure, Prod.mk.injEq, Except.ok.injEq] at hm
  obtain ⟨rfl, rfl⟩ := hm
  exact ⟨t, rfl, h⟩

theorem Live.pure (a : α) : Live obs (M.pure a) fun t => some (a, t) := by
  intro c l t _ a' t' hf
  simp only [Option.some.injEq, Prod.mk.injEq] at hf
  obtain ⟨rfl, rfl⟩ := hf
  exact ⟨c, rfl⟩

/-! ### Sending -/

/-- A method that sends a request: afterwards the answer is owed. -/
def Asks (os : Os σ) (d : Device τ) (obs : σ → World τ) (p : Port) (r : Req) (m : M σ Unit) : Prop :=
  ∀ c c' u, (obs c.net).Quiet → m c = (.ok u, c') →
    (obs c'.net).Owes d p (d.answer (obs c.net).dev r).1 (d.answer (obs c.net).dev r).2 ∧
      c'.locality = c.locality

theorem asks_all (hl : Link os d obs) {p : Port} {r : Req} {m : Bytes} (h : next p m = some (r, [])) :
    Asks os d obs p r (writeAll os p m) := fun _ _ _ hq hw => writeAll_ok hl hq h hw

theorem asks_vectored (hl : Link os d obs) {p : Port} {r : Req} {m : Bytes}
    (h : next p m = some (r, [])) : Asks os d obs p r (writeVectored os p m) :=
  fun _ _ _ hq hw => writeVectored_ok hl hq h hw

/-- A method that never fails. -/
def Total (m : M σ α) : Prop := ∀ c, ∃ a c', m c = (.ok a, c')

theorem total_all (hl : Willing os d obs) (p : Port) (m : Bytes) : Total (writeAll os p m) :=
  fun c => let ⟨c', h⟩ := writeAll_live hl p m c; ⟨(), c', h⟩

theorem total_vectored (hl : Willing os d obs) (p : Port) (m : Bytes) :
    Total (writeVectored os p m) :=
  fun c => let ⟨c', h⟩ := writeVectored_live hl p m c; ⟨(), c', h⟩

/-! ### Receiving -/

theorem Sound.exchange {p : Port} {r : Req} {m : M σ Unit} {k : M σ α} {f : τ → Option α}
    (hm : Asks os d obs p r m) (hk : ∀ c c' x t, (obs c.net).Owes d p (d.answer t r).1 (d.answer t r).2 →
      k c = (.ok x, c') → f t = some x ∧ (obs c'.net).Quiet ∧
      (obs c'.net).dev = (d.answer t r).2 ∧ c'.locality = c.locality) :
    Sound obs (M.bind m fun _ => k) fun t => (f t).map (·, (d.answer t r).2) := by
  rintro c l t ⟨h1, rfl, h3⟩ a c' hb
  obtain ⟨u, c1, g1, g2⟩ := bind_ok hb
  obtain ⟨k1, k2⟩ := hm c c1 u h1 g1
  obtain ⟨e1, e2, e3, e4⟩ := hk c1 c' a _ k1 g2
  exact ⟨_, by dsimp only; rw [e1]; rfl, e2, e3, by rw [e4, k2, h3]⟩

theorem Live.exchange {p : Port} {r : Req} {m : M σ Unit} {k : M σ α} {f : τ → Option α}
    (hm : Asks os d obs p r m) (ht : Total m)
    (hk : ∀ c x t, (obs c.net).Owes d p (d.answer t r).1 (d.answer t r).2 →
      f t = some x → ∃ c', k c = (.ok x, c')) :
    Live obs (M.bind m fun _ => k) fun t => (f t).map (·, (d.answer t r).2) := by
  rintro c l t ⟨h1, rfl, h3⟩ a t' hf
  dsimp only at hf
  obtain ⟨u, c1, g1⟩ := ht c
  obtain ⟨k1, -⟩ := hm c c1 u h1 g1
  rcases hx : f (obs c.net).dev with _ | x
  · rw [hx] at hf; simp at hf
  · rw [hx] at hf
    simp only [Option.map_some, Option.some.injEq, Prod.mk.injEq] at hf
    obtain ⟨rfl, -⟩ := hf
    obtain ⟨c2, g2⟩ := hk c1 x _ k1 hx
    exact ⟨c2, by rw [M.bind, g1]; exact g2⟩

/-- The answer is the final word. -/
theorem ack_done (hl : Link os d obs) {p : Port} {c c' : Conn σ} {u : Unit} {t : τ}
    (h : (obs c.net).Owes d p (some ackBytes) t) (ha : checkResponseEnd os p c = (.ok u, c')) :
    (obs c'.net).Quiet ∧ (obs c'.net).dev = t ∧ c'.locality = c.locality := by
  obtain ⟨g1, x, g2, g3⟩ := ack_owed hl h ha
  simp only [Option.some.injEq] at g2
  have hx : x = [] := by
    have := congrArg List.length g2
    simpa using this
  subst hx
  obtain ⟨k1, k2⟩ := g3.quiet
  exact ⟨k1, k2, g1⟩

theorem ack_gets (hl : Willing os d obs) {p : Port} {c : Conn σ} {t : τ}
    (h : (obs c.net).Owes d p (some ackBytes) t) : ∃ c', checkResponseEnd os p c = (.ok (), c') :=
  ack_live hl (x := []) (by simpa using h)

/-- Bytes of the answer. -/
theorem read_taken (hl : Link os d obs) {p : Port} {c c' : Conn σ} {b x y : Bytes} {t : τ}
    (h : (obs c.net).Owes d p (some (x ++ y)) t) (h0 : 0 < x.length)
    (hr : readLocal os p x.length c = (.ok b, c')) :
    b = x ∧ (obs c'.net).Owes d p (some y) t ∧ c'.locality = c.locality := by
  obtain ⟨g1, g2, z, g3, g4⟩ := readLocal_owed hl h0 h hr
  simp only [Option.some.injEq] at g3
  obtain ⟨rfl, rfl⟩ := List.append_inj g3 g1.symm
  exact ⟨rfl, g4, g2⟩

/-! ### The operations -/

section plain
variable {p : Port} {q : Plain} {m : M σ Unit}

theorem sound_plain (hl : Link os d obs) (hm : Asks os d obs p (.plain q) m) :
    Sound obs (M.bind m fun _ => checkResponseEnd os p) fun t => some ((), d.perform t q) := by
  have := Sound.exchange (f := fun _ => some ()) (k := checkResponseEnd os p) hm (by
    intro c c' x t h hk
    exact ⟨rfl, ack_done hl h hk⟩)
  exact this

theorem live_plain (hl : Willing os d obs) (hm : Asks os d obs p (.plain q) m) (ht : Total m) :
    Live obs (M.bind m fun _ => checkResponseEnd os p) fun t => some ((), d.perform t q) := by
  have := Live.exchange (f := fun _ => some ()) (k := checkResponseEnd os p) hm ht (by
    intro c x t h _
    exact ack_gets hl h)
  exact this

end plain

theorem four (n : Nat) : (word n).length = 4 := by simp [word]

/-- Reading a word of the answer. -/
theorem word_taken (hl : Link os d obs) {p : Port} {c c' : Conn σ} {b y : Bytes} {n : Nat} {t : τ}
    (h : (obs c.net).Owes d p (some (word n ++ y)) t) (hr : readLocal os p 4 c = (.ok b, c')) :
    b = word n ∧ (obs c'.net).Owes d p (some y) t ∧ c'.locality = c.locality :=
  read_taken hl h (by rw [four]; decide) (by rw [four]; exact hr)

theorem word_gets (hl : Willing os d obs) {p : Port} {c : Conn σ} {y : Bytes} {n : Nat} {t : τ}
    (h : (obs c.net).Owes d p (some (word n ++ y)) t) :
    ∃ c', readLocal os p 4 c = (.ok (word n), c') := by
  obtain ⟨c', h'⟩ := readLocal_live hl h (by rw [four]; decide)
  rw [four] at h'
  exact ⟨c', h'⟩

theorem fromBE_word {n : Nat} (h : n < 2 ^ 32) : fromBE (word n) = n := by
  rw [fromBE_eq_positional, word, positional_digits256_of_lt (by simpa using h)]

theorem sound_act (hl : Link os d obs) {h : Nat} (hh : h < 2 ^ 32) :
    Sound obs (actGetSignaled os h) fun t => some ((d.act t h).1, (d.act t h).2) := by
  refine Sound.exchange (f := fun t => some (d.act t h).1) (r := .act h) (p := .plat)
    (m := writeVectored os .plat _) (asks_vectored hl (by rw [word_eq, word_eq]; exact next_act hh)) ?_
  intro c c' x t ho hk
  obtain ⟨b, c1, g1, g2⟩ := bind_ok hk
  obtain ⟨rfl, ho, e1⟩ := word_taken hl ho g1
  obtain ⟨u, c2, g3, g4⟩ := bind_ok g2
  obtain ⟨q1, q2, q3⟩ := ack_done hl ho g3
  simp only [M.pure, Prod.mk.injEq, Except.ok.injEq] at g4
  obtain ⟨rfl, rfl⟩ := g4
  exact ⟨by rw [fromBE_word (d.act_lt t h)], q1, q2, by rw [q3, e1]⟩

theorem live_act (hl : Willing os d obs) {h : Nat} (hh : h < 2 ^ 32) :
    Live obs (actGetSignaled os h) fun t => some ((d.act t h).1, (d.act t h).2) := by
  refine Live.exchange (f := fun t => some (d.act t h).1) (r := .act h) (p := .plat)
    (m := writeVectored os .plat _) (asks_vectored hl.toLink (by rw [word_eq, word_eq]; exact next_act hh)) (total_vectored hl _ _) ?_
  intro c x t ho hx
  simp only [Option.some.injEq] at hx
  subst hx
  obtain ⟨c1, g1⟩ := word_gets hl ho
  obtain ⟨-, ho, -⟩ := word_taken hl.toLink ho g1
  obtain ⟨c2, g2⟩ := ack_gets hl ho
  refine ⟨c2, ?_⟩
  rw [bind_def, M.bind, g1]
  dsimp only
  rw [bind_def, M.bind, g2]
  simp only [M.pure, fromBE_word (d.act_lt t h)]

theorem sound_handshake (hl : Link os d obs) {v : Nat} (hv : v < 2 ^ 32) :
    Sound obs (remoteHandshake os v) fun t => (d.handshake t v).1.map (·, (d.handshake t v).2) := by
  refine Sound.exchange (f := fun t => (d.handshake t v).1) (r := .handshake v) (p := .tpm)
    (m := writeVectored os .tpm _) (asks_vectored hl (by rw [word_eq, word_eq]; exact next_handshake hv)) ?_
  intro c c' x t ho hk
  obtain ⟨b, c1, g1, g2⟩ := bind_ok hk
  rcases hh : (d.handshake t v).1 with _ | ⟨y, z⟩
  · simp only [Device.answer, hh, Option.map_none] at ho
    obtain ⟨-, -, x, h0, -⟩ := readLocal_owed hl (by decide) ho g1
    simp at h0
  · simp only [Device.answer, hh, Option.map_some] at ho
    obtain ⟨rfl, ho, e1⟩ := read_taken hl (x := word y ++ word z) ho
      (by rw [List.length_append, four, four]; decide) (by rw [List.length_append, four, four]; exact g1)
    obtain ⟨u, c2, g3, g4⟩ := bind_ok g2
    obtain ⟨q1, q2, q3⟩ := ack_done hl ho g3
    simp only [M.pure, Prod.mk.injEq, Except.ok.injEq] at g4
    obtain ⟨rfl, rfl⟩ := g4
    obtain ⟨l1, l2⟩ := d.handshake_lt t v y z hh
    exact ⟨by rw [List.take_left' (four y), List.drop_left' (four y), fromBE_word l1, fromBE_word l2],
      q1, q2, by rw [q3, e1]⟩

theorem live_handshake (hl : Willing os d obs) {v : Nat} (hv : v < 2 ^ 32) :
    Live obs (remoteHandshake os v) fun t => (d.handshake t v).1.map (·, (d.handshake t v).2) := by
  refine Live.exchange (f := fun t => (d.handshake t v).1) (r := .handshake v) (p := .tpm)
    (m := writeVectored os .tpm _) (asks_vectored hl.toLink (by rw [word_eq, word_eq]; exact next_handshake hv))
    (total_vectored hl _ _) ?_
  intro c x t ho hx
  obtain ⟨y, z⟩ := x
  simp only [Device.answer, hx, Option.map_some] at ho
  obtain ⟨l1, l2⟩ := d.handshake_lt t v y z hx
  have h8 : (word y ++ word z).length = 8 := by rw [List.length_append, four, four]
  obtain ⟨c1, g1⟩ := readLocal_live hl ho (by rw [h8]; decide)
  obtain ⟨-, ho, -⟩ := read_taken hl.toLink ho (by rw [h8]; decide) g1
  rw [h8] at g1
  obtain ⟨c2, g2⟩ := ack_gets hl ho
  refine ⟨c2, ?_⟩
  rw [bind_def, M.bind, g1]
  dsimp only
  rw [bind_def, M.bind, g2]
  simp only [M.pure]
  rw [List.take_left' (four y), List.drop_left' (four y), fromBE_word l1, fromBE_word l2]

theorem sound_sizes (hl : Link os d obs) :
    Sound obs (getCommandResponseSizes os) fun t => some ((d.sizes t).1, (d.sizes t).2) := by
  refine Sound.exchange (f := fun t => some (d.sizes t).1) (r := .sizes) (p := .plat)
    (m := writeAll os .plat _) (asks_all hl (by rw [word_eq]; exact next_sizes)) ?_
  intro c c' x t ho hk
  obtain ⟨b, c1, g1, g2⟩ := bind_ok hk
  simp only [Device.answer, List.append_assoc] at ho
  obtain ⟨rfl, ho, e1⟩ := word_taken hl ho g1
  rw [if_neg (by rw [fromBE_word (by decide)]; decide)] at g2
  obtain ⟨b, c2, g3, g4⟩ := bind_ok g2
  obtain ⟨rfl, ho, e2⟩ := read_taken hl ho (by rw [d.sizes_length]; decide)
    (by rw [d.sizes_length]; exact g3)
  obtain ⟨u, c3, g5, g6⟩ := bind_ok g4
  obtain ⟨q1, q2, q3⟩ := ack_done hl ho g5
  simp only [M.pure, Prod.mk.injEq, Except.ok.injEq] at g6
  obtain ⟨rfl, rfl⟩ := g6
  exact ⟨rfl, q1, q2, by rw [q3, e2, e1]⟩

theorem live_sizes (hl : Willing os d obs) :
    Live obs (getCommandResponseSizes os) fun t => some ((d.sizes t).1, (d.sizes t).2) := by
  refine Live.exchange (f := fun t => some (d.sizes t).1) (r := .sizes) (p := .plat)
    (m := writeAll os .plat _) (asks_all hl.toLink (by rw [word_eq]; exact next_sizes)) (total_all hl _ _) ?_
  intro c x t ho hx
  simp only [Option.some.injEq] at hx
  subst hx
  simp only [Device.answer, List.append_assoc] at ho
  obtain ⟨c1, g1⟩ := word_gets hl ho
  obtain ⟨-, ho, -⟩ := word_taken hl.toLink ho g1
  obtain ⟨c2, g2⟩ := readLocal_live hl ho (by rw [d.sizes_length]; decide)
  obtain ⟨-, ho, -⟩ := read_taken hl.toLink ho (by rw [d.sizes_length]; decide) g2
  rw [d.sizes_length] at g2
  obtain ⟨c3, g3⟩ := ack_gets hl ho
  refine ⟨c3, ?_⟩
  rw [bind_def, M.bind, g1]
  dsimp only
  rw [if_neg (by rw [fromBE_word (by decide)]; decide), bind_def, M.bind, g2]
  dsimp only
  rw [bind_def, M.bind, g3]
  rfl

theorem sound_signal (hl : Link os d obs) (g : Signal) :
    Sound obs (platformSignal os g) fun t => some ((), d.perform t (.signal g)) :=
  sound_plain (m := writeAll os .plat _) hl
    (asks_all hl (by rw [word_eq, show g.val = signalCode g by cases g <;> rfl]; exact next_signal g))

theorem live_signal (hl : Willing os d obs) (g : Signal) :
    Live obs (platformSignal os g) fun t => some ((), d.perform t (.signal g)) :=
  live_plain (m := writeAll os .plat _) hl (asks_all hl.toLink
    (by rw [word_eq, show g.val = signalCode g by cases g <;> rfl]; exact next_signal g))
    (total_all hl _ _)

theorem sound_reinit (hl : Link os d obs) : Sound obs (reinit os) fun t =>
    some ((), [Plain.signal .nvOff, .signal .powerOff, .signal .powerOn, .signal .nvOn].foldl
      d.perform t) :=
  (sound_signal hl _).bind fun _ => (sound_signal hl _).bind fun _ =>
    (sound_signal hl _).bind fun _ => (sound_signal hl _).bind fun _ => Sound.pure ()

theorem live_reinit (hl : Willing os d obs) : Live obs (reinit os) fun t =>
    some ((), [Plain.signal .nvOff, .signal .powerOff, .signal .powerOn, .signal .nvOn].foldl
      d.perform t) :=
  .bind (sound_signal hl.toLink _) (live_signal hl _) fun _ =>
    .bind (sound_signal hl.toLink _) (live_signal hl _) fun _ =>
    .bind (sound_signal hl.toLink _) (live_signal hl _) fun _ =>
    .bind (sound_signal hl.toLink _) (live_signal hl _) fun _ => Live.pure ()

theorem next_hash : next .tpm (toBE 4 TpmCode.signalHashStart.val) = some (.plain .hashStart, []) ∧
    next .tpm (toBE 4 TpmCode.signalHashEnd.val) = some (.plain .hashEnd, []) := by
  rw [word_eq, word_eq]
  exact ⟨next_hashStart, next_hashEnd⟩

theorem next_data {b : Bytes} (h : b.length < 2 ^ 32) :
    next .tpm (toBE 4 TpmCode.signalHashData.val ++ toBE 4 (b.length % 2 ^ 32) ++ b) =
      some (.plain (.hashData b), []) := by
  rw [word_eq, word_eq, Nat.mod_eq_of_lt h]
  exact next_hashData h

theorem hcrtm_eq (b : Bytes) : hcrtmSequence os b =
    M.bind (M.bind (writeAll os .tpm (toBE 4 TpmCode.signalHashStart.val)) fun _ =>
      checkResponseEnd os .tpm) fun _ =>
    M.bind (M.bind (writeVectored os .tpm
      (toBE 4 TpmCode.signalHashData.val ++ toBE 4 (b.length % 2 ^ 32) ++ b)) fun _ =>
      checkResponseEnd os .tpm) fun _ =>
    M.bind (writeAll os .tpm (toBE 4 TpmCode.signalHashEnd.val)) fun _ =>
      checkResponseEnd os .tpm := by
  simp only [bind_assoc']
  rfl

theorem sound_hcrtm (hl : Link os d obs) {b : Bytes} (h : b.length < 2 ^ 32) :
    Sound obs (hcrtmSequence os b) fun t =>
      some ((), [Plain.hashStart, .hashData b, .hashEnd].foldl d.perform t) := by
  rw [hcrtm_eq]
  exact (sound_plain hl (asks_all hl next_hash.1)).bind fun _ =>
    (sound_plain hl (asks_vectored hl (next_data h))).bind fun _ =>
    sound_plain hl (asks_all hl next_hash.2)

theorem live_hcrtm (hl : Willing os d obs) {b : Bytes} (h : b.length < 2 ^ 32) :
    Live obs (hcrtmSequence os b) fun t =>
      some ((), [Plain.hashStart, .hashData b, .hashEnd].foldl d.perform t) := by
  rw [hcrtm_eq]
  have l := hl.toLink
  exact .bind (sound_plain l (asks_all l next_hash.1))
    (live_plain hl (asks_all l next_hash.1) (total_all hl _ _)) fun _ =>
    .bind (sound_plain l (asks_vectored l (next_data h)))
      (live_plain hl (asks_vectored l (next_data h)) (total_vectored hl _ _)) fun _ =>
    live_plain hl (asks_all l next_hash.2) (total_all hl _ _)

/-! ### TPM commands -/

theorem sendFrame_eq (l : Nat) (cmd : Bytes) : sendFrame l cmd = request l cmd := by
  unfold sendFrame request
  rw [toBE_eq_digits256, toBE_eq_digits256, toBE_eq_digits256,
    show digits256 4 TpmCode.sendCommand.val = [0, 0, 0, 8] by decide]
  simp only [List.append_assoc]

theorem transact_sound (hl : Link os d obs) {cmd rsp : Bytes} {c c' : Conn σ} {l n : Nat} {t : τ}
    {b : Bytes} (hc : l < 256) (h : At obs c l t) (hr : Tcp.transact os cmd rsp c = (.ok n, b, c')) :
    cmd.length < 2 ^ 32 ∧ n = (d.send t l cmd).1.length ∧ n ≤ rsp.length ∧
    b = (d.send t l cmd).1 ++ rsp.drop n ∧ At obs c' l (d.send t l cmd).2 := by
  obtain ⟨h1, rfl, rfl⟩ := h
  unfold Tcp.transact at hr
  split at hr
  · simp at hr
  · rename_i hlen
    rcases hw : writeVectored os .tpm (sendFrame c.locality cmd) c with ⟨e | u, c1⟩ <;> rw [hw] at hr
    · simp at hr
    · dsimp only at hr
      rw [sendFrame_eq] at hw
      obtain ⟨ho, e1⟩ := writeVectored_ok hl h1 (next_request hc (by omega)) hw
      rcases hr1 : readLocal os .tpm 4 c1 with ⟨e | hdr, c2⟩ <;> rw [hr1] at hr
      · simp at hr
      · dsimp only at hr
        simp only [Device.answer, reply, List.append_assoc] at ho
        obtain ⟨rfl, ho, e2⟩ := word_taken hl ho hr1
        rw [fromBE_word (d.send_lt _ _ _)] at hr
        split at hr
        · simp at hr
        · rename_i hfit
          rcases hr2 : readExact os .tpm (d.send (obs c.net).dev c.locality cmd).1.length c2 with
            ⟨e | u2, b2, c3⟩ <;> rw [hr2] at hr
          · simp at hr
          · dsimp only at hr
            obtain ⟨k1, k2, -, a', k4, k5⟩ := readExact_owed hl _ _ _ _ _ ho hr2
            cases a' with
            | none => simp at k4
            | some x =>
              simp only [Option.map_some, Option.some.injEq] at k4
              obtain ⟨rfl, rfl⟩ := List.append_inj k4 k1.symm
              rcases hr3 : checkResponseEnd os .tpm c3 with ⟨e | u3, c4⟩ <;> rw [hr3] at hr
              · simp at hr
              · simp only [Prod.mk.injEq, Except.ok.injEq] at hr
                obtain ⟨rfl, rfl, rfl⟩ := hr
                obtain ⟨q1, q2, q3⟩ := ack_done hl k5 hr3
                exact ⟨by omega, rfl, by omega, rfl, q1, q2, by rw [q3, k2, e2, e1]⟩

theorem transact_live (hl : Willing os d obs) {cmd rsp : Bytes} {c : Conn σ} {l : Nat} {t : τ}
    (hc : l < 256) (h : At obs c l t) (hlen : cmd.length < 2 ^ 32)
    (hfit : (d.send t l cmd).1.length ≤ rsp.length) :
    ∃ n b c', Tcp.transact os cmd rsp c = (.ok n, b, c') := by
  obtain ⟨h1, rfl, rfl⟩ := h
  have l0 := hl.toLink
  unfold Tcp.transact
  rw [if_neg (by omega), sendFrame_eq]
  obtain ⟨c1, hw⟩ := writeVectored_live hl .tpm (request c.locality cmd) c
  obtain ⟨ho, -⟩ := writeVectored_ok l0 h1 (next_request hc (by omega)) hw
  simp only [Device.answer, reply, List.append_assoc] at ho
  obtain ⟨c2, hr1⟩ := word_gets hl ho
  obtain ⟨-, ho, -⟩ := word_taken l0 ho hr1
  rw [hw]
  dsimp only
  rw [hr1]
  dsimp only
  rw [fromBE_word (d.send_lt _ _ _), if_neg (by omega)]
  obtain ⟨b, c3, hr2⟩ := readExact_live hl (d.send (obs c.net).dev c.locality cmd).1.length _ _ ho
    (by rw [List.length_append]; omega)
  obtain ⟨k1, -, -, a', k4, k5⟩ := readExact_owed l0 _ _ _ _ _ ho hr2
  cases a' with
  | none => simp at k4
  | some x =>
    simp only [Option.map_some, Option.some.injEq] at k4
    obtain ⟨rfl, rfl⟩ := List.append_inj k4 k1.symm
    obtain ⟨c4, hr3⟩ := ack_gets hl k5
    rw [hr2]
    dsimp only
    rw [hr3]
    exact ⟨_, _, _, rfl⟩

/-! ### One call -/

theorem returns_sound {m : M σ α} {f : τ → Option (α × τ)} (h : Sound obs m f) {g : α → Out}
    {c c' : Conn σ} {l : Nat} {t : τ} {o : Out} (hc : At obs c l t)
    (hr : returns g (m c) = (.ok o, c')) :
    ∃ t', (f t).map (fun x => (g x.1, l, x.2)) = some (o, l, t') ∧ At obs c' l t' := by
  rcases hm : m c with ⟨e | a, c1⟩ <;> rw [hm] at hr
  · simp [returns] at hr
  · simp only [returns, Prod.mk.injEq, Except.ok.injEq] at hr
    obtain ⟨rfl, rfl⟩ := hr
    obtain ⟨t', e1, g1⟩ := h c l t hc a c1 hm
    exact ⟨t', by rw [e1]; rfl, g1⟩

theorem returns_live {m : M σ α} {f : τ → Option (α × τ)} (h : Live obs m f) {g : α → Out}
    {c : Conn σ} {l l' : Nat} {t t' : τ} {o : Out} (hc : At obs c l t)
    (hr : (f t).map (fun x => (g x.1, l, x.2)) = some (o, l', t')) :
    ∃ c', returns g (m c) = (.ok o, c') := by
  rcases hf : f t with _ | ⟨a, t1⟩ <;> rw [hf] at hr
  · simp at hr
  · simp only [Option.map_some, Option.some.injEq, Prod.mk.injEq] at hr
    obtain ⟨rfl, -, -⟩ := hr
    obtain ⟨c', hm⟩ := h c l t hc a t1 hf
    exact ⟨c', by rw [hm]; rfl⟩

/-- A TPM command is one exchange, or none. -/
theorem run_cases (cmd : Command) (a : Area) :
    (∃ o, ∀ {σ ε : Type} (tr : Transport σ ε) (s : σ),
      outcome (runCommandWithHandles tr cmd a s).result = .ok o ∧
      (runCommandWithHandles tr cmd a s).state = s) ∨
    (∃ bytes : Bytes, bytes.length < 2 ^ 32 ∧ ∃ f : Bytes → Out, ∀ {σ ε : Type} (tr : Transport σ ε) (s : σ),
      (outcome (runCommandWithHandles tr cmd a s).result,
        (runCommandWithHandles tr cmd a s).state) =
      match tr.transact s bytes (List.replicate respBufferSize 0) with
      | (.failed e, _, s) => (.error e, s)
      | (.reported _, b, s) => (.ok (f b), s)) := by
  have hlen := buildCommand_len cmd a
  unfold runCommandWithHandles
  rcases hb : buildCommand cmd a with ⟨n | e | _, buf⟩ <;> rw [hb] at hlen <;> dsimp only at hlen ⊢
  · rcases hsl : sliceTo buf n with _ | bytes <;> dsimp only
    · exact .inl ⟨_, fun tr s => ⟨rfl, rfl⟩⟩
    · refine .inr ⟨bytes, ?_, fun b => .result (readResponse cmd a b), ?_⟩
      · unfold sliceTo at hsl
        split at hsl
        · simp only [Option.some.injEq] at hsl
          subst hsl
          rw [List.length_take, hlen]
          exact Nat.lt_of_le_of_lt (Nat.min_le_right _ _) (by decide)
        · simp at hsl
      · intro σ ε tr s
        rcases tr.transact s bytes (List.replicate respBufferSize 0) with ⟨e | n, b, s'⟩
        · dsimp only
          rcases readResponse cmd a b with v | e | _ <;> rfl
        · rfl
  · exact .inl ⟨_, fun tr s => ⟨rfl, rfl⟩⟩
  · exact .inl ⟨_, fun tr s => ⟨rfl, rfl⟩⟩

theorem call_sound (hl : Link os d obs) {x : Call} (hx : x.Typed) (hs : x.Short) {c c' : Conn σ}
    {l : Nat} {t : τ} {o : Out} (hlt : l < 256) (hc : At obs c l t) (hr : real os x c = (.ok o, c')) :
    ∃ l' t', ideal d x l t = some (o, l', t') ∧ At obs c' l' t' ∧ l' < 256 := by
  have lift : ∀ {y : Option (Out × Nat × τ)}, (∃ t', y = some (o, l, t') ∧ At obs c' l t') →
      ∃ l' t', y = some (o, l', t') ∧ At obs c' l' t' ∧ l' < 256 :=
    fun ⟨t', h1, h2⟩ => ⟨l, t', h1, h2, hlt⟩
  cases x with
  | transact cmd rsp =>
    unfold real at hr
    dsimp only at hr
    rcases hm : Tcp.transact os cmd rsp c with ⟨e | n, b, c1⟩ <;> rw [hm] at hr
    · simp at hr
    · simp only [Prod.mk.injEq, Except.ok.injEq] at hr
      obtain ⟨rfl, rfl⟩ := hr
      obtain ⟨k1, rfl, k3, rfl, k5⟩ := transact_sound hl hlt hc hm
      exact lift ⟨_, by unfold ideal; dsimp only; rw [if_pos ⟨k1, k3⟩], k5⟩
  | command cmd a =>
    apply lift
    have hr : (outcome (runCommandWithHandles (tcpTransport os) cmd a c).result,
      (runCommandWithHandles (tcpTransport os) cmd a c).state) = (.ok o, c') := hr
    unfold ideal
    dsimp only
    rcases run_cases cmd a with ⟨o', h⟩ | ⟨bytes, -, f, h⟩
    · obtain ⟨h1, h2⟩ := h (tcpTransport os) c
      obtain ⟨h3, h4⟩ := h (deviceTransport d l) t
      rw [h1, h2] at hr
      simp only [Prod.mk.injEq, Except.ok.injEq] at hr
      obtain ⟨rfl, rfl⟩ := hr
      rw [h3, h4]
      exact ⟨t, rfl, hc⟩
    · have h1 := h (tcpTransport os) c
      have h2 := h (deviceTransport d l) t
      rw [hr] at h1
      unfold tcpTransport at h1
      dsimp only at h1
      rcases hm : Tcp.transact os bytes (List.replicate respBufferSize 0) c with ⟨e | n, b, c1⟩ <;>
        rw [hm] at h1 <;> simp at h1
      obtain ⟨rfl, rfl⟩ := h1
      obtain ⟨-, rfl, k3, rfl, k5⟩ := transact_sound hl hlt hc hm
      simp only [deviceTransport, if_pos k3, Prod.mk.injEq] at h2
      have h3 := h2.1
      have h4 := h2.2
      unfold deviceTransport
      rw [h3, h4]
      exact ⟨_, rfl, k5⟩
  | locality l' =>
    simp only [real, returns, setLocality, Prod.mk.injEq, Except.ok.injEq] at hr
    obtain ⟨rfl, rfl⟩ := hr
    exact ⟨l', t, rfl, ⟨hc.1, hc.2.1, rfl⟩, hx⟩
  | op o =>
  cases o with
  | hcrtmSequence b =>
    have hs : b.length < 2 ^ 32 := hs
    exact lift (returns_sound (sound_hcrtm hl hs) hc hr)
  | remoteHandshake v =>
    have hx : v < 2 ^ 32 := hx
    obtain ⟨t', h1, h2⟩ := returns_sound (sound_handshake hl hx) hc hr
    refine lift ⟨t', ?_, h2⟩
    rw [← h1]
    unfold ideal
    dsimp only
    cases (d.handshake t v).1 <;> rfl
  | setAlternativeResult r =>
    have hx : r < 2 ^ 32 := hx
    exact lift (returns_sound (sound_plain (m := writeVectored os .tpm _) hl (asks_vectored hl
      (by rw [word_eq, word_eq]; exact next_alternative hx))) hc hr)
  | platformSignal s => exact lift (returns_sound (sound_signal hl s) hc hr)
  | reinit => exact lift (returns_sound (sound_reinit hl) hc hr)
  | testFailureMode =>
    exact lift (returns_sound (sound_plain (m := writeAll os .plat _) hl (asks_all hl
      (by rw [word_eq]; exact next_failureMode))) hc hr)
  | getCommandResponseSizes => exact lift (returns_sound (sound_sizes hl) hc hr)
  | actGetSignaled h =>
    have hx : h < 2 ^ 32 := hx
    exact lift (returns_sound (sound_act hl hx) hc hr)
  | setFirmwareHash h =>
    have hx : h < 2 ^ 32 := hx
    exact lift (returns_sound (sound_plain (m := writeVectored os .plat _) hl (asks_vectored hl
      (by rw [word_eq, word_eq]; exact next_firmwareHash hx))) hc hr)
  | setFirmwareSvn n =>
    have hx : n < 2 ^ 32 := hx
    exact lift (returns_sound (sound_plain (m := writeVectored os .plat _) hl (asks_vectored hl
      (by rw [word_eq, word_eq]; exact next_firmwareSvn hx))) hc hr)
  | sessionEnd => exact hx.elim
  | stopSimulator => exact hx.elim

theorem call_live (hl : Willing os d obs) {x : Call} (hx : x.Typed) (hs : x.Short) {c : Conn σ}
    {l l' : Nat} {t t' : τ} {o : Out} (hlt : l < 256) (hc : At obs c l t)
    (hr : ideal d x l t = some (o, l', t')) : ∃ c', real os x c = (.ok o, c') := by
  have l0 := hl.toLink
  cases x with
  | transact cmd rsp =>
    unfold ideal at hr
    dsimp only at hr
    split at hr
    · rename_i hh
      simp only [Option.some.injEq, Prod.mk.injEq] at hr
      obtain ⟨rfl, -, -⟩ := hr
      obtain ⟨n, b, c1, hm⟩ := transact_live hl (rsp := rsp) hlt hc hh.1 hh.2
      obtain ⟨-, rfl, -, rfl, -⟩ := transact_sound l0 hlt hc hm
      exact ⟨c1, by unfold real; dsimp only; rw [hm]⟩
    · simp at hr
  | command cmd a =>
    unfold ideal at hr
    dsimp only at hr
    show ∃ c', (outcome (runCommandWithHandles (tcpTransport os) cmd a c).result,
      (runCommandWithHandles (tcpTransport os) cmd a c).state) = (.ok o, c')
    rcases run_cases cmd a with ⟨o', h⟩ | ⟨bytes, hb, f, h⟩
    · obtain ⟨h1, h2⟩ := h (tcpTransport os) c
      obtain ⟨h3, h4⟩ := h (deviceTransport d l) t
      rw [h3] at hr
      simp only [Option.some.injEq, Prod.mk.injEq] at hr
      rw [h1, h2, hr.1]
      exact ⟨c, rfl⟩
    · have h1 := h (tcpTransport os) c
      have h2 := h (deviceTransport d l) t
      by_cases hfit : (d.send t l bytes).1.length ≤ (List.replicate respBufferSize (0 : UInt8)).length
      · obtain ⟨n, b, c1, hm⟩ := transact_live hl hlt hc hb hfit
        obtain ⟨-, rfl, k3, rfl, k5⟩ := transact_sound l0 hlt hc hm
        have h3 := congrArg Prod.fst h2
        simp only [deviceTransport, if_pos k3] at h3
        unfold deviceTransport at hr
        rw [h3] at hr
        simp only [Option.some.injEq, Prod.mk.injEq] at hr
        refine ⟨c1, ?_⟩
        rw [h1]
        simp only [tcpTransport, hm, hr.1]
      · have h3 := congrArg Prod.fst h2
        simp only [deviceTransport, if_neg hfit] at h3
        unfold deviceTransport at hr
        rw [h3] at hr
        simp at hr
  | locality l2 =>
    unfold ideal at hr
    dsimp only at hr
    simp only [Option.some.injEq, Prod.mk.injEq] at hr
    rw [← hr.1]
    exact ⟨{ c with locality := l2 }, by unfold real; rfl⟩
  | op o =>
  cases o with
  | hcrtmSequence b =>
    have hs : b.length < 2 ^ 32 := hs
    exact returns_live (live_hcrtm hl hs) hc hr
  | remoteHandshake v =>
    have hx : v < 2 ^ 32 := hx
    refine returns_live (l' := l') (t' := t') (live_handshake hl hx) hc ?_
    rw [← hr]
    unfold ideal
    dsimp only
    cases (d.handshake t v).1 <;> rfl
  | setAlternativeResult r =>
    have hx : r < 2 ^ 32 := hx
    exact returns_live (live_plain (m := writeVectored os .tpm _) hl (asks_vectored l0
      (by rw [word_eq, word_eq]; exact next_alternative hx)) (total_vectored hl _ _)) hc hr
  | platformSignal s => exact returns_live (live_signal hl s) hc hr
  | reinit => exact returns_live (live_reinit hl) hc hr
  | testFailureMode =>
    exact returns_live (live_plain (m := writeAll os .plat _) hl (asks_all l0
      (by rw [word_eq]; exact next_failureMode)) (total_all hl _ _)) hc hr
  | getCommandResponseSizes => exact returns_live (live_sizes hl) hc hr
  | actGetSignaled h =>
    have hx : h < 2 ^ 32 := hx
    exact returns_live (live_act hl hx) hc hr
  | setFirmwareHash h =>
    have hx : h < 2 ^ 32 := hx
    exact returns_live (live_plain (m := writeVectored os .plat _) hl (asks_vectored l0
      (by rw [word_eq, word_eq]; exact next_firmwareHash hx)) (total_vectored hl _ _)) hc hr
  | setFirmwareSvn n =>
    have hx : n < 2 ^ 32 := hx
    exact returns_live (live_plain (m := writeVectored os .plat _) hl (asks_vectored l0
      (by rw [word_eq, word_eq]; exact next_firmwareSvn hx)) (total_vectored hl _ _)) hc hr
  | sessionEnd => exact hx.elim
  | stopSimulator => exact hx.elim

end Verif.EndToEnd
