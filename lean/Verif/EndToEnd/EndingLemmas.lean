import Verif.EndToEnd.Ending
import Verif.EndToEnd.ProgramLemmas

/-! Lemmas for C88. -/

namespace Verif.EndToEnd
open Verif Verif.Errors Verif.Client Verif.Tcp

variable {σ τ α : Type} {os : Os σ} {d : Device τ} {obs : σ → World τ} {shut : σ → Port → Prop}

theorem next_short {p : Port} {b : Bytes} (h : b.length < 4) : next p b = none := by
  have hw : nextWord b = none := by
    unfold nextWord
    rw [if_neg (by omega)]
  cases p <;> simp [next, nextTpm, nextPlat, andThen, hw]

/-- A code that ends a connection. -/
def Code (code : Nat) : Prop := code = 20 ∨ code = 21

theorem Ends.code {x : Call} {code : Nat} (h : Ends x code) : Code code := by
  cases h
  · exact .inl rfl
  · exact .inr rfl

theorem Code.lt {code : Nat} (h : Code code) : code < 2 ^ 32 := by
  rcases h with rfl | rfl <;> decide

theorem next_leave {p : Port} {code : Nat} (h : Code code) :
    next p (word code) = some (.leave p code, []) := by
  have hv := nextWord_word h.lt []
  rw [List.append_nil] at hv
  rcases h with rfl | rfl <;> cases p <;> simp [next, nextTpm, nextPlat, andThen, hv] <;> rfl

/-- The parts `x` of the code have arrived on the ports. -/
def Phase (d : Device τ) (t : τ) (code : Nat) (x : Port → Bytes) (w : World τ) : Prop :=
  ∃ left : List Port, left.Nodup ∧ (∀ p, p ∈ left → x p = word code) ∧
    w.dev = left.foldl (fun t p => d.leave t p code) t ∧
    ∀ p, w.side p = if p ∈ left then ⟨[], [], true⟩ else ⟨x p, [], false⟩

/-- The parts are parts. -/
def Parts (code : Nat) (x : Port → Bytes) : Prop := ∀ p, ∃ y, x p ++ y = word code

theorem Phase.serve {t : τ} {code : Nat} {x : Port → Bytes} {w w' : World τ} (hc : Code code)
    (hx : Parts code x) (h : Phase d t code x w) (hs : Serve d w w') : Phase d t code x w' := by
  obtain ⟨p, r, rest, a, t', h1, h2, h3, rfl⟩ := serve_cases hs
  obtain ⟨left, g1, g2, g3, g4⟩ := h
  have hp : p ∉ left := by
    intro hp
    rw [g4 p, if_pos hp] at h1
    simp at h1
  rw [g4 p, if_neg hp] at h2
  dsimp only at h2
  have hw : x p = word code := by
    obtain ⟨y, hy⟩ := hx p
    by_cases hl : (x p).length < 4
    · rw [next_short hl] at h2
      simp at h2
    · have hlen := congrArg List.length hy
      rw [List.length_append, four] at hlen
      have : y = [] := List.length_eq_zero_iff.1 (by omega)
      rw [this, List.append_nil] at hy
      exact hy
  rw [hw, next_leave hc] at h2
  simp only [Option.some.injEq, Prod.mk.injEq] at h2
  obtain ⟨rfl, rfl⟩ := h2
  simp only [Device.answer, Prod.mk.injEq] at h3
  obtain ⟨rfl, rfl⟩ := h3
  refine ⟨left ++ [p], ?_, ?_, ?_, ?_⟩
  · rw [List.nodup_append]
    refine ⟨g1, by simp, ?_⟩
    intro a ha b hb
    simp only [List.mem_singleton] at hb
    subst hb
    intro hab
    exact hp (hab ▸ ha)
  · intro q hq
    rcases List.mem_append.1 hq with hq | hq
    · exact g2 q hq
    · rw [List.mem_singleton.1 hq]
      exact hw
  · show d.leave w.dev p code = _
    rw [List.foldl_append, g3]
    rfl
  · intro q
    rw [set_side]
    by_cases hq : q = p
    · subst hq
      rw [if_pos rfl, if_pos (by simp), g4 q, if_neg hp]
      rfl
    · rw [if_neg hq, g4 q]
      by_cases hql : q ∈ left
      · rw [if_pos hql, if_pos (by simp [hql])]
      · rw [if_neg hql, if_neg (by simp [hql, hq])]

theorem Phase.later {t : τ} {code : Nat} {x : Port → Bytes} {w w' : World τ} (hc : Code code)
    (hx : Parts code x) (h : Phase d t code x w) (hs : Later d w w') : Phase d t code x w' := by
  induction hs with
  | refl => exact h
  | step h1 _ ih => exact ih (h.serve hc hx h1)

/-- The parts with more on one port. -/
def more (x : Port → Bytes) (p : Port) (b : Bytes) : Port → Bytes :=
  fun q => if q = p then x q ++ b else x q

theorem Phase.give {t : τ} {code : Nat} {x : Port → Bytes} {w : World τ} {p : Port} {b y : Bytes}
    (hb : x p ++ (b ++ y) = word code) (h : Phase d t code x w) :
    Phase d t code (more x p b) (w.give p b) := by
  obtain ⟨left, g1, g2, g3, g4⟩ := h
  have hnil : p ∈ left → b = [] := by
    intro hp
    have hlen := congrArg List.length hb
    rw [g2 p hp, List.length_append, List.length_append] at hlen
    exact List.length_eq_zero_iff.1 (by omega)
  refine ⟨left, g1, ?_, g3, ?_⟩
  · intro q hq
    unfold more
    split
    · rename_i hqp
      subst hqp
      rw [hnil hq, List.append_nil]
      exact g2 q hq
    · exact g2 q hq
  · intro q
    unfold World.give more
    rw [set_side]
    by_cases hq : q = p
    · subst hq
      rw [if_pos rfl, g4 q]
      by_cases hql : q ∈ left
      · rw [if_pos hql, if_pos hql, hnil hql]
        rfl
      · rw [if_neg hql, if_neg hql, if_pos rfl]
    · rw [if_neg hq, if_neg hq]
      exact g4 q

theorem parts_more {code : Nat} {x : Port → Bytes} {p : Port} {b y : Bytes} (hx : Parts code x)
    (hb : x p ++ (b ++ y) = word code) : Parts code (more x p b) := by
  intro q
  unfold more
  split
  · rename_i hqp
    subst hqp
    exact ⟨y, by rw [List.append_assoc]; exact hb⟩
  · exact hx q

theorem more_more (x : Port → Bytes) (p : Port) (a b : Bytes) :
    more (more x p a) p b = more x p (a ++ b) := by
  funext q
  unfold more
  split
  · rw [List.append_assoc]
  · rfl

theorem write_phase (hl : Link os d obs) {t : τ} {code : Nat} (hc : Code code) {x : Port → Bytes}
    {p : Port} {b : Bytes} {n : Nat} {c c' : Conn σ} (hx : Parts code x)
    (hb : x p ++ b = word code) (h : Phase d t code x (obs c.net))
    (hw : write os p b c = (.ok n, c')) : Phase d t code (more x p (b.take n)) (obs c'.net) := by
  unfold write at hw
  rcases ho : os.write c.net p b with ⟨e | n', s'⟩ <;> rw [ho] at hw
  · simp at hw
  · simp only [Prod.mk.injEq, Except.ok.injEq] at hw
    obtain ⟨rfl, rfl⟩ := hw
    obtain ⟨w, h1, h2⟩ := hl.write c.net p b n' (by rw [ho])
    rw [ho] at h2
    have hb' : x p ++ (b.take n' ++ b.drop n') = word code := by
      rw [List.take_append_drop]; exact hb
    exact ((h.later hc hx h1).give hb').later hc (parts_more hx hb') h2

theorem writeAll_phase (hl : Link os d obs) {t : τ} {code : Nat} (hc : Code code) {p : Port}
    (b : Bytes) : ∀ (x : Port → Bytes) (c c' : Conn σ) (u : Unit), Parts code x →
    x p ++ b = word code → Phase d t code x (obs c.net) → writeAll os p b c = (.ok u, c') →
    Phase d t code (more x p b) (obs c'.net) := by
  induction hk : b.length using Nat.strongRecOn generalizing b with
  | ind k ih =>
    intro x c c' u hx hb h hw
    rw [writeAll] at hw
    split at hw
    · rename_i hb0
      have hb0 : b = [] := by simpa using hb0
      subst hb0
      simp only [Prod.mk.injEq] at hw
      obtain ⟨-, rfl⟩ := hw
      have : more x p [] = x := by
        funext q
        unfold more
        split
        · rw [List.append_nil]
        · rfl
      rw [this]
      exact h
    · rcases ho : write os p b c with ⟨e | n, c1⟩ <;> rw [ho] at hw
      · simp at hw
      · dsimp only at hw
        split at hw
        · simp at hw
        · rename_i hb0 hn0
          have hb0 : 0 < b.length := by
            cases b with
            | nil => simp at hb0
            | cons _ _ => simp
          have hb' : x p ++ (b.take n ++ b.drop n) = word code := by
            rw [List.take_append_drop]; exact hb
          have h1 := ih (b.drop n).length (by rw [List.length_drop]; omega) (b.drop n) rfl
            (more x p (b.take n)) c1 c' u (parts_more hx hb')
            (by unfold more; rw [if_pos rfl, List.append_assoc]; exact hb')
            (write_phase hl hc hx hb h ho) hw
          rw [more_more, List.take_append_drop] at h1
          exact h1

theorem shutdown_ok {p : Port} {c c' : Conn σ} {u : Unit} (h : shutdown os p c = (.ok u, c')) :
    (os.shutdown c.net p).1 = .ok () ∧ c'.net = (os.shutdown c.net p).2 := by
  unfold shutdown at h
  rcases ho : os.shutdown c.net p with ⟨e | v, s'⟩ <;> rw [ho] at h
  · simp at h
  · simp only [Prod.mk.injEq] at h
    obtain ⟨-, rfl⟩ := h
    exact ⟨rfl, rfl⟩

theorem writeAll_stays (hs : Shuts os d obs shut) {p q : Port} (b : Bytes) :
    ∀ (c : Conn σ), shut c.net q → shut (writeAll os p b c).2.net q := by
  induction hk : b.length using Nat.strongRecOn generalizing b with
  | ind k ih =>
    intro c h
    rw [writeAll]
    split
    · exact h
    · rename_i hb0
      have hb0 : 0 < b.length := by
        cases b with
        | nil => simp at hb0
        | cons _ _ => simp
      have h1 := hs.write_stays c.net p b q h
      unfold write
      rcases ho : os.write c.net p b with ⟨e | n, s'⟩ <;> rw [ho] at h1
      · exact h1
      · dsimp only
        split
        · exact h1
        · exact ih _ (by rw [List.length_drop]; omega) (b.drop n) rfl _ h1

/-- Both ports are told, one after the other. -/
theorem ending (hl : Link os d obs) (hs : Shuts os d obs shut) {code : Nat} (hc : Code code)
    {c c' : Conn σ} {u : Unit} (h : (obs c.net).Quiet)
    (hr : (M.bind (writeAll os .tpm (word code)) fun _ => M.bind (shutdown os .tpm) fun _ =>
      M.bind (writeAll os .plat (word code)) fun _ => shutdown os .plat) c = (.ok u, c')) :
    Ended d obs shut (obs c.net).dev code c' := by
  obtain ⟨u1, c1, h1, hr⟩ := bind_ok hr
  obtain ⟨u2, c2, h2, hr⟩ := bind_ok hr
  obtain ⟨u3, c3, h3, h4⟩ := bind_ok hr
  obtain ⟨d2, e2⟩ := shutdown_ok h2
  obtain ⟨d4, e4⟩ := shutdown_ok h4
  have p0 : Phase d (obs c.net).dev code (fun _ => []) (obs c.net) :=
    ⟨[], .nil, by simp, rfl, fun p => by simpa using h p⟩
  have q0 : Parts code fun _ => [] := fun _ => ⟨word code, rfl⟩
  have p1 := writeAll_phase hl hc (word code) _ c c1 u1 q0 (by rfl) p0 h1
  have q1 : Parts code (more (fun _ => []) .tpm (word code)) :=
    parts_more (y := []) q0 (by simp)
  have p2 := p1.later hc q1 (hs.later c1.net .tpm)
  rw [← e2] at p2
  have p3 := writeAll_phase hl hc (word code) _ c2 c3 u3 q1 (by rfl) p2 h3
  have q3 : Parts code (more (more (fun _ => []) .tpm (word code)) .plat (word code)) :=
    parts_more (y := []) q1 (by simp [more])
  have p4 := p3.later hc q3 (hs.later c3.net .plat)
  rw [← e4] at p4
  have s2 : shut c2.net .tpm := by rw [e2]; exact hs.down _ _ d2
  have s3 : shut c3.net .tpm := by
    have := writeAll_stays hs (p := .plat) (word code) c2 s2
    rw [h3] at this
    exact this
  constructor
  · obtain ⟨left, g1, -, g3, g4⟩ := p4
    refine ⟨left, g1, g3, fun p => ?_⟩
    rw [g4 p]
    cases p <;> simp [more]
  · intro p
    cases p
    · rw [e4]; exact hs.stays _ _ _ s3
    · rw [e4]; exact hs.down _ _ d4

theorem ends_eq (os : Os σ) : sessionEnd os = (M.bind (writeAll os .tpm (word 20)) fun _ =>
      M.bind (shutdown os .tpm) fun _ => M.bind (writeAll os .plat (word 20)) fun _ => shutdown os .plat) ∧
    stopSimulator os = (M.bind (writeAll os .tpm (word 21)) fun _ =>
      M.bind (shutdown os .tpm) fun _ => M.bind (writeAll os .plat (word 21)) fun _ => shutdown os .plat) := by
  constructor
  · unfold sessionEnd
    rw [word_eq, word_eq]
    rfl
  · unfold stopSimulator
    rw [word_eq, word_eq]
    rfl

/-! ### Progress -/

theorem told_phase {w : World τ} {t : τ} {code : Nat} :
    World.Told d w t code ↔ Phase d t code (fun _ => word code) w :=
  ⟨fun ⟨left, h1, h2, h3⟩ => ⟨left, h1, fun _ _ => rfl, h2, h3⟩,
    fun ⟨left, h1, _, h2, h3⟩ => ⟨left, h1, h2, h3⟩⟩

theorem told_later {w w' : World τ} {t : τ} {code : Nat} (hc : Code code) (h : World.Told d w t code)
    (hl : Later d w w') : World.Told d w' t code :=
  told_phase.2 ((told_phase.1 h).later hc (fun _ => ⟨[], by simp⟩) hl)

/-- Two different ports, in some order. -/
theorem two_ports {left : List Port} (h : left.Nodup) (ha : ∀ p, p ∈ left) :
    left = [.tpm, .plat] ∨ left = [.plat, .tpm] := by
  have h1 := ha .tpm
  have h2 := ha .plat
  match left, h, h1, h2 with
  | [], _, h1, _ => simp at h1
  | [a], _, h1, h2 =>
    simp only [List.mem_singleton] at h1 h2
    rw [← h1] at h2
    simp at h2
  | [a, b], h, h1, h2 => cases a <;> cases b <;> simp_all
  | a :: b :: e :: l, h, _, _ =>
    exfalso
    simp only [List.nodup_cons, List.mem_cons, not_or] at h
    cases a <;> cases b <;> cases e <;> simp_all

theorem told_serve {w : World τ} {t : τ} {code : Nat} (hc : Code code) (h : World.Told d w t code)
    {p : Port} (hp : (w.side p).closed = false) : ∃ w', Serve d w w' ∧ (w'.side p).closed = true ∧
      ∀ q, (w.side q).closed = true → (w'.side q).closed = true := by
  obtain ⟨left, h1, h2, h3⟩ := h
  have hn : p ∉ left := by
    intro hn
    rw [h3 p, if_pos hn] at hp
    simp at hp
  have hs : next p (w.side p).unread = some (.leave p code, []) := by
    rw [h3 p, if_neg hn]
    exact next_leave hc
  refine ⟨_, .close w p _ _ _ hp hs rfl, by rw [set_side, if_pos rfl], fun q hq => ?_⟩
  rw [set_side]
  split
  · rfl
  · exact hq

/-! ### After the end -/

theorem write_shut (hs : Shuts os d obs shut) {p : Port} {b : Bytes} (hb : b ≠ []) {c : Conn σ}
    (h : shut c.net p) : ∃ e c', write os p b c = (.error e, c') ∧ c'.log = c.log ∧
      c'.locality = c.locality ∧ Later d (obs c.net) (obs c'.net) ∧
      ∀ q, shut c.net q → shut c'.net q := by
  obtain ⟨⟨e, h1⟩, h2⟩ := hs.refuses c.net p b h hb
  have h3 := fun q => hs.write_stays c.net p b q
  unfold write
  rcases ho : os.write c.net p b with ⟨e' | n, s'⟩ <;> rw [ho] at h1 h2 h3
  · exact ⟨e', _, rfl, rfl, rfl, h2, h3⟩
  · simp at h1

/-- A method that begins with a write and fails when the write fails. -/
def Starts (os : Os σ) (m : M σ α) : Prop :=
  ∃ p b, b ≠ [] ∧ ∀ c e c', write os p b c = (.error e, c') → m c = (.error e, c')

theorem starts_all {p : Port} {b : Bytes} (hb : b ≠ []) : Starts os (writeAll os p b) :=
  ⟨p, b, hb, fun c e c' h => by
    rw [writeAll, if_neg (by simpa using hb), h]⟩

theorem starts_vectored {p : Port} {b : Bytes} (hb : b ≠ []) : Starts os (writeVectored os p b) :=
  ⟨p, b, hb, fun c e c' h => by
    unfold writeVectored
    rw [bind_def, M.bind, h]⟩

theorem Starts.bind {β : Type} {m : M σ α} (h : Starts os m) (k : α → M σ β) :
    Starts os (M.bind m k) := by
  obtain ⟨p, b, hb, h⟩ := h
  exact ⟨p, b, hb, fun c e c' hw => by rw [M.bind, h c e c' hw]⟩

/-- Nothing happens any more. -/
def Inert (d : Device τ) (obs : σ → World τ) (shut : σ → Port → Prop) (c c' : Conn σ) : Prop :=
  c'.log = c.log ∧ Later d (obs c.net) (obs c'.net) ∧ ∀ q, shut c.net q → shut c'.net q

theorem Starts.dead (hs : Shuts os d obs shut) {m : M σ α} (h : Starts os m) {c : Conn σ}
    (hc : ∀ p, shut c.net p) : ∃ e c', m c = (.error e, c') ∧ Inert d obs shut c c' := by
  obtain ⟨p, b, hb, h⟩ := h
  obtain ⟨e, c', h1, h2, -, h3, h4⟩ := write_shut hs hb (hc p)
  exact ⟨e, c', h c e c' h1, h2, h3, h4⟩

theorem returns_dead {m : M σ α} {f : α → Out} {c : Conn σ}
    (h : ∃ e c', m c = (.error e, c') ∧ Inert d obs shut c c') :
    ∃ e c', returns f (m c) = (.error e, c') ∧ Inert d obs shut c c' := by
  obtain ⟨e, c', h1, h2⟩ := h
  exact ⟨e, c', by rw [h1]; rfl, h2⟩

theorem op_dead (hs : Shuts os d obs shut) (o : Op) {c : Conn σ} (hc : ∀ p, shut c.net p) :
    ∃ e c', real os (.op o) c = (.error e, c') ∧ Inert d obs shut c c' := by
  have n4 : ∀ n, toBE 4 n ≠ [] := by
    intro n h
    have := congrArg List.length h
    rw [word_eq, four] at this
    simp at this
  cases o with
  | hcrtmSequence b => exact returns_dead (((starts_all (n4 _)).bind _).dead hs hc)
  | remoteHandshake v =>
    exact returns_dead (((starts_vectored (by simp [n4])).bind _).dead hs hc)
  | setAlternativeResult r =>
    exact returns_dead (((starts_vectored (by simp [n4])).bind _).dead hs hc)
  | platformSignal s => exact returns_dead (((starts_all (n4 _)).bind _).dead hs hc)
  | reinit => exact returns_dead ((((starts_all (n4 _)).bind _).bind _).dead hs hc)
  | testFailureMode => exact returns_dead (((starts_all (n4 _)).bind _).dead hs hc)
  | getCommandResponseSizes => exact returns_dead (((starts_all (n4 _)).bind _).dead hs hc)
  | actGetSignaled h =>
    exact returns_dead (((starts_vectored (by simp [n4])).bind _).dead hs hc)
  | setFirmwareHash h =>
    exact returns_dead (((starts_vectored (by simp [n4])).bind _).dead hs hc)
  | setFirmwareSvn n =>
    exact returns_dead (((starts_vectored (by simp [n4])).bind _).dead hs hc)
  | sessionEnd => exact returns_dead (((starts_all (n4 _)).bind _).dead hs hc)
  | stopSimulator => exact returns_dead (((starts_all (n4 _)).bind _).dead hs hc)

theorem Inert.refl (c : Conn σ) : Inert d obs shut c c := ⟨rfl, .refl _, fun _ h => h⟩

theorem transact_dead (hs : Shuts os d obs shut) (cmd rsp : Bytes) {c : Conn σ}
    (hc : ∀ p, shut c.net p) : ∃ e c', Tcp.transact os cmd rsp c = (.error e, rsp, c') ∧
      Inert d obs shut c c' := by
  unfold Tcp.transact
  split
  · exact ⟨_, c, rfl, .refl c⟩
  · have hne : sendFrame c.locality cmd ≠ [] := by
      rw [sendFrame_eq]
      simp [request]
    obtain ⟨e, c', h1, h2⟩ := (starts_vectored (p := .tpm) hne).dead hs hc
    rw [h1]
    exact ⟨e, c', rfl, h2⟩

theorem command_dead (hs : Shuts os d obs shut) (cmd : Command) (a : Area) {c : Conn σ}
    (hc : ∀ p, shut c.net p) :
    (∀ v, (runCommandWithHandles (tcpTransport os) cmd a c).result ≠ .ok v) ∧
    Inert d obs shut c (runCommandWithHandles (tcpTransport os) cmd a c).state := by
  unfold runCommandWithHandles
  rcases hb : buildCommand cmd a with ⟨n | e | _, buf⟩ <;> dsimp only
  · rcases hsl : sliceTo buf n with _ | bytes <;> dsimp only
    · exact ⟨by simp, .refl c⟩
    · obtain ⟨e, c', h1, h2⟩ := transact_dead hs bytes (List.replicate respBufferSize 0) hc
      simp only [tcpTransport, h1]
      exact ⟨by simp, h2⟩
  · exact ⟨by simp, .refl c⟩
  · exact ⟨by simp, .refl c⟩

/-! ### A gentle operating system -/

theorem shutdown_gentle (hg : Gentle os shut) {p : Port} {c : Conn σ} (h : ¬ shut c.net p) :
    ∃ c', shutdown os p c = (.ok (), c') ∧ ∀ q, q ≠ p → ¬ shut c.net q → ¬ shut c'.net q := by
  have h1 := hg.shuts c.net p h
  have h2 := fun q => hg.keeps c.net p q
  unfold shutdown
  rcases ho : os.shutdown c.net p with ⟨e | u, s'⟩ <;> rw [ho] at h1 h2
  · simp at h1
  · exact ⟨_, rfl, h2⟩

theorem writeAll_gentle (hg : Gentle os shut) {p : Port} {b : Bytes} {c : Conn σ}
    (h : ¬ shut c.net p) :
    ∃ c', writeAll os p b c = (.ok (), c') ∧ ∀ q, ¬ shut c.net q → ¬ shut c'.net q := by
  rw [writeAll]
  split
  · exact ⟨c, rfl, fun _ h => h⟩
  · rename_i hb
    have h1 := hg.accepts c.net p b h
    have h2 := fun q => hg.write_keeps c.net p b q
    unfold write
    rcases ho : os.write c.net p b with ⟨e | n, s'⟩ <;> rw [ho] at h1 h2
    · simp at h1
    · simp only [Except.ok.injEq] at h1
      subst h1
      dsimp only
      rw [dif_neg (by simpa using hb), List.drop_length, writeAll, if_pos (by rfl)]
      exact ⟨_, rfl, h2⟩

theorem ending_gentle (hg : Gentle os shut) {b : Bytes} {c : Conn σ} (h : ∀ p, ¬ shut c.net p) :
    ∃ c', (M.bind (writeAll os .tpm b) fun _ => M.bind (shutdown os .tpm) fun _ =>
      M.bind (writeAll os .plat b) fun _ => shutdown os .plat) c = (.ok (), c') := by
  obtain ⟨c1, h1, k1⟩ := writeAll_gentle hg (b := b) (h .tpm)
  obtain ⟨c2, h2, k2⟩ := shutdown_gentle hg (k1 .tpm (h .tpm))
  obtain ⟨c3, h3, k3⟩ := writeAll_gentle hg (b := b) (k2 .plat (by decide) (k1 .plat (h .plat)))
  obtain ⟨c4, h4, -⟩ := shutdown_gentle hg (k3 .plat (k2 .plat (by decide) (k1 .plat (h .plat))))
  refine ⟨c4, ?_⟩
  simp only [M.bind, h1, h2, h3, h4]

end Verif.EndToEnd
