import Verif.Tcp.SimulatorProps

/-! C91: a simulator that was started is the process at the other end of the connection. -/

namespace Verif.Tcp
open Verif

variable {σ : Type}

/-! ### Specification -/

/-- A machine with processes that listen on TCP ports: which process accepts connections on
a port, and which process is at the other end of each stream.  A successful connection is
one to the process that accepts connections on this port, and leaves the other stream
alone. -/
structure Machine (sys : Sys σ) where
  listener : σ → Nat → Option Nat
  peer : σ → Port → Option Nat
  connects : ∀ s p n u s', sys.connect s p n = (.ok u, s') →
    (∃ pid, listener s n = some pid ∧ peer s' p = some pid) ∧ ∀ q, q ≠ p → peer s' q = peer s q

/-- As long as `I` holds, a port file that can be read holds the port on which nobody but the
process `pid` accepts connections; it keeps holding when time passes, when files are read
and when connections are made. -/
structure Fresh (sys : Sys σ) (M : Machine sys) (cwd : String) (pid : Nat) (I : σ → Prop)
    (p1 p2 : Nat) : Prop where
  command : ∀ s t s', I s → sys.readFile s cwd "command.port" = (.ok t, s') → PortText t p1
  platform : ∀ s t s', I s → sys.readFile s cwd "platform.port" = (.ok t, s') → PortText t p2
  own1 : ∀ s q, I s → M.listener s p1 = some q → q = pid
  own2 : ∀ s q, I s → M.listener s p2 = some q → q = pid
  reads : ∀ s d n, I s → I (sys.readFile s d n).2
  sleeps : ∀ s, I s → I (sys.sleep s)
  dials : ∀ s p n, I s → I (sys.connect s p n).2

/-! ### Lemmas -/

theorem portText_unique {t : List Char} {p q : Nat} (h1 : PortText t p) (h2 : PortText t q) :
    p = q := by
  have e1 := (parse_iff t p).mpr h1
  have e2 := (parse_iff t q).mpr h2
  rw [e1] at e2
  exact Option.some.inj e2

theorem beforeAttempt_inv {α : Type} {attempt : σ → Except IoErr α × σ} {sleep : σ → σ}
    {I : σ → Prop} (ha : ∀ s, I s → I (attempt s).2) (hs : ∀ s, I s → I (sleep s)) {s : σ} (h : I s)
    (k : Nat) : I (beforeAttempt attempt sleep s k) := by
  induction k with
  | zero => exact h
  | succ k ih => exact hs _ (ha _ ih)

theorem Retried.inv {α : Type} {attempt : σ → Except IoErr α × σ} {sleep : σ → σ}
    {I : σ → Prop} (ha : ∀ s, I s → I (attempt s).2) (hs : ∀ s, I s → I (sleep s)) {s s' : σ}
    {r : Except IoErr α} (h : I s) (hr : Retried attempt sleep s r s') :
    ∃ s0, I s0 ∧ attempt s0 = (r, s') ∧ I s' := by
  obtain ⟨i, -, -, he, -⟩ := hr
  have h0 := beforeAttempt_inv ha hs h i
  refine ⟨_, h0, he, ?_⟩
  have := ha _ h0
  rwa [he] at this

theorem connect_keeps {sys : Sys σ} {I : σ → Prop} (hd : ∀ s p n, I s → I (sys.connect s p n).2)
    (a b : Option Nat) (s : σ) (h : I s) : I (connect sys.toOs a b s).2 := by
  unfold connect
  have h1 := hd s .tpm (a.getD 2321) h
  rcases e1 : sys.connect s .tpm (a.getD 2321) with ⟨_ | _, s1⟩ <;> rw [e1] at h1 <;> simp only
  · exact h1
  · have h2 := hd s1 .plat (b.getD 2322) h1
    rcases e2 : sys.connect s1 .plat (b.getD 2322) with ⟨_ | _, s2⟩ <;> rw [e2] at h2 <;> exact h2

/-! ### C91 -/

/-- **C91 (partial).** If, from the moment the process is started, no port files are found but
its own, a simulator is connected to the process that was started, on both streams, however
long it takes to write them.  Missing: files left behind by another process. -/
theorem C91_own_process_partial (sys : Sys σ) (M : Machine sys) (cmd : Cmd) (s s1 s' : σ) (pid : Nat)
    (I : σ → Prop) (p1 p2 : Nat) (hF : Fresh sys M cmd.cwd pid I p1 p2)
    (hsp : sys.spawn s cmd = (.ok pid, s1)) (h1 : I s1) (sim : Sim σ)
    (hn : Sim.new sys cmd s = (.ok sim, s')) :
    sim.child = pid ∧ sim.conn.net = s' ∧ M.peer s' .tpm = some pid ∧ M.peer s' .plat = some pid := by
  obtain ⟨s1', s2, s3, q1, q2, g1, ⟨t1, g2, w1⟩, ⟨t2, g3, w2⟩, g4⟩ :=
    (C69_started_partial sys cmd s s' sim).mp hn
  rw [hsp] at g1
  simp only [Prod.mk.injEq, Except.ok.injEq] at g1
  obtain ⟨rfl, rfl⟩ := g1
  obtain ⟨a, ia, ea, i2⟩ := g2.inv (I := I) (fun s h => hF.reads s _ _ h) hF.sleeps h1
  obtain ⟨b, ib, eb, i3⟩ := g3.inv (I := I) (fun s h => hF.reads s _ _ h) hF.sleeps i2
  have := portText_unique w1 (hF.command _ _ _ ia ea); subst this
  have := portText_unique w2 (hF.platform _ _ _ ib eb); subst this
  obtain ⟨c, ic, ec, -⟩ := g4.inv (I := I) (connect_keeps hF.dials _ _) hF.sleeps i3
  unfold connect at ec
  simp only [Option.getD_some] at ec
  rcases e1 : sys.connect c .tpm q1 with ⟨_ | _, c1⟩ <;> rw [e1] at ec <;> simp only at ec
  · simp at ec
  have ic1 := hF.dials c .tpm q1 ic
  rw [e1] at ic1
  rcases e2 : sys.connect c1 .plat q2 with ⟨_ | _, c2⟩ <;> rw [e2] at ec <;> simp only at ec
  · simp at ec
  simp only [Prod.mk.injEq, Except.ok.injEq] at ec
  obtain ⟨ec, rfl⟩ := ec
  obtain ⟨⟨x, hx, px⟩, -⟩ := M.connects _ _ _ _ _ e1
  obtain ⟨⟨y, hy, py⟩, py'⟩ := M.connects _ _ _ _ _ e2
  have := hF.own1 _ _ ic hx; subst this
  have := hF.own2 _ _ ic1 hy; subst this
  exact ⟨rfl, by rw [← ec], by rw [py' .tpm (by decide), px], py⟩

/-! ### A machine -/

/-- The time, and the process at the other end of each stream. -/
structure Scene where
  time : Nat
  peer : Port → Option Nat

/-- The simulator of an earlier session, process 6, listens on ports 42 and 43.  Process 7 is
started and listens on ports 50 and 51; it takes a second to write them to its files.  Before
that there are the files of process 6, or none. -/
def office (leftover : Bool) : Sys Scene where
  connect s p n :=
    if n = 42 ∨ n = 43 then (.ok (), { s with peer := fun q => if q = p then some 6 else s.peer q })
    else if n = 50 ∨ n = 51 then (.ok (), { s with peer := fun q => if q = p then some 7 else s.peer q })
    else (.error .other, s)
  write s _ b := (.ok b.length, s)
  write_le := by intro s p b n h; injection h with h; omega
  read s _ _ := (.ok [], s)
  read_le := by intro s p n b h; injection h with h; rw [← h]; simp
  shutdown s _ := (.ok (), s)
  sleep s := { s with time := s.time + 1 }
  spawn s _ := (.ok 7, s)
  kill s _ := (.ok (), s)
  readFile s _ name :=
    if 1 ≤ s.time then (.ok (if name = "command.port" then ['5', '0'] else ['5', '1']), s)
    else if leftover then (.ok (if name = "command.port" then ['4', '2'] else ['4', '3']), s)
    else (.error .other, s)

/-- Its processes. -/
def officeMachine (leftover : Bool) : Machine (office leftover) where
  listener _ n := if n = 42 ∨ n = 43 then some 6 else if n = 50 ∨ n = 51 then some 7 else none
  peer s p := s.peer p
  connects := by
    intro s p n u s' h
    simp only [office] at h
    split at h
    · rename_i hn
      injection h with _ h
      subst h
      exact ⟨⟨6, by simp [hn], by simp⟩, fun q hq => by simp [hq]⟩
    · split at h
      · rename_i h1 hn
        injection h with _ h
        subst h
        exact ⟨⟨7, by simp [h1, hn], by simp⟩, fun q hq => by simp [hq]⟩
      · injection h with h _
        cases h

/-- The beginning. -/
def morning : Scene := ⟨0, fun _ => none⟩

theorem text_50 : PortText ['5', '0'] 50 := (parse_iff _ _).mp (by decide)
theorem text_51 : PortText ['5', '1'] 51 := (parse_iff _ _).mp (by decide)
theorem text_42 : PortText ['4', '2'] 42 := (parse_iff _ _).mp (by decide)
theorem text_43 : PortText ['4', '3'] 43 := (parse_iff _ _).mp (by decide)

/-- **C91 is violated**: process 7 is started, and one second later its port files are there and
it accepts connections; but as there are port files of process 6, which is still running,
the new simulator is connected to process 6. -/
theorem C91_violated :
    (office true).spawn morning ⟨"tpm", [], "."⟩ = (.ok 7, morning) ∧
    (∃ t s', (office true).readFile ((office true).sleep morning) "." "command.port" = (.ok t, s') ∧
      PortText t 50 ∧ (officeMachine true).listener s' 50 = some 7) ∧
    ∃ sim s', Sim.new (office true) ⟨"tpm", [], "."⟩ morning = (.ok sim, s') ∧ sim.child = 7 ∧
      (officeMachine true).peer s' .tpm = some 6 ∧ (officeMachine true).peer s' .plat = some 6 := by
  refine ⟨rfl, ⟨['5', '0'], _, rfl, text_50, rfl⟩, ⟨7, ⟨_, 0, []⟩⟩, _,
    (C69_started_partial _ _ _ _ _).mpr ⟨morning, morning, morning, 42, 43, rfl,
      ⟨['4', '2'], ⟨0, by decide, fun k hk => absurd hk (by omega), rfl, .inl rfl⟩, text_42⟩,
      ⟨['4', '3'], ⟨0, by decide, fun k hk => absurd hk (by omega), rfl, .inl rfl⟩, text_43⟩,
      ⟨0, by decide, fun k hk => absurd hk (by omega), rfl, .inl rfl⟩⟩, rfl, rfl, rfl⟩

/-- Without files left behind it is connected to process 7, after a second. -/
example : Fresh (office false) (officeMachine false) "." 7 (fun _ => True) 50 51 where
  command s t s' _ h := by
    simp only [office] at h
    split at h
    · simp only [Prod.mk.injEq, Except.ok.injEq] at h
      rw [← h.1]; exact text_50
    · simp at h
  platform s t s' _ h := by
    simp only [office] at h
    split at h
    · simp only [Prod.mk.injEq, Except.ok.injEq] at h
      rw [← h.1]; exact text_51
    · simp at h
  own1 s q _ h := (Option.some.inj h).symm
  own2 s q _ h := (Option.some.inj h).symm
  reads _ _ _ _ := trivial
  sleeps _ _ := trivial
  dials _ _ _ _ := trivial

example : ∃ sim s', Sim.new (office false) ⟨"tpm", [], "."⟩ morning = (.ok sim, s') ∧ s'.time = 1 := by
  refine ⟨⟨7, ⟨_, 0, []⟩⟩, _,
    (C69_started_partial _ _ _ _ _).mpr ⟨morning, { morning with time := 1 }, { morning with time := 1 },
      50, 51, rfl, ⟨['5', '0'], ⟨1, by decide, fun k hk => ?_, rfl, .inl rfl⟩, text_50⟩,
      ⟨['5', '1'], ⟨0, by decide, fun k hk => absurd hk (by omega), rfl, .inl rfl⟩, text_51⟩,
      ⟨0, by decide, fun k hk => absurd hk (by omega), rfl, .inl rfl⟩⟩, rfl⟩
  have : k = 0 := by omega
  subst this; rfl

end Verif.Tcp
