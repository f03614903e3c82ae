import Verif.Tcp.Spec
import Verif.Codec.IntLemmas

/-! Helper lemmas for the simulator connection. -/

namespace Verif.Tcp
open Verif

variable {σ : Type}

/-- `Except.isOk` in a form convenient for `simp`. -/
@[simp] theorem isOk_ok {ε α : Type} (a : α) : (Except.ok a : Except ε α).isOk = true := rfl
@[simp] theorem isOk_error {ε α : Type} (e : ε) : (Except.error e : Except ε α).isOk = false := rfl

theorem bind_def {α β : Type} (m : M σ α) (f : α → M σ β) : (m >>= f) = M.bind m f := rfl

theorem outs_append (p : Port) (a b : Bytes) : outs p (a ++ b) = outs p a ++ outs p b := by
  simp [outs]
theorem inps_append (p : Port) (a b : Bytes) : inps p (a ++ b) = inps p a ++ inps p b := by
  simp [inps]

/-! ### Standard library -/

theorem write_spec (os : Os σ) (p : Port) (b : Bytes) (c : Conn σ) :
    (write os p b c).2.locality = c.locality ∧
    (∀ n, (write os p b c).1 = .ok n → n ≤ b.length ∧
      (write os p b c).2.log = c.log ++ outs p (b.take n)) ∧
    (∀ e, (write os p b c).1 = .error e → (write os p b c).2.log = c.log) := by
  have hle := os.write_le c.net p b
  unfold write
  rcases h : os.write c.net p b with ⟨_ | n, s⟩
  · simp
  · rw [h] at hle
    refine ⟨rfl, ?_, by simp⟩
    intro m hm
    have hm : n = m := by simpa using hm
    subst hm
    exact ⟨hle n rfl, rfl⟩

theorem writeAll_spec (os : Os σ) (p : Port) (b : Bytes) (c : Conn σ) :
    (writeAll os p b c).2.locality = c.locality ∧
    ∃ k, k ≤ b.length ∧ (writeAll os p b c).2.log = c.log ++ outs p (b.take k) ∧
      ((writeAll os p b c).1.isOk = true → k = b.length) := by
  induction hb : b.length using Nat.strongRecOn generalizing b c with
  | _ m ih =>
    rw [writeAll]
    by_cases he : b.isEmpty
    · have : b = [] := by simpa using he
      subst this
      rw [if_pos he]
      simp only [List.length_nil] at hb
      exact ⟨rfl, 0, by omega, by simp [outs], by intro _; omega⟩
    · rw [if_neg he]
      obtain ⟨h1, h2, h3⟩ := write_spec os p b c
      rcases hw : write os p b c with ⟨e | n, c'⟩
      · rw [hw] at h1 h3; try rw [hw]
        exact ⟨h1, 0, by omega, by simpa [outs] using h3 e rfl, by simp⟩
      · rw [hw] at h1 h2; try rw [hw]
        obtain ⟨hn, hlog⟩ := h2 n rfl
        by_cases hn0 : n = 0
        · simp only [hn0, dif_pos]
          refine ⟨h1, 0, by omega, ?_, by simp⟩
          rw [hlog, hn0]
        · simp only [hn0, dif_neg, not_false_iff]
          have hpos : 0 < b.length := by
            cases b
            · simp at he
            · simp
          obtain ⟨i1, k, i2, i3, i4⟩ := ih (b.drop n).length (by simp; omega) (b.drop n) c' rfl
          refine ⟨i1.trans h1, n + k, ?_, ?_, ?_⟩
          · simp only [List.length_drop] at i2; omega
          · rw [i3, hlog, List.append_assoc, ← outs_append, List.take_add]
          · intro hok
            have := i4 hok
            simp only [List.length_drop] at this; omega

theorem read_spec (os : Os σ) (p : Port) (n : Nat) (c : Conn σ) :
    (read os p n c).2.locality = c.locality ∧
    (∀ b, (read os p n c).1 = .ok b → b.length ≤ n ∧
      (read os p n c).2.log = c.log ++ inps p b) ∧
    (∀ e, (read os p n c).1 = .error e → (read os p n c).2.log = c.log) := by
  have hle := os.read_le c.net p n
  unfold read
  rcases h : os.read c.net p n with ⟨_ | b, s⟩
  · simp
  · rw [h] at hle
    refine ⟨rfl, ?_, by simp⟩
    intro m hm
    have hm : b = m := by simpa using hm
    subst hm
    exact ⟨hle b rfl, rfl⟩

theorem readExact_spec (os : Os σ) (p : Port) (n : Nat) (c : Conn σ) :
    (readExact os p n c).2.2.locality = c.locality ∧
    (readExact os p n c).2.2.log = c.log ++ inps p (readExact os p n c).2.1 ∧
    (readExact os p n c).2.1.length ≤ n ∧
    ((readExact os p n c).1.isOk = true → (readExact os p n c).2.1.length = n) := by
  induction n using Nat.strongRecOn generalizing c with
  | _ n ih =>
    rw [readExact]
    by_cases h0 : n = 0
    · rw [if_pos h0]; simp [inps, h0]
    · rw [if_neg h0]
      obtain ⟨h1, h2, h3⟩ := read_spec os p n c
      rcases hr : read os p n c with ⟨e | b, c'⟩
      · rw [hr] at h1 h3; try rw [hr]
        exact ⟨h1, by simpa [inps] using h3 e rfl, by simp, by simp⟩
      · rw [hr] at h1 h2; try rw [hr]
        obtain ⟨hb, hlog⟩ := h2 b rfl
        by_cases hb0 : b.length = 0
        · simp only [hb0, dif_pos]
          have : b = [] := List.eq_nil_of_length_eq_zero hb0
          subst this
          exact ⟨h1, by simpa [inps] using hlog, by simp, by simp⟩
        · simp only [hb0, dif_neg, not_false_iff]
          obtain ⟨i1, i2, i3, i4⟩ := ih (n - b.length) (by omega) c'
          generalize readExact os p (n - b.length) c' = x at i1 i2 i3 i4
          obtain ⟨r, b', c''⟩ := x
          simp only at i1 i2 i3 i4 ⊢
          refine ⟨i1.trans h1, ?_, ?_, ?_⟩
          · rw [i2, hlog, inps_append, List.append_assoc]
          · rw [List.length_append]; omega
          · intro hok
            have := i4 hok
            rw [List.length_append]; omega

/-! ### Traces -/

theorem Trace.append {s1 s2 : List Step} {l1 l2 : List Ev} {d : Bool}
    (h1 : Trace s1 l1 true) (h2 : Trace s2 l2 d) : Trace (s1 ++ s2) (l1 ++ l2) d := by
  induction s1 generalizing l1 with
  | nil => obtain ⟨rfl, _⟩ := h1; exact h2
  | cons x xs ih =>
    cases x with
    | send p b =>
      rcases h1 with ⟨l', rfl, h⟩ | ⟨h, _⟩
      · exact .inl ⟨l' ++ l2, by simp, ih h⟩
      · simp at h
    | recv p n =>
      rcases h1 with ⟨b, l', hb, rfl, h⟩ | ⟨h, _⟩
      · exact .inl ⟨b, l' ++ l2, hb, by simp, ih h⟩
      · simp at h
    | ack p =>
      rcases h1 with ⟨l', rfl, h⟩ | ⟨h, _⟩
      · exact .inl ⟨l' ++ l2, by simp, ih h⟩
      · simp at h
    | shut p =>
      rcases h1 with ⟨l', rfl, h⟩ | ⟨h, _⟩
      · exact .inl ⟨l' ++ l2, by simp, ih h⟩
      · simp at h

/-- Stopping early is also a trace of the longer sequence. -/
theorem Trace.stop {s1 s2 : List Step} {l : List Ev} (h : Trace s1 l false) :
    Trace (s1 ++ s2) l false := by
  induction s1 generalizing l with
  | nil => simp [Trace] at h
  | cons x xs ih =>
    cases x with
    | send p b =>
      rcases h with ⟨l', rfl, h⟩ | h
      · exact .inl ⟨l', rfl, ih h⟩
      · exact .inr h
    | recv p n =>
      rcases h with ⟨b, l', hb, rfl, h⟩ | h
      · exact .inl ⟨b, l', hb, rfl, ih h⟩
      · exact .inr h
    | ack p =>
      rcases h with ⟨l', rfl, h⟩ | h
      · exact .inl ⟨l', rfl, ih h⟩
      · exact .inr h
    | shut p =>
      rcases h with ⟨l', rfl, h⟩ | h
      · exact .inl ⟨l', rfl, ih h⟩
      · exact .inr h

/-- Failing after all steps were performed, if the last one received
something, is a trace. -/
def HasTrace {α : Type} (m : M σ α) (steps : List Step) : Prop :=
  ∀ c, (m c).2.locality = c.locality ∧
    ∃ l, (m c).2.log = c.log ++ l ∧ Trace steps l (m c).1.isOk

theorem HasTrace.bind {α β : Type} {m : M σ α} {f : α → M σ β} {s1 s2 : List Step}
    (hm : HasTrace m s1) (hf : ∀ a, HasTrace (f a) s2) : HasTrace (M.bind m f) (s1 ++ s2) := by
  intro c
  obtain ⟨h1, l, h2, h3⟩ := hm c
  unfold M.bind
  rcases hr : m c with ⟨e | a, c'⟩
  · rw [hr] at h1 h2 h3; try rw [hr]
    exact ⟨h1, l, h2, h3.stop⟩
  · rw [hr] at h1 h2 h3; try rw [hr]
    obtain ⟨g1, l', g2, g3⟩ := hf a c'
    refine ⟨g1.trans h1, l ++ l', ?_, h3.append g3⟩
    show (f a c').2.log = _
    rw [g2, h2, List.append_assoc]

theorem hasTrace_pure {α : Type} (a : α) : HasTrace (M.pure a : M σ α) [] := by
  intro c; exact ⟨rfl, [], by simp [M.pure], rfl, rfl⟩

theorem hasTrace_writeAll (os : Os σ) (p : Port) (b : Bytes) :
    HasTrace (writeAll os p b) [.send p b] := by
  intro c
  obtain ⟨h1, k, h2, h3, h4⟩ := writeAll_spec os p b c
  refine ⟨h1, _, h3, ?_⟩
  cases hok : (writeAll os p b c).1.isOk
  · exact .inr ⟨rfl, k, rfl⟩
  · rw [hok] at h4
    have := h4 rfl
    exact .inl ⟨[], by simp [this], rfl, rfl⟩

theorem hasTrace_writeVectored (os : Os σ) (p : Port) (b : Bytes) :
    HasTrace (writeVectored os p b) [.send p b] := by
  intro c
  obtain ⟨h1, h2, h3⟩ := write_spec os p b c
  unfold writeVectored
  rw [bind_def, M.bind]
  rcases hw : write os p b c with ⟨e | n, c'⟩
  · rw [hw] at h1 h3; try rw [hw]
    exact ⟨h1, [], by simpa using h3 e rfl, .inr ⟨rfl, 0, by simp [outs]⟩⟩
  · rw [hw] at h1 h2; try rw [hw]
    obtain ⟨hn, hlog⟩ := h2 n rfl
    by_cases hnl : n = b.length
    · simp only [hnl, ne_eq, not_true_eq_false, if_false, M.pure]
      refine ⟨h1, outs p b, ?_, .inl ⟨[], by simp, rfl, rfl⟩⟩
      rw [hlog, hnl, List.take_length]
    · simp only [ne_eq, hnl, not_false_eq_true, if_true, M.fail]
      exact ⟨h1, _, hlog, .inr ⟨rfl, n, rfl⟩⟩

theorem hasTrace_readLocal (os : Os σ) (p : Port) (n : Nat) :
    HasTrace (readLocal os p n) [.recv p n] := by
  intro c
  obtain ⟨h1, h2, h3, h4⟩ := readExact_spec os p n c
  unfold readLocal
  rcases hr : readExact os p n c with ⟨e | a, b, c'⟩
  · rw [hr] at h1 h2 h3; try rw [hr]
    exact ⟨h1, _, h2, .inr ⟨rfl, b, h3, rfl⟩⟩
  · rw [hr] at h1 h2 h4; try rw [hr]
    exact ⟨h1, _, h2, .inl ⟨b, [], h4 rfl, by simp, rfl, rfl⟩⟩

theorem positional_ack {b : Bytes} (hl : b.length = 4) (h : positional b = 0) : b = ackBytes := by
  have := digits256_positional b
  rw [hl, h] at this
  rw [← this]; decide

theorem hasTrace_ack (os : Os σ) (p : Port) : HasTrace (checkResponseEnd os p) [.ack p] := by
  intro c
  obtain ⟨h1, h2, h3, h4⟩ := readExact_spec os p 4 c
  unfold checkResponseEnd readLocal
  rw [bind_def, M.bind]
  rcases hr : readExact os p 4 c with ⟨e | a, b, c'⟩
  · rw [hr] at h1 h2 h3; try rw [hr]
    exact ⟨h1, _, h2, .inr ⟨rfl, b, h3, rfl⟩⟩
  · rw [hr] at h1 h2 h3 h4; try rw [hr]
    have hl : b.length = 4 := h4 rfl
    by_cases hz : fromBE b = 0
    · simp only [hz, ne_eq, not_true_eq_false, if_false, M.pure]
      refine ⟨h1, _, h2, .inl ⟨[], ?_, rfl, rfl⟩⟩
      rw [fromBE_eq_positional] at hz
      rw [positional_ack hl hz, List.append_nil]
    · simp only [ne_eq, hz, not_false_eq_true, if_true, M.fail]
      exact ⟨h1, _, h2, .inr ⟨rfl, b, h3, rfl⟩⟩

theorem hasTrace_shutdown (os : Os σ) (p : Port) : HasTrace (shutdown os p) [.shut p] := by
  intro c
  unfold shutdown
  rcases os.shutdown c.net p with ⟨e | a, s⟩
  · exact ⟨rfl, [], by simp, .inr ⟨rfl, rfl⟩⟩
  · exact ⟨rfl, [.shut p], rfl, .inl ⟨[], rfl, rfl, rfl⟩⟩

/-- A check that fails or continues, after something was received. -/
theorem HasTrace.recvCheck {α : Type} {os : Os σ} {p : Port} {n : Nat} {f : Bytes → M σ α}
    {s : List Step} {P : Bytes → Prop} [DecidablePred P] {e : IoErr}
    (hf : ∀ b, HasTrace (f b) s) :
    HasTrace (M.bind (readLocal os p n) fun b => if P b then M.fail e else f b)
      (.recv p n :: s) := by
  intro c
  obtain ⟨h1, h2, h3, h4⟩ := readExact_spec os p n c
  unfold readLocal M.bind
  simp only
  rcases hr : readExact os p n c with ⟨e | a, b, c'⟩
  · rw [hr] at h1 h2 h3; try rw [hr]
    exact ⟨h1, _, h2, .inr ⟨rfl, b, h3, rfl⟩⟩
  · rw [hr] at h1 h2 h3 h4; try rw [hr]
    simp only
    by_cases hp : P b
    · rw [if_pos hp]
      exact ⟨h1, _, h2, .inr ⟨rfl, b, h3, rfl⟩⟩
    · rw [if_neg hp]
      obtain ⟨g1, l', g2, g3⟩ := hf b c'
      refine ⟨g1.trans h1, _, ?_, .inl ⟨b, l', h4 rfl, rfl, g3⟩⟩
      rw [g2, h2, List.append_assoc]

theorem word_eq (x : Nat) : toBE 4 x = word x := toBE_eq_digits256 4 x

theorem word_mod (x : Nat) : word (x % 2 ^ 32) = word x := by
  unfold word
  have h : ∀ i < 4, x % 2 ^ 32 / 256 ^ i % 256 = x / 256 ^ i % 256 := by
    intro i hi
    have : i = 0 ∨ i = 1 ∨ i = 2 ∨ i = 3 := by omega
    rcases this with rfl | rfl | rfl | rfl <;> omega
  unfold digits256
  refine List.map_congr_left ?_
  intro i hi
  rw [h i (by simpa using hi)]

theorem signal_code (s : Signal) : s.val = signalCode s := by cases s <;> rfl

theorem hasTrace_signal (os : Os σ) (s : Signal) :
    HasTrace (platformSignal os s) [.send .plat (word (signalCode s)), .ack .plat] := by
  unfold platformSignal
  rw [word_eq, signal_code]
  exact (hasTrace_writeAll os .plat _).bind fun _ => hasTrace_ack os .plat

/-- Every operation performs its steps. -/
theorem op_trace (os : Os σ) (op : Op) (c : Conn σ) :
    (runOp os op c).2.locality = c.locality ∧
    ∃ l, (runOp os op c).2.log = c.log ++ l ∧ Trace op.steps l (runOp os op c).1 := by
  cases op with
  | hcrtmSequence d =>
    have : HasTrace (hcrtmSequence os d) (Op.hcrtmSequence d).steps := by
      unfold hcrtmSequence
      simp only [word_eq, TpmCode.val, word_mod]
      exact (hasTrace_writeAll os .tpm _).bind fun _ => (hasTrace_ack os .tpm).bind fun _ =>
        (hasTrace_writeVectored os .tpm _).bind fun _ => (hasTrace_ack os .tpm).bind fun _ =>
        (hasTrace_writeAll os .tpm _).bind fun _ => hasTrace_ack os .tpm
    exact this c
  | remoteHandshake v =>
    have : HasTrace (remoteHandshake os v) (Op.remoteHandshake v).steps := by
      unfold remoteHandshake
      simp only [word_eq, TpmCode.val]
      exact (hasTrace_writeVectored os .tpm _).bind fun _ =>
        (hasTrace_readLocal os .tpm 8).bind fun _ => (hasTrace_ack os .tpm).bind fun _ =>
        hasTrace_pure _
    exact this c
  | setAlternativeResult r =>
    have : HasTrace (setAlternativeResult os r) (Op.setAlternativeResult r).steps := by
      unfold setAlternativeResult
      simp only [word_eq, TpmCode.val]
      exact (hasTrace_writeVectored os .tpm _).bind fun _ => hasTrace_ack os .tpm
    exact this c
  | platformSignal s => exact hasTrace_signal os s c
  | reinit =>
    have : HasTrace (reinit os) Op.reinit.steps := by
      unfold reinit
      exact (hasTrace_signal os .nvOff).bind fun _ => (hasTrace_signal os .powerOff).bind fun _ =>
        (hasTrace_signal os .powerOn).bind fun _ => (hasTrace_signal os .nvOn).bind fun _ =>
        hasTrace_pure _
    exact this c
  | testFailureMode =>
    have : HasTrace (testFailureMode os) Op.testFailureMode.steps := by
      unfold testFailureMode
      simp only [word_eq, PlatCode.val]
      exact (hasTrace_writeAll os .plat _).bind fun _ => hasTrace_ack os .plat
    exact this c
  | getCommandResponseSizes =>
    have : HasTrace (getCommandResponseSizes os) Op.getCommandResponseSizes.steps := by
      unfold getCommandResponseSizes
      simp only [word_eq, PlatCode.val]
      exact (hasTrace_writeAll os .plat _).bind fun _ => HasTrace.recvCheck fun _ =>
        (hasTrace_readLocal os .plat 16).bind fun _ => (hasTrace_ack os .plat).bind fun _ =>
        hasTrace_pure _
    exact this c
  | actGetSignaled h =>
    have : HasTrace (actGetSignaled os h) (Op.actGetSignaled h).steps := by
      unfold actGetSignaled
      simp only [word_eq, PlatCode.val]
      exact (hasTrace_writeVectored os .plat _).bind fun _ =>
        (hasTrace_readLocal os .plat 4).bind fun _ => (hasTrace_ack os .plat).bind fun _ =>
        hasTrace_pure _
    exact this c
  | setFirmwareHash h =>
    have : HasTrace (setFirmwareHash os h) (Op.setFirmwareHash h).steps := by
      unfold setFirmwareHash
      simp only [word_eq, PlatCode.val]
      exact (hasTrace_writeVectored os .plat _).bind fun _ => hasTrace_ack os .plat
    exact this c
  | setFirmwareSvn h =>
    have : HasTrace (setFirmwareSvn os h) (Op.setFirmwareSvn h).steps := by
      unfold setFirmwareSvn
      simp only [word_eq, PlatCode.val]
      exact (hasTrace_writeVectored os .plat _).bind fun _ => hasTrace_ack os .plat
    exact this c
  | sessionEnd =>
    have : HasTrace (sessionEnd os) Op.sessionEnd.steps := by
      unfold sessionEnd
      simp only [word_eq, TpmCode.val, PlatCode.val]
      exact (hasTrace_writeAll os .tpm _).bind fun _ => (hasTrace_shutdown os .tpm).bind fun _ =>
        (hasTrace_writeAll os .plat _).bind fun _ => hasTrace_shutdown os .plat
    exact this c
  | stopSimulator =>
    have : HasTrace (stopSimulator os) Op.stopSimulator.steps := by
      unfold stopSimulator
      simp only [word_eq, TpmCode.val, PlatCode.val]
      exact (hasTrace_writeAll os .tpm _).bind fun _ => (hasTrace_shutdown os .tpm).bind fun _ =>
        (hasTrace_writeAll os .plat _).bind fun _ => hasTrace_shutdown os .plat
    exact this c

/-- The stream a step uses. -/
def Step.port : Step → Port
  | .send p _ => p
  | .recv p _ => p
  | .ack p => p
  | .shut p => p

/-- A trace uses only the streams of its steps. -/
theorem Trace.ports {p : Port} {steps : List Step} {l : List Ev} {d : Bool} (h : Trace steps l d)
    (hs : ∀ s ∈ steps, s.port = p) : ∀ e ∈ l, e.port = p := by
  have houts : ∀ b, ∀ e ∈ outs p b, e.port = p := by
    intro b e he
    obtain ⟨x, _, rfl⟩ := List.mem_map.1 he
    rfl
  have hinps : ∀ b, ∀ e ∈ inps p b, e.port = p := by
    intro b e he
    obtain ⟨x, _, rfl⟩ := List.mem_map.1 he
    rfl
  induction steps generalizing l with
  | nil => obtain ⟨rfl, _⟩ := h; simp
  | cons x xs ih =>
    have hx : x.port = p := hs x List.mem_cons_self
    have hxs : ∀ s ∈ xs, s.port = p := fun s hs' => hs s (List.mem_cons_of_mem _ hs')
    intro e he
    cases x with
    | send q b =>
      cases hx
      rcases h with ⟨l', rfl, h⟩ | ⟨_, k, rfl⟩
      · rcases List.mem_append.1 he with he | he
        · exact houts _ e he
        · exact ih h hxs e he
      · exact houts _ e he
    | recv q n =>
      cases hx
      rcases h with ⟨b, l', _, rfl, h⟩ | ⟨_, k, _, rfl⟩
      · rcases List.mem_append.1 he with he | he
        · exact hinps _ e he
        · exact ih h hxs e he
      · exact hinps _ e he
    | ack q =>
      cases hx
      rcases h with ⟨l', rfl, h⟩ | ⟨_, k, _, rfl⟩
      · rcases List.mem_append.1 he with he | he
        · exact hinps _ e he
        · exact ih h hxs e he
      · exact hinps _ e he
    | shut q =>
      cases hx
      rcases h with ⟨l', rfl, h⟩ | ⟨_, rfl⟩
      · rcases List.mem_cons.1 he with rfl | he
        · rfl
        · exact ih h hxs e he
      · simp at he

/-! ### Transactions -/

theorem sendFrame_eq (locality : Nat) (command : Bytes) :
    sendFrame locality command = request locality command := by
  have : toBE 4 TpmCode.sendCommand.val = [0, 0, 0, 8] := by decide
  simp only [sendFrame, request, toBE_eq_digits256, List.append_assoc]
  rw [← toBE_eq_digits256, this]

/-- A transaction split into sending and receiving. -/
def receive (os : Os σ) (response : Bytes) (c : Conn σ) : Except IoErr Nat × Bytes × Conn σ :=
  match readLocal os .tpm 4 c with
  | (.error e, c) => (.error e, response, c)
  | (.ok hdr, c) =>
    if fromBE hdr > response.length then (.error .invalidInput, response, c)
    else
      match readExact os .tpm (fromBE hdr) c with
      | (.error e, b, c) => (.error e, b ++ response.drop b.length, c)
      | (.ok _, b, c) =>
        match checkResponseEnd os .tpm c with
        | (.error e, c) => (.error e, b ++ response.drop b.length, c)
        | (.ok _, c) => (.ok (fromBE hdr), b ++ response.drop b.length, c)

theorem transact_eq (os : Os σ) (command response : Bytes) (c : Conn σ)
    (h : command.length < 2 ^ 32) :
    transact os command response c =
      match writeVectored os .tpm (request c.locality command) c with
      | (.error e, c) => (.error e, response, c)
      | (.ok _, c) => receive os response c := by
  unfold transact
  rw [if_neg (by omega), sendFrame_eq]
  rfl

/-- Receiving, for every peer. -/
theorem receive_spec (os : Os σ) (response : Bytes) (c : Conn σ) :
    (receive os response c).2.2.locality = c.locality ∧
    (receive os response c).2.1.length = response.length ∧
    (∃ b, (receive os response c).2.2.log = c.log ++ inps .tpm b) ∧
    (∀ n, (receive os response c).1 = .ok n →
      n ≤ response.length ∧ n < 2 ^ 32 ∧
      (receive os response c).2.1.drop n = response.drop n ∧
      (receive os response c).2.2.log =
        c.log ++ inps .tpm (reply ((receive os response c).2.1.take n))) := by
  obtain ⟨h1, h2, h3, h4⟩ := readExact_spec os .tpm 4 c
  unfold receive readLocal
  rcases hr : readExact os .tpm 4 c with ⟨e | a, hdr, c1⟩
  · rw [hr] at h1 h2; try rw [hr]
    exact ⟨h1, rfl, ⟨hdr, h2⟩, by simp⟩
  · rw [hr] at h1 h2 h4; try rw [hr]
    simp only
    have hl4 : hdr.length = 4 := h4 rfl
    have hlt : fromBE hdr < 2 ^ 32 := by
      have := positional_lt hdr
      rw [hl4] at this
      rw [fromBE_eq_positional]; simpa using this
    by_cases hbig : fromBE hdr > response.length
    · rw [if_pos hbig]
      exact ⟨h1, rfl, ⟨hdr, h2⟩, by simp⟩
    · rw [if_neg hbig]
      obtain ⟨g1, g2, g3, g4⟩ := readExact_spec os .tpm (fromBE hdr) c1
      rcases hr2 : readExact os .tpm (fromBE hdr) c1 with ⟨e | a, b, c2⟩
      · rw [hr2] at g1 g2 g3; try rw [hr2]
        refine ⟨g1.trans h1, ?_, ⟨hdr ++ b, ?_⟩, by simp⟩
        · simp only at g3 ⊢
          rw [List.length_append, List.length_drop]; omega
        · rw [g2, h2, inps_append, List.append_assoc]
      · rw [hr2] at g1 g2 g3 g4; try rw [hr2]
        have hbl : b.length = fromBE hdr := g4 rfl
        simp only
        have hlen : (b ++ response.drop b.length).length = response.length := by
          rw [List.length_append, List.length_drop]; omega
        obtain ⟨k1, l, k2, k3⟩ := hasTrace_ack os .tpm c2
        rcases hr3 : checkResponseEnd os .tpm c2 with ⟨e | a, c3⟩
        · rw [hr3] at k1 k2 k3; try rw [hr3]
          simp only
          have : ∃ x, l = inps .tpm x := by
            rcases k3 with ⟨l', rfl, h⟩ | ⟨_, x, _, rfl⟩
            · exact absurd h.2 (by simp)
            · exact ⟨x, rfl⟩
          obtain ⟨x, rfl⟩ := this
          refine ⟨(k1.trans g1).trans h1, hlen, ⟨hdr ++ b ++ x, ?_⟩, by simp⟩
          simp only at k2 g2 h2
          rw [k2, g2, h2]
          simp only [inps_append, List.append_assoc]
        · rw [hr3] at k1 k2 k3; try rw [hr3]
          simp only
          have : l = inps .tpm ackBytes := by
            rcases k3 with ⟨l', rfl, h⟩ | ⟨h, _⟩
            · rw [h.1, List.append_nil]
            · simp at h
          subst this
          have hlog : c3.log = c.log ++ inps .tpm (hdr ++ b ++ ackBytes) := by
            simp only at k2 g2 h2
            rw [k2, g2, h2]
            simp only [inps_append, List.append_assoc]
          refine ⟨(k1.trans g1).trans h1, hlen, ⟨_, hlog⟩, ?_⟩
          intro n hn
          have hn : fromBE hdr = n := by simpa using hn
          subst hn
          refine ⟨by omega, hlt, ?_, ?_⟩
          · rw [← hbl, List.drop_left' rfl]
          · rw [← hbl, List.take_left' rfl, hlog, reply, hbl, fromBE_eq_positional]
            have := digits256_positional hdr
            rw [hl4] at this
            rw [this]

/-! ### Reading from a peer that delivers given bytes -/

section
variable {τ : Type} {os : Os σ} {p : Port} {pend : σ → Bytes} {st : σ → τ}

theorem readExact_feeds (hf : Feeds os p pend st) (n : Nat) (c : Conn σ) :
    (n ≤ (pend c.net).length →
      ∃ c', readExact os p n c = (.ok (), (pend c.net).take n, c') ∧
        pend c'.net = (pend c.net).drop n ∧ st c'.net = st c.net ∧ c'.locality = c.locality) ∧
    ((pend c.net).length < n →
      ∃ c', readExact os p n c = (.error .unexpectedEof, pend c.net, c') ∧
        pend c'.net = [] ∧ st c'.net = st c.net ∧ c'.locality = c.locality) := by
  induction n using Nat.strongRecOn generalizing c with
  | _ n ih =>
    rw [readExact]
    by_cases h0 : n = 0
    · subst h0
      refine ⟨fun _ => ⟨c, by simp, by simp, rfl, rfl⟩, fun h => by omega⟩
    · rw [if_neg h0]
      obtain ⟨k, hk, hk1, hr, hp, hs⟩ := hf.read c.net n (by omega)
      rcases hos : os.read c.net p n with ⟨e | b, s'⟩
      · rw [hos] at hr; simp at hr
      · rw [hos] at hr hp hs
        have hb : b = (pend c.net).take k := by simpa using hr
        have hread : read os p n c =
            (.ok b, { c with net := s', log := c.log ++ b.map (.inp p) }) := by
          unfold read; rw [hos]
        rw [hread]
        simp only at hp hs ⊢
        by_cases hb0 : b.length = 0
        · rw [dif_pos hb0]
          have hempty : pend c.net = [] := by
            apply Classical.byContradiction
            intro hne
            have := hk1 hne
            have hl := List.length_pos_iff.2 hne
            rw [hb, List.length_take] at hb0
            omega
          refine ⟨fun h => ?_, fun _ => ?_⟩
          · rw [hempty] at h; simp at h; omega
          · refine ⟨{ c with net := s', log := c.log ++ b.map (.inp p) }, by rw [hempty], ?_, hs, rfl⟩
            simp only [hp, hempty, List.drop_nil]
        · rw [dif_neg hb0]
          have hbl : b.length = min k (pend c.net).length := by rw [hb, List.length_take]
          have q1 : n ≤ (pend c.net).length → n - b.length ≤ ((pend c.net).drop k).length ∧
              b.length = k ∧ k + (n - k) = n := by
            intro h; rw [List.length_drop]; omega
          have q2 : (pend c.net).length < n → ((pend c.net).drop k).length < n - b.length := by
            intro h; rw [List.length_drop]; omega
          obtain ⟨i1, i2⟩ := ih (n - b.length) (by omega)
            { c with net := s', log := c.log ++ b.map (.inp p) }
          simp only [hp] at i1 i2
          constructor
          · intro hn
            obtain ⟨q3, hkn, q4⟩ := q1 hn
            obtain ⟨c', j1, j2, j3, j4⟩ := i1 q3
            rw [j1]
            refine ⟨c', ?_, ?_, j3.trans hs, j4⟩
            · rw [hkn, hb]
              simp only [Prod.mk.injEq, true_and, and_true]
              have := List.take_add (l := pend c.net) (i := k) (j := n - k)
              rw [← this, q4]
            · rw [j2, hkn, List.drop_drop, q4]
          · intro hn
            obtain ⟨c', j1, j2, j3, j4⟩ := i2 (q2 hn)
            rw [j1]
            refine ⟨c', ?_, j2, j3.trans hs, j4⟩
            rw [hb]
            simp only [List.take_append_drop]

theorem readLocal_feeds (hf : Feeds os p pend st) (b more : Bytes) (c : Conn σ)
    (h : pend c.net = b ++ more) :
    ∃ c', readLocal os p b.length c = (.ok b, c') ∧ pend c'.net = more ∧ st c'.net = st c.net ∧
      c'.locality = c.locality := by
  obtain ⟨c', h1, h2, h3, h4⟩ := (readExact_feeds hf b.length c).1 (by rw [h]; simp)
  refine ⟨c', ?_, ?_, h3, h4⟩
  · unfold readLocal; rw [h1, h, List.take_left' rfl]
  · rw [h2, h, List.drop_left' rfl]

theorem ack_feeds (hf : Feeds os p pend st) (b more : Bytes) (hb : b.length = 4) (c : Conn σ)
    (h : pend c.net = b ++ more) :
    ∃ c', checkResponseEnd os p c = (if b = ackBytes then .ok () else .error .invalidData, c') ∧
      pend c'.net = more ∧ st c'.net = st c.net ∧ c'.locality = c.locality := by
  obtain ⟨c', h1, h2, h3, h4⟩ := readLocal_feeds hf b more c h
  refine ⟨c', ?_, h2, h3, h4⟩
  unfold checkResponseEnd
  rw [bind_def, M.bind, ← hb, h1]
  simp only
  rw [fromBE_eq_positional]
  by_cases hz : b = ackBytes
  · have : positional b = 0 := by rw [hz]; decide
    simp only [this, ne_eq, not_true_eq_false, if_false, M.pure]
    rw [if_pos hz]
  · have : positional b ≠ 0 := fun h0 => hz (positional_ack hb h0)
    simp only [ne_eq, this, not_false_eq_true, if_true, M.fail]
    rw [if_neg hz]

theorem fromBE_word (n : Nat) (h : n < 2 ^ 32) : fromBE (digits256 4 n) = n := by
  rw [fromBE_eq_positional, positional_digits256_of_lt (by simpa using h)]

theorem receive_feeds (hf : Feeds os .tpm pend st) (response resp a more : Bytes) (c : Conn σ)
    (hfit : resp.length ≤ response.length) (hr : resp.length < 2 ^ 32) (ha : a.length = 4)
    (h : pend c.net = digits256 4 resp.length ++ resp ++ a ++ more) :
    ∃ c', receive os response c =
        (if a = ackBytes then .ok resp.length else .error .invalidData,
          resp ++ response.drop resp.length, c') ∧
      pend c'.net = more ∧ st c'.net = st c.net ∧ c'.locality = c.locality := by
  obtain ⟨c1, h1, h2, h3, h4⟩ := readLocal_feeds hf (digits256 4 resp.length) (resp ++ a ++ more) c
    (by rw [h]; simp)
  rw [digits256_length] at h1
  unfold receive
  rw [h1]
  simp only
  rw [fromBE_word _ hr, if_neg (by omega)]
  obtain ⟨c2, g1, g2, g3, g4⟩ := (readExact_feeds hf resp.length c1).1 (by rw [h2]; simp)
  have e1 : (pend c1.net).take resp.length = resp := by
    rw [h2, List.append_assoc, List.take_left' rfl]
  have e2 : (pend c1.net).drop resp.length = a ++ more := by
    rw [h2, List.append_assoc, List.drop_left' rfl]
  rw [e1] at g1
  rw [e2] at g2
  rw [g1]
  simp only
  obtain ⟨c3, k1, k2, k3, k4⟩ := ack_feeds hf a more ha c2 g2
  rw [k1]
  refine ⟨c3, ?_, k2, (k3.trans g3).trans h3, (k4.trans g4).trans h4⟩
  by_cases hz : a = ackBytes
  · simp only [hz, if_true]
  · simp only [hz, if_false]

theorem receive_big (hf : Feeds os .tpm pend st) (response more : Bytes) (n : Nat) (c : Conn σ)
    (hbig : response.length < n) (hn : n < 2 ^ 32) (h : pend c.net = digits256 4 n ++ more) :
    ∃ c', receive os response c = (.error .invalidInput, response, c') ∧
      pend c'.net = more ∧ st c'.net = st c.net ∧ c'.locality = c.locality := by
  obtain ⟨c1, h1, h2, h3, h4⟩ := readLocal_feeds hf (digits256 4 n) more c h
  rw [digits256_length] at h1
  unfold receive
  rw [h1]
  simp only
  rw [fromBE_word _ hn, if_pos hbig]
  exact ⟨c1, rfl, h2, h3, h4⟩

/-- The peer's bytes end before the reply is complete. -/
theorem receive_eof (hf : Feeds os .tpm pend st) (response resp a : Bytes) (k : Nat) (c : Conn σ)
    (hfit : resp.length ≤ response.length) (hr : resp.length < 2 ^ 32) (ha : a.length = 4)
    (hk : k < 8 + resp.length)
    (h : pend c.net = (digits256 4 resp.length ++ resp ++ a).take k) :
    (receive os response c).1 = .error .unexpectedEof := by
  have hlen : (digits256 4 resp.length ++ resp ++ a).length = 8 + resp.length := by
    simp [ha]; omega
  unfold receive
  by_cases h4 : k < 4
  · obtain ⟨c1, h1, -⟩ := (readExact_feeds hf 4 c).2 (by rw [h, List.length_take]; omega)
    unfold readLocal
    rw [h1]
  · have e : (digits256 4 resp.length ++ resp ++ a).take k =
        digits256 4 resp.length ++ (resp ++ a).take (k - 4) := by
      rw [List.append_assoc, List.take_append, digits256_length, List.take_of_length_le]
      rw [digits256_length]; omega
    rw [e] at h
    obtain ⟨c1, h1, h2, -⟩ := readLocal_feeds hf (digits256 4 resp.length) _ c h
    rw [digits256_length] at h1
    rw [h1]
    simp only
    rw [fromBE_word _ hr, if_neg (by omega)]
    by_cases h5 : k - 4 < resp.length
    · obtain ⟨c2, g1, -⟩ := (readExact_feeds hf resp.length c1).2 (by
        rw [h2, List.length_take]; omega)
      rw [g1]
    · have hl2 : (pend c1.net).length = k - 4 := by
        rw [h2, List.length_take, List.length_append, ha]; omega
      obtain ⟨c2, g1, g2, -⟩ := (readExact_feeds hf resp.length c1).1 (by omega)
      rw [g1]
      simp only
      obtain ⟨c3, k1, -⟩ := (readExact_feeds hf 4 c2).2 (by
        rw [g2, List.length_drop]; omega)
      unfold checkResponseEnd readLocal
      rw [bind_def, M.bind, k1]

end

/-! ### Simulators -/

section
variable {τ : Type} {os : Os σ} {f : τ → Nat → Bytes → Bytes × τ} {pend : σ → Bytes} {st : σ → τ}

theorem simulator_send (hs : Simulator os f pend st) (command : Bytes) (c : Conn σ)
    (hl : c.locality < 256) (hc : command.length < 2 ^ 32) :
    ∃ c', writeVectored os .tpm (request c.locality command) c = (.ok (), c') ∧
      c'.locality = c.locality ∧ pend c'.net = pend c.net ++ reply (f (st c.net) c.locality command).1 ∧
      st c'.net = (f (st c.net) c.locality command).2 := by
  obtain ⟨h1, h2, h3⟩ := hs.send c.net c.locality command hl hc
  unfold writeVectored
  rw [bind_def, M.bind]
  unfold write
  rcases hw : os.write c.net .tpm (request c.locality command) with ⟨e | n, s'⟩
  · rw [hw] at h1; simp at h1
  · rw [hw] at h1 h2 h3
    have hn : n = (request c.locality command).length := by simpa using h1
    simp only [hn, ne_eq, not_true_eq_false, if_false, M.pure]
    exact ⟨_, rfl, rfl, h2, h3⟩

end

end Verif.Tcp
