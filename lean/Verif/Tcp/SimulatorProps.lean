import Verif.Tcp.Simulator
import Verif.Tcp.Props

/-
Property theorems C69, C70: starting and stopping a simulator process.
-/

namespace Verif.Tcp
open Verif

variable {σ : Type}

/-! ### Specification -/

/-- The code points with the Unicode property White_Space. -/
def whiteSpace : List Nat :=
  [0x09, 0x0a, 0x0b, 0x0c, 0x0d, 0x20, 0x85, 0xa0, 0x1680, 0x2000, 0x2001, 0x2002, 0x2003, 0x2004,
    0x2005, 0x2006, 0x2007, 0x2008, 0x2009, 0x200a, 0x2028, 0x2029, 0x202f, 0x205f, 0x3000]

/-- The number written with the given decimal digits. -/
def decimal : List Char → Nat
  | [] => 0
  | c :: cs => (c.toNat - '0'.toNat) * 10 ^ cs.length + decimal cs

/-- The text of a port file: a port number in decimal, possibly with a plus
sign, possibly surrounded by white space. -/
def PortText (text : List Char) (port : Nat) : Prop :=
  ∃ l plus digits r, text = l ++ plus ++ digits ++ r ∧
    (∀ c ∈ l, c.toNat ∈ whiteSpace) ∧ (∀ c ∈ r, c.toNat ∈ whiteSpace) ∧
    (plus = [] ∨ plus = ['+']) ∧ digits ≠ [] ∧ (∀ c ∈ digits, '0' ≤ c ∧ c ≤ '9') ∧
    decimal digits = port ∧ port < 65536

/-- `r` is the result of the first successful of four attempts with a pause after
each failure, or that of the fourth. -/
def Retried {α : Type} (attempt : σ → Except IoErr α × σ) (sleep : σ → σ) (s : σ)
    (r : Except IoErr α) (s' : σ) : Prop :=
  ∃ i < 4, (∀ k < i, (attempt (beforeAttempt attempt sleep s k)).1.isOk = false) ∧
    attempt (beforeAttempt attempt sleep s i) = (r, s') ∧ (r.isOk = true ∨ i = 3)

/-- The first of four attempts that finds the file readable finds a port number
in it. -/
def Announced (sys : Sys σ) (cwd name : String) (s : σ) (port : Nat) (s' : σ) : Prop :=
  ∃ text, Retried (fun s => sys.readFile s cwd name) sys.sleep s (.ok text) s' ∧ PortText text port

/-- Reading the port fails with `e`: four attempts to read the file failed, the
last one with `e`, or the first readable contents are not a port number. -/
def NotAnnounced (sys : Sys σ) (cwd name : String) (s : σ) (e : IoErr) (s' : σ) : Prop :=
  Retried (fun s => sys.readFile s cwd name) sys.sleep s (.error e) s' ∨
  e = .invalidData ∧ ∃ text,
    Retried (fun s => sys.readFile s cwd name) sys.sleep s (.ok text) s' ∧ ¬ ∃ p, PortText text p

/-- One of four attempts finds a port number in the file, and those before did
not. -/
def AnnouncedInTime (sys : Sys σ) (cwd name : String) (s : σ) (port : Nat) (s' : σ) : Prop :=
  ∃ i < 4,
    (∀ k < i, ∀ text,
      (sys.readFile (beforeAttempt (fun s => sys.readFile s cwd name) sys.sleep s k) cwd name).1
        = .ok text → ¬ ∃ p, PortText text p) ∧
    ∃ text,
      sys.readFile (beforeAttempt (fun s => sys.readFile s cwd name) sys.sleep s i) cwd name
        = (.ok text, s') ∧ PortText text port

/-! ### Parsing -/

theorem isWhitespace_iff (c : Char) : isWhitespace c = true ↔ c.toNat ∈ whiteSpace := by
  have e : (c = ' ') ↔ c.toNat = 32 :=
    ⟨fun h => by rw [h]; rfl, fun h => Char.toNat_inj.mp h⟩
  simp only [isWhitespace, whiteSpace, Bool.or_eq_true, Bool.and_eq_true, decide_eq_true_eq,
    beq_iff_eq, e, List.mem_cons, List.not_mem_nil, or_false]
  omega

theorem toDigit_iff (c : Char) (d : Nat) :
    toDigit c = some d ↔ ('0' ≤ c ∧ c ≤ '9') ∧ c.toNat - '0'.toNat = d := by
  have e1 : '0' ≤ c ↔ 48 ≤ c.toNat := Iff.rfl
  have e2 : c ≤ '9' ↔ c.toNat ≤ 57 := Iff.rfl
  have e3 : '0'.toNat = 48 := rfl
  unfold toDigit
  rw [e1, e2, e3]
  split
  · rename_i h; simp [h]
  · rename_i h; simp only [reduceCtorEq, h, false_and]

theorem parseLoop_iff (cs : List Char) (acc n : Nat) (ha : acc ≤ 65535) :
    parseLoop acc cs = some n ↔
      (∀ c ∈ cs, '0' ≤ c ∧ c ≤ '9') ∧ acc * 10 ^ cs.length + decimal cs = n ∧ n < 65536 := by
  induction cs generalizing acc with
  | nil => simp [parseLoop, decimal]; omega
  | cons c cs ih =>
    rw [parseLoop]
    cases hd : toDigit c with
    | none =>
      have : ¬ ('0' ≤ c ∧ c ≤ '9') := fun h => by
        rw [(toDigit_iff c _).mpr ⟨h, rfl⟩] at hd; cases hd
      simp only [List.mem_cons, forall_eq_or_imp, reduceCtorEq, false_iff]
      exact fun h => this h.1.1
    | some d =>
      obtain ⟨h1, h2⟩ := (toDigit_iff c d).mp hd
      have hexp : acc * 10 ^ (c :: cs).length + decimal (c :: cs) =
          (acc * 10 + d) * 10 ^ cs.length + decimal cs := by
        simp only [decimal, h2, List.length_cons, Nat.pow_succ, Nat.add_mul, Nat.mul_assoc,
          Nat.mul_comm 10]
        omega
      have hle : acc * 10 + d ≤ (acc * 10 + d) * 10 ^ cs.length :=
        Nat.le_mul_of_pos_right _ (Nat.pow_pos (by decide))
      simp only [List.mem_cons, forall_eq_or_imp, h1, true_and, and_self]
      rw [hexp]
      by_cases h3 : 65535 < acc * 10 + d
      · have : (if 65535 < acc * 10 then (none : Option Nat)
            else if 65535 < acc * 10 + d then none else parseLoop (acc * 10 + d) cs) = none := by
          split <;> simp
        rw [this]
        simp only [reduceCtorEq, false_iff]
        rintro ⟨-, h4, h5⟩
        omega
      · rw [if_neg (by omega), if_neg h3, ih _ (by omega)]

theorem parseU16_iff (t : List Char) (n : Nat) :
    parseU16 t = some n ↔ ∃ plus digits, t = plus ++ digits ∧ (plus = [] ∨ plus = ['+']) ∧
      digits ≠ [] ∧ (∀ c ∈ digits, '0' ≤ c ∧ c ≤ '9') ∧ decimal digits = n ∧ n < 65536 := by
  have hl (cs : List Char) := parseLoop_iff cs 0 n (by decide)
  simp only [Nat.zero_mul, Nat.zero_add] at hl
  have hp : ¬ ('0' ≤ '+' ∧ '+' ≤ '9') := by decide
  constructor
  · intro h
    unfold parseU16 at h
    split at h
    · cases h
    · cases h
    · cases h
    · rename_i cs hne
      obtain ⟨h1, h2, h3⟩ := (hl cs).mp h
      exact ⟨['+'], cs, rfl, .inr rfl, by rintro rfl; exact hne rfl, h1, h2, h3⟩
    · rename_i hne _ _ _
      obtain ⟨h1, h2, h3⟩ := (hl t).mp h
      exact ⟨[], t, rfl, .inl rfl, hne, h1, h2, h3⟩
  · rintro ⟨plus, digits, rfl, rfl | rfl, h1, h2, h3, h4⟩
    · have hh := (hl digits).mpr ⟨h2, h3, h4⟩
      simp only [List.nil_append]
      unfold parseU16
      split
      · exact absurd rfl h1
      · exact absurd (h2 '+' (by simp)) (by decide)
      · exact absurd (h2 '-' (by simp)) (by decide)
      · exact absurd (h2 '+' (by simp)) (by decide)
      · exact hh
    · have hh := (hl digits).mpr ⟨h2, h3, h4⟩
      cases digits with
      | nil => exact absurd rfl h1
      | cons d ds => exact hh

theorem trim_spec (t : List Char) :
    ∃ l r, t = l ++ trim t ++ r ∧ (∀ c ∈ l, isWhitespace c = true) ∧
      (∀ c ∈ r, isWhitespace c = true) := by
  refine ⟨t.takeWhile isWhitespace,
    ((t.dropWhile isWhitespace).reverse.takeWhile isWhitespace).reverse, ?_, ?_, ?_⟩
  · unfold trim
    rw [List.append_assoc, ← List.reverse_append, List.takeWhile_append_dropWhile,
      List.reverse_reverse, List.takeWhile_append_dropWhile]
  · intro c hc
    exact List.all_eq_true.mp List.all_takeWhile c hc
  · intro c hc
    exact List.all_eq_true.mp List.all_takeWhile c (List.mem_reverse.mp hc)

theorem dropWhile_all {p : Char → Bool} (l m : List Char) (h : ∀ c ∈ l, p c = true) :
    (l ++ m).dropWhile p = m.dropWhile p := by
  induction l with
  | nil => rfl
  | cons c cs ih =>
    rw [List.cons_append, List.dropWhile_cons, if_pos (h c (by simp)),
      ih (fun c hc => h c (List.mem_cons_of_mem _ hc))]

theorem dropWhile_none {p : Char → Bool} (m r : List Char) (hm : m ≠ [])
    (h : ∀ c ∈ m, p c = false) : (m ++ r).dropWhile p = m ++ r := by
  cases m with
  | nil => exact absurd rfl hm
  | cons c cs =>
    rw [List.cons_append, List.dropWhile_cons, if_neg (by rw [h c (by simp)]; decide)]

theorem trim_eq (l m r : List Char) (hm : m ≠ []) (hl : ∀ c ∈ l, isWhitespace c = true)
    (hr : ∀ c ∈ r, isWhitespace c = true) (h : ∀ c ∈ m, isWhitespace c = false) :
    trim (l ++ m ++ r) = m := by
  unfold trim
  rw [List.append_assoc, dropWhile_all l _ hl, dropWhile_none m r hm h, List.reverse_append,
    dropWhile_all _ _ (fun c hc => hr c (List.mem_reverse.mp hc))]
  have := dropWhile_none m.reverse [] (by simpa using hm)
    (fun c hc => h c (List.mem_reverse.mp hc))
  rw [List.append_nil] at this
  rw [this, List.reverse_reverse]

theorem digit_not_white (c : Char) (h : '0' ≤ c ∧ c ≤ '9') : isWhitespace c = false := by
  rw [Bool.eq_false_iff]
  intro hw
  have e1 : 48 ≤ c.toNat := h.1
  have e2 : c.toNat ≤ 57 := h.2
  have := (isWhitespace_iff c).mp hw
  simp only [whiteSpace, List.mem_cons, List.not_mem_nil, or_false] at this
  omega

/-- What the code accepts as the text of a port file. -/
theorem parse_iff (t : List Char) (n : Nat) : parseU16 (trim t) = some n ↔ PortText t n := by
  constructor
  · intro h
    obtain ⟨plus, ds, h1, h2, h3, h4, h5, h6⟩ := (parseU16_iff _ _).mp h
    obtain ⟨l, r, e, hl, hr⟩ := trim_spec t
    refine ⟨l, plus, ds, r, ?_, fun c hc => (isWhitespace_iff c).mp (hl c hc),
      fun c hc => (isWhitespace_iff c).mp (hr c hc), h2, h3, h4, h5, h6⟩
    rw [e, h1]
    simp only [List.append_assoc]
  · rintro ⟨l, plus, ds, r, rfl, hl, hr, h2, h3, h4, h5, h6⟩
    refine (parseU16_iff _ _).mpr ⟨plus, ds, ?_, h2, h3, h4, h5, h6⟩
    rw [List.append_assoc l]
    refine trim_eq l (plus ++ ds) r (by simp [h3]) (fun c hc => (isWhitespace_iff c).mpr (hl c hc))
      (fun c hc => (isWhitespace_iff c).mpr (hr c hc)) ?_
    intro c hc
    rcases List.mem_append.mp hc with hc | hc
    · rcases h2 with rfl | rfl
      · cases hc
      · rw [List.mem_singleton.mp hc]; rfl
    · exact digit_not_white c (h4 c hc)

/-! ### Retrying -/

theorem Retried.unique {α : Type} {attempt : σ → Except IoErr α × σ} {sleep : σ → σ} {s : σ}
    {r r' : Except IoErr α} {s1 s2 : σ} (h : Retried attempt sleep s r s1)
    (h' : Retried attempt sleep s r' s2) : r = r' ∧ s1 = s2 := by
  obtain ⟨i, hi, hf, hr, hl⟩ := h
  obtain ⟨j, hj, hf', hr', hl'⟩ := h'
  have : i = j := by
    rcases Nat.lt_trichotomy i j with hlt | rfl | hlt
    · have := hf' i hlt
      rw [hr] at this
      rcases hl with hl | hl
      · rw [this] at hl; cases hl
      · omega
    · rfl
    · have := hf j hlt
      rw [hr'] at this
      rcases hl' with hl | hl
      · rw [this] at hl; cases hl
      · omega
  subst this
  rw [hr] at hr'
  exact ⟨(Prod.mk.inj hr').1, (Prod.mk.inj hr').2⟩

theorem retryLoop_retried {α : Type} (attempt : σ → Except IoErr α × σ) (sleep : σ → σ) (s : σ) :
    Retried attempt sleep s (retryLoop attempt sleep 0 s).1 (retryLoop attempt sleep 0 s).2 := by
  by_cases h : ∀ k < 4, (attempt (beforeAttempt attempt sleep s k)).1.isOk = false
  · have := retryLoop_failure attempt sleep s 0 (by omega) h
    simp only [beforeAttempt] at this
    exact ⟨3, by omega, fun k hk => h k (by omega), by rw [this]; rfl, .inr rfl⟩
  · have hex : ∃ i < 4, (∀ k < i, (attempt (beforeAttempt attempt sleep s k)).1.isOk = false) ∧
        (attempt (beforeAttempt attempt sleep s i)).1.isOk = true := by
      have key : ∀ (f : Nat → Bool) n, (¬ ∀ k < n, f k = false) →
          ∃ i < n, (∀ k < i, f k = false) ∧ f i = true := by
        intro f n
        induction n with
        | zero => intro h; exact absurd (fun k hk => absurd hk (by omega)) h
        | succ n ih =>
          intro h
          by_cases hn : ∀ k < n, f k = false
          · refine ⟨n, by omega, hn, ?_⟩
            cases hf : f n with
            | true => rfl
            | false =>
              refine absurd (fun k hk => ?_) h
              rcases Nat.lt_or_ge k n with h1 | h1
              · exact hn k h1
              · rw [show k = n by omega, hf]
          · obtain ⟨i, hi, h1, h2⟩ := ih hn
            exact ⟨i, by omega, h1, h2⟩
      exact key (fun k => (attempt (beforeAttempt attempt sleep s k)).1.isOk) 4 h
    obtain ⟨i, hi, hf, hok⟩ := hex
    have := retryLoop_success attempt sleep s 0 i hi (by omega) (fun k _ hk => hf k hk) hok
    simp only [beforeAttempt] at this
    exact ⟨i, hi, hf, by rw [this], .inl (by rw [this]; exact hok)⟩

theorem retryLoop_iff {α : Type} (attempt : σ → Except IoErr α × σ) (sleep : σ → σ) (s : σ)
    (r : Except IoErr α) (s' : σ) :
    retryLoop attempt sleep 0 s = (r, s') ↔ Retried attempt sleep s r s' := by
  constructor
  · intro h
    have := retryLoop_retried attempt sleep s
    rwa [h] at this
  · intro h
    obtain ⟨h1, h2⟩ := (retryLoop_retried attempt sleep s).unique h
    rw [← h1, ← h2]

theorem readPort_eq (sys : Sys σ) (cwd name : String) (k : Nat) (s : σ) :
    readPort sys cwd name k s =
      match retryLoop (fun s => sys.readFile s cwd name) sys.sleep k s with
      | (.ok text, s) =>
        match parseU16 (trim text) with
        | some port => (.ok port, s)
        | none => (.error .invalidData, s)
      | (.error e, s) => (.error e, s) := by
  induction h : 4 - k using Nat.strongRecOn generalizing k s with
  | _ n ih =>
    rw [readPort, retryLoop]
    rcases sys.readFile s cwd name with ⟨e | text, s1⟩
    · by_cases hk : k + 1 > 3
      · simp only [if_pos hk]
      · simp only [if_neg hk]
        exact ih (4 - (k + 1)) (by omega) (k + 1) (sys.sleep s1) rfl
    · rfl

theorem readPort_ok (sys : Sys σ) (cwd name : String) (s s' : σ) (port : Nat) :
    readPort sys cwd name 0 s = (.ok port, s') ↔ Announced sys cwd name s port s' := by
  unfold Announced
  simp only [readPort_eq, ← retryLoop_iff, ← parse_iff]
  rcases retryLoop (fun s => sys.readFile s cwd name) sys.sleep 0 s with ⟨e | text, s1⟩
  · simp
  · rcases hp : parseU16 (trim text) with _ | p <;> simp [hp]
    constructor
    · rintro ⟨rfl, rfl⟩; exact ⟨text, ⟨rfl, rfl⟩, hp⟩
    · rintro ⟨_, ⟨rfl, rfl⟩, h⟩
      rw [hp] at h
      exact ⟨Option.some.inj h, rfl⟩

theorem readPort_error (sys : Sys σ) (cwd name : String) (s s' : σ) (e : IoErr) :
    readPort sys cwd name 0 s = (.error e, s') ↔ NotAnnounced sys cwd name s e s' := by
  unfold NotAnnounced
  simp only [readPort_eq, ← retryLoop_iff, ← parse_iff]
  rcases retryLoop (fun s => sys.readFile s cwd name) sys.sleep 0 s with ⟨e' | text, s1⟩
  · simp
  · rcases hp : parseU16 (trim text) with _ | p <;> simp [hp]
    constructor
    · rintro ⟨rfl, rfl⟩; exact ⟨rfl, text, ⟨rfl, rfl⟩, by simp [hp]⟩
    · rintro ⟨rfl, _, ⟨rfl, rfl⟩, _⟩; exact ⟨rfl, rfl⟩

/-! ### C69 -/

/-- **C69 (partial).** Starting a simulator succeeds exactly if the process is
started, the first readable contents of both files are port numbers, and these
ports accept a connection, each with at most four attempts.  Missing: contents
that are not yet a port number end the attempts (see `C69_violated`). -/
theorem C69_started_partial (sys : Sys σ) (cmd : Cmd) (s s' : σ) (sim : Sim σ) :
    Sim.new sys cmd s = (.ok sim, s') ↔
      ∃ s1 s2 s3 tpmPort platPort,
        sys.spawn s cmd = (.ok sim.child, s1) ∧
        Announced sys cmd.cwd "command.port" s1 tpmPort s2 ∧
        Announced sys cmd.cwd "platform.port" s2 platPort s3 ∧
        Retried (connect sys.toOs (some tpmPort) (some platPort)) sys.sleep s3 (.ok sim.conn) s' := by
  simp only [← readPort_ok, ← retryLoop_iff]
  unfold Sim.new connectWithRetries
  constructor
  · intro h
    rcases h1 : sys.spawn s cmd with ⟨e | child, s1⟩ <;> simp only [h1] at h
    · simp at h
    rcases h2 : readPort sys cmd.cwd "command.port" 0 s1 with ⟨e | p1, s2⟩ <;> simp only [h2] at h
    · simp at h
    rcases h3 : readPort sys cmd.cwd "platform.port" 0 s2 with ⟨e | p2, s3⟩ <;> simp only [h3] at h
    · simp at h
    rcases h4 : retryLoop (connect sys.toOs (some p1) (some p2)) sys.sleep 0 s3 with ⟨e | c, s4⟩ <;>
      simp only [h4] at h
    · simp at h
    simp only [Prod.mk.injEq, Except.ok.injEq] at h
    obtain ⟨rfl, rfl⟩ := h
    exact ⟨s1, s2, s3, p1, p2, rfl, h2, h3, h4⟩
  · rintro ⟨s1, s2, s3, p1, p2, h1, h2, h3, h4⟩
    simp only [h1, h2, h3, h4]

/-- **C69.** The error is that of the first step that failed: of `spawn`, of the
fourth attempt to read a file or to connect, or `InvalidData` for contents that
are no port number.  Nothing is done after that. -/
theorem C69_error (sys : Sys σ) (cmd : Cmd) (s s' : σ) (e : IoErr) :
    Sim.new sys cmd s = (.error e, s') ↔
      sys.spawn s cmd = (.error e, s') ∨
      ∃ child s1, sys.spawn s cmd = (.ok child, s1) ∧
        (NotAnnounced sys cmd.cwd "command.port" s1 e s' ∨
        ∃ tpmPort s2, Announced sys cmd.cwd "command.port" s1 tpmPort s2 ∧
          (NotAnnounced sys cmd.cwd "platform.port" s2 e s' ∨
          ∃ platPort s3, Announced sys cmd.cwd "platform.port" s2 platPort s3 ∧
            Retried (connect sys.toOs (some tpmPort) (some platPort)) sys.sleep s3 (.error e) s')) := by
  simp only [← readPort_ok, ← readPort_error, ← retryLoop_iff]
  unfold Sim.new connectWithRetries
  constructor
  · intro h
    rcases h1 : sys.spawn s cmd with ⟨e | child, s1⟩ <;> simp only [h1] at h
    · rw [(Prod.mk.inj h).2, Except.error.inj (Prod.mk.inj h).1]; exact .inl rfl
    refine .inr ⟨child, s1, rfl, ?_⟩
    rcases h2 : readPort sys cmd.cwd "command.port" 0 s1 with ⟨e | p1, s2⟩ <;> simp only [h2] at h
    · rw [(Prod.mk.inj h).2, Except.error.inj (Prod.mk.inj h).1]; exact .inl rfl
    refine .inr ⟨p1, s2, rfl, ?_⟩
    rcases h3 : readPort sys cmd.cwd "platform.port" 0 s2 with ⟨e | p2, s3⟩ <;> simp only [h3] at h
    · rw [(Prod.mk.inj h).2, Except.error.inj (Prod.mk.inj h).1]; exact .inl rfl
    refine .inr ⟨p2, s3, rfl, ?_⟩
    rcases h4 : retryLoop (connect sys.toOs (some p1) (some p2)) sys.sleep 0 s3 with ⟨e | c, s4⟩ <;>
      simp only [h4] at h
    · rw [(Prod.mk.inj h).2, Except.error.inj (Prod.mk.inj h).1]
    · simp at h
  · rintro (h1 | ⟨child, s1, h1, h2 | ⟨p1, s2, h2, h3 | ⟨p2, s3, h3, h4⟩⟩⟩)
    · simp only [h1]
    · simp only [h1, h2]
    · simp only [h1, h2, h3]
    · simp only [h1, h2, h3, h4]

/-- A system whose state counts seconds: the simulator (process 7) creates its
port files at once and has written them after `t` seconds. -/
def slowSys (t : Nat) : Sys Nat where
  connect s _ _ := (.ok (), s)
  write s _ b := (.ok b.length, s)
  write_le := by intro s p b n h; injection h with h; omega
  read s _ _ := (.ok [], s)
  read_le := by intro s p n b h; injection h with h; rw [← h]; simp
  shutdown s _ := (.ok (), s)
  sleep s := s + 1
  spawn s _ := (.ok 7, s)
  kill s _ := (.ok (), s)
  readFile s _ name :=
    (.ok (if s < t then [] else if name = "command.port" then ['4', '2', '\n'] else ['4', '3', '\n']), s)

theorem portText_42 : PortText ['4', '2', '\n'] 42 :=
  ⟨[], [], ['4', '2'], ['\n'], rfl, by decide, by decide, .inl rfl, by decide, by decide, by decide,
    by decide⟩

theorem portText_43 : PortText ['4', '3', '\n'] 43 :=
  ⟨[], [], ['4', '3'], ['\n'], rfl, by decide, by decide, .inl rfl, by decide, by decide, by decide,
    by decide⟩

theorem not_portText_nil : ¬ ∃ p, PortText [] p := by
  rintro ⟨p, h⟩
  have := (parse_iff [] p).mpr h
  cases this

/-- **C69 is violated**: both port numbers can be found within four attempts and
the ports accept connections, but as the file is still empty at the first
attempt, starting the simulator fails at once. -/
theorem C69_violated :
    ∃ (sys : Sys Nat) (cmd : Cmd) (child s s1 s2 s3 s4 p1 p2 : Nat) (c : Conn Nat),
      sys.spawn s cmd = (.ok child, s1) ∧
      AnnouncedInTime sys cmd.cwd "command.port" s1 p1 s2 ∧
      AnnouncedInTime sys cmd.cwd "platform.port" s2 p2 s3 ∧
      Retried (connect sys.toOs (some p1) (some p2)) sys.sleep s3 (.ok c) s4 ∧
      Sim.new sys cmd s = (.error .invalidData, s1) := by
  refine ⟨slowSys 1, ⟨"tpm", [], "."⟩, 7, 0, 0, 1, 1, 1, 42, 43, ⟨1, 0, []⟩, rfl, ?_, ?_, ?_, ?_⟩
  · refine ⟨1, by decide, ?_, ['4', '2', '\n'], rfl, portText_42⟩
    intro k hk text ht
    have : k = 0 := by omega
    subst this
    injection ht with ht
    subst ht
    exact not_portText_nil
  · exact ⟨0, by decide, fun k hk => absurd hk (by omega), ['4', '3', '\n'], rfl, portText_43⟩
  · exact ⟨0, by decide, fun k hk => absurd hk (by omega), rfl, .inl rfl⟩
  · exact (C69_error _ _ _ _ _).mpr (.inr ⟨7, 0, rfl, .inl (.inr ⟨rfl, [],
      ⟨0, by decide, fun k hk => absurd hk (by omega), rfl, .inl rfl⟩, not_portText_nil⟩)⟩)

/-- A simulator that has written its files is started. -/
theorem slow_started : Sim.new (slowSys 0) ⟨"tpm", [], "."⟩ 0 = (.ok ⟨7, ⟨0, 0, []⟩⟩, 0) :=
  (C69_started_partial _ _ _ _ _).mpr ⟨0, 0, 0, 42, 43, rfl,
    ⟨['4', '2', '\n'], ⟨0, by decide, fun k hk => absurd hk (by omega), rfl, .inl rfl⟩, portText_42⟩,
    ⟨['4', '3', '\n'], ⟨0, by decide, fun k hk => absurd hk (by omega), rfl, .inl rfl⟩, portText_43⟩,
    ⟨0, by decide, fun k hk => absurd hk (by omega), rfl, .inl rfl⟩⟩

/-- Texts of port files: white space of any kind, a sign and leading zeros are
accepted; negative, large and partial numbers are not. -/
example : PortText ['\u00a0', '+', '0', '8', '0', '\t', '\n'] 80 := (parse_iff _ _).mp (by decide)
example : ¬ PortText ['6', '5', '5', '3', '6'] 65536 := fun h => by
  have := (parse_iff _ _).mpr h; revert this; decide
example : ¬ ∃ p, PortText ['8', '0', ' ', '1'] p := fun ⟨p, h⟩ => by
  have h1 := (parse_iff _ _).mpr h
  have h2 : parseU16 (trim ['8', '0', ' ', '1']) = none := by decide
  rw [h2] at h1
  cases h1

/-! ### C70 -/

/-- **C70 (partial).** Dropping a simulator either has sent both stop codes and
shut down both streams, or did not get that far and then kills the process.
Missing: failures in `new` (see `C70_violated`). -/
theorem C70_drop_partial (sys : Sys σ) (sim : Sim σ) :
    ∃ l c,
      c.log = sim.conn.log ++ l ∧ c.locality = sim.conn.locality ∧
      (Trace [.send .tpm (word 21), .shut .tpm, .send .plat (word 21), .shut .plat] l true ∧
          (sim.drop sys).conn = c ∨
        Trace [.send .tpm (word 21), .shut .tpm, .send .plat (word 21), .shut .plat] l false ∧
          (sim.drop sys).conn = { c with net := (sys.kill c.net sim.child).2 }) := by
  obtain ⟨h1, l, h2, h3⟩ := op_trace sys.toOs .stopSimulator sim.conn
  refine ⟨l, (stopSimulator sys.toOs sim.conn).2, h2, h1, ?_⟩
  unfold Sim.drop Sim.stopNicely
  simp only [runOp, Op.steps] at h3
  rcases hr : stopSimulator sys.toOs sim.conn with ⟨e | u, c⟩ <;> rw [hr] at h3 <;>
    simp only [isOk_error, isOk_ok] at h3
  · refine .inr ⟨h3, ?_⟩
    simp only [Sim.stop]
    rcases hk : sys.kill c.net sim.child with ⟨e | u, s⟩ <;> rfl
  · exact .inl ⟨h3, rfl⟩

/-- **C70** from start to end: whatever was done with the connection of a
simulator that was started, dropping it sends both stop codes and shuts down both
streams, or kills the process that was started. -/
theorem C70_lifecycle_partial (sys : Sys σ) (cmd : Cmd) (s s1 s' : σ) (pid : Nat) (sim : Sim σ)
    (hsp : sys.spawn s cmd = (.ok pid, s1)) (hn : Sim.new sys cmd s = (.ok sim, s')) (c : Conn σ) :
    ∃ l d, d.log = c.log ++ l ∧ d.locality = c.locality ∧
      (Trace [.send .tpm (word 21), .shut .tpm, .send .plat (word 21), .shut .plat] l true ∧
          (Sim.drop sys { sim with conn := c }).conn = d ∨
        Trace [.send .tpm (word 21), .shut .tpm, .send .plat (word 21), .shut .plat] l false ∧
          (Sim.drop sys { sim with conn := c }).conn = { d with net := (sys.kill d.net pid).2 }) := by
  obtain ⟨s1', _, _, _, _, h, -⟩ := (C69_started_partial sys cmd s s' sim).mp hn
  rw [hsp] at h
  have hp : pid = sim.child := by injection h with h; injection h
  subst hp
  exact C70_drop_partial sys { sim with conn := c }

/-- Process 7 was started. -/
example (c : Conn Nat) := C70_lifecycle_partial (slowSys 0) _ 0 0 0 7 _ rfl slow_started c

/-- **C70** for an explicit stop: it kills the process, does nothing else, and
succeeds exactly if that did. -/
theorem C70_stop (sys : Sys σ) (sim : Sim σ) :
    (sim.stop sys).2 =
        ⟨sim.child, { sim.conn with net := (sys.kill sim.conn.net sim.child).2 }⟩ ∧
      ((∃ u, (sim.stop sys).1 = .ok u) ↔ ∃ u, (sys.kill sim.conn.net sim.child).1 = .ok u) ∧
      ∀ e, (sim.stop sys).1 = .error e → e = .other := by
  unfold Sim.stop
  rcases sys.kill sim.conn.net sim.child with ⟨e | u, s⟩ <;> simp

theorem retryLoop_inv {α : Type} (I : σ → Prop) (attempt : σ → Except IoErr α × σ) (sleep : σ → σ)
    (ha : ∀ s, I s → I (attempt s).2) (hs : ∀ s, I s → I (sleep s)) (k : Nat) (s : σ) (h : I s) :
    I (retryLoop attempt sleep k s).2 := by
  induction hn : 4 - k using Nat.strongRecOn generalizing k s with
  | _ n ih =>
    rw [retryLoop]
    have := ha s h
    generalize attempt s = x at this ⊢
    rcases x with ⟨e | a, s1⟩
    · by_cases hk : k + 1 > 3
      · simpa only [if_pos hk] using this
      · simp only [if_neg hk]
        exact ih (4 - (k + 1)) (by omega) (k + 1) (sleep s1) (hs _ this) rfl
    · exact this

theorem connect_inv (I : σ → Prop) (os : Os σ) (hc : ∀ s p n, I s → I (os.connect s p n).2)
    (a b : Option Nat) (s : σ) (h : I s) : I (connect os a b s).2 := by
  unfold connect
  have h1 := hc s .tpm (a.getD 2321) h
  generalize os.connect s .tpm (a.getD 2321) = x at h1 ⊢
  rcases x with ⟨e | u, s1⟩
  · exact h1
  · have h2 := hc s1 .plat (b.getD 2322) h1
    show I (match os.connect s1 .plat (b.getD 2322) with
      | (.error e, s) => ((.error e, s) : Except IoErr (Conn σ) × σ)
      | (.ok _, s) => (.ok ⟨s, 0, []⟩, s)).2
    generalize os.connect s1 .plat (b.getD 2322) = x at h2 ⊢
    rcases x with ⟨e | u, s2⟩ <;> exact h2

theorem readPort_inv (I : σ → Prop) (sys : Sys σ) (hr : ∀ s d n, I s → I (sys.readFile s d n).2)
    (hs : ∀ s, I s → I (sys.sleep s)) (cwd name : String) (s : σ) (h : I s) :
    I (readPort sys cwd name 0 s).2 := by
  rw [readPort_eq]
  have := retryLoop_inv I (fun s => sys.readFile s cwd name) sys.sleep (fun s h => hr s _ _ h) hs 0 s h
  generalize retryLoop (fun s => sys.readFile s cwd name) sys.sleep 0 s = x at this ⊢
  rcases x with ⟨e | text, s1⟩
  · exact this
  · simp only
    cases parseU16 (trim text) <;> exact this

/-- **C70 is violated**, on every system: if starting a simulator fails after the
process was started, the process is left running: nothing that could end it is
done. -/
theorem C70_violated (sys : Sys σ) (cmd : Cmd) (running : σ → Nat → Prop)
    (hr : ∀ s d n pid, running s pid → running (sys.readFile s d n).2 pid)
    (hc : ∀ s p n pid, running s pid → running (sys.connect s p n).2 pid)
    (hs : ∀ s pid, running s pid → running (sys.sleep s) pid)
    (s s1 s' : σ) (child : Nat) (e : IoErr) (hsp : sys.spawn s cmd = (.ok child, s1))
    (h1 : running s1 child) (hn : Sim.new sys cmd s = (.error e, s')) : running s' child := by
  unfold Sim.new at hn
  simp only [hsp] at hn
  have h2 := readPort_inv (running · child) sys (fun s d n => hr s d n child) (fun s => hs s child)
    cmd.cwd "command.port" s1 h1
  rcases g2 : readPort sys cmd.cwd "command.port" 0 s1 with ⟨e | p1, s2⟩ <;>
    rw [g2] at h2 <;> simp only [g2] at hn
  · rw [← (Prod.mk.inj hn).2]; exact h2
  have h3 := readPort_inv (running · child) sys (fun s d n => hr s d n child) (fun s => hs s child)
    cmd.cwd "platform.port" s2 h2
  rcases g3 : readPort sys cmd.cwd "platform.port" 0 s2 with ⟨e | p2, s3⟩ <;>
    rw [g3] at h3 <;> simp only [g3] at hn
  · rw [← (Prod.mk.inj hn).2]; exact h3
  have h4 := retryLoop_inv (running · child) (connect sys.toOs (some p1) (some p2)) sys.sleep
    (fun s h => connect_inv (running · child) sys.toOs (fun s p n => hc s p n child) _ _ s h)
    (fun s => hs s child) 0 s3 h3
  unfold connectWithRetries at hn
  rcases g4 : retryLoop (connect sys.toOs (some p1) (some p2)) sys.sleep 0 s3 with ⟨e | c, s4⟩ <;>
    rw [g4] at h4 <;> simp only [g4] at hn
  · rw [← (Prod.mk.inj hn).2]; exact h4
  · simp at hn

/-- A system whose state is the processes running: port files never appear. -/
def brokenSys : Sys (List Nat) where
  connect s _ _ := (.ok (), s)
  write s _ _ := (.error (.os 32), s)
  write_le := by intro s p b n h; cases h
  read s _ _ := (.ok [], s)
  read_le := by intro s p n b h; injection h with h; rw [← h]; simp
  shutdown s _ := (.ok (), s)
  sleep s := s
  spawn s _ := (.ok 7, 7 :: s)
  kill s pid := (.ok (), s.erase pid)
  readFile s _ _ := (.error (.os 2), s)

/-- Starting fails and leaves process 7 behind; dropping a simulator that cannot
be told to stop kills it. -/
example : ∃ s', Sim.new brokenSys ⟨"tpm", [], "."⟩ [] = (.error (.os 2), s') ∧ 7 ∈ s' := by
  have h : Sim.new brokenSys ⟨"tpm", [], "."⟩ [] = (.error (.os 2), [7]) :=
    (C69_error _ _ _ _ _).mpr (.inr ⟨7, [7], rfl, .inl (.inl
      ⟨3, by decide, fun k hk => rfl, rfl, .inr rfl⟩)⟩)
  exact ⟨[7], h, C70_violated brokenSys _ (fun s pid => pid ∈ s) (fun _ _ _ _ h => h)
    (fun _ _ _ _ h => h) (fun _ _ h => h) [] [7] _ 7 _ rfl (by decide) h⟩
example : ((⟨7, ⟨[5, 7], 0, []⟩⟩ : Sim (List Nat)).stop brokenSys).1 = .ok () ∧
    ((⟨7, ⟨[5, 7], 0, []⟩⟩ : Sim (List Nat)).stop brokenSys).2.conn.net = [5] := ⟨rfl, rfl⟩
example : ((⟨7, ⟨[7], 0, []⟩⟩ : Sim (List Nat)).drop brokenSys).conn.net = [] := by
  unfold Sim.drop Sim.stopNicely stopSimulator
  simp only [bind_def, M.bind]
  rw [writeAll]
  rfl

end Verif.Tcp
