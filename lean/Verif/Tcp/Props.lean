import Verif.Tcp.Lemmas

/-
Property theorems C40-C45: the simulator connection.
-/

namespace Verif.Tcp
open Verif

variable {σ τ : Type}

/-! ### A concrete simulator for the examples -/

/-- State of the example simulator: undelivered bytes of both ports and the
TPM's state. -/
structure Demo (τ : Type) where
  pend : Bytes
  platPend : Bytes
  st : τ

/-- A simulator that takes every write on the TPM port for a request,
acknowledges every write on the platform port and delivers at most `k + 1`
bytes per read. -/
def demoOs (f : τ → Nat → Bytes → Bytes × τ) (k : Nat) : Os (Demo τ) where
  connect s _ _ := (.ok (), s)
  write s p b :=
    match p with
    | .tpm =>
      let r := f s.st (positional ((b.drop 4).take 1)) (b.drop 9)
      (.ok b.length, { s with pend := s.pend ++ reply r.1, st := r.2 })
    | .plat => (.ok b.length, { s with platPend := s.platPend ++ ackBytes })
  write_le := by
    intro s p b n h
    cases p <;> (injection h with h; omega)
  read s p n :=
    match p with
    | .tpm => (.ok (s.pend.take (min n (k + 1))), { s with pend := s.pend.drop (min n (k + 1)) })
    | .plat =>
      (.ok (s.platPend.take (min n (k + 1))), { s with platPend := s.platPend.drop (min n (k + 1)) })
  read_le := by
    intro s p n b h
    cases p <;> (injection h with h; rw [← h, List.length_take]; omega)
  shutdown s _ := (.ok (), s)
  sleep s := s

theorem demo_simulator (f : τ → Nat → Bytes → Bytes × τ) (k : Nat) :
    Simulator (demoOs f k) f (·.pend) (·.st) where
  read := by
    intro s n hn
    exact ⟨min n (k + 1), by omega, by intro _; omega, rfl, rfl, rfl⟩
  send := by
    intro s loc cmd hl hc
    have e1 : ((request loc cmd).drop 4).take 1 = digits256 1 loc := by
      simp only [request, List.append_assoc]
      rw [List.drop_left' (by rfl), List.take_left' (by simp)]
    have e2 : (request loc cmd).drop 9 = cmd := by
      unfold request
      rw [List.drop_left' (by simp)]
    have e3 : positional (digits256 1 loc) = loc := positional_digits256_of_lt (by simpa using hl)
    refine ⟨rfl, ?_, ?_⟩
    · simp only [demoOs, e1, e2, e3]
    · simp only [demoOs, e1, e2, e3]

/-! ### C40 -/

/-- **C40**: a successful transaction, with any peer and any chunking, wrote
exactly the request with the current locality and then read exactly the reply
whose response bytes it returns; the rest of the caller's buffer and the
locality are unchanged. -/
theorem C40_framing (os : Os σ) (command response : Bytes) (c c' : Conn σ) (n : Nat) (rsp : Bytes)
    (h : transact os command response c = (.ok n, rsp, c')) :
    c'.log = c.log ++ outs .tpm (request c.locality command) ++ inps .tpm (reply (rsp.take n)) ∧
    n ≤ response.length ∧ rsp.length = response.length ∧ rsp.drop n = response.drop n ∧
    c'.locality = c.locality ∧ command.length < 2 ^ 32 := by
  have hc : command.length < 2 ^ 32 := by
    apply Classical.byContradiction
    intro hc
    unfold transact at h
    rw [if_pos (by omega)] at h
    simp at h
  rw [transact_eq os command response c hc] at h
  obtain ⟨h1, l, h2, h3⟩ := hasTrace_writeVectored os .tpm (request c.locality command) c
  rcases hw : writeVectored os .tpm (request c.locality command) c with ⟨e | u, c1⟩
  · rw [hw] at h; simp at h
  · rw [hw] at h h1 h2 h3
    simp only at h h1 h2
    have hl : l = outs .tpm (request c.locality command) := by
      rcases h3 with ⟨l', rfl, h⟩ | ⟨h, _⟩
      · rw [h.1, List.append_nil]
      · simp at h
    obtain ⟨g1, g2, g3, g4⟩ := receive_spec os response c1
    rw [h] at g1 g2 g3 g4
    obtain ⟨k1, k2, k3, k4⟩ := g4 n rfl
    refine ⟨?_, k1, g2, k3, g1.trans h1, hc⟩
    simp only at k4
    rw [k4, h2, hl]

/-- **C40**, the other direction: with a simulator, a command whose response
fits is answered, whatever the chunking. -/
theorem C40_answered (os : Os σ) (f : τ → Nat → Bytes → Bytes × τ) (pend : σ → Bytes) (st : σ → τ)
    (hs : Simulator os f pend st) (command response : Bytes) (c : Conn σ)
    (hl : c.locality < 256) (hc : command.length < 2 ^ 32) (hp : pend c.net = [])
    (hfit : (f (st c.net) c.locality command).1.length ≤ response.length)
    (hr : (f (st c.net) c.locality command).1.length < 2 ^ 32) :
    ∃ c', transact os command response c =
        (.ok (f (st c.net) c.locality command).1.length,
          (f (st c.net) c.locality command).1 ++
            response.drop (f (st c.net) c.locality command).1.length, c') ∧
      pend c'.net = [] ∧ st c'.net = (f (st c.net) c.locality command).2 ∧
      c'.locality = c.locality := by
  obtain ⟨c1, h1, h2, h3, h4⟩ := simulator_send hs command c hl hc
  rw [transact_eq os command response c hc, h1]
  simp only
  rw [hp, List.nil_append] at h3
  obtain ⟨c2, g1, g2, g3, g4⟩ := receive_feeds hs.toFeeds response
    (f (st c.net) c.locality command).1 ackBytes [] c1 hfit hr rfl (by
      rw [h3, reply, List.append_nil])
  rw [if_pos rfl] at g1
  exact ⟨c2, g1, g2, g3.trans h4, g4.trans h2⟩

/-- The echo TPM over single-byte reads. -/
example : (transact (demoOs (fun (t : Nat) loc cmd => (UInt8.ofNat loc :: cmd, t + 1)) 0)
    [7, 8] (List.replicate 5 0xFF) ⟨⟨[], [], 0⟩, 3, []⟩).1 = .ok 3 := by
  obtain ⟨c', h, -⟩ := C40_answered _ _ _ _ (demo_simulator
    (fun (t : Nat) loc cmd => (UInt8.ofNat loc :: cmd, t + 1)) 0) [7, 8] (List.replicate 5 0xFF)
    ⟨⟨[], [], 0⟩, 3, []⟩ (by decide) (by decide) rfl (by decide) (by decide)
  rw [h]; rfl

example : request 3 [7, 8] = [0, 0, 0, 8, 3, 0, 0, 0, 2, 7, 8] := by decide
example : reply [3, 7, 8] = [0, 0, 0, 3, 3, 7, 8, 0, 0, 0, 0] := by decide

/-! ### C41 -/

/-- A history: transactions (with their response buffers), other operations,
and changes of the locality. -/
inductive Item where
  | tx (command response : Bytes)
  | op (o : Op)
  | locality (l : Nat)

/-- Performing a history; the results of the transactions and the response
buffers afterwards. -/
def history (os : Os σ) : List Item → Conn σ → List (Except IoErr Nat × Bytes) × Conn σ
  | [], c => ([], c)
  | .tx command response :: is, c =>
    let r := transact os command response c
    let rest := history os is r.2.2
    ((r.1, r.2.1) :: rest.1, rest.2)
  | .op o :: is, c => history os is (runOp os o c).2
  | .locality l :: is, c => history os is (setLocality l c).2

/-- The TPM port's traffic for a history with the given responses. -/
def traffic : Nat → List Item → List Bytes → List Ev
  | loc, .tx command _ :: is, r :: rs =>
    outs .tpm (request loc command) ++ inps .tpm (reply r) ++ traffic loc is rs
  | loc, .op _ :: is, rs => traffic loc is rs
  | _, .locality l :: is, rs => traffic l is rs
  | _, _, _ => []

/-- The response a transaction returned: the first `n` bytes of its buffer. -/
def returned : Except IoErr Nat × Bytes → Bytes
  | (.ok n, b) => b.take n
  | (.error _, b) => b

theorem filter_tpm {l : List Ev} (h : ∀ e ∈ l, e.port = .tpm) :
    l.filter (·.port = .tpm) = l := by
  rw [List.filter_eq_self]
  intro e he; simp [h e he]

theorem filter_plat {l : List Ev} (h : ∀ e ∈ l, e.port = .plat) :
    l.filter (·.port = .tpm) = [] := by
  rw [List.filter_eq_nil_iff]
  intro e he; simp [h e he]

/-- The platform operations use only the platform port. -/
theorem platform_op_ports (os : Os σ) (op : Op) (hop : op.onPlatform = true) (c : Conn σ) :
    ∃ l, (runOp os op c).2.log = c.log ++ l ∧ ∀ e ∈ l, e.port = .plat := by
  obtain ⟨_, l, h1, h2⟩ := op_trace os op c
  refine ⟨l, h1, h2.ports ?_⟩
  cases op <;> simp [Op.onPlatform] at hop <;> simp [Op.steps, Step.port]

/-- **C41**, for every peer: over any history with platform operations and
locality changes in between, if the transactions succeed, then the traffic on
the TPM port is exactly request, reply, request, reply, ... with the responses
that were returned: no byte is lost, duplicated or attributed to another
command. -/
theorem C41_history (os : Os σ) (items : List Item) (c : Conn σ)
    (hops : ∀ o, .op o ∈ items → o.onPlatform = true)
    (hok : ∀ r ∈ (history os items c).1, r.1.isOk = true) :
    (history os items c).2.log.filter (·.port = .tpm) =
      c.log.filter (·.port = .tpm) ++
        traffic c.locality items ((history os items c).1.map returned) := by
  induction items generalizing c with
  | nil => simp [history, traffic]
  | cons i is ih =>
    have hops' : ∀ o, .op o ∈ is → o.onPlatform = true :=
      fun o ho => hops o (List.mem_cons_of_mem _ ho)
    cases i with
    | tx command response =>
      simp only [history] at hok ⊢
      rcases ht : transact os command response c with ⟨e | n, rsp, c'⟩
      · have := hok _ List.mem_cons_self
        rw [ht] at this; simp at this
      · rw [ht] at hok
        obtain ⟨h1, -, -, -, h5, -⟩ := C40_framing os command response c c' n rsp ht
        have := ih c' hops' (fun r hr => hok r (List.mem_cons_of_mem _ hr))
        simp only [List.map_cons, returned, traffic]
        have f1 : (outs .tpm (request c.locality command)).filter (·.port = .tpm) = _ :=
          filter_tpm (by intro e he; obtain ⟨x, _, rfl⟩ := List.mem_map.1 he; rfl)
        have f2 : (inps .tpm (reply (rsp.take n))).filter (·.port = .tpm) = _ :=
          filter_tpm (by intro e he; obtain ⟨x, _, rfl⟩ := List.mem_map.1 he; rfl)
        rw [this, h1, h5, List.filter_append, List.filter_append, f1, f2]
        simp only [List.append_assoc]
    | op o =>
      simp only [history, traffic] at hok ⊢
      obtain ⟨l, h1, h2⟩ := platform_op_ports os o (hops o List.mem_cons_self) c
      have h3 := (op_trace os o c).1
      rw [ih _ hops' hok, h1, List.filter_append, filter_plat h2, List.append_nil, h3]
    | locality l =>
      simp only [history, traffic] at hok ⊢
      rw [ih _ hops' hok]
      rfl

/-- The responses a TPM that behaves like `f` gives for a history. -/
def served (f : τ → Nat → Bytes → Bytes × τ) : τ → Nat → List Item → List Bytes
  | t, loc, .tx command _ :: is => (f t loc command).1 :: served f (f t loc command).2 loc is
  | t, _, .locality l :: is => served f t l is
  | t, loc, .op _ :: is => served f t loc is
  | _, _, [] => []

/-- The history consists of transactions with commands and response buffers
that are big enough, and valid localities. -/
def Adequate (f : τ → Nat → Bytes → Bytes × τ) : τ → Nat → List Item → Prop
  | t, loc, .tx command response :: is =>
    command.length < 2 ^ 32 ∧ (f t loc command).1.length ≤ response.length ∧
    (f t loc command).1.length < 2 ^ 32 ∧ Adequate f (f t loc command).2 loc is
  | t, _, .locality l :: is => l < 256 ∧ Adequate f t l is
  | _, _, .op _ :: _ => False
  | _, _, [] => True

/-- **C41** with a simulator: over any history the `i`-th transaction succeeds
and returns the `i`-th response. -/
theorem C41_synchronized (os : Os σ) (f : τ → Nat → Bytes → Bytes × τ) (pend : σ → Bytes)
    (st : σ → τ) (hs : Simulator os f pend st) (items : List Item) (c : Conn σ)
    (hl : c.locality < 256) (hp : pend c.net = [])
    (ha : Adequate f (st c.net) c.locality items) :
    (∀ r ∈ (history os items c).1, r.1.isOk = true) ∧
    (history os items c).1.map returned = served f (st c.net) c.locality items ∧
    pend (history os items c).2.net = [] := by
  induction items generalizing c with
  | nil => exact ⟨by simp [history], rfl, hp⟩
  | cons i is ih =>
    cases i with
    | tx command response =>
      obtain ⟨h1, h2, h3, h4⟩ := ha
      obtain ⟨c', g1, g2, g3, g4⟩ := C40_answered os f pend st hs command response c hl h1 hp h2 h3
      have := ih c' (by omega) g2 (by rw [g3, g4]; exact h4)
      simp only [history, g1]
      obtain ⟨i1, i2, i3⟩ := this
      refine ⟨?_, ?_, i3⟩
      · intro r hr
        rcases List.mem_cons.1 hr with rfl | hr
        · rfl
        · exact i1 r hr
      · rw [List.map_cons, i2, g3, g4]
        simp only [returned, served, List.take_left']
    | op o => exact absurd ha id
    | locality l =>
      obtain ⟨h1, h2⟩ := ha
      simp only [history, served]
      exact ih { c with locality := l } h1 hp h2

/-- Three transactions with a counting TPM, with a change of the locality. -/
example : (history (demoOs (fun (t : Nat) loc cmd => ([UInt8.ofNat t, UInt8.ofNat loc] ++ cmd, t + 1)) 1)
    [.tx [9] (List.replicate 8 0), .locality 2, .tx [] (List.replicate 2 0),
      .tx [5, 6] (List.replicate 8 0)] ⟨⟨[], [], 0⟩, 1, []⟩).1.map returned =
      [[0, 1, 9], [1, 2], [2, 2, 5, 6]] := by
  have := (C41_synchronized _ _ _ _ (demo_simulator
    (fun (t : Nat) loc cmd => ([UInt8.ofNat t, UInt8.ofNat loc] ++ cmd, t + 1)) 1)
    [.tx [9] (List.replicate 8 0), .locality 2, .tx [] (List.replicate 2 0),
      .tx [5, 6] (List.replicate 8 0)] ⟨⟨[], [], 0⟩, 1, []⟩ (by decide) rfl
    ⟨by decide, by decide, by decide, by decide, by decide, by decide, by decide, by decide,
      by decide, by decide, trivial⟩).2.1
  rw [this]
  rfl

/-! ### C42 -/

/-- **C42 is violated**, for every simulator: if the first response does not fit
and contains a reply, the next transaction returns the contents of that reply,
whatever its own response is. -/
theorem C42_violated_general (os : Os σ) (f : τ → Nat → Bytes → Bytes × τ) (pend : σ → Bytes)
    (st : σ → τ) (hs : Simulator os f pend st) (cmd1 cmd2 response x junk : Bytes) (c : Conn σ)
    (hl : c.locality < 256) (h1 : cmd1.length < 2 ^ 32) (h2 : cmd2.length < 2 ^ 32)
    (hp : pend c.net = [])
    (hbad : (f (st c.net) c.locality cmd1).1 = reply x ++ junk)
    (hbig : response.length < (reply x ++ junk).length) (hbig' : (reply x ++ junk).length < 2 ^ 32)
    (hx : x.length ≤ response.length) :
    ∃ c1 c2, transact os cmd1 response c = (.error .invalidInput, response, c1) ∧
      transact os cmd2 response c1 = (.ok x.length, x ++ response.drop x.length, c2) := by
  obtain ⟨c1, g1, g2, g3, g4⟩ := simulator_send hs cmd1 c hl h1
  rw [hp, List.nil_append, hbad] at g3
  obtain ⟨c2, k1, k2, k3, k4⟩ := receive_big hs.toFeeds response (reply x ++ junk ++ ackBytes)
    (reply x ++ junk).length c1 hbig hbig' (by rw [g3, reply, List.append_assoc])
  have hl2 : c2.locality = c.locality := k4.trans g2
  obtain ⟨c3, m1, m2, m3, m4⟩ := simulator_send hs cmd2 c2 (by omega) h2
  rw [k2] at m3
  have hxlen : x.length < 2 ^ 32 := by
    rw [List.length_append, reply, List.length_append, List.length_append] at hbig'; omega
  obtain ⟨c4, n1, -⟩ := receive_feeds hs.toFeeds response x ackBytes
    (junk ++ ackBytes ++ reply (f (st c2.net) c2.locality cmd2).1) c3 hx hxlen rfl (by
      rw [m3]; simp only [reply, List.append_assoc])
  rw [if_pos rfl] at n1
  refine ⟨c2, c4, ?_, ?_⟩
  · rw [transact_eq os cmd1 response c h1, g1]; exact k1
  · rw [transact_eq os cmd2 response c2 h2, m1]; exact n1

/-- A TPM whose first response is 17 bytes long and whose second is `[1, 2, 3]`. -/
def evilTpm (t : Nat) (_ : Nat) (_ : Bytes) : Bytes × Nat :=
  if t = 0 then (reply [6, 6, 6] ++ [0, 0, 0, 0, 0, 0], 1) else ([1, 2, 3], t + 1)

/-- **C42 is violated**: the second response is `[1, 2, 3]`, but the second
transaction successfully returns `[6, 6, 6]`. -/
theorem C42_violated : ∃ c1 c2,
    transact (demoOs evilTpm 0) [0] (List.replicate 16 0) ⟨⟨[], [], 0⟩, 0, []⟩ =
      (.error .invalidInput, List.replicate 16 0, c1) ∧
    transact (demoOs evilTpm 0) [0] (List.replicate 16 0) c1 =
      (.ok 3, [6, 6, 6] ++ List.replicate 13 0, c2) ∧
    (evilTpm 1 0 [0]).1 = [1, 2, 3] := by
  obtain ⟨c1, c2, h1, h2⟩ := C42_violated_general (demoOs evilTpm 0) evilTpm _ _ (demo_simulator _ _)
    [0] [0] (List.replicate 16 0) [6, 6, 6] [0, 0, 0, 0, 0, 0] ⟨⟨[], [], 0⟩, 0, []⟩ (by decide)
    (by decide) (by decide) rfl rfl (by decide) (by decide) (by decide)
  exact ⟨c1, c2, h1, h2, rfl⟩

/-- **C42** for TPM responses, which start with a tag above 0x8000: after the
failure the caller's buffer is unchanged and the next transaction returns an
error.  (Missing for the full claim: arbitrary responses; that is violated.) -/
theorem C42_tpm_response_partial (os : Os σ) (f : τ → Nat → Bytes → Bytes × τ) (pend : σ → Bytes)
    (st : σ → τ) (hs : Simulator os f pend st) (cmd1 cmd2 response response2 : Bytes) (c : Conn σ)
    (hl : c.locality < 256) (h1 : cmd1.length < 2 ^ 32) (h2 : cmd2.length < 2 ^ 32)
    (hp : pend c.net = []) (b0 : UInt8) (more : Bytes) (hb0 : 0x80 ≤ b0.toNat)
    (hresp : (f (st c.net) c.locality cmd1).1 = b0 :: more) (hmore : 3 ≤ more.length)
    (hbig : response.length < more.length + 1) (hbig' : more.length + 1 < 2 ^ 32)
    (hr2 : response2.length < 2 ^ 31) :
    ∃ c1 c2, transact os cmd1 response c = (.error .invalidInput, response, c1) ∧
      transact os cmd2 response2 c1 = (.error .invalidInput, response2, c2) := by
  obtain ⟨c1, g1, g2, g3, g4⟩ := simulator_send hs cmd1 c hl h1
  rw [hp, List.nil_append, hresp] at g3
  obtain ⟨c2, k1, k2, k3, k4⟩ := receive_big hs.toFeeds response ((b0 :: more) ++ ackBytes)
    (b0 :: more).length c1 hbig hbig' (by rw [g3, reply, List.append_assoc])
  have hl2 : c2.locality = c.locality := k4.trans g2
  obtain ⟨c3, m1, m2, m3, m4⟩ := simulator_send hs cmd2 c2 (by omega) h2
  rw [k2] at m3
  have hlen : (b0 :: more.take 3).length = 4 := by simp; omega
  have hd := digits256_positional (b0 :: more.take 3)
  have hlt := positional_lt (b0 :: more.take 3)
  rw [hlen] at hd hlt
  have hge : 2 ^ 31 ≤ positional (b0 :: more.take 3) := by
    have h3 : (more.take 3).length = 3 := by simp; omega
    simp only [positional, h3]
    have : 0x80 * 256 ^ 3 ≤ b0.toNat * 256 ^ 3 := Nat.mul_le_mul_right _ hb0
    have h31 : 0x80 * 256 ^ 3 = 2 ^ 31 := by decide
    rw [h31] at this
    exact Nat.le_trans this (Nat.le_add_right _ _)
  obtain ⟨c4, n1, -⟩ := receive_big hs.toFeeds response2
    (more.drop 3 ++ ackBytes ++ reply (f (st c2.net) c2.locality cmd2).1)
    (positional (b0 :: more.take 3)) c3 (by omega) (by simpa using hlt) (by
      rw [m3, hd]
      have : more = more.take 3 ++ more.drop 3 := (List.take_append_drop 3 more).symm
      simp only [List.cons_append, List.append_assoc]
      rw [← List.append_assoc (more.take 3), ← this])
  refine ⟨c2, c4, ?_, ?_⟩
  · rw [transact_eq os cmd1 response c h1, g1]; exact k1
  · rw [transact_eq os cmd2 response2 c2 h2, m1]; exact n1

/-- A 12-byte TPM response and an 11-byte buffer. -/
example : ∃ c1 c2,
    transact (demoOs (fun (t : Nat) _ _ => ([0x80, 1, 0, 0, 0, 12, 0, 0, 0, 0, 5, 5], t)) 3) []
      (List.replicate 11 0) ⟨⟨[], [], 0⟩, 0, []⟩ = (.error .invalidInput, List.replicate 11 0, c1) ∧
    transact (demoOs (fun (t : Nat) _ _ => ([0x80, 1, 0, 0, 0, 12, 0, 0, 0, 0, 5, 5], t)) 3) []
      (List.replicate 100 0) c1 = (.error .invalidInput, List.replicate 100 0, c2) :=
  C42_tpm_response_partial _ _ _ _ (demo_simulator _ _) [] [] _ _ _ (by decide) (by decide)
    (by decide) rfl 0x80 [1, 0, 0, 0, 12, 0, 0, 0, 0, 5, 5] (by decide) rfl (by decide) (by decide)
    (by decide) (by decide)

/-! ### C43 -/

/-- **C43**: a request that is only partially accepted is an error; the
accepted part is all that happened on the connection (nothing is read). -/
theorem C43_partial_write (os : Os σ) (command response : Bytes) (c : Conn σ) (n : Nat) (s' : σ)
    (hc : command.length < 2 ^ 32)
    (hw : os.write c.net .tpm (request c.locality command) = (.ok n, s'))
    (hn : n ≠ (request c.locality command).length) :
    transact os command response c =
      (.error .writeZero, response,
        ⟨s', c.locality, c.log ++ outs .tpm ((request c.locality command).take n)⟩) := by
  rw [transact_eq os command response c hc]
  have : writeVectored os .tpm (request c.locality command) c =
      (.error .writeZero,
        ⟨s', c.locality, c.log ++ outs .tpm ((request c.locality command).take n)⟩) := by
    unfold writeVectored
    rw [bind_def, M.bind]
    unfold write
    rw [hw]
    simp only [ne_eq, hn, not_false_eq_true, if_true, M.fail]
    rfl
  rw [this]

/-- **C43**: so is an error of the operating system. -/
theorem C43_write_error (os : Os σ) (command response : Bytes) (c : Conn σ) (e : IoErr) (s' : σ)
    (hc : command.length < 2 ^ 32)
    (hw : os.write c.net .tpm (request c.locality command) = (.error e, s')) :
    transact os command response c = (.error e, response, ⟨s', c.locality, c.log⟩) := by
  rw [transact_eq os command response c hc]
  have : writeVectored os .tpm (request c.locality command) c =
      (.error e, ⟨s', c.locality, c.log⟩) := by
    unfold writeVectored
    rw [bind_def, M.bind]
    unfold write
    rw [hw]
  rw [this]

/-- What a transaction does after its request was accepted and the peer's bytes
are `pend`. -/
theorem transact_accepted (os : Os σ) (command response : Bytes) (c : Conn σ) (s' : σ)
    (hc : command.length < 2 ^ 32)
    (hw : os.write c.net .tpm (request c.locality command) =
      (.ok (request c.locality command).length, s')) :
    transact os command response c =
      receive os response
        ⟨s', c.locality, c.log ++ outs .tpm (request c.locality command)⟩ := by
  rw [transact_eq os command response c hc]
  have : writeVectored os .tpm (request c.locality command) c =
      (.ok (), ⟨s', c.locality, c.log ++ outs .tpm (request c.locality command)⟩) := by
    unfold writeVectored
    rw [bind_def, M.bind]
    unfold write
    rw [hw]
    simp only [ne_eq, not_true_eq_false, if_false, M.pure, List.take_length]
    rfl
  rw [this]

/-- **C43**: a non-zero acknowledgement is an error. -/
theorem C43_bad_ack (os : Os σ) (pend : σ → Bytes) (st : σ → τ) (hf : Feeds os .tpm pend st)
    (command response : Bytes) (c : Conn σ) (s' : σ) (hc : command.length < 2 ^ 32)
    (hw : os.write c.net .tpm (request c.locality command) =
      (.ok (request c.locality command).length, s'))
    (resp ack more : Bytes) (ha : ack.length = 4) (hz : ack ≠ [0, 0, 0, 0])
    (hfit : resp.length ≤ response.length) (hr : resp.length < 2 ^ 32)
    (hp : pend s' = digits256 4 resp.length ++ resp ++ ack ++ more) :
    (transact os command response c).1 = .error .invalidData := by
  rw [transact_accepted os command response c s' hc hw]
  obtain ⟨c', h, -⟩ := receive_feeds hf response resp ack more
    ⟨s', c.locality, c.log ++ outs .tpm (request c.locality command)⟩ hfit hr ha hp
  rw [h]
  exact if_neg hz

/-- **C43**: a reply that ends early, anywhere, is an error. -/
theorem C43_early_end (os : Os σ) (pend : σ → Bytes) (st : σ → τ) (hf : Feeds os .tpm pend st)
    (command response : Bytes) (c : Conn σ) (s' : σ) (hc : command.length < 2 ^ 32)
    (hw : os.write c.net .tpm (request c.locality command) =
      (.ok (request c.locality command).length, s'))
    (resp : Bytes) (k : Nat) (hk : k < (reply resp).length)
    (hfit : resp.length ≤ response.length) (hr : resp.length < 2 ^ 32)
    (hp : pend s' = (reply resp).take k) :
    (transact os command response c).1 = .error .unexpectedEof := by
  rw [transact_accepted os command response c s' hc hw]
  have hl : (reply resp).length = 8 + resp.length := by simp [reply, ackBytes]; omega
  exact receive_eof hf response resp ackBytes k
    ⟨s', c.locality, c.log ++ outs .tpm (request c.locality command)⟩ hfit hr rfl (by omega) hp

/-- A peer that accepts everything and has a fixed byte stream to deliver. -/
def streamOs (accept : Nat) : Os Bytes where
  connect s _ _ := (.ok (), s)
  write s _ b := (.ok (min accept b.length), s)
  write_le := by intro s p b n h; injection h with h; omega
  read s _ n := (.ok (s.take n), s.drop n)
  read_le := by intro s p n b h; injection h with h; rw [← h, List.length_take]; omega
  shutdown s _ := (.ok (), s)
  sleep s := s

theorem stream_feeds (accept : Nat) : Feeds (streamOs accept) .tpm id (fun _ => ()) where
  read := by
    intro s n hn
    exact ⟨n, Nat.le_refl _, fun _ => hn, rfl, rfl, rfl⟩

/-- Only ten of eleven bytes accepted. -/
example : (transact (streamOs 10) [1, 2] [] ⟨[1, 2, 3], 0, []⟩).1 = .error .writeZero := by
  rw [C43_partial_write (streamOs 10) [1, 2] [] ⟨[1, 2, 3], 0, []⟩ 10 [1, 2, 3] (by decide) rfl
    (by decide)]

/-- Acknowledgement 1. -/
example : (transact (streamOs 100) [1, 2] [0, 0] ⟨[0, 0, 0, 2, 8, 9, 0, 0, 0, 1], 0, []⟩).1 =
    .error .invalidData :=
  C43_bad_ack _ _ _ (stream_feeds 100) _ _ _ _ (by decide) rfl [8, 9] [0, 0, 0, 1] [] rfl (by decide)
    (by decide) (by decide) (by decide)

/-- The stream ends in the acknowledgement. -/
example : (transact (streamOs 100) [1, 2] [0, 0] ⟨[0, 0, 0, 2, 8, 9, 0], 0, []⟩).1 =
    .error .unexpectedEof :=
  C43_early_end _ _ _ (stream_feeds 100) _ _ _ _ (by decide) rfl [8, 9] 7 (by decide) (by decide)
    (by decide) (by decide)

/-! ### C44 -/

/-- **C44**: with any peer, each operation performs its steps of the protocol,
in order, up to its first failure; success means that all steps were performed
and every acknowledgement was zero. -/
theorem C44_operations (os : Os σ) (op : Op) (c : Conn σ) :
    (runOp os op c).2.locality = c.locality ∧
    ∃ l, (runOp os op c).2.log = c.log ++ l ∧ Trace op.steps l (runOp os op c).1 :=
  op_trace os op c

/-- **C44**: any sequence of platform operations leaves the TPM port alone. -/
theorem C44_platform_only (os : Os σ) (ops : List Op) (hops : ∀ o ∈ ops, o.onPlatform = true)
    (c : Conn σ) :
    ∃ l, (ops.foldl (fun c o => (runOp os o c).2) c).log = c.log ++ l ∧ ∀ e ∈ l, e.port = .plat := by
  induction ops generalizing c with
  | nil => exact ⟨[], by simp⟩
  | cons o os' ih =>
    obtain ⟨l1, h1, h2⟩ := platform_op_ports os o (hops o List.mem_cons_self) c
    obtain ⟨l2, h3, h4⟩ := ih (fun x hx => hops x (List.mem_cons_of_mem _ hx)) (runOp os o c).2
    refine ⟨l1 ++ l2, ?_, ?_⟩
    · rw [List.foldl_cons, h3, h1, List.append_assoc]
    · intro e he
      rcases List.mem_append.1 he with he | he
      · exact h2 e he
      · exact h4 e he

/-- **C44**: a transaction, successful or not, leaves the platform port alone. -/
theorem C44_transact_only (os : Os σ) (command response : Bytes) (c : Conn σ) :
    ∃ l, (transact os command response c).2.2.log = c.log ++ l ∧ ∀ e ∈ l, e.port = .tpm := by
  by_cases hc : command.length < 2 ^ 32
  · rw [transact_eq os command response c hc]
    obtain ⟨h1, l, h2, h3⟩ := hasTrace_writeVectored os .tpm (request c.locality command) c
    have hp := h3.ports (p := .tpm) (by simp [Step.port])
    rcases hw : writeVectored os .tpm (request c.locality command) c with ⟨e | u, c1⟩
    · rw [hw] at h2
      exact ⟨l, h2, hp⟩
    · rw [hw] at h2
      obtain ⟨-, -, ⟨b, g3⟩, -⟩ := receive_spec os response c1
      refine ⟨l ++ inps .tpm b, ?_, ?_⟩
      · simp only at h2 ⊢
        rw [g3, h2, List.append_assoc]
      · intro e he
        rcases List.mem_append.1 he with he | he
        · exact hp e he
        · obtain ⟨x, _, rfl⟩ := List.mem_map.1 he; rfl
  · unfold transact
    rw [if_pos (by omega)]
    exact ⟨[], by simp, by simp⟩

/-- **C44**: a successful re-initialization sent NV off, power off, power on and
NV on, each acknowledged before the next. -/
theorem C44_reinit (os : Os σ) (c : Conn σ) (h : (reinit os c).1.isOk = true) :
    (reinit os c).2.log = c.log ++
      (outs .plat [0, 0, 0, 12] ++ inps .plat [0, 0, 0, 0] ++
       outs .plat [0, 0, 0, 2] ++ inps .plat [0, 0, 0, 0] ++
       outs .plat [0, 0, 0, 1] ++ inps .plat [0, 0, 0, 0] ++
       outs .plat [0, 0, 0, 11] ++ inps .plat [0, 0, 0, 0]) := by
  obtain ⟨-, l, h1, h2⟩ := op_trace os .reinit c
  have h1 : (reinit os c).2.log = c.log ++ l := h1
  have h2 : Trace Op.reinit.steps l (reinit os c).1.isOk := h2
  rw [h] at h2
  simp only [Op.steps, Trace, Bool.true_eq_false, false_and, or_false] at h2
  obtain ⟨_, rfl, _, rfl, _, rfl, _, rfl, _, rfl, _, rfl, _, rfl, _, rfl, rfl, _⟩ := h2
  rw [h1]
  have w12 : word 12 = [0, 0, 0, 12] := by decide
  have w2 : word 2 = [0, 0, 0, 2] := by decide
  have w1 : word 1 = [0, 0, 0, 1] := by decide
  have w11 : word 11 = [0, 0, 0, 11] := by decide
  simp only [w12, w2, w1, w11, ackBytes, List.append_assoc, List.append_nil]

/-- Re-initialization stops at a bad second acknowledgement: the log is a trace
of the first two signals. -/
example : (reinit (streamOs 100) ⟨[0, 0, 0, 0, 0, 0, 0, 1, 0, 0, 0, 0], 0, []⟩).2.log =
    outs .plat [0, 0, 0, 12] ++ inps .plat [0, 0, 0, 0] ++
    outs .plat [0, 0, 0, 2] ++ inps .plat [0, 0, 0, 1] := by
  simp [reinit, platformSignal, bind_def, M.bind, writeAll, write, checkResponseEnd, readLocal,
    readExact, read, streamOs, M.fail, M.pure, Signal.val, toBE, fromBE, outs, inps]

example : (reinit (demoOs evilTpm 0) ⟨⟨[], [], 0⟩, 0, []⟩).1.isOk = true := by
  simp [reinit, platformSignal, bind_def, M.bind, writeAll, write, checkResponseEnd, readLocal,
    readExact, read, demoOs, M.pure, Signal.val, toBE, fromBE, ackBytes]

/-! ### C45 -/

/-- The state before the `i`-th attempt, if all earlier ones failed. -/
def beforeAttempt {α : Type} (attempt : σ → Except IoErr α × σ) (sleep : σ → σ) (s : σ) : Nat → σ
  | 0 => s
  | i + 1 => sleep (attempt (beforeAttempt attempt sleep s i)).2

theorem retryLoop_success {α : Type} (attempt : σ → Except IoErr α × σ) (sleep : σ → σ) (s : σ)
    (j i : Nat) (hi : i < 4) (hj : j ≤ i)
    (hfail : ∀ k, j ≤ k → k < i → (attempt (beforeAttempt attempt sleep s k)).1.isOk = false)
    (hok : (attempt (beforeAttempt attempt sleep s i)).1.isOk = true) :
    retryLoop attempt sleep j (beforeAttempt attempt sleep s j) =
      attempt (beforeAttempt attempt sleep s i) := by
  induction h : i - j generalizing j with
  | zero =>
    have : j = i := by omega
    subst this
    rw [retryLoop]
    rcases ha : attempt (beforeAttempt attempt sleep s j) with ⟨e | a, s'⟩
    · rw [ha] at hok; simp at hok
    · rfl
  | succ n ih =>
    rw [retryLoop]
    have hf := hfail j (Nat.le_refl _) (by omega)
    rcases ha : attempt (beforeAttempt attempt sleep s j) with ⟨e | a, s'⟩
    · simp only
      rw [if_neg (by omega)]
      have := ih (j + 1) (by omega) (fun k hk hk' => hfail k (by omega) hk') (by omega)
      simp only [beforeAttempt, ha] at this
      exact this
    · rw [ha] at hf; simp at hf

/-- **C45**: the result is that of the first successful attempt among four, and
nothing happens afterwards. -/
theorem C45_first_success (os : Os σ) (tpmPort platPort : Option Nat) (s : σ) (i : Nat) (hi : i < 4)
    (hfail : ∀ k < i, (connect os tpmPort platPort
      (beforeAttempt (connect os tpmPort platPort) os.sleep s k)).1.isOk = false)
    (hok : (connect os tpmPort platPort
      (beforeAttempt (connect os tpmPort platPort) os.sleep s i)).1.isOk = true) :
    connectWithRetries os tpmPort platPort s =
      connect os tpmPort platPort (beforeAttempt (connect os tpmPort platPort) os.sleep s i) :=
  retryLoop_success _ _ s 0 i hi (by omega) (fun k _ hk => hfail k hk) hok

theorem retryLoop_failure {α : Type} (attempt : σ → Except IoErr α × σ) (sleep : σ → σ) (s : σ)
    (j : Nat) (hj : j < 4)
    (hfail : ∀ k < 4, (attempt (beforeAttempt attempt sleep s k)).1.isOk = false) :
    retryLoop attempt sleep j (beforeAttempt attempt sleep s j) =
      attempt (beforeAttempt attempt sleep s 3) := by
  induction h : 3 - j generalizing j with
  | zero =>
    have : j = 3 := by omega
    subst this
    rw [retryLoop]
    have hf := hfail 3 (by omega)
    rcases ha : attempt (beforeAttempt attempt sleep s 3) with ⟨e | a, s'⟩
    · rfl
    · exact absurd hf (by rw [ha]; simp)
  | succ n ih =>
    rw [retryLoop]
    have hf := hfail j (by omega)
    rcases ha : attempt (beforeAttempt attempt sleep s j) with ⟨e | a, s'⟩
    · simp only
      rw [if_neg (by omega)]
      have := ih (j + 1) (by omega) (by omega)
      simp only [beforeAttempt, ha] at this
      exact this
    · rw [ha] at hf; simp at hf

/-- **C45**: if four attempts fail, the result is the error of the fourth, and
nothing happens afterwards. -/
theorem C45_all_fail (os : Os σ) (tpmPort platPort : Option Nat) (s : σ)
    (hfail : ∀ k < 4, (connect os tpmPort platPort
      (beforeAttempt (connect os tpmPort platPort) os.sleep s k)).1.isOk = false) :
    connectWithRetries os tpmPort platPort s =
      connect os tpmPort platPort (beforeAttempt (connect os tpmPort platPort) os.sleep s 3) :=
  retryLoop_failure _ _ s 0 (by omega) hfail

/-- **C45**: a successful attempt connected both ports (with the default port
numbers unless others are given), with locality 0. -/
theorem C45_connect (os : Os σ) (tpmPort platPort : Option Nat) (s s' : σ) (c : Conn σ)
    (h : connect os tpmPort platPort s = (.ok c, s')) :
    ∃ s1, os.connect s .tpm (tpmPort.elim 2321 id) = (.ok (), s1) ∧
      os.connect s1 .plat (platPort.elim 2322 id) = (.ok (), s') ∧
      c = ⟨s', 0, []⟩ := by
  have e1 : tpmPort.getD 2321 = (tpmPort.elim 2321 id) := by
    cases tpmPort <;> rfl
  have e2 : platPort.getD 2322 = (platPort.elim 2322 id) := by
    cases platPort <;> rfl
  unfold connect at h
  rw [e1, e2] at h
  rcases h1 : os.connect s .tpm (tpmPort.elim 2321 id) with ⟨e | u, s1⟩
  · rw [h1] at h; simp at h
  · rw [h1] at h
    simp only at h
    rcases h2 : os.connect s1 .plat (platPort.elim 2322 id) with ⟨e | u', s2⟩
    · rw [h2] at h; simp at h
    · rw [h2] at h
      simp only [Prod.mk.injEq, Except.ok.injEq] at h
      obtain ⟨rfl, rfl⟩ := h
      exact ⟨s1, rfl, h2, rfl⟩

/-- An operating system that refuses the first `k` connections. -/
def refusingOs (k : Nat) : Os Nat where
  connect s _ _ := if s < k then (.error (.os 111), s + 1) else (.ok (), s + 1)
  write s _ b := (.ok b.length, s)
  write_le := by intro s p b n h; injection h with h; omega
  read s _ _ := (.ok [], s)
  read_le := by intro s p n b h; injection h with h; rw [← h]; simp
  shutdown s _ := (.ok (), s)
  sleep s := s

/-- Success at the third attempt; failure after four. -/
example : (connectWithRetries (refusingOs 2) none none 0).2 = 4 := by
  rw [C45_first_success (refusingOs 2) none none 0 2 (by decide) (by decide) (by decide)]
  decide
example : connectWithRetries (refusingOs 9) none none 0 = (.error (.os 111), 4) := by
  rw [C45_all_fail (refusingOs 9) none none 0 (by decide)]
  rfl

end Verif.Tcp
