import Verif.Tcp.Props

/-
What a history of transactions returns when bytes of earlier replies are left over:
C42 without any hypothesis on the responses.
-/

namespace Verif.Tcp
open Verif

variable {σ τ : Type} {os : Os σ} {f : τ → Nat → Bytes → Bytes × τ} {pend : σ → Bytes} {st : σ → τ}

/-! ### Specification -/

/-- How a transaction with room for `space` bytes ends if `waiting` is all that can be
read: the error if there is one, the bytes stored in the response buffer, and the bytes
left for the next transaction. -/
def taken (space : Nat) (waiting : Bytes) : Option IoErr × Bytes × Bytes :=
  if waiting.length < 4 then (some .unexpectedEof, [], [])
  else
    let n := positional (waiting.take 4)
    let rest := waiting.drop 4
    if space < n then (some .invalidInput, [], rest)
    else if rest.length < n then (some .unexpectedEof, rest, [])
    else if rest.length < n + 4 then (some .unexpectedEof, rest.take n, [])
    else if (rest.drop n).take 4 = ackBytes then (none, rest.take n, rest.drop (n + 4))
    else (some .invalidData, rest.take n, rest.drop (n + 4))

/-- The results of a history: state of the TPM, locality and bytes left over at its
beginning; the results and the bytes left over at its end. -/
def ledger (f : τ → Nat → Bytes → Bytes × τ) :
    τ → Nat → Bytes → List Item → List (Except IoErr Nat × Bytes) × Bytes
  | t, loc, left, .tx command response :: is =>
    if 2 ^ 32 ≤ command.length then
      let next := ledger f t loc left is
      ((.error .invalidInput, response) :: next.1, next.2)
    else
      let x := taken response.length (left ++ reply (f t loc command).1)
      let next := ledger f (f t loc command).2 loc x.2.2 is
      ((match x.1 with
        | some e => .error e
        | none => .ok x.2.1.length, x.2.1 ++ response.drop x.2.1.length) :: next.1, next.2)
  | t, loc, left, .op _ :: is => ledger f t loc left is
  | t, _, left, .locality l :: is => ledger f t l left is
  | _, _, left, [] => ([], left)

/-- Transactions and valid localities. -/
def Plainly (items : List Item) : Prop :=
  (∀ o, .op o ∉ items) ∧ ∀ l, .locality l ∈ items → l < 256

/-! ### Lemmas -/

theorem readLocal_short {p : Port} (hf : Feeds os p pend st) (n : Nat) (c : Conn σ)
    (h : (pend c.net).length < n) :
    ∃ c', readLocal os p n c = (.error .unexpectedEof, c') ∧ pend c'.net = [] ∧
      st c'.net = st c.net ∧ c'.locality = c.locality := by
  obtain ⟨c', h1, h2, h3, h4⟩ := (readExact_feeds hf n c).2 h
  refine ⟨c', ?_, h2, h3, h4⟩
  unfold readLocal
  rw [h1]

/-- Receiving, whatever is waiting. -/
theorem receive_taken (hf : Feeds os .tpm pend st) (response : Bytes) (c : Conn σ) :
    ∃ c', receive os response c =
        (match (taken response.length (pend c.net)).1 with
          | some e => .error e
          | none => .ok (taken response.length (pend c.net)).2.1.length,
          (taken response.length (pend c.net)).2.1 ++
            response.drop (taken response.length (pend c.net)).2.1.length, c') ∧
      pend c'.net = (taken response.length (pend c.net)).2.2 ∧ st c'.net = st c.net ∧
      c'.locality = c.locality := by
  unfold taken
  by_cases h4 : (pend c.net).length < 4
  · rw [if_pos h4]
    obtain ⟨c1, h1, h2, h3, h5⟩ := readLocal_short hf 4 c h4
    refine ⟨c1, ?_, h2, h3, h5⟩
    unfold receive
    rw [h1]
    rfl
  · rw [if_neg h4]
    obtain ⟨c1, h1, h2, h3, h5⟩ := readLocal_feeds hf ((pend c.net).take 4) ((pend c.net).drop 4) c
      (List.take_append_drop _ _).symm
    have hl : ((pend c.net).take 4).length = 4 := by rw [List.length_take]; omega
    rw [hl] at h1
    generalize hn : positional ((pend c.net).take 4) = n
    generalize (pend c.net).drop 4 = rest at h2
    dsimp only
    unfold receive
    rw [h1]
    dsimp only
    rw [fromBE_eq_positional, hn]
    by_cases hs : response.length < n
    · rw [if_pos hs, if_pos hs]
      exact ⟨c1, rfl, h2, h3, h5⟩
    · rw [if_neg hs, if_neg (by omega)]
      by_cases hr : rest.length < n
      · rw [if_pos hr]
        obtain ⟨c2, g1, g2, g3, g4⟩ := (readExact_feeds hf n c1).2 (by rw [h2]; exact hr)
        rw [g1, h2]
        exact ⟨c2, rfl, g2, g3.trans h3, g4.trans h5⟩
      · rw [if_neg hr]
        obtain ⟨c2, g1, g2, g3, g4⟩ := (readExact_feeds hf n c1).1 (by rw [h2]; omega)
        rw [h2] at g1 g2
        rw [g1]
        dsimp only
        have htl : (rest.take n).length = n := by rw [List.length_take]; omega
        by_cases ha : rest.length < n + 4
        · rw [if_pos ha]
          obtain ⟨c3, k1, k2, k3, k4⟩ := readLocal_short hf 4 c2
            (by rw [g2, List.length_drop]; omega)
          refine ⟨c3, ?_, k2, (k3.trans g3).trans h3, (k4.trans g4).trans h5⟩
          have : checkResponseEnd os .tpm c2 = (.error .unexpectedEof, c3) := by
            unfold checkResponseEnd
            rw [bind_def, M.bind, k1]
          rw [this]
        · rw [if_neg ha]
          obtain ⟨c3, k1, k2, k3, k4⟩ := ack_feeds hf ((rest.drop n).take 4) (rest.drop (n + 4))
            (by rw [List.length_take, List.length_drop]; omega) c2
            (by rw [g2, ← List.drop_drop, List.take_append_drop])
          rw [k1]
          by_cases hz : (rest.drop n).take 4 = ackBytes
          · rw [if_pos hz, if_pos hz]
            exact ⟨c3, by dsimp only; rw [htl], k2, (k3.trans g3).trans h3, (k4.trans g4).trans h5⟩
          · rw [if_neg hz, if_neg hz]
            exact ⟨c3, rfl, k2, (k3.trans g3).trans h3, (k4.trans g4).trans h5⟩

/-! ### Property theorem -/

/-- **C42**, exactly: over any history of transactions, whatever the responses, commands
and buffers are, and whatever was left over before, each transaction reads a reply off
the bytes that are waiting: those left over by the earlier transactions, then the reply
to its own command.  A transaction returns its own response only if this comes out so;
nothing brings the stream back into step. -/
theorem C42_exact_partial (hs : Simulator os f pend st) (items : List Item) (hi : Plainly items)
    (c : Conn σ) (hl : c.locality < 256) :
    (history os items c).1 = (ledger f (st c.net) c.locality (pend c.net) items).1 ∧
    pend (history os items c).2.net = (ledger f (st c.net) c.locality (pend c.net) items).2 := by
  induction items generalizing c with
  | nil => exact ⟨rfl, rfl⟩
  | cons i is ih =>
    have hi' : Plainly is := ⟨fun o ho => hi.1 o (List.mem_cons_of_mem _ ho),
      fun l hl => hi.2 l (List.mem_cons_of_mem _ hl)⟩
    cases i with
    | op o => exact (hi.1 o List.mem_cons_self).elim
    | locality l =>
      exact ih hi' { c with locality := l } (hi.2 l List.mem_cons_self)
    | tx command response =>
      rw [history, ledger]
      dsimp only
      by_cases hc : 2 ^ 32 ≤ command.length
      · have e : transact os command response c = (.error .invalidInput, response, c) := by
          unfold transact
          rw [if_pos hc]
        rw [if_pos hc, e]
        obtain ⟨h1, h2⟩ := ih hi' c hl
        exact ⟨by dsimp only; rw [h1], h2⟩
      · rw [if_neg hc]
        obtain ⟨c1, g1, g2, g3, g4⟩ := simulator_send hs command c hl (by omega)
        obtain ⟨c2, k1, k2, k3, k4⟩ := receive_taken hs.toFeeds response c1
        have e : transact os command response c = receive os response c1 := by
          rw [transact_eq os command response c (by omega), g1]
        rw [e, k1]
        rw [g3] at k2
        obtain ⟨h1, h2⟩ := ih hi' c2 (by omega)
        rw [k2, k3, g4, k4, g2] at h1 h2
        rw [g3]
        exact ⟨by dsimp only; rw [h1], h2⟩

/-- C42, a case: two transactions after a response of 17 bytes that does not fit.  The
second returns bytes of the first response, the third succeeds with an empty one. -/
example :
    (history (demoOs evilTpm 0) [.tx [0] (List.replicate 16 0), .tx [0] (List.replicate 16 0),
      .tx [0] (List.replicate 16 0)] ⟨⟨[], [], 0⟩, 0, []⟩).1 =
      [(.error .invalidInput, List.replicate 16 0), (.ok 3, [6, 6, 6] ++ List.replicate 13 0),
        (.ok 0, List.replicate 16 0)] := by
  rw [(C42_exact_partial (demo_simulator evilTpm 0) _ ⟨by simp, by simp⟩ _ (by decide)).1]
  rfl

end Verif.Tcp
