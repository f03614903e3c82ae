import Verif.EndToEnd.ProgramLemmas
import Verif.Tcp.ReferenceServer

/-
Cases of C83: a device that records what it is told, a program, and the H-CRTM
sequence that is not transmitted.
-/

namespace Verif.EndToEnd
open Verif Verif.Errors Verif.Client Verif.Tcp

variable {τ : Type}

/-- A device that records the requests it performs and answers TPM commands with the
locality and the command reversed.  Not in the repository. -/
def tape : Device (List Plain) where
  perform t p := t ++ [p]
  leave t p code := t ++ [if p = .tpm then .firmwareSvn code else .firmwareHash code]
  send t l b := (UInt8.ofNat l :: b.reverse.take 10, t ++ [.alternative b.length])
  send_lt t l b := by
    have : (b.reverse.take 10).length ≤ 10 := List.length_take_le _ _
    rw [List.length_cons]
    exact Nat.lt_of_le_of_lt (Nat.succ_le_succ this) (by decide)
  handshake t v := (if v = 1 then some (1, 3) else none, t)
  handshake_lt t v x y h := by
    dsimp only at h
    split at h
    · simp only [Option.some.injEq, Prod.mk.injEq] at h
      obtain ⟨rfl, rfl⟩ := h
      exact ⟨by decide, by decide⟩
    · simp at h
  sizes t := (List.replicate 16 7, t)
  sizes_length _ := by simp
  act t h := (t.length % 2, t)
  act_lt t h := Nat.lt_of_lt_of_le (Nat.mod_lt _ (by decide)) (by decide)

/-- A program whose calls depend on earlier results: a handshake, a locality, a
command, a signal chosen by the response, an H-CRTM sequence with the data of the
response, and a question.  Not in the repository. -/
def sample : Prog Nat :=
  .call (.op (.remoteHandshake 1)) fun o1 =>
  .call (.locality 3) fun _ =>
  .call (.transact [1, 2, 9] [0, 0, 0, 0, 0, 0]) fun o2 =>
  .call (.op (.platformSignal (match o2 with
    | .response 4 [3, 9, 2, 1, 0, 0] => .cancelOn
    | _ => .powerOff))) fun _ =>
  .call (.op (.hcrtmSequence (match o2 with
    | .response n b => b.take (min n 100)
    | _ => []))) fun _ =>
  .call (.op (.actGetSignaled 5)) fun o3 =>
  .done (match o1, o3 with
    | .handshake x y, .signaled z => x * 100 + y * 10 + z
    | _, _ => 0)

theorem sample_typed : sample.Calls Call.Typed := by
  refine ⟨(by decide : 1 < 2 ^ 32), fun o1 => ⟨(by decide : 3 < 256), fun _ => ⟨trivial, fun o2 =>
    ⟨trivial, fun _ => ⟨trivial, fun _ => ⟨(by decide : 5 < 2 ^ 32), fun _ => trivial⟩⟩⟩⟩⟩⟩

theorem sample_short : sample.Calls Call.Short := by
  refine ⟨trivial, fun o1 => ⟨trivial, fun _ => ⟨trivial, fun o2 =>
    ⟨trivial, fun _ => ⟨?_, fun _ => ⟨trivial, fun _ => trivial⟩⟩⟩⟩⟩⟩
  show List.length _ < 2 ^ 32
  cases o2 with
  | response n b =>
    dsimp only
    rw [List.length_take]
    refine Nat.lt_of_le_of_lt (Nat.le_trans (Nat.min_le_left _ _) (Nat.min_le_right _ _)) ?_
    decide
  | _ => exact (by decide : 0 < 2 ^ 32)

theorem sample_dream : sample.dream tape 0 [] =
    some (131, 3, [.alternative 3, .signal .cancelOn, .hashStart, .hashData [3, 9, 2, 1], .hashEnd]) := by
  rfl

/-! ### Long H-CRTM data -/

/-- Bytes to be delivered on the TPM port, nothing else under way. -/
def waiting (out : Bytes) (t : τ) : World τ :=
  ⟨fun q => if q = .tpm then ⟨[], out, false⟩ else ⟨[], [], false⟩, t⟩

theorem waiting_size (out : Bytes) (t : τ) : (waiting out t).size = 0 := rfl

theorem quiet_eq {w : World τ} (h : w.Quiet) : w = waiting [] w.dev := by
  obtain ⟨side, dev⟩ := w
  have : side = fun q => if q = .tpm then ⟨[], [], false⟩ else ⟨[], [], false⟩ := by
    funext q
    have := h q
    dsimp only at this
    rw [this]
    split <;> rfl
  rw [this]
  rfl

theorem waiting_set (out out' : Bytes) (t t' : τ) :
    (waiting out t).set .tpm ⟨[], out', false⟩ t' = waiting out' t' := by
  unfold World.set waiting
  congr 1
  funext q
  cases q <;> rfl

theorem waiting_readExact (d : Device τ) (t : τ) (y : Bytes) (l : Nat) (x : Bytes) :
    ∀ log, ∃ log', readExact (refOs d) .tpm x.length ⟨waiting (x ++ y) t, l, log⟩ =
      (.ok (), x, ⟨waiting y t, l, log'⟩) := by
  induction x with
  | nil =>
    intro log
    exact ⟨log, by rw [readExact]; rfl⟩
  | cons a x ih =>
    intro log
    obtain ⟨log', h⟩ := ih (log ++ [.inp .tpm a])
    refine ⟨log', ?_⟩
    have hr : (refOs d).read (waiting (a :: x ++ y) t) .tpm (a :: x).length =
        (.ok [a], waiting (x ++ y) t) := by
      have hm : min (a :: x).length 1 = 1 := by rw [List.length_cons]; omega
      show (Except.ok (List.take (min _ 1) _), World.drop _ _ _) = _
      rw [waiting_size, settle, hm]
      show (Except.ok [a], (waiting (a :: x ++ y) t).set .tpm ⟨[], x ++ y, false⟩ t) = _
      rw [waiting_set]
    rw [readExact, if_neg (by simp)]
    unfold Tcp.read
    dsimp only
    rw [hr]
    dsimp only
    rw [dif_neg (by simp)]
    have e : (a :: x).length - [a].length = x.length := by simp
    rw [e]
    simp only [List.map_cons, List.map_nil]
    rw [h]
    rfl

theorem waiting_ack (d : Device τ) (t : τ) (y : Bytes) (l : Nat) (log : List Ev) :
    ∃ log', checkResponseEnd (refOs d) .tpm ⟨waiting (ackBytes ++ y) t, l, log⟩ =
      (.ok (), ⟨waiting y t, l, log'⟩) := by
  obtain ⟨log', h⟩ := waiting_readExact d t y l ackBytes log
  refine ⟨log', ?_⟩
  have h : readExact (refOs d) .tpm 4 ⟨waiting (ackBytes ++ y) t, l, log⟩ =
      (.ok (), ackBytes, ⟨waiting y t, l, log'⟩) := h
  unfold checkResponseEnd
  have h2 : readLocal (refOs d) .tpm 4 ⟨waiting (ackBytes ++ y) t, l, log⟩ =
      (.ok ackBytes, ⟨waiting y t, l, log'⟩) := by unfold readLocal; rw [h]
  rw [bind_def, M.bind, h2]
  simp [ackBytes, fromBE, M.pure]

theorem settle_step {d : Device τ} {w w' : World τ} {n : Nat} (h : serveOne d w .tpm = some w') :
    settle d (n + 1) w = settle d n w' := by
  rw [settle, h]

theorem settle_waiting {d : Device τ} {out : Bytes} {t : τ} (n : Nat) :
    settle d n (waiting out t) = waiting out t := by
  cases n <;> rfl

/-- Unread bytes on the TPM port. -/
def unread (u out : Bytes) (t : τ) : World τ :=
  ⟨fun q => if q = .tpm then ⟨u, out, false⟩ else ⟨[], [], false⟩, t⟩

theorem unread_set (u out u' out' : Bytes) (t t' : τ) :
    (unread u out t).set .tpm ⟨u', out', false⟩ t' = unread u' out' t' := by
  unfold World.set unread
  congr 1
  funext q
  cases q <;> rfl

theorem unread_nil (out : Bytes) (t : τ) : unread [] out t = waiting out t := rfl

theorem waiting_give (out b : Bytes) (t : τ) : (waiting out t).give .tpm b = unread b out t := by
  unfold World.give World.set waiting unread
  congr 1
  funext q
  cases q <;> rfl

theorem unread_size (u out : Bytes) (t : τ) : (unread u out t).size = u.length := rfl

theorem unread_serve {d : Device τ} {u rest out : Bytes} {t : τ} {q : Plain}
    (h : next .tpm u = some (.plain q, rest)) :
    serveOne d (unread u out t) .tpm = some (unread rest (out ++ ackBytes) (d.perform t q)) := by
  unfold serveOne
  rw [if_neg (by simp [unread])]
  rw [show ((unread u out t).side .tpm).unread = u from rfl, h]
  dsimp only
  rw [← unread_set u out rest (out ++ ackBytes) t]
  rfl

/-- Zero bytes. -/
def zeros : Bytes := List.replicate (2 ^ 32 - 8) 0

/-- H-CRTM data of 4 GiB that are a request themselves. -/
def longData : Bytes := word 6 ++ word (2 ^ 32 - 8) ++ zeros

theorem zeros_length : zeros.length = 2 ^ 32 - 8 := List.length_replicate

theorem longData_length : longData.length = 2 ^ 32 := by
  unfold longData
  rw [List.length_append, List.length_append, four, four, zeros_length]

theorem next_longData : next .tpm longData = some (.plain (.hashData zeros), []) := by
  unfold longData
  rw [← zeros_length]
  exact next_hashData (by rw [zeros_length]; decide)

theorem next_empty (z : Bytes) : next .tpm (word 6 ++ word 0 ++ z) = some (.plain (.hashData []), z) := by
  have h := next_mono .tpm _ _ _ z (next_hashData (data := []) (by decide))
  simpa using h

theorem waiting_write (d : Device τ) {b out : Bytes} {t t' : τ} {out' : Bytes} {n : Nat}
    (hs : ∀ k, settle d (n + k) (unread b out t) = waiting out' t') (hn : n ≤ b.length) :
    (refOs d).write (waiting out t) .tpm b = (.ok b.length, waiting out' t') := by
  show (Except.ok _, settle d ((waiting out t).give .tpm b).size ((waiting out t).give .tpm b)) = _
  rw [waiting_give, unread_size]
  obtain ⟨k, hk⟩ := Nat.le.dest hn
  rw [← hk, hs]

theorem writeVectored_of {σ : Type} {os : Os σ} {p : Port} {b : Bytes} {s s' : σ}
    (h : os.write s p b = (.ok b.length, s')) (l : Nat) (log : List Ev) :
    ∃ log', writeVectored os p b ⟨s, l, log⟩ = (.ok (), ⟨s', l, log'⟩) := by
  refine ⟨log ++ (b.take b.length).map (.out p), ?_⟩
  unfold writeVectored
  rw [bind_def, M.bind]
  unfold Tcp.write
  dsimp only
  rw [h]
  dsimp only
  rw [if_neg (by simp)]
  rfl

theorem writeAll_of {σ : Type} {os : Os σ} {p : Port} {b : Bytes} {s s' : σ}
    (h : os.write s p b = (.ok b.length, s')) (hb : b ≠ []) (l : Nat) (log : List Ev) :
    ∃ log', writeAll os p b ⟨s, l, log⟩ = (.ok (), ⟨s', l, log'⟩) := by
  refine ⟨log ++ (b.take b.length).map (.out p), ?_⟩
  rw [writeAll, if_neg (by simpa using hb)]
  unfold Tcp.write
  dsimp only
  rw [h]
  dsimp only
  rw [dif_neg (by simpa using hb), List.drop_length, writeAll, if_pos (by rfl)]

/-- Data of 4 GiB that are a request themselves. -/
theorem long_case {data z : Bytes} (hd : data.length = 2 ^ 32)
    (hn : next .tpm data = some (.plain (.hashData z), [])) :
    ∃ c' : Conn (World (List Plain)),
      hcrtmSequence (refOs tape) data ⟨World.start [], 0, []⟩ = (.ok (), c') ∧
      c'.net = waiting ackBytes [.hashStart, .hashData [], .hashData z, .hashEnd] := by
  have l := refOs_willing tape
  -- the start of the sequence
  obtain ⟨c1, h1⟩ := live_plain l (asks_all l.toLink next_hash.1) (total_all l _ _)
    ⟨World.start [], 0, []⟩ 0 [] ⟨World.start_quiet [], rfl, rfl⟩ () [.hashStart] rfl
  obtain ⟨t1, e1, q1, q2, q3⟩ := sound_plain l.toLink (asks_all l.toLink next_hash.1)
    ⟨World.start [], 0, []⟩ 0 [] ⟨World.start_quiet [], rfl, rfl⟩ () c1 h1
  have e1 : t1 = [.hashStart] := by
    simp only [Option.some.injEq, Prod.mk.injEq, true_and] at e1
    exact e1.symm
  subst e1
  obtain ⟨net, loc, log1⟩ := c1
  have hnet : net = waiting [] [.hashStart] := by
    have := quiet_eq q1
    dsimp only [id] at this q2
    rw [q2] at this
    exact this
  subst hnet
  have hloc : loc = 0 := q3
  subst hloc
  -- the data
  have hw : (refOs tape).write (waiting [] [.hashStart]) .tpm (word 6 ++ word 0 ++ data) =
      (.ok (word 6 ++ word 0 ++ data).length,
        waiting (ackBytes ++ ackBytes) [.hashStart, .hashData [], .hashData z]) := by
    refine waiting_write tape (n := 2) (fun k => ?_) ?_
    · rw [Nat.add_comm 2 k, settle_step (unread_serve (next_empty data)),
        settle_step (unread_serve hn), unread_nil, settle_waiting]
      rfl
    · rw [List.length_append, List.length_append, four, four]
      omega
  have hm : toBE 4 TpmCode.signalHashData.val ++ toBE 4 (data.length % 2 ^ 32) ++ data =
      word 6 ++ word 0 ++ data := by
    rw [word_eq, word_eq, hd, Nat.mod_self]
    rfl
  obtain ⟨log2, h2⟩ := writeVectored_of hw 0 log1
  obtain ⟨log3, h3⟩ := waiting_ack tape [.hashStart, .hashData [], .hashData z] ackBytes 0 log2
  -- the end
  have hw2 : (refOs tape).write (waiting ackBytes [.hashStart, .hashData [], .hashData z]) .tpm
      (word 7) = (.ok (word 7).length,
        waiting (ackBytes ++ ackBytes) [.hashStart, .hashData [], .hashData z, .hashEnd]) := by
    refine waiting_write tape (n := 1) (fun k => ?_) (by rw [four]; decide)
    rw [Nat.add_comm 1 k, settle_step (unread_serve next_hashEnd), unread_nil, settle_waiting]
    rfl
  obtain ⟨log4, h4⟩ := writeAll_of hw2 (by intro h; have := four 7; rw [h] at this; simp at this) 0 log3
  obtain ⟨log5, h5⟩ := waiting_ack tape [.hashStart, .hashData [], .hashData z, .hashEnd] ackBytes 0
    log4
  refine ⟨⟨waiting ackBytes [.hashStart, .hashData [], .hashData z, .hashEnd], 0, log5⟩, ?_, rfl⟩
  rw [hcrtm_eq, hm, M.bind, h1]
  dsimp only
  rw [M.bind, M.bind, h2]
  dsimp only
  rw [h3]
  dsimp only
  rw [M.bind, show toBE 4 TpmCode.signalHashEnd.val = word 7 from word_eq 7, h4]
  exact h5

end Verif.EndToEnd
