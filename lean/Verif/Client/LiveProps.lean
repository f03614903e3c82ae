import Verif.Client.LiveLemmas
import Verif.Client.Props

/-
Property theorems C80: the client with sessions and connections that change.
-/

namespace Verif.Client
open Verif Verif.Base Verif.Errors

set_option maxRecDepth 8000

variable {ω ε : Type}

/-! ### Sessions used in the examples -/

/-- A session with a nonce that counts the commands, kept in the state of the
program; it accepts a response with the same nonce. -/
def rolling : LiveSession Nat where
  authCommand n := (some (.struct [.struct [.int 0x03000000],
    .tpm2b 1 (UInt8.ofNat (n + 1) :: List.replicate 63 0), .struct [.int 0],
    .tpm2b 0 (List.replicate 64 0)]), n + 1)
  validate x n :=
    match x with
    | .struct [.tpm2b 1 (b :: _), _, _] => (if b = UInt8.ofNat n then .ok () else .err ⟨0x8E⟩, n)
    | _ => (.err ⟨0x8E⟩, n)

/-- The area with one session. -/
def live1 (s : LiveSession ω) : LiveArea ω := ⟨some s, none, none⟩

/-- The area with two sessions. -/
def live2 (s t : LiveSession ω) : LiveArea ω := ⟨some s, some t, none⟩

/-- A connection that answers every command with these bytes. -/
def answering (rsp : Bytes) (h : rsp.length ≤ 4096) : LiveTransport Nat Unit where
  transact n _ buf := if buf.length = 4096 then
      (some (.reported rsp.length), rsp ++ buf.drop rsp.length, n)
    else (none, buf, n)
  keeps_length := by
    intro w cmd buf
    split
    · simp; omega
    · rfl

/-! ### C80 -/

/-- **C80**: a command succeeds exactly if all sessions answer, in order and each
in the state left by the one before; the transport, in the state left by the last,
is handed the command with these answers and reports a response; and all sessions,
each in the state left by the one before and the first in the state left by the
transport, accept their authorization responses.  What is returned are the
parameters and handles of this response, and the state is what the last left. -/
theorem C80_success_iff (tr : LiveTransport ω ε) (c : Command) (a : LiveArea ω) (w w' : ω)
    (hcode : c.code < 2 ^ 32)
    (hh : HasTy c.handlesTy c.handles) (hp : HasTy c.paramTy c.param)
    (ha : ∀ s ∈ a.active, ∀ w v w', s.authCommand w = (some v, w') → HasTy TpmsAuthCommand v)
    (p h : Val) :
    runLive tr c a w = ⟨.ok (p, h), w'⟩ ↔
      ∃ vs w1 n r rest w2,
        (WF c.handlesTy c.handles ∧ WF c.paramTy c.param ∧ (∀ v ∈ vs, WF TpmsAuthCommand v) ∧
          (commandBytes c (vs.map fixed)).length ≤ 4096) ∧
        Answers a.active w vs w1 ∧
        tr.transact w1 (commandBytes c (vs.map fixed)) (List.replicate 4096 0) =
          (some (.reported n), responseBytes c r ++ rest, w2) ∧
        Accepts a.active r.auths w2 w' ∧
        r.WellFormed c ∧ r.params = p ∧ r.handles = h ∧
        canon c.respTy p = p ∧ canon c.respHandlesTy h = h ∧
        ∀ v ∈ r.auths, canon TpmsAuthResponse v = v := by
  have hact := a.active_length
  constructor
  · intro hr
    unfold runLive at hr
    rcases hb : buildCommandL c a w with ⟨⟨m | e | _, buf⟩, w1⟩
    · obtain ⟨vs, h1, h2, h3, h4⟩ := buildL_ok hcode hh hp ha hb
      rw [hb] at hr
      simp only [h4] at hr
      have hk := tr.keeps_length w1 (commandBytes c (vs.map fixed)) (List.replicate respBufferSize 0)
      rcases ht : tr.transact w1 (commandBytes c (vs.map fixed)) (List.replicate respBufferSize 0)
        with ⟨_ | n | e, buf', w2⟩
      · rw [ht] at hr
        simp at hr
      · rw [ht] at hr hk
        dsimp only at hr hk
        rcases hrd : readResponseL c a buf' w2 with ⟨⟨p', h'⟩ | e | _, w3⟩ <;> rw [hrd] at hr <;>
          simp [Res.mapErr] at hr
        obtain ⟨⟨rfl, rfl⟩, rfl⟩ := hr
        obtain ⟨r, rest, b1, rfl, b3, b4, b5, b6, b7, b8⟩ := (readL_ok_iff c a buf' (by
          rw [hk]; exact List.length_replicate) w2 w3 p' h').1 hrd
        have hactive : (areaOf (vs.map fixed)).active = vs.map fixed :=
          areaOf_active _ (by rw [List.length_map, h1.length]; exact hact)
        refine ⟨vs, w1, n, r, rest, w2, ⟨h2.handles, h2.param, fun v hv => ?_, h3⟩, h1, ht, b8, b1,
          b3, b4, b5, b6, b7⟩
        exact h2.auths (fixed v) (by rw [hactive]; exact List.mem_map.2 ⟨v, hv, rfl⟩)
      · rw [ht] at hr
        simp at hr
    · rw [hb] at hr
      simp at hr
    · rw [hb] at hr
      simp at hr
  · rintro ⟨vs, w1, n, r, rest, w2, ⟨g1, g2, g3, g4⟩, h1, ht, b8, b1, b3, b4, b5, b6, b7⟩
    have hactive : (areaOf (vs.map fixed)).active = vs.map fixed :=
      areaOf_active _ (by rw [List.length_map, h1.length]; exact hact)
    obtain ⟨rest', hb⟩ := buildL_fit h1 ⟨hcode, g1, g2, by
      rw [hactive]
      intro s hs
      obtain ⟨v, hv, rfl⟩ := List.mem_map.1 hs
      exact g3 v hv⟩ g4
    have hk := tr.keeps_length w1 (commandBytes c (vs.map fixed)) (List.replicate 4096 0)
    rw [ht] at hk
    unfold runLive
    rw [hb]
    simp only [sliceTo, List.length_append, Nat.le_add_right, if_true, List.take_left']
    have ht' : tr.transact w1 (commandBytes c (vs.map fixed)) (List.replicate respBufferSize 0) =
      (some (.reported n), responseBytes c r ++ rest, w2) := ht
    rw [ht']
    have := (readL_ok_iff c a (responseBytes c r ++ rest) (by
      rw [hk]; exact List.length_replicate) w2 w' p h).2 ⟨r, rest, b1, rfl, b3, b4, b5, b6, b7, b8⟩
    simp only [this, Res.mapErr]

/-- **C80**: the calls of the sessions and the transport are exactly those of the
protocol, in its order; and any error or panic of them is the result. -/
theorem C80_order (tr : LiveTransport ω ε) (c : Command) (a : LiveArea ω) (w : ω)
    (hcode : c.code < 2 ^ 32)
    (hh : HasTy c.handlesTy c.handles) (hp : HasTy c.paramTy c.param)
    (ha : ∀ s ∈ a.active, ∀ w v w', s.authCommand w = (some v, w') → HasTy TpmsAuthCommand v) :
    Protocol a.active.length (fun vs => commandBytes c (vs.map fixed))
      (runLive tr.watched c a.watched (w, [])).state.2
      (runLive tr.watched c a.watched (w, [])).result := by
  have hact := a.active_length
  have hwa : ∀ s ∈ (a.watched : LiveArea (ω × List (LEv ε))).active, ∀ w v w',
      s.authCommand w = (some v, w') → HasTy TpmsAuthCommand v := by
    intro s hs w v w' h
    rw [watched_active] at hs
    obtain ⟨i, hi⟩ := List.getElem?_of_mem hs
    obtain ⟨t, h1, rfl⟩ := watchedList_get _ _ _ _ hi
    simp only [LiveSession.watched, Prod.mk.injEq] at h
    exact ha t (List.mem_of_getElem? h1) w.1 v (t.authCommand w.1).2 (by rw [← h.1])
  have hwl : (a.watched : LiveArea (ω × List (LEv ε))).active.length = a.active.length := by
    rw [watched_active, watchedList_length]
  unfold runLive
  rcases hb : buildCommandL c (a.watched : LiveArea (ω × List (LEv ε))) (w, []) with
    ⟨⟨m | e | _, buf⟩, w1⟩
  · obtain ⟨vs, h1, h2, h3, h4⟩ := buildL_ok hcode hh hp hwa hb
    have hlen := h1.length
    rw [hwl] at hlen
    rw [watched_active] at h1
    obtain ⟨g1, g2⟩ := answers_log _ _ _ _ _ h1
    dsimp only at g1 g2
    rw [List.nil_append] at g2
    simp only [h4]
    have hz : List.replicate respBufferSize (0 : UInt8) = List.replicate 4096 0 := rfl
    simp only [LiveTransport.watched, hz, g2]
    rcases ht : tr.transact w1.1 (commandBytes c (vs.map fixed)) (List.replicate 4096 0)
      with ⟨_ | n | e, buf', w2⟩
    · exact .crashed vs hlen buf'
    · dsimp only
      rcases readResponseL_checked c (a.watched : LiveArea (ω × List (LEv ε))) buf' (w2,
        askedAll 0 vs ++ [.sent (commandBytes c (vs.map fixed)) (List.replicate 4096 0)
          (some (.reported n)) buf']) with ⟨xs, w3, a1, a2, a3, a4⟩ | ⟨xs, w3, s, x, w4, a1, a2, a3, a4⟩
      · rw [hwl] at a1
        rw [watched_active, watchedList_take] at a2
        obtain ⟨b1, b2⟩ := accepts_log _ _ _ _ _ a2
        dsimp only at b2
        have e := (a4 ((List.range a.active.length).map fun _ => fixed .unit) (by simp [hwl])).1
        have hacc : Accepted (List.take xs.length
            ((List.range a.active.length).map fun _ => fixed .unit)) xs := by
          rw [show ((List.range a.active.length).map fun _ => fixed .unit) =
            ((List.range a.active.length).map fun _ => Val.unit).map fixed by
              rw [List.map_map]; rfl, ← List.map_take]
          apply accepted_fixed
          rw [List.length_take, List.length_map, List.length_range]
          omega
        have e := e hacc
        rw [e] at a3 ⊢
        dsimp only at a3 ⊢
        rw [b2]
        refine .accepted vs xs hlen a1 n buf' _ ?_
        rw [hwl] at a3
        rcases a3 with a3 | a3
        · exact .inl a3
        · right
          intro v
          generalize readResponse c _ buf' = rr at a3
          rcases rr with _ | _ | _ <;> simp [Res.isOk, Res.mapErr] at a3 ⊢
      · rw [watched_active, watchedList_take] at a1
        obtain ⟨b1, b2⟩ := accepts_log _ _ _ _ _ a1
        dsimp only at b2
        rw [watched_active] at a2
        obtain ⟨t, c1, c2⟩ := watchedList_get _ _ _ _ a2
        have hlt : xs.length < a.active.length := (List.getElem?_eq_some_iff.1 c1).1
        subst c2
        simp only [LiveSession.watched, Prod.mk.injEq, Nat.zero_add] at a3
        rcases a3 with ⟨⟨d1, d2⟩, d3⟩ | ⟨e, ⟨d1, d2⟩, d3, -⟩
        · rw [d3, ← d2, d1, b2]
          exact .broken vs xs x hlen hlt n buf'
        · rw [d3, ← d2, d1, b2]
          exact .rejected vs xs x e hlen hlt n buf'
    · exact .failed vs hlen e buf'
  all_goals
    dsimp only
    rcases buildCommandL_built c (a.watched : LiveArea (ω × List (LEv ε))) (w, []) with
      ⟨vs, w', a1, a2, a3, a4⟩ | ⟨vs, w', s, w2, out, a1, a2, a3, a4⟩
    · rw [hwl] at a1
      rw [watched_active, watchedList_take] at a2
      obtain ⟨g1, g2⟩ := answers_log _ _ _ _ _ a2
      dsimp only at g2
      rw [List.nil_append] at g2
      have e := a4 ((vs ++ List.replicate (a.active.length - vs.length) Val.unit).map fixed)
        (by simp [hwl]; omega) (by
          rw [← List.map_take, map_fixed, List.take_left'] <;> rfl)
      rw [hb] at e
      have e2 := congrArg Prod.snd e
      dsimp only at e2
      rw [e2, g2]
      exact .unsent vs a1 _ (by simp)
    · rw [watched_active] at a2
      obtain ⟨t, c1, c2⟩ := watchedList_get _ _ _ _ a2
      have hlt : vs.length < a.active.length := (List.getElem?_eq_some_iff.1 c1).1
      rw [watched_active, watchedList_take] at a1
      obtain ⟨g1, g2⟩ := answers_log _ _ _ _ _ a1
      dsimp only at g2
      rw [List.nil_append] at g2
      subst c2
      simp only [LiveSession.watched, Prod.mk.injEq, Nat.zero_add] at a3
      rw [hb] at a4
      simp only [Prod.mk.injEq, reduceCtorEq, false_and, true_and] at a4
      try exact a4.elim
      try
        rw [a4.2, ← a3.2, a3.1, g2]
        exact .refused vs hlt

/-- **C80**: writing down the calls changes neither the result nor the state. -/
theorem C80_watched (tr : LiveTransport ω ε) (c : Command) (a : LiveArea ω) (w : ω)
    (l : List (LEv ε)) :
    (runLive tr.watched c a.watched (w, l)).result = (runLive tr c a w).result ∧
    (runLive tr.watched c a.watched (w, l)).state.1 = (runLive tr c a w).state := by
  refine sees_run (f := Prod.fst) c ?_ (fun _ _ _ => ⟨rfl, rfl, rfl⟩) (w, l)
  rw [watched_active]
  have h : ∀ (i : Nat) (ss : List (LiveSession ω)),
      SeesAll Prod.fst (watchedList i ss : List (LiveSession (ω × List (LEv ε)))) ss := by
    intro i ss
    induction ss generalizing i with
    | nil => exact .nil
    | cons s ss ih => exact .cons ⟨fun _ => ⟨rfl, rfl⟩, fun _ _ => ⟨rfl, rfl⟩⟩ (ih (i + 1))
  exact h 0 a.active

/-- **C80**: with sessions and a transport that do not panic and sessions that do
not change, this is the client of C31 to C39. -/
theorem C80_constant (tr : Transport ω ε) (c : Command) (a : Area) (w : ω) :
    runLive tr.live c a.live w = runCommandWithHandles tr c a w :=
  run_live tr c a w

/-- **C80**: as long as neither sessions nor transport panic, the result is that
of a run with sessions that do not change: those that give the same answers.  So
C31 to C39 hold for sessions that do change. -/
theorem C80_frozen (tr : Transport ω ε) (c : Command) (a : LiveArea ω) (w : ω)
    (hask : ∀ s ∈ a.active, ∀ w, ∃ v w', s.authCommand w = (some v, w'))
    (hchk : ∀ s ∈ a.active, ∀ x w, (s.validate x w).1 ≠ .panic) :
    ∃ vs w1 a', Answers a.active w vs w1 ∧ a'.active.map (·.authCommand) = vs ∧
      (runLive tr.live c a w).result = (runCommandWithHandles tr c a' w1).result := by
  have hact := a.active_length
  obtain ⟨vs, w1, hvs⟩ := answers_exist a.active hask w
  have hlen := hvs.length
  have key : ∀ ss' : List Session, ss'.map (·.authCommand) = vs →
      ∃ w', buildCommandL c a w = (buildCommand c (areaOf ss'), w') ∧
        ((buildCommand c (areaOf ss')).1.isOk = true → w' = w1) := by
    intro ss' hs
    have hl : ss'.length = a.active.length := by rw [← hlen, ← hs, List.length_map]
    rcases buildCommandL_built c a w with ⟨vs', w', a1, a2, a3, a4⟩ |
      ⟨vs', w', s, w2, out, a1, a2, a3, a4⟩
    · obtain ⟨e1, e2, -⟩ := hvs.prefix a2
      have e := a4 ss' hl (by rw [List.map_take, hs, ← e1])
      refine ⟨w', e, fun hok => ?_⟩
      rcases a3 with a3 | a3
      · exact e2 a3
      · rw [e] at a3
        dsimp only at a3
        rw [a3] at hok
        cases hok
    · obtain ⟨-, -, e3⟩ := hvs.prefix a1
      obtain ⟨v, w3, e⟩ := e3 s a2
      rw [a3] at e
      simp at e
  rcases hb : buildCommandL c a w with ⟨⟨n | e | _, buf⟩, w'⟩
  · rcases hs : sliceTo buf n with _ | cmd
    · obtain ⟨w2, h1, h2⟩ := key (vs.map fixed) (map_fixed vs)
      refine ⟨vs, w1, areaOf (vs.map fixed), hvs, ?_, ?_⟩
      · rw [areaOf_active _ (by rw [List.length_map]; omega), map_fixed]
      · rw [hb] at h1
        have h1 := (congrArg Prod.fst h1).symm
        dsimp only at h1
        unfold runLive runCommandWithHandles
        simp only [hb, h1, hs]
    · have hbuild : ∀ ss' : List Session, ss'.map (·.authCommand) = vs →
          buildCommand c (areaOf ss') = (.ok n, buf) ∧ w' = w1 := by
        intro ss' hs'
        obtain ⟨w2, h1, h2⟩ := key ss' hs'
        rw [hb] at h1
        have e1 := (congrArg Prod.fst h1).symm
        have e2 := congrArg Prod.snd h1
        dsimp only at e1 e2
        rw [e1] at h2
        exact ⟨e1, by rw [e2]; exact h2 rfl⟩
      obtain rfl : w' = w1 := (hbuild (vs.map fixed) (map_fixed vs)).2
      rcases ht : tr.transact w' cmd (List.replicate respBufferSize 0) with ⟨m | e, rb, w3⟩
      · rcases readResponseL_checked c a rb w3 with ⟨xs, w4, a1, a2, a3, a4⟩ |
          ⟨xs, w4, s, x, w5, a1, a2, a3, a4⟩
        · refine ⟨vs, w', areaOf (vs.map fixed), hvs, ?_, ?_⟩
          · rw [areaOf_active _ (by rw [List.length_map]; omega), map_fixed]
          · have e := (a4 (vs.map fixed) (by rw [List.length_map]; omega)).1 (by
              rw [← List.map_take]
              apply accepted_fixed
              rw [List.length_take]
              omega)
            unfold runLive runCommandWithHandles
            simp only [hb, (hbuild _ (map_fixed vs)).1, hs, Transport.live, ht, e]
        · have hx : xs.length < a.active.length := (List.getElem?_eq_some_iff.1 a2).1
          rcases a3 with ⟨b1, b2⟩ | ⟨e, b1, b2, b3⟩
          · exact absurd (by rw [b1]) (hchk s (List.mem_of_getElem? a2) x w4)
          · refine ⟨vs, w', areaOf (rejecting e xs.length vs), hvs, ?_, ?_⟩
            · rw [areaOf_active _ (by rw [rejecting_length]; omega), rejecting_auth]
            · have e := b3 (rejecting e xs.length vs) (by rw [rejecting_length]; omega)
                (rejecting_accepted e vs xs (by omega)) (fun s' hs' => rejecting_at e vs _ s' hs' x)
              dsimp only at e
              unfold runLive runCommandWithHandles
              simp only [hb, (hbuild _ (rejecting_auth _ _ vs)).1, hs, Transport.live, ht, e, b2]
      · refine ⟨vs, w', areaOf (vs.map fixed), hvs, ?_, ?_⟩
        · rw [areaOf_active _ (by rw [List.length_map]; omega), map_fixed]
        · unfold runLive runCommandWithHandles
          simp only [hb, (hbuild _ (map_fixed vs)).1, hs, Transport.live, ht]
  all_goals
    obtain ⟨w2, h1, h2⟩ := key (vs.map fixed) (map_fixed vs)
    refine ⟨vs, w1, areaOf (vs.map fixed), hvs, ?_, ?_⟩
    · rw [areaOf_active _ (by rw [List.length_map]; omega), map_fixed]
    · rw [hb] at h1
      have h1 := (congrArg Prod.fst h1).symm
      dsimp only at h1
      unfold runLive runCommandWithHandles
      simp only [hb, h1]

/-- **C80**: using the session that stands for none panics, and nothing is sent. -/
theorem C80_no_session (tr : LiveTransport ω ε) (c : Command) (a : LiveArea ω) (w : ω)
    (hcode : c.code < 2 ^ 32)
    (hh : HasTy c.handlesTy c.handles) (hp : HasTy c.paramTy c.param)
    (ha : ∀ s ∈ a.active, ∀ w v w', s.authCommand w = (some v, w') → HasTy TpmsAuthCommand v)
    (hn : noSession ∈ a.active) :
    (∀ v, (runLive tr c a w).result ≠ .ok v) ∧
    ∀ e ∈ (runLive tr.watched c a.watched (w, [])).state.2, ∃ i v, e = .asked i v := by
  constructor
  · rintro ⟨p, h⟩ hok
    have : runLive tr c a w = ⟨.ok (p, h), (runLive tr c a w).state⟩ := by
      rw [← hok]
    obtain ⟨vs, w1, n, r, rest, w2, -, h1, -⟩ :=
      (C80_success_iff tr c a w _ hcode hh hp ha p h).1 this
    exact answers_no_session h1 hn
  · have hwa : ∀ s ∈ (a.watched : LiveArea (ω × List (LEv ε))).active, ∀ w v w',
        s.authCommand w = (some v, w') → HasTy TpmsAuthCommand v := by
      intro s hs w v w' h
      rw [watched_active] at hs
      obtain ⟨i, hi⟩ := List.getElem?_of_mem hs
      obtain ⟨t, h1, rfl⟩ := watchedList_get _ _ _ _ hi
      simp only [LiveSession.watched, Prod.mk.injEq] at h
      exact ha t (List.mem_of_getElem? h1) w.1 v (t.authCommand w.1).2 (by rw [← h.1])
    have hall : ∀ i vs, ∀ e ∈ (askedAll i vs : List (LEv ε)), ∃ i v, e = .asked i v := by
      intro i vs
      induction vs generalizing i with
      | nil => intro e he; cases he
      | cons v vs ih =>
        intro e he
        rcases List.mem_cons.1 he with rfl | he
        · exact ⟨_, _, rfl⟩
        · exact ih _ e he
    unfold runLive
    rcases hb : buildCommandL c (a.watched : LiveArea (ω × List (LEv ε))) (w, []) with
      ⟨⟨m | e | _, buf⟩, w1⟩
    · obtain ⟨vs, h1, -⟩ := buildL_ok hcode hh hp hwa hb
      rw [watched_active] at h1
      exact absurd hn (answers_no_session (answers_log _ _ _ _ _ h1).1)
    all_goals
      dsimp only
      rcases buildCommandL_built c (a.watched : LiveArea (ω × List (LEv ε))) (w, []) with
        ⟨vs, w', a1, a2, a3, a4⟩ | ⟨vs, w', s, w2, out, a1, a2, a3, a4⟩
      · rw [watched_active, watchedList_take] at a2
        have g := (answers_log _ _ _ _ _ a2).2
        dsimp only at g
        have e := a4 ((vs ++ List.replicate (a.active.length - vs.length) Val.unit).map fixed)
          (by
            rw [watched_active, watchedList_length] at a1 ⊢
            simp
            omega) (by rw [← List.map_take, map_fixed, List.take_left'] <;> rfl)
        rw [hb] at e
        have e2 := congrArg Prod.snd e
        dsimp only at e2
        rw [e2, g]
        exact hall 0 vs
      · rw [watched_active] at a2
        obtain ⟨t, c1, c2⟩ := watchedList_get _ _ _ _ a2
        rw [watched_active, watchedList_take] at a1
        have g := (answers_log _ _ _ _ _ a1).2
        dsimp only at g
        subst c2
        simp only [LiveSession.watched, Prod.mk.injEq, Nat.zero_add] at a3
        rw [hb] at a4
        simp only [Prod.mk.injEq, reduceCtorEq, false_and, true_and] at a4
        try exact a4.elim
        try
          rw [a4.2, ← a3.2, g]
          intro e he
          rcases List.mem_append.1 he with he | he
          · exact hall 0 vs e he
          · rw [List.mem_singleton] at he
            exact ⟨_, _, he⟩

/-! ### Examples -/

theorem rolling_hasTy : ∀ s ∈ (live1 rolling).active, ∀ w v w',
    s.authCommand w = (some v, w') → HasTy TpmsAuthCommand v := by
  intro s hs w v w' h
  simp only [LiveArea.active, live1, List.mem_singleton] at hs
  subst hs
  simp only [rolling, Prod.mk.injEq, Option.some.injEq] at h
  rw [← h.1]
  exact ⟨⟨by decide, trivial⟩, ⟨by decide, by simp⟩, ⟨by decide, trivial⟩,
    ⟨by decide, by simp⟩, trivial⟩

/-- The response to GetRandom for two bytes with nonce 7. -/
def exRolled : Response :=
  { exResponse with
    tag := 0x8002, paramSize := 4,
    auths := [.struct [.tpm2b 1 (7 :: List.replicate 63 0), .struct [.int 0],
      .tpm2b 0 (List.replicate 64 0)]] }

/-- A session that changes: the seventh command has nonce 7, and the response with
nonce 7 is accepted; the state is then 7. -/
theorem exRolling : runLive (answering (responseBytes (getRandomCommand 2) exRolled) (by decide))
      (getRandomCommand 2) (live1 rolling) 6 = ⟨.ok (exRolled.params, .unit), 7⟩ := by
  refine (C80_success_iff _ (getRandomCommand 2) _ _ _ (by decide) trivial ⟨by decide, trivial⟩ rolling_hasTy _ _).2
    ⟨[.struct [.struct [.int 0x03000000], .tpm2b 1 (7 :: List.replicate 63 0), .struct [.int 0],
      .tpm2b 0 (List.replicate 64 0)]], 7, 24, exRolled, (List.replicate 4096 0).drop 24, 7,
      ⟨trivial, by decide, ?_, by decide⟩, .cons rfl (.nil _), ?_, .cons rfl (.nil _),
      ⟨by decide, by decide, trivial, by decide, ?_⟩, rfl, rfl, rfl, rfl, ?_⟩
  · intro v hv
    rw [List.mem_singleton] at hv
    subst hv
    decide
  · have : (responseBytes (getRandomCommand 2) exRolled).length = 24 := by decide
    simp only [answering, List.length_replicate, if_true, this]
  · intro v hv
    rw [show exRolled.auths = [_] from rfl, List.mem_singleton] at hv
    subst hv
    decide
  · intro v hv
    rw [show exRolled.auths = [_] from rfl, List.mem_singleton] at hv
    subst hv
    rfl

/-- The session that stands for none. -/
example (tr : LiveTransport Nat Unit) (v : Val × Val) :
    (runLive tr (getRandomCommand 2) (live2 rolling noSession) 0).result ≠ .ok v :=
  (C80_no_session tr (getRandomCommand 2) (live2 rolling noSession) 0 (by decide) trivial
    ⟨by decide, trivial⟩ (by
      intro s hs w v w' h
      simp only [LiveArea.active, live2, List.mem_cons, List.not_mem_nil, or_false] at hs
      rcases hs with rfl | rfl
      · exact rolling_hasTy rolling (List.mem_singleton.2 rfl) w v w' h
      · simp [noSession] at h) (List.mem_cons_of_mem _ (List.mem_singleton.2 rfl))).1 v

/-- The rolling session meets the hypotheses of `C80_frozen`. -/
example (tr : Transport Nat Unit) : ∃ vs w1 a', Answers [rolling] 6 vs w1 ∧
    a'.active.map (·.authCommand) = vs ∧
    (runLive tr.live (getRandomCommand 2) (live1 rolling) 6).result =
      (runCommandWithHandles tr (getRandomCommand 2) a' w1).result := by
  refine C80_frozen tr (getRandomCommand 2) (live1 rolling) 6 ?_ ?_
  · intro s hs w
    rw [List.mem_singleton.1 hs]
    exact ⟨_, _, rfl⟩
  · intro s hs x w
    rw [List.mem_singleton.1 hs]
    simp only [rolling]
    split
    · dsimp only
      split <;> simp
    · simp

end Verif.Client
