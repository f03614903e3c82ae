import Verif.Client.Live
import Verif.Client.Lemmas

/-! Helper lemmas for sessions with state: a run with them is the run with
constant sessions that give the same answers. -/

namespace Verif.Client
open Verif Verif.Base Verif.Errors

variable {ω ε : Type}

theorem LiveArea.isEmpty_active (a : LiveArea ω) : a.isEmpty = a.active.isEmpty := by
  rcases a with ⟨_ | s, _ | t, _ | u⟩ <;> rfl

/-! ### Commands -/

/-- The chain of `writeAuthL` calls, followed by `k`. -/
def chainL : List (LiveSession ω) → (Nat → Bytes → TOut) → Nat → Bytes → ω → LOut ω
  | [], k => fun n b w => (k n b, w)
  | s :: ss, k => fun n b w => lthen (writeAuthL s n b w) (chainL ss k)

theorem writeCommandSessionsL_eq (a : LiveArea ω) (buf : Bytes) (w : ω) :
    writeCommandSessionsL a buf w =
      if a.active.isEmpty then ((.ok 0, buf), w) else chainL a.active marshalAuthSize 4 buf w := by
  rcases a with ⟨_ | s, _ | t, _ | u⟩ <;> rfl

/-- What a part of building the command may do with the sessions: it asks the
first of them, which answer, and does the same as with constant sessions that
answer this (`pure`); all of them if it succeeds.  Or one of them panics. -/
def Built (ss : List (LiveSession ω)) (w : ω) (r : LOut ω) (pure : List Session → TOut) : Prop :=
  (∃ vs w1, vs.length ≤ ss.length ∧ Answers (ss.take vs.length) w vs w1 ∧
    (vs.length = ss.length ∨ r.1.1.isOk = false) ∧
    ∀ ss' : List Session, ss'.length = ss.length →
      (ss'.take vs.length).map (·.authCommand) = vs → r = (pure ss', w1)) ∨
  (∃ vs w1 s w2 out, Answers (ss.take vs.length) w vs w1 ∧ ss[vs.length]? = some s ∧
    s.authCommand w1 = (none, w2) ∧ r = ((.panic, out), w2))

theorem chainL_built (k : Nat → Bytes → TOut) : ∀ (ss : List (LiveSession ω)) (n : Nat) (b : Bytes)
    (w : ω), Built ss w (chainL ss k n b w) (fun ss' => authChain ss' k n b)
  | [], n, b, w => .inl ⟨[], w, Nat.le_refl _, .nil w, .inl rfl, by
      intro ss' hl _
      rw [List.length_eq_zero_iff.mp hl]
      rfl⟩
  | s :: ss, n, b, w => by
    rcases ha : s.authCommand w with ⟨_ | v, w1⟩
    · refine .inr ⟨[], w, s, w1, b, .nil w, rfl, ha, ?_⟩
      simp only [chainL, writeAuthL, ha, lthen]
    · have e : writeAuthL s n b w =
          (tstep (fun b => toTss (marshal TpmsAuthCommand v b)) n b, w1) := by
        simp only [writeAuthL, ha]
      rcases ht : tstep (fun b => toTss (marshal TpmsAuthCommand v b)) n b with ⟨n' | x | _, b'⟩
      · have h1 : chainL (s :: ss) k n b w = chainL ss k n' b' w1 := by
          simp only [chainL, e, ht, lthen]
        have h2 : ∀ s' ss', s'.authCommand = v → authChain (s' :: ss') k n b = authChain ss' k n' b' := by
          intro s' ss' hs
          simp only [authChain, writeAuth, hs, ht, tthen]
        rcases chainL_built k ss n' b' w1 with ⟨vs, w2, a1, a2, a3, a4⟩ | ⟨vs, w2, s', w3, out, a1, a2, a3, a4⟩
        · refine .inl ⟨v :: vs, w2, by simpa using a1, .cons ha a2, ?_, ?_⟩
          · rw [h1]
            rcases a3 with a3 | a3
            · exact .inl (by simp [a3])
            · exact .inr a3
          · intro ss' hl hv
            rcases ss' with _ | ⟨s', ss'⟩
            · simp at hl
            · simp only [List.length_cons, List.take_succ_cons, List.map_cons, List.cons.injEq] at hv
              show _ = (authChain (s' :: ss') k n b, w2)
              rw [h1, h2 s' ss' hv.1]
              exact a4 ss' (by simpa using hl) hv.2
        · exact .inr ⟨v :: vs, w2, s', w3, out, .cons ha a1, by simpa using a2, a3, by rw [h1]; exact a4⟩
      all_goals
        refine .inl ⟨[v], w1, by simp, .cons ha (.nil w1), .inr (by simp [chainL, e, ht, lthen, Res.isOk]), ?_⟩
        intro ss' hl hv
        rcases ss' with _ | ⟨s', ss'⟩
        · simp at hl
        · simp only [List.length_singleton, List.take_succ_cons, List.take_zero, List.map_cons,
            List.map_nil, List.cons.injEq, and_true] at hv
          simp only [chainL, e, ht, lthen, authChain, writeAuth, hv, tthen]

theorem Built.before {ss : List (LiveSession ω)} {w : ω} {k : Nat → Bytes → ω → LOut ω}
    {k' : List Session → Nat → Bytes → TOut}
    (h : ∀ n b, Built ss w (k n b w) (fun ss' => k' ss' n b)) (r : TOut) :
    Built ss w (lthen (r, w) k) (fun ss' => tthen r (k' ss')) := by
  rcases r with ⟨n | x | _, b⟩
  · exact h n b
  all_goals
    exact .inl ⟨[], w, Nat.zero_le _, .nil w, .inr rfl, fun _ _ _ => rfl⟩

theorem Built.after {ss : List (LiveSession ω)} {w : ω} {r : LOut ω} {f : List Session → TOut}
    (h : Built ss w r f) (k : Nat → Bytes → TOut) :
    Built ss w (lthen r fun n b w => (k n b, w)) (fun ss' => tthen (f ss') k) := by
  rcases h with ⟨vs, w1, a1, a2, a3, a4⟩ | ⟨vs, w1, s, w2, out, a1, a2, a3, a4⟩
  · refine .inl ⟨vs, w1, a1, a2, ?_, ?_⟩
    · rcases a3 with a3 | a3
      · exact .inl a3
      · right
        rcases r with ⟨⟨n | x | _, b⟩, w'⟩
        · simp [Res.isOk] at a3
        · rfl
        · rfl
    · intro ss' hl hv
      rw [a4 ss' hl hv]
      show _ = (tthen (f ss') k, w1)
      rcases f ss' with ⟨n | x | _, b⟩ <;> rfl
  · exact .inr ⟨vs, w1, s, w2, out, a1, a2, a3, by rw [a4]; rfl⟩

theorem Built.step {ss : List (LiveSession ω)} {w : ω} {f : Bytes → ω → LOut ω}
    {f' : List Session → Bytes → TOut} (h : ∀ b, Built ss w (f b w) (fun ss' => f' ss' b))
    (n : Nat) (b : Bytes) :
    Built ss w (lstep f n b w) (fun ss' => tstep (f' ss') n b) := by
  unfold lstep tstep
  by_cases hn : n ≤ b.length
  · simp only [if_pos hn]
    rcases h (b.drop n) with ⟨vs, w1, a1, a2, a3, a4⟩ | ⟨vs, w1, s, w2, out, a1, a2, a3, a4⟩
    · refine .inl ⟨vs, w1, a1, a2, ?_, ?_⟩
      · rcases a3 with a3 | a3
        · exact .inl a3
        · right
          revert a3
          rcases f (b.drop n) w with ⟨⟨m | x | _, b'⟩, w'⟩
          · simp [Res.isOk]
          · exact fun _ => rfl
          · exact fun _ => rfl
      · intro ss' hl hv
        rw [a4 ss' hl hv]
        dsimp only
        rcases f' ss' (b.drop n) with ⟨m | x | _, b'⟩ <;> rfl
    · exact .inr ⟨vs, w1, s, w2, b.take n ++ out, a1, a2, a3, by rw [a4]⟩
  · simp only [if_neg hn]
    exact .inl ⟨[], w, Nat.zero_le _, .nil w, .inr rfl, fun _ _ _ => rfl⟩

theorem Built.congr {ss : List (LiveSession ω)} {w : ω} {r r' : LOut ω} {f f' : List Session → TOut}
    (h : Built ss w r f) (hr : r = r') (hf : ∀ ss', ss'.length = ss.length → f ss' = f' ss') :
    Built ss w r' f' := by
  subst hr
  rcases h with ⟨vs, w1, a1, a2, a3, a4⟩ | h
  · exact .inl ⟨vs, w1, a1, a2, a3, fun ss' hl hv => by rw [a4 ss' hl hv, hf ss' hl]⟩
  · exact .inr h

/-- Any list of up to three sessions is the list of sessions of an area. -/
def areaOf : List Session → Area
  | [] => area0
  | [s] => area1 s
  | [s, t] => area2 s t
  | s :: t :: u :: _ => area3 s t u

theorem areaOf_active (ss : List Session) (h : ss.length ≤ 3) : (areaOf ss).active = ss := by
  rcases ss with _ | ⟨s, _ | ⟨t, _ | ⟨u, _ | ⟨v, ss⟩⟩⟩⟩
  · rfl
  · rfl
  · rfl
  · rfl
  · simp at h

theorem LiveArea.active_length (a : LiveArea ω) : a.active.length ≤ 3 := by
  rcases a with ⟨_ | s, _ | t, _ | u⟩ <;> simp [LiveArea.active]

theorem areaOf_isEmpty (a : LiveArea ω) (ss : List Session) (h : ss.length = a.active.length) :
    (areaOf ss).isEmpty = a.isEmpty := by
  have := a.active_length
  rw [Client.isEmpty_active, areaOf_active ss (by omega), LiveArea.isEmpty_active]
  rcases ss with _ | ⟨s, ss⟩ <;> rcases hb : a.active with _ | ⟨t, ts⟩ <;> rw [hb] at h <;>
    simp at h ⊢

theorem lthen_assoc (r : TOut) (w : ω) (f : Nat → Bytes → TOut) (g : Nat → Bytes → ω → LOut ω) :
    lthen (lthen (r, w) fun n b w => (f n b, w)) g = lthen (r, w) fun n b w => lthen (f n b, w) g := by
  rcases r with ⟨_ | _ | _, b⟩ <;> rfl

/-- Building a command with sessions that change. -/
theorem buildCommandL_built (c : Command) (a : LiveArea ω) (w : ω) :
    Built a.active w (buildCommandL c a w) (fun ss' => buildCommand c (areaOf ss')) := by
  have hact := a.active_length
  have hs : ∀ b, Built a.active w (writeCommandSessionsL a b w)
      (fun ss' => writeCommandSessions (areaOf ss') b) := by
    intro b
    by_cases he : a.active.isEmpty = true
    · refine .inl ⟨[], w, Nat.zero_le _, .nil w, .inl ?_, ?_⟩
      · rw [List.isEmpty_iff.1 he]; rfl
      · intro ss' hl _
        dsimp only
        rw [writeCommandSessionsL_eq, writeCommandSessions_eq, areaOf_active ss' (by omega)]
        rw [List.isEmpty_iff.1 he] at hl ⊢
        rw [List.length_eq_zero_iff.mp hl]
        rfl
    · refine (chainL_built marshalAuthSize a.active 4 b w).congr ?_ ?_
      · rw [writeCommandSessionsL_eq, if_neg he]
      · intro ss' hl
        rw [writeCommandSessions_eq, areaOf_active ss' (by omega), if_neg ?_]
        intro h
        rw [List.isEmpty_iff.1 h] at hl
        exact he (List.isEmpty_iff.2 (List.length_eq_zero_iff.mp hl.symm))
  have hbody : ∀ n b, Built a.active w
      (lthen (lthen (lstep (writeCommandSessionsL a) n b w) fun written buf w =>
        (tstep (fun b => toTss (marshal c.paramTy c.param b)) written buf, w)) fun written buf w =>
        (tthen (toTss (marshal CmdHeader (cmdHeader a.isEmpty c.code (written % 2 ^ 32)) buf))
          (fun _ buf => (.ok written, buf)), w))
      (fun ss' => tthen (tthen (tstep (writeCommandSessions (areaOf ss')) n b) fun written buf =>
        tstep (fun b => toTss (marshal c.paramTy c.param b)) written buf) fun written buf =>
        tthen (toTss (marshal CmdHeader (cmdHeader a.isEmpty c.code (written % 2 ^ 32)) buf))
          (fun _ buf => (.ok written, buf))) := fun n b =>
    ((Built.step hs n b).after _).after _
  have h1 : ∀ n b, Built a.active w
      (lthen (tstep (fun b => toTss (marshal c.handlesTy c.handles b)) n b, w) fun n b w =>
        lthen (lthen (lstep (writeCommandSessionsL a) n b w) fun written buf w =>
        (tstep (fun b => toTss (marshal c.paramTy c.param b)) written buf, w)) fun written buf w =>
        (tthen (toTss (marshal CmdHeader (cmdHeader a.isEmpty c.code (written % 2 ^ 32)) buf))
          (fun _ buf => (.ok written, buf)), w))
      (fun ss' => tthen (tstep (fun b => toTss (marshal c.handlesTy c.handles b)) n b) fun n b =>
        tthen (tthen (tstep (writeCommandSessions (areaOf ss')) n b) fun written buf =>
        tstep (fun b => toTss (marshal c.paramTy c.param b)) written buf) fun written buf =>
        tthen (toTss (marshal CmdHeader (cmdHeader a.isEmpty c.code (written % 2 ^ 32)) buf))
          (fun _ buf => (.ok written, buf))) := fun n b =>
    Built.before (k' := fun ss' n b =>
        tthen (tthen (tstep (writeCommandSessions (areaOf ss')) n b) fun written buf =>
        tstep (fun b => toTss (marshal c.paramTy c.param b)) written buf) fun written buf =>
        tthen (toTss (marshal CmdHeader (cmdHeader a.isEmpty c.code (written % 2 ^ 32)) buf))
          (fun _ buf => (.ok written, buf))) hbody _
  refine (Built.before (k := fun n b w =>
      lthen (tstep (fun b => toTss (marshal c.handlesTy c.handles b)) n b, w) fun n b w =>
        lthen (lthen (lstep (writeCommandSessionsL a) n b w) fun written buf w =>
        (tstep (fun b => toTss (marshal c.paramTy c.param b)) written buf, w)) fun written buf w =>
        (tthen (toTss (marshal CmdHeader (cmdHeader a.isEmpty c.code (written % 2 ^ 32)) buf))
          (fun _ buf => (.ok written, buf)), w)) (k' := fun ss' n b =>
        tthen (tstep (fun b => toTss (marshal c.handlesTy c.handles b)) n b) fun n b =>
        tthen (tthen (tstep (writeCommandSessions (areaOf ss')) n b) fun written buf =>
        tstep (fun b => toTss (marshal c.paramTy c.param b)) written buf) fun written buf =>
        tthen (toTss (marshal CmdHeader (cmdHeader a.isEmpty c.code (written % 2 ^ 32)) buf))
          (fun _ buf => (.ok written, buf))) h1
    (toTss (marshal CmdHeader (cmdHeader a.isEmpty c.code 0) (List.replicate cmdBufferSize 0)))).congr ?_ ?_
  · unfold buildCommandL
    simp only
    congr 1
    funext n b w
    congr 1
    funext n b w
    rcases lstep (writeCommandSessionsL a) n b w with ⟨⟨_ | _ | _, b⟩, w⟩
    · simp only [lthen]
      rcases tstep (fun b => toTss (marshal c.paramTy c.param b)) _ b with ⟨m | _ | _, b⟩
      · simp only
        rcases toTss (marshal CmdHeader (cmdHeader a.isEmpty c.code (m % 2 ^ 32)) b) with
          ⟨_ | _ | _, b⟩ <;> rfl
      · rfl
      · rfl
    · rfl
    · rfl
  · intro ss' hl
    unfold buildCommand
    rw [areaOf_isEmpty a ss' hl]
    simp only [tthen_assoc]

/-! ### Responses -/

/-- The chain of `readAuthL` calls. -/
def checkL : List (LiveSession ω) → Bytes → ω → Res TssError Bytes × ω
  | [], b, w => (.ok b, w)
  | s :: ss, b, w => lbind (readAuthL s b w) (checkL ss)

theorem readResponseSessionsL_eq (a : LiveArea ω) (b : Bytes) (w : ω) :
    readResponseSessionsL a b w = checkL a.active b w := by
  rcases a with ⟨_ | s, _ | t, _ | u⟩ <;> rfl

/-- What a part of reading the response may do with the sessions: the first of
them accept their responses, and it does the same as with constant sessions that
accept them (`pure`); all of them if it succeeds.  Or one of them does not
accept, and it does the same as with constant sessions of which this one
rejects.  The responses are the same for all sessions. -/
def Checked {α : Type} (ss : List (LiveSession ω)) (w : ω) (r : Res TssError α × ω)
    (pure : List Session → Res TssError α) : Prop :=
  (∃ xs w1, xs.length ≤ ss.length ∧ Accepts (ss.take xs.length) xs w w1 ∧
    (xs.length = ss.length ∨ r.1.isOk = false) ∧
    ∀ ss' : List Session, ss'.length = ss.length →
      (Accepted (ss'.take xs.length) xs → r = (pure ss', w1)) ∧
      ((pure ss').isOk = true → Accepted (ss'.take xs.length) xs)) ∨
  (∃ xs w1 s x w2, Accepts (ss.take xs.length) xs w w1 ∧ ss[xs.length]? = some s ∧
    ((s.validate x w1 = (.panic, w2) ∧ r = (.panic, w2)) ∨
     ∃ e, s.validate x w1 = (.err e, w2) ∧ r = (.err e, w2) ∧
      ∀ ss' : List Session, ss'.length = ss.length → Accepted (ss'.take xs.length) xs →
        (∀ s', ss'[xs.length]? = some s' → s'.validate x = some e) → pure ss' = .err e) ∧
    ∀ ss' : List Session, ss'.length = ss.length → (pure ss').isOk = true →
      Accepted (ss'.take xs.length) xs ∧ ∀ s', ss'[xs.length]? = some s' → s'.validate x = none)

theorem checkL_checked : ∀ (ss : List (LiveSession ω)) (b : Bytes) (w : ω),
    Checked ss w (checkL ss b w) (fun ss' => readChain ss' b)
  | [], b, w => .inl ⟨[], w, Nat.le_refl _, .nil w, .inl rfl, by
      intro ss' hl
      rw [List.length_eq_zero_iff.mp hl]
      exact ⟨fun _ => rfl, fun _ => trivial⟩⟩
  | s :: ss, b, w => by
    have hp : ∀ s' ss', readChain (s' :: ss') b = (tum TpmsAuthResponse b).bind fun x =>
        match s'.validate x.1 with
        | none => readChain ss' x.2
        | some e => .err e := by
      intro s' ss'
      simp only [readChain, readAuth]
      rcases tum TpmsAuthResponse b with ⟨x, r⟩ | e | _
      · simp only [Res.bind]
        rcases s'.validate x <;> rfl
      · rfl
      · rfl
    rcases ht : tum TpmsAuthResponse b with ⟨x, r⟩ | e | _
    · have hl : checkL (s :: ss) b w = lbind (s.validate x w) fun _ w => checkL ss r w := by
        simp only [checkL, readAuthL, ht, lbind]
        rcases s.validate x w with ⟨_ | _ | _, w1⟩ <;> rfl
      have hp' : ∀ s' ss', readChain (s' :: ss') b =
          match s'.validate x with
          | none => readChain ss' r
          | some e => .err e := by
        intro s' ss'
        rw [hp, ht]
        rfl
      have hok : ∀ s' ss', (readChain (s' :: ss') b).isOk = true →
          s'.validate x = none ∧ (readChain ss' r).isOk = true := by
        intro s' ss' h
        rw [hp'] at h
        rcases hv : s'.validate x with _ | e
        · rw [hv] at h; exact ⟨rfl, h⟩
        · rw [hv] at h; simp [Res.isOk] at h
      rcases hv : s.validate x w with ⟨_ | e | _, w1⟩
      · rw [hv] at hl
        have hl : checkL (s :: ss) b w = checkL ss r w1 := hl
        rcases checkL_checked ss r w1 with ⟨xs, w2, a1, a2, a3, a4⟩ |
          ⟨xs, w2, s', y, w3, a1, a2, a3, a4⟩
        · refine .inl ⟨x :: xs, w2, by simpa using a1, .cons hv a2, ?_, ?_⟩
          · rw [hl]
            rcases a3 with a3 | a3
            · exact .inl (by simp [a3])
            · exact .inr a3
          · intro ss' hlen
            rcases ss' with _ | ⟨s', ss'⟩
            · simp at hlen
            · have hlen' : ss'.length = ss.length := by simpa using hlen
              constructor
              · rintro ⟨h1, h2⟩
                rw [hl, (a4 ss' hlen').1 h2]
                dsimp only
                rw [hp', h1]
              · intro h
                have := hok s' ss' h
                exact ⟨this.1, (a4 ss' hlen').2 this.2⟩
        · refine .inr ⟨x :: xs, w2, s', y, w3, .cons hv a1, by simpa using a2, ?_, ?_⟩
          · rw [hl]
            rcases a3 with a3 | ⟨e, b1, b2, b3⟩
            · exact .inl a3
            · refine .inr ⟨e, b1, b2, ?_⟩
              intro ss' hlen hacc hrej
              rcases ss' with _ | ⟨s', ss'⟩
              · simp at hlen
              · obtain ⟨h1, h2⟩ := hacc
                dsimp only
                rw [hp', h1]
                exact b3 ss' (by simpa using hlen) h2 (fun s'' h => hrej s'' (by simpa using h))
          · intro ss' hlen h
            rcases ss' with _ | ⟨s', ss'⟩
            · simp at hlen
            · have := hok s' ss' h
              have := a4 ss' (by simpa using hlen) this.2
              exact ⟨⟨(hok s' ss' h).1, this.1⟩, fun s'' h => this.2 s'' (by simpa using h)⟩
      · refine .inr ⟨[], w, s, x, w1, .nil w, rfl, .inr ⟨e, hv, by rw [hl, hv]; rfl, ?_⟩, ?_⟩
        · intro ss' hlen _ hrej
          rcases ss' with _ | ⟨s', ss'⟩
          · simp at hlen
          · dsimp only
            rw [hp', hrej s' rfl]
        · intro ss' hlen h
          rcases ss' with _ | ⟨s', ss'⟩
          · simp at hlen
          · refine ⟨trivial, fun s'' h'' => ?_⟩
            cases h''
            exact (hok _ _ h).1
      · refine .inr ⟨[], w, s, x, w1, .nil w, rfl, .inl ⟨hv, by rw [hl, hv]; rfl⟩, ?_⟩
        intro ss' hlen h
        rcases ss' with _ | ⟨s', ss'⟩
        · simp at hlen
        · refine ⟨trivial, fun s'' h'' => ?_⟩
          cases h''
          exact (hok _ _ h).1
    all_goals
      refine .inl ⟨[], w, Nat.zero_le _, .nil w, .inr (by simp [checkL, readAuthL, ht, lbind, Res.isOk]), ?_⟩
      intro ss' hlen
      rcases ss' with _ | ⟨s', ss'⟩
      · simp at hlen
      · refine ⟨fun _ => ?_, fun _ => trivial⟩
        dsimp only
        rw [hp, ht]
        simp only [checkL, readAuthL, ht, lbind, Res.bind]

theorem Checked.const {α : Type} (ss : List (LiveSession ω)) (w : ω) (r : Res TssError α)
    (h : r.isOk = false) : Checked ss w (r, w) (fun _ => r) :=
  .inl ⟨[], w, Nat.zero_le _, .nil w, .inr h, fun _ _ => ⟨fun _ => rfl, fun h' => by
    rw [h] at h'; exact absurd h' (by decide)⟩⟩

theorem Checked.before {α β : Type} {ss : List (LiveSession ω)} {w : ω}
    {k : α → ω → Res TssError β × ω} {k' : List Session → α → Res TssError β}
    (h : ∀ x, Checked ss w (k x w) (fun ss' => k' ss' x)) (r : Res TssError α) :
    Checked ss w (lbind (r, w) k) (fun ss' => r.bind (k' ss')) := by
  rcases r with x | e | _
  · exact h x
  · exact .const ss w (.err e) rfl
  · exact .const ss w .panic rfl

theorem bind_isOk {ε α β : Type} {r : Res ε α} {k : α → Res ε β} (h : (r.bind k).isOk = true) :
    r.isOk = true := by
  rcases r with x | e | _
  · rfl
  · exact h
  · exact h

theorem Checked.after {α β : Type} {ss : List (LiveSession ω)} {w : ω} {r : Res TssError α × ω}
    {f : List Session → Res TssError α} (h : Checked ss w r f) (k : α → Res TssError β) :
    Checked ss w (lbind r fun x w => (k x, w)) (fun ss' => (f ss').bind k) := by
  rcases h with ⟨xs, w1, a1, a2, a3, a4⟩ | ⟨xs, w1, s, x, w2, a1, a2, a3, a4⟩
  · refine .inl ⟨xs, w1, a1, a2, ?_, ?_⟩
    · rcases a3 with a3 | a3
      · exact .inl a3
      · right
        rcases r with ⟨x | e | _, w'⟩
        · simp [Res.isOk] at a3
        · rfl
        · rfl
    · intro ss' hl
      refine ⟨fun hv => ?_, fun h => (a4 ss' hl).2 (bind_isOk h)⟩
      rw [(a4 ss' hl).1 hv]
      dsimp only
      rcases f ss' with x | e | _ <;> rfl
  · refine .inr ⟨xs, w1, s, x, w2, a1, a2, ?_, fun ss' hl h => a4 ss' hl (bind_isOk h)⟩
    rcases a3 with ⟨b1, b2⟩ | ⟨e, b1, b2, b3⟩
    · exact .inl ⟨b1, by rw [b2]; rfl⟩
    · exact .inr ⟨e, b1, by rw [b2]; rfl, fun ss' hl hv hr => by
        dsimp only; rw [b3 ss' hl hv hr]; rfl⟩

theorem Checked.congr {α : Type} {ss : List (LiveSession ω)} {w : ω} {r : Res TssError α × ω}
    {f f' : List Session → Res TssError α}
    (h : Checked ss w r f) (hf : ∀ ss', ss'.length = ss.length → f ss' = f' ss') :
    Checked ss w r f' := by
  rcases h with ⟨xs, w1, a1, a2, a3, a4⟩ | ⟨xs, w1, s, x, w2, a1, a2, a3, a4⟩
  · exact .inl ⟨xs, w1, a1, a2, a3, fun ss' hl => by rw [← hf ss' hl]; exact a4 ss' hl⟩
  · refine .inr ⟨xs, w1, s, x, w2, a1, a2, ?_, fun ss' hl => by rw [← hf ss' hl]; exact a4 ss' hl⟩
    rcases a3 with a3 | ⟨e, b1, b2, b3⟩
    · exact .inl a3
    · exact .inr ⟨e, b1, b2, fun ss' hl hv hr => by rw [← hf ss' hl]; exact b3 ss' hl hv hr⟩

/-- Reading a response with sessions that change. -/
theorem readResponseL_checked (c : Command) (a : LiveArea ω) (buf : Bytes) (w : ω) :
    Checked a.active w (readResponseL c a buf w) (fun ss' => readResponse c (areaOf ss') buf) := by
  have hact := a.active_length
  have hbody : ∀ tag b, Checked a.active w (readBodyL c a tag b w)
      (fun ss' => readBody c (areaOf ss') tag b) := by
    intro tag b
    refine Checked.before (k' := fun ss' (h : Val × Bytes) =>
      (if tag = St.Sessions then (tum u32 h.2).map (·.2) else .ok h.2).bind fun b =>
      (tum c.respTy b).bind fun p =>
      (readResponseSessions (areaOf ss') p.2).bind fun b =>
      if b.isEmpty then .ok (p.1, h.1) else .err tcsTpmUnexpected) (fun h => ?_) _
    refine Checked.before (k' := fun ss' (b : Bytes) =>
      (tum c.respTy b).bind fun p =>
      (readResponseSessions (areaOf ss') p.2).bind fun b =>
      if b.isEmpty then .ok (p.1, h.1) else .err tcsTpmUnexpected) (fun b => ?_) _
    refine Checked.before (k' := fun ss' (p : Val × Bytes) =>
      (readResponseSessions (areaOf ss') p.2).bind fun b =>
      if b.isEmpty then .ok (p.1, h.1) else .err tcsTpmUnexpected) (fun p => ?_) _
    have := (checkL_checked a.active p.2 w).after
      (fun b => if b.isEmpty then .ok (p.1, h.1) else .err tcsTpmUnexpected)
    rw [← readResponseSessionsL_eq] at this
    refine this.congr fun ss' hl => ?_
    rw [readResponseSessions_eq, areaOf_active ss' (by omega)]
  refine Checked.before (k' := fun ss' (x : Nat × Nat × Nat) =>
    if x.2.1 > buf.length then .err tcsOutOfMemory
    else if x.2.2 ≤ x.2.1 ∧ x.2.1 ≤ buf.length then
      readBody c (areaOf ss') x.1 ((buf.take x.2.1).drop x.2.2)
    else .panic) (fun x => ?_) _
  by_cases h1 : x.2.1 > buf.length
  · simp only [if_pos h1]; exact .const _ _ _ rfl
  · by_cases h2 : x.2.2 ≤ x.2.1 ∧ x.2.1 ≤ buf.length
    · simp only [if_neg h1, if_pos h2]; exact hbody _ _
    · simp only [if_neg h1, if_neg h2]; exact .const _ _ _ rfl

/-! ### Runs -/

theorem Answers.length {ss : List (LiveSession ω)} {w w1 : ω} {vs : List Val}
    (h : Answers ss w vs w1) : vs.length = ss.length := by
  induction h with
  | nil => rfl
  | cons _ _ ih => simp [ih]

theorem Accepts.length {ss : List (LiveSession ω)} {w w1 : ω} {xs : List Val}
    (h : Accepts ss xs w w1) : xs.length = ss.length := by
  induction h with
  | nil => rfl
  | cons _ _ ih => simp [ih]

/-- Sessions asked in the same state answer the same, as far as they are asked. -/
theorem Answers.prefix {ss : List (LiveSession ω)} {w w1 : ω} {vs : List Val}
    (h : Answers ss w vs w1) : ∀ {vs' : List Val} {w' : ω},
    Answers (ss.take vs'.length) w vs' w' → vs' = vs.take vs'.length ∧
      (vs'.length = ss.length → w' = w1) ∧
      ∀ s, ss[vs'.length]? = some s → ∃ v w2, s.authCommand w' = (some v, w2) := by
  induction h with
  | nil w =>
    intro vs' w' h'
    rw [List.take_nil] at h'
    cases h'
    exact ⟨rfl, fun _ => rfl, by simp⟩
  | @cons s ss w w1 w2 v vs h t ih =>
    intro vs' w' h'
    rcases vs' with _ | ⟨v', vs'⟩
    · cases h'
      refine ⟨rfl, by simp, fun s' hs' => ?_⟩
      cases hs'
      exact ⟨v, w1, h⟩
    · rw [List.length_cons, List.take_succ_cons] at h'
      cases h' with
      | cons h2 t2 =>
        rw [h] at h2
        cases h2
        obtain ⟨e1, e2, e3⟩ := ih t2
        refine ⟨?_, fun hl => e2 (by simpa using hl), fun s' hs' => e3 s' (by simpa using hs')⟩
        rw [List.length_cons, List.take_succ_cons, ← e1]

/-- Sessions given the same responses in the same state decide the same. -/
theorem Accepts.prefix {ss : List (LiveSession ω)} {w w1 : ω} {xs : List Val}
    (h : Accepts ss xs w w1) : ∀ {xs' : List Val} {w' : ω},
    Accepts (ss.take xs'.length) xs' w w' → xs' = xs.take xs'.length →
      (xs'.length = ss.length → w' = w1) ∧
      ∀ s x, ss[xs'.length]? = some s → xs[xs'.length]? = some x →
        ∃ w2, s.validate x w' = (.ok (), w2) := by
  induction h with
  | nil w =>
    intro xs' w' h' _
    rw [List.take_nil] at h'
    cases h'
    exact ⟨fun _ => rfl, by simp⟩
  | @cons s ss w w1 w2 x xs h t ih =>
    intro xs' w' h' hp
    rcases xs' with _ | ⟨x', xs'⟩
    · cases h'
      refine ⟨by simp, fun s' y hs' hy => ?_⟩
      cases hs'
      cases hy
      exact ⟨w1, h⟩
    · rw [List.length_cons, List.take_succ_cons] at h' hp
      obtain ⟨rfl, hp2⟩ := List.cons.inj hp
      cases h' with
      | cons h2 t2 =>
        rw [h] at h2
        cases h2
        obtain ⟨e2, e3⟩ := ih t2 hp2
        exact ⟨fun hl => e2 (by simpa using hl), fun s' y hs' hy => e3 s' y (by simpa using hs')
          (by simpa using hy)⟩

theorem map_fixed (vs : List Val) : (vs.map fixed).map (·.authCommand) = vs := by
  induction vs with
  | nil => rfl
  | cons v vs ih => rw [List.map_cons, List.map_cons, ih]; rfl

theorem accepted_fixed : ∀ (vs xs : List Val), vs.length = xs.length → Accepted (vs.map fixed) xs
  | [], [], _ => trivial
  | v :: vs, x :: xs, h => ⟨rfl, accepted_fixed vs xs (by simpa using h)⟩

/-- The part of building that succeeds. -/
theorem buildL_ok {c : Command} {a : LiveArea ω} {w w1 : ω} {n : Nat} {buf : Bytes}
    (hcode : c.code < 2 ^ 32)
    (hh : HasTy c.handlesTy c.handles) (hp : HasTy c.paramTy c.param)
    (ha : ∀ s ∈ a.active, ∀ w v w', s.authCommand w = (some v, w') → HasTy TpmsAuthCommand v)
    (h : buildCommandL c a w = ((.ok n, buf), w1)) :
    ∃ vs, Answers a.active w vs w1 ∧ CmdWF c (areaOf (vs.map fixed)) ∧
      (commandBytes c (vs.map fixed)).length ≤ 4096 ∧
      sliceTo buf n = some (commandBytes c (vs.map fixed)) := by
  have hact := a.active_length
  rcases buildCommandL_built c a w with ⟨vs, w', a1, a2, a3, a4⟩ | ⟨vs, w', s, w2, out, a1, a2, a3, a4⟩
  · rw [h] at a3
    have hl : vs.length = a.active.length := by
      rcases a3 with a3 | a3
      · exact a3
      · simp [Res.isOk] at a3
    rw [List.take_of_length_le (by omega)] at a2
    have e := a4 (vs.map fixed) (by simpa using hl) (by
      rw [List.take_of_length_le (by simp), map_fixed])
    rw [h] at e
    have e1 : buildCommand c (areaOf (vs.map fixed)) = (.ok n, buf) := by
      have := congrArg Prod.fst e
      dsimp only at this
      exact this.symm
    have e2 : w' = w1 := by
      have := congrArg Prod.snd e
      dsimp only at this
      exact this.symm
    subst e2
    have hactive : (areaOf (vs.map fixed)).active = vs.map fixed :=
      areaOf_active _ (by simp; omega)
    have hty : ∀ (ss : List (LiveSession ω)) (w w1 : ω) (vs : List Val), Answers ss w vs w1 →
        (∀ s ∈ ss, ∀ w v w', s.authCommand w = (some v, w') → HasTy TpmsAuthCommand v) →
        ∀ v ∈ vs, HasTy TpmsAuthCommand v := by
      intro ss w w1 vs h
      induction h with
      | nil => intro _ v hv; simp at hv
      | cons h _ ih =>
        intro hs v hv
        rcases List.mem_cons.1 hv with rfl | hv
        · exact hs _ (List.mem_cons_self ..) _ _ _ h
        · exact ih (fun s hs' => hs s (List.mem_cons_of_mem _ hs')) v hv
    have hwf := buildCommand_ok_wf c (areaOf (vs.map fixed)) hcode hh hp (by
      rw [hactive]
      intro s hs
      obtain ⟨v, hv, rfl⟩ := List.mem_map.1 hs
      exact hty _ _ _ _ a2 ha v hv) e1
    have hfit : (commandBytes c (areaOf (vs.map fixed)).active).length ≤ 4096 := by
      by_cases hf : (commandBytes c (areaOf (vs.map fixed)).active).length ≤ 4096
      · exact hf
      · have := buildCommand_short c _ hwf (by omega)
        rw [e1] at this
        simp [TShort] at this
    obtain ⟨rest, hb⟩ := buildCommand_fit c _ hwf hfit
    rw [e1] at hb
    rw [hactive] at hfit hb
    refine ⟨vs, a2, hwf, hfit, ?_⟩
    cases hb
    simp only [sliceTo, List.length_append, Nat.le_add_right, if_true, List.take_left']
  · rw [h] at a4
    simp at a4

/-- A command that fits is built from the answers. -/
theorem buildL_fit {c : Command} {a : LiveArea ω} {w w1 : ω} {vs : List Val}
    (ha : Answers a.active w vs w1) (hwf : CmdWF c (areaOf (vs.map fixed)))
    (hfit : (commandBytes c (vs.map fixed)).length ≤ 4096) :
    ∃ rest, buildCommandL c a w = ((.ok (commandBytes c (vs.map fixed)).length,
      commandBytes c (vs.map fixed) ++ rest), w1) := by
  have hact := a.active_length
  have hlen := ha.length
  have hactive : (areaOf (vs.map fixed)).active = vs.map fixed := areaOf_active _ (by simp; omega)
  obtain ⟨rest, hb⟩ := buildCommand_fit c _ hwf (by rw [hactive]; exact hfit)
  rw [hactive] at hb
  refine ⟨rest, ?_⟩
  rcases buildCommandL_built c a w with ⟨vs', w', a1, a2, a3, a4⟩ |
    ⟨vs', w', s, w2, out, a1, a2, a3, a4⟩
  · obtain ⟨e1, e2, -⟩ := ha.prefix a2
    have e := a4 (vs.map fixed) (by simpa using hlen) (by
      rw [← List.map_take, map_fixed, ← e1])
    dsimp only at e
    rw [hb] at e
    rcases a3 with a3 | a3
    · rw [e, e2 a3]
    · rw [e] at a3
      simp [Res.isOk] at a3
  · obtain ⟨-, -, e3⟩ := ha.prefix a1
    obtain ⟨v, w3, e⟩ := e3 s a2
    rw [a3] at e
    simp at e

open Classical in
/-- A session that accepts exactly one response. -/
noncomputable def only (x : Val) : Session := ⟨.unit, fun y => if y = x then none else some ⟨1⟩⟩

theorem accepted_only : ∀ (xs ys : List Val), Accepted (xs.map only) ys ↔ ys = xs
  | [], [] => by simp [Accepted]
  | [], y :: ys => by simp [Accepted]
  | x :: xs, [] => by simp [Accepted]
  | x :: xs, y :: ys => by
    simp only [List.map_cons, Accepted, accepted_only xs ys, only, List.cons.injEq]
    by_cases h : y = x <;> simp [h]

/-- Success of reading: the specified response, accepted by the sessions. -/
theorem readL_ok_iff (c : Command) (a : LiveArea ω) (buf : Bytes) (hl : buf.length = 4096)
    (w w' : ω) (p h : Val) :
    readResponseL c a buf w = (.ok (p, h), w') ↔
      ∃ r rest, r.WellFormed c ∧ buf = responseBytes c r ++ rest ∧
        r.params = p ∧ r.handles = h ∧ canon c.respTy p = p ∧ canon c.respHandlesTy h = h ∧
        (∀ v ∈ r.auths, canon TpmsAuthResponse v = v) ∧ Accepts a.active r.auths w w' := by
  have hact := a.active_length
  constructor
  · intro hr
    rcases readResponseL_checked c a buf w with ⟨xs, w1, a1, a2, a3, a4⟩ |
      ⟨xs, w1, s, x, w2, a1, a2, a3, a4⟩
    · rw [hr] at a3
      have hlen : xs.length = a.active.length := by
        rcases a3 with a3 | a3
        · exact a3
        · simp [Res.isOk] at a3
      rw [List.take_of_length_le (by omega)] at a2
      have hactive : (areaOf (xs.map only)).active = xs.map only :=
        areaOf_active _ (by simp; omega)
      have e := (a4 (xs.map only) (by simpa using hlen)).1 (by
        rw [List.take_of_length_le (by simp), accepted_only])
      rw [hr] at e
      have e1 := (congrArg Prod.fst e).symm
      have e2 := congrArg Prod.snd e
      dsimp only at e1 e2
      subst e2
      obtain ⟨r, rest, b1, b2, b3, b4, b5, b6, b7, b8⟩ := (readResponse_ok_iff c _ buf hl p h).1 e1
      rw [hactive, accepted_only] at b8
      exact ⟨r, rest, b1, b2, b3, b4, b5, b6, b7, by rw [b8]; exact a2⟩
    · rcases a3 with ⟨-, b⟩ | ⟨e, -, b, -⟩ <;> rw [hr] at b <;> simp at b
  · rintro ⟨r, rest, b1, b2, b3, b4, b5, b6, b7, b8⟩
    have hlen := b8.length
    have hactive : (areaOf (r.auths.map only)).active = r.auths.map only :=
      areaOf_active _ (by simp; omega)
    have hp := (readResponse_ok_iff c (areaOf (r.auths.map only)) buf hl p h).2
      ⟨r, rest, b1, b2, b3, b4, b5, b6, b7, by rw [hactive, accepted_only]⟩
    rcases readResponseL_checked c a buf w with ⟨xs, w1, a1, a2, a3, a4⟩ |
      ⟨xs, w1, s, x, w2, a1, a2, a3, a4⟩
    · have e := a4 (r.auths.map only) (by simpa using hlen)
      dsimp only at e
      rw [hp] at e
      have hacc := e.2 rfl
      have e1 := e.1 hacc
      rw [← List.map_take, accepted_only] at hacc
      obtain ⟨c1, -⟩ := b8.prefix a2 hacc
      rcases a3 with a3 | a3
      · rw [e1, c1 a3]
      · rw [e1] at a3
        simp [Res.isOk] at a3
    · have e := a4 (r.auths.map only) (by simpa using hlen) (by dsimp only; rw [hp]; rfl)
      have hacc := e.1
      rw [← List.map_take, accepted_only] at hacc
      obtain ⟨-, c2⟩ := b8.prefix a1 hacc
      have hlt : xs.length < r.auths.length := by
        rw [hlen]
        exact (List.getElem?_eq_some_iff.1 a2).1
      have e2 := e.2 (only r.auths[xs.length]) (by
        rw [List.getElem?_map, List.getElem?_eq_getElem hlt]; rfl)
      have hx : x = r.auths[xs.length] := by
        simp only [only] at e2
        by_cases hx : x = r.auths[xs.length]
        · exact hx
        · rw [if_neg hx] at e2; cases e2
      obtain ⟨w3, hv⟩ := c2 s x a2 (by rw [List.getElem?_eq_getElem hlt, hx])
      rcases a3 with ⟨b, -⟩ | ⟨e, b, -⟩ <;> rw [hv] at b <;> simp at b

/-! ### Watching -/

/-- The sessions of a watched area. -/
def watchedList : Nat → List (LiveSession ω) → List (LiveSession (ω × List (LEv ε)))
  | _, [] => []
  | i, s :: ss => s.watched i :: watchedList (i + 1) ss

theorem watched_active (a : LiveArea ω) :
    (a.watched : LiveArea (ω × List (LEv ε))).active = watchedList 0 a.active := by
  rcases a with ⟨_ | s, _ | t, _ | u⟩ <;> rfl

theorem watchedList_length : ∀ (i : Nat) (ss : List (LiveSession ω)),
    (watchedList i ss : List (LiveSession (ω × List (LEv ε)))).length = ss.length
  | _, [] => rfl
  | i, s :: ss => by simp [watchedList, watchedList_length (i + 1) ss]

theorem watchedList_take : ∀ (i : Nat) (ss : List (LiveSession ω)) (k : Nat),
    (watchedList i ss : List (LiveSession (ω × List (LEv ε)))).take k = watchedList i (ss.take k)
  | _, [], _ => by simp [watchedList]
  | i, s :: ss, 0 => rfl
  | i, s :: ss, k + 1 => by
    simp [watchedList, watchedList_take (i + 1) ss k]

theorem watchedList_get : ∀ (i : Nat) (ss : List (LiveSession ω)) (k : Nat)
    (s : LiveSession (ω × List (LEv ε))), (watchedList i ss)[k]? = some s →
    ∃ t, ss[k]? = some t ∧ s = t.watched (i + k)
  | _, [], _, s, h => by simp [watchedList] at h
  | i, t :: ss, 0, s, h => by
    simp only [watchedList, List.getElem?_cons_zero, Option.some.injEq] at h
    exact ⟨t, rfl, h.symm⟩
  | i, t :: ss, k + 1, s, h => by
    simp only [watchedList, List.getElem?_cons_succ] at h
    obtain ⟨t', h1, h2⟩ := watchedList_get (i + 1) ss k s h
    exact ⟨t', h1, by rw [h2]; congr 1; omega⟩

theorem answers_log : ∀ (i : Nat) (ss : List (LiveSession ω)) (w w1 : ω × List (LEv ε))
    (vs : List Val), Answers (watchedList i ss) w vs w1 →
    Answers ss w.1 vs w1.1 ∧ w1.2 = w.2 ++ askedAll i vs
  | _, [], w, w1, vs, h => by
    cases h
    exact ⟨.nil _, by simp [askedAll]⟩
  | i, s :: ss, w, w1, vs, h => by
    cases h with
    | cons h t =>
      simp only [LiveSession.watched, Prod.mk.injEq] at h
      obtain ⟨h1, h2⟩ := h
      obtain ⟨a1, a2⟩ := answers_log (i + 1) ss _ _ _ t
      rw [← h2] at a1 a2
      refine ⟨.cons (w1 := (s.authCommand w.1).2) (by rw [← h1]) a1, ?_⟩
      rw [a2, h1]
      simp [askedAll]

theorem accepts_log : ∀ (i : Nat) (ss : List (LiveSession ω)) (w w1 : ω × List (LEv ε))
    (xs : List Val), Accepts (watchedList i ss) xs w w1 →
    Accepts ss xs w.1 w1.1 ∧ w1.2 = w.2 ++ acceptedAll i xs
  | _, [], w, w1, vs, h => by
    cases h
    exact ⟨.nil _, by simp [acceptedAll]⟩
  | i, s :: ss, w, w1, vs, h => by
    cases h with
    | @cons _ _ _ _ _ x xs h t =>
      simp only [LiveSession.watched, Prod.mk.injEq] at h
      obtain ⟨h1, h2⟩ := h
      obtain ⟨a1, a2⟩ := accepts_log (i + 1) ss _ _ _ t
      rw [← h2] at a1 a2
      refine ⟨.cons (w1 := (s.validate x w.1).2) (by rw [← h1]) a1, ?_⟩
      rw [a2, h1]
      simp [acceptedAll]

/-- Two functions with different states that do the same, seen through `f`. -/
def Sees {α ω ω' : Type} (f : ω' → ω) (r' : α × ω') (r : α × ω) : Prop :=
  r'.1 = r.1 ∧ f r'.2 = r.2

theorem Sees.ret {α ω' : Type} (f : ω' → ω) (x : α) (w : ω') : Sees f (x, w) (x, f w) := ⟨rfl, rfl⟩

theorem Sees.lthen {ω' : Type} {f : ω' → ω} {r' : LOut ω'} {r : LOut ω} (h : Sees f r' r)
    {k' : Nat → Bytes → ω' → LOut ω'} {k : Nat → Bytes → ω → LOut ω}
    (hk : ∀ n b w, Sees f (k' n b w) (k n b (f w))) :
    Sees f (Client.lthen r' k') (Client.lthen r k) := by
  rcases r' with ⟨⟨n | e | _, b⟩, w'⟩ <;> rcases r with ⟨r, w⟩ <;> obtain ⟨h1, h2⟩ := h <;>
    dsimp only at h1 h2 <;> subst h1 <;> subst h2
  · exact hk _ _ _
  · exact ⟨rfl, rfl⟩
  · exact ⟨rfl, rfl⟩

theorem Sees.lbind {ω' α β : Type} {f : ω' → ω} {r' : Res TssError α × ω'}
    {r : Res TssError α × ω} (h : Sees f r' r)
    {k' : α → ω' → Res TssError β × ω'} {k : α → ω → Res TssError β × ω}
    (hk : ∀ x w, Sees f (k' x w) (k x (f w))) :
    Sees f (Client.lbind r' k') (Client.lbind r k) := by
  rcases r' with ⟨n | e | _, w'⟩ <;> rcases r with ⟨r, w⟩ <;> obtain ⟨h1, h2⟩ := h <;>
    dsimp only at h1 h2 <;> subst h1 <;> subst h2
  · exact hk _ _
  · exact ⟨rfl, rfl⟩
  · exact ⟨rfl, rfl⟩

theorem Sees.lstep {ω' : Type} {f : ω' → ω} {g' : Bytes → ω' → LOut ω'} {g : Bytes → ω → LOut ω}
    (h : ∀ b w, Sees f (g' b w) (g b (f w))) (n : Nat) (b : Bytes) (w : ω') :
    Sees f (Client.lstep g' n b w) (Client.lstep g n b (f w)) := by
  unfold Client.lstep
  by_cases hn : n ≤ b.length
  · simp only [if_pos hn]
    have := h (b.drop n) w
    revert this
    rcases g' (b.drop n) w with ⟨⟨m | e | _, b'⟩, w'⟩ <;> rcases g (b.drop n) (f w) with ⟨r, w2⟩ <;>
      rintro ⟨h1, h2⟩ <;> dsimp only at h1 h2 <;> subst h1 <;> subst h2 <;> exact ⟨rfl, rfl⟩
  · simp only [if_neg hn]
    exact ⟨rfl, rfl⟩

/-- Sessions with different states that do the same. -/
structure SeesSession {ω' : Type} (f : ω' → ω) (s' : LiveSession ω') (s : LiveSession ω) : Prop where
  ask : ∀ w, Sees f (s'.authCommand w) (s.authCommand (f w))
  check : ∀ x w, Sees f (s'.validate x w) (s.validate x (f w))

/-- Areas of such sessions. -/
inductive SeesAll {ω' : Type} (f : ω' → ω) : List (LiveSession ω') → List (LiveSession ω) → Prop
  | nil : SeesAll f [] []
  | cons {s' : LiveSession ω'} {s : LiveSession ω} {ss' : List (LiveSession ω')}
      {ss : List (LiveSession ω)} (h : SeesSession f s' s) (t : SeesAll f ss' ss) :
      SeesAll f (s' :: ss') (s :: ss)

theorem sees_chain {ω' : Type} {f : ω' → ω} {ss' : List (LiveSession ω')}
    {ss : List (LiveSession ω)} (h : SeesAll f ss' ss) (k : Nat → Bytes → TOut) :
    ∀ n b w, Sees f (chainL ss' k n b w) (chainL ss k n b (f w)) := by
  induction h with
  | nil => exact fun _ _ _ => ⟨rfl, rfl⟩
  | @cons s' s ss' ss h t ih =>
    intro n b w
    refine Sees.lthen ?_ ih
    have := h.ask w
    revert this
    unfold writeAuthL
    rcases s'.authCommand w with ⟨_ | v, w'⟩ <;> rcases s.authCommand (f w) with ⟨r, w2⟩ <;>
      rintro ⟨h1, h2⟩ <;> dsimp only at h1 h2 <;> subst h1 <;> subst h2 <;> exact ⟨rfl, rfl⟩

theorem sees_check {ω' : Type} {f : ω' → ω} {ss' : List (LiveSession ω')}
    {ss : List (LiveSession ω)} (h : SeesAll f ss' ss) :
    ∀ b w, Sees f (checkL ss' b w) (checkL ss b (f w)) := by
  induction h with
  | nil => exact fun _ _ => ⟨rfl, rfl⟩
  | @cons s' s ss' ss h t ih =>
    intro b w
    refine Sees.lbind ?_ ih
    refine Sees.lbind (Sees.ret f _ _) fun x w => ?_
    exact Sees.lbind (h.check x.1 w) fun _ w => ⟨rfl, rfl⟩

theorem seesAll_isEmpty {ω' : Type} {f : ω' → ω} {ss' : List (LiveSession ω')}
    {ss : List (LiveSession ω)} (h : SeesAll f ss' ss) : ss'.isEmpty = ss.isEmpty := by
  cases h <;> rfl

theorem sees_run {ω' : Type} {f : ω' → ω} {tr' : LiveTransport ω' ε} {tr : LiveTransport ω ε}
    (c : Command) {a' : LiveArea ω'} {a : LiveArea ω} (ha : SeesAll f a'.active a.active)
    (ht : ∀ w cmd rsp, (tr'.transact w cmd rsp).1 = (tr.transact (f w) cmd rsp).1 ∧
      (tr'.transact w cmd rsp).2.1 = (tr.transact (f w) cmd rsp).2.1 ∧
      f (tr'.transact w cmd rsp).2.2 = (tr.transact (f w) cmd rsp).2.2) (w : ω') :
    (runLive tr' c a' w).result = (runLive tr c a (f w)).result ∧
    f (runLive tr' c a' w).state = (runLive tr c a (f w)).state := by
  have he : a'.isEmpty = a.isEmpty := by
    rw [LiveArea.isEmpty_active, LiveArea.isEmpty_active, seesAll_isEmpty ha]
  have hb : Sees f (buildCommandL c a' w) (buildCommandL c a (f w)) := by
    unfold buildCommandL
    rw [he]
    refine Sees.lthen (Sees.ret f _ _) fun n b w => ?_
    refine Sees.lthen (Sees.ret f _ _) fun n b w => ?_
    refine Sees.lthen ?_ fun n b w => ?_
    · refine Sees.lstep (fun b w => ?_) n b w
      rw [writeCommandSessionsL_eq, writeCommandSessionsL_eq, seesAll_isEmpty ha]
      split
      · exact ⟨rfl, rfl⟩
      · exact sees_chain ha _ _ _ _
    · refine Sees.lthen (Sees.ret f _ _) fun n b w => ?_
      exact Sees.lthen (Sees.ret f _ _) fun n b w => ⟨rfl, rfl⟩
  have hr : ∀ buf w, Sees f (readResponseL c a' buf w) (readResponseL c a buf (f w)) := by
    intro buf w
    refine Sees.lbind (Sees.ret f _ _) fun x w => ?_
    split
    · exact ⟨rfl, rfl⟩
    · split
      · refine Sees.lbind (Sees.ret f _ _) fun h w => ?_
        refine Sees.lbind (Sees.ret f _ _) fun b w => ?_
        refine Sees.lbind (Sees.ret f _ _) fun p w => ?_
        refine Sees.lbind ?_ fun b w => ⟨rfl, rfl⟩
        rw [readResponseSessionsL_eq, readResponseSessionsL_eq]
        exact sees_check ha _ _
      · exact ⟨rfl, rfl⟩
  unfold runLive
  revert hb
  rcases buildCommandL c a' w with ⟨⟨n | e | _, buf⟩, w1⟩ <;>
    rcases buildCommandL c a (f w) with ⟨r, w2⟩ <;>
    rintro ⟨h1, h2⟩ <;> dsimp only at h1 h2 <;> subst h1 <;> subst h2
  · dsimp only
    rcases sliceTo buf n with _ | cmd
    · exact ⟨rfl, rfl⟩
    · dsimp only
      have := ht w1 cmd (List.replicate respBufferSize 0)
      revert this
      rcases tr'.transact w1 cmd (List.replicate respBufferSize 0) with ⟨_ | _ | _, rb, w3⟩ <;>
        rcases tr.transact (f w1) cmd (List.replicate respBufferSize 0) with ⟨o, rb', w4⟩ <;>
        rintro ⟨h1, h2, h3⟩ <;> dsimp only at h1 h2 h3 <;> subst h1 <;> subst h2 <;> subst h3
      · exact ⟨rfl, rfl⟩
      · have := hr rb w3
        exact ⟨by dsimp only; rw [this.1], this.2⟩
      · exact ⟨rfl, rfl⟩
  · exact ⟨rfl, rfl⟩
  · exact ⟨rfl, rfl⟩

/-! ### Constant sessions -/

theorem live_active (a : Area) : (a.live : LiveArea ω).active = a.active.map Session.live := by
  rcases a with ⟨_ | s, _ | t, _ | u⟩ <;> rfl

theorem live_answers : ∀ (ss : List Session) (w : ω),
    Answers (ss.map Session.live) w (ss.map (·.authCommand)) w
  | [], w => .nil w
  | _ :: ss, w => .cons rfl (live_answers ss w)

theorem live_accepts : ∀ (ss : List Session) (xs : List Val) (w w1 : ω),
    Accepts (ss.map Session.live) xs w w1 → Accepted ss xs ∧ w1 = w
  | [], xs, w, w1, h => by
    cases h
    exact ⟨trivial, rfl⟩
  | s :: ss, xs, w, w1, h => by
    cases h with
    | @cons _ _ _ _ _ x xs h t =>
      simp only [Session.live, Prod.mk.injEq] at h
      obtain ⟨h1, h2⟩ := h
      obtain ⟨a1, a2⟩ := live_accepts ss _ _ _ t
      refine ⟨⟨?_, a1⟩, by rw [a2, ← h2]⟩
      rcases hv : s.validate x with _ | e
      · rfl
      · rw [hv] at h1; cases h1

/-- Enough of an area: building and reading depend only on its sessions. -/
theorem areaOf_eq (c : Command) (a : Area) :
    buildCommand c (areaOf a.active) = buildCommand c a ∧
    ∀ buf, readResponse c (areaOf a.active) buf = readResponse c a buf := by
  rcases a with ⟨_ | s, _ | t, _ | u⟩ <;> exact ⟨rfl, fun _ => rfl⟩

theorem run_live (tr : Transport ω ε) (c : Command) (a : Area) (w : ω) :
    runLive tr.live c a.live w = runCommandWithHandles tr c a w := by
  have hact : a.active.length ≤ 3 := by
    rcases a with ⟨_ | s, _ | t, _ | u⟩ <;> simp [Area.active]
  have hlen : a.active.length = (a.live : LiveArea ω).active.length := by
    rw [live_active, List.length_map]
  have hans := live_answers a.active w
  rw [← live_active] at hans
  have hb : buildCommandL c a.live w = (buildCommand c a, w) := by
    rw [← (areaOf_eq c a).1]
    rcases buildCommandL_built c a.live w with ⟨vs, w1, a1, a2, a3, a4⟩ |
      ⟨vs, w1, s, w2, out, a1, a2, a3, a4⟩
    · obtain ⟨e1, -, -⟩ := hans.prefix a2
      have e := a4 a.active hlen (by rw [List.map_take, ← e1])
      have h2 := live_answers (ω := ω) (a.active.take vs.length) w
      rw [List.map_take, ← live_active] at h2
      have hl2 := h2.length
      have := h2.prefix (vs' := vs) (w' := w1) (by
        rw [List.take_take, Nat.min_self]; exact a2)
      rw [e, this.2.1 (by rw [List.length_take]; omega)]
    · obtain ⟨-, -, e3⟩ := hans.prefix a1
      obtain ⟨v, w3, e⟩ := e3 s a2
      rw [a3] at e
      simp at e
  have hr : ∀ (buf : Bytes) (w : ω), readResponseL c a.live buf w = (readResponse c a buf, w) := by
    intro buf w
    rw [← (areaOf_eq c a).2]
    rcases readResponseL_checked c a.live buf w with ⟨xs, w1, a1, a2, a3, a4⟩ |
      ⟨xs, w1, s, x, w2, a1, a2, a3, a4⟩
    · rw [live_active, ← List.map_take] at a2
      obtain ⟨b1, rfl⟩ := live_accepts _ _ _ _ a2
      exact (a4 a.active hlen).1 b1
    · rw [live_active, ← List.map_take] at a1
      obtain ⟨b1, rfl⟩ := live_accepts _ _ _ _ a1
      rw [live_active, List.getElem?_map] at a2
      rcases hs : a.active[xs.length]? with _ | s'
      · rw [hs] at a2; cases a2
      · rw [hs] at a2
        cases a2
        simp only [Session.live, Prod.mk.injEq] at a3
        rcases hv : s'.validate x with _ | e
        · rw [hv] at a3
          rcases a3 with ⟨⟨h, -⟩, -⟩ | ⟨e, ⟨h, -⟩, -⟩ <;> cases h
        · rw [hv] at a3
          rcases a3 with ⟨⟨h, -⟩, -⟩ | ⟨e', ⟨h, h'⟩, h2, h3⟩
          · cases h
          · cases h
            rw [h2, h3 a.active hlen b1 (by rw [hs]; intro s'' h; cases h; exact hv), h']
  unfold runLive runCommandWithHandles
  rw [hb]
  rcases buildCommand c a with ⟨n | e | _, buf⟩
  · dsimp only
    rcases sliceTo buf n with _ | cmd
    · rfl
    · dsimp only [Transport.live]
      rcases tr.transact w cmd (List.replicate respBufferSize 0) with ⟨_ | _, rb, w3⟩
      · dsimp only
        rw [hr]
      · rfl
  · rfl
  · rfl

/-! ### Sessions that give certain answers -/

theorem answers_exist : ∀ (ss : List (LiveSession ω)),
    (∀ s ∈ ss, ∀ w, ∃ v w', s.authCommand w = (some v, w')) → ∀ w, ∃ vs w1, Answers ss w vs w1
  | [], _, w => ⟨[], w, .nil w⟩
  | s :: ss, h, w => by
    obtain ⟨v, w', e⟩ := h s (List.mem_cons_self ..) w
    obtain ⟨vs, w1, t⟩ := answers_exist ss (fun s hs => h s (List.mem_cons_of_mem _ hs)) w'
    exact ⟨v :: vs, w1, .cons e t⟩

theorem answers_no_session {ss : List (LiveSession ω)} {w w1 : ω} {vs : List Val}
    (h : Answers ss w vs w1) : noSession ∉ ss := by
  induction h with
  | nil => simp
  | cons h _ ih =>
    intro hm
    rcases List.mem_cons.1 hm with rfl | hm
    · simp [noSession] at h
    · exact ih hm

/-- Sessions with these authorizations, the first `k` of which accept and the
others reject with `e`. -/
def rejecting (e : TssError) : Nat → List Val → List Session
  | _, [] => []
  | 0, v :: vs => ⟨v, fun _ => some e⟩ :: rejecting e 0 vs
  | k + 1, v :: vs => ⟨v, fun _ => none⟩ :: rejecting e k vs

theorem rejecting_length (e : TssError) : ∀ (k : Nat) (vs : List Val),
    (rejecting e k vs).length = vs.length
  | _, [] => rfl
  | 0, v :: vs => by simp [rejecting, rejecting_length e 0 vs]
  | k + 1, v :: vs => by simp [rejecting, rejecting_length e k vs]

theorem rejecting_auth (e : TssError) : ∀ (k : Nat) (vs : List Val),
    (rejecting e k vs).map (·.authCommand) = vs
  | _, [] => rfl
  | 0, v :: vs => by simp [rejecting, rejecting_auth e 0 vs]
  | k + 1, v :: vs => by simp [rejecting, rejecting_auth e k vs]

theorem rejecting_accepted (e : TssError) : ∀ (vs xs : List Val), xs.length ≤ vs.length →
    Accepted ((rejecting e xs.length vs).take xs.length) xs
  | _, [], _ => trivial
  | v :: vs, x :: xs, h => ⟨rfl, rejecting_accepted e vs xs (by simpa using h)⟩

theorem rejecting_at (e : TssError) : ∀ (vs : List Val) (k : Nat) (s : Session),
    (rejecting e k vs)[k]? = some s → ∀ x, s.validate x = some e
  | [], _, s, h, x => by simp [rejecting] at h
  | v :: vs, 0, s, h, x => by
    simp only [rejecting, List.getElem?_cons_zero, Option.some.injEq] at h
    rw [← h]
  | v :: vs, k + 1, s, h, x => by
    simp only [rejecting, List.getElem?_cons_succ] at h
    exact rejecting_at e vs k s h x

end Verif.Client
