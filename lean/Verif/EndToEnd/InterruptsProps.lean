import Verif.EndToEnd.Interrupts
import Verif.EndToEnd.DialogProps

/-
Property theorems C109: interrupted system calls.
-/

namespace Verif.EndToEnd
open Verif Verif.Errors Verif.Client Verif.Server Verif.Tcp

variable {σ τ α β : Type} {os : Os σ} {m : σ → Nat} (hm : Patient os m)

/-! ### Lemmas -/

theorem returns_agree {x y : M σ α} (h : Agree x y) (f : α → Out) (c : Conn σ)
    (hn : (returns f (x c)).1 ≠ .error interrupted) : returns f (x c) = returns f (y c) := by
  have h1 := h c
  unfold returns at hn ⊢
  rcases hx : x c with ⟨e | a, c'⟩
  · rw [hx] at hn h1
    rw [← h1 (by simpa using hn)]
  · rw [hx] at hn h1
    rw [← h1 (by simp)]

theorem returns_interrupted {f : α → Out} {r : Except IoErr α × Conn σ} {c' : Conn σ}
    (h : returns f r = (.error interrupted, c')) : r = (.error interrupted, c') := by
  unfold returns at h
  rcases r with ⟨e | a, c1⟩
  · simpa using h
  · simp at h

theorem returns_never {x : M σ α} (h : Never x) (f : α → Out) (c : Conn σ) :
    (returns f (x c)).1 ≠ .error interrupted := by
  have := h c
  unfold returns
  rcases hx : x c with ⟨e | a, c'⟩ <;> rw [hx] at this
  · simpa using this
  · simp

theorem once {p : Port} {b : Bytes} {f : Unit → M σ α} (hf : ∀ a, Never (f a)) {c c' : Conn σ}
    (h : (writeVectored os p b >>= f) c = (.error interrupted, c')) :
    ((os.write c.net p b).1 = .error interrupted ∧ c' = { c with net := (os.write c.net p b).2 }) ∧
    (writeVectored (calm os hm) p b >>= f) c = (writeVectored (calm os hm) p b >>= f) c' := by
  have h1 := bind_interrupted hf h
  have h2 := writeVectored_interrupted h1
  refine ⟨Raw.write_error h2, ?_⟩
  show M.bind _ _ c = M.bind _ _ c'
  unfold M.bind
  rw [writeVectored_again hm h1]

theorem remoteHandshake_raw (v : Nat) : Raw.remoteHandshake os hm v =
    (writeVectored os .tpm (toBE 4 TpmCode.remoteHandshake.val ++ toBE 4 v) >>= fun _ => do
      let resp ← readLocal (calm os hm) .tpm 8
      checkResponseEnd (calm os hm) .tpm
      M.pure (fromBE (resp.take 4), fromBE (resp.drop 4))) := by
  unfold Raw.remoteHandshake
  rw [readLocal_calm, checkResponseEnd_calm]

theorem setAlternativeResult_raw (r : Nat) : Raw.setAlternativeResult os hm r =
    (writeVectored os .tpm (toBE 4 TpmCode.setAlternativeResult.val ++ toBE 4 r) >>= fun _ =>
      checkResponseEnd (calm os hm) .tpm) := by
  unfold Raw.setAlternativeResult
  rw [checkResponseEnd_calm]

theorem actGetSignaled_raw (v : Nat) : Raw.actGetSignaled os hm v =
    (writeVectored os .plat (toBE 4 PlatCode.actGetSignaled.val ++ toBE 4 v) >>= fun _ => do
      let resp ← readLocal (calm os hm) .plat 4
      checkResponseEnd (calm os hm) .plat
      M.pure (fromBE resp)) := by
  unfold Raw.actGetSignaled
  rw [readLocal_calm, checkResponseEnd_calm]

theorem setFirmwareHash_raw (r : Nat) : Raw.setFirmwareHash os hm r =
    (writeVectored os .plat (toBE 4 PlatCode.setFirmwareHash.val ++ toBE 4 r) >>= fun _ =>
      checkResponseEnd (calm os hm) .plat) := by
  unfold Raw.setFirmwareHash
  rw [checkResponseEnd_calm]

theorem setFirmwareSvn_raw (r : Nat) : Raw.setFirmwareSvn os hm r =
    (writeVectored os .plat (toBE 4 PlatCode.setFirmwareSvn.val ++ toBE 4 r) >>= fun _ =>
      checkResponseEnd (calm os hm) .plat) := by
  unfold Raw.setFirmwareSvn
  rw [checkResponseEnd_calm]

theorem hcrtmSequence_agree (b : Bytes) :
    Agree (Raw.hcrtmSequence os hm b) (hcrtmSequence (calm os hm) b) := by
  unfold Raw.hcrtmSequence hcrtmSequence
  simp only [writeAll_calm', checkResponseEnd_calm]
  exact (Agree.refl _).bind fun _ => (Agree.refl _).bind fun _ =>
    (agree_writeVectored hm _ _).bind fun _ => .refl _

theorem platformSignal_raw (s : Signal) :
    Raw.platformSignal os hm s = platformSignal (calm os hm) s := by
  unfold Raw.platformSignal platformSignal
  rw [writeAll_calm', checkResponseEnd_calm]

theorem never_platformSignal (s : Signal) : Never (platformSignal (calm os hm) s) :=
  (never_writeAll hm _ _).bind fun _ => never_check hm _

theorem command_cases (cmd : Command) (a : Area) (c : Conn σ) :
    runCommandWithHandles (rawTransport os hm) cmd a c =
      runCommandWithHandles (tcpTransport (calm os hm)) cmd a c ∨
    ∃ b c', write os .tpm (sendFrame c.locality b) c = (.error interrupted, c') ∧
      runCommandWithHandles (rawTransport os hm) cmd a c = ⟨.err (.conn interrupted), c'⟩ ∧
      runCommandWithHandles (tcpTransport (calm os hm)) cmd a c =
        runCommandWithHandles (tcpTransport (calm os hm)) cmd a c' := by
  unfold runCommandWithHandles
  rcases buildCommand cmd a with ⟨n | e | _, buf⟩
  · cases hs : sliceTo buf n with
    | none => left; simp only [hs]
    | some b =>
      generalize List.replicate respBufferSize (0 : UInt8) = rsp
      rcases transact_cases hm b rsp c with h | ⟨c', hl, hw, h⟩
      · left
        have : (rawTransport os hm).transact c b rsp = (tcpTransport (calm os hm)).transact c b rsp := by
          simp only [rawTransport, tcpTransport, h]
          rfl
        simp only [hs, this]
      · right
        refine ⟨b, c', hw, ?_, ?_⟩
        · simp only [hs, rawTransport, h]
        · have : (tcpTransport (calm os hm)).transact c b rsp =
              (tcpTransport (calm os hm)).transact c' b rsp := by
            simp only [tcpTransport, transact_again hm rsp hl hw]
          simp only [hs, this]
  · left; rfl
  · left; rfl

theorem run_never (cmd : Command) (a : Area) (c : Conn σ) :
    outcome (runCommandWithHandles (tcpTransport (calm os hm)) cmd a c).result ≠
      .error interrupted := by
  unfold runCommandWithHandles
  rcases buildCommand cmd a with ⟨n | e | _, buf⟩
  · cases hs : sliceTo buf n with
    | none => simp [hs, outcome]
    | some b =>
      generalize List.replicate respBufferSize (0 : UInt8) = rsp
      have := never_transact hm b rsp c
      simp only [hs, tcpTransport]
      rcases ht : Tcp.transact (calm os hm) b rsp c with ⟨e | k, b', c'⟩ <;> rw [ht] at this
      · simpa [outcome] using this
      · simp only
        cases readResponse cmd a b' <;> simp [Res.mapErr, outcome]
  · simp [outcome]
  · simp [outcome]

/-! ### C109 -/

/-- **C109.** A call that does not end with an interrupt does exactly what it does without
interrupts: none of the interrupts is seen. -/
theorem C109_same_partial (call : Call) (c : Conn σ)
    (h : (realRaw os hm call c).1 ≠ .error interrupted) :
    realRaw os hm call c = real (calm os hm) call c := by
  have vec : ∀ {α : Type} (p : Port) (b : Bytes) (f : Unit → M σ α),
      Agree (writeVectored os p b >>= f) (writeVectored (calm os hm) p b >>= f) :=
    fun p b f => (agree_writeVectored hm p b).bind fun _ => .refl _
  cases call with
  | transact cmd rsp =>
    rcases transact_cases hm cmd rsp c with hx | ⟨c', -, -, hx⟩
    · simp only [realRaw, real, hx]
      rcases Tcp.transact (calm os hm) cmd rsp c with ⟨e | n, b, c'⟩ <;> rfl
    · simp [realRaw, hx] at h
  | command cmd a =>
    rcases command_cases hm cmd a c with hx | ⟨b, c', -, hx, -⟩
    · simp only [realRaw, real, hx]
    · simp [realRaw, hx, outcome] at h
  | locality l => rfl
  | op o =>
    cases o with
    | hcrtmSequence b => exact returns_agree (hcrtmSequence_agree hm b) _ c h
    | remoteHandshake v =>
      refine returns_agree ?_ _ c h
      rw [remoteHandshake_raw]
      exact vec _ _ _
    | setAlternativeResult r =>
      refine returns_agree ?_ _ c h
      rw [setAlternativeResult_raw]
      exact vec _ _ _
    | actGetSignaled r =>
      refine returns_agree ?_ _ c h
      rw [actGetSignaled_raw]
      exact vec _ _ _
    | setFirmwareHash r =>
      refine returns_agree ?_ _ c h
      rw [setFirmwareHash_raw]
      exact vec _ _ _
    | setFirmwareSvn r =>
      refine returns_agree ?_ _ c h
      rw [setFirmwareSvn_raw]
      exact vec _ _ _
    | platformSignal s =>
      simp only [realRaw, real, platformSignal_raw]
    | reinit =>
      simp only [realRaw, real, Raw.reinit, reinit, platformSignal_raw]
    | testFailureMode =>
      simp only [realRaw, real, Raw.testFailureMode, testFailureMode, writeAll_calm',
        checkResponseEnd_calm]
    | getCommandResponseSizes =>
      simp only [realRaw, real, Raw.getCommandResponseSizes, getCommandResponseSizes, writeAll_calm',
        readLocal_calm, checkResponseEnd_calm]
    | sessionEnd =>
      simp only [realRaw, real, Raw.sessionEnd, sessionEnd, writeAll_calm', shutdown_calm]
    | stopSimulator =>
      simp only [realRaw, real, Raw.stopSimulator, stopSimulator, writeAll_calm', shutdown_calm]

/-- Without interrupts no call ends with one. -/
theorem real_never (call : Call) (c : Conn σ) :
    (real (calm os hm) call c).1 ≠ .error interrupted := by
  have hv : ∀ p b, Never (writeVectored (calm os hm) p b) := fun p b =>
    Never.bind (write_never hm p b) fun n => by
      split
      · exact never_fail (by simp [interrupted])
      · exact never_pure _
  have hs : ∀ p, Never (shutdown (calm os hm) p) := fun p => never_shutdown hm p
  cases call with
  | transact cmd rsp =>
    have := never_transact hm cmd rsp c
    unfold real
    rcases hx : Tcp.transact (calm os hm) cmd rsp c with ⟨e | n, b, c'⟩ <;> rw [hx] at this
    · simpa [hx] using this
    · simp [hx]
  | command cmd a =>
    have := run_never hm cmd a c
    simp only [real]
    exact this
  | locality l => simp [real, returns, setLocality]
  | op o =>
    cases o with
    | hcrtmSequence b =>
      exact returns_never ((never_writeAll hm _ _).bind fun _ => (never_check hm _).bind fun _ =>
        (hv _ _).bind fun _ => (never_check hm _).bind fun _ => (never_writeAll hm _ _).bind fun _ =>
        never_check hm _) _ c
    | remoteHandshake v =>
      exact returns_never ((hv _ _).bind fun _ => (never_readLocal hm _ _).bind fun _ =>
        (never_check hm _).bind fun _ => never_pure _) _ c
    | setAlternativeResult r => exact returns_never ((hv _ _).bind fun _ => never_check hm _) _ c
    | actGetSignaled r =>
      exact returns_never ((hv _ _).bind fun _ => (never_readLocal hm _ _).bind fun _ =>
        (never_check hm _).bind fun _ => never_pure _) _ c
    | setFirmwareHash r => exact returns_never ((hv _ _).bind fun _ => never_check hm _) _ c
    | setFirmwareSvn r => exact returns_never ((hv _ _).bind fun _ => never_check hm _) _ c
    | platformSignal s => exact returns_never (never_platformSignal hm s) _ c
    | reinit =>
      exact returns_never ((never_platformSignal hm _).bind fun _ =>
        (never_platformSignal hm _).bind fun _ => (never_platformSignal hm _).bind fun _ =>
        (never_platformSignal hm _).bind fun _ => never_pure _) _ c
    | testFailureMode =>
      exact returns_never ((never_writeAll hm _ _).bind fun _ => never_check hm _) _ c
    | getCommandResponseSizes =>
      refine returns_never ((never_writeAll hm _ _).bind fun _ => (never_readLocal hm _ _).bind fun b => ?_) _ c
      split
      · exact never_fail (by simp [interrupted])
      · exact (never_readLocal hm _ _).bind fun _ => (never_check hm _).bind fun _ => never_pure _
    | sessionEnd =>
      exact returns_never ((never_writeAll hm _ _).bind fun _ => (hs _).bind fun _ =>
        (never_writeAll hm _ _).bind fun _ => hs _) _ c
    | stopSimulator =>
      exact returns_never ((never_writeAll hm _ _).bind fun _ => (hs _).bind fun _ =>
        (never_writeAll hm _ _).bind fun _ => hs _) _ c

/-- **C109.** The calls that send in as many pieces as it takes never see an interrupt. -/
theorem C109_unseen_partial (call : Call) (hp : call.pieces = true) (c : Conn σ) :
    realRaw os hm call c = real (calm os hm) call c ∧
    (realRaw os hm call c).1 ≠ .error interrupted := by
  have h : realRaw os hm call c = real (calm os hm) call c := by
    cases call with
    | transact cmd rsp => cases hp
    | command cmd a => cases hp
    | locality l => rfl
    | op o =>
      cases o <;> first
        | (cases hp; done)
        | simp only [realRaw, real, platformSignal_raw, Raw.reinit, reinit, Raw.testFailureMode,
            testFailureMode, Raw.getCommandResponseSizes, getCommandResponseSizes, Raw.sessionEnd,
            sessionEnd, Raw.stopSimulator, stopSimulator, writeAll_calm', readLocal_calm,
            checkResponseEnd_calm, shutdown_calm]
  exact ⟨h, h ▸ real_never hm call c⟩

/-- **C109.** If a call that sends in one piece ends with an interrupt, it made one system call
and nothing was sent or received: the call would still do what it would have done. -/
theorem C109_unsent_partial (call : Call) (hp : call.onePiece = true) (c c' : Conn σ)
    (h : realRaw os hm call c = (.error interrupted, c')) :
    (∃ p b, (os.write c.net p b).1 = .error interrupted ∧
      c' = { c with net := (os.write c.net p b).2 }) ∧
    real (calm os hm) call c = real (calm os hm) call c' := by
  cases call with
  | transact cmd rsp =>
    rcases transact_cases hm cmd rsp c with hx | ⟨c1, hl, hw, hx⟩
    · exfalso
      have := never_transact hm cmd rsp c
      rcases ht : Tcp.transact (calm os hm) cmd rsp c with ⟨e | n, b, c1⟩ <;> rw [ht] at this
      · simp only [realRaw, hx, ht, Prod.mk.injEq, Except.error.injEq] at h
        exact this (by rw [h.1])
      · simp [realRaw, hx, ht] at h
    · simp only [realRaw, hx, Prod.mk.injEq, true_and] at h
      subst h
      refine ⟨⟨_, _, Raw.write_error hw⟩, ?_⟩
      simp only [real, transact_again hm rsp hl hw]
  | command cmd a =>
    rcases command_cases hm cmd a c with hx | ⟨b, c1, hw, hx, he⟩
    · exfalso
      have := run_never hm cmd a c
      simp only [realRaw, hx, Prod.mk.injEq] at h
      exact this h.1
    · simp only [realRaw, hx, outcome, Prod.mk.injEq, true_and] at h
      subst h
      refine ⟨⟨_, _, Raw.write_error hw⟩, ?_⟩
      simp only [real, he]
  | locality l => cases hp
  | op o =>
    cases o with
    | remoteHandshake v =>
      have h := returns_interrupted h
      rw [remoteHandshake_raw] at h
      obtain ⟨h1, h2⟩ := once hm (fun _ => (never_readLocal hm _ _).bind fun _ =>
        (never_check hm _).bind fun _ => never_pure _) h
      exact ⟨⟨_, _, h1⟩, congrArg (returns fun xy : Nat × Nat => Out.handshake xy.1 xy.2) h2⟩
    | setAlternativeResult r =>
      have h := returns_interrupted h
      rw [setAlternativeResult_raw] at h
      obtain ⟨h1, h2⟩ := once hm (fun _ => never_check hm _) h
      exact ⟨⟨_, _, h1⟩, congrArg (returns fun _ => Out.done) h2⟩
    | actGetSignaled r =>
      have h := returns_interrupted h
      rw [actGetSignaled_raw] at h
      obtain ⟨h1, h2⟩ := once hm (fun _ => (never_readLocal hm _ _).bind fun _ =>
        (never_check hm _).bind fun _ => never_pure _) h
      exact ⟨⟨_, _, h1⟩, congrArg (returns Out.signaled) h2⟩
    | setFirmwareHash r =>
      have h := returns_interrupted h
      rw [setFirmwareHash_raw] at h
      obtain ⟨h1, h2⟩ := once hm (fun _ => never_check hm _) h
      exact ⟨⟨_, _, h1⟩, congrArg (returns fun _ => Out.done) h2⟩
    | setFirmwareSvn r =>
      have h := returns_interrupted h
      rw [setFirmwareSvn_raw] at h
      obtain ⟨h1, h2⟩ := once hm (fun _ => never_check hm _) h
      exact ⟨⟨_, _, h1⟩, congrArg (returns fun _ => Out.done) h2⟩
    | _ => cases hp

/-- **C109.** A caller that repeats such a call while it is interrupted gets what it would get
without interrupts. -/
theorem C109_repeated_partial (call : Call) (hp : call.onePiece = true) (c : Conn σ)
    (r : Except IoErr Out × Conn σ) :
    Repeated os hm call c r ↔ r = real (calm os hm) call c := by
  constructor
  · intro h
    induction h with
    | last h => exact C109_same_partial hm call _ h
    | again h _ ih => rw [ih, (C109_unsent_partial hm call hp _ _ h).2]
  · rintro rfl
    generalize hn : m c.net = n
    induction n using Nat.strongRecOn generalizing c with
    | ind n ih =>
      by_cases h : (realRaw os hm call c).1 = .error interrupted
      · rcases hx : realRaw os hm call c with ⟨r, c'⟩
        rw [hx] at h
        simp only at h
        subst h
        obtain ⟨⟨p, b, h1, rfl⟩, h2⟩ := C109_unsent_partial hm call hp _ _ hx
        refine .again hx ?_
        rw [h2]
        exact ih _ (by rw [← hn]; exact hm.write _ _ _ h1) _ rfl
      · rw [← C109_same_partial hm call c h]
        exact .last h

/-- **C109.** An H-CRTM sequence can be interrupted between its parts: it was started then, and
neither its data nor its end were sent. -/
theorem C109_hcrtm_partial (data : Bytes) (c c' : Conn σ)
    (h : realRaw os hm (.op (.hcrtmSequence data)) c = (.error interrupted, c')) :
    c'.log = c.log ++ outs .tpm (word 5) ++ inps .tpm ackBytes ∧ c'.locality = c.locality := by
  have h := returns_interrupted h
  unfold Raw.hcrtmSequence at h
  simp only [writeAll_calm', checkResponseEnd_calm] at h
  change M.bind _ _ c = _ at h
  have t1 := hasTrace_writeAll (calm os hm) .tpm (toBE 4 TpmCode.signalHashStart.val) c
  have n1 := never_writeAll hm .tpm (toBE 4 TpmCode.signalHashStart.val) c
  unfold M.bind at h
  rcases hw : writeAll (calm os hm) .tpm (toBE 4 TpmCode.signalHashStart.val) c with ⟨e | u, c1⟩ <;>
    rw [hw] at h t1 n1
  · exact absurd (congrArg Prod.fst h) n1
  change M.bind _ _ c1 = _ at h
  have t2 := hasTrace_ack (calm os hm) .tpm c1
  have n2 := never_check hm .tpm c1
  unfold M.bind at h
  rcases hk : checkResponseEnd (calm os hm) .tpm c1 with ⟨e | u, c2⟩ <;> rw [hk] at h t2 n2
  · exact absurd (congrArg Prod.fst h) n2
  have h3 := bind_interrupted (fun _ => (never_check hm _).bind fun _ =>
    (never_writeAll hm _ _).bind fun _ => never_check hm _) h
  obtain ⟨-, rfl⟩ := Raw.write_error (writeVectored_interrupted h3)
  obtain ⟨a1, l1, a2, a3⟩ := t1
  obtain ⟨b1, l2, b2, b3⟩ := t2
  simp only at a1 a2 b1 b2 ⊢
  refine ⟨?_, b1.trans a1⟩
  rcases a3 with ⟨l, rfl, rfl, -⟩ | ⟨a3, -⟩
  · rcases b3 with ⟨l, rfl, rfl, -⟩ | ⟨b3, -⟩
    · rw [b2, a2]
      simp [TpmCode.val, word_eq]
    · cases b3
  · cases a3

theorem later_trans {d : Device τ} {w w' w'' : World τ} (h : Later d w w') (h' : Later d w' w'') :
    Later d w w'' := by
  induction h with
  | refl => exact h'
  | step hs _ ih => exact .step hs (ih h')

theorem calm_link {d : Device τ} {obs : σ → World τ} (hl : Link os d obs) (hi : Idle os d obs) :
    Link (calm os hm) d obs where
  write := by
    intro s p b n
    show (retryWrite os hm s p b).1 = _ → ∃ w, _ ∧ Later d _ (obs (retryWrite os hm s p b).2)
    induction s using retryWrite.induct os hm p b with
    | case1 s h ih =>
      rw [retryWrite, dif_pos h]
      intro h1
      obtain ⟨w, h2, h3⟩ := ih h1
      exact ⟨w, later_trans (hi.write s p b h) h2, h3⟩
    | case2 s h =>
      rw [retryWrite, dif_neg h]
      exact hl.write s p b n
  read := by
    intro s p k b hk
    show (retryRead os hm s p k).1 = _ → ∃ w, _ ∧ _ ∧ Later d _ (obs (retryRead os hm s p k).2)
    induction s using retryRead.induct os hm p k with
    | case1 s h ih =>
      rw [retryRead, dif_pos h]
      intro h1
      obtain ⟨w, h2, h3⟩ := ih h1
      exact ⟨w, later_trans (hi.read s p k h) h2, h3⟩
    | case2 s h =>
      rw [retryRead, dif_neg h]
      exact hl.read s p k b hk

/-- **C109.** A program of calls that send in as many pieces as it takes does the same however
often system calls are interrupted. -/
theorem C109_program_partial (prog : Prog α) (hp : prog.Calls fun x => x.pieces = true) :
    prog.playRaw os hm = prog.play (calm os hm) := by
  induction prog with
  | done x => rfl
  | call x k ih =>
    funext c
    rw [Prog.playRaw, Prog.play, (C109_unseen_partial hm x hp.1 c).1]
    rcases real (calm os hm) x c with ⟨e | o, c1⟩
    · rfl
    · exact congrFun (ih o (hp.2 o)) c1

theorem playRaw_ok (prog : Prog α) : ∀ (c c' : Conn σ) (a : α),
    prog.playRaw os hm c = (.ok a, c') → prog.play (calm os hm) c = (.ok a, c') := by
  induction prog with
  | done x => intro c c' a h; exact h
  | call x k ih =>
    intro c c' a h
    rw [Prog.playRaw] at h
    rcases hx : realRaw os hm x c with ⟨e | o, c1⟩
    · rw [hx] at h
      simp at h
    · rw [hx] at h
      have := C109_same_partial hm x c (by rw [hx]; simp)
      rw [Prog.play, ← this, hx]
      exact ih o c1 c' a h

/-- **C109.** A program that runs to its end sees the device itself, however often system calls
are interrupted. -/
theorem C109_device_partial {d : Device τ} {obs : σ → World τ} (hl : Link os d obs)
    (hi : Idle os d obs) (prog : Prog α) (ht : prog.Calls Call.Typed) (hs : prog.Calls Call.Short)
    (c c' : Conn σ) (a : α) (hc : (obs c.net).Quiet) (hlt : c.locality < 256)
    (hr : prog.playRaw os hm c = (.ok a, c')) :
    prog.dream d c.locality (obs c.net).dev = some (a, c'.locality, (obs c'.net).dev) ∧
    (obs c'.net).Quiet :=
  C83_observes_device_partial (calm_link hm hl hi) prog ht hs c c' a hc hlt
    (playRaw_ok hm prog c c' a hr)

/-! ### Cases -/

/-- An operating system that interrupts the first calls and goes on with another one. -/
def shy (os : Os σ) : Os (σ × Nat) where
  connect s p n := ((os.connect s.1 p n).1, (os.connect s.1 p n).2, s.2)
  write s p b := if s.2 = 0 then ((os.write s.1 p b).1, (os.write s.1 p b).2, 0)
    else (.error interrupted, s.1, s.2 - 1)
  write_le s p b n h := by
    split at h
    · exact os.write_le s.1 p b n h
    · simp at h
  read s p n := if s.2 = 0 then ((os.read s.1 p n).1, (os.read s.1 p n).2, 0)
    else (.error interrupted, s.1, s.2 - 1)
  read_le s p k b h := by
    split at h
    · exact os.read_le s.1 p k b h
    · simp at h
  shutdown s p := ((os.shutdown s.1 p).1, (os.shutdown s.1 p).2, s.2)
  sleep s := (os.sleep s.1, s.2)

/-- The other one is not interrupted itself. -/
structure Steady (os : Os σ) : Prop where
  write : ∀ s p b, (os.write s p b).1 ≠ .error interrupted
  read : ∀ s p n, (os.read s p n).1 ≠ .error interrupted
  shutdown : ∀ s p, (os.shutdown s p).1 ≠ .error interrupted

theorem shy_patient (h : Steady os) : Patient (shy os) (·.2) where
  write s p b hi := by
    simp only [shy] at hi ⊢
    split at hi
    · exact absurd hi (h.write _ _ _)
    · rename_i h0; rw [if_neg h0]; simp only; omega
  read s p n hi := by
    simp only [shy] at hi ⊢
    split at hi
    · exact absurd hi (h.read _ _ _)
    · rename_i h0; rw [if_neg h0]; simp only; omega
  shutdown s p := h.shutdown s.1 p

theorem shy_write (h : Steady os) (s : σ) (n : Nat) (p : Port) (b : Bytes) :
    (calm (shy os) (shy_patient h)).write (s, n) p b = ((os.write s p b).1, (os.write s p b).2, 0) := by
  induction n with
  | zero =>
    rw [calm_write_same]
    · rfl
    · exact h.write s p b
  | succ n ih =>
    rw [calm_write_again _ _ _ _ rfl]
    exact ih

theorem shy_read (h : Steady os) (s : σ) (n : Nat) (p : Port) (k : Nat) :
    (calm (shy os) (shy_patient h)).read (s, n) p k = ((os.read s p k).1, (os.read s p k).2, 0) := by
  induction n with
  | zero =>
    rw [calm_read_same]
    · rfl
    · exact h.read s p k
  | succ n ih =>
    rw [calm_read_again _ _ _ _ rfl]
    exact ih

theorem shy_willing {d : Device τ} {obs : σ → World τ} (h : Steady os) (hl : Willing os d obs) :
    Willing (calm (shy os) (shy_patient h)) d (fun s => obs s.1) where
  write := by
    rintro ⟨s, n⟩ p b k hk
    rw [shy_write h] at hk ⊢
    exact hl.write s p b k hk
  read := by
    rintro ⟨s, n⟩ p k b hk hb
    rw [shy_read h] at hb ⊢
    exact hl.read s p k b hk hb
  accepts := by
    rintro ⟨s, n⟩ p b
    rw [shy_write h]
    exact hl.accepts s p b
  delivers := by
    rintro ⟨s, n⟩ p k hk
    rw [shy_read h]
    exact hl.delivers s p k hk

theorem refOs_steady (d : Device τ) : Steady (refOs d) where
  write s p b := by
    rw [(refOs_willing d).accepts s p b]
    simp
  read s p n := by simp [refOs]
  shutdown s p := by simp [refOs]

/-- The reference simulator with the device `tape`, on a machine that interrupts the first calls. -/
abbrev shyTape : Os (World (List Plain) × Nat) := shy (refOs tape)

theorem shyTape_patient : Patient shyTape (·.2) := shy_patient (refOs_steady tape)

theorem shyTape_idle : Idle shyTape tape (·.1) where
  write s p b h := by
    simp only [shyTape, shy] at h ⊢
    split
    · rename_i h0; rw [if_pos h0] at h; exact absurd h ((refOs_steady tape).write s.1 p b)
    · exact .refl _
  read s p n h := by
    simp only [shyTape, shy] at h ⊢
    split
    · rename_i h0; rw [if_pos h0] at h; exact absurd h ((refOs_steady tape).read s.1 p n)
    · exact .refl _

theorem shyTape_link : Link shyTape tape (·.1) where
  write s p b n h := by
    simp only [shyTape, shy] at h ⊢
    split
    · rename_i h0
      rw [if_pos h0] at h
      exact (refOs_willing tape).write s.1 p b n h
    · rename_i h0
      rw [if_neg h0] at h
      simp at h
  read s p k b hk h := by
    simp only [shyTape, shy] at h ⊢
    split
    · rename_i h0
      rw [if_pos h0] at h
      exact (refOs_willing tape).read s.1 p k b hk h
    · rename_i h0
      rw [if_neg h0] at h
      simp at h

/-- A transaction with the device. -/
def exCall : Call := .transact [1, 2, 3] [9, 9, 9, 9, 9, 9]

theorem exCall_calm (n : Nat) : ∃ c, real (calm shyTape shyTape_patient) exCall
    ⟨(World.start [], n), 5, []⟩ = (.ok (.response 4 [5, 3, 2, 1, 9, 9]), c) := by
  obtain ⟨c, h⟩ := C83_completes_partial (shy_willing (refOs_steady tape) (refOs_willing tape))
    (.call exCall .done) ⟨trivial, fun _ => trivial⟩ ⟨trivial, fun _ => trivial⟩
    ⟨(World.start [], n), 5, []⟩ (.response 4 [5, 3, 2, 1, 9, 9]) 5 _ (World.start_quiet [])
    (show 5 < 256 by decide) rfl
  refine ⟨c, ?_⟩
  rw [Prog.play] at h
  split at h
  · rename_i o c1 h1
    rw [Prog.play] at h
    rw [← h]
    exact h1
  · simp at h

/-- C109 fails for calls that send in one piece: the call is refused because of an interrupt. -/
theorem C109_violated : ∃ c1 c2 : Conn (World (List Plain) × Nat),
    real (calm shyTape shyTape_patient) exCall ⟨(World.start [], 1), 5, []⟩ =
      (.ok (.response 4 [5, 3, 2, 1, 9, 9]), c1) ∧
    realRaw shyTape shyTape_patient exCall ⟨(World.start [], 1), 5, []⟩ = (.error interrupted, c2) :=
  ⟨_, _, (exCall_calm 1).choose_spec, rfl⟩

/-- An operating system that takes and gives whatever is asked for, but interrupts the first
writes of more than four bytes. -/
def jumpy : Os Nat where
  connect s _ _ := (.ok (), s)
  write s _ b := if s = 0 ∨ b.length ≤ 4 then (.ok b.length, s) else (.error interrupted, s - 1)
  write_le s _ b n h := by
    split at h
    · simp at h; omega
    · simp at h
  read s _ n := (.ok (List.replicate n 0), s)
  read_le s _ k b h := by simp at h; subst h; simp
  shutdown s _ := (.ok (), s)
  sleep s := s

theorem jumpy_patient : Patient jumpy id where
  write s _ b h := by
    simp only [jumpy] at h ⊢
    split at h
    · simp at h
    · rename_i h0; rw [if_neg h0]; simp only [id]; omega
  read s _ n h := by simp [jumpy] at h
  shutdown s _ := by simp [jumpy]

theorem jumpy_writeAll (p : Port) (w x y z : UInt8) (c : Conn Nat) :
    ∃ c', Raw.writeAll jumpy jumpy_patient p [w, x, y, z] c = (.ok (), c') ∧ c'.net = c.net := by
  refine ⟨{ c with log := c.log ++ outs p [w, x, y, z] }, ?_, rfl⟩
  have h : Tcp.write jumpy p [w, x, y, z] c =
      (.ok 4, { c with log := c.log ++ outs p [w, x, y, z] }) := by
    simp [Tcp.write, jumpy]
    rfl
  rw [Raw.writeAll]
  split
  · simp at *
  · split
    · rename_i h1; rw [h] at h1; simp at h1
    · rename_i h1; rw [h] at h1
      simp only [Prod.mk.injEq, Except.ok.injEq] at h1
      obtain ⟨rfl, rfl⟩ := h1
      rw [dif_neg (by decide), Raw.writeAll]
      rfl

theorem jumpy_ack (p : Port) (c : Conn Nat) :
    ∃ c', Raw.checkResponseEnd jumpy jumpy_patient p c = (.ok (), c') ∧ c'.net = c.net := by
  have h : Tcp.read jumpy p 4 c =
      (.ok [0, 0, 0, 0], { c with log := c.log ++ inps p [0, 0, 0, 0] }) := by
    simp [Tcp.read, jumpy, List.replicate]
    rfl
  have h2 : Raw.readExact jumpy jumpy_patient p 4 c =
      (.ok (), [0, 0, 0, 0], { c with log := c.log ++ inps p [0, 0, 0, 0] }) := by
    rw [Raw.readExact]
    split
    · simp at *
    · split
      · rename_i h1; rw [h] at h1; simp at h1
      · rename_i h1; rw [h] at h1
        simp only [Prod.mk.injEq, Except.ok.injEq] at h1
        obtain ⟨rfl, rfl⟩ := h1
        rw [dif_neg (by decide), Raw.readExact]
        rfl
  refine ⟨{ c with log := c.log ++ inps p [0, 0, 0, 0] }, ?_, rfl⟩
  have h3 : Raw.readLocal jumpy jumpy_patient p 4 c =
      (.ok [0, 0, 0, 0], { c with log := c.log ++ inps p [0, 0, 0, 0] }) := by
    rw [Raw.readLocal, h2]
  show M.bind _ _ c = _
  rw [M.bind, h3]
  simp only [show fromBE [0, 0, 0, 0] = 0 from by decide, ne_eq, not_true, if_false]
  rfl

theorem jumpy_hcrtm : ∃ c', realRaw jumpy jumpy_patient (.op (.hcrtmSequence [1, 2])) ⟨1, 0, []⟩ =
    (.error interrupted, c') := by
  obtain ⟨c1, h1, n1⟩ := jumpy_writeAll .tpm 0 0 0 5 ⟨1, 0, []⟩
  obtain ⟨c2, h2, n2⟩ := jumpy_ack .tpm c1
  have hn : c2.net = 1 := n2.trans n1
  refine ⟨{ c2 with net := 0 }, ?_⟩
  have h : Raw.hcrtmSequence jumpy jumpy_patient [1, 2] ⟨1, 0, []⟩ =
      (.error interrupted, { c2 with net := 0 }) := by
    unfold Raw.hcrtmSequence
    change M.bind (Raw.writeAll jumpy jumpy_patient .tpm [0, 0, 0, 5]) _ _ = _
    rw [M.bind, h1]
    change M.bind _ _ _ = _
    rw [M.bind, h2]
    change M.bind _ _ _ = _
    rcases c2 with ⟨s, l, t⟩
    obtain rfl : s = 1 := hn
    rfl
  rw [realRaw, h]
  rfl

/-- The device has been told that a sequence starts, and not what comes after. -/
example : ∃ c', realRaw jumpy jumpy_patient (.op (.hcrtmSequence [1, 2])) ⟨1, 0, []⟩ =
    (.error interrupted, c') ∧ c'.log = outs .tpm (word 5) ++ inps .tpm ackBytes :=
  let ⟨c', h⟩ := jumpy_hcrtm
  ⟨c', h, (C109_hcrtm_partial jumpy_patient [1, 2] _ _ h).1⟩

/-- A call that is not interrupted. -/
example := C109_same_partial jumpy_patient (.op (.setFirmwareSvn 3)) ⟨0, 0, []⟩
  (fun h => by
    have h1 : realRaw jumpy jumpy_patient (.op (.setFirmwareSvn 3)) ⟨0, 0, []⟩ =
        (.error interrupted, (realRaw jumpy jumpy_patient (.op (.setFirmwareSvn 3)) ⟨0, 0, []⟩).2) :=
      Prod.ext h rfl
    obtain ⟨p, b, hw, -⟩ := (C109_unsent_partial jumpy_patient _ rfl _ _ h1).1
    simp [jumpy] at hw)

/-- Repeated often enough, it succeeds. -/
example : ∃ c, Repeated shyTape shyTape_patient exCall ⟨(World.start [], 7), 5, []⟩
    (.ok (.response 4 [5, 3, 2, 1, 9, 9]), c) :=
  let ⟨c, h⟩ := exCall_calm 7
  ⟨c, (C109_repeated_partial shyTape_patient exCall rfl _ _).2 h.symm⟩

/-- What is left of the interrupts after the first. -/
example := C109_unsent_partial shyTape_patient exCall rfl ⟨(World.start [], 7), 5, []⟩
  ⟨(World.start [], 6), 5, []⟩ rfl

/-- A program of calls that send in pieces. -/
def exPieces : Prog Bytes :=
  .call (.op (.platformSignal .cancelOn)) fun _ =>
    .call (.op .getCommandResponseSizes) fun
      | .sizes b => .done b
      | _ => .done []

theorem exPieces_plays : ∃ c', exPieces.playRaw shyTape shyTape_patient
    ⟨(World.start [], 5), 0, []⟩ = (.ok (List.replicate 16 7), c') := by
  rw [C109_program_partial shyTape_patient exPieces ⟨rfl, fun _ => ⟨rfl, fun o => by cases o <;> trivial⟩⟩]
  exact C83_completes_partial (shy_willing (refOs_steady tape) (refOs_willing tape)) exPieces
    ⟨trivial, fun _ => ⟨trivial, fun o => by cases o <;> trivial⟩⟩
    ⟨trivial, fun _ => ⟨trivial, fun o => by cases o <;> trivial⟩⟩
    ⟨(World.start [], 5), 0, []⟩ _ _ _ (World.start_quiet []) (by decide) rfl

/-- It succeeds in spite of five interrupts, and has signaled the device. -/
example : ∃ c', exPieces.playRaw shyTape shyTape_patient ⟨(World.start [], 5), 0, []⟩ =
    (.ok (List.replicate 16 7), c') ∧ c'.net.1.dev = [.signal .cancelOn] := by
  obtain ⟨c', h⟩ := exPieces_plays
  obtain ⟨h1, -⟩ := C109_device_partial shyTape_patient shyTape_link shyTape_idle exPieces
    ⟨trivial, fun _ => ⟨trivial, fun o => by cases o <;> trivial⟩⟩
    ⟨trivial, fun _ => ⟨trivial, fun o => by cases o <;> trivial⟩⟩ _ _ _ (World.start_quiet [])
    (by decide) h
  have h2 : exPieces.dream tape 0 [] = some (List.replicate 16 7, 0, [.signal .cancelOn]) := rfl
  have h3 := h2.symm.trans h1
  simp only [Option.some.injEq, Prod.mk.injEq] at h3
  exact ⟨c', h, h3.2.2.symm⟩

end Verif.EndToEnd
