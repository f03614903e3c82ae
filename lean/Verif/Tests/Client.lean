import Verif.Client.OutcomeProps
import Verif.Base.Handle

/-!
The unit tests of crates/tpm2-client/src/tests.rs and
crates/tpm2-client/src/sessions/tests.rs, as in `Tests/Marshalable`.
-/

namespace Verif.Tests
open Verif Verif.Base Verif.Client Verif.Errors

/-! ### The connections of the tests -/

/-- The error type of these connections is `TssError` itself, so an error of the connection
and an error of the client are compared as such. -/
def sameError : CErr TssError → TssError
  | .conn e => e
  | .tss e => e

/-- A connection that writes the answer of `f` to the beginning of the response buffer and
returns that part.  Simplified: the answer is put together before it is written, and an
answer that does not fit fails with `TPM_RC_MEMORY`. -/
def answering {σ : Type} (f : σ → Bytes → Nat → Except TssError Bytes × σ) : Transport σ TssError where
  transact s cmd rsp :=
    match f s cmd rsp.length with
    | (.error e, s) => (.failed e, rsp, s)
    | (.ok a, s) =>
      if a.length ≤ rsp.length then (.reported a.length, a ++ rsp.drop a.length, s)
      else (.failed ⟨0x904⟩, rsp, s)
  keeps_length := by
    intro s cmd rsp
    rcases f s cmd rsp.length with ⟨_ | a, s'⟩
    · rfl
    · dsimp only
      split
      · rw [List.length_append, List.length_drop]; omega
      · rfl
  reports_slice := by
    intro s cmd rsp n h
    rcases hf : f s cmd rsp.length with ⟨_ | a, s'⟩ <;> simp only [hf] at h
    · simp at h
    · split at h <;> simp at h
      omega

theorem answering_transact {σ : Type} (f : σ → Bytes → Nat → Except TssError Bytes × σ) (s s' : σ)
    (cmd a : Bytes) (hf : f s cmd 4096 = (.ok a, s')) (ha : a.length ≤ 4096) :
    (answering f).transact s cmd (List.replicate 4096 0) =
      (.reported a.length, a ++ List.replicate (4096 - a.length) 0, s') := by
  simp only [answering, List.length_replicate, hf, ha, if_true, List.drop_replicate]

/-- `ErrorTpm`: crates/tpm2-client/src/tests.rs:9-15. -/
def errorTpm : Transport Unit TssError :=
  answering fun s _ _ => (.error ⟨0x2002⟩, s)

/-- `FakeU32LoopbackTpm`: crates/tpm2-client/src/tests.rs:58-83; the state is `rxed_header`
and `rxed_bytes`. -/
def loopback (s : Option Val × Nat) (command : Bytes) (_ : Nat) :
    Except TssError Bytes × (Option Val × Nat) :=
    match tum CmdHeader command with
    | .ok (header, buf) =>
      match tum u32 buf with
      | .ok (value, _) =>
        (.ok (wire RespHeader (.struct [.struct [.int 0x8001], .int (10 + 4), .int 0]) ++ wire u32 value),
          (some header, command.length))
      | .err e => (.error e, (some header, command.length))
      | .panic => (.error ⟨0⟩, s)  -- does not happen
    | .err e => (.error e, (s.1, command.length))
    | .panic => (.error ⟨0⟩, s)  -- does not happen

/-- `FakeU32LoopbackTpm`: crates/tpm2-client/src/tests.rs:58-83. -/
def loopbackTpm : Transport (Option Val × Nat) TssError := answering loopback

/-- `EvilSizeTpm`: crates/tpm2-client/src/tests.rs:98-111. -/
def evilSize (s : Unit) (_ : Bytes) (n : Nat) : Except TssError Bytes × Unit :=
    (.ok (wire RespHeader (.struct [.struct [.int 0x8001], .int (n + 2), .int 0])), s)

/-- `EvilSizeTpm`: crates/tpm2-client/src/tests.rs:98-111. -/
def evilSizeTpm : Transport Unit TssError := answering evilSize

/-- `FakeTpm` with the given `response[..len]`: crates/tpm2-client/src/tests.rs:123-160. -/
def fake (response : Bytes) (s : Unit) (_ : Bytes) (_ : Nat) : Except TssError Bytes × Unit :=
    (.ok (wire RespHeader (.struct [.struct [.int 0x8001], .int (10 + response.length), .int 0]) ++
      response), s)

/-- `FakeTpm`: crates/tpm2-client/src/tests.rs:123-160. -/
def fakeTpm (response : Bytes) : Transport Unit TssError := answering (fake response)

/-! ### The commands of the tests -/

/-- `TpmCc::NVUndefineSpaceSpecial`: base/src/constants.rs:106. -/
def undefineSpace : Nat := 0x11F

/-- `HugeFakeCommand([0; CMD_BUFFER_SIZE])`: crates/tpm2-client/src/tests.rs:17-31. -/
def hugeFakeCommand : Command :=
  ⟨undefineSpace, .unit, .unit, S [.bytes cmdBufferSize],
    .struct [.bytes (List.replicate cmdBufferSize 0)], u8, .unit⟩

/-- `TestCommand`: crates/tpm2-client/src/tests.rs:38-46. -/
def testCommand (n : Nat) : Command :=
  ⟨undefineSpace, .unit, .unit, S [u32], .struct [.int n], u32, .unit⟩

/-- `TestHandlesCommand` with a handle: crates/tpm2-client/src/tests.rs:162-170. -/
def testHandlesCommand (handle : Nat) : Command :=
  ⟨undefineSpace, TpmHandle, .struct [.int handle], S [], .struct [], .unit, TpmHandle⟩

/-- `PasswordSession::default()`: crates/tpm2-client/src/sessions/password.rs:32-35. -/
def defaultPassword : Session := passwordSession (Ty.tpm2b 64).default

/-! ### The tests -/

theorem runCommand_result {σ ε : Type} (tr : Transport σ ε) (c : Command) (s : σ)
    (h : c.handlesTy.default = c.handles) :
    (runCommand tr c s).result = (runCommandWithHandles tr c area0 s).result.map (·.1) := by
  unfold runCommand; rw [h]

theorem runCommand_state {σ ε : Type} (tr : Transport σ ε) (c : Command) (s : σ)
    (h : c.handlesTy.default = c.handles) :
    (runCommand tr c s).state = (runCommandWithHandles tr c area0 s).state := by
  unfold runCommand; rw [h]

/-- crates/tpm2-client/src/tests.rs:28-36 -/
theorem test_command_too_large :
    (runCommand errorTpm hugeFakeCommand ()).result.mapErr sameError = .err ⟨0x904⟩ := by
  have hw : CmdWF hugeFakeCommand area0 :=
    ⟨by decide, trivial, ⟨List.length_replicate, trivial⟩, by intro s hs; simp [Area.active, area0] at hs⟩
  have hl : 4096 < (commandBytes hugeFakeCommand area0.active).length := by
    rw [commandBytes_length]
    simp only [commandBody, hugeFakeCommand, S, plains, wire, wireFields, List.length_append,
      List.length_replicate, cmdBufferSize]
    omega
  have := C39_memory_error errorTpm hugeFakeCommand area0 () hw hl rfl rfl rfl
  rw [runCommand_result _ _ _ rfl, this]
  rfl

theorem test_wf (n : Nat) (h : n < 2 ^ 32) : CmdWF (testCommand n) area0 :=
  ⟨by show undefineSpace < 2 ^ 32; decide, trivial, ⟨h, trivial⟩, by
    intro s hs; simp [Area.active, area0] at hs⟩

theorem test_bytes (n : Nat) : commandBytes (testCommand n) area0.active =
    digits256 2 0x8001 ++ digits256 4 14 ++ digits256 4 0x11F ++ digits256 4 n := by
  simp [commandBytes, commandBody, testCommand, undefineSpace, area0, Area.active, authArea, wire, wireFields,
    S, plains]

theorem test_fit (n : Nat) : (commandBytes (testCommand n) area0.active).length ≤ 4096 := by
  rw [test_bytes]; simp

theorem testHandles_wf (n : Nat) (h : n < 2 ^ 32) (a : Area)
    (ha : ∀ s ∈ a.active, WF TpmsAuthCommand s.authCommand) : CmdWF (testHandlesCommand n) a :=
  ⟨by show undefineSpace < 2 ^ 32; decide, ⟨h, trivial⟩, trivial, ha⟩

/-- crates/tpm2-client/src/tests.rs:48-56 -/
theorem test_tpm_error :
    (runCommand errorTpm (testCommand 56789) ()).result.mapErr sameError = .err ⟨0x2002⟩ := by
  have := C37_transport_error errorTpm (testCommand 56789) area0 () () (test_wf _ (by decide))
    (test_fit _) ⟨0x2002⟩ (List.replicate 4096 0) rfl
  rw [runCommand_result _ _ _ rfl, this]
  rfl

/-- What the client makes of an answer. -/
theorem answered {σ : Type} (f : σ → Bytes → Nat → Except TssError Bytes × σ) (c : Command) (a : Area)
    (s s' : σ) (h : CmdWF c a) (hfit : (commandBytes c a.active).length ≤ 4096) (tag size : Nat)
    (body : Bytes) (ht : tag < 65536) (hs : size < 2 ^ 32) (hb : body.length ≤ 4086)
    (hf : f s (commandBytes c a.active) 4096 =
      (.ok (digits256 2 tag ++ digits256 4 size ++ digits256 4 0 ++ body), s')) :
    runCommandWithHandles (answering f) c a s =
      ⟨(if 4096 < size then .err tcsOutOfMemory
        else if size < 10 then .panic
        else readBody c a tag ((body ++ List.replicate (4086 - body.length) 0).take (size - 10))).mapErr
          .tss, s'⟩ := by
  have hl : (digits256 2 tag ++ digits256 4 size ++ digits256 4 0 ++ body).length = 10 + body.length := by
    simp [digits256_length]; omega
  rw [run_eq _ _ _ _ h hfit, answering_transact f s s' _ _ hf (by omega), hl]
  simp only
  rw [List.append_assoc, readResponse_eq c a tag size 0 _ ht hs (by decide)]
  have e : (body ++ List.replicate (4096 - (10 + body.length)) (0 : UInt8)).length = 4086 := by
    simp; omega
  rw [e, if_neg (by simp), show 4096 - (10 + body.length) = 4086 - body.length by omega]

/-- crates/tpm2-client/src/tests.rs:85-95 -/
theorem test_fake_command :
    ∃ tag size n, (runCommand loopbackTpm (testCommand 56789) (none, 0)).state =
        (some (.struct [tag, size, .struct [.int (testCommand 56789).code]]), n) ∧
      (runCommand loopbackTpm (testCommand 56789) (none, 0)).result.mapErr sameError =
        .ok (.int 56789) := by
  have := answered loopback (testCommand 56789) area0 (none, 0)
    (some (.struct [.struct [.int 0x8001], .int 14, .struct [.int undefineSpace]]), 14)
    (test_wf _ (by decide)) (test_fit _) 0x8001 14 (digits256 4 56789) (by decide) (by decide) (by decide)
    rfl
  refine ⟨.struct [.int 0x8001], .int 14, 14, ?_, ?_⟩
  · rw [runCommand_state _ _ _ rfl, loopbackTpm, this]
    rfl
  · rw [runCommand_result _ _ _ rfl, loopbackTpm, this, List.take_append_of_le_length (by decide)]
    rfl

/-- crates/tpm2-client/src/tests.rs:113-121 -/
theorem test_bad_response_size :
    (runCommand evilSizeTpm (testCommand 2) ()).result.mapErr sameError = .err ⟨0x2005⟩ := by
  have := answered evilSize (testCommand 2) area0 () () (test_wf _ (by decide)) (test_fit _) 0x8001 4098 []
    (by decide) (by decide) (by decide) rfl
  rw [runCommand_result _ _ _ rfl, evilSizeTpm, this]
  simp only
  rw [if_pos (by decide)]
  rfl

/-- crates/tpm2-client/src/tests.rs:172-180 -/
theorem test_response_missing_handles :
    (runCommand (fakeTpm []) (testHandlesCommand 0) ()).result.mapErr sameError = .err ⟨0x904⟩ := by
  have := answered (fake []) (testHandlesCommand 0) area0 () ()
    (testHandles_wf 0 (by decide) area0 (by intro s hs; simp [Area.active, area0] at hs)) (by decide)
    0x8001 10 [] (by decide) (by decide) (by decide) rfl
  rw [runCommand_result _ _ _ rfl, fakeTpm, this, Nat.sub_self, List.take_zero]
  rfl

theorem defaultPassword_wf : ∀ s ∈ (area1 defaultPassword).active, WF TpmsAuthCommand s.authCommand := by
  intro s hs
  simp only [Area.active, area1, List.mem_singleton] at hs
  subst hs
  decide

/-- `TpmHandle::RSPW`: base/src/constants.rs:674. -/
def rspw : Nat := 0x40000009

/-- crates/tpm2-client/src/tests.rs:182-194 -/
theorem test_response_missing_sessions :
    (runCommandWithHandles (fakeTpm (wire TpmHandle (.struct [.int 77]))) (testHandlesCommand rspw)
      (area1 defaultPassword) ()).result.mapErr sameError = .err ⟨0x904⟩ := by
  have := answered (fake (wire TpmHandle (.struct [.int 77]))) (testHandlesCommand rspw)
    (area1 defaultPassword) () () (testHandles_wf rspw (by decide) _ defaultPassword_wf) (by decide)
    0x8001 14 (wire TpmHandle (.struct [.int 77])) (by decide) (by decide) (by decide) rfl
  rw [fakeTpm, this, List.take_append_of_le_length (by decide)]
  rfl

/-- `invalid_auth`: crates/tpm2-client/src/tests.rs:201-204. -/
def invalidAuth : Val := .struct [Tpm2bDigest.default, .struct [.int 0xF], Tpm2bData.default]

/-- crates/tpm2-client/src/tests.rs:196-215 -/
theorem test_response_session_fails_validation :
    ∃ failure, defaultPassword.validate invalidAuth = some failure ∧
      (runCommandWithHandles
        (fakeTpm (wire TpmHandle (.struct [.int 77]) ++ wire TpmsAuthResponse invalidAuth))
        (testHandlesCommand rspw) (area1 defaultPassword) ()).result.mapErr sameError =
          .err failure := by
  have := answered (fake (wire TpmHandle (.struct [.int 77]) ++ wire TpmsAuthResponse invalidAuth))
    (testHandlesCommand rspw) (area1 defaultPassword) () ()
    (testHandles_wf rspw (by decide) _ defaultPassword_wf) (by decide)
    0x8001 19 (wire TpmHandle (.struct [.int 77]) ++ wire TpmsAuthResponse invalidAuth) (by decide)
    (by decide) (by decide) rfl
  refine ⟨_, rfl, ?_⟩
  rw [fakeTpm, this, List.take_append_of_le_length (by decide)]
  rfl

/-- crates/tpm2-client/src/sessions/tests.rs:5-12; "hello" in ASCII. -/
theorem test_password_get_auth_command :
    ∃ auth nonce attributes size buf, passwordNew [0x68, 0x65, 0x6C, 0x6C, 0x6F] = .ok auth ∧
      (passwordSession auth).authCommand =
        .struct [.struct [.int RS_PW], nonce, attributes, .tpm2b size buf] ∧
      size = 5 ∧ tpm2bGetBuffer (.tpm2b size buf) = .ok [0x68, 0x65, 0x6C, 0x6C, 0x6F] :=
  ⟨_, _, _, _, _, rfl, rfl, rfl, rfl⟩

/-- The example in the documentation: crates/tpm2-client/src/sessions/password.rs:11-19;
"hello world" in ASCII. -/
theorem password_session :
    ∃ password1 password2,
      passwordNew [0x68, 0x65, 0x6C, 0x6C, 0x6F, 0x20, 0x77, 0x6F, 0x72, 0x6C, 0x64] = .ok password1 ∧
      passwordNew [1, 2, 3, 4, 5, 6] = .ok password2 ∧
      passwordSecret password1 =
        .ok [0x68, 0x65, 0x6C, 0x6C, 0x6F, 0x20, 0x77, 0x6F, 0x72, 0x6C, 0x64] ∧
      passwordSecret password2 = .ok [1, 2, 3, 4, 5, 6] :=
  ⟨_, _, rfl, rfl, rfl, rfl⟩

/-- The example in the documentation: crates/tpm2-client/src/sessions/password.rs:33-42. -/
theorem password_session_new : passwordNew (List.replicate (64 + 1) 0) = .err .Size := rfl

end Verif.Tests
