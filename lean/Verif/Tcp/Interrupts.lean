import Verif.Tcp.Impl

/-
Model of the simulator connection on an operating system that interrupts system calls: the
operations of crates/tpm2-client/src/connection/tcp.rs once more, with the loops of the standard
library as they are.  `write_all` and `read_exact` try again when they are interrupted,
`write_vectored` is one system call and does not.  In Verif/Tcp/Impl.lean these are part of one
call.
-/

namespace Verif.Tcp
open Verif

variable {σ : Type}

/-- `ErrorKind::Interrupted`: the error `EINTR` of the operating system. -/
def interrupted : IoErr := .os 4

instance {α : Type} (r : Except IoErr α) (e : IoErr) : Decidable (r = .error e) :=
  match r with
  | .ok _ => isFalse (by simp)
  | .error e' => if h : e' = e then isTrue (by rw [h]) else isFalse (by simpa using h)

/-- The operating system does not interrupt a call for ever: `m` bounds how often.  Shutting a
stream down is not interrupted. -/
structure Patient (os : Os σ) (m : σ → Nat) : Prop where
  write : ∀ s p b, (os.write s p b).1 = .error interrupted → m (os.write s p b).2 < m s
  read : ∀ s p n, (os.read s p n).1 = .error interrupted → m (os.read s p n).2 < m s
  shutdown : ∀ s p, (os.shutdown s p).1 ≠ .error interrupted

/-! ### Specification: calls are repeated until they are not interrupted -/

/-- A write that is repeated while it is interrupted. -/
def retryWrite (os : Os σ) {m : σ → Nat} (hm : Patient os m) (s : σ) (p : Port) (b : Bytes) :
    Except IoErr Nat × σ :=
  if _h : (os.write s p b).1 = .error interrupted then retryWrite os hm (os.write s p b).2 p b
  else os.write s p b
  termination_by m s
  decreasing_by exact hm.write s p b _h

/-- A read that is repeated while it is interrupted. -/
def retryRead (os : Os σ) {m : σ → Nat} (hm : Patient os m) (s : σ) (p : Port) (n : Nat) :
    Except IoErr Bytes × σ :=
  if _h : (os.read s p n).1 = .error interrupted then retryRead os hm (os.read s p n).2 p n
  else os.read s p n
  termination_by m s
  decreasing_by exact hm.read s p n _h

theorem retryWrite_le (os : Os σ) {m : σ → Nat} (hm : Patient os m) (s : σ) (p : Port) (b : Bytes) :
    ∀ n, (retryWrite os hm s p b).1 = .ok n → n ≤ b.length := by
  induction s using retryWrite.induct os hm p b with
  | case1 s h ih => rw [retryWrite, dif_pos h]; exact ih
  | case2 s h => rw [retryWrite, dif_neg h]; exact os.write_le s p b

theorem retryRead_le (os : Os σ) {m : σ → Nat} (hm : Patient os m) (s : σ) (p : Port) (n : Nat) :
    ∀ b, (retryRead os hm s p n).1 = .ok b → b.length ≤ n := by
  induction s using retryRead.induct os hm p n with
  | case1 s h ih => rw [retryRead, dif_pos h]; exact ih
  | case2 s h => rw [retryRead, dif_neg h]; exact os.read_le s p n

/-- The operating system without its interrupts. -/
def calm (os : Os σ) {m : σ → Nat} (hm : Patient os m) : Os σ where
  connect := os.connect
  write := retryWrite os hm
  write_le s p b n h := retryWrite_le os hm s p b n h
  read := retryRead os hm
  read_le s p k b h := retryRead_le os hm s p k b h
  shutdown := os.shutdown
  sleep := os.sleep

namespace Raw

/-! ### Standard library -/

theorem write_error {os : Os σ} {p : Port} {b : Bytes} {c : Conn σ} {e : IoErr} {c' : Conn σ}
    (h : write os p b c = (.error e, c')) :
    (os.write c.net p b).1 = .error e ∧ c' = { c with net := (os.write c.net p b).2 } := by
  unfold write at h
  split at h
  · simp at h
  · rename_i e' s hs
    simp only [Prod.mk.injEq, Except.error.injEq] at h
    rw [hs]
    exact ⟨by rw [h.1], h.2.symm⟩

theorem read_error {os : Os σ} {p : Port} {n : Nat} {c : Conn σ} {e : IoErr} {c' : Conn σ}
    (h : read os p n c = (.error e, c')) :
    (os.read c.net p n).1 = .error e ∧ c' = { c with net := (os.read c.net p n).2 } := by
  unfold read at h
  split at h
  · simp at h
  · rename_i e' s hs
    simp only [Prod.mk.injEq, Except.error.injEq] at h
    rw [hs]
    exact ⟨by rw [h.1], h.2.symm⟩

/-- `write_all` (std::io::Write): writes until everything is accepted; an accepted count of zero
is `WriteZero`, and an interrupted call is repeated. -/
def writeAll (os : Os σ) {m : σ → Nat} (hm : Patient os m) (p : Port) (b : Bytes) : M σ Unit := fun c =>
  if b.isEmpty then (.ok (), c)
  else
    match _h : write os p b c with
    | (.error e, c') =>
      if _he : e = interrupted then writeAll os hm p b c' else (.error e, c')
    | (.ok n, c') =>
      if _hn : n = 0 then (.error .writeZero, c') else writeAll os hm p (b.drop n) c'
  termination_by c => (b.length, m c.net)
  decreasing_by
    · obtain ⟨h1, h2⟩ := write_error _h
      subst _he h2
      exact Prod.Lex.right _ (hm.write _ _ _ h1)
    · have : 0 < b.length := by cases b <;> simp_all
      exact Prod.Lex.left _ _ (by simp only [List.length_drop]; omega)

/-- `read_exact` (std::io::Read) of `n` bytes: reads until the buffer is full; the end of the
stream is `UnexpectedEof`, and an interrupted call is repeated. -/
def readExact (os : Os σ) {m : σ → Nat} (hm : Patient os m) (p : Port) (n : Nat) (c : Conn σ) :
    Except IoErr Unit × Bytes × Conn σ :=
  if n = 0 then (.ok (), [], c)
  else
    match _h : read os p n c with
    | (.error e, c') =>
      if _he : e = interrupted then readExact os hm p n c' else (.error e, [], c')
    | (.ok b, c') =>
      if _hb : b.length = 0 then (.error .unexpectedEof, [], c')
      else
        match readExact os hm p (n - b.length) c' with
        | (r, b', c) => (r, b ++ b', c)
  termination_by (n, m c.net)
  decreasing_by
    · obtain ⟨h1, h2⟩ := read_error _h
      subst _he h2
      exact Prod.Lex.right _ (hm.read _ _ _ h1)
    · exact Prod.Lex.left _ _ (by omega)

variable (os : Os σ) {m : σ → Nat} (hm : Patient os m)

/-- `read_exact` into a local buffer of `n` bytes that is dropped on failure. -/
def readLocal (p : Port) (n : Nat) : M σ Bytes := fun c =>
  match readExact os hm p n c with
  | (.ok _, b, c) => (.ok b, c)
  | (.error e, _, c) => (.error e, c)

/-! ### Operations -/

/-- `check_response_end`: crates/tpm2-client/src/connection/tcp.rs:379-389. -/
def checkResponseEnd (p : Port) : M σ Unit := do
  let respEnd ← readLocal os hm p 4
  if fromBE respEnd ≠ 0 then M.fail .invalidData else M.pure ()

/-- `hcrtm_sequence`: crates/tpm2-client/src/connection/tcp.rs:98-128
(`data.len() as u32` truncates). -/
def hcrtmSequence (data : Bytes) : M σ Unit := do
  writeAll os hm .tpm (toBE 4 TpmCode.signalHashStart.val)
  checkResponseEnd os hm .tpm
  writeVectored os .tpm
    (toBE 4 TpmCode.signalHashData.val ++ toBE 4 (data.length % 2 ^ 32) ++ data)
  checkResponseEnd os hm .tpm
  writeAll os hm .tpm (toBE 4 TpmCode.signalHashEnd.val)
  checkResponseEnd os hm .tpm

/-- `remote_handshake`: crates/tpm2-client/src/connection/tcp.rs:136-159.  The response (lines
493-512) is returned as server version and endpoint info. -/
def remoteHandshake (clientVersion : Nat) : M σ (Nat × Nat) := do
  writeVectored os .tpm (toBE 4 TpmCode.remoteHandshake.val ++ toBE 4 clientVersion)
  let resp ← readLocal os hm .tpm 8
  checkResponseEnd os hm .tpm
  M.pure (fromBE (resp.take 4), fromBE (resp.drop 4))

/-- `set_alternative_result`: crates/tpm2-client/src/connection/tcp.rs:167-185. -/
def setAlternativeResult (result : Nat) : M σ Unit := do
  writeVectored os .tpm (toBE 4 TpmCode.setAlternativeResult.val ++ toBE 4 result)
  checkResponseEnd os hm .tpm

/-- `platform_signal`: crates/tpm2-client/src/connection/tcp.rs:193-198. -/
def platformSignal (signal : Signal) : M σ Unit := do
  writeAll os hm .plat (toBE 4 signal.val)
  checkResponseEnd os hm .plat

/-- `reinit`: crates/tpm2-client/src/connection/tcp.rs:206-212. -/
def reinit : M σ Unit := do
  platformSignal os hm .nvOff
  platformSignal os hm .powerOff
  platformSignal os hm .powerOn
  platformSignal os hm .nvOn
  M.pure ()

/-- `test_failure_mode`: crates/tpm2-client/src/connection/tcp.rs:220-225. -/
def testFailureMode : M σ Unit := do
  writeAll os hm .plat (toBE 4 PlatCode.testFailureMode.val)
  checkResponseEnd os hm .plat

/-- `get_command_response_sizes`: crates/tpm2-client/src/connection/tcp.rs:234-255.
The response (lines 565-593) is returned as its 16 bytes. -/
def getCommandResponseSizes : M σ Bytes := do
  writeAll os hm .plat (toBE 4 PlatCode.getCommandResponseSizes.val)
  let length ← readLocal os hm .plat 4
  if fromBE length ≠ 16 then M.fail .invalidData
  else do
    let resp ← readLocal os hm .plat 16
    checkResponseEnd os hm .plat
    M.pure resp

/-- `act_get_signaled`: crates/tpm2-client/src/connection/tcp.rs:263-286. -/
def actGetSignaled (actHandle : Nat) : M σ Nat := do
  writeVectored os .plat (toBE 4 PlatCode.actGetSignaled.val ++ toBE 4 actHandle)
  let resp ← readLocal os hm .plat 4
  checkResponseEnd os hm .plat
  M.pure (fromBE resp)

/-- `set_firmware_hash`: crates/tpm2-client/src/connection/tcp.rs:294-312. -/
def setFirmwareHash (hash : Nat) : M σ Unit := do
  writeVectored os .plat (toBE 4 PlatCode.setFirmwareHash.val ++ toBE 4 hash)
  checkResponseEnd os hm .plat

/-- `set_firmware_svn`: crates/tpm2-client/src/connection/tcp.rs:320-336. -/
def setFirmwareSvn (svn : Nat) : M σ Unit := do
  writeVectored os .plat (toBE 4 PlatCode.setFirmwareSvn.val ++ toBE 4 svn)
  checkResponseEnd os hm .plat

/-- `session_end`: crates/tpm2-client/src/connection/tcp.rs:349-359. -/
def sessionEnd : M σ Unit := do
  writeAll os hm .tpm (toBE 4 TpmCode.sessionEnd.val)
  shutdown os .tpm
  writeAll os hm .plat (toBE 4 PlatCode.sessionEnd.val)
  shutdown os .plat

/-- `stop_simulator`: crates/tpm2-client/src/connection/tcp.rs:366-376. -/
def stopSimulator : M σ Unit := do
  writeAll os hm .tpm (toBE 4 TpmCode.stop.val)
  shutdown os .tpm
  writeAll os hm .plat (toBE 4 PlatCode.stop.val)
  shutdown os .plat

/-- `transact`: crates/tpm2-client/src/connection/tcp.rs:392-433.  Returns the
length of the returned slice and the response buffer, also on failure. -/
def transact (command response : Bytes) (c : Conn σ) : Except IoErr Nat × Bytes × Conn σ :=
  if 2 ^ 32 ≤ command.length then (.error .invalidInput, response, c)
  else
    match writeVectored os .tpm (sendFrame c.locality command) c with
    | (.error e, c) => (.error e, response, c)
    | (.ok _, c) =>
      match readLocal os hm .tpm 4 c with
      | (.error e, c) => (.error e, response, c)
      | (.ok hdr, c) =>
        let length := fromBE hdr
        if length > response.length then (.error .invalidInput, response, c)
        else
          match readExact os hm .tpm length c with
          | (.error e, b, c) => (.error e, b ++ response.drop b.length, c)
          | (.ok _, b, c) =>
            let response := b ++ response.drop b.length
            match checkResponseEnd os hm .tpm c with
            | (.error e, c) => (.error e, response, c)
            | (.ok _, c) => (.ok length, response, c)

end Raw

end Verif.Tcp
