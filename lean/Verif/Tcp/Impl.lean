import Verif.Basic

/-
Model of the simulator connection: crates/tpm2-client/src/connection/tcp.rs.
The operating system, the network and the simulator are an arbitrary `Os`.
-/

namespace Verif.Tcp
open Verif

/-- `std::io::Error`: the kinds that occur in the code
(crates/tpm2-client/src/connection/tcp.rs:116, 244, 384, 398, 422, 682, 704 and `UnexpectedEof` of `read_exact`)
and any error `e` of the operating system. -/
inductive IoErr where
  | writeZero
  | invalidInput
  | invalidData
  | unexpectedEof
  | other
  | os (e : Nat)
  deriving DecidableEq, Repr

/-- The two streams of a connection: crates/tpm2-client/src/connection/tcp.rs:33-42. -/
inductive Port where
  | tpm
  | plat
  deriving DecidableEq, Repr

/-- What the operating system does, on an arbitrary state that includes the
network and the peer.  `write` accepts a number of bytes, `read` delivers at
most the requested number (no byte at the end of the stream).  `connect` takes
the stream and the port number.  Simplified: interrupted system calls, which
the standard library retries, are part of one call. -/
structure Os (σ : Type) where
  connect : σ → Port → Nat → Except IoErr Unit × σ
  write : σ → Port → Bytes → Except IoErr Nat × σ
  write_le : ∀ s p b n, (write s p b).1 = .ok n → n ≤ b.length
  read : σ → Port → Nat → Except IoErr Bytes × σ
  read_le : ∀ s p k b, (read s p k).1 = .ok b → b.length ≤ k
  shutdown : σ → Port → Except IoErr Unit × σ
  sleep : σ → σ

/-- Observable events: a byte accepted by a stream, a byte delivered by a
stream, a stream shut down.  Ghost state for the specification. -/
inductive Ev where
  | out (p : Port) (b : UInt8)
  | inp (p : Port) (b : UInt8)
  | shut (p : Port)
  deriving DecidableEq, Repr

/-- `TcpConnection` (crates/tpm2-client/src/connection/tcp.rs:33-42) with the
state of the operating system and the log of events. -/
structure Conn (σ : Type) where
  net : σ
  locality : Nat
  log : List Ev

/-- A function on a connection that returns `std::io::Result`. -/
abbrev M (σ α : Type) : Type := Conn σ → Except IoErr α × Conn σ

/-- The `?` operator. -/
def M.bind {σ α β : Type} (m : M σ α) (f : α → M σ β) : M σ β := fun c =>
  match m c with
  | (.ok a, c) => f a c
  | (.error e, c) => (.error e, c)

/-- `Ok(a)`. -/
def M.pure {σ α : Type} (a : α) : M σ α := fun c => (.ok a, c)

/-- `return Err(e)`. -/
def M.fail {σ α : Type} (e : IoErr) : M σ α := fun c => (.error e, c)

instance {σ : Type} : Monad (M σ) where
  pure := M.pure
  bind := M.bind

variable {σ : Type}

/-! ### Standard library -/

/-- `write`/`write_vectored` of the concatenation of the slices (std::io::Write). -/
def write (os : Os σ) (p : Port) (b : Bytes) : M σ Nat := fun c =>
  match os.write c.net p b with
  | (.ok n, s) => (.ok n, { c with net := s, log := c.log ++ (b.take n).map (.out p) })
  | (.error e, s) => (.error e, { c with net := s })

/-- `write_all` (std::io::Write): writes until everything is accepted; an
accepted count of zero is `WriteZero`. -/
def writeAll (os : Os σ) (p : Port) (b : Bytes) : M σ Unit := fun c =>
  if b.isEmpty then (.ok (), c)
  else
    match write os p b c with
    | (.error e, c) => (.error e, c)
    | (.ok n, c) =>
      if _hn : n = 0 then (.error .writeZero, c) else writeAll os p (b.drop n) c
  termination_by b.length
  decreasing_by
    have : 0 < b.length := by cases b <;> simp_all
    simp only [List.length_drop]
    omega

/-- One `read` (std::io::Read). -/
def read (os : Os σ) (p : Port) (n : Nat) : M σ Bytes := fun c =>
  match os.read c.net p n with
  | (.ok b, s) => (.ok b, { c with net := s, log := c.log ++ b.map (.inp p) })
  | (.error e, s) => (.error e, { c with net := s })

/-- `read_exact` (std::io::Read) of `n` bytes: reads until the buffer is full;
the end of the stream is `UnexpectedEof`.  Returns also the bytes stored in the
buffer so far. -/
def readExact (os : Os σ) (p : Port) (n : Nat) (c : Conn σ) :
    Except IoErr Unit × Bytes × Conn σ :=
  if n = 0 then (.ok (), [], c)
  else
    match read os p n c with
    | (.error e, c) => (.error e, [], c)
    | (.ok b, c) =>
      if _hb : b.length = 0 then (.error .unexpectedEof, [], c)
      else
        match readExact os p (n - b.length) c with
        | (r, b', c) => (r, b ++ b', c)
  termination_by n
  decreasing_by
    omega

/-- `read_exact` into a local buffer of `n` bytes that is dropped on failure. -/
def readLocal (os : Os σ) (p : Port) (n : Nat) : M σ Bytes := fun c =>
  match readExact os p n c with
  | (.ok _, b, c) => (.ok b, c)
  | (.error e, _, c) => (.error e, c)

/-- `TcpStream::shutdown(Both)` (std::net). -/
def shutdown (os : Os σ) (p : Port) : M σ Unit := fun c =>
  match os.shutdown c.net p with
  | (.ok _, s) => (.ok (), { c with net := s, log := c.log ++ [.shut p] })
  | (.error e, s) => (.error e, { c with net := s })

/-! ### Codes -/

/-- `SimulatorTpmCommandCode`: crates/tpm2-client/src/connection/tcp.rs:437-455. -/
inductive TpmCode where
  | signalHashStart | signalHashData | signalHashEnd | sendCommand | remoteHandshake
  | setAlternativeResult | sessionEnd | stop
  deriving DecidableEq, Repr

/-- The discriminants: crates/tpm2-client/src/connection/tcp.rs:439-454. -/
def TpmCode.val : TpmCode → Nat
  | .signalHashStart => 5
  | .signalHashData => 6
  | .signalHashEnd => 7
  | .sendCommand => 8
  | .remoteHandshake => 15
  | .setAlternativeResult => 16
  | .sessionEnd => 20
  | .stop => 21

/-- `SimulatorPlatformSignal`: crates/tpm2-client/src/connection/tcp.rs:517-542. -/
inductive Signal where
  | powerOn | powerOff | physicalPresenceOn | physicalPresenceOff | cancelOn | cancelOff
  | nvOn | nvOff | keyCacheOn | keyCacheOff | reset | restart
  deriving DecidableEq, Repr

/-- The discriminants: crates/tpm2-client/src/connection/tcp.rs:519-541. -/
def Signal.val : Signal → Nat
  | .powerOn => 1
  | .powerOff => 2
  | .physicalPresenceOn => 3
  | .physicalPresenceOff => 4
  | .cancelOn => 9
  | .cancelOff => 10
  | .nvOn => 11
  | .nvOff => 12
  | .keyCacheOn => 13
  | .keyCacheOff => 14
  | .reset => 17
  | .restart => 18

/-- `SimulatorPlatformCommandCode`: crates/tpm2-client/src/connection/tcp.rs:546-562. -/
inductive PlatCode where
  | sessionEnd | stop | getCommandResponseSizes | actGetSignaled | testFailureMode
  | setFirmwareHash | setFirmwareSvn
  deriving DecidableEq, Repr

/-- The discriminants: crates/tpm2-client/src/connection/tcp.rs:549-561. -/
def PlatCode.val : PlatCode → Nat
  | .sessionEnd => 20
  | .stop => 21
  | .getCommandResponseSizes => 25
  | .actGetSignaled => 26
  | .testFailureMode => 30
  | .setFirmwareHash => 35
  | .setFirmwareSvn => 36

/-! ### Operations -/

/-- `check_response_end`: crates/tpm2-client/src/connection/tcp.rs:379-389. -/
def checkResponseEnd (os : Os σ) (p : Port) : M σ Unit := do
  let respEnd ← readLocal os p 4
  if fromBE respEnd ≠ 0 then M.fail .invalidData else M.pure ()

/-- `write_vectored` of `parts` and the check that everything was accepted:
crates/tpm2-client/src/connection/tcp.rs:109-119, 142-151, 173-182, 269-278,
300-309, 324-333. -/
def writeVectored (os : Os σ) (p : Port) (parts : Bytes) : M σ Unit := do
  let n ← write os p parts
  if n ≠ parts.length then M.fail .writeZero else M.pure ()

/-- `hcrtm_sequence`: crates/tpm2-client/src/connection/tcp.rs:98-128
(`data.len() as u32` truncates). -/
def hcrtmSequence (os : Os σ) (data : Bytes) : M σ Unit := do
  writeAll os .tpm (toBE 4 TpmCode.signalHashStart.val)
  checkResponseEnd os .tpm
  writeVectored os .tpm
    (toBE 4 TpmCode.signalHashData.val ++ toBE 4 (data.length % 2 ^ 32) ++ data)
  checkResponseEnd os .tpm
  writeAll os .tpm (toBE 4 TpmCode.signalHashEnd.val)
  checkResponseEnd os .tpm

/-- `remote_handshake`: crates/tpm2-client/src/connection/tcp.rs:136-159.  The
response (lines 493-512) is returned as server version and endpoint info. -/
def remoteHandshake (os : Os σ) (clientVersion : Nat) : M σ (Nat × Nat) := do
  writeVectored os .tpm (toBE 4 TpmCode.remoteHandshake.val ++ toBE 4 clientVersion)
  let resp ← readLocal os .tpm 8
  checkResponseEnd os .tpm
  M.pure (fromBE (resp.take 4), fromBE (resp.drop 4))

/-- `set_alternative_result`: crates/tpm2-client/src/connection/tcp.rs:167-185. -/
def setAlternativeResult (os : Os σ) (result : Nat) : M σ Unit := do
  writeVectored os .tpm (toBE 4 TpmCode.setAlternativeResult.val ++ toBE 4 result)
  checkResponseEnd os .tpm

/-- `platform_signal`: crates/tpm2-client/src/connection/tcp.rs:193-198. -/
def platformSignal (os : Os σ) (signal : Signal) : M σ Unit := do
  writeAll os .plat (toBE 4 signal.val)
  checkResponseEnd os .plat

/-- `reinit`: crates/tpm2-client/src/connection/tcp.rs:206-212. -/
def reinit (os : Os σ) : M σ Unit := do
  platformSignal os .nvOff
  platformSignal os .powerOff
  platformSignal os .powerOn
  platformSignal os .nvOn
  M.pure ()

/-- `test_failure_mode`: crates/tpm2-client/src/connection/tcp.rs:220-225. -/
def testFailureMode (os : Os σ) : M σ Unit := do
  writeAll os .plat (toBE 4 PlatCode.testFailureMode.val)
  checkResponseEnd os .plat

/-- `get_command_response_sizes`: crates/tpm2-client/src/connection/tcp.rs:234-255.
The response (lines 565-593) is returned as its 16 bytes. -/
def getCommandResponseSizes (os : Os σ) : M σ Bytes := do
  writeAll os .plat (toBE 4 PlatCode.getCommandResponseSizes.val)
  let length ← readLocal os .plat 4
  if fromBE length ≠ 16 then M.fail .invalidData
  else do
    let resp ← readLocal os .plat 16
    checkResponseEnd os .plat
    M.pure resp

/-- Byte order of the host, on which the fields of type `u32` of
`GetCommandResponseSizesResponse` depend
(crates/tpm2-client/src/connection/tcp.rs:569-574). -/
inductive Endian where
  | little
  | big
  deriving DecidableEq, Repr

/-- A `u32` in host byte order (core library). -/
def Endian.u32 : Endian → Bytes → Nat
  | .little, b => fromBE b.reverse
  | .big, b => fromBE b

/-- `largest_command_size`: crates/tpm2-client/src/connection/tcp.rs:578-580, 570. -/
def largestCommandSize (host : Endian) (resp : Bytes) : Nat := host.u32 (resp.take 4)

/-- `largest_command`: crates/tpm2-client/src/connection/tcp.rs:582-584, 571. -/
def largestCommand (resp : Bytes) : Nat := fromBE ((resp.drop 4).take 4)

/-- `largest_response_size`: crates/tpm2-client/src/connection/tcp.rs:586-588, 572. -/
def largestResponseSize (host : Endian) (resp : Bytes) : Nat := host.u32 ((resp.drop 8).take 4)

/-- `largest_response`: crates/tpm2-client/src/connection/tcp.rs:590-592, 573. -/
def largestResponse (resp : Bytes) : Nat := fromBE ((resp.drop 12).take 4)

/-- `act_get_signaled`: crates/tpm2-client/src/connection/tcp.rs:263-286. -/
def actGetSignaled (os : Os σ) (actHandle : Nat) : M σ Nat := do
  writeVectored os .plat (toBE 4 PlatCode.actGetSignaled.val ++ toBE 4 actHandle)
  let resp ← readLocal os .plat 4
  checkResponseEnd os .plat
  M.pure (fromBE resp)

/-- `set_firmware_hash`: crates/tpm2-client/src/connection/tcp.rs:294-312. -/
def setFirmwareHash (os : Os σ) (hash : Nat) : M σ Unit := do
  writeVectored os .plat (toBE 4 PlatCode.setFirmwareHash.val ++ toBE 4 hash)
  checkResponseEnd os .plat

/-- `set_firmware_svn`: crates/tpm2-client/src/connection/tcp.rs:320-336. -/
def setFirmwareSvn (os : Os σ) (svn : Nat) : M σ Unit := do
  writeVectored os .plat (toBE 4 PlatCode.setFirmwareSvn.val ++ toBE 4 svn)
  checkResponseEnd os .plat

/-- `set_locality`: crates/tpm2-client/src/connection/tcp.rs:339-341. -/
def setLocality (locality : Nat) : M σ Unit := fun c =>
  (.ok (), { c with locality := locality })

/-- `session_end`: crates/tpm2-client/src/connection/tcp.rs:349-359. -/
def sessionEnd (os : Os σ) : M σ Unit := do
  writeAll os .tpm (toBE 4 TpmCode.sessionEnd.val)
  shutdown os .tpm
  writeAll os .plat (toBE 4 PlatCode.sessionEnd.val)
  shutdown os .plat

/-- `stop_simulator`: crates/tpm2-client/src/connection/tcp.rs:366-376. -/
def stopSimulator (os : Os σ) : M σ Unit := do
  writeAll os .tpm (toBE 4 TpmCode.stop.val)
  shutdown os .tpm
  writeAll os .plat (toBE 4 PlatCode.stop.val)
  shutdown os .plat

/-- What `transact` sends: crates/tpm2-client/src/connection/tcp.rs:400-410
with the header of lines 465-470. -/
def sendFrame (locality : Nat) (command : Bytes) : Bytes :=
  toBE 4 TpmCode.sendCommand.val ++ (toBE 1 locality ++ toBE 4 command.length) ++ command

/-- `transact`: crates/tpm2-client/src/connection/tcp.rs:392-433.  Returns the
length of the returned slice and the response buffer, also on failure. -/
def transact (os : Os σ) (command response : Bytes) (c : Conn σ) :
    Except IoErr Nat × Bytes × Conn σ :=
  if 2 ^ 32 ≤ command.length then (.error .invalidInput, response, c)
  else
    match writeVectored os .tpm (sendFrame c.locality command) c with
    | (.error e, c) => (.error e, response, c)
    | (.ok _, c) =>
      match readLocal os .tpm 4 c with
      | (.error e, c) => (.error e, response, c)
      | (.ok hdr, c) =>
        let length := fromBE hdr
        if length > response.length then (.error .invalidInput, response, c)
        else
          match readExact os .tpm length c with
          | (.error e, b, c) => (.error e, b ++ response.drop b.length, c)
          | (.ok _, b, c) =>
            let response := b ++ response.drop b.length
            match checkResponseEnd os .tpm c with
            | (.error e, c) => (.error e, response, c)
            | (.ok _, c) => (.ok length, response, c)

/-! ### Connecting -/

/-- `connect`: crates/tpm2-client/src/connection/tcp.rs:50-63. -/
def connect (os : Os σ) (tpmPort platPort : Option Nat) (s : σ) : Except IoErr (Conn σ) × σ :=
  match os.connect s .tpm (tpmPort.getD 2321) with
  | (.error e, s) => (.error e, s)
  | (.ok _, s) =>
    match os.connect s .plat (platPort.getD 2322) with
    | (.error e, s) => (.error e, s)
    | (.ok _, s) => (.ok ⟨s, 0, []⟩, s)

/-- The loop of `connect_with_retries` (crates/tpm2-client/src/connection/tcp.rs:77-88)
after `attempts` attempts. -/
def retryLoop {α : Type} (attempt : σ → Except IoErr α × σ) (sleep : σ → σ) (attempts : Nat)
    (s : σ) : Except IoErr α × σ :=
  match attempt s with
  | (.ok conn, s) => (.ok conn, s)
  | (.error err, s) =>
    if attempts + 1 > 3 then (.error err, s)
    else retryLoop attempt sleep (attempts + 1) (sleep s)
  termination_by 4 - attempts

/-- `connect_with_retries`: crates/tpm2-client/src/connection/tcp.rs:71-90. -/
def connectWithRetries (os : Os σ) (tpmPort platPort : Option Nat) (s : σ) :
    Except IoErr (Conn σ) × σ :=
  retryLoop (connect os tpmPort platPort) os.sleep 0 s

end Verif.Tcp
