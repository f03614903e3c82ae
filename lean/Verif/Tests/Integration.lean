import Verif.EndToEnd.StandardProps
import Verif.EndToEnd.Random

/-!
The integration tests of crates/tpm2-client/tests, which need a simulator, as programs over a
connection: they succeed with every simulator whose TPM does what they expect (C111).
-/

namespace Verif.Tests
open Verif Verif.Base Verif.Errors Verif.Client Verif.Tcp Verif.EndToEnd

set_option maxRecDepth 8000

variable {σ τ : Type} {os : Os σ} {d : Device τ} {obs : σ → World τ} {known : Command → Prop}
  {tpm : Tpm τ}

/-! ### The tests -/

/-- `StartupCmd` with `TpmSu::Clear`: crates/tpm2-client/tests/simulator.rs:55-57, 64-66,
base/src/commands/startup.rs:9-20. -/
def startupClear : Command := ⟨Cc.Startup, .unit, .unit, StartupCmd, .struct [.struct [.int 0]], .unit, .unit⟩

/-- `GetRandomCmd`: base/src/commands/random.rs:8-18. -/
def randomCommand (n : Nat) : Command :=
  ⟨Cc.GetRandom, .unit, .unit, GetRandomCmd, .struct [.int n], GetRandomResp, .unit⟩

/-- The command of crates/tpm2-client/tests/commands/capability.rs:21-25. -/
def manufacturerCommand : Command :=
  ⟨Cc.GetCapability, .unit, .unit, GetCapabilityCmd,
    .struct [.struct [.int 6], .struct [.int 0x105], .int 1], GetCapabilityResp, .unit⟩

/-- `get_started_tpm` with what is done then: crates/tpm2-client/tests/simulator.rs:39-51, 62-69.
The result of a test is what it asserts, `False` where it panics.  Simplified: the simulator runs
already (C69, C91). -/
def withStarted (k : Prog Prop) : Prog Prop :=
  .call (.op .reinit) fun _ => .call (.command startupClear area0) fun
    | .result (.ok _) => k
    | _ => .done False

/-- `test_startup_tpm`: crates/tpm2-client/tests/simulator.rs:53-60. -/
def testStartup : Prog Prop := withStarted (.done True)

/-- `TpmsTaggedProperty`: crates/tpm2-client/tests/commands/capability.rs:16-19. -/
def property (p v : Nat) : Val := .struct [.struct [.int p], .int v]

/-- `expected`: crates/tpm2-client/tests/commands/capability.rs:11-19. -/
def expectedProperties (v : Nat) : Val :=
  .struct [.int 1, .arr (property 0x105 v :: List.replicate 126 (property 0 0))]

/-- `test_get_capability_manufacturer_id`:
crates/tpm2-client/tests/commands/capability.rs:7-39. -/
def testManufacturer : Prog Prop :=
  withStarted (.call (.command manufacturerCommand area0) fun
    | .result (.ok (.struct [_, .enum 6 [received]], _)) =>
      .done (received = expectedProperties 0x58595A20)
    | _ => .done False)

/-- The number of bytes that equal the one before:
crates/tpm2-client/tests/commands/random.rs:28-32. -/
def sameTwice (b : Bytes) : Nat := ((b.zip (b.drop 1)).filter fun p => p.1 == p.2).length

/-- `test_get_random_duplicate_value_trap`:
crates/tpm2-client/tests/commands/random.rs:7-38. -/
def testDuplicates : Prog Prop :=
  withStarted (.call (.command (randomCommand 32) area0) fun
    | .result (.ok (resp, _)) =>
      .done ((randomBytes resp).length = 32 ∧
        sameTwice (randomBytes resp) < (randomBytes resp).length / 2)
    | _ => .done False)

/-- `test_get_random_large_sizes`: crates/tpm2-client/tests/commands/random.rs:40-75. -/
def testLarge : Prog Prop :=
  withStarted (.call (.command (randomCommand 0xFFF) area0) fun
    | .result (.ok (resp, _)) =>
      .call (.command (randomCommand 0xFFFF) area0) fun
        | .result (.ok (resp', _)) =>
          .done ((randomBytes resp).length ≤ 64 ∧ 32 ≤ (randomBytes resp).length ∧
            (randomBytes resp).length = (randomBytes resp').length)
        | _ => .done False
    | _ => .done False)

/-- `test_get_random_small_sizes`: crates/tpm2-client/tests/commands/random.rs:77-94. -/
def testSmall : Prog Prop :=
  withStarted (.call (.command (randomCommand 0) area0) fun
    | .result (.ok (resp, _)) => .done ((randomBytes resp).length = 0)
    | _ => .done False)

/-! ### What they expect of the TPM -/

/-- A `TPM2B_DIGEST` with these bytes. -/
def digest (b : Bytes) : Val := .struct [.tpm2b b.length (b ++ List.replicate (64 - b.length) 0)]

/-- The answer to the question for the manufacturer. -/
def manufacturerAnswer (more v : Nat) : Val :=
  .struct [.struct [.int more], .enum 6 [expectedProperties v]]

/-- A TPM as the standard describes: after it was switched off and on it can be started; then it
gives as many random bytes as it is asked for, but at most `most`, and knows its manufacturer. -/
structure Usable (d : Device τ) (tpm : Tpm τ) (most manufacturer : Nat) (running : τ → Prop) : Prop where
  startup : ∀ t l, ∃ t', tpm ([Plain.signal .nvOff, .signal .powerOff, .signal .powerOn,
    .signal .nvOn].foldl d.perform t) l startupClear [] = (.success .unit .unit [], t') ∧ running t'
  random : ∀ t l n, running t → n < 65536 → ∃ b t',
    tpm t l (randomCommand n) [] = (.success .unit (digest b) [], t') ∧ running t' ∧
      b.length = min n most
  capability : ∀ t l, running t → ∃ more t',
    tpm t l manufacturerCommand [] = (.success .unit (manufacturerAnswer more manufacturer) [], t') ∧
      more < 256 ∧ running t'

/-- How many bytes are the same as the one before. -/
def repeats : Bytes → Nat
  | x :: y :: r => (if x = y then 1 else 0) + repeats (y :: r)
  | _ => 0

/-- The commands of the tests. -/
inductive Tested : Command → Prop
  | startup : Tested startupClear
  | random {n} : n < 65536 → Tested (randomCommand n)
  | capability : Tested manufacturerCommand

/-! ### Proof -/

theorem sameTwice_eq : ∀ b : Bytes, sameTwice b = repeats b
  | [] => rfl
  | [_] => rfl
  | x :: y :: r => by
    have ih := sameTwice_eq (y :: r)
    unfold sameTwice at ih ⊢
    simp only [List.drop_succ_cons, List.drop_zero, List.zip_cons_cons, repeats] at ih ⊢
    rw [← ih, List.filter_cons]
    by_cases h : x = y
    · simp only [h, beq_self_eq_true, if_true, List.length_cons]; omega
    · simp only [beq_iff_eq, h, if_false, Nat.zero_add]

theorem no_sessions {s : Session} {P : Prop} (h : s ∈ area0.active) : P := by
  simp [area0, Area.active] at h

theorem startupClear_wf : CmdWF startupClear area0 :=
  ⟨by show 0x144 < 2 ^ 32; decide, trivial, ⟨⟨by decide, trivial⟩, trivial⟩, fun _ h => no_sessions h⟩

theorem randomCommand_wf {n : Nat} (h : n < 65536) : CmdWF (randomCommand n) area0 :=
  ⟨by show 0x17B < 2 ^ 32; decide, trivial, ⟨h, trivial⟩, fun _ h => no_sessions h⟩

theorem manufacturerCommand_wf : CmdWF manufacturerCommand area0 :=
  ⟨by show 0x17A < 2 ^ 32; decide, trivial, ⟨⟨by decide, trivial⟩, ⟨by decide, trivial⟩, by decide, trivial⟩,
    fun _ h => no_sessions h⟩

theorem randomCommand_fits (n : Nat) : (commandBytes (randomCommand n) area0.active).length ≤ 4096 := by
  rw [commandBytes_length]
  simp [commandBody, randomCommand, area0, Area.active, authArea, wire, GetRandomCmd, S, plains,
    wireFields, u16]

theorem digest_wf {b : Bytes} (h : b.length ≤ 64) : WF GetRandomResp (digest b) := by
  refine ⟨⟨by omega, ?_, h⟩, trivial⟩
  rw [List.length_append, List.length_replicate]
  omega

theorem digest_bytes {b : Bytes} : randomBytes (canon GetRandomResp (digest b)) = b := by
  simp only [digest, GetRandomResp, S, plains, canon, canonFields, Tpm2bDigest, randomBytes]
  rw [List.take_left' rfl, List.take_left' rfl]

theorem digest_fits {b : Bytes} (n : Nat) (h : b.length ≤ 64) :
    ((Answer.success .unit (digest b) []).bytes (randomCommand n) (!area0.active.isEmpty)).length ≤
      4096 := by
  simp only [Answer.bytes, responseBytes, responseBody, randomCommand, digest, GetRandomResp, S, plains,
    wire, wireFields, Tpm2bDigest, wires, List.length_append, digits256_length, List.length_take,
    area0, Area.active, List.map_nil, List.flatten_nil, List.length_nil, List.length_replicate]
  simp
  omega

theorem manufacturerAnswer_canon (more v : Nat) :
    canon GetCapabilityResp (manufacturerAnswer more v) = manufacturerAnswer more v := rfl

theorem manufacturerAnswer_wf {more v : Nat} (hm : more < 256) (hv : v < 2 ^ 32) :
    WF GetCapabilityResp (manufacturerAnswer more v) := by
  refine ⟨⟨hm, trivial⟩, ⟨by decide, ?_⟩, trivial⟩
  refine ⟨⟨by decide, ?_⟩, trivial⟩
  refine ⟨by rfl, by decide, ?_, trivial⟩
  intro e he
  have : e = property 0x105 v := by
    simpa [asUsize] using he
  subst this
  exact ⟨⟨by decide, trivial⟩, hv, trivial⟩

theorem manufacturerAnswer_fits (more v : Nat) :
    ((Answer.success .unit (manufacturerAnswer more v) []).bytes manufacturerCommand
      (!area0.active.isEmpty)).length ≤ 4096 := by
  have : (wire GetCapabilityResp (manufacturerAnswer more v)).length = 17 := by
    show (digits256 1 more ++ [] ++ ((digits256 4 6 ++ ((digits256 4 1 ++ (([property 0x105 v].map
      fun e => wire TpmsTaggedProperty e).flatten ++ [])) ++ [])) ++ [])).length = 17
    have hp : (wire TpmsTaggedProperty (property 0x105 v)).length = 8 := by
      show ((digits256 4 0x105 ++ []) ++ (digits256 4 v ++ [])).length = 8
      simp
    simp only [List.map_cons, List.map_nil, List.flatten_cons, List.flatten_nil, List.length_append,
      digits256_length, hp, List.length_nil]
  simp only [Answer.bytes, responseBytes, responseBody, List.length_append, digits256_length]
  show _ + (_ + _ + (wire GetCapabilityResp (manufacturerAnswer more v)).length + _) ≤ 4096
  rw [this]
  simp [area0, Area.active, wires, manufacturerCommand, wire]

variable {most manufacturer : Nat} {running : τ → Prop}

theorem started_meets (hu : Usable d tpm most manufacturer running) (hk : ∀ c, Tested c → known c)
    (l : Nat) (t : τ) (k : Prog Prop) (P : τ → Prop → Prop)
    (h : ∀ t1, running t1 → ∃ p t', k.Meets d known tpm l t1 p l t' ∧ P t' p) :
    ∃ p t', (withStarted k).Meets d known tpm l t p l t' ∧ P t' p := by
  obtain ⟨t1, h1, h2⟩ := hu.startup t l
  obtain ⟨p, t', h3, h4⟩ := h t1 h2
  refine ⟨p, t', ?_, h4⟩
  refine .other (o := .done) (by simp) rfl ?_
  exact .success (hk _ .startup) startupClear_wf (by decide) h1 trivial trivial (by simp) (by decide)
    trivial h3

theorem random_meets (hu : Usable d tpm most manufacturer running) (hk : ∀ c, Tested c → known c)
    (hm : most ≤ 64) (l : Nat) (t : τ) (n : Nat) (hn : n < 65536) (ht : running t) :
    ∃ b t1, running t1 ∧ b.length = min n most ∧
      tpm t l (randomCommand n) [] = (.success .unit (digest b) [], t1) ∧
      ∀ (k : Out → Prog Prop) p t', (k (.result (.ok (canon GetRandomResp (digest b), .unit)))).Meets d known tpm
        l t1 p l t' → (Prog.call (.command (randomCommand n) area0) k).Meets d known tpm l t p l t' := by
  obtain ⟨b, t1, h1, h2, h3⟩ := hu.random t l n ht hn
  refine ⟨b, t1, h2, h3, h1, fun k p t' h => ?_⟩
  have hb : b.length ≤ 64 := by omega
  exact .success (hk _ (.random hn)) (randomCommand_wf hn) (randomCommand_fits n) h1 trivial
    (digest_wf hb) (by simp) (digest_fits n hb) trivial h

/-- Programs without arguments that could be out of range. -/
theorem withStarted_calls (P : Call → Prop) (h1 : P (.op .reinit)) (h2 : ∀ c a, P (.command c a))
    (k : Prog Prop) (hk : k.Calls P) : (withStarted k).Calls P := by
  refine ⟨h1, fun _ => ⟨h2 _ _, fun o => ?_⟩⟩
  dsimp only
  split
  · exact hk
  · trivial

theorem tests_calls (P : Call → Prop) (h1 : P (.op .reinit)) (h2 : ∀ c a, P (.command c a)) :
    testStartup.Calls P ∧ testManufacturer.Calls P ∧ testDuplicates.Calls P ∧ testLarge.Calls P ∧
      testSmall.Calls P := by
  refine ⟨withStarted_calls P h1 h2 _ trivial, withStarted_calls P h1 h2 _ ⟨h2 _ _, fun o => ?_⟩,
    withStarted_calls P h1 h2 _ ⟨h2 _ _, fun o => ?_⟩, withStarted_calls P h1 h2 _ ⟨h2 _ _, fun o => ?_⟩,
    withStarted_calls P h1 h2 _ ⟨h2 _ _, fun o => ?_⟩⟩
  · dsimp only; split <;> trivial
  · dsimp only; split <;> trivial
  · dsimp only
    split
    · refine ⟨h2 _ _, fun o => ?_⟩
      dsimp only
      split <;> trivial
    · trivial
  · dsimp only; split <;> trivial

/-! ### C111 -/

/-- **C111**: what the tests send, byte for byte: `TPM2_Startup(CLEAR)`, `TPM2_GetCapability` of one
property from `TPM_PT_MANUFACTURER` on, and `TPM2_GetRandom`, all without sessions. -/
theorem C111_requests :
    commandBytes startupClear area0.active = [0x80, 1, 0, 0, 0, 12, 0, 0, 1, 0x44, 0, 0] ∧
    commandBytes manufacturerCommand area0.active =
      [0x80, 1, 0, 0, 0, 22, 0, 0, 1, 0x7A, 0, 0, 0, 6, 0, 0, 1, 5, 0, 0, 0, 1] ∧
    ∀ hi lo : UInt8, commandBytes (randomCommand (256 * hi.toNat + lo.toNat)) area0.active =
      [0x80, 1, 0, 0, 0, 12, 0, 0, 1, 0x7B, hi, lo] := by
  refine ⟨by decide, by decide, fun hi lo => ?_⟩
  have h : digits256 2 (256 * hi.toNat + lo.toNat) = [hi, lo] := by
    have := digits256_positional [hi, lo]
    simpa [positional, Nat.mul_comm] using this
  have hb : commandBody (randomCommand (256 * hi.toNat + lo.toNat)) area0.active = [hi, lo] := by
    simp only [commandBody, randomCommand, area0, Area.active, GetRandomCmd, S, plains, wire,
      wireFields, u16, h, List.nil_append, List.append_nil]
    rfl
  have h1 : digits256 2 (if area0.active.isEmpty then 0x8001 else 0x8002) = [0x80, 1] := by decide
  have h2 : digits256 4 (10 + [hi, lo].length) = [0, 0, 0, 12] := (by decide : digits256 4 12 = _)
  have h3 : digits256 4 (randomCommand (256 * hi.toNat + lo.toNat)).code = [0, 0, 1, 0x7B] :=
    (by decide : digits256 4 Cc.GetRandom = _)
  unfold commandBytes
  rw [hb, h1, h2, h3]
  rfl

/-- **C111**: the integration tests succeed with every simulator whose TPM has digests of 32 to 64
bytes and the expected manufacturer, over an operating system that does not fail; the one about
repeated bytes if the TPM does not repeat every second byte. -/
theorem C111_tests (hl : Willing os d obs) (hc : Conforms d known tpm)
    (hu : Usable d tpm most 0x58595A20 running) (hk : ∀ c, Tested c → known c) (h32 : 32 ≤ most)
    (h64 : most ≤ 64) (c : Conn σ) (hq : (obs c.net).Quiet) (hlt : c.locality < 256) :
    (∀ test ∈ [testStartup, testManufacturer, testLarge, testSmall],
      ∃ p c', test.play os c = (.ok p, c') ∧ p ∧ (obs c'.net).Quiet) ∧
    ∃ p c', testDuplicates.play os c = (.ok p, c') ∧ (obs c'.net).Quiet ∧
      ∃ t b t', running t ∧
        tpm t c.locality (randomCommand 32) [] = (.success .unit (digest b) [], t') ∧
        (p ↔ repeats b < 16) := by
  have key : ∀ test : Prog Prop, test.Calls Call.Typed → test.Calls Call.Short →
      ∀ P : Prop → Prop, (∃ p t', test.Meets d known tpm c.locality (obs c.net).dev p c.locality t' ∧ P p) →
      ∃ p c', test.play os c = (.ok p, c') ∧ (obs c'.net).Quiet ∧ P p := by
    rintro test h1 h2 P ⟨p, t', h3, h4⟩
    obtain ⟨c', h5, -, -, h6⟩ := C111_completes hl hc test h1 h2 c hq hlt p _ t' h3
    exact ⟨p, c', h5, h6, h4⟩
  have ty := tests_calls Call.Typed trivial (fun _ _ => trivial)
  have sh := tests_calls Call.Short trivial (fun _ _ => trivial)
  constructor
  · intro test htest
    have : ∃ p c', test.play os c = (.ok p, c') ∧ (obs c'.net).Quiet ∧ p := by
      simp only [List.mem_cons, List.not_mem_nil, or_false] at htest
      rcases htest with rfl | rfl | rfl | rfl
      · refine key _ ty.1 sh.1 id (started_meets hu hk _ _ _ (fun _ p => p) fun t1 _ => ?_)
        exact ⟨True, t1, .done, trivial⟩
      · refine key _ ty.2.1 sh.2.1 id (started_meets hu hk _ _ _ (fun _ p => p) fun t1 ht => ?_)
        obtain ⟨more, t2, h1, h2, -⟩ := hu.capability t1 c.locality ht
        refine ⟨_, t2, .success (hk _ .capability) manufacturerCommand_wf (by decide) h1 trivial
          (manufacturerAnswer_wf h2 (by decide)) (by simp) (manufacturerAnswer_fits _ _) trivial .done, ?_⟩
        rfl
      · refine key _ ty.2.2.2.1 sh.2.2.2.1 id (started_meets hu hk _ _ _ (fun _ p => p) fun t1 ht => ?_)
        obtain ⟨b, t2, h1, h2, -, h3⟩ := random_meets hu hk h64 c.locality t1 0xFFF (by decide) ht
        obtain ⟨b', t3, h1', h2', -, h3'⟩ := random_meets hu hk h64 c.locality t2 0xFFFF (by decide) h1
        refine ⟨_, t3, h3 _ _ _ (h3' _ _ _ .done), ?_⟩
        simp only [digest_bytes]
        omega
      · refine key _ ty.2.2.2.2 sh.2.2.2.2 id (started_meets hu hk _ _ _ (fun _ p => p) fun t1 ht => ?_)
        obtain ⟨b, t2, h1, h2, -, h3⟩ := random_meets hu hk h64 c.locality t1 0 (by decide) ht
        refine ⟨_, t2, h3 _ _ _ .done, ?_⟩
        simp only [digest_bytes]
        omega
    obtain ⟨p, c', h1, h2, h3⟩ := this
    exact ⟨p, c', h1, h3, h2⟩
  · refine key _ ty.2.2.1 sh.2.2.1 (fun p => ∃ t b t', running t ∧
      tpm t c.locality (randomCommand 32) [] = (.success .unit (digest b) [], t') ∧
      (p ↔ repeats b < 16)) (started_meets hu hk _ _ _ (fun _ p => ∃ t b t', running t ∧
      tpm t c.locality (randomCommand 32) [] = (.success .unit (digest b) [], t') ∧
      (p ↔ repeats b < 16)) fun t1 ht => ?_)
    obtain ⟨b, t2, h1, h2, h0, h3⟩ := random_meets hu hk h64 c.locality t1 32 (by decide) ht
    refine ⟨_, t2, h3 _ _ _ .done, t1, b, t2, ht, h0, ?_⟩
    simp only [digest_bytes, sameTwice_eq]
    have : b.length = 32 := by omega
    simp [this]

/-! ### Cases -/

/-- As many different bytes as asked for, but at most 64. -/
def pattern (n : Nat) : Bytes := (List.range (min n 64)).map UInt8.ofNat

theorem pattern_length (n : Nat) : (pattern n).length = min n 64 := by simp [pattern]

/-- What the TPM below answers when it runs or not, given the bytes behind the size of a command
without sessions. -/
def exAnswer (t : Bool) (b : Bytes) : Bytes × Bool :=
  if b = [0, 0, 1, 0x44, 0, 0] then ((Answer.success .unit .unit []).bytes startupClear false, true)
  else if t = false then ((Answer.failure 0x100).bytes startupClear false, t)
  else if b.take 4 = [0, 0, 1, 0x7B] then
    ((Answer.success .unit (digest (pattern (positional (b.drop 4)))) []).bytes (randomCommand 0) false, t)
  else ((Answer.success .unit (manufacturerAnswer 1 0x58595A20) []).bytes manufacturerCommand false, t)

theorem exAnswer_lt (t : Bool) (b : Bytes) : (exAnswer t b).1.length < 2 ^ 32 := by
  unfold exAnswer
  refine Nat.lt_of_le_of_lt (m := 4096) ?_ (by decide)
  split
  · decide
  split
  · simp [Answer.bytes]
  split
  · exact digest_fits 0 (by rw [pattern_length]; omega)
  · exact manufacturerAnswer_fits _ _

/-- A simulator with a TPM that can be started, gives bytes and knows a manufacturer.  Not in the
repository. -/
def exDevice : Device Bool where
  perform t p := if p = .signal .powerOff then false else t
  leave t _ _ := t
  send t _ b :=
    if b.take 2 = [0x80, 1] then exAnswer t (b.drop 6)
    else ((Answer.failure 0x145).bytes startupClear false, t)
  send_lt t _ b := by
    split
    · exact exAnswer_lt _ _
    · show _ < _
      simp [Answer.bytes]
  handshake t _ := (none, t)
  handshake_lt t _ x y h := by simp at h
  sizes t := (List.replicate 16 0, t)
  sizes_length _ := by simp
  act t _ := (0, t)
  act_lt _ _ := by show 0 < 2 ^ 32; decide

/-- This TPM in terms of commands. -/
def exTpm : Tpm Bool := fun t _ c auths =>
  if auths ≠ [] then (.failure 0x145, t)
  else if c.code = 0x144 then (.success .unit .unit [], true)
  else if t = false then (.failure 0x100, t)
  else if c.code = 0x17B then
    (.success .unit (digest (pattern (match c.param with | .struct [.int n] => n | _ => 0))) [], t)
  else (.success .unit (manufacturerAnswer 1 0x58595A20) [], t)

theorem exDevice_plain (t : Bool) (l : Nat) (b : Bytes) (h : b.take 2 = [0x80, 1]) :
    exDevice.send t l b = exAnswer t (b.drop 6) := by
  unfold exDevice
  dsimp only
  rw [if_pos h]

theorem exDevice_sessions (t : Bool) (l : Nat) (b : Bytes) (h : b.take 2 ≠ [0x80, 1]) :
    exDevice.send t l b = ((Answer.failure 0x145).bytes startupClear false, t) := by
  unfold exDevice
  dsimp only
  rw [if_neg h]

theorem exTpm_startup (t : Bool) (l : Nat) : exTpm t l startupClear [] =
    (.success .unit .unit [], true) := rfl

theorem exTpm_off (l : Nat) (c : Command) (h : c.code ≠ 0x144) :
    exTpm false l c [] = (.failure 0x100, false) := by
  unfold exTpm
  rw [if_neg (fun x => x rfl), if_neg h, if_pos rfl]

theorem exTpm_random (l n : Nat) : exTpm true l (randomCommand n) [] =
    (.success .unit (digest (pattern n)) [], true) := rfl

theorem exTpm_capability (l : Nat) : exTpm true l manufacturerCommand [] =
    (.success .unit (manufacturerAnswer 1 0x58595A20) [], true) := rfl

theorem startup_bytes : commandBytes startupClear [] =
    [0x80, 1, 0, 0, 0, 12, 0, 0, 1, 0x44, 0, 0] := by decide

theorem random_bytes (n : Nat) : commandBytes (randomCommand n) [] =
    [0x80, 1, 0, 0, 0, 12] ++ ([0, 0, 1, 0x7B] ++ digits256 2 n) := by
  have hb : commandBody (randomCommand n) [] = digits256 2 n := by
    simp [commandBody, randomCommand, authArea, wire, GetRandomCmd, S, plains, wireFields, u16]
  have h1 : digits256 2 0x8001 ++ digits256 4 12 ++ digits256 4 0x17B =
      ([0x80, 1, 0, 0, 0, 12, 0, 0, 1, 0x7B] : Bytes) := by decide
  have h2 : commandBytes (randomCommand n) [] =
      digits256 2 0x8001 ++ digits256 4 12 ++ digits256 4 0x17B ++ digits256 2 n := by
    simp only [commandBytes, hb, digits256_length, List.isEmpty_nil, if_true]
    rfl
  rw [h2, h1]
  rfl

theorem manufacturer_bytes : commandBytes manufacturerCommand [] =
    [0x80, 1, 0, 0, 0, 22, 0, 0, 1, 0x7A, 0, 0, 0, 6, 0, 0, 1, 5, 0, 0, 0, 1] := by decide

theorem exAnswer_random (t : Bool) (n : Nat) (hn : n < 65536) :
    exAnswer t ([0, 0, 1, 0x7B] ++ digits256 2 n) =
      if t = false then ((Answer.failure 0x100).bytes startupClear false, t)
      else ((Answer.success .unit (digest (pattern n)) []).bytes (randomCommand 0) false, t) := by
  unfold exAnswer
  have h1 : ([0, 0, 1, 0x7B] ++ digits256 2 n : Bytes).take 4 = [0, 0, 1, 0x7B] := List.take_left' rfl
  have h2 : ([0, 0, 1, 0x7B] ++ digits256 2 n : Bytes).drop 4 = digits256 2 n := List.drop_left' rfl
  rw [if_neg (by intro h; simp at h), if_pos h1, h2, positional_digits256_of_lt (by simpa using hn)]

theorem exAnswer_capability (t : Bool) :
    exAnswer t [0, 0, 1, 0x7A, 0, 0, 0, 6, 0, 0, 1, 5, 0, 0, 0, 1] =
      if t = false then ((Answer.failure 0x100).bytes startupClear false, t)
      else ((Answer.success .unit (manufacturerAnswer 1 0x58595A20) []).bytes manufacturerCommand false,
        t) := by
  unfold exAnswer
  rw [if_neg (by decide), if_neg (by decide : ¬ ([0, 0, 1, 0x7A, 0, 0, 0, 6, 0, 0, 1, 5, 0, 0, 0, 1] :
    Bytes).take 4 = [0, 0, 1, 0x7B])]

theorem exDevice_conforms : Conforms exDevice Tested exTpm := by
  intro t l c a hk hw
  by_cases ha : a.active = []
  · rw [ha]
    cases hk with
    | startup =>
      rw [exDevice_plain _ _ _ (by rw [startup_bytes]; rfl), startup_bytes, List.map_nil, exTpm_startup]
      rfl
    | @random n hn =>
      rw [exDevice_plain _ _ _ (by rw [random_bytes]; rfl), random_bytes, List.map_nil]
      refine (exAnswer_random t n hn).trans ?_
      cases t with
      | false => rw [exTpm_off _ _ (by show 0x17B ≠ 0x144; decide)]; rfl
      | true => rw [exTpm_random]; rfl
    | capability =>
      rw [exDevice_plain _ _ _ (by rw [manufacturer_bytes]; rfl), manufacturer_bytes, List.map_nil]
      refine (exAnswer_capability t).trans ?_
      cases t with
      | false => rw [exTpm_off _ _ (by decide)]; rfl
      | true => rw [exTpm_capability]; rfl
  · have h1 : (commandBytes c a.active).take 2 = [0x80, 2] := by
      unfold commandBytes
      have : a.active.isEmpty = false := by simpa using ha
      rw [this, List.append_assoc, List.append_assoc, List.take_left' (by simp)]
      rfl
    have h3 : exTpm t l c (a.active.map (·.authCommand)) = (.failure 0x145, t) :=
      if_pos (by simpa using ha)
    rw [exDevice_sessions _ _ _ (by rw [h1]; decide), h3]
    rfl

theorem exTpm_usable : Usable exDevice exTpm 64 0x58595A20 (· = true) where
  startup t l := ⟨true, rfl, rfl⟩
  random t l n ht hn := by
    subst ht
    exact ⟨pattern n, true, rfl, rfl, pattern_length n⟩
  capability t l ht := by
    subst ht
    exact ⟨1, true, rfl, by decide, rfl⟩

/-- The tests succeed with it; so does the one about repeated bytes. -/
example : (∃ p c', testManufacturer.play (refOs exDevice) ⟨World.start false, 0, []⟩ = (.ok p, c') ∧ p) ∧
    ∃ p c', testDuplicates.play (refOs exDevice) ⟨World.start false, 0, []⟩ = (.ok p, c') ∧ p := by
  obtain ⟨h1, p, c', h2, -, t, b, t', ht, h3, h4⟩ :=
    C111_tests (refOs_willing exDevice) exDevice_conforms exTpm_usable (fun _ h => h) (by decide)
      (by decide) ⟨World.start false, 0, []⟩ (World.start_quiet _) (by decide)
  obtain ⟨q, c1, h5, h6, -⟩ := h1 testManufacturer (by simp)
  refine ⟨⟨q, c1, h5, h6⟩, p, c', h2, h4.2 ?_⟩
  subst ht
  have : b = pattern 32 := by
    have := congrArg (fun x : Answer × Bool => match x.1 with
      | .success _ (.struct [.tpm2b n x]) _ => x.take n
      | _ => []) h3
    simp only [digest, List.take_left'] at this
    exact this.symm
  subst this
  decide

end Verif.Tests
