import Verif.Client.Lemmas
import Verif.Codec.Check

/-
Property theorems C31-C39: the client.
-/

namespace Verif.Client
open Verif Verif.Base Verif.Errors

set_option maxRecDepth 8000

/-! ### Commands, transports and responses used in the examples -/

/-- GetRandom for `n` bytes: base/src/commands/random.rs:8-24. -/
def getRandomCommand (n : Nat) : Command :=
  ⟨Cc.GetRandom, .unit, .unit, GetRandomCmd, .struct [.int n], GetRandomResp, .unit⟩

/-- A transport that writes the given bytes to the response buffer, reports
`n` bytes and counts its calls. -/
def replay (rsp : Bytes) (n : Nat) (hn : n ≤ rsp.length) : Transport Nat Unit where
  transact s _ buf :=
    if rsp.length ≤ buf.length then
      (.reported n, rsp ++ buf.drop rsp.length, s + 1)
    else (.failed (), buf, s + 1)
  keeps_length := by
    intro s cmd buf
    split
    · simp; omega
    · rfl
  reports_slice := by
    intro s cmd buf k h
    split at h
    · injection h with h; omega
    · simp at h

theorem replay_transact (rsp : Bytes) (n : Nat) (hn : n ≤ rsp.length) (s : Nat) (cmd : Bytes)
    (h : rsp.length ≤ 4096) :
    (replay rsp n hn).transact s cmd (List.replicate 4096 0) =
      (.reported n, rsp ++ (List.replicate 4096 0).drop rsp.length, s + 1) := by
  unfold replay
  dsimp only
  rw [if_pos (by rw [List.length_replicate]; exact h)]

/-- The authorization with password "ab". -/
def exSession : Session :=
  passwordSession (.tpm2b 2 ([0x61, 0x62] ++ List.replicate 62 0))

theorem exCmdWF : CmdWF (getRandomCommand 4) (area1 exSession) :=
  ⟨by decide, by decide, by decide, by
    intro s hs
    simp only [Area.active, area1, List.mem_singleton] at hs
    subst hs
    decide⟩

theorem exCmdWF0 (n : Nat) (h : n < 65536) : CmdWF (getRandomCommand n) area0 :=
  ⟨by show 0x17B < 2 ^ 32; decide, trivial, ⟨h, trivial⟩, by intro s hs; simp [Area.active, area0] at hs⟩

theorem exFit0 (n : Nat) : (commandBytes (getRandomCommand n) area0.active).length ≤ 4096 := by
  rw [commandBytes_length]
  simp [commandBody, getRandomCommand, area0, Area.active, authArea, wire, GetRandomCmd, S, plains,
    wireFields, u16]

theorem exFit : (commandBytes (getRandomCommand 4) (area1 exSession).active).length ≤ 4096 := by
  decide

/-! ### C31 -/

/-- **C31**: for all values of the right types (even with invalid length
fields): either nothing is handed to the transport, or exactly the specified
command is, once, with a zeroed buffer of 4096 bytes for the response; and its
size field holds its length. -/
theorem C31_framing {σ ε : Type} (tr : Transport σ ε) (c : Command) (a : Area) (s : σ)
    (hcode : c.code < 2 ^ 32)
    (hh : HasTy c.handlesTy c.handles) (hp : HasTy c.paramTy c.param)
    (ha : ∀ s ∈ a.active, HasTy TpmsAuthCommand s.authCommand)
    (hsent : (runCommandWithHandles (recording tr) c a (s, [])).state.2 ≠ []) :
    (runCommandWithHandles (recording tr) c a (s, [])).state.2 =
      [(commandBytes c a.active, List.replicate 4096 0)] ∧
    positional (((commandBytes c a.active).drop 2).take 4) = (commandBytes c a.active).length ∧
    (commandBytes c a.active).length ≤ 4096 := by
  obtain ⟨hw, hfit⟩ := run_wf (recording tr) c a (s, []) hcode hh hp ha
    (.inl fun h => hsent (by rw [h]))
  refine ⟨?_, ?_, hfit⟩
  · rw [run_eq (recording tr) c a (s, []) hw hfit]
    simp only [recording]
    rcases tr.transact s (commandBytes c a.active) (List.replicate 4096 0) with ⟨_ | _, _, _⟩ <;> rfl
  · have e : ((commandBytes c a.active).drop 2).take 4 =
        digits256 4 (10 + (commandBody c a.active).length) := by
      simp only [commandBytes, List.append_assoc]
      rw [List.drop_left' (by simp), List.take_left' (by simp)]
    rw [e, commandBytes_length, positional_digits256_of_lt]
    rw [commandBytes_length] at hfit
    omega

/-- **C31**, the other direction: a well-formed command that fits is handed
over; whatever was handed over before. -/
theorem C31_sent {σ ε : Type} (tr : Transport σ ε) (c : Command) (a : Area) (s : σ)
    (l : List (Bytes × Bytes))
    (h : CmdWF c a) (hfit : (commandBytes c a.active).length ≤ 4096) :
    (runCommandWithHandles (recording tr) c a (s, l)).state.2 =
      l ++ [(commandBytes c a.active, List.replicate 4096 0)] := by
  rw [run_eq (recording tr) c a (s, l) h hfit]
  simp only [recording]
  rcases tr.transact s (commandBytes c a.active) (List.replicate 4096 0) with ⟨_ | _, _, _⟩ <;> rfl

/-- **C31**: writing down the uses of the connection changes neither the result
nor the state of the connection. -/
theorem C31_recording {σ ε : Type} (tr : Transport σ ε) (c : Command) (a : Area) (s : σ)
    (l : List (Bytes × Bytes)) :
    (runCommandWithHandles (recording tr) c a (s, l)).result = (runCommandWithHandles tr c a s).result ∧
    (runCommandWithHandles (recording tr) c a (s, l)).state.1 =
      (runCommandWithHandles tr c a s).state := by
  unfold runCommandWithHandles
  rcases buildCommand c a with ⟨w | e | _, buf⟩
  · simp only
    rcases sliceTo buf w with _ | cmd
    · exact ⟨rfl, rfl⟩
    · simp only [recording]
      rcases tr.transact s cmd (List.replicate respBufferSize 0) with ⟨_ | _, _, _⟩ <;> exact ⟨rfl, rfl⟩
  · exact ⟨rfl, rfl⟩
  · exact ⟨rfl, rfl⟩

/-- GetRandom(4) with the password "ab" on the wire. -/
example (tr : Transport Nat Unit) :
    (runCommandWithHandles (recording tr) (getRandomCommand 4) (area1 exSession) (0, [])).state.2.map
        (·.1) =
      [[0x80, 0x02, 0, 0, 0, 27, 0, 0, 1, 0x7B, 0, 0, 0, 11,
        0x40, 0, 0, 9, 0, 0, 0, 0, 2, 0x61, 0x62, 0, 4]] := by
  rw [C31_sent tr _ _ 0 [] exCmdWF exFit]
  decide

example : commandBytes (getRandomCommand 4) area0.active =
    [0x80, 0x01, 0, 0, 0, 12, 0, 0, 1, 0x7B, 0, 4] := by decide

/-! ### C32 -/

/-- **C32**: if bytes 6 to 9 of the response hold a non-zero code, the result
is the error with exactly this code. -/
theorem C32_error_code {σ ε : Type} (tr : Transport σ ε) (c : Command) (a : Area) (s s' : σ)
    (h : CmdWF c a) (hfit : (commandBytes c a.active).length ≤ 4096) (n : Nat) (rsp : Bytes)
    (ht : tr.transact s (commandBytes c a.active) (List.replicate 4096 0) = (.reported n, rsp, s'))
    (hrc : positional ((rsp.drop 6).take 4) ≠ 0) :
    (runCommandWithHandles tr c a s).result =
      .err (.tss ⟨positional ((rsp.drop 6).take 4)⟩) := by
  have hl : rsp.length = 4096 := by
    have := tr.keeps_length s (commandBytes c a.active) (List.replicate 4096 0)
    rw [ht, List.length_replicate] at this; exact this
  rw [run_eq tr c a s h hfit, ht]
  simp only [readResponse_err c a rsp hl hrc, Res.mapErr]

/-- **C32** over whole executions: success is reported only after a response
with code zero. -/
theorem C32_success_code {σ ε : Type} (tr : Transport σ ε) (c : Command) (a : Area) (s : σ)
    (hcode : c.code < 2 ^ 32)
    (hh : HasTy c.handlesTy c.handles) (hp : HasTy c.paramTy c.param)
    (ha : ∀ s ∈ a.active, HasTy TpmsAuthCommand s.authCommand)
    (hok : (runCommandWithHandles tr c a s).result.isOk = true) :
    ∃ n rsp s', tr.transact s (commandBytes c a.active) (List.replicate 4096 0) =
      (.reported n, rsp, s') ∧ positional ((rsp.drop 6).take 4) = 0 := by
  obtain ⟨hw, hfit⟩ := run_wf tr c a s hcode hh hp ha (.inr hok)
  rcases ht : tr.transact s (commandBytes c a.active) (List.replicate 4096 0) with ⟨n | e, rsp, s'⟩
  · refine ⟨n, rsp, s', rfl, ?_⟩
    by_cases hrc : positional ((rsp.drop 6).take 4) = 0
    · exact hrc
    · rw [C32_error_code tr c a s s' hw hfit n rsp ht hrc] at hok
      simp [Res.isOk] at hok
  · rw [run_eq tr c a s hw hfit, ht] at hok
    simp [Res.isOk] at hok

/-- TPM_RC_INITIALIZE (0x100) comes back as such. -/
example : (runCommandWithHandles (replay [0x80, 0x01, 0, 0, 0, 10, 0, 0, 1, 0] 10 (by decide))
    (getRandomCommand 4) area0 0).result = .err (.tss ⟨0x100⟩) := by
  have := C32_error_code (replay [0x80, 0x01, 0, 0, 0, 10, 0, 0, 1, 0] 10 (by decide))
    (getRandomCommand 4) area0 0 1 (exCmdWF0 4 (by omega)) (exFit0 4) 10 _
    (replay_transact _ _ _ _ _ (by decide)) (by
      rw [List.drop_append_of_le_length (by decide), List.take_append_of_le_length (by decide)]
      decide)
  rw [this, List.drop_append_of_le_length (by decide), List.take_append_of_le_length (by decide)]
  rfl

/-! ### C33 -/

/-- **C33**: success means that the response buffer starts with header
(declared size, code zero), response handles, parameter size exactly if the tag
says sessions, response parameters and authorization responses, one per
session; the declared size is the length of exactly these and within the
receive buffer; and handles and parameters are the ones returned. -/
theorem C33_accounted {σ ε : Type} (tr : Transport σ ε) (c : Command) (a : Area) (s : σ)
    (hcode : c.code < 2 ^ 32)
    (hh : HasTy c.handlesTy c.handles) (hp : HasTy c.paramTy c.param)
    (ha : ∀ s ∈ a.active, HasTy TpmsAuthCommand s.authCommand) (p h : Val)
    (hok : (runCommandWithHandles tr c a s).result = .ok (p, h)) :
    ∃ n rsp s' r rest,
      tr.transact s (commandBytes c a.active) (List.replicate 4096 0) = (.reported n, rsp, s') ∧
      rsp = responseBytes c r ++ rest ∧ (responseBytes c r).length ≤ 4096 ∧
      r.WellFormed c ∧ r.params = p ∧ r.handles = h ∧ r.auths.length = a.active.length := by
  obtain ⟨hw, hfit⟩ := run_wf tr c a s hcode hh hp ha (.inr (by rw [hok]; rfl))
  rcases ht : tr.transact s (commandBytes c a.active) (List.replicate 4096 0) with ⟨n | e, rsp, s'⟩
  · have hl : rsp.length = 4096 := by
      have := tr.keeps_length s (commandBytes c a.active) (List.replicate 4096 0)
      rw [ht, List.length_replicate] at this; exact this
    rw [run_eq tr c a s hw hfit, ht] at hok
    have hr : readResponse c a rsp = .ok (p, h) := by
      change (readResponse c a rsp).mapErr _ = _ at hok
      revert hok; cases readResponse c a rsp <;> simp [Res.mapErr]
    obtain ⟨r, rest, h1, h2, h3, h4, -, -, -, h8⟩ := (readResponse_ok_iff c a rsp hl p h).1 hr
    refine ⟨n, rsp, s', r, rest, rfl, h2, ?_, h1, h3, h4, ?_⟩
    · rw [h2, List.length_append] at hl; omega
    · have : ∀ (ss : List Session) (vs : List Val), Accepted ss vs → vs.length = ss.length := by
        intro ss
        induction ss with
        | nil => intro vs h; cases vs <;> simp [Accepted] at h ⊢
        | cons x xs ih =>
          intro vs h
          cases vs with
          | nil => simp [Accepted] at h
          | cons v vs => simp only [Accepted] at h; simp [ih vs h.2]
      exact this _ _ h8
  · rw [run_eq tr c a s hw hfit, ht] at hok
    simp at hok

/-- A response with two random bytes. -/
def exResponse : Response :=
  ⟨0x8001, .unit, 0, .struct [.tpm2b 2 ([0xAA, 0xBB] ++ List.replicate 62 0)], []⟩

theorem exResponse_bytes : responseBytes (getRandomCommand 2) exResponse =
    [0x80, 0x01, 0, 0, 0, 14, 0, 0, 0, 0, 0, 2, 0xAA, 0xBB] := by decide

theorem exResponse_wf : exResponse.WellFormed (getRandomCommand 2) :=
  ⟨by decide, by decide, trivial, by decide, by simp [exResponse]⟩

/-! ### C34 -/

/-- **C34**: for every well-formed response content that fits the receive
buffer, whatever follows it in the buffer: if the sessions accept the
authorization responses, the client returns exactly these handles and
parameters (in canonical form: bytes beyond a size and slots beyond a count are
not transmitted). -/
theorem C34_delivered {σ ε : Type} (tr : Transport σ ε) (c : Command) (a : Area) (s s' : σ)
    (h : CmdWF c a) (hfit : (commandBytes c a.active).length ≤ 4096) (n : Nat) (r : Response)
    (rest : Bytes) (hr : r.WellFormed c)
    (ht : tr.transact s (commandBytes c a.active) (List.replicate 4096 0) =
      (.reported n, responseBytes c r ++ rest, s'))
    (hacc : Accepted a.active (r.auths.map (canon TpmsAuthResponse))) :
    (runCommandWithHandles tr c a s).result =
      .ok (canon c.respTy r.params, canon c.respHandlesTy r.handles) := by
  have hl : (responseBytes c r ++ rest).length = 4096 := by
    have := tr.keeps_length s (commandBytes c a.active) (List.replicate 4096 0)
    rw [ht, List.length_replicate] at this; exact this
  rw [run_eq tr c a s h hfit, ht]
  obtain ⟨w1, w2, w3, w4, w5⟩ := hr
  have cw : ∀ t v, WF t v → WF t (canon t v) ∧ canon t (canon t v) = canon t v ∧
      wire t (canon t v) = wire t v := by
    intro t v hv
    have h1 := (goodTy t).complete v [] hv
    obtain ⟨h2, h3, h4⟩ := (goodTy t).sound _ _ _ h1
    simp only [List.append_nil] at h4
    exact ⟨h2, h3, h4.symm⟩
  have hres : readResponse c a (responseBytes c r ++ rest) =
      .ok (canon c.respTy r.params, canon c.respHandlesTy r.handles) := by
    refine (readResponse_ok_iff c a _ hl _ _).2
      ⟨⟨r.tag, canon c.respHandlesTy r.handles, r.paramSize, canon c.respTy r.params,
        r.auths.map (canon TpmsAuthResponse)⟩, rest,
        ⟨w1, w2, (cw _ _ w3).1, (cw _ _ w4).1, ?_⟩, ?_, rfl, rfl, (cw _ _ w4).2.1, (cw _ _ w3).2.1,
        ?_, hacc⟩
    · intro v hv
      obtain ⟨u, hu, rfl⟩ := List.mem_map.1 hv
      exact (cw _ _ (w5 u hu)).1
    · have hws : wires TpmsAuthResponse (r.auths.map (canon TpmsAuthResponse)) =
          wires TpmsAuthResponse r.auths := by
        unfold wires
        rw [List.map_map]
        congr 1
        exact List.map_congr_left fun v hv => (cw _ _ (w5 v hv)).2.2
      simp only [responseBytes, responseBody, hws, (cw _ _ w3).2.2, (cw _ _ w4).2.2]
    · intro v hv
      obtain ⟨u, hu, rfl⟩ := List.mem_map.1 hv
      exact (cw _ _ (w5 u hu)).2.1
  simp only [hres, Res.mapErr]

/-- Two random bytes are delivered. -/
theorem exDelivered : (runCommandWithHandles
    (replay [0x80, 0x01, 0, 0, 0, 14, 0, 0, 0, 0, 0, 2, 0xAA, 0xBB] 14 (by decide))
    (getRandomCommand 2) area0 0).result =
      .ok (.struct [.tpm2b 2 ([0xAA, 0xBB] ++ List.replicate 62 0)], .unit) := by
  have := C34_delivered (replay [0x80, 0x01, 0, 0, 0, 14, 0, 0, 0, 0, 0, 2, 0xAA, 0xBB] 14 (by decide))
    (getRandomCommand 2) area0 0 1 (exCmdWF0 2 (by omega)) (exFit0 2) 14 exResponse
    ((List.replicate 4096 0).drop 14) exResponse_wf (by
      rw [exResponse_bytes]; exact replay_transact _ _ _ _ _ (by decide)) trivial
  rw [this]
  rfl

/-- The hypotheses of `C33_accounted` are met by this execution. -/
example : ∃ n rsp s' r rest,
      (replay [0x80, 0x01, 0, 0, 0, 14, 0, 0, 0, 0, 0, 2, 0xAA, 0xBB] 14 (by decide)).transact 0
        (commandBytes (getRandomCommand 2) area0.active) (List.replicate 4096 0) =
        (.reported n, rsp, s') ∧
      rsp = responseBytes (getRandomCommand 2) r ++ rest ∧
      (responseBytes (getRandomCommand 2) r).length ≤ 4096 ∧
      r.WellFormed (getRandomCommand 2) ∧
      r.params = .struct [.tpm2b 2 ([0xAA, 0xBB] ++ List.replicate 62 0)] ∧ r.handles = .unit ∧
      r.auths.length = area0.active.length :=
  C33_accounted _ (getRandomCommand 2) area0 _ (by decide) trivial (by decide) (by intro s hs; simp [Area.active, area0] at hs)
    _ _ exDelivered

/-! ### C35 -/

/-- **C35**: on success every session was given one authorization response of
the response's authorization area, in order, and accepted it. -/
theorem C35_validated {σ ε : Type} (tr : Transport σ ε) (c : Command) (a : Area) (s : σ)
    (hcode : c.code < 2 ^ 32)
    (hh : HasTy c.handlesTy c.handles) (hp : HasTy c.paramTy c.param)
    (ha : ∀ s ∈ a.active, HasTy TpmsAuthCommand s.authCommand) (p h : Val)
    (hok : (runCommandWithHandles tr c a s).result = .ok (p, h)) :
    ∃ n rsp s' r rest,
      tr.transact s (commandBytes c a.active) (List.replicate 4096 0) = (.reported n, rsp, s') ∧
      rsp = responseBytes c r ++ rest ∧ r.WellFormed c ∧
      r.params = p ∧ r.handles = h ∧
      r.auths.length = a.active.length ∧
      ∀ i (hi : i < a.active.length) (hi' : i < r.auths.length),
        (a.active[i]'hi).validate (r.auths[i]'hi') = none := by
  obtain ⟨hw, hfit⟩ := run_wf tr c a s hcode hh hp ha (.inr (by rw [hok]; rfl))
  rcases ht : tr.transact s (commandBytes c a.active) (List.replicate 4096 0) with ⟨n | e, rsp, s'⟩
  · have hl : rsp.length = 4096 := by
      have := tr.keeps_length s (commandBytes c a.active) (List.replicate 4096 0)
      rw [ht, List.length_replicate] at this; exact this
    rw [run_eq tr c a s hw hfit, ht] at hok
    have hr : readResponse c a rsp = .ok (p, h) := by
      change (readResponse c a rsp).mapErr _ = _ at hok
      revert hok; cases readResponse c a rsp <;> simp [Res.mapErr]
    obtain ⟨r, rest, h1, h2, h3, h4, -, -, -, h8⟩ := (readResponse_ok_iff c a rsp hl p h).1 hr
    have : ∀ (ss : List Session) (vs : List Val), Accepted ss vs → vs.length = ss.length ∧
        ∀ i (hi : i < ss.length) (hi' : i < vs.length), (ss[i]'hi).validate (vs[i]'hi') = none := by
      intro ss
      induction ss with
      | nil => intro vs h; cases vs <;> simp [Accepted] at h ⊢
      | cons x xs ih =>
        intro vs h
        cases vs with
        | nil => simp [Accepted] at h
        | cons v vs =>
          simp only [Accepted] at h
          obtain ⟨e1, e2⟩ := ih vs h.2
          refine ⟨by simp [e1], ?_⟩
          intro i hi hi'
          cases i with
          | zero => exact h.1
          | succ i => exact e2 i (by simpa using hi) (by simpa using hi')
    exact ⟨n, rsp, s', r, rest, rfl, h2, h1, h3, h4, this _ _ h8⟩
  · rw [run_eq tr c a s hw hfit, ht] at hok
    simp at hok

/-- An acceptable answer to a password authorization. -/
def exAuthResponse : Val :=
  .struct [.tpm2b 0 (List.replicate 64 0), .struct [.int 1], .tpm2b 0 (List.replicate 64 0)]

/-- An execution with a password session that succeeds: the hypotheses of
`C35_validated` are met. -/
example : (runCommandWithHandles
    (replay [0x80, 0x02, 0, 0, 0, 23, 0, 0, 0, 0, 0, 0, 0, 4, 0, 2, 0xAA, 0xBB, 0, 0, 1, 0, 0] 23
      (by decide)) (getRandomCommand 4) (area1 exSession) 0).result =
      .ok (.struct [.tpm2b 2 ([0xAA, 0xBB] ++ List.replicate 62 0)], .unit) := by
  have := C34_delivered (replay
    [0x80, 0x02, 0, 0, 0, 23, 0, 0, 0, 0, 0, 0, 0, 4, 0, 2, 0xAA, 0xBB, 0, 0, 1, 0, 0] 23 (by decide))
    (getRandomCommand 4) (area1 exSession) 0 1 exCmdWF exFit 23
    { exResponse with tag := 0x8002, paramSize := 4, auths := [exAuthResponse] }
    ((List.replicate 4096 0).drop 23)
    ⟨by decide, by decide, trivial, by decide, by
      intro v hv
      simp only [List.mem_singleton] at hv
      subst hv
      decide⟩ (by
      have : responseBytes (getRandomCommand 4)
          { exResponse with tag := 0x8002, paramSize := 4, auths := [exAuthResponse] } =
          [0x80, 0x02, 0, 0, 0, 23, 0, 0, 0, 0, 0, 0, 0, 4, 0, 2, 0xAA, 0xBB, 0, 0, 1, 0, 0] := by
        decide
      rw [this]; exact replay_transact _ _ _ _ _ (by decide)) ⟨by decide, trivial⟩
  rw [this]
  rfl

/-- A session that refuses everything makes every execution fail. -/
example (tr : Transport Nat Unit) (p h : Val) :
    (runCommandWithHandles tr (getRandomCommand 4)
      (area1 { exSession with validate := fun _ => some tcsBadParameter }) 0).result ≠ .ok (p, h) := by
  intro hok
  obtain ⟨n, rsp, s', r, rest, -, -, -, -, -, hl, hv⟩ := C35_validated tr (getRandomCommand 4)
    (area1 { exSession with validate := fun _ => some tcsBadParameter }) 0 (by decide) trivial
    (by decide) (by
      intro s hs
      simp only [Area.active, area1, List.mem_singleton] at hs
      subst hs
      decide) p h hok
  have := hv 0 (by decide) (by rw [hl]; decide)
  simp [Area.active, area1] at this

/-! ### C36 -/

/-- **C36**: secrets of at most 64 bytes are accepted. -/
theorem C36_new_ok (password : Bytes) (h : password.length ≤ 64) :
    ∃ auth, passwordNew password = .ok auth ∧ passwordSecret auth = .ok password ∧
      WF TpmsAuthCommand (passwordAuthCommand auth) ∧
      wire TpmsAuthCommand (passwordAuthCommand auth) =
        [0x40, 0, 0, 9] ++ [0, 0] ++ [0] ++ digits256 2 password.length ++ password := by
  refine ⟨.tpm2b password.length (password ++ List.replicate (64 - password.length) 0), ?_, ?_, ?_, ?_⟩
  · unfold passwordNew tpm2bFromBytes
    rw [if_neg (by omega), Nat.mod_eq_of_lt (by omega)]
    simp only [copyPrefix, List.length_replicate, h, and_self, if_true, List.drop_replicate]
    rfl
  · simp [passwordSecret, tpm2bGetBuffer, sliceTo]
  · simp only [passwordAuthCommand, TpmsAuthCommand, TpmiShAuthSession, TpmaSession, Tpm2bDigest, S, plains, WF,
      WFFields, Ty.default, List.length_replicate, List.length_append, and_true]
    refine ⟨by decide, ⟨by omega, trivial, by omega⟩, by decide, by omega, by omega, h⟩
  · have hd : digits256 4 RS_PW = [0x40, 0, 0, 9] := by decide
    have hd2 : digits256 2 0 = [0, 0] := by decide
    have hd1 : digits256 1 0 = [0] := by decide
    simp [passwordAuthCommand, TpmsAuthCommand, TpmiShAuthSession, TpmaSession, Tpm2bDigest, S, plains, wire,
      wireFields, Ty.default, u32, u8, hd, hd1, hd2]

/-- **C36**: longer secrets are refused with TPM_RC_SIZE (format-one, 0x95). -/
theorem C36_new_err (password : Bytes) (h : 64 < password.length) :
    passwordNew password = .err ⟨0x095⟩ := by
  unfold passwordNew tpm2bFromBytes
  rw [if_pos (by omega)]
  rfl

/-- **C36**: a response is accepted exactly if nonce and acknowledgement are
empty and the attributes are 1 (continue session). -/
theorem C36_validate (auth : Val) (v : Val) (hv : WF TpmsAuthResponse v) :
    (passwordSession auth).validate v = none ↔
      wire TpmsAuthResponse v = [0, 0] ++ [1] ++ [0, 0] := by
  simp only [TpmsAuthResponse, TpmaSession, Tpm2bDigest, Tpm2bData, S, plains] at hv ⊢
  cases v <;> simp only [WF] at hv
  rename_i fs
  rcases fs with _ | ⟨v1, _ | ⟨v2, _ | ⟨v3, _ | ⟨v4, fs⟩⟩⟩⟩ <;>
    simp only [WFFields, and_false] at hv
  obtain ⟨h1, h2, h3, -⟩ := hv
  cases v1 <;> simp only [WF] at h1
  cases v3 <;> simp only [WF] at h3
  cases v2 <;> simp only [WF] at h2
  rename_i n nb m mb fs
  rcases fs with _ | ⟨x, _ | ⟨y, fs⟩⟩ <;> simp only [WFFields, and_false] at h2
  cases x <;> simp only [WF, false_and] at h2
  rename_i x
  simp only [passwordSession, passwordValidate, wire, wireFields, List.append_nil]
  have hx : x < 256 := by simpa using h2.1
  constructor
  · intro h
    split at h
    · simp at h
    · have h0 : n = 0 ∧ x = 1 ∧ m = 0 := by omega
      obtain ⟨rfl, rfl, rfl⟩ := h0
      simp only [List.take_zero]
      decide
  · intro h
    have hlen := congrArg List.length h
    simp only [List.length_append, digits256_length, List.length_take, h1.2.1, h3.2.1,
      List.length_cons, List.length_nil] at hlen
    have hn : n = 0 := by omega
    have hm : m = 0 := by omega
    subst hn hm
    have hd2 : digits256 2 0 = [0, 0] := by decide
    rw [hd2] at h
    simp only [List.take_zero, List.append_nil] at h
    have h4 : digits256 1 x = [1] := by
      rw [List.append_assoc] at h
      have h := List.append_cancel_left (as := [0, 0]) h
      exact List.append_cancel_right (bs := [0, 0]) h
    have h5 := congrArg positional h4
    rw [positional_digits256_of_lt (by simpa using hx)] at h5
    have : x = 1 := h5
    rw [if_neg (by omega)]

example : passwordNew [1, 2, 3] = .ok (.tpm2b 3 ([1, 2, 3] ++ List.replicate 61 0)) := rfl
example : passwordNew (List.replicate 65 7) = .err ⟨0x95⟩ := rfl
example : (passwordSession .unit).validate exAuthResponse = none := by decide
example : (passwordSession .unit).validate
    (.struct [.tpm2b 0 (List.replicate 64 0), .struct [.int 0], .tpm2b 0 (List.replicate 64 0)]) ≠
      none := by decide

/-! ### C37 -/

/-- **C37 is violated**: a response with code zero that declares fewer than ten
bytes makes the client panic. -/
theorem C37_violated : (runCommandWithHandles
    (replay [0x80, 0x01, 0, 0, 0, 9, 0, 0, 0, 0] 10 (by decide)) (getRandomCommand 4) area0 0).result =
      .panic := by
  rw [run_eq _ _ _ _ (exCmdWF0 4 (by omega)) (exFit0 4), replay_transact _ _ _ _ _ (by decide)]
  have : readResponse (getRandomCommand 4) area0
      ([0x80, 0x01, 0, 0, 0, 9, 0, 0, 0, 0] ++ (List.replicate 4096 0).drop 10) = .panic := by
    have hl : ([0x80, 0x01, 0, 0, 0, 9, 0, 0, 0, 0] ++ (List.replicate 4096 (0 : UInt8)).drop 10).length =
        4096 := by
      rw [List.length_append, List.length_drop, List.length_replicate]; rfl
    refine (readResponse_panic_iff _ _ _ hl).2 ⟨?_, ?_⟩
    · rw [List.drop_append_of_le_length (by decide), List.take_append_of_le_length (by decide)]
      decide
    · rw [List.drop_append_of_le_length (by decide), List.take_append_of_le_length (by decide)]
      decide
  simp only [List.length_cons, List.length_nil]
  rw [this]
  rfl

/-- **C37**, for all responses but these: the client panics exactly if the code
is zero and the declared size is below ten.  (The full claim, that it never
panics, is violated.) -/
theorem C37_panics_iff_partial {σ ε : Type} (tr : Transport σ ε) (c : Command) (a : Area) (s s' : σ)
    (h : CmdWF c a) (hfit : (commandBytes c a.active).length ≤ 4096) (n : Nat) (rsp : Bytes)
    (ht : tr.transact s (commandBytes c a.active) (List.replicate 4096 0) = (.reported n, rsp, s')) :
    (runCommandWithHandles tr c a s).result = .panic ↔
      positional ((rsp.drop 6).take 4) = 0 ∧ positional ((rsp.drop 2).take 4) < 10 := by
  have hl : rsp.length = 4096 := by
    have := tr.keeps_length s (commandBytes c a.active) (List.replicate 4096 0)
    rw [ht, List.length_replicate] at this; exact this
  rw [run_eq tr c a s h hfit, ht, ← readResponse_panic_iff c a rsp hl]
  show (readResponse c a rsp).mapErr _ = _ ↔ _
  cases readResponse c a rsp <;> simp [Res.mapErr]

/-- **C37** for a failing transport: its error is returned unchanged. -/
theorem C37_transport_error {σ ε : Type} (tr : Transport σ ε) (c : Command) (a : Area) (s s' : σ)
    (h : CmdWF c a) (hfit : (commandBytes c a.active).length ≤ 4096) (e : ε) (rsp : Bytes)
    (ht : tr.transact s (commandBytes c a.active) (List.replicate 4096 0) = (.failed e, rsp, s')) :
    (runCommandWithHandles tr c a s).result = .err (.conn e) := by
  rw [run_eq tr c a s h hfit, ht]

/-- The response of `exDelivered` does not panic: its declared size is 14. -/
example : ¬ (positional ((([0x80, 0x01, 0, 0, 0, 14, 0, 0, 0, 0, 0, 2, 0xAA, 0xBB] : Bytes).drop 2).take 4)
    < 10) := by decide

/-! ### C38 -/

/-- **C38 is violated**: an honest transport delivers and reports only 12 of
the 14 declared bytes; the client reports success and two zero "random" bytes
that were never delivered. -/
theorem C38_violated : (runCommandWithHandles
    (replay [0x80, 0x01, 0, 0, 0, 14, 0, 0, 0, 0, 0, 2] 12 (by decide)) (getRandomCommand 2) area0 0).result =
      .ok (.struct [.tpm2b 2 ([0, 0] ++ List.replicate 62 0)], .unit) := by
  have := C34_delivered (replay [0x80, 0x01, 0, 0, 0, 14, 0, 0, 0, 0, 0, 2] 12 (by decide))
    (getRandomCommand 2) area0 0 1 (exCmdWF0 2 (by omega)) (exFit0 2) 12
    { exResponse with params := .struct [.tpm2b 2 (List.replicate 64 0)] }
    ((List.replicate 4096 0).drop 14)
    ⟨by decide, by decide, trivial, by decide, by simp [exResponse]⟩ (by
      rw [replay_transact _ _ _ _ _ (by decide)]
      have h1 : responseBytes (getRandomCommand 2)
          { exResponse with params := .struct [.tpm2b 2 (List.replicate 64 0)] } =
          [0x80, 0x01, 0, 0, 0, 14, 0, 0, 0, 0, 0, 2] ++ [0, 0] := by decide
      have h2 : ((List.replicate 4096 (0 : UInt8)).drop 12) =
          [0, 0] ++ (List.replicate 4096 0).drop 14 := by
        rw [List.drop_replicate, List.drop_replicate]
        show List.replicate (2 + 4082) 0 = _
        rw [← List.replicate_append_replicate]
        rfl
      rw [h1, List.append_assoc, ← h2]
      rfl) trivial
  rw [this]
  rfl

/-- **C38 is violated** in a second way: the reported number of bytes is not
looked at.  A transport that reports no bytes at all but has written to the
buffer is believed. -/
theorem C38_violated_ignores_report : (runCommandWithHandles
    (replay [0x80, 0x01, 0, 0, 0, 14, 0, 0, 0, 0, 0, 2, 0xAA, 0xBB] 0 (by decide))
    (getRandomCommand 2) area0 0).result =
      .ok (.struct [.tpm2b 2 ([0xAA, 0xBB] ++ List.replicate 62 0)], .unit) := by
  have := C34_delivered (replay [0x80, 0x01, 0, 0, 0, 14, 0, 0, 0, 0, 0, 2, 0xAA, 0xBB] 0 (by decide))
    (getRandomCommand 2) area0 0 1 (exCmdWF0 2 (by omega)) (exFit0 2) 0 exResponse
    ((List.replicate 4096 0).drop 14) exResponse_wf (by
      rw [exResponse_bytes]; exact replay_transact _ _ _ _ _ (by decide)) trivial
  rw [this]
  rfl

/-- **C38** for complete responses: if two transports report the same bytes, at
least ten and at least as many as these declare, the outcome is the same,
whatever else they do.  (Missing for the full claim: responses declaring more
than was reported are refused; that is violated.) -/
theorem C38_reported_bytes_partial {σ σ' ε : Type} (tr : Transport σ ε) (tr' : Transport σ' ε)
    (c : Command) (a : Area) (s s1 : σ) (s' s1' : σ')
    (h : CmdWF c a) (hfit : (commandBytes c a.active).length ≤ 4096) (n : Nat) (rsp rsp' : Bytes)
    (ht : tr.transact s (commandBytes c a.active) (List.replicate 4096 0) = (.reported n, rsp, s1))
    (ht' : tr'.transact s' (commandBytes c a.active) (List.replicate 4096 0) =
      (.reported n, rsp', s1'))
    (hsame : rsp.take n = rsp'.take n) (hn : 10 ≤ n)
    (hsize : positional ((rsp.drop 2).take 4) ≤ n) :
    (runCommandWithHandles tr c a s).result = (runCommandWithHandles tr' c a s').result := by
  have hl : rsp.length = 4096 := by
    have := tr.keeps_length s (commandBytes c a.active) (List.replicate 4096 0)
    rw [ht, List.length_replicate] at this; exact this
  have hl' : rsp'.length = 4096 := by
    have := tr'.keeps_length s' (commandBytes c a.active) (List.replicate 4096 0)
    rw [ht', List.length_replicate] at this; exact this
  rw [run_eq tr c a s h hfit, ht, run_eq tr' c a s' h hfit, ht']
  simp only [readResponse_congr c a rsp rsp' n hl hl' hn hsame hsize]

/-- **C38 (partial).** Exactly which bytes are interpreted: the header and as many bytes
of the response buffer as it declares, whatever the transport reports.  If two transports
leave the same bytes there, the outcome is the same, though the reports differ. -/
theorem C38_declared_bytes_partial {σ σ' ε : Type} (tr : Transport σ ε) (tr' : Transport σ' ε)
    (c : Command) (a : Area) (s s1 : σ) (s' s1' : σ')
    (h : CmdWF c a) (hfit : (commandBytes c a.active).length ≤ 4096) (n n' : Nat) (rsp rsp' : Bytes)
    (ht : tr.transact s (commandBytes c a.active) (List.replicate 4096 0) = (.reported n, rsp, s1))
    (ht' : tr'.transact s' (commandBytes c a.active) (List.replicate 4096 0) =
      (.reported n', rsp', s1'))
    (hsame : rsp.take (max 10 (positional ((rsp.drop 2).take 4))) =
      rsp'.take (max 10 (positional ((rsp.drop 2).take 4)))) :
    (runCommandWithHandles tr c a s).result = (runCommandWithHandles tr' c a s').result := by
  have hl : rsp.length = 4096 := by
    have := tr.keeps_length s (commandBytes c a.active) (List.replicate 4096 0)
    rw [ht, List.length_replicate] at this; exact this
  have hl' : rsp'.length = 4096 := by
    have := tr'.keeps_length s' (commandBytes c a.active) (List.replicate 4096 0)
    rw [ht', List.length_replicate] at this; exact this
  rw [run_eq tr c a s h hfit, ht, run_eq tr' c a s' h hfit, ht']
  simp only [readResponse_congr c a rsp rsp' _ hl hl' (Nat.le_max_left _ _) hsame
    (Nat.le_max_right _ _)]

/-- Reporting 14 bytes or none makes no difference. -/
example : (runCommandWithHandles
      (replay [0x80, 0x01, 0, 0, 0, 14, 0, 0, 0, 0, 0, 2, 0xAA, 0xBB] 0 (by decide))
      (getRandomCommand 2) area0 0).result =
    (runCommandWithHandles
      (replay [0x80, 0x01, 0, 0, 0, 14, 0, 0, 0, 0, 0, 2, 0xAA, 0xBB] 14 (by decide))
      (getRandomCommand 2) area0 0).result :=
  C38_declared_bytes_partial _ _ _ _ 0 1 0 1 (exCmdWF0 2 (by omega)) (exFit0 2) 0 14 _ _
    (replay_transact _ _ _ _ _ (by decide)) (replay_transact _ _ _ _ _ (by decide)) rfl

/-- Junk after the 14 reported bytes does not matter. -/
example (junk : Bytes) (hj : junk.length ≤ 100) :
    (runCommandWithHandles
      (replay ([0x80, 0x01, 0, 0, 0, 14, 0, 0, 0, 0, 0, 2, 0xAA, 0xBB] ++ junk) 14 (by simp))
      (getRandomCommand 2) area0 0).result =
      .ok (.struct [.tpm2b 2 ([0xAA, 0xBB] ++ List.replicate 62 0)], .unit) := by
  rw [← exDelivered]
  refine C38_reported_bytes_partial _ _ _ _ 0 1 0 1 (exCmdWF0 2 (by omega)) (exFit0 2) 14 _ _
    (replay_transact _ _ _ _ _ (by simp; omega)) (replay_transact _ _ _ _ _ (by decide)) ?_ (by omega) ?_
  · rw [List.append_assoc, List.take_left' (by rfl), List.take_left' (by rfl)]
  · rw [List.append_assoc, List.drop_append_of_le_length (by decide),
      List.take_append_of_le_length (by decide)]
    decide

/-! ### C39 -/

/-- A command whose handles take 4083 bytes, leaving three of the command
buffer. -/
def wideCommand : Command :=
  ⟨0x17B, .bytes 4083, .bytes (List.replicate 4083 0), .unit, .unit, .unit, .unit⟩

/-- **C39 is violated**: with fewer than four bytes left for the authorization
area the client panics instead of returning an error. -/
theorem C39_violated {σ ε : Type} (tr : Transport σ ε) (s : σ) :
    (runCommandWithHandles tr wideCommand (area1 exSession) s).result = .panic ∧
    4096 < (commandBytes wideCommand (area1 exSession).active).length := by
  have hw : CmdWF wideCommand (area1 exSession) :=
    ⟨by decide, by simp only [wideCommand, WF, List.length_replicate], trivial, exCmdWF.auths⟩
  have hlen : (wire wideCommand.handlesTy wideCommand.handles).length = 4083 := by
    simp only [wideCommand, wire, List.length_replicate]
  constructor
  · obtain ⟨H, rest, hH, hr, he⟩ := buildCommand_eq' wideCommand (area1 exSession) hw
    have h1 := (tWrites_toTss (writesTy _ _ hw.handles)).step.fit 10 (H ++ rest)
      (by rw [hlen, List.length_append]; omega)
    have h2 : ∀ buf : Bytes, buf.length = 3 →
        writeCommandSessions (area1 exSession) buf = (.panic, buf) := by
      intro buf hb
      simp only [writeCommandSessions, area1, Area.isEmpty, Option.isNone_some, Bool.false_eq_true,
        if_false, writeAuth, tstep, hb]
      rfl
    have hres : (buildCommand wideCommand (area1 exSession)).1 = .panic := by
      rw [he, h1, hlen]
      simp only [tthen]
      have hl : (List.take 10 (H ++ rest) ++ (wire wideCommand.handlesTy wideCommand.handles ++
          List.drop (10 + 4083) (H ++ rest))).length = 4096 := by
        rw [List.length_append, List.length_append, hlen, List.length_take, List.length_drop,
          List.length_append]; omega
      generalize List.take 10 (H ++ rest) ++ (wire wideCommand.handlesTy wideCommand.handles ++
          List.drop (10 + 4083) (H ++ rest)) = B at hl
      unfold tstep
      rw [if_pos (by omega), h2 _ (by rw [List.length_drop]; omega)]
    unfold runCommandWithHandles
    rcases hb : buildCommand wideCommand (area1 exSession) with ⟨_ | _ | _, buf⟩ <;>
      rw [hb] at hres <;> simp at hres ⊢
  · rw [commandBytes_length, commandBody, List.length_append, List.length_append, hlen]
    have : (authArea (area1 exSession).active).length = 15 := by decide
    omega

/-- **C39**: a command that does not fit is never handed to the transport,
whose state is untouched, and success is never reported.  (Missing for the full
claim: an error rather than a panic; that is violated.) -/
theorem C39_not_sent_partial {σ ε : Type} (tr : Transport σ ε) (c : Command) (a : Area) (s : σ)
    (h : CmdWF c a) (hbig : 4096 < (commandBytes c a.active).length) :
    (runCommandWithHandles (recording tr) c a (s, [])).state = (s, []) ∧
    (runCommandWithHandles tr c a s).result.isOk = false := by
  constructor
  · rcases run_short (recording tr) c a (s, []) h hbig with e | ⟨_, e⟩ <;> rw [e]
  · rcases run_short tr c a s h hbig with e | ⟨_, e⟩ <;> rw [e] <;> rfl

/-- **C39**: without sized buffers and authorizations the result is the memory
error (TPM_RC_MEMORY, 0x904). -/
theorem C39_memory_error {σ ε : Type} (tr : Transport σ ε) (c : Command) (a : Area) (s : σ)
    (h : CmdWF c a) (hbig : 4096 < (commandBytes c a.active).length)
    (hs : hasSized c.handlesTy = false) (hs' : hasSized c.paramTy = false) (ha : a.active = []) :
    (runCommandWithHandles tr c a s).result =
      .err (.tss ⟨0x904⟩) := by
  rcases run_short tr c a s h hbig with e | ⟨e, _⟩
  · rw [e]; rfl
  · simp [canPanic, hs, hs', ha] at e

/-- The commands of the base crate: base/src/commands/capability.rs:8-20,
base/src/commands/pcr.rs:14-24, base/src/commands/random.rs:8-18,
base/src/commands/startup.rs:9-19. -/
def baseCommandTypes : List Ty := [GetCapabilityCmd, PcrReadCmd, GetRandomCmd, StartupCmd]

/-- **C39**: every command of the base crate fits, with any authorizations. -/
theorem C39_base_commands_fit (c : Command) (a : Area) (h : CmdWF c a)
    (hp : c.paramTy ∈ baseCommandTypes) (hh : c.handlesTy = .unit) :
    (commandBytes c a.active).length ≤ 4096 := by
  have hparam : (wire c.paramTy c.param).length ≤ 3000 := by
    refine Nat.le_trans (wire_le al64 _ _ h.param) ?_
    have : ∀ t ∈ baseCommandTypes, (layout al64 t).1 ≤ 3000 := by decide
    exact this _ hp
  have hhandles : (wire c.handlesTy c.handles).length = 0 := by
    rw [hh]; cases c.handles <;> rfl
  have key : ∀ ss : List Session, (∀ s ∈ ss, WF TpmsAuthCommand s.authCommand) →
      (wires TpmsAuthCommand (ss.map (·.authCommand))).length ≤ 140 * ss.length := by
    intro ss
    induction ss with
    | nil => intro _; simp [wires]
    | cons s ss ih =>
      intro hs
      have h1 : (wire TpmsAuthCommand s.authCommand).length ≤ 140 :=
        Nat.le_trans (wire_le al64 _ _ (hs s List.mem_cons_self)) (by decide)
      have h2 := ih (fun x hx => hs x (List.mem_cons_of_mem _ hx))
      simp only [wires, List.map_cons, List.flatten_cons, List.length_append, List.length_cons] at h2 ⊢
      omega
  have hk := key a.active h.auths
  have h3 : a.active.length ≤ 3 := by rcases a with ⟨_ | s, _ | t, _ | u⟩ <;> simp [Area.active]
  have hauth : (authArea a.active).length ≤ 4 + 420 := by
    unfold authArea
    split
    · simp
    · simp only [List.length_append, digits256_length]; omega
  rw [commandBytes_length, commandBody, List.length_append, List.length_append]
  omega

/-- 5000 bytes of handles: the memory error. -/
example {σ ε : Type} (tr : Transport σ ε) (s : σ) :
    (runCommandWithHandles tr
      ⟨0x17B, .bytes 5000, .bytes (List.replicate 5000 0), .unit, .unit, .unit, .unit⟩ area0 s).result =
      .err (.tss ⟨0x904⟩) := by
  refine C39_memory_error tr _ _ s ⟨by decide, by simp only [WF, List.length_replicate], trivial, by
    intro s hs; simp [Area.active, area0] at hs⟩ ?_ rfl rfl rfl
  rw [commandBytes_length, commandBody, List.length_append, List.length_append]
  simp only [wire, List.length_replicate]
  omega

example : (commandBytes (getRandomCommand 4) (area1 exSession).active).length ≤ 4096 :=
  C39_base_commands_fit _ _ exCmdWF (by simp [baseCommandTypes, getRandomCommand]) rfl

/-! ### C60 -/

/-- The command that `runCommand` runs: default handles. -/
theorem runCommand_eq {σ ε : Type} (tr : Transport σ ε) (c : Command) (s : σ) :
    (runCommand tr c s).result =
      (runCommandWithHandles tr { c with handles := c.handlesTy.default } area0 s).result.map (·.1) ∧
    (runCommand tr c s).state =
      (runCommandWithHandles tr { c with handles := c.handlesTy.default } area0 s).state := by
  unfold runCommand
  generalize runCommandWithHandles tr { c with handles := c.handlesTy.default } area0 s = r
  exact ⟨rfl, rfl⟩

/-- **C60**: running a command without handles and sessions hands over the
command with default handles, no authorization area and the tag for no
sessions. -/
theorem C60_sent {σ ε : Type} (tr : Transport σ ε) (c : Command) (s : σ)
    (hcode : c.code < 2 ^ 32) (hp : WF c.paramTy c.param)
    (hh : WF c.handlesTy c.handlesTy.default)
    (hfit : 10 + (wire c.handlesTy c.handlesTy.default).length + (wire c.paramTy c.param).length ≤ 4096) :
    (runCommand (recording tr) c (s, [])).state.2 =
      [([0x80, 0x01] ++
        digits256 4 (10 + (wire c.handlesTy c.handlesTy.default ++ wire c.paramTy c.param).length) ++
        digits256 4 c.code ++ wire c.handlesTy c.handlesTy.default ++ wire c.paramTy c.param,
        List.replicate 4096 0)] := by
  have hw : CmdWF { c with handles := c.handlesTy.default } area0 :=
    ⟨hcode, hh, hp, by intro s hs; simp [Area.active, area0] at hs⟩
  have hb : commandBody { c with handles := c.handlesTy.default } area0.active =
      wire c.handlesTy c.handlesTy.default ++ wire c.paramTy c.param := by
    simp [commandBody, area0, Area.active, authArea]
  have hl : (commandBytes { c with handles := c.handlesTy.default } area0.active).length ≤ 4096 := by
    rw [commandBytes_length, hb, List.length_append]; omega
  rw [(runCommand_eq _ _ _).2, C31_sent tr _ area0 s [] hw hl]
  simp only [List.nil_append, commandBytes, hb, List.append_assoc]
  rfl

/-- **C60**: the response parameters are returned: for every well-formed
response without authorizations. -/
theorem C60_delivered {σ ε : Type} (tr : Transport σ ε) (c : Command) (s s' : σ)
    (hcode : c.code < 2 ^ 32) (hp : WF c.paramTy c.param)
    (hh : WF c.handlesTy c.handlesTy.default)
    (cmd : Bytes) (buf : Bytes) (hsent : (runCommand (recording tr) c (s, [])).state.2 = [(cmd, buf)])
    (n : Nat) (r : Response) (rest : Bytes) (hr : r.WellFormed c) (hnone : r.auths = [])
    (ht : tr.transact s cmd buf = (.reported n, responseBytes c r ++ rest, s')) :
    (runCommand tr c s).result = .ok (canon c.respTy r.params) := by
  have hw : CmdWF { c with handles := c.handlesTy.default } area0 :=
    ⟨hcode, hh, hp, by intro s hs; simp [Area.active, area0] at hs⟩
  have hfit : (commandBytes { c with handles := c.handlesTy.default } area0.active).length ≤ 4096 := by
    by_cases h : (commandBytes { c with handles := c.handlesTy.default } area0.active).length ≤ 4096
    · exact h
    · have := (C39_not_sent_partial tr _ _ s hw (by omega)).1
      rw [(runCommand_eq _ _ _).2, this] at hsent
      simp at hsent
  rw [(runCommand_eq _ _ _).2, C31_sent tr _ area0 s [] hw hfit] at hsent
  simp only [List.nil_append, List.cons.injEq, Prod.mk.injEq, and_true] at hsent
  obtain ⟨rfl, rfl⟩ := hsent
  have := C34_delivered tr { c with handles := c.handlesTy.default } area0 s s' hw hfit n r rest hr ht
    (by rw [hnone]; exact trivial)
  rw [(runCommand_eq _ _ _).1, this]
  rfl

/-- **C60**: and a success means such a response. -/
theorem C60_accounted {σ ε : Type} (tr : Transport σ ε) (c : Command) (s : σ)
    (hcode : c.code < 2 ^ 32) (hp : HasTy c.paramTy c.param)
    (hh : HasTy c.handlesTy c.handlesTy.default) (p : Val)
    (hok : (runCommand tr c s).result = .ok p) :
    ∃ cmd buf n rsp s' r rest,
      (runCommand (recording tr) c (s, [])).state.2 = [(cmd, buf)] ∧
      tr.transact s cmd buf = (.reported n, rsp, s') ∧
      rsp = responseBytes c r ++ rest ∧ r.WellFormed c ∧ r.params = p ∧ r.auths = [] := by
  rw [(runCommand_eq _ _ _).1] at hok
  rcases hx : (runCommandWithHandles tr { c with handles := c.handlesTy.default } area0 s).result with
    ⟨p', h⟩ | e | _
  · rw [hx] at hok
    simp only [Res.map, Res.ok.injEq] at hok
    subst hok
    obtain ⟨n, rsp, s', r, rest, h1, h2, h3, h4, h5, h6, h7⟩ := C33_accounted tr
      { c with handles := c.handlesTy.default } area0 s hcode hh hp
      (by intro s hs; simp [Area.active, area0] at hs) p' h hx
    obtain ⟨hw, hfit⟩ := run_wf tr { c with handles := c.handlesTy.default } area0 s hcode hh hp
      (by intro s hs; simp [Area.active, area0] at hs) (.inr (by rw [hx]; rfl))
    exact ⟨_, _, n, rsp, s', r, rest, by
      rw [(runCommand_eq _ _ _).2, C31_sent tr _ area0 s [] hw hfit]; rfl, h1, h2, h4, h5,
      List.length_eq_zero_iff.1 h7⟩
  · rw [hx] at hok; simp [Res.map] at hok
  · rw [hx] at hok; simp [Res.map] at hok

/-- **C60**: errors of the TPM and of the connection are returned unchanged. -/
theorem C60_errors {σ ε : Type} (tr : Transport σ ε) (c : Command) (s s' : σ)
    (hcode : c.code < 2 ^ 32) (hp : WF c.paramTy c.param)
    (hh : WF c.handlesTy c.handlesTy.default)
    (cmd : Bytes) (buf rsp : Bytes)
    (hsent : (runCommand (recording tr) c (s, [])).state.2 = [(cmd, buf)]) :
    (∀ e, tr.transact s cmd buf = (.failed e, rsp, s') → (runCommand tr c s).result = .err (.conn e)) ∧
    (∀ n, tr.transact s cmd buf = (.reported n, rsp, s') → positional ((rsp.drop 6).take 4) ≠ 0 →
      (runCommand tr c s).result = .err (.tss ⟨positional ((rsp.drop 6).take 4)⟩)) := by
  have hw : CmdWF { c with handles := c.handlesTy.default } area0 :=
    ⟨hcode, hh, hp, by intro s hs; simp [Area.active, area0] at hs⟩
  have hfit : (commandBytes { c with handles := c.handlesTy.default } area0.active).length ≤ 4096 := by
    by_cases h : (commandBytes { c with handles := c.handlesTy.default } area0.active).length ≤ 4096
    · exact h
    · have := (C39_not_sent_partial tr _ _ s hw (by omega)).1
      rw [(runCommand_eq _ _ _).2, this] at hsent
      simp at hsent
  rw [(runCommand_eq _ _ _).2, C31_sent tr _ area0 s [] hw hfit] at hsent
  simp only [List.nil_append, List.cons.injEq, Prod.mk.injEq, and_true] at hsent
  obtain ⟨rfl, rfl⟩ := hsent
  constructor
  · intro e ht
    rw [(runCommand_eq _ _ _).1, run_eq tr _ _ s hw hfit, ht]
    rfl
  · intro n ht h0
    rw [(runCommand_eq _ _ _).1, C32_error_code tr _ area0 s s' hw hfit n rsp ht h0]
    rfl

/-- **C60**: GetCapability on the wire. -/
theorem C60_get_capability {σ ε : Type} (tr : Transport σ ε) (s : σ) (capability property count : Nat)
    (h1 : capability < 2 ^ 32) (h2 : property < 2 ^ 32) (h3 : count < 2 ^ 32) :
    (getCapability (recording tr)
        (.struct [.struct [.int capability], .struct [.int property], .int count]) (s, [])).state.2 =
      [([0x80, 0x01, 0, 0, 0, 22, 0, 0, 1, 0x7A] ++ digits256 4 capability ++ digits256 4 property ++
        digits256 4 count, List.replicate 4096 0)] := by
  have hw : wire GetCapabilityCmd
      (.struct [.struct [.int capability], .struct [.int property], .int count]) =
      digits256 4 capability ++ digits256 4 property ++ digits256 4 count := by
    simp [wire, GetCapabilityCmd, S, plains, wireFields, TpmCap, TpmPt, u32]
  have := C60_sent tr ⟨Cc.GetCapability, .unit, .unit, GetCapabilityCmd,
    .struct [.struct [.int capability], .struct [.int property], .int count], GetCapabilityResp, .unit⟩
    s (by show 0x17A < 2 ^ 32; decide)
    ⟨⟨h1, trivial⟩, ⟨h2, trivial⟩, h3, trivial⟩ trivial (by
      simp only [hw, List.length_append, digits256_length]; decide)
  unfold getCapability
  rw [this]
  simp only [hw, List.length_append, digits256_length]
  rfl

/-- **C60**: and its answer: whether there is more, and the capability data. -/
theorem C60_capability_answer {σ ε : Type} (tr : Transport σ ε) (s s' : σ)
    (capability property count : Nat)
    (h1 : capability < 2 ^ 32) (h2 : property < 2 ^ 32) (h3 : count < 2 ^ 32) (n : Nat) (v : Val)
    (hv : WF GetCapabilityResp v) (rest : Bytes)
    (ht : tr.transact s ([0x80, 0x01, 0, 0, 0, 22, 0, 0, 1, 0x7A] ++ digits256 4 capability ++
        digits256 4 property ++ digits256 4 count) (List.replicate 4096 0) =
      (.reported n, [0x80, 0x01] ++ digits256 4 (10 + (wire GetCapabilityResp v).length) ++
        [0, 0, 0, 0] ++ wire GetCapabilityResp v ++ rest, s')) :
    (getCapability tr
        (.struct [.struct [.int capability], .struct [.int property], .int count]) s).result =
      .ok (canon GetCapabilityResp v) := by
  refine C60_delivered tr ⟨Cc.GetCapability, .unit, .unit, GetCapabilityCmd,
      .struct [.struct [.int capability], .struct [.int property], .int count], GetCapabilityResp, .unit⟩
    s s' (by show 0x17A < 2 ^ 32; decide) ⟨⟨h1, trivial⟩, ⟨h2, trivial⟩, h3, trivial⟩ trivial _ _
    (C60_get_capability tr s capability property count h1 h2 h3) n ⟨0x8001, .unit, 0, v, []⟩ rest
    ⟨by show 0x8001 < 65536; decide, by show 0 < 2 ^ 32; decide, trivial, hv, by simp⟩ rfl ?_
  rw [ht]
  simp [responseBytes, responseBody, wires, wire]
  rfl

/-- The first ten algorithms. -/
example (tr : Transport Nat Unit) : (getCapability (recording tr)
      (.struct [.struct [.int 0], .struct [.int 1], .int 10]) (0, [])).state.2.map (·.1) =
    [[0x80, 0x01, 0, 0, 0, 22, 0, 0, 1, 0x7A, 0, 0, 0, 0, 0, 0, 0, 1, 0, 0, 0, 10]] := by
  rw [C60_get_capability tr 0 0 1 10 (by decide) (by decide) (by decide)]
  decide

/-- One handle, and more to come. -/
def exCapabilities : Val :=
  .struct [.struct [.int 1], .enum 1 [.struct [.int 1,
    .arr (.struct [.int 0x81000001] :: List.replicate 253 (.struct [.int 0]))]]]

example : (getCapability (replay [0x80, 0x01, 0, 0, 0, 23, 0, 0, 0, 0, 1, 0, 0, 0, 1, 0, 0, 0, 1,
      0x81, 0, 0, 1] 23 (by decide)) (.struct [.struct [.int 1], .struct [.int 0x81000000], .int 1])
      0).result = .ok exCapabilities := by
  have hw : wire GetCapabilityResp exCapabilities = [1, 0, 0, 0, 1, 0, 0, 0, 1, 0x81, 0, 0, 1] := by
    decide
  have := C60_capability_answer (replay [0x80, 0x01, 0, 0, 0, 23, 0, 0, 0, 0, 1, 0, 0, 0, 1, 0, 0, 0, 1,
      0x81, 0, 0, 1] 23 (by decide)) 0 1 1 0x81000000 1 (by decide) (by decide) (by decide) 23
    exCapabilities (by decide) ((List.replicate 4096 0).drop 23) (by
      rw [hw]; exact replay_transact _ _ _ _ _ (by decide))
  rw [this]
  rfl

end Verif.Client
