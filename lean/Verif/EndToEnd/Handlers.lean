import Verif.EndToEnd.Props
import Verif.Server.HandlerProps

/-
Property theorems C107: commands added to the client and handlers added to the server.
-/

namespace Verif.EndToEnd
open Verif Verif.Base Verif.Errors Verif.Client Verif.Server

variable {K : Type}

/-! ### Model -/

theorem writes_length {w : Writing K} {space out : Bytes} {r : Res TpmRcError Unit} {k : K}
    (h : w.Writes space out r k) : out.length ≤ space.length := by
  induction h with
  | done => simp
  | fits hl _ ih => simp only [List.length_append]; omega
  | full _ _ ih => exact ih
  | @filled size full fill keeps next old rest out r k hl _ ih =>
    simp only [List.length_append, keeps]; omega
  | refused _ _ ih => exact ih

theorem answered_length {h : Handlers K} {k k' : K} {req hdr space b : Bytes} {n : Option Nat}
    (hl : hdr.length = 10) (ha : Answered h k req hdr space n b k') :
    b.length = 10 + space.length ∧ ∀ m, n = some m → m ≤ 10 + space.length := by
  cases ha with
  | size hw =>
    refine ⟨by simp [hl]; omega, ?_⟩
    intro m hm; injection hm with hm; omega
  | code hw hc =>
    refine ⟨by simp [hl]; omega, ?_⟩
    intro m hm; injection hm with hm; omega
  | success hw hf hr hwr =>
    have := writes_length hwr
    refine ⟨by simp [responseOf]; omega, ?_⟩
    intro m hm; injection hm with hm; omega
  | error hw hf hr hwr =>
    have := writes_length hwr
    refine ⟨by simp [hl]; omega, ?_⟩
    intro m hm; injection hm with hm; omega
  | panic hw hf hr hwr =>
    have := writes_length hwr
    refine ⟨by simp [hl]; omega, ?_⟩
    intro m hm; cases hm

theorem executeSeparateWith_length (h : Handlers K) (k : K) (req rsp : Bytes) :
    (executeSeparateWith h k req rsp).2.1.length = rsp.length ∧
    ∀ m, (executeSeparateWith h k req rsp).1 = some m → m ≤ rsp.length := by
  by_cases hl : rsp.length < 10
  · obtain ⟨h1, h2, -, -⟩ := C105_short h k req rsp hl
    refine ⟨h2, ?_⟩
    intro m hm
    rw [hm] at h1
    rcases h1 with h1 | h1
    · injection h1 with h1; omega
    · cases h1
  · have e : rsp = rsp.take 10 ++ rsp.drop 10 := (List.take_append_drop _ _).symm
    have hh : (rsp.take 10).length = 10 := by rw [List.length_take]; omega
    have ha := (C105_separate h k _ req (rsp.take 10) (rsp.drop 10) _ _ hh).1 rfl
    rw [← e] at ha
    obtain ⟨h1, h2⟩ := answered_length hh ha
    have e10 : 10 + (rsp.drop 10).length = rsp.length := by rw [List.length_drop]; omega
    rw [e10] at h1 h2
    exact ⟨h1, h2⟩

/-- A `Connection` (crates/tpm2-client/src/connection/mod.rs:11-26) that executes the command by
`execute_command_separate` (crates/tpm2-impl/src/tpmctx.rs:24-34) with any handlers, as
`serverTransport` does with those of the crate.  Not in the repository. -/
def serverTransportWith (h : Handlers K) : Client.Transport K Unit where
  transact k cmd rsp :=
    let r := executeSeparateWith h k cmd rsp
    match r.1 with
    | some size => (.reported size, r.2.1, r.2.2)
    | none => (.failed (), r.2.1, r.2.2)
  keeps_length := by
    intro k cmd rsp
    have := (executeSeparateWith_length h k cmd rsp).1
    simp only
    split <;> exact this
  reports_slice := by
    intro k cmd rsp n hn
    have hb := (executeSeparateWith_length h k cmd rsp).2
    simp only at hn
    split at hn
    · rename_i size hs
      injection hn with hn
      subst hn
      exact hb _ hs
    · simp at hn

/-! ### Lemmas -/

/-- The header and the rest of the client's response buffer. -/
theorem respBuffer_split : List.replicate 4096 (0 : UInt8) =
    List.replicate 10 0 ++ List.replicate 4086 0 := by
  rw [List.replicate_append_replicate]

theorem run_answered (h : Handlers K) (c : Command) (a : Area) (k k' : K) (hw : CmdWF c a)
    (hfit : (commandBytes c a.active).length ≤ 4096) (n : Option Nat) (b : Bytes)
    (ha : Answered h k (commandBytes c a.active) (List.replicate 10 0) (List.replicate 4086 0) n b k') :
    (n = none → runCommandWithHandles (serverTransportWith h) c a k = ⟨.err (.conn ()), k'⟩) ∧
    (∀ m, n = some m → runCommandWithHandles (serverTransportWith h) c a k =
      ⟨(readResponse c a b).mapErr .tss, k'⟩) := by
  have he := (C105_separate h k k' (commandBytes c a.active) (List.replicate 10 0)
    (List.replicate 4086 0) b n (by simp)).2 ha
  rw [run_eq _ c a k hw hfit, respBuffer_split]
  simp only [serverTransportWith]
  rw [he]
  refine ⟨?_, ?_⟩
  · rintro rfl; rfl
  · rintro m rfl; rfl

theorem answered_total (h : Handlers K) (k : K) (req hdr space : Bytes) (hl : hdr.length = 10) :
    ∃ n b k', Answered h k req hdr space n b k' :=
  ⟨_, _, _, (C105_separate h k _ req hdr space _ _ hl).1 rfl⟩

/-! ### C107 -/

/-- **C107.** A command for which the server has no handler is refused, and no handler runs. -/
theorem C107_refused (h : Handlers K) (c : Command) (a : Area) (k : K) (hw : CmdWF c a)
    (hfit : (commandBytes c a.active).length ≤ 4096) (hc : h c.code = none) :
    runCommandWithHandles (serverTransportWith h) c a k = ⟨.err (.tss ⟨0x143⟩), k⟩ := by
  rw [(run_answered h c a k k hw hfit _ _ (.code (command_sized c _ hfit)
    (by rw [command_code c _ hw.code]; exact hc))).2 _ rfl]
  generalize List.replicate 4086 (0 : UInt8) = z
  have := readResponse_eq c a 0 0 0x143 z (by decide) (by decide) (by decide)
  rw [if_pos (by decide)] at this
  have e : (List.replicate 10 (0 : UInt8)).take 6 = digits256 2 0 ++ digits256 4 0 := by decide
  rw [e, this]
  rfl

/-- **C107.** The handler of the command is given exactly the handles, authorizations and
parameters of the client; it always comes to an end. -/
theorem C107_given (h : Handlers K) (c : Command) (a : Area) (k : K) (f : K → Reading K)
    (hw : CmdWF c a) (hfit : (commandBytes c a.active).length ≤ 4096) (hf : h c.code = some f) :
    ∃ w out r k', (f k).Reads (wire c.handlesTy c.handles ++ authArea a.active ++
        wire c.paramTy c.param) w ∧
      w.Writes (List.replicate 4086 0) out r k' ∧
      (runCommandWithHandles (serverTransportWith h) c a k).state = k' := by
  have hs := command_sized c a.active hfit
  obtain ⟨n, b, k', ha⟩ := answered_total h k (commandBytes c a.active) (List.replicate 10 0)
    (List.replicate 4086 0) (by simp)
  have hst : (runCommandWithHandles (serverTransportWith h) c a k).state = k' := by
    obtain ⟨h1, h2⟩ := run_answered h c a k k' hw hfit n b ha
    cases n with
    | none => rw [h1 rfl]
    | some m => rw [h2 m rfl]
  have hcode := command_code c a.active hw.code
  have body : (commandBytes c a.active).drop 10 =
      wire c.handlesTy c.handles ++ authArea a.active ++ wire c.paramTy c.param := command_body c _
  cases ha with
  | size h1 => exact absurd hs h1
  | code h1 h2 => rw [hcode, hf] at h2; cases h2
  | success h1 h2 h3 h4 =>
    rw [hcode, hf] at h2; cases h2
    exact ⟨_, _, _, _, by rw [← body]; exact h3, h4, hst⟩
  | error h1 h2 h3 h4 =>
    rw [hcode, hf] at h2; cases h2
    exact ⟨_, _, _, _, by rw [← body]; exact h3, h4, hst⟩
  | panic h1 h2 h3 h4 =>
    rw [hcode, hf] at h2; cases h2
    exact ⟨_, _, _, _, by rw [← body]; exact h3, h4, hst⟩

/-- **C107.** If the handler ends with an error, the client returns its code, whatever was
written before. -/
theorem C107_error (h : Handlers K) (c : Command) (a : Area) (k k' : K) (f : K → Reading K)
    (hw : CmdWF c a) (hfit : (commandBytes c a.active).length ≤ 4096) (hf : h c.code = some f)
    (w : Writing K) (out : Bytes) (e : TpmRcError) (h0 : e.code ≠ 0) (hlt : e.code < 2 ^ 32)
    (hr : (f k).Reads (wire c.handlesTy c.handles ++ authArea a.active ++
      wire c.paramTy c.param) w)
    (hwr : w.Writes (List.replicate 4086 0) out (.err e) k') :
    runCommandWithHandles (serverTransportWith h) c a k = ⟨.err (.tss ⟨e.code⟩), k'⟩ := by
  rw [(run_answered h c a k k' hw hfit _ _ (.error (command_sized c _ hfit)
    (by rw [command_code c _ hw.code]; exact hf) (by rw [command_body]; exact hr) hwr)).2 _ rfl]
  have e6 : (List.replicate 10 (0 : UInt8)).take 6 = digits256 2 0 ++ digits256 4 0 := by decide
  generalize List.replicate 4086 (0 : UInt8) = z at *
  have := readResponse_eq c a 0 0 e.code (out ++ z.drop out.length) (by decide) (by decide) hlt
  rw [if_pos h0] at this
  rw [e6, List.append_assoc _ out, this]
  rfl

/-- **C107.** If the handler panics, the connection fails (as it is modelled), and the client
returns nothing. -/
theorem C107_panic (h : Handlers K) (c : Command) (a : Area) (k k' : K) (f : K → Reading K)
    (hw : CmdWF c a) (hfit : (commandBytes c a.active).length ≤ 4096) (hf : h c.code = some f)
    (w : Writing K) (out : Bytes)
    (hr : (f k).Reads (wire c.handlesTy c.handles ++ authArea a.active ++
      wire c.paramTy c.param) w)
    (hwr : w.Writes (List.replicate 4086 0) out .panic k') :
    runCommandWithHandles (serverTransportWith h) c a k = ⟨.err (.conn ()), k'⟩ := by
  rw [(run_answered h c a k k' hw hfit _ _ (.panic (command_sized c _ hfit)
    (by rw [command_code c _ hw.code]; exact hf) (by rw [command_body]; exact hr) hwr)).1 rfl]

/-- **C107.** If the handler ends without error, the client returns response handles and
parameters exactly if they, and authorization responses that the sessions accept, are what it
wrote; otherwise it returns an error. -/
theorem C107_answer (h : Handlers K) (c : Command) (a : Area) (k k' : K) (f : K → Reading K)
    (hw : CmdWF c a) (hfit : (commandBytes c a.active).length ≤ 4096) (hf : h c.code = some f)
    (w : Writing K) (out : Bytes)
    (hr : (f k).Reads (wire c.handlesTy c.handles ++ authArea a.active ++
      wire c.paramTy c.param) w)
    (hwr : w.Writes (List.replicate 4086 0) out (.ok ()) k') :
    (runCommandWithHandles (serverTransportWith h) c a k).state = k' ∧
    (∀ hv pv auths, WF c.respHandlesTy hv → WF c.respTy pv →
      (∀ v ∈ auths, WF TpmsAuthResponse v) →
      Accepted a.active (auths.map (canon TpmsAuthResponse)) →
      out = wire c.respHandlesTy hv ++ wire c.respTy pv ++ wires TpmsAuthResponse auths →
      (runCommandWithHandles (serverTransportWith h) c a k).result =
        .ok (canon c.respTy pv, canon c.respHandlesTy hv)) ∧
    ((∃ hv pv auths, WF c.respHandlesTy hv ∧ WF c.respTy pv ∧
      (∀ v ∈ auths, WF TpmsAuthResponse v) ∧
      Accepted a.active (auths.map (canon TpmsAuthResponse)) ∧
      out = wire c.respHandlesTy hv ++ wire c.respTy pv ++ wires TpmsAuthResponse auths) ∨
     ∃ e, (runCommandWithHandles (serverTransportWith h) c a k).result = .err (.tss e)) := by
  have hlen := writes_length hwr
  rw [List.length_replicate] at hlen
  have hrun := (run_answered h c a k k' hw hfit _ _ (.success (command_sized c _ hfit)
    (by rw [command_code c _ hw.code]; exact hf) (by rw [command_body]; exact hr) hwr)).2 _ rfl
  have hrr : readResponse c a (responseOf 0 out ++ (List.replicate 4086 0).drop out.length) =
      readBody c a 0x8001 out := by
    have hd : (List.replicate 4086 (0 : UInt8)).drop out.length =
        List.replicate (4086 - out.length) 0 := List.drop_replicate ..
    rw [hd]
    have e2 : ([0x80, 0x01] : Bytes) = digits256 2 0x8001 := by decide
    have := readResponse_eq c a 0x8001 (10 + out.length) 0
      (out ++ List.replicate (4086 - out.length) 0) (by decide) (by omega) (by decide)
    rw [if_neg (by simp), if_neg (by rw [List.length_append]; omega), if_neg (by omega),
      List.take_left' (by omega)] at this
    rw [responseOf, e2, List.append_assoc _ out, this]
  rw [hrr] at hrun
  have cw : ∀ t v, WF t v → WF t (canon t v) ∧ canon t (canon t v) = canon t v ∧
      wire t (canon t v) = wire t v := by
    intro t v hv
    have h1 := (goodTy t).complete v [] hv
    obtain ⟨h2, h3, h4⟩ := (goodTy t).sound _ _ _ h1
    simp only [List.append_nil] at h4
    exact ⟨h2, h3, h4.symm⟩
  refine ⟨by rw [hrun], ?_, ?_⟩
  · intro hv pv auths w1 w2 w3 hacc hout
    have hok : readBody c a 0x8001 out = .ok (canon c.respTy pv, canon c.respHandlesTy hv) := by
      refine (readBody_ok_iff c a 0x8001 out _ _).2 ⟨0, auths.map (canon TpmsAuthResponse), by decide,
        (cw _ _ w1).1, (cw _ _ w1).2.1, (cw _ _ w2).1, (cw _ _ w2).2.1, ?_, hacc, ?_⟩
      · intro v hv
        obtain ⟨u, hu, rfl⟩ := List.mem_map.1 hv
        exact ⟨(cw _ _ (w3 u hu)).1, (cw _ _ (w3 u hu)).2.1⟩
      · have hws : wires TpmsAuthResponse (auths.map (canon TpmsAuthResponse)) =
            wires TpmsAuthResponse auths := by
          unfold wires
          rw [List.map_map]
          exact congrArg List.flatten (List.map_congr_left fun v hv => (cw _ _ (w3 v hv)).2.2)
        simp only [responseBody, hws, (cw _ _ w1).2.2, (cw _ _ w2).2.2]
        rw [if_neg (by decide), List.append_nil]
        exact hout
    rw [hrun]
    simp only [hok, Res.mapErr]
  · rcases hb : readBody c a 0x8001 out with ⟨p, hv⟩ | e | _
    · obtain ⟨size, auths, -, g2, g3, g4, g5, g6, g7, g8⟩ := (readBody_ok_iff c a 0x8001 out p hv).1 hb
      refine .inl ⟨hv, p, auths, g2, g4, fun v hv => (g6 v hv).1, ?_, ?_⟩
      · rw [show auths.map (canon TpmsAuthResponse) = auths from ?_]
        · exact g7
        · conv => rhs; rw [← List.map_id auths]
          exact List.map_congr_left fun v hv => (g6 v hv).2
      · rw [g8]
        simp only [responseBody]
        rw [if_neg (by decide), List.append_nil]
    · exact .inr ⟨e, by rw [hrun, hb]; rfl⟩
    · exact absurd hb (readBody_no_panic c a 0x8001 out)

/-! ### Cases -/

/-- The command of the handler `exHandler`: a count and a word; it returns the word and two
bytes. -/
def exCommand (n x : Nat) : Command :=
  ⟨0x144, .unit, .unit, S [u16, u32], .struct [.int n, .int x], S [u32, u16], .unit⟩

theorem exCommand_wf (n x : Nat) (hn : n < 65536) (hx : x < 2 ^ 32) : CmdWF (exCommand n x) area0 :=
  ⟨by simp [exCommand], trivial, by
    simp [exCommand, S, plains, u16, u32, WF, WFFields, hn]
    simpa using hx, by simp [area0, Area.active]⟩

theorem exCommand_fit (n x : Nat) :
    (commandBytes (exCommand n x) area0.active).length ≤ 4096 := by
  rw [commandBytes_length]
  simp [commandBody, exCommand, wire, authArea, area0, Area.active, S, plains, wireFields, u16, u32]

/-- Asked with 2 and a word, the client gets the word and what the handler made of two bytes. -/
example : (runCommandWithHandles (serverTransportWith exHandlers) (exCommand 2 0x0A0B0C0D) area0 7) =
    ⟨.ok (.struct [.int 0x0A0B0C0D, .int 0x0101], .unit), 8⟩ := by
  have hsp : List.replicate 4086 (0 : UInt8) = [0, 0, 0, 0] ++ ([0, 0] ++ List.replicate 4080 0) := by
    rw [show (4086 : Nat) = 4 + (2 + 4080) from rfl, ← List.replicate_append_replicate,
      ← List.replicate_append_replicate]
    rfl
  obtain ⟨h1, h2, -⟩ := C107_answer exHandlers (exCommand 2 0x0A0B0C0D) area0 7 8 exHandler
    (exCommand_wf _ _ (by decide) (by decide)) (exCommand_fit _ _) (if_pos rfl) _
    [0xA, 0xB, 0xC, 0xD, 1, 1]
    (.u16 (b := [0, 2]) (rest := [0xA, 0xB, 0xC, 0xD]) rfl
      (.u32 (b := [0xA, 0xB, 0xC, 0xD]) (rest := []) rfl .respond))
    (by
      rw [hsp]
      exact .fits (old := [0, 0, 0, 0]) rfl (.filled (old := [0, 0]) rfl .done))
  have := h2 .unit (.struct [.int 0x0A0B0C0D, .int 0x0101]) [] trivial (by decide) (by simp) trivial
    (by decide)
  rcases hrun : runCommandWithHandles (serverTransportWith exHandlers) (exCommand 2 0x0A0B0C0D)
    area0 7 with ⟨res, st⟩
  rw [hrun] at h1 this
  simp only at h1 this
  rw [h1, this]
  rfl

/-- Asked with 5000, which does not fit, the client gets the code of the handler's error, although
the word was written. -/
example : (runCommandWithHandles (serverTransportWith exHandlers) (exCommand 5000 1) area0 7) =
    ⟨.err (.tss ⟨0x904⟩), 8⟩ := by
  have hsp : List.replicate 4086 (0 : UInt8) = [0, 0, 0, 0] ++ List.replicate 4082 0 := by
    rw [show (4086 : Nat) = 4 + 4082 from rfl, ← List.replicate_append_replicate]
    rfl
  exact C107_error exHandlers (exCommand 5000 1) area0 7 8 exHandler
    (exCommand_wf _ _ (by decide) (by decide)) (exCommand_fit _ _) (if_pos rfl) _
    [0, 0, 0, 1] .Memory (by decide) (by decide)
    (.u16 (b := [0x13, 0x88]) (rest := [0, 0, 0, 1]) rfl
      (.u32 (b := [0, 0, 0, 1]) (rest := []) rfl .respond))
    (by
      rw [hsp]
      refine .fits (old := [0, 0, 0, 0]) (out := []) rfl (.refused ?_ .done)
      rw [List.length_replicate]
      decide)

/-- A command without handler. -/
example := C107_refused exHandlers (getRandomCommand 4) area0 7 (exCmdWF0 4 (by decide)) (exFit0 4)
  (if_neg (by decide))

end Verif.EndToEnd
