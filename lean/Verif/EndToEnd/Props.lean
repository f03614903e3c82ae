import Verif.EndToEnd.Impl
import Verif.Client.Props

/-
Property theorems C56-C58: the client together with the server, and the client
over the simulator connection.
-/

namespace Verif.EndToEnd
open Verif Verif.Base Verif.Errors Verif.Client Verif.Server

variable {D E σ τ : Type}

/-! ### Lemmas: the server's view of client commands -/

theorem command_sized (c : Command) (ss : List Session)
    (hfit : (commandBytes c ss).length ≤ 4096) : WellSized (commandBytes c ss) := by
  have hl := commandBytes_length c ss
  refine ⟨by omega, ?_⟩
  unfold field commandBytes
  simp only [List.append_assoc]
  rw [List.drop_left' (by simp), List.take_left' (by simp), positional_digits256_of_lt]
  · simp only [List.length_append, digits256_length]; omega
  · have : (256 : Nat) ^ 4 = 4294967296 := by decide
    omega

theorem command_code (c : Command) (ss : List Session) (hc : c.code < 2 ^ 32) :
    field (commandBytes c ss) 6 4 = c.code := by
  have p4 : (256 : Nat) ^ 4 = 2 ^ 32 := by decide
  unfold field commandBytes
  rw [List.append_assoc, List.drop_left' (by simp), List.take_left' (by simp),
    positional_digits256_of_lt (by rw [p4]; exact hc)]

theorem command_body (c : Command) (ss : List Session) :
    (commandBytes c ss).drop 10 = commandBody c ss := by
  unfold commandBytes
  rw [List.drop_left' (by simp)]

theorem error_reported (c : Command) (a : Area) (g : Drbg D) (es : Entropy E) (k : Crypto D E)
    (h : CmdWF c a) (hfit : (commandBytes c a.active).length ≤ 4096) (code : Nat)
    (h0 : code ≠ 0) (hlt : code < 2 ^ 32)
    (hx : executeSeparate g es k (commandBytes c a.active) (List.replicate 4096 0) =
      errorAnswer (List.replicate 4096 0) code k) :
    runCommandWithHandles (serverTransport g es) c a k =
      ⟨.err (.tss ⟨code⟩), k⟩ := by
  have hl : (List.replicate 4096 (0 : UInt8)).length = 4096 := List.length_replicate
  generalize hz : List.replicate 4096 (0 : UInt8) = z at *
  have ht : (serverTransport g es).transact k (commandBytes c a.active) z =
      (.reported 10, z.take 6 ++ digits256 4 code ++ z.drop 10, k) := by
    simp only [serverTransport, hx, errorAnswer, hl]
    rfl
  have hrc : positional (((z.take 6 ++ digits256 4 code ++ z.drop 10).drop 6).take 4) = code := by
    rw [List.append_assoc, List.drop_left' (by rw [List.length_take]; omega),
      List.take_left' (by simp), positional_digits256_of_lt]
    have : (256 : Nat) ^ 4 = 2 ^ 32 := by decide
    omega
  have h1 := C32_error_code (serverTransport g es) c a k k h hfit 10 _ (by rw [hz]; exact ht)
    (by rw [hrc]; exact h0)
  rw [hrc] at h1
  have h3 : (runCommandWithHandles (serverTransport g es) c a k).state = k := by
    rw [run_eq _ c a k h hfit, hz, ht]
  rw [← h1]
  conv => rhs; arg 2; rw [← h3]

/-! ### C57 -/

/-- **C57**: a command the server does not support is reported to the client as
the error COMMAND_CODE; the server's state is unchanged. -/
theorem C57_unsupported (c : Command) (a : Area) (g : Drbg D) (es : Entropy E) (k : Crypto D E)
    (h : CmdWF c a) (hfit : (commandBytes c a.active).length ≤ 4096) (hc : c.code ≠ 0x17B) :
    runCommandWithHandles (serverTransport g es) c a k =
      ⟨.err (.tss ⟨0x143⟩), k⟩ := by
  apply error_reported c a g es k h hfit 0x143 (by decide) (by decide)
  have hs := command_sized c a.active hfit
  exact C47_bad_code g es k _ _ hs.1 hs.2 (by rw [command_code c _ h.code]; exact hc) _ (.inl rfl)

/-- **C57**: a GetRandom command without the number of bytes is reported as
COMMAND_SIZE. -/
theorem C57_no_count (c : Command) (a : Area) (g : Drbg D) (es : Entropy E) (k : Crypto D E)
    (h : CmdWF c a) (hc : c.code = 0x17B) (hb : (commandBody c a.active).length < 2) :
    runCommandWithHandles (serverTransport g es) c a k =
      ⟨.err (.tss ⟨0x142⟩), k⟩ := by
  have hl := commandBytes_length c a.active
  have hfit : (commandBytes c a.active).length ≤ 4096 := by omega
  apply error_reported c a g es k h hfit 0x142 (by decide) (by decide)
  have hs := command_sized c a.active hfit
  exact C47_no_count g es k _ _ hs.1 (by omega) hs.2 (by rw [command_code c _ h.code]; exact hc) _
    (.inl rfl)

theorem getRandom_bytes (n : Nat) :
    commandBody (getRandomCommand n) area0.active = digits256 2 n := by
  simp [commandBody, getRandomCommand, area0, Area.active, authArea, wire, GetRandomCmd, S, plains,
    wireFields, u16]

theorem getRandom_asks (n : Nat) (hn : n < 65536) :
    AsksRandom (commandBytes (getRandomCommand n) area0.active) ∧
    field (commandBytes (getRandomCommand n) area0.active) 10 2 = n := by
  have hl := commandBytes_length (getRandomCommand n) area0.active
  rw [getRandom_bytes, digits256_length] at hl
  refine ⟨⟨command_sized _ _ (exFit0 n), ?_, by omega⟩, ?_⟩
  · exact command_code _ _ (by show 0x17B < 2 ^ 32; decide)
  · unfold field
    rw [command_body, getRandom_bytes, List.take_of_length_le (by simp),
      positional_digits256_of_lt (by simpa using hn)]

/-- **C57**: a request for more bytes than fit into the client's buffer is
reported as MEMORY. -/
theorem C57_too_many (n : Nat) (hn : n < 65536) (hbig : 4086 < n) (g : Drbg D) (es : Entropy E)
    (k : Crypto D E) :
    runCommandWithHandles (serverTransport g es) (getRandomCommand n) area0 k =
      ⟨.err (.tss ⟨0x904⟩), k⟩ := by
  apply error_reported (getRandomCommand n) area0 g es k (exCmdWF0 n hn) (exFit0 n) 0x904
    (by decide) (by decide)
  obtain ⟨h1, h2⟩ := getRandom_asks n hn
  exact C48_memory g es k _ _ h1 (by rw [h2, List.length_replicate]; omega) _ (.inl rfl)

/-- **C57**: with any sessions and parameters, a GetRandom command whose body begins with a
number of bytes beyond the client's buffer is reported as MEMORY. -/
theorem C57_memory (c : Command) (a : Area) (g : Drbg D) (es : Entropy E) (k : Crypto D E)
    (h : CmdWF c a) (hfit : (commandBytes c a.active).length ≤ 4096) (hc : c.code = 0x17B)
    (hb : 2 ≤ (commandBody c a.active).length)
    (hbig : 4086 < positional ((commandBody c a.active).take 2)) :
    runCommandWithHandles (serverTransport g es) c a k = ⟨.err (.tss ⟨0x904⟩), k⟩ := by
  have hl := commandBytes_length c a.active
  apply error_reported c a g es k h hfit 0x904 (by decide) (by decide)
  refine C48_memory g es k _ _ ⟨command_sized _ _ hfit, ?_, by omega⟩ ?_ _ (.inl rfl)
  · rw [command_code c _ h.code]; exact hc
  · rw [List.length_replicate]
    unfold field
    rw [command_body]
    omega

/-- **C57**: whatever the command, if the answer of the server has a response code, the
client returns this code, and the server is left in the state of that answer. -/
theorem C57_every (c : Command) (a : Area) (g : Drbg D) (es : Entropy E) (k : Crypto D E)
    (h : CmdWF c a) (hfit : (commandBytes c a.active).length ≤ 4096)
    (r : Option Nat × Bytes × Crypto D E)
    (hr : Served g es k (commandBytes c a.active) (List.replicate 4096 0) r) (size : Nat)
    (hs : r.1 = some size) (hcode : field r.2.1 6 4 ≠ 0) :
    runCommandWithHandles (serverTransport g es) c a k =
      ⟨.err (.tss ⟨field r.2.1 6 4⟩), r.2.2⟩ := by
  rw [served_eq hr] at hs hcode ⊢
  generalize hz : List.replicate 4096 (0 : UInt8) = z at *
  have ht : (serverTransport g es).transact k (commandBytes c a.active) z =
      (.reported size, (executeSeparate g es k (commandBytes c a.active) z).2.1,
        (executeSeparate g es k (commandBytes c a.active) z).2.2) := by
    simp only [serverTransport, hs]
  have h1 := C32_error_code (serverTransport g es) c a k _ h hfit size _ (by rw [hz]; exact ht)
    hcode
  have h3 : (runCommandWithHandles (serverTransport g es) c a k).state =
      (executeSeparate g es k (commandBytes c a.active) z).2.2 := by
    rw [run_eq _ c a k h hfit, hz, ht]
  unfold field
  rw [← h1]
  conv => rhs; arg 2; rw [← h3]

/-- Startup, a GetRandom command without parameters, and GetRandom(5000). -/
example := C57_unsupported ⟨Cc.Startup, .unit, .unit, StartupCmd, .struct [.struct [.int 0]], .unit, .unit⟩
  (area1 exSession) fakeDrbg fakeEntropy (fakeState 0)
  ⟨by decide, by decide, by decide, exCmdWF.auths⟩ (by decide) (by decide)
example := C57_no_count ⟨0x17B, .unit, .unit, .unit, .unit, .unit, .unit⟩ area0 fakeDrbg fakeEntropy
  (fakeState 0) ⟨by decide, by decide, by decide, by intro s hs; simp [Area.active, area0] at hs⟩
  rfl (by decide)
example := C57_too_many 5000 (by omega) (by omega) fakeDrbg fakeEntropy (fakeState 0)

example := C57_memory (getRandomCommand 5000) area0 fakeDrbg fakeEntropy (fakeState 0)
  (exCmdWF0 5000 (by omega)) (exFit0 5000) rfl (by decide) (by decide)
example (z : Bytes) (hz : List.replicate 4096 0 = z) : runCommandWithHandles
    (serverTransport fakeDrbg fakeEntropy) (getRandomCommand 5000) area0 (fakeState 0) =
      ⟨.err (.tss ⟨0x904⟩), fakeState 0⟩ := by
  have hl : z.length = 4096 := by rw [← hz, List.length_replicate]
  have hm := C48_memory fakeDrbg fakeEntropy (fakeState 0)
    (commandBytes (getRandomCommand 5000) area0.active) z (getRandom_asks 5000 (by omega)).1
    (by rw [(getRandom_asks 5000 (by omega)).2, hl]; omega) _ (.inl rfl)
  have he : errorAnswer z 0x904 (fakeState 0) =
      (some 10, z.take 6 ++ digits256 4 0x904 ++ z.drop 10, fakeState 0) := by
    unfold errorAnswer
    rw [if_pos (by omega)]
  have hf : field (z.take 6 ++ digits256 4 0x904 ++ z.drop 10) 6 4 = 0x904 := by
    unfold field
    rw [List.append_assoc, List.drop_left' (by rw [List.length_take]; omega),
      List.take_left' (by simp)]
    decide
  have h := C57_every (getRandomCommand 5000) area0 fakeDrbg fakeEntropy (fakeState 0)
    (exCmdWF0 5000 (by omega)) (exFit0 5000) _ (.inl rfl) 10 (by rw [hz, hm, he])
    (by rw [hz, hm, he, hf]; decide)
  rw [hz, hm, he, hf] at h
  exact h

/-! ### C56 -/

theorem getRandom_transact (n : Nat) (hn : n ≤ 4086) (g : Drbg D) (es : Entropy E)
    (k k' : Crypto D E) (out : Bytes)
    (hp : Produces g es k (List.replicate n 0) out k') :
    (serverTransport g es).transact k (commandBytes (getRandomCommand n) area0.active)
        (List.replicate 4096 0) =
      (.reported (10 + n), responseOf 0 out ++ List.replicate (4086 - n) 0, k') ∧ out.length = n := by
  obtain ⟨h1, h2⟩ := getRandom_asks n (by omega)
  have hr : ((List.replicate 4096 (0 : UInt8)).drop 10).take n = List.replicate n 0 := by
    rw [List.drop_replicate, List.take_replicate]; congr 1; omega
  obtain ⟨h3, h4⟩ := C48_success g es k k' _ (List.replicate 4096 0) out h1
    (by rw [h2, List.length_replicate]; omega) (by rw [h2, hr]; exact hp) _ (.inl rfl)
  rw [h2] at h3 h4
  refine ⟨?_, h4⟩
  simp only [serverTransport]
  rw [h3]
  simp only [List.drop_replicate]
  congr 4
  omega

/-- **C56**, what holds: the client's result is the interpretation of the
generated bytes as a sized buffer.  It succeeds with `p` only if the generated
bytes are the encoding of `p`, and then it does.  (Missing for the full claim:
the server does not send the size of the random bytes, so the client does not
return the bytes generated; see `C56_violated`.) -/
theorem C56_interpreted_partial (n : Nat) (hn : n ≤ 4086) (g : Drbg D) (es : Entropy E)
    (k k' : Crypto D E) (out : Bytes) (hp : Produces g es k (List.replicate n 0) out k') :
    (∀ p h, (runCommandWithHandles (serverTransport g es) (getRandomCommand n) area0 k).result =
        .ok (p, h) → wire GetRandomResp p = out) ∧
    (∀ p, WF GetRandomResp p → wire GetRandomResp p = out →
      (runCommandWithHandles (serverTransport g es) (getRandomCommand n) area0 k).result =
        .ok (canon GetRandomResp p, .unit)) := by
  obtain ⟨ht, hlen⟩ := getRandom_transact n hn g es k k' out hp
  have hwf := exCmdWF0 n (by omega)
  have p4 : (256 : Nat) ^ 4 = 4294967296 := by decide
  constructor
  · intro p h hok
    obtain ⟨m, rsp, s', r, rest, h1, h2, h3, h4, h5, h6, h7⟩ := C33_accounted (serverTransport g es)
      (getRandomCommand n) area0 k hwf.code trivial (by refine ⟨?_, trivial⟩; show n < 256 ^ 2; omega)
      (by intro s hs; simp [Area.active, area0] at hs) p h hok
    rw [ht] at h1
    have h1 := (Prod.mk.inj (Prod.mk.inj h1).2).1
    rw [← h1] at h2
    have hb := responseBytes_length (getRandomCommand n) r
    -- the size fields agree
    have hs : 10 + out.length = 10 + (responseBody (getRandomCommand n) r).length := by
      have e1 : positional (((responseOf 0 out ++ List.replicate (4086 - n) 0).drop 2).take 4) =
          10 + out.length := by
        unfold responseOf
        simp only [List.append_assoc]
        rw [List.drop_left' (by rfl), List.take_left' (by simp), positional_digits256_of_lt (by rw [p4]; omega)]
      have e2 : positional (((responseBytes (getRandomCommand n) r ++ rest).drop 2).take 4) =
          10 + (responseBody (getRandomCommand n) r).length := by
        unfold responseBytes
        simp only [List.append_assoc]
        rw [List.drop_left' (by simp), List.take_left' (by simp),
          positional_digits256_of_lt (by rw [p4]; omega)]
      rw [← e1, ← e2, h2]
    have hro : (responseOf 0 out).length = 10 + out.length := by
      simp [responseOf]; omega
    have heq : responseOf 0 out = responseBytes (getRandomCommand n) r := by
      have := congrArg (List.take (10 + out.length)) h2
      rw [List.take_left' hro, List.take_left' (by rw [hb]; omega)] at this
      exact this
    have htag : r.tag = 0x8001 := by
      have := congrArg (fun b => positional (b.take 2)) heq
      simp only [responseOf, responseBytes, List.append_assoc] at this
      rw [List.take_left' (by rfl), List.take_left' (by simp),
        positional_digits256_of_lt (by have := h4.1; omega)] at this
      exact this.symm
    have hbody : out = responseBody (getRandomCommand n) r := by
      have := congrArg (List.drop 10) heq
      unfold responseOf responseBytes at this
      rw [List.drop_left' (by simp), List.drop_left' (by simp)] at this
      exact this
    have hauth : r.auths = [] := List.length_eq_zero_iff.1 (by rw [h7]; rfl)
    rw [hbody, ← h5]
    simp only [responseBody, htag, hauth, wires]
    have : wire (getRandomCommand n).respHandlesTy r.handles = [] := by
      cases r.handles <;> rfl
    rw [this]
    simp
    rfl
  · intro p hp' hw
    have := C34_delivered (serverTransport g es) (getRandomCommand n) area0 k k' hwf (exFit0 n)
      (10 + n) ⟨0x8001, .unit, 0, p, []⟩ (List.replicate (4086 - n) 0)
      ⟨by show 0x8001 < 65536; decide, by show 0 < 2 ^ 32; decide, trivial, hp', by simp⟩ (by
        rw [ht]
        have hbody : responseBody (getRandomCommand n) ⟨0x8001, .unit, 0, p, []⟩ = out := by
          simp only [responseBody, wires]
          rw [← hw]
          simp [getRandomCommand, wire]
        have : responseBytes (getRandomCommand n) ⟨0x8001, .unit, 0, p, []⟩ = responseOf 0 out := by
          rw [responseBytes, hbody]
          have : digits256 2 0x8001 = [0x80, 0x01] := by decide
          simp only [responseOf, this]
        rw [this]) trivial
    exact this

/-- **C56 is violated**, for every generator and count: the bytes the client
returns are never the bytes generated, but these without the first two.  (The
response parameters of GetRandom start with a two-byte size, which the server
does not write.) -/
theorem C56_violated (n : Nat) (hn : n ≤ 4086) (g : Drbg D) (es : Entropy E) (k k' : Crypto D E)
    (out : Bytes) (hp : Produces g es k (List.replicate n 0) out k') (size : Nat) (buf : Bytes)
    (h : Val)
    (hok : (runCommandWithHandles (serverTransport g es) (getRandomCommand n) area0 k).result =
      .ok (.struct [.tpm2b size buf], h)) :
    buf.take size = out.drop 2 ∧ buf.take size ≠ out := by
  have hw := (C56_interpreted_partial n hn g es k k' out hp).1 _ h hok
  simp only [GetRandomResp, S, plains, wire, wireFields, Tpm2bDigest, List.append_nil] at hw
  constructor
  · rw [← hw, List.drop_left' (by simp)]
  · intro hh
    have := congrArg List.length hw
    rw [hh, List.length_append, digits256_length] at this
    omega

/-- A generator that produces 0, 2, 7, 8: the client asks for four bytes and
receives two. -/
def sizedDrbg : Drbg Unit where
  entropyDefault := []
  nonceDefault := []
  instantiate _ _ _ := some ()
  reseed _ _ _ := (true, ())
  nextU32 _ _ := (none, ())
  nextU64 _ _ := (none, ())
  fillBytes _ _ b := (true, ([0, 2, 7, 8] ++ b.drop 4).take b.length, ())
  fillBytes_length := by intro d a b; simp; omega
  requiresReseeding _ := (false, ())

/-- The example for both theorems. -/
theorem C56_violated_short :
    (runCommandWithHandles (serverTransport sizedDrbg fakeEntropy) (getRandomCommand 4) area0
      ⟨(), ()⟩).result = .ok (.struct [.tpm2b 2 ([7, 8] ++ List.replicate 62 0)], .unit) := by
  have := (C56_interpreted_partial 4 (by decide) sizedDrbg fakeEntropy ⟨(), ()⟩ _ [0, 2, 7, 8]
    (.direct () () _ rfl rfl)).2 (.struct [.tpm2b 2 ([7, 8] ++ List.replicate 62 0)])
    (by decide) (by decide)
  rw [this]
  rfl

/-! ### C58 -/

theorem tthen_len {r : TOut} {k : Nat → Bytes → TOut} {n : Nat} (hr : r.2.length = n)
    (hk : ∀ w b, b.length = n → (k w b).2.length = n) : (tthen r k).2.length = n := by
  obtain ⟨_ | _ | _, b⟩ := r
  · exact hk _ _ hr
  · exact hr
  · exact hr

theorem tstep_len {f : Bytes → TOut} (hf : ∀ b, (f b).2.length = b.length) (w : Nat) (b : Bytes) :
    (tstep f w b).2.length = b.length := by
  unfold tstep
  split
  · have := hf (b.drop w)
    rcases hx : f (b.drop w) with ⟨_ | _ | _, sub⟩ <;>
      (rw [hx] at this; simp only [List.length_drop] at this
       simp only [List.length_append, List.length_take]; omega)
  · rfl

theorem toTss_len (t : Ty) (v : Val) (b : Bytes) : (toTss (marshal t v b)).2.length = b.length :=
  marshal_len t v b

theorem authSize_len (w : Nat) (b : Bytes) : (marshalAuthSize w b).2.length = b.length := by
  unfold marshalAuthSize
  refine tthen_len ?_ (fun _ _ h => h)
  exact marshalBytes_len _ b

theorem writeAuth_len (s : Session) (w : Nat) (b : Bytes) :
    (writeAuth s w b).2.length = b.length := tstep_len (toTss_len _ _) w b

theorem sessions_len (a : Area) (b : Bytes) : (writeCommandSessions a b).2.length = b.length := by
  unfold writeCommandSessions
  split
  · rfl
  · split
    · exact authSize_len _ _
    · refine tthen_len (writeAuth_len _ _ _) fun w b' hb => ?_
      split
      · rw [authSize_len, hb]
      · refine tthen_len (by rw [writeAuth_len, hb]) fun w b' hb => ?_
        split
        · rw [authSize_len, hb]
        · refine tthen_len (by rw [writeAuth_len, hb]) fun w b' hb => ?_
          rw [authSize_len, hb]

theorem buildCommand_len (c : Command) (a : Area) : (buildCommand c a).2.length = 4096 := by
  unfold buildCommand
  refine tthen_len (by rw [toTss_len]; exact cmdBuf_length) fun w b hb => ?_
  refine tthen_len (by rw [tstep_len (toTss_len _ _), hb]) fun w b hb => ?_
  refine tthen_len (by rw [tstep_len (sessions_len a), hb]) fun w b hb => ?_
  refine tthen_len (by rw [tstep_len (toTss_len _ _), hb]) fun w b hb => ?_
  exact tthen_len (by rw [toTss_len, hb]) fun w b hb => hb

/-- The TPM itself as the connection: every command is answered at once by `f`
at the given locality. -/
def directTransport (f : τ → Nat → Bytes → Bytes × τ) (loc : Nat) : Transport τ Empty where
  transact t cmd rsp :=
    (.reported (min rsp.length (f t loc cmd).1.length),
      (f t loc cmd).1.take rsp.length ++ rsp.drop (f t loc cmd).1.length, (f t loc cmd).2)
  keeps_length := by intro t cmd rsp; simp; omega
  reports_slice := by intro t cmd rsp n h; injection h with h; omega

/-- A direct connection does not fail, so its errors are errors of any client. -/
def anyErr {ε : Type} : CErr Empty → CErr ε
  | .tss e => .tss e

/-- Something a client does: run a command, or select a locality. -/
inductive Act where
  | run (c : Command) (a : Area)
  | locality (l : Nat)

/-- A client using a TPM over a connection: the results, and the connection
afterwards. -/
def overTcp (os : Tcp.Os σ) : List Act → Tcp.Conn σ →
    List (Res (CErr Tcp.IoErr) (Val × Val)) × Tcp.Conn σ
  | [], s => ([], s)
  | .run c a :: acts, s =>
    let r := runCommandWithHandles (tcpTransport os) c a s
    let rs := overTcp os acts r.state
    (r.result :: rs.1, rs.2)
  | .locality l :: acts, s => overTcp os acts (Tcp.setLocality l s).2

/-- The same client using the TPM directly: the results, and the TPM
afterwards. -/
def directly (f : τ → Nat → Bytes → Bytes × τ) : List Act → Nat → τ →
    List (Res (CErr Empty) (Val × Val)) × τ
  | [], _, t => ([], t)
  | .run c a :: acts, loc, t =>
    let r := runCommandWithHandles (directTransport f loc) c a t
    let rs := directly f acts loc r.state
    (r.result :: rs.1, rs.2)
  | .locality l :: acts, _, t => directly f acts l t

theorem run_over_tcp (os : Tcp.Os σ) (f : τ → Nat → Bytes → Bytes × τ) (pend : σ → Bytes)
    (st : σ → τ) (hs : Tcp.Simulator os f pend st)
    (hf : ∀ t loc cmd, (f t loc cmd).1.length ≤ 4096) (c : Command) (a : Area) (s : Tcp.Conn σ)
    (hl : s.locality < 256) (hp : pend s.net = []) :
    let r := runCommandWithHandles (tcpTransport os) c a s
    let d := runCommandWithHandles (directTransport f s.locality) c a (st s.net)
    r.result = d.result.mapErr anyErr ∧ st r.state.net = d.state ∧
    pend r.state.net = [] ∧ r.state.locality = s.locality := by
  have hlen := buildCommand_len c a
  simp only
  unfold runCommandWithHandles
  rcases hb : buildCommand c a with ⟨w | e | _, buf⟩
  · rw [hb] at hlen
    simp only at hlen ⊢
    rcases hsl : sliceTo buf w with _ | cmd
    · exact ⟨rfl, rfl, hp, rfl⟩
    · have hcmd : cmd.length < 2 ^ 32 := by
        unfold sliceTo at hsl
        split at hsl
        · injection hsl with hsl; subst hsl
          rw [List.length_take]; omega
        · simp at hsl
      have hz : (List.replicate respBufferSize (0 : UInt8)).length = 4096 := List.length_replicate
      generalize List.replicate respBufferSize (0 : UInt8) = z at hz
      have hff := hf (st s.net) s.locality cmd
      obtain ⟨s', h1, h2, h3, h4⟩ := Tcp.C40_answered os f pend st hs cmd z s hl hcmd hp
        (by omega) (by omega)
      simp only [tcpTransport, directTransport]
      rw [h1]
      refine ⟨?_, h3, h2, h4⟩
      simp only
      rw [List.take_of_length_le (by omega)]
      cases readResponse c a _ <;> rfl
  · exact ⟨rfl, rfl, hp, rfl⟩
  · exact ⟨rfl, rfl, hp, rfl⟩

/-- **C58**: with a simulator whose TPM behaves like `f` (with responses that
fit into the client's buffer), whatever the chunking, any sequence of client
commands and locality changes over the connection gives exactly the results of
handing the same command bytes to the TPM directly, and leaves the TPM in the
same state. -/
theorem C58_transparent (os : Tcp.Os σ) (f : τ → Nat → Bytes → Bytes × τ) (pend : σ → Bytes)
    (st : σ → τ) (hs : Tcp.Simulator os f pend st)
    (hf : ∀ t loc cmd, (f t loc cmd).1.length ≤ 4096) (acts : List Act)
    (hacts : ∀ l, .locality l ∈ acts → l < 256) (s : Tcp.Conn σ)
    (hl : s.locality < 256) (hp : pend s.net = []) :
    (overTcp os acts s).1 = (directly f acts s.locality (st s.net)).1.map (·.mapErr anyErr) ∧
    st (overTcp os acts s).2.net = (directly f acts s.locality (st s.net)).2 := by
  induction acts generalizing s with
  | nil => exact ⟨rfl, rfl⟩
  | cons act acts ih =>
    have hacts' : ∀ l, .locality l ∈ acts → l < 256 :=
      fun l h => hacts l (List.mem_cons_of_mem _ h)
    cases act with
    | run c a =>
      obtain ⟨h1, h3, h4, h5⟩ := run_over_tcp os f pend st hs hf c a s hl hp
      obtain ⟨i1, i2⟩ := ih hacts' _ (by rw [h5]; exact hl) h4
      rw [h3, h5] at i1 i2
      simp only [overTcp, directly, List.map_cons, h1, i1, i2]
      exact ⟨trivial, trivial⟩
    | locality l =>
      simp only [overTcp, directly]
      have hl' := hacts l List.mem_cons_self
      exact ih hacts' (Tcp.setLocality l s).2 hl' hp

/-- The TPM of this repository as the simulator's TPM: it serves each command
with a zeroed response buffer of 4096 bytes.  (A panic gives no response.) -/
def tpmOf (g : Drbg D) (es : Entropy E) (k : Crypto D E) (_ : Nat) (cmd : Bytes) :
    Bytes × Crypto D E :=
  let r := executeSeparate g es k cmd (List.replicate 4096 0)
  (r.2.1.take (r.1.getD 0), r.2.2)

theorem tpmOf_length (g : Drbg D) (es : Entropy E) (k : Crypto D E) (l : Nat) (cmd : Bytes) :
    (tpmOf g es k l cmd).1.length ≤ 4096 := by
  have h := (C46_bounds g es k cmd (List.replicate 4096 0) _ (.inl rfl)).1
  rw [List.length_replicate] at h
  unfold tpmOf
  rw [List.length_take, h]
  omega

theorem direct_server (g : Drbg D) (hg : Reliable g) (es : Entropy E) (k : Crypto D E) (l : Nat)
    (c : Command) (a : Area) :
    let r := runCommandWithHandles (directTransport (tpmOf g es) l) c a k
    let d := runCommandWithHandles (serverTransport g es) c a k
    (∀ x, r.result = .ok x ↔ d.result = .ok x) ∧
    (∀ e, r.result = .err (.tss e) ↔ d.result = .err (.tss e)) ∧
    r.state = d.state := by
  simp only
  unfold runCommandWithHandles
  rcases hb : buildCommand c a with ⟨w | e | _, buf⟩
  · simp only
    rcases hsl : sliceTo buf w with _ | cmd
    · simp
    · simp only
      have hB := C46_bounds g es k cmd (List.replicate 4096 0) _ (.inl rfl)
      have hz : (List.replicate 4096 (0 : UInt8)).length = 4096 := List.length_replicate
      simp only [directTransport, serverTransport, tpmOf, respBufferSize]
      generalize List.replicate 4096 (0 : UInt8) = z at hB hz ⊢
      rcases hx : executeSeparate g es k cmd z with ⟨_ | size, rsp, k'⟩
      · rw [hx] at hB; exact absurd rfl (hB.2.2 hg)
      · rw [hx] at hB
        obtain ⟨h1, h2, -⟩ := hB
        obtain ⟨h3, h4⟩ := h2 size rfl
        simp only at h1 h4
        have : (rsp.take size).take z.length ++ z.drop (rsp.take size).length = rsp := by
          rw [List.take_of_length_le (by rw [List.length_take]; omega), List.length_take,
            Nat.min_eq_left (by omega), ← h4, List.take_append_drop]
        simp only [Option.getD_some, this]
        refine ⟨fun x => ?_, fun e => ?_, trivial⟩ <;> cases readResponse c a rsp <;> simp [Res.mapErr]
  · simp
  · simp

/-- **C58**: in particular the error codes of this repository's TPM reach the
client over the connection. -/
theorem C58_server_errors (os : Tcp.Os σ) (g : Drbg D) (hg : Reliable g) (es : Entropy E)
    (pend : σ → Bytes) (st : σ → Crypto D E) (hs : Tcp.Simulator os (tpmOf g es) pend st)
    (c : Command) (a : Area) (s : Tcp.Conn σ) (hl : s.locality < 256) (hp : pend s.net = [])
    (h : CmdWF c a) (hfit : (commandBytes c a.active).length ≤ 4096) (hc : c.code ≠ 0x17B) :
    (runCommandWithHandles (tcpTransport os) c a s).result = .err (.tss ⟨0x143⟩) := by
  obtain ⟨h1, -⟩ := run_over_tcp os (tpmOf g es) pend st hs (tpmOf_length g es) c a s hl hp
  have h2 := (direct_server g hg es (st s.net) s.locality c a).2.1 ⟨0x143⟩
  rw [h1, h2.2 (by rw [C57_unsupported c a g es _ h hfit hc])]
  rfl

/-- A TPM that answers every command with success and two bytes, or, in locality
3, with TPM_RC_LOCALITY, over a connection that delivers single bytes. -/
def localTpm (t loc : Nat) (_ : Bytes) : Bytes × Nat :=
  (if loc = 3 then [0x80, 0x01, 0, 0, 0, 10, 0, 0, 9, 7]
    else [0x80, 0x01, 0, 0, 0, 14, 0, 0, 0, 0, 0, 2, 0xAA, 0xBB], t + 1)

example := C58_transparent (Tcp.demoOs localTpm 0) localTpm _ _ (Tcp.demo_simulator localTpm 0)
  (by intro t loc cmd; unfold localTpm; split <;> simp)
  [.run (getRandomCommand 2) area0, .locality 3, .run (getRandomCommand 4) (area1 exSession)]
  (by intro l h; simp at h; omega) ⟨⟨[], [], 0⟩, 0, []⟩ (by decide) rfl

set_option maxRecDepth 50000 in
/-- Its two results. -/
example : (directly localTpm
    [.run (getRandomCommand 2) area0, .locality 3, .run (getRandomCommand 4) (area1 exSession)] 0
    0).1 =
    [.ok (.struct [.tpm2b 2 ([0xAA, 0xBB] ++ List.replicate 62 0)], .unit), .err (.tss ⟨0x907⟩)] := by
  simp only [directly]
  rw [run_eq _ _ _ _ (exCmdWF0 2 (by omega)) (exFit0 2), run_eq _ _ _ _ exCmdWF exFit]
  rfl

theorem sized_reliable : Reliable sizedDrbg := ⟨fun _ _ _ => rfl, fun _ _ _ => rfl⟩

/-- Startup over a connection to the TPM of this repository. -/
example := C58_server_errors (Tcp.demoOs (tpmOf sizedDrbg fakeEntropy) 2) sizedDrbg sized_reliable
  fakeEntropy _ _ (Tcp.demo_simulator _ 2)
  ⟨Cc.Startup, .unit, .unit, StartupCmd, .struct [.struct [.int 0]], .unit, .unit⟩
  (area1 exSession) ⟨⟨[], [], ⟨(), ()⟩⟩, 0, []⟩ (by decide) rfl
  ⟨by decide, by decide, by decide, exCmdWF.auths⟩ (by decide) (by decide)

end Verif.EndToEnd
