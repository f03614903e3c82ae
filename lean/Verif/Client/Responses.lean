import Verif.Client.Unambiguous

/-
Property theorems C106: responses can be read in one way only, and it is this
reading that the client returns.
-/

namespace Verif.Client
open Verif Verif.Base Verif.Errors

set_option maxRecDepth 8000

/-! ### Specification -/

/-- What a response says: its tag, its handles, parameters and authorization
responses up to the unused bytes of their buffers, and the size of the
parameters if it is there. -/
def SameResponse (c : Command) (r r' : Response) : Prop :=
  r.tag = r'.tag ∧
  canon c.respHandlesTy r.handles = canon c.respHandlesTy r'.handles ∧
  (r.tag = 0x8002 → r.paramSize = r'.paramSize) ∧
  canon c.respTy r.params = canon c.respTy r'.params ∧
  r.auths.map (canon TpmsAuthResponse) = r'.auths.map (canon TpmsAuthResponse)

/-! ### Lemmas -/

/-- No authorization response is encoded as nothing. -/
theorem wire_authResponse_ne (v : Val) (hv : WF TpmsAuthResponse v) :
    wire TpmsAuthResponse v ≠ [] := by
  intro h
  have h1 := (goodTy TpmsAuthResponse).complete v [] hv
  rw [h] at h1
  have h2 : (unmarshal TpmsAuthResponse []).1.isOk = false := by decide
  rw [List.nil_append] at h1
  rw [h1] at h2
  simp [Res.isOk] at h2

theorem wires_authResponse_inj : ∀ vs vs' : List Val,
    (∀ v ∈ vs, WF TpmsAuthResponse v) → (∀ v ∈ vs', WF TpmsAuthResponse v) →
    wires TpmsAuthResponse vs = wires TpmsAuthResponse vs' →
    vs.map (canon TpmsAuthResponse) = vs'.map (canon TpmsAuthResponse)
  | [], [], _, _, _ => rfl
  | [], v :: _, _, h', h => by
    simp only [wires, List.map_nil, List.flatten_nil, List.map_cons, List.flatten_cons] at h
    exact absurd (List.append_eq_nil_iff.1 h.symm).1 (wire_authResponse_ne v (h' v (by simp)))
  | v :: _, [], h', _, h => by
    simp only [wires, List.map_nil, List.flatten_nil, List.map_cons, List.flatten_cons] at h
    exact absurd (List.append_eq_nil_iff.1 h).1 (wire_authResponse_ne v (h' v (by simp)))
  | v :: vs, v' :: vs', h1, h2, h => by
    simp only [wires, List.map_cons, List.flatten_cons] at h
    obtain ⟨e, er⟩ := wire_append_inj _ v v' _ _ (h1 v (by simp)) (h2 v' (by simp)) h
    rw [List.map_cons, List.map_cons, e,
      wires_authResponse_inj vs vs' (fun x hx => h1 x (by simp [hx]))
        (fun x hx => h2 x (by simp [hx])) er]

/-- The first ten bytes give tag and length. -/
theorem responseHeader_inj (c c' : Command) (r r' : Response) (x x' : Bytes)
    (ht : r.tag < 65536) (ht' : r'.tag < 65536)
    (hl : (responseBytes c r).length < 2 ^ 32) (hl' : (responseBytes c' r').length < 2 ^ 32)
    (h : responseBytes c r ++ x = responseBytes c' r' ++ x') :
    r.tag = r'.tag ∧ responseBody c r = responseBody c' r' ∧ x = x' := by
  rw [responseBytes_length] at hl hl'
  simp only [responseBytes, List.append_assoc] at h
  obtain ⟨h1, h⟩ := List.append_inj h (by simp)
  obtain ⟨h2, h⟩ := List.append_inj h (by simp)
  obtain ⟨_, h⟩ := List.append_inj h (by simp)
  have e2 := digits256_inj (by omega) (by omega) h2
  obtain ⟨h4, h5⟩ := List.append_inj h (by omega)
  exact ⟨digits256_inj (by simpa using ht) (by simpa using ht') h1, h4, h5⟩

theorem responseBody_inj (c : Command) (r r' : Response) (hr : r.WellFormed c)
    (hr' : r'.WellFormed c) (ht : r.tag = r'.tag) (h : responseBody c r = responseBody c r') :
    SameResponse c r r' := by
  obtain ⟨_, p2, p3, p4, p5⟩ := hr
  obtain ⟨_, q2, q3, q4, q5⟩ := hr'
  simp only [responseBody, List.append_assoc] at h
  obtain ⟨e1, h⟩ := wire_append_inj _ _ _ _ _ p3 q3 h
  have key : (r.tag = 0x8002 → r.paramSize = r'.paramSize) ∧
      wire c.respTy r.params ++ wires TpmsAuthResponse r.auths =
        wire c.respTy r'.params ++ wires TpmsAuthResponse r'.auths := by
    by_cases hs : r.tag = 0x8002
    · have hs' : r'.tag = 0x8002 := by rw [← ht, hs]
      rw [if_pos hs, if_pos hs'] at h
      obtain ⟨h1, h⟩ := List.append_inj h (by simp)
      exact ⟨fun _ => digits256_inj (by simpa using p2) (by simpa using q2) h1, h⟩
    · have hs' : ¬ r'.tag = 0x8002 := by rw [← ht]; exact hs
      rw [if_neg hs, if_neg hs', List.nil_append, List.nil_append] at h
      exact ⟨fun x => absurd x hs, h⟩
  obtain ⟨e2, h⟩ := wire_append_inj _ _ _ _ _ p4 q4 key.2
  exact ⟨ht, e1, key.1, e2, wires_authResponse_inj _ _ p5 q5 h⟩

theorem sameResponse_bytes (c : Command) (r r' : Response) (hr : r.WellFormed c)
    (hr' : r'.WellFormed c) (h : SameResponse c r r') : responseBytes c r = responseBytes c r' := by
  obtain ⟨_, _, p3, p4, p5⟩ := hr
  obtain ⟨_, _, q3, q4, q5⟩ := hr'
  obtain ⟨e1, e2, e3, e4, e5⟩ := h
  have w1 := ((C08_unambiguous _ _ _ p3 q3).2).2 e2
  have w2 := ((C08_unambiguous _ _ _ p4 q4).2).2 e4
  have w3 := wires_congr _ _ _ p5 q5 e5
  have w4 : (if r.tag = 0x8002 then digits256 4 r.paramSize else []) =
      (if r'.tag = 0x8002 then digits256 4 r'.paramSize else []) := by
    rw [← e1]
    split
    · rename_i hs; rw [e3 hs]
    · rfl
  have hb : responseBody c r = responseBody c r' := by
    simp only [responseBody, w1, w2, w3, w4]
  simp only [responseBytes, hb, e1]

/-! ### C106 -/

/-- **C106**: if bytes begin with two responses to a command, whatever follows
them, they say the same, and nothing else is left after them; and responses
that say the same have the same bytes. -/
theorem C106_responses (c : Command) (r r' : Response) (x x' : Bytes) (hr : r.WellFormed c)
    (hr' : r'.WellFormed c) (hl : (responseBytes c r).length < 2 ^ 32)
    (hl' : (responseBytes c r').length < 2 ^ 32) :
    responseBytes c r ++ x = responseBytes c r' ++ x' ↔ SameResponse c r r' ∧ x = x' := by
  constructor
  · intro h
    obtain ⟨e1, e2, e3⟩ := responseHeader_inj c c r r' x x' hr.1 hr'.1 hl hl' h
    exact ⟨responseBody_inj c r r' hr hr' e1 e2, e3⟩
  · rintro ⟨h, rfl⟩
    rw [sameResponse_bytes c r r' hr hr' h]

/-- Responses to these commands, one after the other. -/
def responseStream : List (Command × Response) → Bytes
  | [] => []
  | (c, r) :: l => responseBytes c r ++ responseStream l

/-- Two sequences of responses to the same commands that say the same. -/
inductive SameResponses : List (Command × Response) → List (Command × Response) → Prop
  | nil : SameResponses [] []
  | cons {c : Command} {r r' : Response} {l l' : List (Command × Response)}
      (h : SameResponse c r r') (rest : SameResponses l l') :
      SameResponses ((c, r) :: l) ((c, r') :: l')

/-- **C106**: a stream of responses to known commands has one reading only. -/
theorem C106_stream : ∀ l l' : List (Command × Response),
    l.map (·.1) = l'.map (·.1) →
    (∀ p ∈ l, p.2.WellFormed p.1 ∧ (responseBytes p.1 p.2).length < 2 ^ 32) →
    (∀ p ∈ l', p.2.WellFormed p.1 ∧ (responseBytes p.1 p.2).length < 2 ^ 32) →
    (responseStream l = responseStream l' ↔ SameResponses l l')
  | [], [], _, _, _ => ⟨fun _ => .nil, fun _ => rfl⟩
  | [], _ :: _, h, _, _ => by simp at h
  | _ :: _, [], h, _, _ => by simp at h
  | (c, r) :: l, (c', r') :: l', h, h1, h2 => by
    simp only [List.map_cons, List.cons.injEq] at h
    obtain ⟨rfl, h⟩ := h
    obtain ⟨a1, a2⟩ := h1 (c, r) (by simp)
    obtain ⟨b1, b2⟩ := h2 (c, r') (by simp)
    have ih := C106_stream l l' h (fun p hp => h1 p (by simp [hp])) (fun p hp => h2 p (by simp [hp]))
    simp only [responseStream]
    rw [C106_responses c r r' _ _ a1 b1 a2 b2, ih]
    constructor
    · rintro ⟨e1, e2⟩
      exact .cons e1 e2
    · intro e
      cases e with
      | cons e1 e2 => exact ⟨e1, e2⟩

/-- **C106**: what the client returns is what the delivered bytes say, in the
only way they can be read: each response to the command that they begin with
has exactly the returned handles and parameters, and authorization responses
that the sessions accept. -/
theorem C106_returned {σ ε : Type} (tr : Transport σ ε) (c : Command) (a : Area) (s s' : σ)
    (hcode : c.code < 2 ^ 32)
    (hh : HasTy c.handlesTy c.handles) (hp : HasTy c.paramTy c.param)
    (ha : ∀ s ∈ a.active, HasTy TpmsAuthCommand s.authCommand) (p h : Val) (n : Nat) (r : Response)
    (rest : Bytes)
    (hok : (runCommandWithHandles tr c a s).result = .ok (p, h))
    (ht : tr.transact s (commandBytes c a.active) (List.replicate 4096 0) =
      (.reported n, responseBytes c r ++ rest, s'))
    (hr : r.WellFormed c) :
    p = canon c.respTy r.params ∧ h = canon c.respHandlesTy r.handles ∧
    Accepted a.active (r.auths.map (canon TpmsAuthResponse)) := by
  obtain ⟨hw, hfit⟩ := run_wf tr c a s hcode hh hp ha (.inr (by rw [hok]; rfl))
  have hl : (responseBytes c r ++ rest).length = 4096 := by
    have := tr.keeps_length s (commandBytes c a.active) (List.replicate 4096 0)
    rw [ht, List.length_replicate] at this; exact this
  rw [run_eq tr c a s hw hfit, ht] at hok
  have hrr : readResponse c a (responseBytes c r ++ rest) = .ok (p, h) := by
    change (readResponse c a _).mapErr _ = _ at hok
    revert hok; cases readResponse c a (responseBytes c r ++ rest) <;> simp [Res.mapErr]
  obtain ⟨r', rest', h1, h2, rfl, rfl, h5, h6, h7, h8⟩ := (readResponse_ok_iff c a _ hl p h).1 hrr
  have hl1 : (responseBytes c r).length < 2 ^ 32 := by
    rw [List.length_append] at hl; omega
  have hl2 : (responseBytes c r').length < 2 ^ 32 := by
    rw [h2, List.length_append] at hl; omega
  obtain ⟨⟨_, e2, _, e4, e5⟩, _⟩ := (C106_responses c r r' rest rest' hr h1 hl1 hl2).1 h2
  refine ⟨by rw [e4, h5], by rw [e2, h6], ?_⟩
  rw [e5, show r'.auths.map (canon TpmsAuthResponse) = r'.auths from ?_]
  · exact h8
  · conv => rhs; rw [← List.map_id r'.auths]
    exact List.map_congr_left fun v hv => h7 v hv

/-- **C106**: two answers to a command that the client takes for success with
the same handles and parameters, both without sessions, are the same bytes up
to their declared size, unless their tags differ. -/
theorem C106_answers {σ ε : Type} (tr : Transport σ ε) (c : Command) (s s1 s' s1' : σ)
    (hcode : c.code < 2 ^ 32)
    (hh : HasTy c.handlesTy c.handles) (hp : HasTy c.paramTy c.param) (p h : Val) (n n' : Nat)
    (rsp rsp' : Bytes)
    (hok : (runCommandWithHandles tr c area0 s).result = .ok (p, h))
    (hok' : (runCommandWithHandles tr c area0 s').result = .ok (p, h))
    (ht : tr.transact s (commandBytes c []) (List.replicate 4096 0) = (.reported n, rsp, s1))
    (ht' : tr.transact s' (commandBytes c []) (List.replicate 4096 0) = (.reported n', rsp', s1'))
    (htag : rsp.take 2 = [0x80, 0x01]) (htag' : rsp'.take 2 = [0x80, 0x01]) :
    ∃ b x x', rsp = b ++ x ∧ rsp' = b ++ x' ∧
      positional ((b.drop 2).take 4) = b.length := by
  obtain ⟨m, q, t, r, x, e1, e2, e3, e4, e5, e6, e7⟩ :=
    C33_accounted tr c area0 s hcode hh hp (by simp [area0, Area.active]) p h hok
  obtain ⟨m', q', t', r', x', f1, f2, f3, f4, f5, f6, f7⟩ :=
    C33_accounted tr c area0 s' hcode hh hp (by simp [area0, Area.active]) p h hok'
  have ea : area0.active = [] := rfl
  rw [ea] at e1 e7 f1 f7
  rw [ht] at e1
  rw [ht'] at f1
  simp only [Prod.mk.injEq] at e1 f1
  obtain ⟨-, rfl, -⟩ := e1
  obtain ⟨-, rfl, -⟩ := f1
  have tag : ∀ (r : Response) (x : Bytes), r.WellFormed c →
      (responseBytes c r ++ x).take 2 = [0x80, 0x01] → r.tag = 0x8001 := by
    intro r x hr h
    have h2 : (responseBytes c r ++ x).take 2 = digits256 2 r.tag := by
      simp only [responseBytes, List.append_assoc]
      exact List.take_left' (by simp)
    rw [h2] at h
    exact digits256_inj (n := 2) (by simpa using hr.1) (by decide) (by rw [h]; decide)
  have g1 := tag r x e4 (by rw [← e2]; exact htag)
  have g2 := tag r' x' f4 (by rw [← f2]; exact htag')
  have hs : SameResponse c r r' := by
    refine ⟨by rw [g1, g2], by rw [e6, f6], ?_, by rw [e5, f5], ?_⟩
    · intro h; rw [g1] at h; exact absurd h (by decide)
    · rw [List.eq_nil_of_length_eq_zero e7, List.eq_nil_of_length_eq_zero f7]
  refine ⟨responseBytes c r, x, x', e2, by rw [sameResponse_bytes c r r' e4 f4 hs]; exact f2, ?_⟩
  have hb := responseBytes_length c r
  have : ((responseBytes c r).drop 2).take 4 = digits256 4 (10 + (responseBody c r).length) := by
    simp only [responseBytes, List.append_assoc]
    rw [List.drop_left' (by simp)]
    exact List.take_left' (by simp)
  rw [this, positional_digits256_of_lt (by rw [← hb]; omega), hb]

/-! ### Cases -/

/-- The same response with other unused bytes, and another one. -/
example : SameResponse (getRandomCommand 2) exResponse
      ⟨0x8001, .unit, 9, .struct [.tpm2b 2 ([0xAA, 0xBB] ++ List.replicate 62 7)], []⟩ ∧
    ¬ SameResponse (getRandomCommand 2) exResponse
      ⟨0x8001, .unit, 0, .struct [.tpm2b 2 ([0xAA, 0xBC] ++ List.replicate 62 0)], []⟩ := by
  refine ⟨⟨rfl, rfl, by decide, rfl, rfl⟩, ?_⟩
  rintro ⟨_, _, _, h, _⟩
  exact absurd (((C08_unambiguous _ _ _ (by decide) (by decide)).2).2 h) (by decide)

/-- Two responses one after the other. -/
example : responseStream [(getRandomCommand 2, exResponse), (getRandomCommand 2, exResponse)] =
    [0x80, 0x01, 0, 0, 0, 14, 0, 0, 0, 0, 0, 2, 0xAA, 0xBB,
     0x80, 0x01, 0, 0, 0, 14, 0, 0, 0, 0, 0, 2, 0xAA, 0xBB] := by decide

/-- The command has to be known: two random bytes are also an answer to a
command that returns a word of 32 bits. -/
example : responseBytes (getRandomCommand 2) exResponse =
    responseBytes { getRandomCommand 2 with respTy := u32 } ⟨0x8001, .unit, 0, .int 0x2AABB, []⟩ := by
  decide

/-- The hypotheses of `C106_returned` are met. -/
example : (.struct [.tpm2b 2 ([0xAA, 0xBB] ++ List.replicate 62 0)] : Val) =
    canon GetRandomResp (.struct [.tpm2b 2 ([0xAA, 0xBB] ++ List.replicate 62 0)]) :=
  (C106_returned (replay [0x80, 0x01, 0, 0, 0, 14, 0, 0, 0, 0, 0, 2, 0xAA, 0xBB] 14 (by decide))
    (getRandomCommand 2) area0 0 1 (by decide) trivial (by decide) (by simp [Area.active, area0])
    _ _ 14 exResponse ((List.replicate 4096 0).drop 14) exDelivered (by
      rw [exResponse_bytes]; exact replay_transact _ _ _ _ _ (by decide)) exResponse_wf).1

/-- A connection that answers with two random bytes and leaves something else
behind them each time. -/
def exLeaving : Transport Nat Unit where
  transact s _ buf :=
    if 15 ≤ buf.length then
      (.reported 14, [0x80, 0x01, 0, 0, 0, 14, 0, 0, 0, 0, 0, 2, 0xAA, 0xBB] ++
        UInt8.ofNat s :: buf.drop 15, s + 1)
    else (.failed (), buf, s + 1)
  keeps_length := by
    intro s cmd buf
    split
    · simp; omega
    · rfl
  reports_slice := by
    intro s cmd buf k h
    split at h
    · injection h with h; omega
    · simp at h

theorem exLeaving_transact (s : Nat) : exLeaving.transact s (commandBytes (getRandomCommand 2) [])
    (List.replicate 4096 0) = (.reported 14, [0x80, 0x01, 0, 0, 0, 14, 0, 0, 0, 0, 0, 2, 0xAA, 0xBB] ++
        UInt8.ofNat s :: (List.replicate 4096 0).drop 15, s + 1) := by
  generalize hz : List.replicate 4096 (0 : UInt8) = z
  have hl : z.length = 4096 := by rw [← hz, List.length_replicate]
  simp only [exLeaving]
  rw [if_pos (by omega)]

theorem exLeaving_delivered (s : Nat) :
    (runCommandWithHandles exLeaving (getRandomCommand 2) area0 s).result =
      .ok (.struct [.tpm2b 2 ([0xAA, 0xBB] ++ List.replicate 62 0)], .unit) := by
  rw [C34_delivered exLeaving (getRandomCommand 2) area0 s (s + 1) (exCmdWF0 2 (by omega)) (exFit0 2) 14
    exResponse (UInt8.ofNat s :: (List.replicate 4096 0).drop 15) exResponse_wf
    (by rw [exResponse_bytes]; exact exLeaving_transact s) trivial]
  rfl

/-- The hypotheses of `C106_answers` are met. -/
example : ∃ b x x' : Bytes,
    [0x80, 0x01, 0, 0, 0, 14, 0, 0, 0, 0, 0, 2, 0xAA, 0xBB] ++
      3 :: (List.replicate 4096 0).drop 15 = b ++ x ∧
    [0x80, 0x01, 0, 0, 0, 14, 0, 0, 0, 0, 0, 2, 0xAA, 0xBB] ++
      4 :: (List.replicate 4096 0).drop 15 = b ++ x' ∧
    positional ((b.drop 2).take 4) = b.length :=
  C106_answers exLeaving (getRandomCommand 2) 3 4 4 5 (by decide) trivial (by decide) _ _ 14 14 _ _
    (exLeaving_delivered 3) (exLeaving_delivered 4) (exLeaving_transact 3) (exLeaving_transact 4) rfl rfl

/-- With the tag for sessions there are several: the size of the parameters is
not looked at. -/
example : ∀ n < 2 ^ 32, (⟨0x8002, .unit, n, exResponse.params, []⟩ : Response).WellFormed
      (getRandomCommand 2) ∧
    (readResponse (getRandomCommand 2) area0 (responseBytes (getRandomCommand 2)
      ⟨0x8002, .unit, n, exResponse.params, []⟩ ++ List.replicate 4078 0)).isOk = true := by
  intro n hn
  have hw : (⟨0x8002, .unit, n, exResponse.params, []⟩ : Response).WellFormed (getRandomCommand 2) :=
    ⟨show 0x8002 < 65536 by decide, hn, trivial, exResponse_wf.2.2.2.1, by simp⟩
  refine ⟨hw, ?_⟩
  rw [(readResponse_ok_iff (getRandomCommand 2) area0 _ ?_ exResponse.params .unit).2
    ⟨_, _, hw, rfl, rfl, rfl, rfl, rfl, by simp, trivial⟩]
  · rfl
  · rw [List.length_append, responseBytes_length]
    simp only [responseBody, wires, List.length_append, if_true, digits256_length, List.map_nil,
      List.flatten_nil, List.length_nil, List.length_replicate]
    have : (wire (getRandomCommand 2).respTy exResponse.params).length = 4 := by decide
    rw [this]
    rfl

end Verif.Client
