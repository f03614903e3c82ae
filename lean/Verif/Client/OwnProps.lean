import Verif.Client.OwnLemmas
import Verif.Client.AreaProps
import Verif.Codec.MarshalAny

/-
Property theorems C93: commands of the caller's own.
-/

namespace Verif.Client
open Verif Verif.Base Verif.Errors

set_option maxRecDepth 8000

variable {ω ε P H : Type}

/-- **C93**: a command succeeds exactly if it can be composed, the transport is
handed it, in the state in which it is complete, with a buffer of zeros, and
reports a response, and what is then in the buffer can be taken apart, in the
state left by the transport.  The results are those of the two implementations
that read it, and the number that the transport reports has no effect. -/
theorem C93_success_iff (tr : LiveTransport ω ε) (c : OwnCommand ω P H) (a : FreeArea ω) (w w' : ω)
    (hcode : c.code < 2 ^ 32) (ha : a.Typed) (p : P) (h : H) :
    runOwn tr c a w = ⟨.ok (p, h), w'⟩ ↔
      ∃ cmd w1 n buf w2, Composes c a w cmd w1 ∧
        tr.transact w1 cmd (List.replicate 4096 0) = (some (.reported n), buf, w2) ∧
        Decomposes c a w2 buf p h w' := by
  constructor
  · intro hr
    unfold runOwn at hr
    rcases hb : buildOwn c a w with ⟨⟨m | e | _, b⟩, w1⟩ <;> rw [hb] at hr
    · dsimp only at hr
      rcases hs : sliceTo b m with _ | cmd <;> rw [hs] at hr
      · simp at hr
      · have hc := (buildOwn_iff c a w w1 cmd hcode ha).1 ⟨m, b, hb, hs⟩
        have hk := tr.keeps_length w1 cmd (List.replicate respBufferSize 0)
        dsimp only at hr
        rcases ht : tr.transact w1 cmd (List.replicate respBufferSize 0)
          with ⟨_ | n | e', buf', w2⟩ <;> rw [ht] at hr
        · simp at hr
        · rw [ht] at hk
          dsimp only at hr hk
          rcases hrd : readResponseOwn c a buf' w2 with ⟨⟨p', h'⟩ | e' | _, w3⟩ <;> rw [hrd] at hr <;>
            simp [Res.mapErr] at hr
          obtain ⟨⟨rfl, rfl⟩, rfl⟩ := hr
          exact ⟨cmd, w1, n, buf', w2, hc, ht, (readOwn_ok_iff c a buf' w2 w3 p' h' (by
            rw [hk]; exact List.length_replicate)).1 hrd⟩
        · simp at hr
    · simp at hr
    · simp at hr
  · rintro ⟨cmd, w1, n, buf, w2, hc, ht, hd⟩
    obtain ⟨m, b, hb, hs⟩ := (buildOwn_iff c a w w1 cmd hcode ha).2 hc
    have hk := tr.keeps_length w1 cmd (List.replicate 4096 0)
    rw [ht, List.length_replicate] at hk
    have hrd := (readOwn_ok_iff c a buf w2 w' p h hk).2 hd
    have ht' : tr.transact w1 cmd (List.replicate respBufferSize 0) =
      (some (.reported n), buf, w2) := ht
    simp only [runOwn, hb, hs, ht', hrd, Res.mapErr]

/-- **C93**: the transport is handed a command exactly if it can be composed; and
then it is that one, in the state in which it is complete.  Stated for any
transport by way of its errors, which are the result of the run. -/
theorem C93_sent_iff (tr : LiveTransport ω ε) (c : OwnCommand ω P H) (a : FreeArea ω) (w w' : ω)
    (hcode : c.code < 2 ^ 32) (ha : a.Typed) (e : ε) :
    runOwn tr c a w = ⟨.err (.conn e), w'⟩ ↔
      ∃ cmd w1 buf, Composes c a w cmd w1 ∧
        tr.transact w1 cmd (List.replicate 4096 0) = (some (.failed e), buf, w') := by
  constructor
  · intro hr
    unfold runOwn at hr
    rcases hb : buildOwn c a w with ⟨⟨m | e | _, b⟩, w1⟩ <;> rw [hb] at hr
    · dsimp only at hr
      rcases hs : sliceTo b m with _ | cmd <;> rw [hs] at hr
      · simp at hr
      · have hc := (buildOwn_iff c a w w1 cmd hcode ha).1 ⟨m, b, hb, hs⟩
        dsimp only at hr
        rcases ht : tr.transact w1 cmd (List.replicate respBufferSize 0)
          with ⟨_ | n | e', buf', w2⟩ <;> rw [ht] at hr
        · simp at hr
        · dsimp only at hr
          rcases hrd : readResponseOwn c a buf' w2 with ⟨⟨p', h'⟩ | e' | _, w3⟩ <;> rw [hrd] at hr <;>
            simp [Res.mapErr] at hr
        · simp at hr
          obtain ⟨rfl, rfl⟩ := hr
          exact ⟨cmd, w1, buf', hc, ht⟩
    · simp at hr
    · simp at hr
  · rintro ⟨cmd, w1, buf, hc, ht⟩
    obtain ⟨m, b, hb, hs⟩ := (buildOwn_iff c a w w1 cmd hcode ha).2 hc
    have ht' : tr.transact w1 cmd (List.replicate respBufferSize 0) =
      (some (.failed e), buf, w') := ht
    simp only [runOwn, hb, hs, ht']

/-- **C93**: whatever the implementations do, what is handed over has between 10
and 4096 bytes, and its header declares its own length and the command's code. -/
theorem C93_header (c : OwnCommand ω P H) (a : FreeArea ω) (w w' : ω) (cmd : Bytes)
    (h : Composes c a w cmd w') :
    10 ≤ cmd.length ∧ cmd.length ≤ 4096 ∧
      ∃ tag body, (tag = 0x8001 ∨ tag = 0x8002) ∧
        cmd = digits256 2 tag ++ digits256 4 cmd.length ++ digits256 4 c.code ++ body := by
  cases h with
  | @mk empty n m hs ps auths w1 w2 w3 _ h1 h2 h3 h4 h5 h6 =>
    have hl1 := c.handles_length (List.replicate 4086 0) w1
    rw [h2, List.length_replicate] at hl1
    dsimp only at hl1
    have hl3 := c.param_length (hs.drop (n + (authBytes auths).length)) w3
    rw [h5, List.length_drop, hl1] at hl3
    dsimp only at hl3
    have hlen : (digits256 2 (if empty then 0x8001 else 0x8002) ++
        digits256 4 (10 + (n + (authBytes auths).length + m)) ++ digits256 4 c.code ++
        (hs.take n ++ authBytes auths ++ ps.take m)).length =
        10 + (n + (authBytes auths).length + m) := by
      simp only [List.length_append, digits256_length, List.length_take]; omega
    rw [hlen]
    refine ⟨by omega, by omega, if empty then 0x8001 else 0x8002, _, ?_, rfl⟩
    cases empty <;> simp

/-- An implementation that writes these bytes if there is room and reports their
number, and does not succeed otherwise, and has no effect on the state. -/
def Honest (f : Bytes → ω → MOut × ω) (e : Bytes) : Prop :=
  ∀ b w, (e.length ≤ b.length → f b w = ((.ok e.length, e ++ b.drop e.length), w)) ∧
    (b.length < e.length → ∀ n b' w', f b w ≠ ((.ok n, b'), w'))

/-- **C93**: with honest implementations of handles and parameters exactly one
command is handed over, in which their bytes stand around the authorizations, if
it has at most 4096 bytes; and none otherwise. -/
theorem C93_honest (c : OwnCommand ω P H) (a : FreeArea ω) (w w' : ω) (cmd eh ep : Bytes)
    (hh : Honest c.handles eh) (hp : Honest c.param ep) :
    Composes c a w cmd w' ↔ ∃ empty auths w1, a.isEmpty w = (some empty, w1) ∧
      Contributes a w1 auths w' ∧ (∀ vs, auths = some vs → ∀ v ∈ vs, WF TpmsAuthCommand v) ∧
      cmd.length ≤ 4096 ∧
      cmd = digits256 2 (if empty then 0x8001 else 0x8002) ++ digits256 4 cmd.length ++
        digits256 4 c.code ++ (eh ++ authBytes auths ++ ep) := by
  constructor
  · intro h
    obtain ⟨-, hle, -⟩ := C93_header c a w w' cmd h
    cases h with
    | @mk empty n m hs ps auths w1 w2 w3 _ h1 h2 h3 h4 h5 h6 =>
      have f1 : eh.length ≤ 4086 := by
        rcases Nat.lt_or_ge 4086 eh.length with h | h
        · exact ((hh _ _).2 (by rw [List.length_replicate]; exact h) _ _ _ h2).elim
        · exact h
      rw [(hh _ _).1 (by rw [List.length_replicate]; exact f1)] at h2
      simp only [Prod.mk.injEq, Res.ok.injEq] at h2
      obtain ⟨⟨rfl, rfl⟩, rfl⟩ := h2
      have hlen : (eh ++ (List.replicate 4086 (0 : UInt8)).drop eh.length).length = 4086 := by
        rw [List.length_append, List.length_drop, List.length_replicate]; omega
      rw [List.take_left' rfl] at hle ⊢
      generalize (eh ++ (List.replicate 4086 (0 : UInt8)).drop eh.length).drop
        (eh.length + (authBytes auths).length) = rest at h5
      have f2 : ep.length ≤ rest.length := by
        rcases Nat.lt_or_ge rest.length ep.length with h | h
        · exact ((hp _ _).2 h _ _ _ h5).elim
        · exact h
      rw [(hp _ _).1 f2] at h5
      simp only [Prod.mk.injEq, Res.ok.injEq] at h5
      obtain ⟨⟨rfl, rfl⟩, rfl⟩ := h5
      rw [List.take_left' rfl] at hle ⊢
      refine ⟨empty, auths, w1, h1, h3, h4, hle, ?_⟩
      congr 4
      simp only [List.length_append, digits256_length]
  · rintro ⟨empty, auths, w1, h1, h3, h4, hle, hcmd⟩
    have hl := congrArg List.length hcmd
    simp only [List.length_append, digits256_length] at hl
    have hlen : (eh ++ (List.replicate 4086 (0 : UInt8)).drop eh.length).length = 4086 := by
      rw [List.length_append, List.length_drop, List.length_replicate]; omega
    have := Composes.mk (c := c) (m := ep.length)
      (ps := ep ++ ((eh ++ (List.replicate 4086 (0 : UInt8)).drop eh.length).drop
        (eh.length + (authBytes auths).length)).drop ep.length) h1
      ((hh _ _).1 (by rw [List.length_replicate]; omega)) h3 h4
      ((hp _ _).1 (by rw [List.length_drop, hlen]; omega)) (by omega)
    rw [List.take_left' rfl, List.take_left' rfl,
      show 10 + (eh.length + (authBytes auths).length + ep.length) = cmd.length by omega, ← hcmd] at this
    exact this

/-- **C93**: the implementations derived for any type are honest about any well-formed
value, and write its encoding. -/
theorem C93_derived_honest (t : Ty) (v : Val) (h : WF t v) :
    Honest (ω := ω) (fun b w => (marshal t v b, w)) (wire t v) := by
  intro b w
  have hw := writesTy t v h
  refine ⟨fun hl => by dsimp only; rw [hw.fit b hl], fun hl n b' w' hx => ?_⟩
  have := hw.short b hl
  simp only [Prod.mk.injEq] at hx
  rw [hx.1] at this
  simp [ShortFail] at this

/-- **C93**: a count of handle bytes beyond the buffer makes the call panic before
the sessions are asked; nothing is handed over. -/
theorem C93_overlong (tr : LiveTransport ω ε) (c : OwnCommand ω P H) (a : FreeArea ω) (w w1 w2 : ω)
    (hcode : c.code < 2 ^ 32) (empty : Bool) (n : Nat) (hs : Bytes)
    (h1 : a.isEmpty w = (some empty, w1))
    (h2 : c.handles (List.replicate 4086 0) w1 = ((.ok n, hs), w2)) (hn : 4086 < n) :
    runOwn tr c a w = ⟨.panic, w2⟩ := by
  have hbuf : (List.replicate cmdBufferSize (0 : UInt8)).drop 10 = List.replicate 4086 0 := by
    rw [List.drop_replicate]; rfl
  have hlen : 10 ≤ (List.replicate cmdBufferSize (0 : UInt8)).length := by
    rw [cmdBuf_length]; omega
  have hl1 := c.handles_length (List.replicate 4086 0) w1
  rw [h2, List.length_replicate] at hl1
  dsimp only at hl1
  have hb : ∃ b, buildOwn c a w = ((.panic, b), w2) := by
    unfold buildOwn
    rw [h1]
    dsimp only
    rw [header_fit empty c.code 0 hcode (by omega) _ hlen, lthen_of_ok, hbuf]
    have hH : (digits256 2 (if empty then 0x8001 else 0x8002) ++ digits256 4 0 ++
      digits256 4 c.code).length = 10 := by simp
    generalize digits256 2 (if empty then 0x8001 else 0x8002) ++ digits256 4 0 ++
      digits256 4 c.code = hd at hH ⊢
    rw [(lstep_at_ok_iff _ hH _ _ _ _ _).2 ⟨n, hs, (ownTss_ok_iff _ _ _ _ _ _).2 h2, rfl, rfl⟩,
      lthen_of_ok, lstep, if_neg (by rw [List.length_append]; omega)]
    exact ⟨_, rfl⟩
  obtain ⟨b, hb⟩ := hb
  simp only [runOwn, hb]

/-- **C93**: an error of the handles' implementation is the result, with the state
it left, and neither sessions nor transport are asked. -/
theorem C93_handles_err (tr : LiveTransport ω ε) (c : OwnCommand ω P H) (a : FreeArea ω)
    (w w1 w2 : ω) (hcode : c.code < 2 ^ 32) (empty : Bool) (e : MErr) (hs : Bytes)
    (h1 : a.isEmpty w = (some empty, w1))
    (h2 : c.handles (List.replicate 4086 0) w1 = ((.err e, hs), w2)) :
    runOwn tr c a w = ⟨.err (.tss (merrToTss e)), w2⟩ := by
  have hbuf : (List.replicate cmdBufferSize (0 : UInt8)).drop 10 = List.replicate 4086 0 := by
    rw [List.drop_replicate]; rfl
  have hlen : 10 ≤ (List.replicate cmdBufferSize (0 : UInt8)).length := by
    rw [cmdBuf_length]; omega
  have hb : ∃ b, buildOwn c a w = ((.err (merrToTss e), b), w2) := by
    unfold buildOwn
    rw [h1]
    dsimp only
    rw [header_fit empty c.code 0 hcode (by omega) _ hlen, lthen_of_ok, hbuf]
    have hH : (digits256 2 (if empty then 0x8001 else 0x8002) ++ digits256 4 0 ++
      digits256 4 c.code).length = 10 := by simp
    generalize digits256 2 (if empty then 0x8001 else 0x8002) ++ digits256 4 0 ++
      digits256 4 c.code = hd at hH ⊢
    rw [lstep, if_pos (by rw [List.length_append]; omega), List.drop_left' hH]
    simp only [ownTss, h2, toTss, Res.mapErr, lthen]
    exact ⟨_, rfl⟩
  obtain ⟨b, hb⟩ := hb
  simp only [runOwn, hb]

/-- The command of a derived description, as one of the caller's own. -/
def Command.toOwn (c : Command) : OwnCommand ω Val Val :=
  c.own (fun b => marshal_len _ _ b) (fun b => marshal_len _ _ b)

/-- **C93**: a part of a response whose implementation fails or panics ends the
call: with its error, in the state it left; neither the other part nor the sessions
are asked. -/
theorem C93_response_stops (tr : LiveTransport ω ε) (c : OwnCommand ω P H) (a : FreeArea ω)
    (w w1 w2 w3 : ω) (hcode : c.code < 2 ^ 32) (ha : a.Typed) (cmd : Bytes) (n tag : Nat)
    (body rest : Bytes) (htag : tag < 65536) (hc : Composes c a w cmd w1)
    (ht : tr.transact w1 cmd (List.replicate 4096 0) = (some (.reported n), digits256 2 tag ++
      digits256 4 (10 + body.length) ++ digits256 4 0 ++ body ++ rest, w2)) :
    (∀ e b, c.respHandles body w2 = ((.err e, b), w3) →
      runOwn tr c a w = ⟨.err (.tss (merrToTss e)), w3⟩) ∧
    (∀ b, c.respHandles body w2 = ((.panic, b), w3) → runOwn tr c a w = ⟨.panic, w3⟩) ∧
    (∀ h b b1 w4 paramSize, c.respHandles body w2 = ((.ok h, b1), w4) →
      (tag = 0x8002 → paramSize < 2 ^ 32 ∧ b1 = digits256 4 paramSize ++ b) →
      (tag ≠ 0x8002 → b1 = b) →
      (∀ e r, c.resp b w4 = ((.err e, r), w3) →
        runOwn tr c a w = ⟨.err (.tss (merrToTss e)), w3⟩) ∧
      (∀ r, c.resp b w4 = ((.panic, r), w3) → runOwn tr c a w = ⟨.panic, w3⟩)) ∧
    (∀ h b1, c.respHandles body w2 = ((.ok h, b1), w3) → tag = 0x8002 → b1.length < 4 →
      runOwn tr c a w = ⟨.err (.tss ⟨0x904⟩), w3⟩) := by
  obtain ⟨m, b, hb, hs⟩ := (buildOwn_iff c a w w1 cmd hcode ha).2 hc
  have hk := tr.keeps_length w1 cmd (List.replicate 4096 0)
  rw [ht, List.length_replicate] at hk
  have hlen : 10 + body.length + rest.length = 4096 := by
    simp only [List.length_append, digits256_length] at hk; omega
  have hrd := readResponseOwn_eq c a tag (10 + body.length) 0 (body ++ rest) w2 htag (by omega)
    (by omega)
  rw [if_neg (by simp), if_neg (by rw [List.length_append]; omega), if_neg (by omega),
      show 10 + body.length - 10 = body.length by omega, List.take_left' rfl,
      ← List.append_assoc _ body] at hrd
  have hrun : runOwn tr c a w = ⟨(readBodyOwn c a tag body w2).1.mapErr .tss,
      (readBodyOwn c a tag body w2).2⟩ := by
    have ht' := ht
    rw [show (4096 : Nat) = respBufferSize from rfl] at ht'
    simp only [runOwn, hb, hs, ht', hrd]
  rw [hrun]
  refine ⟨?_, ?_, ?_, ?_⟩
  · intro e b' h
    simp only [readBodyOwn, ownUm, h, lbind, Res.mapErr]
  · intro b' h
    simp only [readBodyOwn, ownUm, h, lbind, Res.mapErr]
  · intro h b' b1 w4 ps hh h1 h2
    have hsz : (if tag = St.Sessions then (tum u32 b1).map (·.2) else .ok b1) = .ok b' :=
      (sizeStep_iff tag b1 b').2 (by
        by_cases htg : tag = 0x8002
        · obtain ⟨h3, h4⟩ := h1 htg
          exact ⟨ps, h3, by rw [if_pos htg, h4]⟩
        · exact ⟨0, by omega, by rw [if_neg htg, h2 htg]; rfl⟩)
    constructor
    · intro e r hr
      simp only [readBodyOwn, ownUm, hh, lbind, hsz, hr, Res.mapErr]
    · intro r hr
      simp only [readBodyOwn, ownUm, hh, lbind, hsz, hr, Res.mapErr]
  · intro h b1 hh htg hl
    have hsz : (if tag = St.Sessions then (tum u32 b1).map (·.2) else .ok b1) =
        .err ⟨0x904⟩ := by
      rw [if_pos (show tag = St.Sessions from htg)]
      have hu : unmarshal u32 b1 = (.err .unexpectedEndOfBuffer, b1) := by
        simp only [unmarshal, unmarshalPrim, unmarshalBytes, bufGet, bind, UM.bind,
          if_pos hl, UM.fail, gt_iff_lt]
      rw [tum, hu]
      rfl
    simp only [readBodyOwn, ownUm, hh, lbind, hsz, Res.mapErr]

/-- **C93**: for commands whose types are derived this is the client of C81. -/
theorem C93_derived (tr : LiveTransport ω ε) (c : Command) (a : FreeArea ω) (w : ω) :
    runOwn tr c.toOwn a w = runFree tr c a w := by
  have hstep : ∀ (t : Ty) (v : Val) (n : Nat) (b : Bytes) (w : ω),
      lstep (ownTss fun b w => (marshal t v b, w)) n b w =
        (tstep (fun b => toTss (marshal t v b)) n b, w) := by
    intro t v n b w
    unfold lstep tstep ownTss
    split
    · dsimp only
      rcases toTss (marshal t v (b.drop n)) with ⟨_ | _ | _, _⟩ <;> rfl
    · rfl
  have hb : buildOwn (c.toOwn : OwnCommand ω Val Val) a w = buildCommandF c a w := by
    unfold buildOwn buildCommandF Command.toOwn Command.own
    simp only [hstep]
    rcases a.isEmpty w with ⟨_ | _, _⟩ <;> rfl
  have hum : ∀ (t : Ty) (b : Bytes) (w : ω),
      ownUm (fun b w => (unmarshal t b, w)) b w = (tum t b, w) := by
    intro t b w
    unfold ownUm tum
    dsimp only
    rcases unmarshal t b with ⟨_ | _ | _, _⟩ <;> rfl
  have hr : ∀ buf w, readResponseOwn (c.toOwn : OwnCommand ω Val Val) a buf w =
      readResponseF c a buf w := by
    intro buf w
    unfold readResponseOwn readResponseF readBodyOwn readBodyF Command.toOwn Command.own
    simp only [hum]
  unfold runOwn runFree
  simp only [hb, hr]
  rfl

/-! ### Examples -/

/-- Handles that fill all of the buffer and report no bytes, parameters that write
nothing and report four, and a response that takes up to two bytes and counts the
calls. -/
def sloppy : OwnCommand Nat Bytes Unit where
  code := 0x17B
  handles b w := ((.ok 0, b.map fun _ => 0xAA), w)
  param b w := ((.ok 4, b), w)
  resp b w := ((.ok (b.take 2), b.drop 2), w + 1)
  respHandles b w := ((.ok (), b), w)
  handles_length := by intro b w; simp
  param_length := by intro b w; rfl

theorem free0_typed : (free0 : FreeArea ω).Typed := by
  intro w d w' h s hs
  simp only [free0, FreeArea.provided, Prod.mk.injEq, Option.some.injEq] at h
  rw [← h.1] at hs
  cases hs

theorem sloppy_composes : Composes sloppy free0 7
    [0x80, 1, 0, 0, 0, 14, 0, 0, 1, 0x7B, 0xAA, 0xAA, 0xAA, 0xAA] 7 := by
  have := Composes.mk (c := sloppy) (a := free0) (w := 7) (empty := true) (n := 0) (m := 4)
    (hs := List.replicate 4086 0xAA) (ps := List.replicate 4086 0xAA) (auths := none) (w1 := 7)
    (w2 := 7) (w3 := 7) (w4 := 7) rfl (by simp only [sloppy, List.map_replicate]) (.nothing rfl)
    (fun _ h => nomatch h) rfl (by decide)
  rw [List.take_replicate] at this
  exact this

/-- What is sent are the four bytes that the handles left in the buffer. -/
example : runOwn mirror sloppy free0 7 =
    ⟨.err (.conn [0x80, 1, 0, 0, 0, 14, 0, 0, 1, 0x7B, 0xAA, 0xAA, 0xAA, 0xAA]), 7⟩ :=
  (C93_sent_iff mirror sloppy free0 7 7 (by decide) free0_typed _).2
    ⟨_, 7, _, sloppy_composes, rfl⟩

/-- The response is what its implementation makes of the bytes after the header. -/
example : runOwn (answering [0x80, 1, 0, 0, 0, 12, 0, 0, 0, 0, 5, 6] (by decide)) sloppy free0 7 =
    ⟨.ok ([5, 6], ()), 8⟩ := by
  refine (C93_success_iff _ sloppy free0 7 8 (by decide) free0_typed _ _).2
    ⟨_, 7, 12, _, 7, sloppy_composes, by simp only [answering, List.length_replicate, if_true]; rfl,
      ?_⟩
  exact Decomposes.mk (c := sloppy) (a := free0) (w := 7) (tag := 0x8001) (paramSize := 0)
    (body := [5, 6]) (rest := List.drop 12 (List.replicate 4096 0)) (b1 := [5, 6]) (b2 := [])
    (d := ⟨none, none, none⟩) (auths := []) (w1 := 7) (w2 := 8) (w3 := 8) (by decide) (by decide)
    rfl rfl rfl rfl (fun _ h => nomatch h) (.nil _)

/-- Handles that report a byte more than there is room for. -/
example (tr : LiveTransport Nat ε) :
    runOwn tr { sloppy with handles := fun b w => ((.ok (b.length + 1), b), w)
                            handles_length := fun _ _ => rfl } free0 7 = ⟨.panic, 7⟩ :=
  C93_overlong tr _ free0 7 7 7 (by decide) true 4087 (List.replicate 4086 0) rfl
    (by simp only [List.length_replicate]) (by decide)

/-- Handles that fail. -/
example (tr : LiveTransport Nat ε) :
    runOwn tr { sloppy with handles := fun b w => ((.err .unexpectedEndOfBuffer, b), w + 1)
                            handles_length := fun _ _ => rfl } free0 7 =
      ⟨.err (.tss (merrToTss .unexpectedEndOfBuffer)), 8⟩ :=
  C93_handles_err tr _ free0 7 7 8 (by decide) true _ (List.replicate 4086 0) rfl rfl

/-- A response that cannot be read. -/
def unreadable : OwnCommand Nat Bytes Unit :=
  { sloppy with resp := fun b w => ((.err .unknownSelector, b), w + 3) }

/-- The state is the one that its implementation left. -/
example : runOwn (answering [0x80, 1, 0, 0, 0, 12, 0, 0, 0, 0, 5, 6] (by decide)) unreadable free0 7 =
    ⟨.err (.tss (merrToTss .unknownSelector)), 10⟩ := by
  have hc : Composes unreadable free0 7
      [0x80, 1, 0, 0, 0, 14, 0, 0, 1, 0x7B, 0xAA, 0xAA, 0xAA, 0xAA] 7 := by
    have := Composes.mk (c := unreadable) (a := free0) (w := 7) (empty := true) (n := 0) (m := 4)
      (hs := List.replicate 4086 0xAA) (ps := List.replicate 4086 0xAA) (auths := none) (w1 := 7)
      (w2 := 7) (w3 := 7) (w4 := 7) rfl (by simp only [unreadable, sloppy, List.map_replicate])
      (.nothing rfl) (fun _ h => nomatch h) rfl (by decide)
    rw [List.take_replicate] at this
    exact this
  exact ((C93_response_stops _ unreadable free0 7 7 7 10 (by decide) free0_typed _ 12 0x8001 [5, 6]
    (List.drop 12 (List.replicate 4096 0)) (by decide) hc
    (by simp only [answering, List.length_replicate, if_true]; rfl)).2.2.1 () [5, 6] [5, 6] 7 0 rfl
    (by decide) (fun _ => rfl)).1 _ [5, 6] rfl

/-- GetRandom for two bytes, with an area that says it is not empty and has no
sessions. -/
example : Composes (getRandomCommand 2).toOwn boasting ()
    [0x80, 2, 0, 0, 0, 16, 0, 0, 1, 0x7B, 0, 0, 0, 0, 0, 2] () :=
  (C93_honest (getRandomCommand 2).toOwn boasting () () _ _ _
    (C93_derived_honest .unit .unit trivial)
    (C93_derived_honest (getRandomCommand 2).paramTy (getRandomCommand 2).param
      (by decide))).2
    ⟨false, some [], (), rfl, .auths rfl rfl (.nil _), (by rintro _ ⟨rfl⟩ v hv; cases hv), by decide,
      by decide⟩

/-- It declares its length. -/
example : 10 ≤ 14 ∧ 14 ≤ 4096 ∧ ∃ tag body, (tag = 0x8001 ∨ tag = 0x8002) ∧
    ([0x80, 1, 0, 0, 0, 14, 0, 0, 1, 0x7B, 0xAA, 0xAA, 0xAA, 0xAA] : Bytes) =
      digits256 2 tag ++ digits256 4 14 ++ digits256 4 0x17B ++ body :=
  C93_header sloppy free0 7 7 _ sloppy_composes

/-- GetRandom with a session that changes. -/
example (tr : LiveTransport Nat ε) (w : Nat) :
    runOwn tr (getRandomCommand 2).toOwn (free1 rolling) w =
      runFree tr (getRandomCommand 2) (free1 rolling) w := C93_derived tr _ _ w

end Verif.Client
