import Verif.Client.Area
import Verif.Client.LiveLemmas

/-! Helper lemmas for authorization areas that do as they please. -/

namespace Verif.Client
open Verif Verif.Base Verif.Errors

variable {ω ε : Type}

theorem lthen_isOk {r : LOut ω} {k : Nat → Bytes → ω → LOut ω} {n : Nat} {b : Bytes} {w' : ω}
    (h : lthen r k = ((.ok n, b), w')) :
    ∃ m b' w1, r = ((.ok m, b'), w1) ∧ k m b' w1 = ((.ok n, b), w') := by
  rcases r with ⟨⟨_ | _ | _, b'⟩, w1⟩
  · exact ⟨_, _, _, rfl, h⟩
  · simp [lthen] at h
  · simp [lthen] at h

/-- The chain of authorizations succeeds exactly if the sessions answer and the
chain with these answers does. -/
theorem chainL_ok_iff (k : Nat → Bytes → TOut) (ss : List (LiveSession ω)) :
    ∀ (n m : Nat) (b b' : Bytes) (w w' : ω),
    chainL ss k n b w = ((.ok m, b'), w') ↔
      ∃ vs, Answers ss w vs w' ∧ authChain (vs.map fixed) k n b = (.ok m, b') := by
  induction ss with
  | nil =>
    intro n m b b' w w'
    constructor
    · intro h
      simp only [chainL, Prod.mk.injEq] at h
      obtain ⟨h, rfl⟩ := h
      exact ⟨[], .nil _, h⟩
    · rintro ⟨vs, h1, h2⟩
      cases h1
      simp only [List.map_nil, authChain] at h2
      simp only [chainL, h2]
  | cons s ss ih =>
    intro n m b b' w w'
    constructor
    · intro h
      obtain ⟨n1, b1, w1, h1, h2⟩ := lthen_isOk h
      obtain ⟨vs, h3, h4⟩ := (ih _ _ _ _ _ _).1 h2
      unfold writeAuthL at h1
      rcases ha : s.authCommand w with ⟨_ | v, w2⟩
      · rw [ha] at h1
        simp at h1
      · rw [ha] at h1
        simp only [Prod.mk.injEq] at h1
        obtain ⟨h1, rfl⟩ := h1
        refine ⟨v :: vs, .cons ha h3, ?_⟩
        simp only [List.map_cons, authChain]
        rw [show writeAuth (fixed v) n b = (.ok n1, b1) from h1]
        exact h4
    · rintro ⟨vs, h1, h2⟩
      cases h1 with
      | cons h t =>
        rename_i w1 v vs
        simp only [List.map_cons, authChain] at h2
        obtain ⟨n1, b1, h3, h4⟩ := tthen_isOk h2
        have := (ih n1 m b1 b' w1 w').2 ⟨vs, t, h4⟩
        simp only [chainL, writeAuthL, h]
        rw [show (tstep (fun b => toTss (marshal TpmsAuthCommand v b)) n b) = (.ok n1, b1) from h3]
        exact this

/-- The part of the command written by `write_command_sessions`. -/
def sessionsP : Option (List Session) → Bytes → TOut
  | none, b => (.ok 0, b)
  | some ss, b => authChain ss marshalAuthSize 4 b

/-- The command after its header. -/
def bodyP (c : Command) (auths : Option (List Session)) (written : Nat) (buf : Bytes) : TOut :=
  tthen (tstep (fun b => toTss (marshal c.handlesTy c.handles b)) written buf) fun written buf =>
  tthen (tstep (sessionsP auths) written buf) fun written buf =>
  tstep (fun b => toTss (marshal c.paramTy c.param b)) written buf

/-- The command with given answers of the area. -/
def buildP (c : Command) (empty : Bool) (auths : Option (List Session)) : TOut :=
  tthen (toTss (marshal CmdHeader (cmdHeader empty c.code 0) (List.replicate cmdBufferSize 0)))
    fun written buf =>
  tthen (bodyP c auths written buf) fun written buf =>
  tthen (toTss (marshal CmdHeader (cmdHeader empty c.code (written % 2 ^ 32)) buf))
    fun _ buf => (.ok written, buf)

theorem writeCommandSessionsF_eq (a : FreeArea ω) (buf : Bytes) (w : ω) :
    writeCommandSessionsF a buf w =
      match a.isEmpty w with
      | (none, w) => ((.panic, buf), w)
      | (some true, w) => ((.ok 0, buf), w)
      | (some false, w) =>
        match a.decompose w with
        | (none, w) => ((.panic, buf), w)
        | (some d, w) => chainL d.active marshalAuthSize 4 buf w := by
  unfold writeCommandSessionsF
  rcases a.isEmpty w with ⟨_ | _ | _, w1⟩
  · rfl
  · dsimp only
    rcases a.decompose w1 with ⟨_ | ⟨_ | s, _ | t, _ | u⟩, w2⟩ <;> rfl
  · rfl

/-- `Gives` without the first answer. -/
def Gives2 (a : FreeArea ω) (w1 : ω) (auths : Option (List Val)) (w' : ω) : Prop :=
  match auths with
  | none => a.isEmpty w1 = (some true, w')
  | some vs => ∃ w2 d w3, a.isEmpty w1 = (some false, w2) ∧ a.decompose w2 = (some d, w3) ∧
      Answers d.active w3 vs w'

theorem gives_iff (a : FreeArea ω) (w w' : ω) (e : Bool) (auths : Option (List Val)) :
    Gives a w e auths w' ↔ ∃ w1, a.isEmpty w = (some e, w1) ∧ Gives2 a w1 auths w' := by
  constructor
  · intro h
    cases h with
    | nothing h1 h2 => exact ⟨_, h1, h2⟩
    | auths h1 h2 h3 h4 => exact ⟨_, h1, _, _, _, h2, h3, h4⟩
  · rintro ⟨w1, h1, h2⟩
    rcases auths with _ | vs
    · exact .nothing h1 h2
    · obtain ⟨w2, d, w3, h2, h3, h4⟩ := h2
      exact .auths h1 h2 h3 h4

theorem sessionsF_ok_iff (a : FreeArea ω) (b b' : Bytes) (w w' : ω) (m : Nat) :
    writeCommandSessionsF a b w = ((.ok m, b'), w') ↔
      ∃ auths, Gives2 a w auths w' ∧ sessionsP (auths.map (·.map fixed)) b = (.ok m, b') := by
  rw [writeCommandSessionsF_eq]
  constructor
  · intro h
    rcases he : a.isEmpty w with ⟨_ | _ | _, w1⟩ <;> rw [he] at h
    · simp at h
    · dsimp only at h
      rcases hd : a.decompose w1 with ⟨_ | d, w2⟩ <;> rw [hd] at h
      · simp at h
      · obtain ⟨vs, h1, h2⟩ := (chainL_ok_iff _ _ _ _ _ _ _ _).1 h
        exact ⟨some vs, ⟨_, _, _, he, hd, h1⟩, h2⟩
    · simp only [Prod.mk.injEq] at h
      obtain ⟨⟨h1, h2⟩, rfl⟩ := h
      exact ⟨none, he, by rw [← h1, ← h2]; rfl⟩
  · rintro ⟨_ | vs, h1, h2⟩
    · simp only [Gives2] at h1
      rw [h1]
      simp only [Option.map_none, sessionsP] at h2
      rw [← h2]
    · obtain ⟨w2, d, w3, e1, e2, e3⟩ := h1
      rw [e1]
      dsimp only
      rw [e2]
      exact (chainL_ok_iff _ _ _ _ _ _ _ _).2 ⟨vs, e3, h2⟩

theorem lstep_ok_iff (f : Bytes → ω → LOut ω) (n m : Nat) (b b' : Bytes) (w w' : ω) :
    lstep f n b w = ((.ok m, b'), w') ↔
      n ≤ b.length ∧ ∃ k sub, f (b.drop n) w = ((.ok k, sub), w') ∧ m = n + k ∧
        b' = b.take n ++ sub := by
  unfold lstep
  constructor
  · intro h
    split at h
    · rename_i hn
      refine ⟨hn, ?_⟩
      rcases hf : f (b.drop n) w with ⟨⟨k | _ | _, sub⟩, w1⟩ <;> rw [hf] at h <;> simp at h
      obtain ⟨⟨rfl, rfl⟩, rfl⟩ := h
      exact ⟨k, sub, rfl, rfl, rfl⟩
    · simp at h
  · rintro ⟨hn, k, sub, hf, rfl, rfl⟩
    rw [if_pos hn, hf]

theorem tstep_ok_iff (f : Bytes → TOut) (n m : Nat) (b b' : Bytes) :
    tstep f n b = (.ok m, b') ↔
      n ≤ b.length ∧ ∃ k sub, f (b.drop n) = (.ok k, sub) ∧ m = n + k ∧
        b' = b.take n ++ sub := by
  unfold tstep
  constructor
  · intro h
    split at h
    · rename_i hn
      refine ⟨hn, ?_⟩
      rcases hf : f (b.drop n) with ⟨k | _ | _, sub⟩ <;> rw [hf] at h <;> simp at h
      obtain ⟨rfl, rfl⟩ := h
      exact ⟨k, sub, rfl, rfl, rfl⟩
    · simp at h
  · rintro ⟨hn, k, sub, hf, rfl, rfl⟩
    rw [if_pos hn, hf]

theorem lthen_of_ok {k : Nat → Bytes → ω → LOut ω} {n : Nat} {b : Bytes} {w : ω} :
    lthen ((.ok n, b), w) k = k n b w := rfl

/-- Building succeeds exactly if the area answers and building with these answers
does. -/
theorem buildF_ok_iff (c : Command) (a : FreeArea ω) (w w' : ω) (n : Nat) (b : Bytes) :
    buildCommandF c a w = ((.ok n, b), w') ↔
      ∃ e auths, Gives a w e auths w' ∧ buildP c e (auths.map (·.map fixed)) = (.ok n, b) := by
  unfold buildCommandF buildP bodyP
  simp only [gives_iff]
  generalize List.replicate cmdBufferSize (0 : UInt8) = buf
  constructor
  · intro h
    rcases he : a.isEmpty w with ⟨_ | e, w1⟩ <;> rw [he] at h
    · simp at h
    · dsimp only at h
      obtain ⟨n1, b1, _, e1, h⟩ := lthen_isOk h
      simp only [Prod.mk.injEq] at e1
      obtain ⟨e1, rfl⟩ := e1
      obtain ⟨n2, b2, _, e2, h⟩ := lthen_isOk h
      simp only [Prod.mk.injEq] at e2
      obtain ⟨e2, rfl⟩ := e2
      obtain ⟨n3, b3, w3, e3, h⟩ := lthen_isOk h
      obtain ⟨n4, b4, _, e4, h⟩ := lthen_isOk h
      simp only [Prod.mk.injEq] at e4
      obtain ⟨e4, rfl⟩ := e4
      obtain ⟨n5, b5, _, e5, h⟩ := lthen_isOk h
      simp only [Prod.mk.injEq] at e5
      obtain ⟨e5, rfl⟩ := e5
      simp only [Prod.mk.injEq, Res.ok.injEq] at h
      obtain ⟨⟨rfl, rfl⟩, rfl⟩ := h
      obtain ⟨hl, k, sub, f1, rfl, rfl⟩ := (lstep_ok_iff _ _ _ _ _ _ _).1 e3
      obtain ⟨auths, g1, g2⟩ := (sessionsF_ok_iff _ _ _ _ _ _).1 f1
      refine ⟨e, auths, ⟨w1, rfl, g1⟩, ?_⟩
      rw [e1]
      simp only [tthen]
      rw [e2]
      simp only [tthen]
      rw [(tstep_ok_iff _ _ _ _ _).2 ⟨hl, k, sub, g2, rfl, rfl⟩]
      dsimp only
      rw [e4]
      dsimp only
      rw [e5]
  · rintro ⟨e, auths, ⟨w1, he, g1⟩, h⟩
    rw [he]
    dsimp only
    obtain ⟨n1, b1, e1, h⟩ := tthen_isOk h
    obtain ⟨n4, b4, h4, h⟩ := tthen_isOk h
    obtain ⟨n2, b2, e2, h4⟩ := tthen_isOk h4
    obtain ⟨n3, b3, e3, e4⟩ := tthen_isOk h4
    obtain ⟨n5, b5, e5, h⟩ := tthen_isOk h
    simp only [Prod.mk.injEq, Res.ok.injEq] at h
    obtain ⟨rfl, rfl⟩ := h
    obtain ⟨hl, k, sub, f1, rfl, rfl⟩ := (tstep_ok_iff _ _ _ _ _).1 e3
    rw [e1, lthen_of_ok, e2, lthen_of_ok, (lstep_ok_iff _ _ _ _ _ _ _).2
      ⟨hl, k, sub, (sessionsF_ok_iff _ _ _ _ _ _).2 ⟨auths, g1, f1⟩, rfl, rfl⟩, lthen_of_ok, e4,
      lthen_of_ok, e5, lthen_of_ok]

/-- The authorization area of `framed`. -/
def areaBytes : Option (List Val) → Bytes
  | none => []
  | some vs => digits256 4 (wires TpmsAuthCommand vs).length ++ wires TpmsAuthCommand vs

theorem sessionsP_writes (auths : Option (List Val))
    (h : ∀ vs, auths = some vs → ∀ v ∈ vs, WF TpmsAuthCommand v)
    (hlen : (areaBytes auths).length < 2 ^ 32) :
    TWrites true (sessionsP (auths.map (·.map fixed))) (areaBytes auths) := by
  rcases auths with _ | vs
  · constructor
    · intro buf _
      simp [sessionsP, areaBytes]
    · intro buf hl
      simp [areaBytes] at hl
  · have hch := authChain_writes (vs.map fixed) (by
      intro s hs
      obtain ⟨v, hv, rfl⟩ := List.mem_map.1 hs
      exact h vs rfl v hv)
    rw [map_fixed] at hch
    simp only [areaBytes] at hlen ⊢
    generalize wires TpmsAuthCommand vs = A at *
    simp only [List.length_append, digits256_length] at hlen
    rw [Option.map_some, show sessionsP (some (vs.map fixed)) =
      authChain (vs.map fixed) marshalAuthSize 4 from rfl]
    have h4 : (digits256 4 A.length).length = 4 := digits256_length _ _
    constructor
    · intro buf hl
      simp only [List.length_append, digits256_length] at hl ⊢
      rw [authChain_eq, hch.fit 4 buf (by omega)]
      simp only [tthen, marshalAuthSize]
      have hsz : (4 + A.length - 4) % 2 ^ 32 = A.length := by omega
      rw [hsz]
      have hp := (tWrites_toTss (writesPrim 4 A.length)).fit
        (buf.take 4 ++ (A ++ buf.drop (4 + A.length))) (by simp; omega)
      rw [hp]
      simp only [Prod.mk.injEq, true_and, h4]
      rw [List.drop_append_of_le_length (by simp; omega), List.drop_of_length_le (by simp; omega)]
      simp
    · intro buf hl
      simp only [List.length_append, digits256_length] at hl
      rw [authChain_eq]
      by_cases h4 : 4 ≤ buf.length
      · have := hch.short 4 buf h4 (by omega)
        rcases hmm : authChain (vs.map fixed) (fun w b => (.ok w, b)) 4 buf with ⟨_ | _ | _, sub⟩ <;>
          rw [hmm] at this <;> simp [TShort, tthen] at this ⊢ <;> exact this
      · rcases vs with _ | ⟨v, vs⟩
        · simp only [List.map_nil, authChain, tthen, marshalAuthSize]
          have := (tWrites_toTss (writesPrim 4 ((4 - 4) % 2 ^ 32))).short buf (by
            rw [digits256_length]; omega)
          rcases hmm : toTss (marshalPrim 4 ((4 - 4) % 2 ^ 32) buf) with ⟨_ | _ | _, sub⟩ <;>
            rw [hmm] at this <;> simp [TShort] at this ⊢
          all_goals first | exact this | (exact .inl this)
        · right
          refine ⟨rfl, ?_⟩
          simp only [List.map_cons, authChain, writeAuth, tstep]
          rw [if_neg h4]; rfl

theorem areaBytes_length (auths : Option (List Val))
    (h : ∀ vs, auths = some vs → ∀ v ∈ vs, WF TpmsAuthCommand v)
    (hl : ∀ vs, auths = some vs → vs.length ≤ 3) : (areaBytes auths).length < 2 ^ 32 := by
  rcases auths with _ | vs
  · simp [areaBytes]
  · have hw := h vs rfl
    have h3 := hl vs rfl
    have key : ∀ ss : List Val, (∀ s ∈ ss, WF TpmsAuthCommand s) →
        (wires TpmsAuthCommand ss).length ≤ 140 * ss.length := by
      intro ss
      induction ss with
      | nil => intro _; simp [wires]
      | cons s ss ih =>
        intro hs
        have h1 : (wire TpmsAuthCommand s).length ≤ 140 :=
          Nat.le_trans (wire_le al64 _ _ (hs s List.mem_cons_self)) (by decide)
        have h2 := ih (fun x hx => hs x (List.mem_cons_of_mem _ hx))
        simp only [wires, List.map_cons, List.flatten_cons, List.length_append,
          List.length_cons] at h2 ⊢
        omega
    have := key vs hw
    simp only [areaBytes, List.length_append, digits256_length]
    omega

theorem framed_eq (c : Command) (e : Bool) (auths : Option (List Val)) :
    framed c e auths = digits256 2 (if e then 0x8001 else 0x8002) ++
      digits256 4 (10 + (wire c.handlesTy c.handles ++ (areaBytes auths ++
        wire c.paramTy c.param)).length) ++ digits256 4 c.code ++
      (wire c.handlesTy c.handles ++ (areaBytes auths ++ wire c.paramTy c.param)) := by
  rcases auths with _ | vs <;> simp [framed, areaBytes]

theorem framed_length (c : Command) (e : Bool) (auths : Option (List Val)) :
    (framed c e auths).length = 10 + (wire c.handlesTy c.handles ++ (areaBytes auths ++
        wire c.paramTy c.param)).length := by
  rw [framed_eq]
  simp only [List.length_append, digits256_length]

theorem bodyP_writes (c : Command) (auths : Option (List Val)) (hh : WF c.handlesTy c.handles)
    (hp : WF c.paramTy c.param)
    (h : ∀ vs, auths = some vs → ∀ v ∈ vs, WF TpmsAuthCommand v)
    (hlen : (areaBytes auths).length < 2 ^ 32) :
    TWritesAt true (bodyP c (auths.map (·.map fixed)))
      (wire c.handlesTy c.handles ++ (areaBytes auths ++ wire c.paramTy c.param)) :=
  ((tWrites_toTss (writesTy _ _ hh)).step.mono (fun _ => rfl)).then
    ((sessionsP_writes auths h hlen).step.then
      ((tWrites_toTss (writesTy _ _ hp)).step.mono (fun _ => rfl)))

/-- Building with given answers. -/
theorem buildP_ok_iff (c : Command) (e : Bool) (auths : Option (List Val)) (n : Nat) (b : Bytes)
    (hcode : c.code < 2 ^ 32) (hh : HasTy c.handlesTy c.handles) (hp : HasTy c.paramTy c.param)
    (ha : ∀ vs, auths = some vs → ∀ v ∈ vs, HasTy TpmsAuthCommand v)
    (hl : ∀ vs, auths = some vs → vs.length ≤ 3) :
    (buildP c e (auths.map (·.map fixed)) = (.ok n, b) → Sendable c e auths ∧
      sliceTo b n = some (framed c e auths)) ∧
    (Sendable c e auths → ∃ rest, buildP c e (auths.map (·.map fixed)) =
      (.ok (framed c e auths).length, framed c e auths ++ rest)) := by
  have key : WF c.handlesTy c.handles → WF c.paramTy c.param →
      (∀ vs, auths = some vs → ∀ v ∈ vs, WF TpmsAuthCommand v) →
      ((framed c e auths).length ≤ 4096 → ∃ rest, buildP c e (auths.map (·.map fixed)) =
        (.ok (framed c e auths).length, framed c e auths ++ rest)) ∧
      (4096 < (framed c e auths).length →
        TShort true (buildP c e (auths.map (·.map fixed))).1) := by
    intro h1 h2 h3
    have hal := areaBytes_length auths h3 hl
    have hw := bodyP_writes c auths h1 h2 h3 hal
    have hhd := (tWrites_toTss (writesTy _ _ (header_wf e hcode (size := 0) (by omega)))).fit
      (List.replicate cmdBufferSize 0) (by rw [header_length, cmdBuf_length]; omega)
    rw [header_length] at hhd
    have hH := header_length e c.code 0
    have hr : ((List.replicate cmdBufferSize (0 : UInt8)).drop 10).length = 4086 := by
      rw [List.length_drop, cmdBuf_length]
    have he : buildP c e (auths.map (·.map fixed)) =
        tthen (bodyP c (auths.map (·.map fixed)) 10 (wire CmdHeader (cmdHeader e c.code 0) ++
          (List.replicate cmdBufferSize 0).drop 10)) fun written buf =>
        tthen (toTss (marshal CmdHeader (cmdHeader e c.code (written % 2 ^ 32)) buf))
          fun _ buf => (.ok written, buf) := by
      unfold buildP
      rw [hhd]
      rfl
    clear hhd
    generalize wire CmdHeader (cmdHeader e c.code 0) = H at *
    generalize (List.replicate cmdBufferSize (0 : UInt8)).drop 10 = rest at *
    rw [framed_length]
    have hfr := framed_eq c e auths
    generalize wire c.handlesTy c.handles ++ (areaBytes auths ++ wire c.paramTy c.param) = body at *
    constructor
    · intro hfit
      rw [hw.fit 10 (H ++ rest) (by rw [List.length_append]; omega)] at he
      simp only [tthen] at he
      have hmod : (10 + body.length) % 2 ^ 32 = 10 + body.length := by omega
      rw [hmod] at he
      have h2 := (tWrites_toTss (writesTy _ _ (header_wf e hcode (size := 10 + body.length)
        (by omega)))).fit ((H ++ rest).take 10 ++ (body ++ (H ++ rest).drop (10 + body.length)))
        (by rw [header_length]; simp; omega)
      simp only [header_length] at h2
      rw [h2] at he
      refine ⟨(H ++ rest).drop (10 + body.length), ?_⟩
      rw [he]
      simp only [Prod.mk.injEq, true_and]
      rw [header_wire, hfr]
      have ht : ((H ++ rest).take 10).length = 10 := by simp; omega
      rw [List.drop_append_of_le_length (by omega), List.drop_of_length_le (by omega),
        List.nil_append]
      simp only [List.append_assoc]
    · intro hbig
      have hs := hw.short 10 (H ++ rest) (by rw [List.length_append]; omega)
        (by rw [List.length_append]; omega)
      rw [he]
      generalize bodyP c (auths.map (·.map fixed)) 10 (H ++ rest) = m at hs
      rcases m with ⟨_ | _ | _, sub⟩ <;> simp [TShort, tthen] at hs ⊢ <;> exact hs
  constructor
  · intro h
    have hwf : WF c.handlesTy c.handles ∧ WF c.paramTy c.param ∧
        ∀ vs, auths = some vs → ∀ v ∈ vs, WF TpmsAuthCommand v := by
      have h := h
      unfold buildP bodyP at h
      generalize List.replicate cmdBufferSize (0 : UInt8) = buf at h
      obtain ⟨w1, b1, -, h⟩ := tthen_isOk h
      obtain ⟨w5, b5, h, -⟩ := tthen_isOk h
      obtain ⟨w2, b2, e2, h⟩ := tthen_isOk h
      obtain ⟨w3, b3, e3, e4⟩ := tthen_isOk h
      obtain ⟨m2, _, e2⟩ := tstep_isOk e2
      obtain ⟨m3, _, e3⟩ := tstep_isOk e3
      obtain ⟨m4, _, e4⟩ := tstep_isOk e4
      refine ⟨marshal_ok_wf _ _ _ _ hh (toTss_isOk e2), marshal_ok_wf _ _ _ _ hp (toTss_isOk e4),
        ?_⟩
      rintro vs rfl
      have key : ∀ (vs : List Val) (k : Nat → Bytes → TOut) (w n : Nat) (b b' : Bytes),
          (∀ v ∈ vs, HasTy TpmsAuthCommand v) →
          authChain (vs.map fixed) k w b = (.ok n, b') → ∀ v ∈ vs, WF TpmsAuthCommand v := by
        intro vs
        induction vs with
        | nil => intro k w n b b' _ _ s hs; simp at hs
        | cons s ss ih =>
          intro k w n b b' hty hch x hx
          obtain ⟨w', b'', e, hch⟩ := tthen_isOk hch
          rcases List.mem_cons.1 hx with rfl | hx
          · obtain ⟨m, _, e⟩ := tstep_isOk e
            exact marshal_ok_wf _ _ _ _ (hty _ List.mem_cons_self) (toTss_isOk e)
          · exact ih _ _ _ _ _ (fun y hy => hty y (List.mem_cons_of_mem _ hy)) hch x hx
      exact key _ _ _ _ _ _ (ha vs rfl) e3
    obtain ⟨k1, k2⟩ := key hwf.1 hwf.2.1 hwf.2.2
    by_cases hf : (framed c e auths).length ≤ 4096
    · refine ⟨⟨hwf.1, hwf.2.1, hwf.2.2, hf⟩, ?_⟩
      obtain ⟨rest, hb⟩ := k1 hf
      rw [h] at hb
      cases hb
      simp only [sliceTo, List.length_append, Nat.le_add_right, if_true, List.take_left']
    · have := k2 (by omega)
      rw [h] at this
      simp [TShort] at this
  · rintro ⟨h1, h2, h3, h4⟩
    exact (key h1 h2 h3).1 h4

theorem Answers.hasTy {ss : List (LiveSession ω)} {w w1 : ω} {vs : List Val}
    (h : Answers ss w vs w1)
    (hs : ∀ s ∈ ss, ∀ w v w', s.authCommand w = (some v, w') → HasTy TpmsAuthCommand v) :
    ∀ v ∈ vs, HasTy TpmsAuthCommand v := by
  induction h with
  | nil => intro v hv; simp at hv
  | cons h _ ih =>
    intro v hv
    rcases List.mem_cons.1 hv with rfl | hv
    · exact hs _ (List.mem_cons_self ..) _ _ _ h
    · exact ih (fun s hs' => hs s (List.mem_cons_of_mem _ hs')) v hv

/-- The values given by an area have their type, and there are at most three. -/
theorem Gives.good {a : FreeArea ω} {w w1 : ω} {e : Bool} {auths : Option (List Val)}
    (h : Gives a w e auths w1)
    (ha : ∀ w d w', a.decompose w = (some d, w') → ∀ s ∈ d.active,
      ∀ w v w', s.authCommand w = (some v, w') → HasTy TpmsAuthCommand v) :
    (∀ vs, auths = some vs → ∀ v ∈ vs, HasTy TpmsAuthCommand v) ∧
    (∀ vs, auths = some vs → vs.length ≤ 3) := by
  cases h with
  | nothing => exact ⟨fun _ h => (nomatch h), fun _ h => (nomatch h)⟩
  | auths h1 h2 h3 h4 =>
    constructor
    · rintro _ ⟨rfl⟩
      exact h4.hasTy (ha _ _ _ h3)
    · rintro _ ⟨rfl⟩
      rw [h4.length]
      exact LiveArea.active_length _

/-- Reading succeeds exactly if the area gives its sessions and reading with these
does. -/
theorem readF_ok_iff (c : Command) (a : FreeArea ω) (buf : Bytes) (w w' : ω) (x : Val × Val) :
    readResponseF c a buf w = (.ok x, w') ↔
      ∃ d w1, a.decompose w = (some d, w1) ∧ readResponseL c d buf w1 = (.ok x, w') := by
  unfold readResponseF readResponseL
  rcases readResponseHeader buf with y | e | _
  · simp only [lbind]
    split
    · simp
    · split
      · unfold readBodyF readBodyL
        generalize (buf.take y.2.1).drop y.2.2 = b
        rcases tum c.respHandlesTy b with ⟨h, b1⟩ | e | _
        · simp only [lbind]
          generalize (if y.1 = St.Sessions then (tum u32 b1).map (·.2) else Res.ok b1 :
            Res TssError Bytes) = rr
          rcases rr with b2 | e | _
          · dsimp only
            rcases tum c.respTy b2 with ⟨p, b3⟩ | e | _
            · dsimp only
              unfold readResponseSessionsF
              rcases a.decompose w with ⟨_ | d, w1⟩
              · simp
              · constructor
                · intro h
                  exact ⟨d, w1, rfl, h⟩
                · rintro ⟨d', w1', h1, h2⟩
                  cases h1
                  exact h2
            · simp
            · simp
          · simp
          · simp
        · simp [lbind]
        · simp [lbind]
      · simp
  · simp [lbind]
  · simp [lbind]

/-- An area that always has the same sessions is like these. -/
theorem runFree_is (tr : LiveTransport ω ε) (c : Command) (a : FreeArea ω) (d : LiveArea ω)
    (h : a.Is d) (w : ω) : runFree tr c a w = runLive tr c d w := by
  have hb : buildCommandF c a w = buildCommandL c d w := by
    unfold buildCommandF buildCommandL
    rw [(h w).1, ← LiveArea.isEmpty_active]
    dsimp only
    have : writeCommandSessionsF a = writeCommandSessionsL d := by
      funext b w
      rw [writeCommandSessionsF_eq, writeCommandSessionsL_eq, (h w).1]
      rcases hd : d.active.isEmpty
      · dsimp only
        rw [(h w).2]
        simp
      · simp
    rw [this]
  have hr : readResponseF c a = readResponseL c d := by
    have : readResponseSessionsF a = readResponseSessionsL d := by
      funext b w
      unfold readResponseSessionsF
      rw [(h w).2]
    funext b w
    unfold readResponseF readResponseL readBodyF readBodyL
    rw [this]
  unfold runFree runLive
  rw [hb, hr]
  rcases buildCommandL c d w with ⟨⟨n | e | _, buf⟩, w1⟩
  · dsimp only
    rcases sliceTo buf n with _ | cmd
    · rfl
    · dsimp only
      rcases tr.transact w1 cmd (List.replicate respBufferSize 0) with ⟨_ | _ | _, b, w2⟩ <;> rfl
  · rfl
  · rfl

end Verif.Client
