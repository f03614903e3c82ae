import Verif.Client.Impl
import Verif.Client.Spec
import Verif.Codec.Marshal
import Verif.Codec.MarshalAny
import Verif.Codec.Unmarshal
import Verif.Base.LayoutLemmas

/-! Helper lemmas for the client: what the command buffer holds, and what a
successfully read response consists of. -/

namespace Verif.Client
open Verif Verif.Base Verif.Errors

theorem isEmpty_active (a : Area) : a.isEmpty = a.active.isEmpty := by
  rcases a with ⟨_ | s, _ | t, _ | u⟩ <;> rfl

/-! ### Writing -/

/-- Failure of a client function on a buffer that is too small: the TPM memory
error, or (only if `s`) a panic. -/
def TShort (s : Bool) (r : Res TssError Nat) : Prop :=
  r = .err (merrToTss .unexpectedEndOfBuffer) ∨ (s = true ∧ r = .panic)

theorem TShort.mono {s s' : Bool} {r : Res TssError Nat} (h : TShort s r)
    (hs : s = true → s' = true) : TShort s' r := by
  rcases h with h | ⟨h1, h2⟩
  · exact .inl h
  · exact .inr ⟨hs h1, h2⟩

structure TWrites (s : Bool) (m : Bytes → TOut) (x : Bytes) : Prop where
  fit : ∀ buf, x.length ≤ buf.length → m buf = (.ok x.length, x ++ buf.drop x.length)
  short : ∀ buf, buf.length < x.length → TShort s (m buf).1

structure TWritesAt (s : Bool) (m : Nat → Bytes → TOut) (x : Bytes) : Prop where
  fit : ∀ wr buf, wr + x.length ≤ buf.length →
    m wr buf = (.ok (wr + x.length), buf.take wr ++ (x ++ buf.drop (wr + x.length)))
  short : ∀ wr buf, wr ≤ buf.length → buf.length < wr + x.length → TShort s (m wr buf).1

theorem TWritesAt.mono {s s' : Bool} {m : Nat → Bytes → TOut} {x : Bytes} (h : TWritesAt s m x)
    (hs : s = true → s' = true) : TWritesAt s' m x :=
  ⟨h.fit, fun w b h1 h2 => (h.short w b h1 h2).mono hs⟩

theorem tWrites_toTss {s : Bool} {m : Bytes → MOut} {x : Bytes} (h : Writes s m x) :
    TWrites s (fun b => toTss (m b)) x := by
  constructor
  · intro buf hl
    simp only [toTss, h.fit buf hl, Res.mapErr]
  · intro buf hl
    have := h.short buf hl
    rcases this with h | ⟨h1, h2⟩
    · left; simp only [toTss, h, Res.mapErr]
    · right; exact ⟨h1, by simp only [toTss, h2, Res.mapErr]⟩

theorem TWrites.step {s : Bool} {m : Bytes → TOut} {x : Bytes} (h : TWrites s m x) :
    TWritesAt s (tstep m) x := by
  constructor
  · intro wr buf hl
    unfold tstep
    rw [if_pos (by omega), h.fit _ (by simp; omega)]
    simp
  · intro wr buf h1 h2
    unfold tstep
    rw [if_pos h1]
    have := h.short (buf.drop wr) (by simp; omega)
    rcases hm : m (buf.drop wr) with ⟨_ | _ | _, sub⟩ <;> rw [hm] at this <;>
      simp [TShort] at this ⊢ <;> exact this

theorem TWritesAt.then {s : Bool} {m k : Nat → Bytes → TOut} {x y : Bytes}
    (hm : TWritesAt s m x) (hk : TWritesAt s k y) :
    TWritesAt s (fun w b => tthen (m w b) k) (x ++ y) := by
  constructor
  · intro wr buf hl
    simp only [List.length_append] at hl ⊢
    rw [hm.fit wr buf (by omega)]
    simp only [tthen]
    have hlen : (buf.take wr ++ (x ++ buf.drop (wr + x.length))).length = buf.length := by
      simp; omega
    rw [hk.fit _ _ (by rw [hlen]; omega)]
    have h1 : (buf.take wr ++ x).length = wr + x.length := by simp; omega
    rw [← List.append_assoc (buf.take wr), List.take_append_of_le_length (by omega),
      List.take_of_length_le (by omega), List.drop_append, List.drop_of_length_le (by omega),
      List.nil_append, List.drop_drop, h1]
    refine Prod.ext ?_ ?_
    · simp; omega
    · simp only [List.append_assoc]
      congr 4
      omega
  · intro wr buf h1 h2
    simp only [List.length_append] at h2
    by_cases hx : wr + x.length ≤ buf.length
    · rw [hm.fit wr buf hx]
      simp only [tthen]
      have hlen : (buf.take wr ++ (x ++ buf.drop (wr + x.length))).length = buf.length := by
        simp; omega
      exact hk.short _ _ (by rw [hlen]; omega) (by rw [hlen]; omega)
    · have := hm.short wr buf h1 (by omega)
      rcases hmm : m wr buf with ⟨_ | _ | _, sub⟩ <;> rw [hmm] at this <;>
        simp [TShort, tthen] at this ⊢ <;> exact this

theorem tWritesAt_nil (s : Bool) : TWritesAt s (fun w b => (.ok w, b)) [] := by
  constructor
  · intro wr buf hl; simp
  · intro wr buf h1 h2; simp at h2; omega

theorem tthen_ok (r : TOut) : tthen r (fun w b => (.ok w, b)) = r := by
  rcases r with ⟨_ | _ | _, b⟩ <;> rfl

/-- The chain of `writeAuth` calls of `write_command_sessions`, followed by `k`. -/
def authChain : List Session → (Nat → Bytes → TOut) → Nat → Bytes → TOut
  | [], k => k
  | s :: ss, k => fun w b => tthen (writeAuth s w b) (authChain ss k)

theorem writeCommandSessions_eq (a : Area) (buf : Bytes) :
    writeCommandSessions a buf =
      if a.active.isEmpty then (.ok 0, buf) else authChain a.active marshalAuthSize 4 buf := by
  rcases a with ⟨_ | s, _ | t, _ | u⟩ <;> rfl

theorem authChain_eq (ss : List Session) (k : Nat → Bytes → TOut) (w : Nat) (b : Bytes) :
    authChain ss k w b = tthen (authChain ss (fun w b => (.ok w, b)) w b) k := by
  induction ss generalizing w b with
  | nil => rfl
  | cons s ss ih =>
    simp only [authChain]
    rcases h : writeAuth s w b with ⟨_ | _ | _, b'⟩
    · simp only [tthen]; exact ih _ _
    · rfl
    · rfl

theorem authChain_writes (ss : List Session)
    (h : ∀ s ∈ ss, WF TpmsAuthCommand s.authCommand) :
    TWritesAt true (authChain ss (fun w b => (.ok w, b)))
      (wires TpmsAuthCommand (ss.map (·.authCommand))) := by
  induction ss with
  | nil => exact tWritesAt_nil true
  | cons s ss ih =>
    simp only [List.map_cons, wires, List.flatten_cons]
    have h1 : TWritesAt true (writeAuth s) (wire TpmsAuthCommand s.authCommand) :=
      (tWrites_toTss ((writesTy _ _ (h s List.mem_cons_self)).mono (fun _ => rfl))).step
    exact h1.then (ih (fun x hx => h x (List.mem_cons_of_mem _ hx)))

theorem writeCommandSessions_writes (a : Area)
    (h : ∀ s ∈ a.active, WF TpmsAuthCommand s.authCommand) (hlen : (authArea a.active).length < 2 ^ 32) :
    TWrites (!a.active.isEmpty) (writeCommandSessions a) (authArea a.active) := by
  by_cases he : a.active.isEmpty = true
  · constructor
    · intro buf hl
      rw [writeCommandSessions_eq]
      simp [he, authArea]
    · intro buf hl
      simp [authArea, he] at hl
  · have hch := authChain_writes a.active h
    simp only [authArea, he, Bool.false_eq_true, if_false] at hlen ⊢
    generalize hA : wires TpmsAuthCommand (a.active.map (·.authCommand)) = A at *
    simp only [List.length_append, digits256_length] at hlen
    constructor
    · intro buf hl
      simp only [List.length_append, digits256_length] at hl ⊢
      rw [writeCommandSessions_eq, if_neg (by simpa using he), authChain_eq,
        hch.fit 4 buf (by omega)]
      simp only [tthen, marshalAuthSize]
      have h4 : (digits256 4 A.length).length = 4 := digits256_length _ _
      have hsz : (4 + A.length - 4) % 2 ^ 32 = A.length := by omega
      rw [hsz]
      have hp := (tWrites_toTss (writesPrim 4 A.length)).fit
        (buf.take 4 ++ (A ++ buf.drop (4 + A.length))) (by simp; omega)
      rw [hp]
      simp only [Prod.mk.injEq, true_and, h4]
      rw [List.drop_append_of_le_length (by simp; omega), List.drop_of_length_le (by simp; omega)]
      simp
    · intro buf hl
      simp only [List.length_append, digits256_length] at hl
      rw [writeCommandSessions_eq, if_neg (by simpa using he), authChain_eq]
      simp only [Bool.not_false]
      by_cases h4 : 4 ≤ buf.length
      · have := hch.short 4 buf h4 (by omega)
        rcases hmm : authChain a.active (fun w b => (.ok w, b)) 4 buf with ⟨_ | _ | _, sub⟩ <;>
          rw [hmm] at this <;> simp [TShort, tthen] at this ⊢ <;> exact this
      · right
        refine ⟨rfl, ?_⟩
        rcases ha : a.active with _ | ⟨s, ss⟩
        · simp [ha] at he
        · simp only [authChain, writeAuth, tstep]
          rw [if_neg h4]; rfl

theorem header_wf (e : Bool) {code size : Nat} (hc : code < 2 ^ 32) (hs : size < 2 ^ 32) :
    WF CmdHeader (cmdHeader e code size) := by
  simp only [CmdHeader, TpmiStCommandTag, TpmCc, S, plains, cmdHeader, WF, WFFields, and_true]
  refine ⟨?_, by simpa using hs, by simpa using hc⟩
  cases e <;> simp [St.NoSessions, St.Sessions]

theorem header_wire (e : Bool) (code size : Nat) :
    wire CmdHeader (cmdHeader e code size) =
      digits256 2 (if e then 0x8001 else 0x8002) ++ digits256 4 size ++ digits256 4 code := by
  cases e <;>
    simp [CmdHeader, TpmiStCommandTag, TpmCc, S, plains, cmdHeader, wire, wireFields,
      St.NoSessions, St.Sessions]

theorem header_length (e : Bool) (code size : Nat) :
    (wire CmdHeader (cmdHeader e code size)).length = 10 := by
  rw [header_wire]; simp

/-- Can marshalling the command panic on a short buffer?  Only with sized
buffers or authorizations. -/
def canPanic (c : Command) (a : Area) : Bool :=
  hasSized c.handlesTy || hasSized c.paramTy || !a.active.isEmpty

theorem commandBytes_length (c : Command) (ss : List Session) :
    (commandBytes c ss).length = 10 + (commandBody c ss).length := by
  simp [commandBytes]; omega

theorem sizeOf_authArea (a : Area) (h : ∀ s ∈ a.active, WF TpmsAuthCommand s.authCommand) :
    (authArea a.active).length < 2 ^ 32 := by
  have key : ∀ ss : List Session, (∀ s ∈ ss, WF TpmsAuthCommand s.authCommand) →
      (wires TpmsAuthCommand (ss.map (·.authCommand))).length ≤ 140 * ss.length := by
    intro ss
    induction ss with
    | nil => intro _; simp [wires]
    | cons s ss ih =>
      intro hs
      have h1 : (wire TpmsAuthCommand s.authCommand).length ≤ 140 :=
        Nat.le_trans (wire_le al64 _ _ (hs s List.mem_cons_self)) (by decide)
      have h2 := ih (fun x hx => hs x (List.mem_cons_of_mem _ hx))
      simp only [wires, List.map_cons, List.flatten_cons, List.length_append, List.length_cons] at h2 ⊢
      omega
  have hk := key a.active h
  have h3 : a.active.length ≤ 3 := by rcases a with ⟨_ | s, _ | t, _ | u⟩ <;> simp [Area.active]
  unfold authArea
  split
  · simp
  · simp only [List.length_append, digits256_length]; omega

theorem body_writes (c : Command) (a : Area) (h : CmdWF c a) :
    TWritesAt (canPanic c a)
      (fun written buf =>
        tthen (tstep (fun b => toTss (marshal c.handlesTy c.handles b)) written buf) fun written buf =>
        tthen (tstep (writeCommandSessions a) written buf) fun written buf =>
        tstep (fun b => toTss (marshal c.paramTy c.param b)) written buf)
      (commandBody c a.active) := by
  have h1 : TWritesAt (canPanic c a) (tstep (fun b => toTss (marshal c.handlesTy c.handles b)))
      (wire c.handlesTy c.handles) :=
    (tWrites_toTss (writesTy _ _ h.handles)).step.mono (by intro e; simp [canPanic, e])
  have h2 : TWritesAt (canPanic c a) (tstep (writeCommandSessions a)) (authArea a.active) :=
    (writeCommandSessions_writes a h.auths (sizeOf_authArea a h.auths)).step.mono
      (by intro e; simp only [canPanic, e, Bool.or_true])
  have h3 : TWritesAt (canPanic c a) (tstep (fun b => toTss (marshal c.paramTy c.param b)))
      (wire c.paramTy c.param) :=
    (tWrites_toTss (writesTy _ _ h.param)).step.mono (by intro e; simp [canPanic, e])
  have := h1.then (h2.then h3)
  rw [← List.append_assoc] at this
  exact this

theorem tthen_assoc (r : TOut) (f g : Nat → Bytes → TOut) :
    tthen (tthen r f) g = tthen r (fun w b => tthen (f w b) g) := by
  rcases r with ⟨_ | _ | _, b⟩ <;> rfl

theorem buildCommand_eq (c : Command) (a : Area) :
    buildCommand c a =
      tthen (toTss (marshal CmdHeader (cmdHeader a.isEmpty c.code 0)
        (List.replicate cmdBufferSize 0))) fun written buf =>
      tthen (tthen (tstep (fun b => toTss (marshal c.handlesTy c.handles b)) written buf)
        fun written buf =>
        tthen (tstep (writeCommandSessions a) written buf) fun written buf =>
        tstep (fun b => toTss (marshal c.paramTy c.param b)) written buf) fun written buf =>
      tthen (toTss (marshal CmdHeader (cmdHeader a.isEmpty c.code (written % 2 ^ 32)) buf))
        fun _ buf => (.ok written, buf) := by
  unfold buildCommand
  simp only [tthen_assoc]

theorem cmdBuf_length : (List.replicate cmdBufferSize (0 : UInt8)).length = 4096 := by
  rw [List.length_replicate]; rfl

/-- The buffer after the first header and the body. -/
theorem buildCommand_eq' (c : Command) (a : Area) (h : CmdWF c a) :
    ∃ H rest : Bytes, H.length = 10 ∧ rest.length = 4086 ∧ buildCommand c a =
      tthen (tthen (tstep (fun b => toTss (marshal c.handlesTy c.handles b)) 10 (H ++ rest))
        fun written buf =>
        tthen (tstep (writeCommandSessions a) written buf) fun written buf =>
        tstep (fun b => toTss (marshal c.paramTy c.param b)) written buf) fun written buf =>
      tthen (toTss (marshal CmdHeader (cmdHeader a.isEmpty c.code (written % 2 ^ 32)) buf))
        fun _ buf => (.ok written, buf) := by
  have hh := (tWrites_toTss (writesTy _ _ (header_wf a.isEmpty h.code (size := 0) (by omega)))).fit
    (List.replicate cmdBufferSize 0) (by rw [header_length, cmdBuf_length]; omega)
  rw [header_length] at hh
  refine ⟨wire CmdHeader (cmdHeader a.isEmpty c.code 0), (List.replicate cmdBufferSize 0).drop 10,
    header_length _ _ _, by rw [List.length_drop, cmdBuf_length], ?_⟩
  rw [buildCommand_eq, hh]
  rfl

/-- A command that fits is built correctly. -/
theorem buildCommand_fit (c : Command) (a : Area) (h : CmdWF c a)
    (hfit : (commandBytes c a.active).length ≤ 4096) :
    ∃ rest, buildCommand c a =
      (.ok (commandBytes c a.active).length, commandBytes c a.active ++ rest) := by
  rw [commandBytes_length] at hfit ⊢
  obtain ⟨H, rest, hH, hr, he⟩ := buildCommand_eq' c a h
  have hbody := (body_writes c a h).fit 10 (H ++ rest) (by rw [List.length_append]; omega)
  rw [hbody] at he
  simp only [tthen] at he
  have hmod : (10 + (commandBody c a.active).length) % 2 ^ 32 =
      10 + (commandBody c a.active).length := by omega
  rw [hmod] at he
  have h2 := (tWrites_toTss (writesTy _ _ (header_wf a.isEmpty h.code
    (size := 10 + (commandBody c a.active).length) (by omega)))).fit
    ((H ++ rest).take 10 ++ (commandBody c a.active ++
      (H ++ rest).drop (10 + (commandBody c a.active).length)))
    (by rw [header_length]; simp; omega)
  simp only [header_length] at h2
  rw [h2] at he
  refine ⟨(H ++ rest).drop (10 + (commandBody c a.active).length), ?_⟩
  rw [he]
  simp only [Prod.mk.injEq, true_and]
  rw [header_wire, isEmpty_active]
  have ht : ((H ++ rest).take 10).length = 10 := by simp; omega
  rw [List.drop_append_of_le_length (by omega), List.drop_of_length_le (by omega), List.nil_append]
  simp only [commandBytes, List.append_assoc]

/-- A command that does not fit is not built. -/
theorem buildCommand_short (c : Command) (a : Area) (h : CmdWF c a)
    (hbig : 4096 < (commandBytes c a.active).length) :
    TShort (canPanic c a) (buildCommand c a).1 := by
  rw [commandBytes_length] at hbig
  obtain ⟨H, rest, hH, hr, he⟩ := buildCommand_eq' c a h
  have hs := (body_writes c a h).short 10 (H ++ rest) (by rw [List.length_append]; omega)
    (by rw [List.length_append]; omega)
  rw [he]
  generalize (tthen (tstep (fun b => toTss (marshal c.handlesTy c.handles b)) 10 (H ++ rest))
        fun written buf =>
        tthen (tstep (writeCommandSessions a) written buf) fun written buf =>
        tstep (fun b => toTss (marshal c.paramTy c.param b)) written buf) = m at hs
  rcases m with ⟨_ | _ | _, sub⟩ <;> simp [TShort, tthen] at hs ⊢ <;> exact hs

theorem tthen_isOk {r : TOut} {k : Nat → Bytes → TOut} {n : Nat} {b : Bytes}
    (h : tthen r k = (.ok n, b)) : ∃ w b', r = (.ok w, b') ∧ k w b' = (.ok n, b) := by
  rcases r with ⟨_ | _ | _, b'⟩
  · exact ⟨_, _, rfl, h⟩
  · simp [tthen] at h
  · simp [tthen] at h

theorem tstep_isOk {f : Bytes → TOut} {w n : Nat} {buf b : Bytes}
    (h : tstep f w buf = (.ok n, b)) : ∃ m b', f (buf.drop w) = (.ok m, b') := by
  unfold tstep at h
  split at h
  · rcases hf : f (buf.drop w) with ⟨_ | _ | _, b'⟩
    · exact ⟨_, _, rfl⟩
    · rw [hf] at h; simp at h
    · rw [hf] at h; simp at h
  · simp at h

theorem toTss_isOk {r : MOut} {n : Nat} {b : Bytes} (h : toTss r = (.ok n, b)) : r.1 = .ok n := by
  rcases r with ⟨_ | _ | _, b'⟩ <;> simp [toTss, Res.mapErr] at h ⊢
  exact h.1

/-- Whatever was marshalled successfully was well-formed. -/
theorem buildCommand_ok_wf (c : Command) (a : Area) (hcode : c.code < 2 ^ 32)
    (hh : HasTy c.handlesTy c.handles) (hp : HasTy c.paramTy c.param)
    (ha : ∀ s ∈ a.active, HasTy TpmsAuthCommand s.authCommand) {n : Nat} {b : Bytes}
    (h : buildCommand c a = (.ok n, b)) : CmdWF c a := by
  unfold buildCommand at h
  generalize List.replicate cmdBufferSize (0 : UInt8) = buf at h
  obtain ⟨w1, b1, -, h⟩ := tthen_isOk h
  obtain ⟨w2, b2, e2, h⟩ := tthen_isOk h
  obtain ⟨w3, b3, e3, h⟩ := tthen_isOk h
  obtain ⟨w4, b4, e4, -⟩ := tthen_isOk h
  obtain ⟨m2, _, e2⟩ := tstep_isOk e2
  obtain ⟨m3, _, e3⟩ := tstep_isOk e3
  obtain ⟨m4, _, e4⟩ := tstep_isOk e4
  refine ⟨hcode, marshal_ok_wf _ _ _ _ hh (toTss_isOk e2), marshal_ok_wf _ _ _ _ hp (toTss_isOk e4),
    ?_⟩
  rw [writeCommandSessions_eq] at e3
  by_cases he : a.active.isEmpty = true
  · intro s hs
    rw [List.isEmpty_iff.1 he] at hs; simp at hs
  · rw [if_neg he] at e3
    have key : ∀ (ss : List Session) (k : Nat → Bytes → TOut) (w n : Nat) (b b' : Bytes),
        (∀ s ∈ ss, HasTy TpmsAuthCommand s.authCommand) →
        authChain ss k w b = (.ok n, b') → ∀ s ∈ ss, WF TpmsAuthCommand s.authCommand := by
      intro ss
      induction ss with
      | nil => intro k w n b b' _ _ s hs; simp at hs
      | cons s ss ih =>
        intro k w n b b' hty hch x hx
        obtain ⟨w', b'', e, hch⟩ := tthen_isOk hch
        rcases List.mem_cons.1 hx with rfl | hx
        · obtain ⟨m, _, e⟩ := tstep_isOk e
          exact marshal_ok_wf _ _ _ _ (hty _ List.mem_cons_self) (toTss_isOk e)
        · exact ih _ _ _ _ _ (fun y hy => hty y (List.mem_cons_of_mem _ hy)) hch x hx
    exact key _ _ _ _ _ _ ha e3

/-! ### Reading -/

theorem tum_ok_iff (t : Ty) (b : Bytes) (v : Val) (r : Bytes) :
    tum t b = .ok (v, r) ↔ WF t v ∧ canon t v = v ∧ b = wire t v ++ r := by
  constructor
  · intro h
    unfold tum at h
    rcases hu : unmarshal t b with ⟨_ | _ | _, r'⟩ <;> rw [hu] at h <;> simp at h
    obtain ⟨rfl, rfl⟩ := h
    exact (goodTy t).sound _ _ _ hu
  · rintro ⟨h1, h2, rfl⟩
    have := (goodTy t).complete v r h1
    rw [h2] at this
    simp only [tum, this]

theorem tum_wire (t : Ty) (v : Val) (r : Bytes) (h : WF t v) :
    tum t (wire t v ++ r) = .ok (canon t v, r) := by
  have := (goodTy t).complete v r h
  simp only [tum, this]

theorem tum_no_panic (t : Ty) (b : Bytes) : tum t b ≠ .panic := by
  have := ((goodTy t).total b).1
  unfold tum
  rcases hu : unmarshal t b with ⟨_ | _ | _, r'⟩ <;> rw [hu] at this <;> simp at this ⊢

theorem bind_ok {ε α β : Type} {r : Res ε α} {f : α → Res ε β} {b : β} (h : r.bind f = .ok b) :
    ∃ a, r = .ok a ∧ f a = .ok b := by
  cases r <;> simp [Res.bind] at h
  exact ⟨_, rfl, h⟩

theorem bind_no_panic {ε α β : Type} {r : Res ε α} {f : α → Res ε β} (h1 : r ≠ .panic)
    (h2 : ∀ a, f a ≠ .panic) : r.bind f ≠ .panic := by
  cases r with
  | ok a => exact h2 a
  | err e => simp [Res.bind]
  | panic => exact absurd rfl h1

theorem readAuth_ok_iff (s : Session) (b r : Bytes) :
    readAuth s b = .ok r ↔ ∃ v, WF TpmsAuthResponse v ∧ canon TpmsAuthResponse v = v ∧
      b = wire TpmsAuthResponse v ++ r ∧ s.validate v = none := by
  unfold readAuth
  constructor
  · intro h
    obtain ⟨⟨v, b'⟩, h1, h2⟩ := bind_ok h
    simp only at h2
    cases hv : s.validate v with
    | none =>
      rw [hv] at h2
      injection h2 with h2; subst h2
      obtain ⟨a1, a2, a3⟩ := (tum_ok_iff _ _ _ _).1 h1
      exact ⟨v, a1, a2, a3, hv⟩
    | some e => rw [hv] at h2; simp at h2
  · rintro ⟨v, h1, h2, h3, h4⟩
    rw [(tum_ok_iff _ _ _ _).2 ⟨h1, h2, h3⟩]
    simp only [Res.bind, h4]

/-- The chain of `readAuth` calls. -/
def readChain : List Session → Bytes → Res TssError Bytes
  | [], b => .ok b
  | s :: ss, b => (readAuth s b).bind (readChain ss)

theorem readResponseSessions_eq (a : Area) (b : Bytes) :
    readResponseSessions a b = readChain a.active b := by
  rcases a with ⟨_ | s, _ | t, _ | u⟩ <;> rfl

theorem readChain_ok_iff (ss : List Session) (b r : Bytes) :
    readChain ss b = .ok r ↔ ∃ vs, (∀ v ∈ vs, WF TpmsAuthResponse v ∧ canon TpmsAuthResponse v = v) ∧
      Accepted ss vs ∧ b = wires TpmsAuthResponse vs ++ r := by
  induction ss generalizing b with
  | nil =>
    simp only [readChain]
    constructor
    · intro h; injection h with h; exact ⟨[], by simp, trivial, by simp [wires, h]⟩
    · rintro ⟨vs, -, h2, h3⟩
      cases vs with
      | nil => simp [wires] at h3; rw [h3]
      | cons v vs => simp [Accepted] at h2
  | cons s ss ih =>
    simp only [readChain]
    constructor
    · intro h
      obtain ⟨b', h1, h2⟩ := bind_ok h
      obtain ⟨v, a1, a2, a3, a4⟩ := (readAuth_ok_iff _ _ _).1 h1
      obtain ⟨vs, c1, c2, c3⟩ := (ih b').1 h2
      refine ⟨v :: vs, ?_, ⟨a4, c2⟩, ?_⟩
      · intro x hx
        rcases List.mem_cons.1 hx with rfl | hx
        · exact ⟨a1, a2⟩
        · exact c1 x hx
      · rw [a3, c3]; simp [wires]
    · rintro ⟨vs, h1, h2, h3⟩
      cases vs with
      | nil => simp [Accepted] at h2
      | cons v vs =>
        obtain ⟨h2, h4⟩ := h2
        have e : readAuth s b = .ok (wires TpmsAuthResponse vs ++ r) := by
          refine (readAuth_ok_iff _ _ _).2 ⟨v, (h1 v List.mem_cons_self).1,
            (h1 v List.mem_cons_self).2, ?_, h2⟩
          rw [h3]; simp [wires]
        rw [e]
        exact (ih _).2 ⟨vs, fun x hx => h1 x (List.mem_cons_of_mem _ hx), h4, rfl⟩

theorem readChain_no_panic (ss : List Session) (b : Bytes) : readChain ss b ≠ .panic := by
  induction ss generalizing b with
  | nil => simp [readChain]
  | cons s ss ih =>
    simp only [readChain]
    refine bind_no_panic ?_ ih
    unfold readAuth
    refine bind_no_panic (tum_no_panic _ _) ?_
    rintro ⟨v, b'⟩
    simp only
    cases s.validate v <;> simp

theorem readBody_no_panic (c : Command) (a : Area) (tag : Nat) (b : Bytes) :
    readBody c a tag b ≠ .panic := by
  unfold readBody
  refine bind_no_panic (tum_no_panic _ _) ?_
  rintro ⟨h, b⟩
  refine bind_no_panic ?_ ?_
  · split
    · have := tum_no_panic u32 b
      revert this
      cases tum u32 b <;> simp [Res.map]
    · simp
  · intro b
    refine bind_no_panic (tum_no_panic _ _) ?_
    rintro ⟨p, b⟩
    refine bind_no_panic (by rw [readResponseSessions_eq]; exact readChain_no_panic _ _) ?_
    intro b
    split <;> simp

theorem wf_u32 {v : Val} (h : WF u32 v) : ∃ x, v = .int x ∧ x < 2 ^ 32 := by
  cases v <;> simp only [WF] at h
  exact ⟨_, rfl, by simpa using h⟩

/-- A body is read successfully exactly if it is the body of a response with
accepted authorizations. -/
theorem readBody_ok_iff (c : Command) (a : Area) (tag : Nat) (b : Bytes) (p h : Val) :
    readBody c a tag b = .ok (p, h) ↔ ∃ size auths,
      size < 2 ^ 32 ∧ WF c.respHandlesTy h ∧ canon c.respHandlesTy h = h ∧
      WF c.respTy p ∧ canon c.respTy p = p ∧
      (∀ v ∈ auths, WF TpmsAuthResponse v ∧ canon TpmsAuthResponse v = v) ∧
      Accepted a.active auths ∧ b = responseBody c ⟨tag, h, size, p, auths⟩ := by
  unfold readBody
  constructor
  · intro hr
    obtain ⟨⟨h', b1⟩, e1, hr⟩ := bind_ok hr
    obtain ⟨b2, e2, hr⟩ := bind_ok hr
    obtain ⟨⟨p', b3⟩, e3, hr⟩ := bind_ok hr
    obtain ⟨b4, e4, hr⟩ := bind_ok hr
    rw [readResponseSessions_eq] at e4
    obtain ⟨w1, c1, e1⟩ := (tum_ok_iff _ _ _ _).1 e1
    obtain ⟨w3, c3, e3⟩ := (tum_ok_iff _ _ _ _).1 e3
    obtain ⟨vs, v1, v2, v3⟩ := (readChain_ok_iff _ _ _).1 e4
    have hb4 : b4 = [] ∧ p' = p ∧ h' = h := by
      cases b4 with
      | nil => simp at hr; exact ⟨rfl, hr.1, hr.2⟩
      | cons x xs => simp at hr
    obtain ⟨rfl, rfl, rfl⟩ := hb4
    by_cases ht : tag = St.Sessions
    · rw [if_pos ht] at e2
      cases hu : tum u32 b1 with
      | ok x =>
        obtain ⟨x, bx⟩ := x
        rw [hu] at e2
        simp only [Res.map] at e2
        injection e2 with e2
        obtain ⟨wx, -, ex⟩ := (tum_ok_iff _ _ _ _).1 hu
        obtain ⟨n, rfl, hn⟩ := wf_u32 wx
        refine ⟨n, vs, hn, w1, c1, w3, c3, v1, v2, ?_⟩
        have hwn : wire u32 (.int n) = digits256 4 n := by simp [wire]
        rw [e1, ex, e2, e3, v3, hwn]
        simp only [St.Sessions] at ht
        simp [responseBody, ht]
      | err e => rw [hu] at e2; simp [Res.map] at e2
      | panic => rw [hu] at e2; simp [Res.map] at e2
    · rw [if_neg ht] at e2
      injection e2 with e2
      refine ⟨0, vs, by omega, w1, c1, w3, c3, v1, v2, ?_⟩
      rw [e1, e2, e3, v3]
      simp only [St.Sessions] at ht
      simp [responseBody, ht]
  · rintro ⟨size, auths, hs, w1, c1, w3, c3, v1, v2, rfl⟩
    simp only [responseBody, List.append_assoc]
    rw [(tum_ok_iff _ _ _ _).2 ⟨w1, c1, rfl⟩]
    simp only [Res.bind]
    have e2 : (if tag = St.Sessions then
        Res.map (fun x : Val × Bytes => x.2) (tum u32 ((if tag = 0x8002 then digits256 4 size else []) ++
          (wire c.respTy p ++ wires TpmsAuthResponse auths)))
        else .ok ((if tag = 0x8002 then digits256 4 size else []) ++
          (wire c.respTy p ++ wires TpmsAuthResponse auths))) =
        .ok (wire c.respTy p ++ wires TpmsAuthResponse auths) := by
      by_cases ht : tag = 0x8002
      · simp only [St.Sessions, ht, if_true]
        have hwn : wire u32 (.int size) = digits256 4 size := by simp [wire]
        rw [← hwn, tum_wire u32 (.int size) _ (by simpa [WF] using hs)]
        rfl
      · simp only [St.Sessions, ht, if_false, List.nil_append]
    rw [e2]
    simp only
    rw [(tum_ok_iff _ _ _ _).2 ⟨w3, c3, rfl⟩]
    simp only
    rw [readResponseSessions_eq, (readChain_ok_iff _ _ _).2 ⟨auths, v1, v2, (List.append_nil _).symm⟩]
    rfl

/-! ### The response header -/

theorem respHeader_cases {v : Val} (h : WF RespHeader v) :
    ∃ tag size rc, v = .struct [.struct [.int tag], .int size, .int rc] ∧ tag < 65536 ∧
      size < 2 ^ 32 ∧ rc < 2 ^ 32 := by
  simp only [RespHeader, TpmSt, S, plains] at h
  cases v <;> simp only [WF] at h
  rename_i fs
  rcases fs with _ | ⟨v1, _ | ⟨v2, _ | ⟨v3, _ | ⟨v4, fs⟩⟩⟩⟩ <;>
    simp only [WFFields, and_false] at h
  obtain ⟨h1, h2, h3, -⟩ := h
  obtain ⟨size, rfl, hs⟩ := wf_u32 h2
  obtain ⟨rc, rfl, hr⟩ := wf_u32 h3
  cases v1 <;> simp only [WF] at h1
  rename_i fs
  rcases fs with _ | ⟨x, _ | ⟨y, fs⟩⟩ <;> simp only [WFFields, and_false] at h1
  cases x <;> simp only [WF, false_and] at h1
  exact ⟨_, size, rc, rfl, by simpa using h1.1, hs, hr⟩

theorem respHeader_wf {tag size rc : Nat} (h1 : tag < 65536) (h2 : size < 2 ^ 32)
    (h3 : rc < 2 ^ 32) : WF RespHeader (.struct [.struct [.int tag], .int size, .int rc]) := by
  simp only [RespHeader, TpmSt, S, plains, WF, WFFields, and_true]
  exact ⟨by simpa using h1, by simpa using h2, by simpa using h3⟩

theorem respHeader_wire (tag size rc : Nat) :
    wire RespHeader (.struct [.struct [.int tag], .int size, .int rc]) =
      digits256 2 tag ++ digits256 4 size ++ digits256 4 rc := by
  simp [RespHeader, TpmSt, S, plains, wire, wireFields]

/-- Any buffer of at least ten bytes starts with a header. -/
theorem split_header (b : Bytes) (h : 10 ≤ b.length) :
    ∃ tag size rc rest, tag < 65536 ∧ size < 2 ^ 32 ∧ rc < 2 ^ 32 ∧
      b = digits256 2 tag ++ digits256 4 size ++ digits256 4 rc ++ rest := by
  have l1 : (b.take 2).length = 2 := by simp; omega
  have l2 : ((b.drop 2).take 4).length = 4 := by simp; omega
  have l3 : ((b.drop 6).take 4).length = 4 := by simp; omega
  have d1 := digits256_positional (b.take 2)
  have d2 := digits256_positional ((b.drop 2).take 4)
  have d3 := digits256_positional ((b.drop 6).take 4)
  have p1 := positional_lt (b.take 2)
  have p2 := positional_lt ((b.drop 2).take 4)
  have p3 := positional_lt ((b.drop 6).take 4)
  rw [l1] at d1 p1
  rw [l2] at d2 p2
  rw [l3] at d3 p3
  refine ⟨_, _, _, b.drop 10, by simpa using p1, by simpa using p2, by simpa using p3, ?_⟩
  rw [d1, d2, d3]
  have e3 : (b.drop 6).take 4 ++ b.drop 10 = b.drop 6 := by
    have := List.take_append_drop 4 (b.drop 6); rwa [List.drop_drop] at this
  have e2 : (b.drop 2).take 4 ++ b.drop 6 = b.drop 2 := by
    have := List.take_append_drop 4 (b.drop 2); rwa [List.drop_drop] at this
  simp only [List.append_assoc]
  rw [e3, e2, List.take_append_drop]

theorem tum_header (tag size rc : Nat) (rest : Bytes) (h1 : tag < 65536) (h2 : size < 2 ^ 32)
    (h3 : rc < 2 ^ 32) :
    tum RespHeader (digits256 2 tag ++ digits256 4 size ++ digits256 4 rc ++ rest) =
      .ok (.struct [.struct [.int tag], .int size, .int rc], rest) := by
  rw [← respHeader_wire]
  refine (tum_ok_iff _ _ _ _).2 ⟨respHeader_wf h1 h2 h3, ?_, rfl⟩
  simp [RespHeader, TpmSt, S, plains, canon, canonFields]

/-- What reading a response does, according to its header. -/
theorem readResponse_eq (c : Command) (a : Area) (tag size rc : Nat) (rest : Bytes)
    (h1 : tag < 65536) (h2 : size < 2 ^ 32) (h3 : rc < 2 ^ 32) :
    readResponse c a (digits256 2 tag ++ digits256 4 size ++ digits256 4 rc ++ rest) =
      if rc ≠ 0 then .err ⟨rc⟩
      else if 10 + rest.length < size then .err tcsOutOfMemory
      else if size < 10 then .panic
      else readBody c a tag (rest.take (size - 10)) := by
  unfold readResponse readResponseHeader
  rw [tum_header _ _ _ _ h1 h2 h3]
  simp only [Res.bind, TssError.tryFrom]
  by_cases hrc : rc = 0
  · subst hrc
    simp only [if_true]
    have hl : (digits256 2 tag ++ digits256 4 size ++ digits256 4 0 ++ rest).length =
        10 + rest.length := by simp; omega
    rw [hl]
    by_cases hbig : 10 + rest.length < size
    · simp [hbig]
    · have e : 10 + rest.length - rest.length = 10 := by omega
      rw [e]
      by_cases hsmall : size < 10
      · rw [if_neg (by omega), if_neg (by omega), if_neg (by simp), if_neg hbig, if_pos hsmall]
      · rw [if_neg (by omega), if_pos (by omega), if_neg (by simp), if_neg hbig, if_neg hsmall]
        congr 1
        have hl10 : (digits256 2 tag ++ digits256 4 size ++ digits256 4 0).length = 10 := by simp
        generalize digits256 2 tag ++ digits256 4 size ++ digits256 4 0 = H at hl10
        rw [List.take_append, List.drop_append]
        rw [List.take_of_length_le (by omega), List.drop_of_length_le (by omega), hl10]
        simp
  · simp [hrc]

/-! ### Runs -/

theorem run_eq {σ ε : Type} (tr : Transport σ ε) (c : Command) (a : Area) (s : σ)
    (h : CmdWF c a) (hfit : (commandBytes c a.active).length ≤ 4096) :
    runCommandWithHandles tr c a s =
      match tr.transact s (commandBytes c a.active) (List.replicate 4096 0) with
      | (.failed e, _, s) => ⟨.err (.conn e), s⟩
      | (.reported _, respBuffer, s) => ⟨(readResponse c a respBuffer).mapErr .tss, s⟩ := by
  obtain ⟨rest, hb⟩ := buildCommand_fit c a h hfit
  unfold runCommandWithHandles
  rw [hb]
  simp only [sliceTo, List.length_append, Nat.le_add_right, if_true, List.take_left']
  rfl

theorem run_short {σ ε : Type} (tr : Transport σ ε) (c : Command) (a : Area) (s : σ)
    (h : CmdWF c a) (hbig : 4096 < (commandBytes c a.active).length) :
    (runCommandWithHandles tr c a s = ⟨.err (.tss (merrToTss .unexpectedEndOfBuffer)), s⟩) ∨
    (canPanic c a = true ∧ runCommandWithHandles tr c a s = ⟨.panic, s⟩) := by
  have hs := buildCommand_short c a h hbig
  unfold runCommandWithHandles
  rcases hb : buildCommand c a with ⟨_ | _ | _, buf⟩ <;> rw [hb] at hs <;>
    simp [TShort] at hs ⊢
  · exact hs
  · exact hs

/-- Anything sent, or any success, comes from a well-formed command that fits. -/
theorem run_wf {σ ε : Type} (tr : Transport σ ε) (c : Command) (a : Area) (s : σ)
    (hcode : c.code < 2 ^ 32)
    (hh : HasTy c.handlesTy c.handles) (hp : HasTy c.paramTy c.param)
    (ha : ∀ s ∈ a.active, HasTy TpmsAuthCommand s.authCommand)
    (h : (runCommandWithHandles tr c a s).state ≠ s ∨
      (runCommandWithHandles tr c a s).result.isOk = true) :
    CmdWF c a ∧ (commandBytes c a.active).length ≤ 4096 := by
  have hw : CmdWF c a := by
    unfold runCommandWithHandles at h
    rcases hb : buildCommand c a with ⟨n | _ | _, buf⟩
    · exact buildCommand_ok_wf c a hcode hh hp ha hb
    · rw [hb] at h; simp [Res.isOk] at h
    · rw [hb] at h; simp [Res.isOk] at h
  refine ⟨hw, ?_⟩
  by_cases hfit : (commandBytes c a.active).length ≤ 4096
  · exact hfit
  · rcases run_short tr c a s hw (by omega) with e | ⟨_, e⟩ <;> rw [e] at h <;> simp [Res.isOk] at h

theorem responseBytes_eq (c : Command) (r : Response) (rest : Bytes) :
    responseBytes c r ++ rest = digits256 2 r.tag ++ digits256 4 (10 + (responseBody c r).length) ++
      digits256 4 0 ++ (responseBody c r ++ rest) := by
  simp [responseBytes]

theorem responseBytes_length (c : Command) (r : Response) :
    (responseBytes c r).length = 10 + (responseBody c r).length := by
  simp [responseBytes]; omega

/-- Success means: the buffer starts with a well-formed response whose
authorization responses are accepted. -/
theorem readResponse_ok_iff (c : Command) (a : Area) (buf : Bytes) (hl : buf.length = 4096)
    (p h : Val) :
    readResponse c a buf = .ok (p, h) ↔
      ∃ r rest, r.WellFormed c ∧ buf = responseBytes c r ++ rest ∧
        r.params = p ∧ r.handles = h ∧ canon c.respTy p = p ∧ canon c.respHandlesTy h = h ∧
        (∀ v ∈ r.auths, canon TpmsAuthResponse v = v) ∧ Accepted a.active r.auths := by
  constructor
  · intro hr
    obtain ⟨tag, size, rc, rest, h1, h2, h3, rfl⟩ := split_header buf (by omega)
    rw [readResponse_eq c a tag size rc rest h1 h2 h3] at hr
    have hlr : rest.length = 4086 := by simp at hl; omega
    split at hr
    · simp at hr
    · rename_i hrc
      split at hr
      · simp at hr
      · split at hr
        · simp at hr
        · rename_i hbig hsmall
          have hrc : rc = 0 := by omega
          subst hrc
          obtain ⟨ps, auths, g1, g2, g3, g4, g5, g6, g7, g8⟩ := (readBody_ok_iff _ _ _ _ _ _).1 hr
          have hlen : (responseBody c ⟨tag, h, ps, p, auths⟩).length = size - 10 := by
            rw [← g8, List.length_take]; omega
          refine ⟨⟨tag, h, ps, p, auths⟩, rest.drop (size - 10),
            ⟨h1, g1, g2, g4, fun v hv => (g6 v hv).1⟩, ?_, rfl, rfl, g5, g3,
            fun v hv => (g6 v hv).2, g7⟩
          rw [responseBytes_eq, hlen, ← g8, List.take_append_drop]
          have : 10 + (size - 10) = size := by omega
          rw [this]
  · rintro ⟨r, rest, ⟨w1, w2, w3, w4, w5⟩, rfl, rfl, rfl, c1, c2, c3, hacc⟩
    have hlen : 10 + (responseBody c r).length + rest.length = 4096 := by
      rw [← responseBytes_length, ← List.length_append]; exact hl
    rw [responseBytes_eq, readResponse_eq c a _ _ _ _ w1 (by omega) (by omega),
      if_neg (by simp), if_neg (by rw [List.length_append]; omega), if_neg (by omega)]
    have e : 10 + (responseBody c r).length - 10 = (responseBody c r).length := by omega
    rw [e, List.take_left']
    · exact (readBody_ok_iff _ _ _ _ _ _).2 ⟨r.paramSize, r.auths, w2, w3, c2, w4, c1,
        fun v hv => ⟨w5 v hv, c3 v hv⟩, hacc, rfl⟩
    · rfl

theorem readResponse_panic_iff (c : Command) (a : Area) (buf : Bytes) (hl : buf.length = 4096) :
    readResponse c a buf = .panic ↔
      positional ((buf.drop 6).take 4) = 0 ∧ positional ((buf.drop 2).take 4) < 10 := by
  obtain ⟨tag, size, rc, rest, h1, h2, h3, rfl⟩ := split_header buf (by omega)
  have e1 : ((digits256 2 tag ++ digits256 4 size ++ digits256 4 rc ++ rest).drop 6).take 4 =
      digits256 4 rc := by
    rw [List.append_assoc _ (digits256 4 rc), List.drop_left' (by simp), List.take_left' (by simp)]
  have e2 : ((digits256 2 tag ++ digits256 4 size ++ digits256 4 rc ++ rest).drop 2).take 4 =
      digits256 4 size := by
    rw [List.append_assoc, List.append_assoc, List.drop_left' (by simp), List.take_left' (by simp)]
  rw [e1, e2, positional_digits256_of_lt (by simpa using h3), positional_digits256_of_lt (by simpa using h2),
    readResponse_eq c a tag size rc rest h1 h2 h3]
  have hlr : rest.length = 4086 := by simp at hl; omega
  split
  · simp; omega
  · split
    · simp; omega
    · split
      · rename_i h; simp; omega
      · have := readBody_no_panic c a tag (rest.take (size - 10))
        simp only [this, false_iff]; omega

theorem readResponse_err (c : Command) (a : Area) (buf : Bytes) (hl : buf.length = 4096)
    (hrc : positional ((buf.drop 6).take 4) ≠ 0) :
    readResponse c a buf = .err ⟨positional ((buf.drop 6).take 4)⟩ := by
  obtain ⟨tag, size, rc, rest, h1, h2, h3, rfl⟩ := split_header buf (by omega)
  have e1 : ((digits256 2 tag ++ digits256 4 size ++ digits256 4 rc ++ rest).drop 6).take 4 =
      digits256 4 rc := by
    rw [List.append_assoc _ (digits256 4 rc), List.drop_left' (by simp), List.take_left' (by simp)]
  rw [e1, positional_digits256_of_lt (by simpa using h3)] at hrc ⊢
  rw [readResponse_eq c a tag size rc rest h1 h2 h3, if_pos hrc]

/-- Only the declared bytes matter. -/
theorem readResponse_congr (c : Command) (a : Area) (b1 b2 : Bytes) (n : Nat)
    (hl1 : b1.length = 4096) (hl2 : b2.length = 4096) (hn : 10 ≤ n) (heq : b1.take n = b2.take n)
    (hsize : positional ((b1.drop 2).take 4) ≤ n) :
    readResponse c a b1 = readResponse c a b2 := by
  by_cases hnbig : 4096 < n
  · rw [List.take_of_length_le (by omega), List.take_of_length_le (by omega)] at heq
    rw [heq]
  obtain ⟨tag, size, rc, rest, h1, h2, h3, rfl⟩ := split_header b1 (by omega)
  have e2 : ((digits256 2 tag ++ digits256 4 size ++ digits256 4 rc ++ rest).drop 2).take 4 =
      digits256 4 size := by
    rw [List.append_assoc, List.append_assoc, List.drop_left' (by simp), List.take_left' (by simp)]
  rw [e2, positional_digits256_of_lt (by simpa using h2)] at hsize
  have hH : (digits256 2 tag ++ digits256 4 size ++ digits256 4 rc).length = 10 := by simp
  have hb2 : b2 = digits256 2 tag ++ digits256 4 size ++ digits256 4 rc ++ b2.drop 10 := by
    have : b2.take 10 = digits256 2 tag ++ digits256 4 size ++ digits256 4 rc := by
      have h := congrArg (List.take 10) heq
      rw [List.take_take, List.take_take, Nat.min_eq_left hn] at h
      rw [← h, List.take_left' hH]
    rw [← this, List.take_append_drop]
  have hrest : rest.take (n - 10) = (b2.drop 10).take (n - 10) := by
    have h := congrArg (List.drop 10) heq
    rw [List.drop_take, List.drop_take, List.drop_left' hH] at h
    exact h
  have hl3 : rest.length = 4086 := by rw [List.length_append, hH] at hl1; omega
  have hl4 : (b2.drop 10).length = 4086 := by rw [List.length_drop]; omega
  rw [hb2, readResponse_eq c a tag size rc rest h1 h2 h3, readResponse_eq c a tag size rc _ h1 h2 h3,
    hl3, hl4]
  have : rest.take (size - 10) = (b2.drop 10).take (size - 10) := by
    have h := congrArg (List.take (size - 10)) hrest
    rwa [List.take_take, List.take_take, Nat.min_eq_left (by omega)] at h
  rw [this]

end Verif.Client
