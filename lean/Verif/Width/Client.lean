import Verif.Width.Codec
import Verif.Client.FitProps

/-
The client on a machine with a `usize` of a given width.
-/

namespace Verif.Client
open Verif Verif.Base Verif.Errors

/-- `written += f(&mut buffer[written..])?;` in `usize`:
crates/tpm2-client/src/lib.rs:90-98, 163-168. -/
def tstepOn (m : Machine) (f : Bytes → TOut) (written : Nat) (buf : Bytes) : TOut :=
  if written ≤ buf.length then
    match f (buf.drop written) with
    | (.ok n, sub) =>
      match m.add written n with
      | some w => (.ok w, buf.take written ++ sub)
      | none => (.panic, buf.take written ++ sub)
    | (.err e, sub) => (.err e, buf.take written ++ sub)
    | (.panic, sub) => (.panic, buf.take written ++ sub)
  else (.panic, buf)

/-- `auth_offset += s.get_auth_command().try_marshal(&mut buffer[auth_offset..])?`:
crates/tpm2-client/src/lib.rs:90-92. -/
def writeAuthOn (m : Machine) (s : Session) (authOffset : Nat) (buffer : Bytes) : TOut :=
  tstepOn m (fun b => toTss (marshalOn m TpmsAuthCommand s.authCommand b)) authOffset buffer

/-- `write_command_sessions`: crates/tpm2-client/src/lib.rs:73-106. -/
def writeCommandSessionsOn (m : Machine) (a : Area) (buffer : Bytes) : TOut :=
  if a.isEmpty then (.ok 0, buffer)
  else
    match a.s1 with
    | none => marshalAuthSize 4 buffer
    | some s1 =>
      tthen (writeAuthOn m s1 4 buffer) fun authOffset buffer =>
      match a.s2 with
      | none => marshalAuthSize authOffset buffer
      | some s2 =>
        tthen (writeAuthOn m s2 authOffset buffer) fun authOffset buffer =>
        match a.s3 with
        | none => marshalAuthSize authOffset buffer
        | some s3 =>
          tthen (writeAuthOn m s3 authOffset buffer) fun authOffset buffer =>
          marshalAuthSize authOffset buffer

/-- The first part of `run_command_with_handles`: crates/tpm2-client/src/lib.rs:155-173. -/
def buildCommandOn (m : Machine) (c : Command) (a : Area) : TOut :=
  let buf := List.replicate cmdBufferSize 0
  tthen (toTss (marshalOn m CmdHeader (cmdHeader a.isEmpty c.code 0) buf)) fun written buf =>
  tthen (tstepOn m (fun b => toTss (marshalOn m c.handlesTy c.handles b)) written buf)
    fun written buf =>
  tthen (tstepOn m (writeCommandSessionsOn m a) written buf) fun written buf =>
  tthen (tstepOn m (fun b => toTss (marshalOn m c.paramTy c.param b)) written buf)
    fun written buf =>
  tthen (toTss (marshalOn m CmdHeader (cmdHeader a.isEmpty c.code (written % 2 ^ 32)) buf))
    fun _ buf => (.ok written, buf)

/-- `T::try_unmarshal(buffer)?`: crates/tpm2-client/src/lib.rs:110, 130, 184-188. -/
def tumOn (m : Machine) (t : Ty) (b : Bytes) : Res TssError (Val × Bytes) :=
  match unmarshalOn m t b with
  | (.ok v, r) => .ok (v, r)
  | (.err e, _) => .err (merrToTss e)
  | (.panic, _) => .panic

/-- `read_response_header`: crates/tpm2-client/src/lib.rs:109-116. -/
def readResponseHeaderOn (m : Machine) (buffer : Bytes) : Res TssError (Nat × Nat × Nat) :=
  (tumOn m RespHeader buffer).bind fun (v, rest) =>
  match v with
  | .struct [.struct [.int tag], .int size, .int rc] =>
    match TssError.tryFrom rc with
    | some error => .err error
    | none => .ok (tag, size, buffer.length - rest.length)
  | _ => .panic

/-- One session of the response: crates/tpm2-client/src/lib.rs:130-131. -/
def readAuthOn (m : Machine) (s : Session) (b : Bytes) : Res TssError Bytes :=
  (tumOn m TpmsAuthResponse b).bind fun (auth, b) =>
  match s.validate auth with
  | none => .ok b
  | some e => .err e

/-- `read_response_sessions`: crates/tpm2-client/src/lib.rs:119-139. -/
def readResponseSessionsOn (m : Machine) (a : Area) (b : Bytes) : Res TssError Bytes :=
  match a.s1 with
  | none => .ok b
  | some s1 =>
    (readAuthOn m s1 b).bind fun b =>
    match a.s2 with
    | none => .ok b
    | some s2 =>
      (readAuthOn m s2 b).bind fun b =>
      match a.s3 with
      | none => .ok b
      | some s3 => (readAuthOn m s3 b).bind fun b => .ok b

/-- The body of the response: crates/tpm2-client/src/lib.rs:184-194. -/
def readBodyOn (m : Machine) (c : Command) (a : Area) (tag : Nat) (b : Bytes) :
    Res TssError (Val × Val) :=
  (tumOn m c.respHandlesTy b).bind fun (respHandles, b) =>
  (if tag = St.Sessions then (tumOn m u32 b).map (·.2) else .ok b).bind fun b =>
  (tumOn m c.respTy b).bind fun (resp, b) =>
  (readResponseSessionsOn m a b).bind fun b =>
  if b.isEmpty then .ok (resp, respHandles) else .err tcsTpmUnexpected

/-- The part of `run_command_with_handles` after the transaction, with
`resp_header.size as usize`: crates/tpm2-client/src/lib.rs:178-194. -/
def readResponseOn (m : Machine) (c : Command) (a : Area) (respBuffer : Bytes) :
    Res TssError (Val × Val) :=
  (readResponseHeaderOn m respBuffer).bind fun (tag, size, read) =>
  let respSize := m.cast size
  if respSize > respBuffer.length then .err tcsOutOfMemory
  else if read ≤ respSize ∧ respSize ≤ respBuffer.length then
    readBodyOn m c a tag ((respBuffer.take respSize).drop read)
  else .panic

/-- `run_command_with_handles`: crates/tpm2-client/src/lib.rs:142-195. -/
def runCommandWithHandlesOn {σ ε : Type} (m : Machine) (tr : Transport σ ε) (c : Command)
    (a : Area) (s : σ) : Run σ ε (Val × Val) :=
  match buildCommandOn m c a with
  | (.err e, _) => ⟨.err (.tss e), s⟩
  | (.panic, _) => ⟨.panic, s⟩
  | (.ok written, cmdBuffer) =>
    match sliceTo cmdBuffer written with
    | none => ⟨.panic, s⟩
    | some cmd =>
      match tr.transact s cmd (List.replicate respBufferSize 0) with
      | (.failed e, _, s) => ⟨.err (.conn e), s⟩
      | (.reported _, respBuffer, s) => ⟨(readResponseOn m c a respBuffer).mapErr .tss, s⟩

/-! ### Proof -/

variable {m : Machine}

/-- As `Agrees`, for results with the errors of the client. -/
def TAgrees (m : Machine) (fM f : Bytes → TOut) : Prop :=
  ∀ b : Bytes, b.length < 2 ^ m.bits →
    fM b = f b ∧ (f b).2.length = b.length ∧ ∀ n, (f b).1 = .ok n → n ≤ b.length

/-- As `AgreesAt`, for results with the errors of the client. -/
def TAgreesAt (m : Machine) (fM f : Nat → Bytes → TOut) : Prop :=
  ∀ (w : Nat) (b : Bytes), b.length < 2 ^ m.bits → w ≤ b.length →
    fM w b = f w b ∧ (f w b).2.length = b.length ∧ ∀ n, (f w b).1 = .ok n → n ≤ b.length

theorem tagrees_toTss {fM f : Bytes → MOut} (h : Agrees m fM f) :
    TAgrees m (fun b => toTss (fM b)) (fun b => toTss (f b)) := by
  intro b hb
  obtain ⟨h1, h2, h3⟩ := h b hb
  refine ⟨congrArg toTss h1, h2, fun n hn => h3 n ?_⟩
  simp only [toTss] at hn
  cases h4 : (f b).1 <;> rw [h4] at hn <;> simp_all [Res.mapErr]

theorem TAgrees.step {fM f : Bytes → TOut} (h : TAgrees m fM f) :
    TAgreesAt m (tstepOn m fM) (tstep f) := by
  intro w b hb hw
  obtain ⟨h1, h2, h3⟩ := h (b.drop w) (by simp; omega)
  unfold tstepOn tstep
  rw [if_pos hw, if_pos hw, h1]
  rcases hf : f (b.drop w) with ⟨n | e | _, sub⟩ <;> rw [hf] at h2 h3
  · have hn := h3 n rfl
    simp only [List.length_drop] at h2 hn
    have ha : m.add w n = some (w + n) := if_pos (by omega)
    simp only [ha, List.length_append, List.length_take, true_and]
    refine ⟨by omega, fun k hk => ?_⟩
    injection hk with hk
    omega
  · simp only [List.length_drop] at h2
    simp; omega
  · simp only [List.length_drop] at h2
    simp; omega

theorem TAgreesAt.then {fM f kM k : Nat → Bytes → TOut} (h : TAgreesAt m fM f)
    (hk : TAgreesAt m kM k) :
    TAgreesAt m (fun w b => tthen (fM w b) kM) (fun w b => tthen (f w b) k) := by
  intro w b hb hw
  obtain ⟨h1, h2, h3⟩ := h w b hb hw
  simp only [h1]
  rcases hf : f w b with ⟨n | e | _, sub⟩ <;> rw [hf] at h2 h3
  · simp only [tthen]
    have h2 : sub.length = b.length := h2
    have hn := h3 n rfl
    have := hk n sub (by omega) (by omega)
    rw [h2] at this
    exact this
  · exact ⟨rfl, h2, fun n hn => by simp [tthen] at hn⟩
  · exact ⟨rfl, h2, fun n hn => by simp [tthen] at hn⟩

theorem TAgrees.then {fM f : Bytes → TOut} {kM k : Nat → Bytes → TOut} (h : TAgrees m fM f)
    (hk : TAgreesAt m kM k) :
    TAgrees m (fun b => tthen (fM b) kM) (fun b => tthen (f b) k) := by
  intro b hb
  exact TAgreesAt.then (fM := fun _ b => fM b) (f := fun _ b => f b) (fun _ b hb _ => h b hb) hk 0 b
    hb (by omega)

theorem tagrees_authSize : TAgreesAt m marshalAuthSize marshalAuthSize := by
  intro w b hb hw
  have h := tagrees_toTss (agrees_bytes (m := m) (toBE 4 ((w - 4) % 2 ^ 32))) b hb
  unfold marshalAuthSize marshalPrim
  simp only [true_and]
  rcases hf : toTss (marshalBytes (toBE 4 ((w - 4) % 2 ^ 32)) b) with ⟨n | e | _, sub⟩ <;>
    simp only [hf] at h <;> refine ⟨h.2.1, fun k hk => ?_⟩ <;> simp [tthen] at hk
  omega

theorem auth_countsIn : TpmsAuthCommand.countsIn 4 = true := by decide

theorem tagrees_writeAuth (hb : 32 ≤ m.bits) (s : Session)
    (hs : HasTy TpmsAuthCommand s.authCommand) :
    TAgreesAt m (writeAuthOn m s) (writeAuth s) :=
  (tagrees_toTss (marshalOn_agrees (c := 4) (by omega) (by omega) _ _ auth_countsIn hs)).step

theorem writeAuth_short (s : Session) (b : Bytes) (h : b.length < 4) :
    writeAuth s 4 b = (.panic, b) := by
  unfold writeAuth tstep
  rw [if_neg (by omega)]

theorem writeAuthOn_short (s : Session) (b : Bytes) (h : b.length < 4) :
    writeAuthOn m s 4 b = (.panic, b) := by
  unfold writeAuthOn tstepOn
  rw [if_neg (by omega)]

theorem tagrees_sessions (hb : 32 ≤ m.bits) (a : Area)
    (ha : ∀ s ∈ a.active, HasTy TpmsAuthCommand s.authCommand) :
    TAgrees m (writeCommandSessionsOn m a) (writeCommandSessions a) := by
  intro b hbl
  unfold writeCommandSessionsOn writeCommandSessions
  by_cases he : a.isEmpty = true
  · rw [if_pos he, if_pos he]
    refine ⟨rfl, rfl, fun n hn => ?_⟩
    injection hn with hn
    omega
  · rw [if_neg he, if_neg he]
    rcases h1 : a.s1 with _ | s1
    · simp [Area.isEmpty, h1] at he
    · by_cases hl : b.length < 4
      · simp only [writeAuth_short _ _ hl, writeAuthOn_short _ _ hl, tthen]
        simp
      · simp only
        have hs1 := tagrees_writeAuth hb s1 (ha s1 (by
          simp only [Area.active, h1]; cases a.s2 <;> cases a.s3 <;> simp))
        rcases h2 : a.s2 with _ | s2
        · exact (hs1.then tagrees_authSize) 4 b hbl (by omega)
        · have hs2 := tagrees_writeAuth hb s2 (ha s2 (by
            simp only [Area.active, h1, h2]; cases a.s3 <;> simp))
          rcases h3 : a.s3 with _ | s3
          · exact (hs1.then (hs2.then tagrees_authSize)) 4 b hbl (by omega)
          · have hs3 := tagrees_writeAuth hb s3 (ha s3 (by
              simp only [Area.active, h1, h2, h3]; simp))
            exact (hs1.then (hs2.then (hs3.then tagrees_authSize))) 4 b hbl (by omega)

theorem header_countsIn : CmdHeader.countsIn 4 = true := by decide

theorem cmdHeader_typed (e : Bool) {code size : Nat} (hc : code < 2 ^ 32) (hs : size < 2 ^ 32) :
    HasTy CmdHeader (cmdHeader e code size) := by
  simp only [CmdHeader, TpmiStCommandTag, TpmCc, S, plains, cmdHeader, HasTy, HasTyFields, and_true]
  refine ⟨?_, by simpa using hs, by simpa using hc⟩
  cases e <;> simp [St.NoSessions, St.Sessions]

/-- All lengths of arrays in the command and its response are given by at most four bytes. -/
structure Command.CountsIn (c : Command) : Prop where
  handles : c.handlesTy.countsIn 4 = true
  param : c.paramTy.countsIn 4 = true
  resp : c.respTy.countsIn 4 = true
  respHandles : c.respHandlesTy.countsIn 4 = true

theorem buildCommandOn_eq (hb : 32 ≤ m.bits) (c : Command) (a : Area) (h : CmdTyped c a)
    (hc : c.CountsIn) : buildCommandOn m c a = buildCommand c a := by
  have hh := fun n hn => tagrees_toTss (marshalOn_agrees (m := m) (c := 4) (by omega) (by omega) _ _
    header_countsIn (cmdHeader_typed a.isEmpty (size := n) h.code hn))
  have h1 := (tagrees_toTss (marshalOn_agrees (m := m) (c := 4) (by omega) (by omega) _ _ hc.handles
    h.handles)).step
  have h2 := (tagrees_sessions hb a h.auths).step
  have h3 := (tagrees_toTss (marshalOn_agrees (m := m) (c := 4) (by omega) (by omega) _ _ hc.param
    h.param)).step
  have h4 : TAgreesAt m
      (fun w b => tthen (toTss (marshalOn m CmdHeader (cmdHeader a.isEmpty c.code (w % 2 ^ 32)) b))
        fun _ buf => (.ok w, buf))
      (fun w b => tthen (toTss (marshal CmdHeader (cmdHeader a.isEmpty c.code (w % 2 ^ 32)) b))
        fun _ buf => (.ok w, buf)) := by
    intro w b hbl hw
    have := hh (w % 2 ^ 32) (Nat.mod_lt _ (by decide)) b hbl
    simp only [this.1, true_and]
    rcases hf : toTss (marshal CmdHeader (cmdHeader a.isEmpty c.code (w % 2 ^ 32)) b) with
      ⟨n | e | _, sub⟩ <;>
      simp only [hf] at this <;> refine ⟨this.2.1, fun k hk => ?_⟩ <;> simp [tthen] at hk
    omega
  have hl : (List.replicate cmdBufferSize (0 : UInt8)).length < 2 ^ m.bits := by
    rw [List.length_replicate]
    exact Nat.lt_of_lt_of_le (by decide) (Nat.pow_le_pow_right (n := 2) (by decide) hb)
  exact (((hh 0 (by decide)).then (h1.then (h2.then (h3.then h4)))) _ hl).1

theorem tumOn_eq (hb : 32 ≤ m.bits) (t : Ty) (ht : t.countsIn 4 = true) : tumOn m t = tum t := by
  funext b
  unfold tumOn tum
  rw [unmarshalOn_eq (c := 4) (by omega) (by omega) t ht]
  rfl

theorem readResponseHeader_lt {b : Bytes} {tag size read : Nat}
    (h : readResponseHeader b = .ok (tag, size, read)) : size < 2 ^ 32 := by
  unfold readResponseHeader tum at h
  rcases hu : unmarshal RespHeader b with ⟨v | e | _, r⟩ <;> rw [hu] at h <;> simp only [Res.bind] at h
  · have hw := ((goodTy RespHeader).sound _ _ _ hu).1
    split at h
    · split at h
      · simp at h
      · injection h with h
        simp only [Prod.mk.injEq] at h
        simp [RespHeader, TpmSt, u32, S, plains, WF, WFFields] at hw
        omega
    · simp at h
  · simp at h
  · simp at h

theorem readResponseOn_eq (hb : 32 ≤ m.bits) (c : Command) (a : Area) (hc : c.CountsIn) (b : Bytes) :
    readResponseOn m c a b = readResponse c a b := by
  have e1 := tumOn_eq hb RespHeader (by decide)
  have e2 := tumOn_eq hb TpmsAuthResponse (by decide)
  have e3 := tumOn_eq hb u32 (by decide)
  have e4 := tumOn_eq hb _ hc.resp
  have e5 := tumOn_eq hb _ hc.respHandles
  have hh : readResponseHeaderOn m b = readResponseHeader b := by
    unfold readResponseHeaderOn readResponseHeader
    rw [e1]
    rfl
  have hs : readResponseSessionsOn m a = readResponseSessions a := by
    funext b
    unfold readResponseSessionsOn readResponseSessions readAuthOn readAuth
    rw [e2]
    rfl
  have hbd : readBodyOn m c a = readBody c a := by
    funext t b
    unfold readBodyOn readBody
    rw [e3, e4, e5, hs]
  unfold readResponseOn readResponse
  rw [hh, hbd]
  rcases hr : readResponseHeader b with ⟨tag, size, read⟩ | e | _
  · simp only [Res.bind]
    rw [cast_of_lt (c := 4) (n := 4) (readResponseHeader_lt hr) (by decide) (by omega)]
  · rfl
  · rfl

theorem runCommandWithHandlesOn_eq {σ ε : Type} (hb : 32 ≤ m.bits) (tr : Transport σ ε) (c : Command)
    (a : Area) (h : CmdTyped c a) (hc : c.CountsIn) (s : σ) :
    runCommandWithHandlesOn m tr c a s = runCommandWithHandles tr c a s := by
  unfold runCommandWithHandlesOn runCommandWithHandles
  rw [buildCommandOn_eq hb c a h hc]
  rcases buildCommand c a with ⟨n | e | _, cmdBuffer⟩
  · simp only
    rcases sliceTo cmdBuffer n with _ | cmd
    · rfl
    · simp only
      rcases tr.transact s cmd (List.replicate respBufferSize 0) with ⟨_ | e, rsp, s'⟩
      · simp only [readResponseOn_eq hb c a hc]
      · rfl
  · rfl
  · rfl

end Verif.Client
