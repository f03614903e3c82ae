import Verif.Width.Client
import Verif.Client.LawfulProps

/-
The client with types, areas, sessions and connections of the caller's own, on a machine with a
`usize` of a given width: model and helper lemmas for C114.
-/

namespace Verif.Client
open Verif Verif.Base Verif.Errors Verif.Own

variable {ω ε P H : Type}

/-- `written += f(&mut buffer[written..])?;` in `usize`:
crates/tpm2-client/src/lib.rs:163-168. -/
def lstepOn (m : Machine) (f : Bytes → ω → LOut ω) (written : Nat) (buf : Bytes) (w : ω) : LOut ω :=
  if written ≤ buf.length then
    match f (buf.drop written) w with
    | ((.ok n, sub), w) =>
      match m.add written n with
      | some k => ((.ok k, buf.take written ++ sub), w)
      | none => ((.panic, buf.take written ++ sub), w)
    | ((.err e, sub), w) => ((.err e, buf.take written ++ sub), w)
    | ((.panic, sub), w) => ((.panic, buf.take written ++ sub), w)
  else ((.panic, buf), w)

/-- `auth_offset += s.get_auth_command().try_marshal(&mut buffer[auth_offset..])?`:
crates/tpm2-client/src/lib.rs:90-92. -/
def writeAuthLOn (m : Machine) (s : LiveSession ω) (authOffset : Nat) (buffer : Bytes) (w : ω) : LOut ω :=
  match s.authCommand w with
  | (none, w) => ((.panic, buffer), w)
  | (some v, w) => (tstepOn m (fun b => toTss (marshalOn m TpmsAuthCommand v b)) authOffset buffer, w)

/-- `write_command_sessions`: crates/tpm2-client/src/lib.rs:73-106. -/
def writeCommandSessionsFOn (m : Machine) (a : FreeArea ω) (buffer : Bytes) (w : ω) : LOut ω :=
  match a.isEmpty w with
  | (none, w) => ((.panic, buffer), w)
  | (some true, w) => ((.ok 0, buffer), w)
  | (some false, w) =>
    match a.decompose w with
    | (none, w) => ((.panic, buffer), w)
    | (some d, w) =>
      match d.s1 with
      | none => (marshalAuthSize 4 buffer, w)
      | some s1 =>
        lthen (writeAuthLOn m s1 4 buffer w) fun authOffset buffer w =>
        match d.s2 with
        | none => (marshalAuthSize authOffset buffer, w)
        | some s2 =>
          lthen (writeAuthLOn m s2 authOffset buffer w) fun authOffset buffer w =>
          match d.s3 with
          | none => (marshalAuthSize authOffset buffer, w)
          | some s3 =>
            lthen (writeAuthLOn m s3 authOffset buffer w) fun authOffset buffer w =>
            (marshalAuthSize authOffset buffer, w)

/-- The first part of `run_command_with_handles`: crates/tpm2-client/src/lib.rs:155-173. -/
def buildOwnOn (m : Machine) (c : OwnCommand ω P H) (a : FreeArea ω) (w : ω) : LOut ω :=
  let buf := List.replicate cmdBufferSize 0
  match a.isEmpty w with
  | (none, w) => ((.panic, buf), w)
  | (some empty, w) =>
    lthen (toTss (marshalOn m CmdHeader (cmdHeader empty c.code 0) buf), w) fun written buf w =>
    lthen (lstepOn m (ownTss c.handles) written buf w) fun written buf w =>
    lthen (lstepOn m (writeCommandSessionsFOn m a) written buf w) fun written buf w =>
    lthen (lstepOn m (ownTss c.param) written buf w) fun written buf w =>
    lthen (toTss (marshalOn m CmdHeader (cmdHeader empty c.code (written % 2 ^ 32)) buf), w)
      fun _ buf w => ((.ok written, buf), w)

/-- One session of the response: crates/tpm2-client/src/lib.rs:130-131. -/
def readAuthLOn (m : Machine) (s : LiveSession ω) (b : Bytes) (w : ω) : Res TssError Bytes × ω :=
  lbind (tumOn m TpmsAuthResponse b, w) fun x w =>
  lbind (s.validate x.1 w) fun _ w => (.ok x.2, w)

/-- `read_response_sessions`: crates/tpm2-client/src/lib.rs:119-139. -/
def readResponseSessionsFOn (m : Machine) (a : FreeArea ω) (b : Bytes) (w : ω) :
    Res TssError Bytes × ω :=
  match a.decompose w with
  | (none, w) => (.panic, w)
  | (some d, w) =>
    match d.s1 with
    | none => (.ok b, w)
    | some s1 =>
      lbind (readAuthLOn m s1 b w) fun b w =>
      match d.s2 with
      | none => (.ok b, w)
      | some s2 =>
        lbind (readAuthLOn m s2 b w) fun b w =>
        match d.s3 with
        | none => (.ok b, w)
        | some s3 => lbind (readAuthLOn m s3 b w) fun b w => (.ok b, w)

/-- The body of the response: crates/tpm2-client/src/lib.rs:184-194. -/
def readBodyOwnOn (m : Machine) (c : OwnCommand ω P H) (a : FreeArea ω) (tag : Nat) (b : Bytes)
    (w : ω) : Res TssError (P × H) × ω :=
  lbind (ownUm c.respHandles b w) fun h w =>
  lbind (if tag = St.Sessions then (tumOn m u32 h.2).map (·.2) else .ok h.2, w) fun b w =>
  lbind (ownUm c.resp b w) fun p w =>
  lbind (readResponseSessionsFOn m a p.2 w) fun b w =>
  (if b.isEmpty then .ok (p.1, h.1) else .err tcsTpmUnexpected, w)

/-- The part of `run_command_with_handles` after the transaction, with
`resp_header.size as usize`: crates/tpm2-client/src/lib.rs:178-194. -/
def readResponseOwnOn (m : Machine) (c : OwnCommand ω P H) (a : FreeArea ω) (respBuffer : Bytes)
    (w : ω) : Res TssError (P × H) × ω :=
  lbind (readResponseHeaderOn m respBuffer, w) fun x w =>
  let respSize := m.cast x.2.1
  if respSize > respBuffer.length then (.err tcsOutOfMemory, w)
  else if x.2.2 ≤ respSize ∧ respSize ≤ respBuffer.length then
    readBodyOwnOn m c a x.1 ((respBuffer.take respSize).drop x.2.2) w
  else (.panic, w)

/-- `run_command_with_handles`: crates/tpm2-client/src/lib.rs:142-195. -/
def runOwnOn (m : Machine) (tr : LiveTransport ω ε) (c : OwnCommand ω P H) (a : FreeArea ω)
    (w : ω) : Run ω ε (P × H) :=
  match buildOwnOn m c a w with
  | ((.err e, _), w) => ⟨.err (.tss e), w⟩
  | ((.panic, _), w) => ⟨.panic, w⟩
  | ((.ok written, cmdBuffer), w) =>
    match sliceTo cmdBuffer written with
    | none => ⟨.panic, w⟩
    | some cmd =>
      match tr.transact w cmd (List.replicate respBufferSize 0) with
      | (none, _, w) => ⟨.panic, w⟩
      | (some (.failed e), _, w) => ⟨.err (.conn e), w⟩
      | (some (.reported _), respBuffer, w) =>
        let r := readResponseOwnOn m c a respBuffer w
        ⟨r.1.mapErr .tss, r.2⟩

/-! ### Specification -/

/-- What the implementation reports to have written does not come so close to the largest `usize` that
4096 more would exceed it. -/
def Modest (m : Machine) (f : Bytes → ω → MOut × ω) : Prop :=
  ∀ b w n, b.length ≤ 4096 → (f b w).1.1 = .ok n → n + 4096 < 2 ^ m.bits

/-- It begins with a header that declares its length and the code. -/
def DeclaresItself (code : Nat) (cmd : Bytes) : Prop :=
  ∃ tag body, (tag = 0x8001 ∨ tag = 0x8002) ∧
    cmd = digits256 2 tag ++ digits256 4 cmd.length ++ digits256 4 code ++ body

/-! ### Lemmas -/

variable {m : Machine}

/-- As `TAgrees`, with the state of the program. -/
def LAgrees (m : Machine) (fM f : Bytes → ω → LOut ω) : Prop :=
  ∀ (b : Bytes) (w : ω), b.length < 2 ^ m.bits →
    fM b w = f b w ∧ (f b w).1.2.length = b.length ∧ ∀ n, (f b w).1.1 = .ok n → n ≤ b.length

/-- As `TAgreesAt`, with the state of the program. -/
def LAgreesAt (m : Machine) (fM f : Nat → Bytes → ω → LOut ω) : Prop :=
  ∀ (k : Nat) (b : Bytes) (w : ω), b.length < 2 ^ m.bits → k ≤ b.length →
    fM k b w = f k b w ∧ (f k b w).1.2.length = b.length ∧ ∀ n, (f k b w).1.1 = .ok n → n ≤ b.length

theorem LAgreesAt.then {fM f kM k : Nat → Bytes → ω → LOut ω} (h : LAgreesAt m fM f)
    (hk : LAgreesAt m kM k) :
    LAgreesAt m (fun n b w => lthen (fM n b w) kM) (fun n b w => lthen (f n b w) k) := by
  intro n b w hb hn
  obtain ⟨h1, h2, h3⟩ := h n b w hb hn
  simp only [h1]
  rcases hf : f n b w with ⟨⟨n' | e | _, sub⟩, w'⟩ <;> rw [hf] at h2 h3
  · simp only [lthen]
    have h2 : sub.length = b.length := h2
    have hn := h3 n' rfl
    have := hk n' sub w' (by omega) (by omega)
    rw [h2] at this
    exact this
  · exact ⟨rfl, h2, fun n hn => by simp [lthen] at hn⟩
  · exact ⟨rfl, h2, fun n hn => by simp [lthen] at hn⟩

theorem lagrees_authSize :
    LAgreesAt m (fun n b (w : ω) => (marshalAuthSize n b, w)) (fun n b w => (marshalAuthSize n b, w)) := by
  intro n b w hb hn
  exact ⟨rfl, (tagrees_authSize (m := m) n b hb hn).2⟩

theorem lagrees_writeAuth (hb : 32 ≤ m.bits) (s : LiveSession ω)
    (hs : ∀ w v w', s.authCommand w = (some v, w') → HasTy TpmsAuthCommand v) :
    LAgreesAt m (writeAuthLOn m s) (writeAuthL s) := by
  intro n b w hbl hn
  unfold writeAuthLOn writeAuthL
  rcases ha : s.authCommand w with ⟨_ | v, w1⟩
  · exact ⟨rfl, rfl, fun _ h => by simp at h⟩
  · have := (tagrees_toTss (marshalOn_agrees (m := m) (c := 4) (by omega) (by omega) _ _ auth_countsIn
      (hs w v w1 ha))).step n b hbl hn
    exact ⟨congrArg (·, w1) this.1, this.2⟩

theorem writeAuthL_short (s : LiveSession ω) (b : Bytes) (w : ω) (h : b.length < 4) :
    ∃ w', writeAuthL s 4 b w = ((.panic, b), w') ∧ writeAuthLOn m s 4 b w = ((.panic, b), w') := by
  unfold writeAuthL writeAuthLOn
  rcases s.authCommand w with ⟨_ | v, w1⟩
  · exact ⟨w1, rfl, rfl⟩
  · refine ⟨w1, ?_, ?_⟩
    · simp only [tstep, if_neg (show ¬ 4 ≤ b.length by omega)]
    · simp only [tstepOn, if_neg (show ¬ 4 ≤ b.length by omega)]

theorem marshalAuthSize_short (b : Bytes) (h : b.length < 4) :
    (marshalAuthSize 4 b).2.length = b.length ∧ ∀ n, (marshalAuthSize 4 b).1 ≠ .ok n := by
  unfold marshalAuthSize
  simp only [marshalPrim, marshalBytes]
  rw [if_neg (by simp [toBE]; omega)]
  simp [toTss, tthen, Res.mapErr]

theorem lagrees_sessions (hb : 32 ≤ m.bits) (a : FreeArea ω) (ha : a.Typed) :
    LAgrees m (writeCommandSessionsFOn m a) (writeCommandSessionsF a) := by
  intro b w hbl
  unfold writeCommandSessionsFOn writeCommandSessionsF
  rcases he : a.isEmpty w with ⟨_ | _ | _, w1⟩
  · exact ⟨rfl, rfl, fun _ h => by simp at h⟩
  · dsimp only
    rcases hd : a.decompose w1 with ⟨_ | d, w2⟩
    · exact ⟨rfl, rfl, fun _ h => by simp at h⟩
    · have hty := ha w1 d w2 hd
      dsimp only
      rcases h1 : d.s1 with _ | s1
      · dsimp only
        by_cases hl : b.length < 4
        · have := marshalAuthSize_short b hl
          exact ⟨rfl, this.1, fun n hn => absurd hn (this.2 n)⟩
        · exact lagrees_authSize 4 b w2 hbl (by omega)
      · by_cases hl : b.length < 4
        · obtain ⟨w3, e1, e2⟩ := writeAuthL_short (m := m) s1 b w2 hl
          simp only [e1, e2, lthen]
          simp
        · simp only
          have hs1 := lagrees_writeAuth hb s1 (hty s1 (by
            simp only [LiveArea.active, h1]; cases d.s2 <;> cases d.s3 <;> simp))
          rcases h2 : d.s2 with _ | s2
          · exact (hs1.then lagrees_authSize) 4 b w2 hbl (by omega)
          · have hs2 := lagrees_writeAuth hb s2 (hty s2 (by
              simp only [LiveArea.active, h1, h2]; cases d.s3 <;> simp))
            rcases h3 : d.s3 with _ | s3
            · exact (hs1.then (hs2.then lagrees_authSize)) 4 b w2 hbl (by omega)
            · have hs3 := lagrees_writeAuth hb s3 (hty s3 (by
                simp only [LiveArea.active, h1, h2, h3]; simp))
              exact (hs1.then (hs2.then (hs3.then lagrees_authSize))) 4 b w2 hbl (by omega)
  · exact ⟨rfl, rfl, fun _ h => by simp at h; omega⟩

/-- What comes of a filled buffer: the command that is handed over, an error or a panic. -/
def handOver (o : LOut ω) : Res TssError Bytes × ω :=
  match o with
  | ((.ok n, b), w) => (match sliceTo b n with | some cmd => .ok cmd | none => .panic, w)
  | ((.err e, _), w) => (.err e, w)
  | ((.panic, _), w) => (.panic, w)

/-- What is done with it: handed over, and the response read. -/
def afterwards (tr : LiveTransport ω ε) (rd : Bytes → ω → Res TssError (P × H) × ω) :
    Res TssError Bytes × ω → Run ω ε (P × H)
  | (.err e, w) => ⟨.err (.tss e), w⟩
  | (.panic, w) => ⟨.panic, w⟩
  | (.ok cmd, w) =>
    match tr.transact w cmd (List.replicate respBufferSize 0) with
    | (none, _, w) => ⟨.panic, w⟩
    | (some (.failed e), _, w) => ⟨.err (.conn e), w⟩
    | (some (.reported _), respBuffer, w) => ⟨(rd respBuffer w).1.mapErr .tss, (rd respBuffer w).2⟩

theorem runOwn_afterwards (tr : LiveTransport ω ε) (c : OwnCommand ω P H) (a : FreeArea ω) (w : ω) :
    runOwn tr c a w = afterwards tr (readResponseOwn c a) (handOver (buildOwn c a w)) := by
  unfold runOwn
  generalize buildOwn c a w = o
  rcases o with ⟨⟨n | e | _, b⟩, w1⟩
  · unfold handOver
    dsimp only
    rcases sliceTo b n with _ | cmd <;> rfl
  · rfl
  · rfl

theorem runOwnOn_afterwards (tr : LiveTransport ω ε) (c : OwnCommand ω P H) (a : FreeArea ω) (w : ω) :
    runOwnOn m tr c a w = afterwards tr (readResponseOwnOn m c a) (handOver (buildOwnOn m c a w)) := by
  unfold runOwnOn
  generalize buildOwnOn m c a w = o
  rcases o with ⟨⟨n | e | _, b⟩, w1⟩
  · unfold handOver
    dsimp only
    rcases sliceTo b n with _ | cmd <;> rfl
  · rfl
  · rfl

/-- A step whose report may be wrong, before steps that panic beyond the buffer. -/
theorem own_step (hb : 32 ≤ m.bits) {fM f : Bytes → ω → LOut ω} {kM k : Nat → Bytes → ω → LOut ω}
    (hf : ∀ b w, b.length ≤ 4096 → fM b w = f b w)
    (hlen : ∀ b w, b.length ≤ 4096 → (f b w).1.2.length = b.length)
    (hrep : m.checked = true ∨ ∀ b w n, b.length ≤ 4096 → (f b w).1.1 = .ok n → n + 4096 < 2 ^ m.bits)
    (hk : ∀ n b w, n ≤ 4096 → b.length = 4096 → handOver (kM n b w) = handOver (k n b w))
    (hcM : ∀ n b w, 4096 < n → b.length = 4096 → handOver (kM n b w) = (.panic, w))
    (hc : ∀ n b w, 4096 < n → b.length = 4096 → handOver (k n b w) = (.panic, w))
    (n : Nat) (b : Bytes) (w : ω) (hn : n ≤ 4096) (hbl : b.length = 4096) :
    handOver (lthen (lstepOn m fM n b w) kM) = handOver (lthen (lstep f n b w) k) := by
  have hp : 2 ^ 32 ≤ 2 ^ m.bits := Nat.pow_le_pow_right (n := 2) (by decide) hb
  unfold lstepOn lstep
  rw [if_pos (by omega), if_pos (by omega), hf _ _ (by simp; omega)]
  have hl := hlen (b.drop n) w (by simp; omega)
  rcases hr : f (b.drop n) w with ⟨⟨q | e | _, sub⟩, w1⟩ <;> rw [hr] at hl
  · dsimp only at hl ⊢
    have hl' : (b.take n ++ sub).length = 4096 := by simp [hl]; omega
    unfold Machine.add
    by_cases hlt : n + q < 2 ^ m.bits
    · rw [if_pos hlt]
      simp only [lthen]
      by_cases hle : n + q ≤ 4096
      · exact hk _ _ _ hle hl'
      · rw [hcM _ _ _ (by omega) hl', hc _ _ _ (by omega) hl']
    · rw [if_neg hlt]
      rcases hrep with hch | hrep
      · rw [if_pos hch]
        simp only [lthen]
        rw [hc _ _ _ (by omega) hl']
        rfl
      · have := hrep (b.drop n) w q (by simp; omega) (by rw [hr])
        omega
  · rfl
  · rfl

theorem beyond_lstep (f : Bytes → ω → LOut ω) (k : Nat → Bytes → ω → LOut ω) (n : Nat) (b : Bytes)
    (w : ω) (h : 4096 < n) (hb : b.length = 4096) : handOver (lthen (lstep f n b w) k) = (.panic, w) := by
  unfold lstep
  rw [if_neg (by omega)]
  rfl

theorem beyond_lstepOn (f : Bytes → ω → LOut ω) (k : Nat → Bytes → ω → LOut ω) (n : Nat) (b : Bytes)
    (w : ω) (h : 4096 < n) (hb : b.length = 4096) :
    handOver (lthen (lstepOn m f n b w) k) = (.panic, w) := by
  unfold lstepOn
  rw [if_neg (by omega)]
  rfl

theorem ownTss_length (f : Bytes → ω → MOut × ω) (h : ∀ b w, (f b w).1.2.length = b.length) (b : Bytes)
    (w : ω) : (ownTss f b w).1.2.length = b.length := by
  rw [← h b w]
  unfold ownTss toTss
  rfl

theorem ownTss_report (f : Bytes → ω → MOut × ω) (b : Bytes) (w : ω) (n : Nat)
    (h : (ownTss f b w).1.1 = .ok n) : (f b w).1.1 = .ok n := by
  unfold ownTss toTss at h
  rcases hf : f b w with ⟨⟨_ | _ | _, _⟩, _⟩ <;> rw [hf] at h <;> simp_all [Res.mapErr]

theorem build_handOver (hb : 32 ≤ m.bits) (c : OwnCommand ω P H) (a : FreeArea ω) (ha : a.Typed)
    (hcode : c.code < 2 ^ 32) (hm : m.checked = true ∨ (Modest m c.handles ∧ Modest m c.param)) (w : ω) :
    handOver (buildOwnOn m c a w) = handOver (buildOwn c a w) := by
  have hp : 2 ^ 32 ≤ 2 ^ m.bits := Nat.pow_le_pow_right (n := 2) (by decide) hb
  unfold buildOwnOn buildOwn
  rcases he : a.isEmpty w with ⟨_ | empty, w1⟩
  · rfl
  · dsimp only
    have hh : ∀ n (b : Bytes), n < 2 ^ 32 → b.length = 4096 →
        toTss (marshalOn m CmdHeader (cmdHeader empty c.code n) b) =
          toTss (marshal CmdHeader (cmdHeader empty c.code n) b) := fun n b hn hbl =>
      (tagrees_toTss (marshalOn_agrees (m := m) (c := 4) (by omega) (by omega) _ _ header_countsIn
        (cmdHeader_typed empty hcode hn)) b (by omega)).1
    have hrl : (List.replicate cmdBufferSize (0 : UInt8)).length = 4096 := by
      rw [List.length_replicate]; rfl
    rw [hh 0 _ (by decide) hrl, header_fit empty c.code 0 hcode (by decide) _ (by omega), lthen_of_ok,
      lthen_of_ok]
    have hlast : ∀ n (b : Bytes) (w : ω), b.length = 4096 →
        lthen (toTss (marshalOn m CmdHeader (cmdHeader empty c.code (n % 2 ^ 32)) b), w)
          (fun _ buf w => ((.ok n, buf), w)) =
        lthen (toTss (marshal CmdHeader (cmdHeader empty c.code (n % 2 ^ 32)) b), w)
          (fun _ buf w => ((.ok n, buf), w)) := by
      intro n b w hbl
      rw [hh _ _ (Nat.mod_lt _ (by decide)) hbl]
    have hover : ∀ n (b : Bytes) (w : ω), 4096 < n → b.length = 4096 →
        handOver (lthen (toTss (marshal CmdHeader (cmdHeader empty c.code (n % 2 ^ 32)) b), w)
          (fun _ buf w => ((.ok n, buf), w))) = (.panic, w) := by
      intro n b w hn hbl
      rw [header_fit empty c.code _ hcode (Nat.mod_lt _ (by decide)) _ (by omega), lthen_of_ok]
      generalize hx : digits256 2 (if empty then 0x8001 else 0x8002) ++ digits256 4 (n % 2 ^ 32) ++
        digits256 4 c.code ++ b.drop 10 = x
      have hxl : ¬ n ≤ x.length := by
        rw [← hx]
        simp only [List.length_append, digits256_length, List.length_drop]
        omega
      simp only [handOver, sliceTo, if_neg hxl]
    refine own_step hb (fun _ _ _ => rfl)
      (fun b w _ => ownTss_length _ (fun b w => c.handles_length b w) b w)
      (hm.imp id fun h b w n hbl hr => h.1 b w n hbl (ownTss_report _ _ _ _ hr)) ?_
      (fun n b w => beyond_lstepOn _ _ n b w) (fun n b w => beyond_lstep _ _ n b w) _ _ _ (by decide)
      (by simp only [List.length_append, digits256_length, List.length_drop, hrl])
    intro n b w hn hbl
    have hs := lagrees_sessions hb a ha
    refine own_step hb (fun b w hl => (hs b w (by omega)).1) (fun b w hl => (hs b w (by omega)).2.1)
      (.inr fun b w n hl hr => by have := (hs b w (by omega)).2.2 n hr; omega) ?_
      (fun n b w => beyond_lstepOn _ _ n b w) (fun n b w => beyond_lstep _ _ n b w) _ _ _ hn hbl
    intro n b w hn hbl
    refine own_step hb (fun _ _ _ => rfl)
      (fun b w _ => ownTss_length _ (fun b w => c.param_length b w) b w)
      (hm.imp id fun h b w n hbl hr => h.2 b w n hbl (ownTss_report _ _ _ _ hr)) ?_ ?_ ?_ _ _ _ hn hbl
    · intro n b w _ hbl
      rw [hlast n b w hbl]
    · intro n b w hn hbl
      rw [hlast n b w hbl, hover n b w hn hbl]
    · intro n b w hn hbl
      exact hover n b w hn hbl

theorem readResponseOwnOn_eq (hb : 32 ≤ m.bits) (c : OwnCommand ω P H) (a : FreeArea ω) (b : Bytes)
    (w : ω) : readResponseOwnOn m c a b w = readResponseOwn c a b w := by
  have e1 := tumOn_eq hb RespHeader (by decide)
  have e2 := tumOn_eq hb TpmsAuthResponse (by decide)
  have e3 := tumOn_eq hb u32 (by decide)
  have hh : readResponseHeaderOn m b = readResponseHeader b := by
    unfold readResponseHeaderOn readResponseHeader
    rw [e1]
    rfl
  have hs : readResponseSessionsFOn m a = readResponseSessionsF a := by
    funext b w
    unfold readResponseSessionsFOn readResponseSessionsF readResponseSessionsL readAuthLOn readAuthL
    rw [e2]
    rfl
  have hbd : readBodyOwnOn m c a = readBodyOwn c a := by
    funext t b w
    unfold readBodyOwnOn readBodyOwn
    rw [e3, hs]
  unfold readResponseOwnOn readResponseOwn
  rw [hh, hbd]
  rcases hr : readResponseHeader b with ⟨tag, size, read⟩ | e | _
  · simp only [lbind]
    rw [cast_of_lt (c := 4) (n := 4) (readResponseHeader_lt hr) (by decide) (by omega)]
  · rfl
  · rfl

end Verif.Client
