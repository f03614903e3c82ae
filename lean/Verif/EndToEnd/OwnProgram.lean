import Verif.Client.EndingsProps
import Verif.EndToEnd.DialogProps

/-
Programs of commands whose types, areas and sessions are the caller's own and keep a state of their
own, beside a connection: model, specification and helper lemmas for C117.
-/

namespace Verif.Client
open Verif Verif.Base Verif.Errors

variable {C S ε P H : Type}

/-! ### State beside that of the connection

`run_command_with_handles` borrows the connection for itself
(crates/tpm2-client/src/lib.rs:145-153), so the types, areas and sessions do not change it. -/

/-- A session with state of its own: crates/tpm2-client/src/sessions/session.rs:4-9. -/
def LiveSession.beside (C : Type) (s : LiveSession S) : LiveSession (C × S) where
  authCommand w := ((s.authCommand w.2).1, w.1, (s.authCommand w.2).2)
  validate v w := ((s.validate v w.2).1, w.1, (s.validate v w.2).2)

/-- Sessions of an area:
crates/tpm2-client/src/sessions/authorization_area/mod.rs:10-11. -/
def LiveArea.beside (C : Type) (d : LiveArea S) : LiveArea (C × S) :=
  ⟨d.s1.map (LiveSession.beside C), d.s2.map (LiveSession.beside C), d.s3.map (LiveSession.beside C)⟩

/-- An area: crates/tpm2-client/src/sessions/authorization_area/mod.rs:10-15. -/
def FreeArea.beside (C : Type) (a : FreeArea S) : FreeArea (C × S) where
  isEmpty w := ((a.isEmpty w.2).1, w.1, (a.isEmpty w.2).2)
  decompose w := ((a.decompose w.2).1.map (LiveArea.beside C), w.1, (a.decompose w.2).2)

/-- The types of a command: base/src/commands.rs:105-114. -/
def OwnCommand.beside (C : Type) (c : OwnCommand S P H) : OwnCommand (C × S) P H where
  code := c.code
  handles b w := ((c.handles b w.2).1, w.1, (c.handles b w.2).2)
  param b w := ((c.param b w.2).1, w.1, (c.param b w.2).2)
  resp b w := ((c.resp b w.2).1, w.1, (c.resp b w.2).2)
  respHandles b w := ((c.respHandles b w.2).1, w.1, (c.respHandles b w.2).2)
  handles_length b w := c.handles_length b w.2
  param_length b w := c.param_length b w.2

/-- The connection does not change their state:
crates/tpm2-client/src/connection/mod.rs:11-26. -/
def LiveTransport.beside (S : Type) (tr : LiveTransport C ε) : LiveTransport (C × S) ε where
  transact w cmd rsp := ((tr.transact w.1 cmd rsp).1, (tr.transact w.1 cmd rsp).2.1,
    (tr.transact w.1 cmd rsp).2.2, w.2)
  keeps_length w cmd rsp := tr.keeps_length w.1 cmd rsp

/-! ### Lemmas -/

/-- The second does what the first does, and leaves the state of the connection. -/
def Beside {α : Type} (C : Type) (f : S → α × S) (g : C × S → α × (C × S)) : Prop :=
  ∀ k s, g (k, s) = ((f s).1, k, (f s).2)

theorem Beside.const {α : Type} (x : α) : Beside C (fun s : S => (x, s)) (fun w => (x, w)) :=
  fun _ _ => rfl

theorem Beside.lthen {f : S → LOut S} {g : C × S → LOut (C × S)} {F : Nat → Bytes → S → LOut S}
    {G : Nat → Bytes → C × S → LOut (C × S)} (h : Beside C f g) (hk : ∀ n b, Beside C (F n b) (G n b)) :
    Beside C (fun s => lthen (f s) F) (fun w => lthen (g w) G) := by
  intro k s
  simp only [h k s]
  rcases f s with ⟨⟨n | e | _, b⟩, s1⟩
  · exact hk n b k s1
  · rfl
  · rfl

theorem Beside.lstep {f : Bytes → S → LOut S} {g : Bytes → C × S → LOut (C × S)}
    (h : ∀ b, Beside C (f b) (g b)) (n : Nat) (b : Bytes) : Beside C (lstep f n b) (lstep g n b) := by
  intro k s
  unfold Client.lstep
  split
  · rw [h _ k s]
    rcases f (b.drop n) s with ⟨⟨n | e | _, b⟩, s1⟩ <;> rfl
  · rfl

theorem Beside.lbind {α β : Type} {f : S → Res TssError α × S} {g : C × S → Res TssError α × (C × S)}
    {F : α → S → Res TssError β × S} {G : α → C × S → Res TssError β × (C × S)} (h : Beside C f g)
    (hk : ∀ x, Beside C (F x) (G x)) : Beside C (fun s => lbind (f s) F) (fun w => lbind (g w) G) := by
  intro k s
  simp only [h k s]
  rcases f s with ⟨x | e | _, s1⟩
  · exact hk x k s1
  · rfl
  · rfl

theorem beside_tss {f : Bytes → S → MOut × S} {g : Bytes → C × S → MOut × (C × S)}
    (h : ∀ b, Beside C (f b) (g b)) (b : Bytes) : Beside C (ownTss f b) (ownTss g b) := by
  intro k s
  simp only [ownTss, h b k s]

theorem beside_um {α : Type} {f : Bytes → S → (Res MErr α × Bytes) × S}
    {g : Bytes → C × S → (Res MErr α × Bytes) × (C × S)}
    (h : ∀ b, Beside C (f b) (g b)) (b : Bytes) : Beside C (ownUm f b) (ownUm g b) := by
  intro k s
  simp only [ownUm, h b k s]
  rcases f b s with ⟨⟨n | e | _, b⟩, s1⟩ <;> rfl

theorem beside_writeAuth (s : LiveSession S) (n : Nat) (b : Bytes) :
    Beside C (writeAuthL s n b) (writeAuthL (s.beside C) n b) := by
  intro k w
  simp only [writeAuthL, LiveSession.beside]
  rcases s.authCommand w with ⟨_ | v, s1⟩ <;> rfl

theorem beside_sessions (a : FreeArea S) (b : Bytes) :
    Beside C (writeCommandSessionsF a b) (writeCommandSessionsF (a.beside C) b) := by
  intro k s
  simp only [writeCommandSessionsF, FreeArea.beside]
  rcases a.isEmpty s with ⟨_ | _ | _, s1⟩
  · rfl
  · dsimp only
    rcases a.decompose s1 with ⟨_ | d, s2⟩
    · rfl
    · simp only [Option.map_some, LiveArea.beside]
      rcases d.s1 with _ | x1
      · rfl
      · refine Beside.lthen (beside_writeAuth x1 4 b) (fun n b => ?_) k s2
        rcases d.s2 with _ | x2
        · exact .const _
        · refine Beside.lthen (beside_writeAuth x2 n b) (fun n b => ?_)
          rcases d.s3 with _ | x3
          · exact .const _
          · exact Beside.lthen (beside_writeAuth x3 n b) (fun n b => .const _)
  · rfl

theorem beside_build (c : OwnCommand S P H) (a : FreeArea S) :
    Beside C (buildOwn c a) (buildOwn (c.beside C) (a.beside C)) := by
  intro k s
  simp only [buildOwn, FreeArea.beside]
  rcases he : a.isEmpty s with ⟨_ | empty, s1⟩
  · rfl
  · dsimp only
    exact Beside.lthen (.const _) (fun n b =>
      .lthen (.lstep (beside_tss fun b => fun _ _ => rfl) n b) (fun n b =>
      .lthen (.lstep (beside_sessions a) n b) (fun n b =>
      .lthen (.lstep (beside_tss fun b => fun _ _ => rfl) n b) (fun n b =>
      .lthen (.const _) fun _ b => .const _)))) k s1

theorem beside_readAuth (s : LiveSession S) (b : Bytes) :
    Beside C (readAuthL s b) (readAuthL (s.beside C) b) :=
  Beside.lbind (.const _) fun _ => .lbind (fun _ _ => rfl) fun _ => .const _

theorem beside_responses (a : FreeArea S) (b : Bytes) :
    Beside C (readResponseSessionsF a b) (readResponseSessionsF (a.beside C) b) := by
  intro k s
  simp only [readResponseSessionsF, FreeArea.beside]
  rcases a.decompose s with ⟨_ | d, s2⟩
  · rfl
  · simp only [Option.map_some, LiveArea.beside, readResponseSessionsL]
    rcases d.s1 with _ | x1
    · rfl
    · refine Beside.lbind (beside_readAuth x1 b) (fun b => ?_) k s2
      rcases d.s2 with _ | x2
      · exact .const _
      · refine Beside.lbind (beside_readAuth x2 b) (fun b => ?_)
        rcases d.s3 with _ | x3
        · exact .const _
        · exact Beside.lbind (beside_readAuth x3 b) (fun b => .const _)

theorem beside_read (c : OwnCommand S P H) (a : FreeArea S) (buf : Bytes) :
    Beside C (readResponseOwn c a buf) (readResponseOwn (c.beside C) (a.beside C) buf) := by
  refine Beside.lbind (.const _) fun x => ?_
  intro k s
  split
  · rfl
  · split
    · exact Beside.lbind (beside_um (fun b => fun _ _ => rfl) _) (fun h =>
        .lbind (.const _) (fun b => .lbind (beside_um (fun b => fun _ _ => rfl) _) (fun p =>
        .lbind (beside_responses a p.2) fun b => .const _))) k s
    · rfl

/-- What is left to do after the transaction. -/
def readBack (c : OwnCommand S P H) (a : FreeArea S) (o : Option (Outcome ε)) (buf : Bytes) (s : S) :
    Res (CErr ε) (P × H) × S :=
  match o with
  | none => (.panic, s)
  | some (.failed e) => (.err (.conn e), s)
  | some (.reported _) => ((readResponseOwn c a buf s).1.mapErr .tss, (readResponseOwn c a buf s).2)

theorem run_beside (tr : LiveTransport C ε) (c : OwnCommand S P H) (a : FreeArea S) (k : C) (s : S) :
    runOwn (tr.beside S) (c.beside C) (a.beside C) (k, s) =
      match buildOwn c a s with
      | ((.err e, _), s) => ⟨.err (.tss e), (k, s)⟩
      | ((.panic, _), s) => ⟨.panic, (k, s)⟩
      | ((.ok n, b), s) =>
        match sliceTo b n with
        | none => ⟨.panic, (k, s)⟩
        | some cmd =>
          let t := tr.transact k cmd (List.replicate respBufferSize 0)
          let q := readBack c a t.1 t.2.1 s
          ⟨q.1, (t.2.2, q.2)⟩ := by
  unfold runOwn
  rw [beside_build c a k s]
  rcases buildOwn c a s with ⟨⟨n | e | _, b⟩, s1⟩
  · dsimp only
    rcases sliceTo b n with _ | cmd
    · rfl
    · simp only [LiveTransport.beside]
      rcases tr.transact k cmd (List.replicate respBufferSize 0) with ⟨_ | ⟨m⟩ | e, buf, k1⟩
      · rfl
      · simp only [readBack, beside_read c a buf k1 s1]
      · rfl
  · rfl
  · rfl

end Verif.Client

namespace Verif.EndToEnd
open Verif Verif.Base Verif.Errors Verif.Client Verif.Server Verif.Tcp Verif.Own

variable {σ τ S α : Type}

/-! ### Programs -/

/-- A program with state of its own: it looks at its state and sets it, runs commands with types, areas
and sessions of its own that change it, and makes other calls of the connection; what it does next
depends on the results. -/
inductive OwnProg (S α : Type) : Type 1 where
  | done (x : α)
  | look (next : S → OwnProg S α)
  | set (s : S) (next : OwnProg S α)
  | run {P H : Type} (c : OwnCommand S P H) (a : FreeArea S)
      (next : Res TssError (P × H) → OwnProg S α)
  | call (x : Call) (next : Out → OwnProg S α)

/-- What a command returns unless the connection failed; panics are caught. -/
def resultOf {ε β : Type} : Res (CErr ε) β → Except ε (Res TssError β)
  | .ok x => .ok (.ok x)
  | .err (.tss e) => .ok (.err e)
  | .err (.conn e) => .error e
  | .panic => .ok .panic

/-- The program over a connection: `run_command_with_handles`
(crates/tpm2-client/src/lib.rs:142-195) with the `TcpConnection`
(crates/tpm2-client/src/connection/tcp.rs:392-433).  It ends when the connection fails. -/
def OwnProg.play (os : Os σ) : OwnProg S α → Conn σ → S → Except IoErr α × Conn σ × S
  | .done x, c, s => (.ok x, c, s)
  | .look next, c, s => (next s).play os c s
  | .set s next, c, _ => next.play os c s
  | .run cmd a next, c, s =>
    let r := runOwn ((tcpTransport os).live.beside S) (cmd.beside (Conn σ)) (a.beside (Conn σ)) (c, s)
    match resultOf r.result with
    | .ok o => (next o).play os r.state.1 r.state.2
    | .error e => (.error e, r.state)
  | .call x next, c, s =>
    match real os x c with
    | (.ok o, c) => (next o).play os c s
    | (.error e, c) => (.error e, c, s)

/-! ### Specification -/

/-- The program with the device itself; the locality is `l`. -/
def OwnProg.dream (d : Device τ) : OwnProg S α → Nat → τ → S → Option (α × Nat × τ × S)
  | .done x, l, t, s => some (x, l, t, s)
  | .look next, l, t, s => (next s).dream d l t s
  | .set s next, l, t, _ => next.dream d l t s
  | .run cmd a next, l, t, s =>
    let r := runOwn ((deviceTransport d l).live.beside S) (cmd.beside τ) (a.beside τ) (t, s)
    match resultOf r.result with
    | .ok o => (next o).dream d l r.state.1 r.state.2
    | .error _ => none
  | .call x next, l, t, s =>
    match ideal d x l t with
    | some (o, l, t) => (next o).dream d l t s
    | none => none

/-- Command codes are of 32 bits, authorizations of their type, arguments of theirs; the program does not
end the session, and H-CRTM data are shorter than 4 GiB. -/
def OwnProg.Typed : OwnProg S α → Prop
  | .done _ => True
  | .look next => ∀ s, (next s).Typed
  | .set _ next => next.Typed
  | .run c a next => c.code < 2 ^ 32 ∧ a.Typed ∧ ∀ r, (next r).Typed
  | .call x next => x.Typed ∧ x.Short ∧ ∀ o, (next o).Typed

/-- What the program would get if it called the handlers itself: a command that is not composed (C115)
has its ending; otherwise the handler of its code is given what comes behind the header (C93), and the
result is the code of its error, or what the types and sessions of the program make of what it wrote
(C93), or the ending if they do not accept it (C115). -/
inductive OwnProg.Handled (h : Handlers τ) : OwnProg S α → τ → S → α → τ → S → Prop
  | done {x k s} : Handled h (.done x) k s x k s
  | look {next k s x k' s'} : Handled h (next s) k s x k' s' → Handled h (.look next) k s x k' s'
  | set {s next k s0 x k' s'} : Handled h next k s x k' s' → Handled h (.set s next) k s0 x k' s'
  | unsent {P H k s s1 x k' s'} {c : OwnCommand S P H} {a : FreeArea S} {next} {e : Ending} :
      BuildStops c a s e s1 → Handled h (next e.tss) k s1 x k' s' →
      Handled h (.run c a next) k s x k' s'
  | refused {P H k s s1 x k' s'} {c : OwnCommand S P H} {a : FreeArea S} {next} {cmd : Bytes} :
      Composes c a s cmd s1 → h c.code = none → Handled h (next (.err ⟨0x143⟩)) k s1 x k' s' →
      Handled h (.run c a next) k s x k' s'
  | error {P H k k1 s s1 x k' s'} {c : OwnCommand S P H} {a : FreeArea S} {next} {cmd out : Bytes}
      {f : τ → Reading τ} {w : Writing τ} {e : TpmRcError} :
      Composes c a s cmd s1 → h c.code = some f → (f k).Reads (cmd.drop 10) w →
      w.Writes (List.replicate 4086 0) out (.err e) k1 → e.code ≠ 0 → e.code < 2 ^ 32 →
      Handled h (next (.err ⟨e.code⟩)) k1 s1 x k' s' → Handled h (.run c a next) k s x k' s'
  | answer {P H k k1 s s1 s2 x k' s'} {c : OwnCommand S P H} {a : FreeArea S} {next} {cmd out : Bytes}
      {f : τ → Reading τ} {w : Writing τ} {p : P} {y : H} :
      Composes c a s cmd s1 → h c.code = some f → (f k).Reads (cmd.drop 10) w →
      w.Writes (List.replicate 4086 0) out (.ok ()) k1 → Decomposes c a s1
        (responseOf 0 out ++ List.replicate (4086 - out.length) 0) p y s2 →
      Handled h (next (.ok (p, y))) k1 s2 x k' s' → Handled h (.run c a next) k s x k' s'
  | unread {P H k k1 s s1 s2 x k' s'} {c : OwnCommand S P H} {a : FreeArea S} {next} {cmd out : Bytes}
      {f : τ → Reading τ} {w : Writing τ} {e : Ending} :
      Composes c a s cmd s1 → h c.code = some f → (f k).Reads (cmd.drop 10) w →
      w.Writes (List.replicate 4086 0) out (.ok ()) k1 → BodyStops c a 0x8001 out s1 e s2 →
      Handled h (next e.tss) k1 s2 x k' s' → Handled h (.run c a next) k s x k' s'

/-! ### Lemmas -/

variable {os : Os σ} {d : Device τ} {obs : σ → World τ} {P H : Type}

theorem carried_sound (hl : Link os d obs) {cmd rsp b : Bytes} {n l : Nat} {c c' : Conn σ} {t : τ}
    (hlt : l < 256) (hc : At obs c l t)
    (h : (tcpTransport os).transact c cmd rsp = (.reported n, b, c')) :
    ∃ t', (deviceTransport d l).transact t cmd rsp = (.reported n, b, t') ∧ At obs c' l t' := by
  dsimp only [tcpTransport] at h
  rcases ht : Tcp.transact os cmd rsp c with ⟨e | m, b1, c1⟩ <;> rw [ht] at h
  · cases h
  · cases h
    obtain ⟨-, rfl, h1, rfl, h2⟩ := transact_sound hl hlt hc ht
    exact ⟨_, by dsimp only [deviceTransport]; rw [if_pos h1], h2⟩

theorem carried_live (hl : Willing os d obs) {cmd rsp b : Bytes} {n l : Nat} {c : Conn σ} {t t' : τ}
    (hlt : l < 256) (hc : At obs c l t) (hcmd : cmd.length < 2 ^ 32)
    (h : (deviceTransport d l).transact t cmd rsp = (.reported n, b, t')) :
    ∃ c', (tcpTransport os).transact c cmd rsp = (.reported n, b, c') := by
  dsimp only [deviceTransport] at h
  split at h
  · rename_i hx
    cases h
    obtain ⟨n, b, c', h1⟩ := transact_live hl hlt hc hcmd hx
    obtain ⟨-, rfl, -, rfl, -⟩ := transact_sound hl.toLink hlt hc h1
    exact ⟨c', by dsimp only [tcpTransport]; rw [h1]⟩
  · cases h

theorem readBack_same {ε : Type} (c : OwnCommand S P H) (a : FreeArea S) (n : Nat) (buf : Bytes) (s : S) :
    resultOf (readBack (ε := ε) c a (some (.reported n)) buf s).1 =
      .ok (readResponseOwn c a buf s).1 ∧
    (readBack (ε := ε) c a (some (.reported n)) buf s).2 = (readResponseOwn c a buf s).2 := by
  unfold readBack
  rcases readResponseOwn c a buf s with ⟨x | e | _, s1⟩ <;> exact ⟨rfl, rfl⟩

/-- A command over the connection that does not fail. -/
theorem own_sound (hl : Link os d obs) (cmd : OwnCommand S P H) (a : FreeArea S) {l : Nat} {c : Conn σ}
    {t : τ} {s : S} (hlt : l < 256) (hc : At obs c l t) (o : Res TssError (P × H))
    (h : resultOf (runOwn ((tcpTransport os).live.beside S) (cmd.beside _) (a.beside _) (c, s)).result = .ok o) :
    let r := runOwn ((tcpTransport os).live.beside S) (cmd.beside _) (a.beside _) (c, s)
    let r' := runOwn ((deviceTransport d l).live.beside S) (cmd.beside _) (a.beside _) (t, s)
    resultOf r'.result = .ok o ∧ r'.state.2 = r.state.2 ∧ At obs r.state.1 l r'.state.1 := by
  dsimp only
  rw [run_beside] at h ⊢
  rw [run_beside]
  rcases hb : buildOwn cmd a s with ⟨⟨n | e | _, b⟩, s1⟩
  · rw [hb] at h
    dsimp only at h ⊢
    rcases hs : sliceTo b n with _ | x
    · rw [hs] at h
      cases h
      exact ⟨rfl, rfl, hc⟩
    · rw [hs] at h
      dsimp only [Transport.live] at h ⊢
      rcases ht : (tcpTransport os).transact c x (List.replicate respBufferSize 0) with ⟨⟨m⟩ | e, b1, c1⟩
      · rw [ht] at h
        obtain ⟨t', h1, h2⟩ := carried_sound hl hlt hc ht
        rw [h1]
        dsimp only at h ⊢
        rw [(readBack_same cmd a m b1 s1).1] at h ⊢
        rw [(readBack_same cmd a m b1 s1).2, (readBack_same cmd a m b1 s1).2]
        cases h
        exact ⟨rfl, rfl, h2⟩
      · rw [ht] at h
        cases h
  · rw [hb] at h
    cases h
    exact ⟨rfl, rfl, hc⟩
  · rw [hb] at h
    cases h
    exact ⟨rfl, rfl, hc⟩

/-- A command that gets a response from the device. -/
theorem own_live (hl : Willing os d obs) (cmd : OwnCommand S P H) (a : FreeArea S) {l : Nat} {c : Conn σ}
    {t : τ} {s : S} (hlt : l < 256) (hc : At obs c l t) (hcode : cmd.code < 2 ^ 32) (ha : a.Typed)
    (o : Res TssError (P × H))
    (h : resultOf (runOwn ((deviceTransport d l).live.beside S) (cmd.beside _) (a.beside _) (t, s)).result = .ok o) :
    resultOf (runOwn ((tcpTransport os).live.beside S) (cmd.beside _) (a.beside _) (c, s)).result = .ok o := by
  rw [run_beside] at h ⊢
  rcases hb : buildOwn cmd a s with ⟨⟨n | e | _, b⟩, s1⟩
  · rw [hb] at h
    dsimp only at h ⊢
    rcases hs : sliceTo b n with _ | x
    · rw [hs] at h
      cases h
      rfl
    · rw [hs] at h
      dsimp only [Transport.live] at h ⊢
      have hx := (C93_header cmd a s s1 x ((buildOwn_iff cmd a s s1 x hcode ha).1 ⟨n, b, hb, hs⟩)).2.1
      rcases ht : (deviceTransport d l).transact t x (List.replicate respBufferSize 0) with ⟨⟨m⟩ | e, b1, t1⟩
      · rw [ht] at h
        obtain ⟨c', h1⟩ := carried_live hl hlt hc (by omega) ht
        rw [h1]
        dsimp only at h ⊢
        rw [(readBack_same cmd a m b1 s1).1] at h ⊢
        cases h
        rfl
      · rw [ht] at h
        cases h
  · rw [hb] at h
    cases h
    rfl
  · rw [hb] at h
    cases h
    rfl

end Verif.EndToEnd
