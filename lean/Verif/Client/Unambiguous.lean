import Verif.Client.Props
import Verif.Codec.Props

/-
Property theorems C104: what the client hands to a connection can be read in
one way only.
-/

namespace Verif.Client
open Verif Verif.Base Verif.Errors

set_option maxRecDepth 8000

/-! ### Lemmas -/

/-- Encodings of one type followed by anything are read in one way. -/
theorem wire_append_inj (t : Ty) (v v' : Val) (r r' : Bytes) (hv : WF t v) (hv' : WF t v')
    (h : wire t v ++ r = wire t v' ++ r') : canon t v = canon t v' ∧ r = r' := by
  have h1 := (goodTy t).complete v r hv
  have h2 := (goodTy t).complete v' r' hv'
  rw [h, h2] at h1
  simp only [Prod.mk.injEq, Res.ok.injEq] at h1
  exact ⟨h1.1.symm, h1.2.symm⟩

theorem digits256_inj {n x y : Nat} (hx : x < 256 ^ n) (hy : y < 256 ^ n)
    (h : digits256 n x = digits256 n y) : x = y := by
  rw [← positional_digits256_of_lt hx, ← positional_digits256_of_lt hy, h]

/-- No authorization is encoded as nothing. -/
theorem wire_auth_ne (v : Val) (hv : WF TpmsAuthCommand v) : wire TpmsAuthCommand v ≠ [] := by
  intro h
  have h1 := (goodTy TpmsAuthCommand).complete v [] hv
  rw [h] at h1
  have h2 : (unmarshal TpmsAuthCommand []).1.isOk = false := by decide
  rw [List.nil_append] at h1
  rw [h1] at h2
  simp [Res.isOk] at h2

theorem wires_auth_inj : ∀ vs vs' : List Val,
    (∀ v ∈ vs, WF TpmsAuthCommand v) → (∀ v ∈ vs', WF TpmsAuthCommand v) →
    wires TpmsAuthCommand vs = wires TpmsAuthCommand vs' →
    vs.map (canon TpmsAuthCommand) = vs'.map (canon TpmsAuthCommand)
  | [], [], _, _, _ => rfl
  | [], v :: _, _, h', h => by
    simp only [wires, List.map_nil, List.flatten_nil, List.map_cons, List.flatten_cons] at h
    exact absurd (List.append_eq_nil_iff.1 h.symm).1 (wire_auth_ne v (h' v (by simp)))
  | v :: _, [], h', _, h => by
    simp only [wires, List.map_nil, List.flatten_nil, List.map_cons, List.flatten_cons] at h
    exact absurd (List.append_eq_nil_iff.1 h).1 (wire_auth_ne v (h' v (by simp)))
  | v :: vs, v' :: vs', h1, h2, h => by
    simp only [wires, List.map_cons, List.flatten_cons] at h
    obtain ⟨e, er⟩ := wire_append_inj _ v v' _ _ (h1 v (by simp)) (h2 v' (by simp)) h
    rw [List.map_cons, List.map_cons, e,
      wires_auth_inj vs vs' (fun x hx => h1 x (by simp [hx])) (fun x hx => h2 x (by simp [hx])) er]

theorem wires_congr (t : Ty) : ∀ vs vs' : List Val,
    (∀ v ∈ vs, WF t v) → (∀ v ∈ vs', WF t v) →
    vs.map (canon t) = vs'.map (canon t) → wires t vs = wires t vs'
  | [], [], _, _, _ => rfl
  | [], _ :: _, _, _, h => by simp at h
  | _ :: _, [], _, _, h => by simp at h
  | v :: vs, v' :: vs', h1, h2, h => by
    simp only [List.map_cons, List.cons.injEq] at h
    have e : wire t v = wire t v' :=
      ((C08_unambiguous t v v' (h1 v (by simp)) (h2 v' (by simp))).2).2 h.1
    have := wires_congr t vs vs' (fun x hx => h1 x (by simp [hx])) (fun x hx => h2 x (by simp [hx])) h.2
    simp only [wires, List.map_cons, List.flatten_cons] at this ⊢
    rw [e, this]

/-- What a command is about: its code, and its handles, authorizations and
parameters up to the unused bytes of their buffers. -/
def SameCommand (c c' : Command) (a a' : Area) : Prop :=
  c.code = c'.code ∧
  canon c.handlesTy c.handles = canon c'.handlesTy c'.handles ∧
  a.active.map (fun s => canon TpmsAuthCommand s.authCommand) =
    a'.active.map (fun s => canon TpmsAuthCommand s.authCommand) ∧
  canon c.paramTy c.param = canon c'.paramTy c'.param

/-- The types of handles and parameters of commands with the same code. -/
def SameTypes (c c' : Command) : Prop :=
  c.code = c'.code → c.handlesTy = c'.handlesTy ∧ c.paramTy = c'.paramTy

/-- The first ten bytes give the kind, the length and the code. -/
theorem header_inj (c c' : Command) (ss ss' : List Session) (r r' : Bytes)
    (hc : c.code < 2 ^ 32) (hc' : c'.code < 2 ^ 32)
    (hfit : (commandBytes c ss).length ≤ 4096) (hfit' : (commandBytes c' ss').length ≤ 4096)
    (h : commandBytes c ss ++ r = commandBytes c' ss' ++ r') :
    ss.isEmpty = ss'.isEmpty ∧ c.code = c'.code ∧ commandBody c ss = commandBody c' ss' ∧ r = r' := by
  rw [commandBytes_length] at hfit hfit'
  simp only [commandBytes, List.append_assoc] at h
  obtain ⟨h1, h⟩ := List.append_inj h (by simp)
  obtain ⟨h2, h⟩ := List.append_inj h (by simp)
  obtain ⟨h3, h⟩ := List.append_inj h (by simp)
  have e2 := digits256_inj (by omega) (by omega) h2
  obtain ⟨h4, h5⟩ := List.append_inj h (by omega)
  refine ⟨?_, digits256_inj (by simpa using hc) (by simpa using hc') h3, h4, h5⟩
  have e1 := digits256_inj (n := 2) (by split <;> decide) (by split <;> decide) h1
  cases hs : ss.isEmpty <;> cases hs' : ss'.isEmpty <;> simp [hs, hs'] at e1 ⊢

theorem body_inj (c c' : Command) (a a' : Area) (h : CmdWF c a) (h' : CmdWF c' a')
    (hth : c.handlesTy = c'.handlesTy) (htp : c.paramTy = c'.paramTy)
    (hempty : a.active.isEmpty = a'.active.isEmpty)
    (hfit : (commandBytes c a.active).length ≤ 4096)
    (hfit' : (commandBytes c' a'.active).length ≤ 4096)
    (hb : commandBody c a.active = commandBody c' a'.active) :
    canon c.handlesTy c.handles = canon c'.handlesTy c'.handles ∧
    a.active.map (fun s => canon TpmsAuthCommand s.authCommand) =
      a'.active.map (fun s => canon TpmsAuthCommand s.authCommand) ∧
    canon c.paramTy c.param = canon c'.paramTy c'.param := by
  rw [commandBytes_length] at hfit hfit'
  simp only [commandBody, List.append_assoc, List.length_append] at hb hfit hfit'
  have hh' := h'.handles
  have hp' := h'.param
  rw [← hth] at hb hh'
  rw [← htp] at hb hp'
  obtain ⟨e1, hb⟩ := wire_append_inj _ _ _ _ _ h.handles hh' hb
  rw [← hth, ← htp]
  refine ⟨e1, ?_⟩
  have last : ∀ x y : Bytes, x = y → x = wire c.paramTy c.param → y = wire c.paramTy c'.param →
      canon c.paramTy c.param = canon c.paramTy c'.param := fun x y e ex ey =>
    ((C08_unambiguous _ _ _ h.param hp').2).1 (by rw [← ex, ← ey, e])
  cases hs : a.active.isEmpty
  · have hs' : a'.active.isEmpty = false := by rw [← hempty, hs]
    simp only [authArea, hs, hs', Bool.false_eq_true, if_false, List.append_assoc,
      List.length_append, digits256_length] at hb hfit hfit'
    obtain ⟨h1, hb⟩ := List.append_inj hb (by simp)
    have e2 := digits256_inj (by omega) (by omega) h1
    obtain ⟨h2, h3⟩ := List.append_inj hb e2
    have := wires_auth_inj _ _ (by simpa using h.auths) (by simpa using h'.auths) h2
    refine ⟨by simpa [Function.comp_def] using this, last _ _ h3 rfl rfl⟩
  · have hs' : a'.active.isEmpty = true := by rw [← hempty, hs]
    simp only [authArea, hs, hs', if_true, List.nil_append] at hb
    rw [List.isEmpty_iff.1 hs, List.isEmpty_iff.1 hs']
    exact ⟨rfl, last _ _ hb rfl rfl⟩

theorem same_bytes (c c' : Command) (a a' : Area) (h : CmdWF c a) (h' : CmdWF c' a')
    (ht : SameTypes c c') (hs : SameCommand c c' a a') :
    commandBytes c a.active = commandBytes c' a'.active := by
  obtain ⟨e1, e2, e3, e4⟩ := hs
  obtain ⟨hth, htp⟩ := ht e1
  have w1 : wire c.handlesTy c.handles = wire c'.handlesTy c'.handles := by
    have := h'.handles
    rw [← hth] at e2 this ⊢
    exact ((C08_unambiguous _ _ _ h.handles this).2).2 e2
  have w2 : wire c.paramTy c.param = wire c'.paramTy c'.param := by
    have := h'.param
    rw [← htp] at e4 this ⊢
    exact ((C08_unambiguous _ _ _ h.param this).2).2 e4
  have w3 : wires TpmsAuthCommand (a.active.map (·.authCommand)) =
      wires TpmsAuthCommand (a'.active.map (·.authCommand)) :=
    wires_congr _ _ _ (by simpa using h.auths) (by simpa using h'.auths)
      (by simpa [Function.comp_def] using e3)
  have w4 : a.active.isEmpty = a'.active.isEmpty := by
    have := congrArg List.isEmpty e3
    simpa [List.isEmpty_map] using this
  simp only [commandBytes, commandBody, authArea, w1, w2, w3, w4, e1]

/-! ### C104 -/

/-- **C104**: two commands are handed to their connections as the same bytes
exactly if they have the same code, handles, authorizations (number and order)
and parameters; whatever the connections do. -/
theorem C104_sent {σ ε σ' ε' : Type} (tr : Transport σ ε) (tr' : Transport σ' ε')
    (c c' : Command) (a a' : Area) (s : σ) (s' : σ')
    (hcode : c.code < 2 ^ 32) (hcode' : c'.code < 2 ^ 32)
    (hh : HasTy c.handlesTy c.handles) (hh' : HasTy c'.handlesTy c'.handles)
    (hp : HasTy c.paramTy c.param) (hp' : HasTy c'.paramTy c'.param)
    (ha : ∀ s ∈ a.active, HasTy TpmsAuthCommand s.authCommand)
    (ha' : ∀ s ∈ a'.active, HasTy TpmsAuthCommand s.authCommand)
    (ht : SameTypes c c')
    (hsent : (runCommandWithHandles (recording tr) c a (s, [])).state.2 ≠ [])
    (hsent' : (runCommandWithHandles (recording tr') c' a' (s', [])).state.2 ≠ []) :
    (runCommandWithHandles (recording tr) c a (s, [])).state.2 =
      (runCommandWithHandles (recording tr') c' a' (s', [])).state.2 ↔
    SameCommand c c' a a' := by
  obtain ⟨hw, hfit⟩ := run_wf (recording tr) c a (s, []) hcode hh hp ha
    (.inl fun h => hsent (by rw [h]))
  obtain ⟨hw', hfit'⟩ := run_wf (recording tr') c' a' (s', []) hcode' hh' hp' ha'
    (.inl fun h => hsent' (by rw [h]))
  rw [C31_sent tr c a s [] hw hfit, C31_sent tr' c' a' s' [] hw' hfit']
  simp only [List.nil_append, List.cons.injEq, Prod.mk.injEq, and_true]
  constructor
  · intro h
    obtain ⟨e1, e2, e3, _⟩ := header_inj c c' a.active a'.active [] [] hcode hcode' hfit hfit'
      (by rw [h])
    exact ⟨e2, body_inj c c' a a' hw hw' (ht e2).1 (ht e2).2 e1 hfit hfit' e3⟩
  · exact same_bytes c c' a a' hw hw' ht

/-- **C104**: no command is the beginning of another one, not even of one of
another kind. -/
theorem C104_prefix {σ ε σ' ε' : Type} (tr : Transport σ ε) (tr' : Transport σ' ε')
    (c c' : Command) (a a' : Area) (s : σ) (s' : σ')
    (hcode : c.code < 2 ^ 32) (hcode' : c'.code < 2 ^ 32)
    (hh : HasTy c.handlesTy c.handles) (hh' : HasTy c'.handlesTy c'.handles)
    (hp : HasTy c.paramTy c.param) (hp' : HasTy c'.paramTy c'.param)
    (ha : ∀ s ∈ a.active, HasTy TpmsAuthCommand s.authCommand)
    (ha' : ∀ s ∈ a'.active, HasTy TpmsAuthCommand s.authCommand)
    (b b' : Bytes)
    (hsent : b ∈ (runCommandWithHandles (recording tr) c a (s, [])).state.2.map (·.1))
    (hsent' : b' ∈ (runCommandWithHandles (recording tr') c' a' (s', [])).state.2.map (·.1))
    (hpre : b <+: b') : b = b' ∧ c.code = c'.code ∧ a.active.isEmpty = a'.active.isEmpty := by
  obtain ⟨hw, hfit⟩ := run_wf (recording tr) c a (s, []) hcode hh hp ha
    (.inl fun h => by rw [h] at hsent; simp at hsent)
  obtain ⟨hw', hfit'⟩ := run_wf (recording tr') c' a' (s', []) hcode' hh' hp' ha'
    (.inl fun h => by rw [h] at hsent'; simp at hsent')
  rw [C31_sent tr c a s [] hw hfit] at hsent
  rw [C31_sent tr' c' a' s' [] hw' hfit'] at hsent'
  simp only [List.nil_append, List.map_cons, List.map_nil, List.mem_singleton] at hsent hsent'
  subst hsent hsent'
  obtain ⟨r, hr⟩ := hpre
  obtain ⟨e1, e2, _, e4⟩ := header_inj c c' a.active a'.active r [] hcode hcode' hfit hfit'
    (by rw [hr, List.append_nil])
  subst e4
  exact ⟨by simpa using hr, e2, e1⟩

/-- Everything written to a connection by commands made one after the other. -/
def sentStream {σ ε : Type} (tr : Transport σ ε) : List (Command × Area) → σ → List Bytes
  | [], _ => []
  | (c, a) :: l, s =>
    (runCommandWithHandles (recording tr) c a (s, [])).state.2.map (·.1) ++
      sentStream tr l (runCommandWithHandles tr c a s).state

/-- Values of the types of their command. -/
def Typed (c : Command) (a : Area) : Prop :=
  c.code < 2 ^ 32 ∧ HasTy c.handlesTy c.handles ∧ HasTy c.paramTy c.param ∧
  ∀ s ∈ a.active, HasTy TpmsAuthCommand s.authCommand

theorem mem_sentStream {σ ε : Type} (tr : Transport σ ε) : ∀ (l : List (Command × Area)) (s : σ),
    (∀ p ∈ l, Typed p.1 p.2) → ∀ b ∈ sentStream tr l s,
    ∃ c a, Typed c a ∧ b = commandBytes c a.active ∧ b.length ≤ 4096
  | [], _, _, b, hb => by simp [sentStream] at hb
  | (c, a) :: l, s, h, b, hb => by
    simp only [sentStream, List.mem_append] at hb
    rcases hb with hb | hb
    · obtain ⟨h1, h2, h3, h4⟩ := h (c, a) (by simp)
      obtain ⟨hw, hfit⟩ := run_wf (recording tr) c a (s, []) h1 h2 h3 h4
        (.inl fun h => by rw [h] at hb; simp at hb)
      rw [C31_sent tr c a s [] hw hfit] at hb
      simp only [List.nil_append, List.map_cons, List.map_nil, List.mem_singleton] at hb
      exact ⟨c, a, ⟨h1, h2, h3, h4⟩, hb, by rw [hb]; exact hfit⟩
    · exact mem_sentStream tr l _ (fun p hp => h p (by simp [hp])) b hb

theorem flatten_inj : ∀ bs bs' : List Bytes,
    (∀ b ∈ bs, ∃ c a, Typed c a ∧ b = commandBytes c a.active ∧ b.length ≤ 4096) →
    (∀ b ∈ bs', ∃ c a, Typed c a ∧ b = commandBytes c a.active ∧ b.length ≤ 4096) →
    bs.flatten <+: bs'.flatten → bs <+: bs'
  | [], _, _, _, _ => List.nil_prefix
  | b :: bs, [], h, _, hp => by
    obtain ⟨c, a, _, e, _⟩ := h b (by simp)
    have := hp.length_le
    rw [List.flatten_cons, List.length_append, e, commandBytes_length] at this
    simp at this
  | b :: bs, b' :: bs', h, h', hp => by
    obtain ⟨c, a, ht, e, hl⟩ := h b (by simp)
    obtain ⟨c', a', ht', e', hl'⟩ := h' b' (by simp)
    obtain ⟨r, hr⟩ := hp
    subst e e'
    rw [List.flatten_cons, List.flatten_cons, List.append_assoc] at hr
    obtain ⟨e1, e2, e3, e4⟩ := header_inj c c' _ _ _ _ ht.1 ht'.1 hl hl' hr
    have hb : commandBytes c a.active = commandBytes c' a'.active := by
      simp only [commandBytes, e1, e2, e3]
    rw [hb]
    exact (List.prefix_cons_inj _).2 (flatten_inj bs bs' (fun x hx => h x (by simp [hx]))
      (fun x hx => h' x (by simp [hx])) ⟨r, e4⟩)

/-- **C104**: a stream of commands has one division into commands only: if all
the bytes written by one client so far begin the bytes written by another one,
its commands begin the commands of the other one. -/
theorem C104_stream {σ ε σ' ε' : Type} (tr : Transport σ ε) (tr' : Transport σ' ε')
    (l l' : List (Command × Area)) (s : σ) (s' : σ')
    (hl : ∀ p ∈ l, Typed p.1 p.2) (hl' : ∀ p ∈ l', Typed p.1 p.2) :
    (sentStream tr l s).flatten <+: (sentStream tr' l' s').flatten ↔
      sentStream tr l s <+: sentStream tr' l' s' := by
  refine ⟨flatten_inj _ _ (mem_sentStream tr l s hl) (mem_sentStream tr' l' s' hl'), ?_⟩
  rintro ⟨r, hr⟩
  exact ⟨r.flatten, by rw [← hr, List.flatten_append]⟩

/-! ### Cases -/

/-- The same password with other unused bytes is the same command; another
password is another one. -/
def exSession' : Session :=
  passwordSession (.tpm2b 2 ([0x61, 0x62] ++ List.replicate 62 7))

theorem exCmdWF' : CmdWF (getRandomCommand 4) (area1 exSession') :=
  ⟨by decide, by decide, by decide, by
    intro s hs
    simp only [Area.active, area1, List.mem_singleton] at hs
    subst hs
    decide⟩

example : SameCommand (getRandomCommand 4) (getRandomCommand 4) (area1 exSession) (area1 exSession') ∧
    exSession.authCommand ≠ exSession'.authCommand := by
  refine ⟨⟨rfl, rfl, by simp [area1, Area.active]; rfl, rfl⟩, ?_⟩
  intro h
  simp [exSession, exSession', passwordSession, passwordAuthCommand] at h

example (tr : Transport Nat Unit) :
    (runCommandWithHandles (recording tr) (getRandomCommand 4) (area1 exSession) (0, [])).state.2 =
    (runCommandWithHandles (recording tr) (getRandomCommand 4) (area1 exSession') (0, [])).state.2 := by
  rw [C31_sent tr _ _ 0 [] exCmdWF exFit, C31_sent tr _ _ 0 [] exCmdWF' (by decide)]
  rfl

example (tr : Transport Nat Unit) :
    (runCommandWithHandles (recording tr) (getRandomCommand 4) area0 (0, [])).state.2 ≠
    (runCommandWithHandles (recording tr) (getRandomCommand 5) area0 (0, [])).state.2 := by
  have h4 := exCmdWF0 4 (by decide)
  have h5 := exCmdWF0 5 (by decide)
  intro h
  have := (C104_sent tr tr (getRandomCommand 4) (getRandomCommand 5) area0 area0 0 0
    (by decide) (by decide) (by decide) (by decide) (by decide) (by decide)
    (by simp [area0, Area.active]) (by simp [area0, Area.active]) (fun _ => ⟨rfl, rfl⟩)
    (by rw [C31_sent tr _ _ 0 [] h4 (exFit0 4)]; exact List.cons_ne_nil _ _)
    (by rw [C31_sent tr _ _ 0 [] h5 (exFit0 5)]; exact List.cons_ne_nil _ _)).1 h
  have e := this.2.2.2
  simp [getRandomCommand, canon, canonFields, GetRandomCmd, S, plains, u16] at e

/-- Two requests of random bytes, the second with a password, are written one after the other. -/
example (tr : Transport Nat Unit) :
    (sentStream tr [(getRandomCommand 4, area0), (getRandomCommand 4, area1 exSession)] 0).flatten =
      [0x80, 0x01, 0, 0, 0, 12, 0, 0, 1, 0x7B, 0, 4,
       0x80, 0x02, 0, 0, 0, 27, 0, 0, 1, 0x7B, 0, 0, 0, 11,
        0x40, 0, 0, 9, 0, 0, 0, 0, 2, 0x61, 0x62, 0, 4] := by
  simp only [sentStream]
  rw [C31_sent tr _ _ 0 [] (exCmdWF0 4 (by decide)) (exFit0 4),
    C31_sent tr _ _ _ [] exCmdWF exFit]
  decide

end Verif.Client
