import Verif.Client.AreaLemmas
import Verif.Client.LiveProps

/-
Property theorems C81: the client with an authorization area of the caller's own.
-/

namespace Verif.Client
open Verif Verif.Base Verif.Errors

set_option maxRecDepth 8000

variable {ω ε : Type}

/-- The authorizations of all sessions of the area, in all states, have their type. -/
def FreeArea.Typed (a : FreeArea ω) : Prop :=
  ∀ w d w', a.decompose w = (some d, w') → ∀ s ∈ d.active,
    ∀ w v w', s.authCommand w = (some v, w') → HasTy TpmsAuthCommand v

/-- **C81**: a command succeeds exactly if the area answers while the command is
built and its sessions give their authorizations; the transport, in the state left
by them, is handed the command framed by these answers and reports a response;
the area then gives its sessions again, and these accept the authorization
responses, one for each. -/
theorem C81_success_iff (tr : LiveTransport ω ε) (c : Command) (a : FreeArea ω) (w w' : ω)
    (hcode : c.code < 2 ^ 32)
    (hh : HasTy c.handlesTy c.handles) (hp : HasTy c.paramTy c.param) (ha : a.Typed)
    (p h : Val) :
    runFree tr c a w = ⟨.ok (p, h), w'⟩ ↔
      ∃ empty auths w1 n r rest w2 d w3,
        Gives a w empty auths w1 ∧ Sendable c empty auths ∧
        tr.transact w1 (framed c empty auths) (List.replicate 4096 0) =
          (some (.reported n), responseBytes c r ++ rest, w2) ∧
        a.decompose w2 = (some d, w3) ∧ Accepts d.active r.auths w3 w' ∧
        r.WellFormed c ∧ r.params = p ∧ r.handles = h ∧
        canon c.respTy p = p ∧ canon c.respHandlesTy h = h ∧
        ∀ v ∈ r.auths, canon TpmsAuthResponse v = v := by
  constructor
  · intro hr
    unfold runFree at hr
    rcases hb : buildCommandF c a w with ⟨⟨m | e | _, buf⟩, w1⟩ <;> rw [hb] at hr
    · obtain ⟨e, auths, g1, g2⟩ := (buildF_ok_iff _ _ _ _ _ _).1 hb
      obtain ⟨t1, t2⟩ := g1.good ha
      obtain ⟨s1, s2⟩ := (buildP_ok_iff c e auths m buf hcode hh hp t1 t2).1 g2
      simp only [s2] at hr
      have hk := tr.keeps_length w1 (framed c e auths) (List.replicate respBufferSize 0)
      rcases ht : tr.transact w1 (framed c e auths) (List.replicate respBufferSize 0)
        with ⟨_ | n | e', buf', w2⟩ <;> rw [ht] at hr
      · simp at hr
      · rw [ht] at hk
        dsimp only at hr hk
        rcases hrd : readResponseF c a buf' w2 with ⟨⟨p', h'⟩ | e' | _, w3⟩ <;> rw [hrd] at hr <;>
          simp [Res.mapErr] at hr
        obtain ⟨⟨rfl, rfl⟩, rfl⟩ := hr
        obtain ⟨d, w4, d1, d2⟩ := (readF_ok_iff _ _ _ _ _ _).1 hrd
        obtain ⟨r, rest, b1, rfl, b3, b4, b5, b6, b7, b8⟩ := (readL_ok_iff c d buf' (by
          rw [hk]; exact List.length_replicate) w4 w3 p' h').1 d2
        exact ⟨e, auths, w1, n, r, rest, w2, d, w4, g1, s1, ht, d1, b8, b1, b3, b4, b5, b6, b7⟩
      · simp at hr
    · simp at hr
    · simp at hr
  · rintro ⟨e, auths, w1, n, r, rest, w2, d, w3, g1, s1, ht, d1, b8, b1, b3, b4, b5, b6, b7⟩
    obtain ⟨t1, t2⟩ := g1.good ha
    obtain ⟨rest', hb⟩ := (buildP_ok_iff c e auths 0 [] hcode hh hp t1 t2).2 s1
    have hb := (buildF_ok_iff _ _ _ _ _ _).2 ⟨e, auths, g1, hb⟩
    have hk := tr.keeps_length w1 (framed c e auths) (List.replicate 4096 0)
    rw [ht] at hk
    unfold runFree
    rw [hb]
    simp only [sliceTo, List.length_append, Nat.le_add_right, if_true, List.take_left']
    have ht' : tr.transact w1 (framed c e auths) (List.replicate respBufferSize 0) =
      (some (.reported n), responseBytes c r ++ rest, w2) := ht
    rw [ht']
    have := (readL_ok_iff c d (responseBytes c r ++ rest) (by
      rw [hk]; exact List.length_replicate) w3 w' p h).2 ⟨r, rest, b1, rfl, b3, b4, b5, b6, b7, b8⟩
    have := (readF_ok_iff c a _ w2 w' (p, h)).2 ⟨d, w3, d1, this⟩
    simp only [this, Res.mapErr]

/-- **C81**: the transport is handed a command exactly if the area answers while
it is built, its sessions give their authorizations and the command fits; and then
it is the command framed by these answers.  Stated for any transport by way of its
errors, which are the result of the run. -/
theorem C81_sent_iff (tr : LiveTransport ω ε) (c : Command) (a : FreeArea ω) (w w' : ω)
    (hcode : c.code < 2 ^ 32)
    (hh : HasTy c.handlesTy c.handles) (hp : HasTy c.paramTy c.param) (ha : a.Typed) (e : ε) :
    runFree tr c a w = ⟨.err (.conn e), w'⟩ ↔
      ∃ empty auths w1 buf, Gives a w empty auths w1 ∧ Sendable c empty auths ∧
        tr.transact w1 (framed c empty auths) (List.replicate 4096 0) =
          (some (.failed e), buf, w') := by
  constructor
  · intro hr
    unfold runFree at hr
    rcases hb : buildCommandF c a w with ⟨⟨m | e | _, buf⟩, w1⟩ <;> rw [hb] at hr
    · obtain ⟨e, auths, g1, g2⟩ := (buildF_ok_iff _ _ _ _ _ _).1 hb
      obtain ⟨t1, t2⟩ := g1.good ha
      obtain ⟨s1, s2⟩ := (buildP_ok_iff c e auths m buf hcode hh hp t1 t2).1 g2
      simp only [s2] at hr
      rcases ht : tr.transact w1 (framed c e auths) (List.replicate respBufferSize 0)
        with ⟨_ | n | e', buf', w2⟩ <;> rw [ht] at hr
      · simp at hr
      · dsimp only at hr
        rcases hrd : readResponseF c a buf' w2 with ⟨⟨p', h'⟩ | e' | _, w3⟩ <;> rw [hrd] at hr <;>
          simp [Res.mapErr] at hr
      · simp at hr
        obtain ⟨rfl, rfl⟩ := hr
        exact ⟨e, auths, w1, buf', g1, s1, ht⟩
    · simp at hr
    · simp at hr
  · rintro ⟨empty, auths, w1, buf, g1, s1, ht⟩
    obtain ⟨t1, t2⟩ := g1.good ha
    obtain ⟨rest', hb⟩ := (buildP_ok_iff c empty auths 0 [] hcode hh hp t1 t2).2 s1
    have hb := (buildF_ok_iff _ _ _ _ _ _).2 ⟨empty, auths, g1, hb⟩
    unfold runFree
    rw [hb]
    simp only [sliceTo, List.length_append, Nat.le_add_right, if_true, List.take_left']
    have ht' : tr.transact w1 (framed c empty auths) (List.replicate respBufferSize 0) =
      (some (.failed e), buf, w') := ht
    rw [ht']

/-- **C81**: the command is a TPM command with the authorizations given exactly if
both answers tell the truth about them. -/
theorem C81_framed_iff (c : Command) (empty : Bool) (auths : Option (List Val)) :
    framed c empty auths = commandBytes c ((auths.getD []).map fixed) ↔
      (empty = true ↔ auths.getD [] = []) ∧ (auths = none ↔ auths.getD [] = []) := by
  have htag : ∀ e : Bool, digits256 2 (if e then 0x8001 else 0x8002) =
      [0x80, if e then 1 else 2] := by intro e; cases e <;> decide
  have h1 : digits256 2 0x8001 = [0x80, 1] := by decide
  have h2 : digits256 2 0x8002 = [0x80, 2] := by decide
  rcases auths with _ | vs
  · simp only [framed, commandBytes, commandBody, authArea, Option.getD_none, List.map_nil,
      List.isEmpty_nil, if_true, htag]
    cases empty <;> simp [h1]
  · rcases vs with _ | ⟨v, vs⟩
    · simp only [Option.getD_some, reduceCtorEq, false_iff, not_true, and_false, iff_false]
      intro h
      have h := congrArg List.length h
      simp [framed, commandBytes, commandBody, authArea, wires] at h
    · simp only [framed, commandBytes, commandBody, authArea, Option.getD_some, List.map_cons,
        List.isEmpty_cons, htag, Bool.false_eq_true, if_false]
      rw [show (fixed v).authCommand = v from rfl, map_fixed]
      cases empty <;> simp [h2]

/-- **C81**: with an area that always has the same sessions and says so, this is
the client of C80. -/
theorem C81_steady (tr : LiveTransport ω ε) (c : Command) (a : FreeArea ω) (d : LiveArea ω)
    (h : a.Is d) (w : ω) : runFree tr c a w = runLive tr c d w :=
  runFree_is tr c a d h w

/-- **C81**: an area that gives the same sessions at every call, with the provided
method for emptiness, says so. -/
theorem C81_provided (f : ω → Option (LiveArea ω) × ω) (d : LiveArea ω)
    (h : ∀ w, f w = (some d, w)) : (FreeArea.provided f).Is d := by
  intro w
  refine ⟨?_, h w⟩
  simp only [FreeArea.provided, h w]
  rw [← LiveArea.isEmpty_active]
  rfl

/-- **C81**: the provided method for emptiness decomposes the area once, also if
that changes or panics, and answers whether there is no first session. -/
theorem C81_provided_asks (f : ω → Option (LiveArea ω) × ω) (w : ω) :
    (∀ w1, f w = (none, w1) → (FreeArea.provided f).isEmpty w = (none, w1)) ∧
    (∀ d w1, f w = (some d, w1) → ∃ b, (FreeArea.provided f).isEmpty w = (some b, w1) ∧
      (b = true ↔ d.s1 = none)) := by
  constructor
  · intro w1 h
    simp only [FreeArea.provided, h]
  · intro d w1 h
    simp only [FreeArea.provided, h, Prod.mk.injEq, Option.some.injEq, and_true]
    refine ⟨_, rfl, ?_⟩
    cases d.s1 <;> simp

/-- **C81**: if the area panics when it is asked whether it is empty, so does the
call, at once: the transport is in the state which that left. -/
theorem C81_panics (tr : LiveTransport ω ε) (c : Command) (a : FreeArea ω) (w w1 : ω)
    (h : a.isEmpty w = (none, w1)) : runFree tr c a w = ⟨.panic, w1⟩ := by
  simp only [runFree, buildCommandF, h]

/-- **C81**: the areas of the crate have the sessions they are made of, in order:
none, one, two and three. -/
theorem C81_crate (s t u : LiveSession ω) :
    (∃ d, (free0 : FreeArea ω).Is d ∧ d.active = []) ∧
    (∃ d, (free1 s).Is d ∧ d.active = [s]) ∧
    (∃ d, (free2 s t).Is d ∧ d.active = [s, t]) ∧
    (∃ d, (free3 s t u).Is d ∧ d.active = [s, t, u]) :=
  ⟨⟨_, C81_provided _ _ fun _ => rfl, rfl⟩, ⟨_, C81_provided _ _ fun _ => rfl, rfl⟩,
    ⟨_, C81_provided _ _ fun _ => rfl, rfl⟩, ⟨_, C81_provided _ _ fun _ => rfl, rfl⟩⟩

/-- **C81**: the decompositions of the areas with at least one and at least two
sessions name the same sessions, at the same places. -/
theorem C81_plus (s t u : LiveSession ω) (w : ω) :
    (free1 s).decompose w = (some ⟨some (plus1of1 s).1, (plus1of1 s).2.1, (plus1of1 s).2.2⟩, w) ∧
    (free2 s t).decompose w =
      (some ⟨some (plus1of2 s t).1, (plus1of2 s t).2.1, (plus1of2 s t).2.2⟩, w) ∧
    (free2 s t).decompose w =
      (some ⟨some (plus2of2 s t).1, some (plus2of2 s t).2.1, (plus2of2 s t).2.2⟩, w) ∧
    (free3 s t u).decompose w =
      (some ⟨some (plus1of3 s t u).1, (plus1of3 s t u).2.1, (plus1of3 s t u).2.2⟩, w) ∧
    (free3 s t u).decompose w =
      (some ⟨some (plus2of3 s t u).1, some (plus2of3 s t u).2.1, (plus2of3 s t u).2.2⟩, w) :=
  ⟨rfl, rfl, rfl, rfl, rfl⟩

/-! ### Examples -/

/-- A transport that gives back the command as its error. -/
def mirror : LiveTransport ω Bytes where
  transact w cmd rsp := (some (.failed cmd), rsp, w)
  keeps_length _ _ _ := rfl

/-- An area without sessions that says it is not empty. -/
def boasting : FreeArea ω := ⟨fun w => (some false, w), fun w => (some ⟨none, none, none⟩, w)⟩

/-- An area that says it is empty and has a session. -/
def shy (s : LiveSession ω) : FreeArea ω :=
  ⟨fun w => (some true, w), fun w => (some ⟨some s, none, none⟩, w)⟩

theorem boasting_typed : (boasting : FreeArea ω).Typed := by
  intro w d w' h s hs
  simp only [boasting, Prod.mk.injEq, Option.some.injEq] at h
  rw [← h.1] at hs
  cases hs

/-- GetRandom for two bytes: the tag for sessions and an authorization area of size
zero. -/
example : runFree mirror (getRandomCommand 2) boasting () =
    ⟨.err (.conn [0x80, 2, 0, 0, 0, 16, 0, 0, 1, 0x7B, 0, 0, 0, 0, 0, 2]), ()⟩ :=
  (C81_sent_iff mirror (getRandomCommand 2) boasting () () (by decide) trivial
    ⟨by decide, trivial⟩ boasting_typed _).2
    ⟨false, some [], (), List.replicate 4096 0, .auths rfl rfl rfl (.nil _),
      ⟨trivial, by decide, (by rintro _ ⟨rfl⟩ v hv; cases hv), by decide⟩, rfl⟩

/-- With a session that is hidden the command is one without sessions, and yet the
session has to accept an authorization response. -/
example : runFree (answering (responseBytes (getRandomCommand 2) { exRolled with tag := 0x8001 })
      (by decide)) (getRandomCommand 2) (shy rolling) 7 = ⟨.ok (exRolled.params, .unit), 7⟩ := by
  refine (C81_success_iff _ (getRandomCommand 2) _ _ _ (by decide) trivial ⟨by decide, trivial⟩
    ?_ _ _).2 ⟨true, none, 7, 20, { exRolled with tag := 0x8001 }, (List.replicate 4096 0).drop 20,
      7, ⟨some rolling, none, none⟩, 7, .nothing rfl rfl, ⟨trivial, by decide, fun _ h => (nomatch h),
        by decide⟩, ?_, rfl, .cons rfl (.nil _), ⟨by decide, by decide, trivial, by decide, ?_⟩, rfl,
      rfl, rfl, rfl, ?_⟩
  · intro w d w' h s hs
    simp only [shy, Prod.mk.injEq, Option.some.injEq] at h
    rw [← h.1] at hs
    exact rolling_hasTy s hs
  · have : (responseBytes (getRandomCommand 2) { exRolled with tag := 0x8001 }).length = 20 := by
      decide
    simp only [answering, List.length_replicate, if_true, this]
  · intro v hv
    rw [show ({ exRolled with tag := 0x8001 } : Response).auths = [_] from rfl,
      List.mem_singleton] at hv
    subst hv
    decide
  · intro v hv
    rw [show ({ exRolled with tag := 0x8001 } : Response).auths = [_] from rfl,
      List.mem_singleton] at hv
    subst hv
    rfl

/-- The areas of the crate, with a session that changes. -/
example (tr : LiveTransport Nat ε) (w : Nat) :
    runFree tr (getRandomCommand 2) (free1 rolling) w =
      runLive tr (getRandomCommand 2) (live1 rolling) w :=
  C81_steady tr _ _ _ (C81_provided _ _ fun _ => rfl) w

/-- An area that counts how often it is decomposed, and panics after the second
time. -/
def counting : FreeArea Nat :=
  .provided fun w => (if w < 2 then some ⟨none, none, none⟩ else none, w + 1)

example : counting.isEmpty 1 = (some true, 2) ∧ counting.isEmpty 2 = (none, 3) := ⟨rfl, rfl⟩

example (tr : LiveTransport Nat ε) : runFree tr (getRandomCommand 2) counting 2 = ⟨.panic, 3⟩ :=
  C81_panics tr _ _ 2 3 ((C81_provided_asks _ 2).1 3 rfl)

end Verif.Client
