import Verif.Tcg.Commands

/-
C77: which responses the client takes for an answer, against the response
structures of Part 1 (clause 18).
-/

namespace Verif.Tcg
open Verif Verif.Client

/-- A response of the standard except that tag and parameter size may be
anything (the latter is there if the tag says so): what
crates/tpm2-client/src/lib.rs:178-194 makes of the response structure. -/
def IsLoose (q : Shape) (tag size : Nat) (params : Bytes) (auths : List Bytes) (b : Bytes) : Prop :=
  Valid q params ∧ (∀ a ∈ auths, Valid TPMS_AUTH_RESPONSE a) ∧ tag < 65536 ∧ size < 2 ^ 32 ∧
  b = digits256 2 tag ++ digits256 4 b.length ++ digits256 4 0 ++
    (if tag = 0x8002 then digits256 4 size else []) ++ params ++ auths.flatten

/-- With the right tag and the right size it is a response of the standard. -/
theorem IsLoose.isResponse {q : Shape} {tag size : Nat} {params : Bytes} {auths : List Bytes}
    {b : Bytes} (h : IsLoose q tag size params auths b)
    (ht : tag = if auths = [] then 0x8001 else 0x8002)
    (hs : auths = [] ∨ size = params.length) : IsResponse q params auths b := by
  obtain ⟨h1, h2, -, -, h5⟩ := h
  refine ⟨h1, h2, ?_⟩
  rcases hs with rfl | rfl
  · subst ht; exact h5
  · by_cases ha : auths = []
    · subst ha; subst ht; exact h5
    · rw [if_neg ha] at ht ⊢; subst ht; rw [if_neg ha]; exact h5

theorem acceptAll_of : ∀ (ss : List Session) (vs : List Val),
    (∀ v ∈ vs, WF Base.TpmsAuthResponse v) → (∀ v ∈ vs, canon Base.TpmsAuthResponse v = v) →
    Accepted ss vs → AcceptAll ss (vs.map (wire Base.TpmsAuthResponse))
  | [], [], _, _, _ => trivial
  | [], _ :: _, _, _, h => h.elim
  | _ :: _, [], _, _, h => h.elim
  | s :: ss, v :: vs, h1, h2, h3 => by
    refine ⟨⟨v, ?_, h3.1⟩, acceptAll_of ss vs (fun x hx => h1 x (List.mem_cons_of_mem _ hx))
      (fun x hx => h2 x (List.mem_cons_of_mem _ hx)) h3.2⟩
    have := (goodTy Base.TpmsAuthResponse).complete v [] (h1 v List.mem_cons_self)
    rwa [List.append_nil, h2 v List.mem_cons_self] at this

theorem returned (i : Impl) (q : Part3) (hm : Meets i q) {σ ε : Type} (tr : Transport σ ε) (v : Val)
    (a : Area) (s : σ) (x y : Val)
    (hw : CmdWF (i.with v) a) (hfit : (commandBytes (i.with v) a.active).length ≤ 4096)
    (hok : (runCommandWithHandles tr (i.with v) a s).result = .ok (x, y)) :
    ∃ k rsp rest s' tag size params auths,
      tr.transact s (commandBytes (i.with v) a.active) (List.replicate 4096 0) =
        (.reported k, rsp ++ rest, s') ∧
      IsLoose q.response tag size params auths rsp ∧ AcceptAll a.active auths ∧
      unmarshal i.respTy params = (.ok x, []) := by
  rcases ht : tr.transact s (commandBytes (i.with v) a.active) (List.replicate 4096 0) with
    ⟨k | e, buf, s'⟩
  · have hl : buf.length = 4096 := by
      have := tr.keeps_length s (commandBytes (i.with v) a.active) (List.replicate 4096 0)
      rw [ht, List.length_replicate] at this; exact this
    rw [run_eq tr _ a s hw hfit, ht] at hok
    have hr : readResponse (i.with v) a buf = .ok (x, y) := by
      change (readResponse (i.with v) a buf).mapErr _ = _ at hok
      revert hok; cases readResponse (i.with v) a buf <;> simp [Res.mapErr]
    obtain ⟨r, rest, h1, rfl, rfl, rfl, h5, -, h7, h8⟩ :=
      (readResponse_ok_iff _ a buf hl x y).1 hr
    obtain ⟨w1, w2, w3, w4, w5⟩ := h1
    refine ⟨k, responseBytes (i.with v) r, rest, s', r.tag, r.paramSize, wire i.respTy r.params,
      r.auths.map (wire Base.TpmsAuthResponse), rfl, ⟨hm.response.valid w4, ?_, w1, w2, ?_⟩,
      acceptAll_of _ _ w5 h7 h8, ?_⟩
    · intro b hb
      obtain ⟨z, hz, rfl⟩ := List.mem_map.mp hb
      exact agrees_authResponse.valid (w5 z hz)
    · have hu : wire (i.with v).respHandlesTy r.handles = [] := by
        show wire i.respHandlesTy r.handles = []
        rw [hm.respHandles]; simp [wire]
      have e : (responseBytes (i.with v) r).length = 10 + (responseBody (i.with v) r).length := by
        simp [responseBytes]; omega
      rw [e]
      unfold responseBytes responseBody
      rw [hu]
      simp [wires, Impl.with]
    · have := (goodTy i.respTy).complete r.params [] w4
      rw [List.append_nil] at this
      rw [this]
      exact congrArg (fun z => (Res.ok z, [])) h5
  · rw [run_eq tr _ a s hw hfit, ht] at hok
    simp at hok

theorem taken (i : Impl) (q : Part3) (hm : Meets i q) {σ ε : Type} (tr : Transport σ ε) (v : Val)
    (a : Area) (s s' : σ) (k tag size : Nat) (rsp rest params : Bytes) (auths : List Bytes) (x : Val)
    (hw : CmdWF (i.with v) a) (hfit : (commandBytes (i.with v) a.active).length ≤ 4096)
    (ht : tr.transact s (commandBytes (i.with v) a.active) (List.replicate 4096 0) =
      (.reported k, rsp ++ rest, s'))
    (hr : IsLoose q.response tag size params auths rsp) (hacc : AcceptAll a.active auths)
    (hx : unmarshal i.respTy params = (.ok x, [])) :
    (runCommandWithHandles tr (i.with v) a s).result = .ok (x, .unit) := by
  obtain ⟨g1, g2, g3⟩ := (goodTy i.respTy).sound _ _ _ hx
  rw [List.append_nil] at g3
  obtain ⟨vs, h1, h2, h3⟩ := accepted_of a.active auths hacc
  obtain ⟨-, -, htag, hsize, hrsp⟩ := hr
  have hu : (i.with v).respHandlesTy = .unit := hm.respHandles
  have hd := C34_delivered tr (i.with v) a s s' hw hfit k ⟨tag, .unit, size, x, vs⟩ rest
    ⟨htag, hsize, by rw [hu]; trivial, g1, h1⟩ ?_ h2
  · rw [hd, hu]
    show Res.ok (canon i.respTy x, canon .unit .unit) = _
    rw [g2]; rfl
  · rw [ht]
    have : responseBytes (i.with v) ⟨tag, .unit, size, x, vs⟩ = rsp := by
      have hsz := congrArg List.length hrsp
      simp only [List.length_append, digits256_length] at hsz
      rw [hrsp]
      unfold responseBytes responseBody
      rw [hu]
      show _ ++ digits256 4 (10 + (_ ++ _ ++ wire i.respTy x ++ _).length) ++ _ ++
        (_ ++ _ ++ wire i.respTy x ++ _) = _
      rw [← g3, h3]
      simp only [wire, List.nil_append, List.append_assoc, List.length_append]
      congr 2
      have : rsp.length = 10 + ((if tag = 0x8002 then digits256 4 size else [] : Bytes).length +
          (params.length + auths.flatten.length)) := by omega
      rw [this]
    rw [this]

/-! ### C77 -/

theorem validCase_append : ∀ (l r : List (Nat × Shape)) (sel : Nat) (b : Bytes),
    ValidCase (cases l) sel b → ValidCase (cases (l ++ r)) sel b
  | [], _, _, _, h => by simp [cases, ValidCase] at h
  | (k, t) :: l, r, sel, b, h => by
    simp only [List.cons_append, cases, ValidCase] at h ⊢
    split
    · rename_i e; rwa [if_pos e] at h
    · rename_i e; rw [if_neg e] at h; exact validCase_append l r sel b h

/-- Capability data of the crate is capability data of the standard. -/
theorem capability_sub (b : Bytes) (h : Valid (TPM2_GetCapability_Response crate) b) :
    Valid (TPM2_GetCapability_Response standard) b := by
  simp only [TPM2_GetCapability_Response, T, rows, Valid, ValidRows, TPMS_CAPABILITY_DATA] at h ⊢
  obtain ⟨c, d, rfl, h1, c', d', rfl, ⟨c2, d2, rfl, h2, s, hs, c3, d3, rfl, h3, h4⟩, h5⟩ := h
  refine ⟨c, _, rfl, h1, _, d', rfl, ⟨c2, _, rfl, h2, s, hs, c3, d3, rfl, ?_, h4⟩, h5⟩
  exact validCase_append _ [(0x0A, TPML_ACT_DATA)] s c3 h3

/-- **C77 (partial).** If the client returns a value, the response begins with a
response of the standard to the command, with one authorization response for
each session, accepted by it, and the value is that of its parameters.  Missing:
tag and parameter size may be anything; with the right ones it is a response of
the standard (second part). -/
theorem C77_returned_partial (n : String) (p : Part3) (h : (n, p) ∈ part3 standard) :
    ∃ i, (n, i) ∈ impls ∧ ∀ (σ ε : Type) (tr : Transport σ ε) (v : Val) (a : Area) (s : σ) (x y : Val),
      HasTy i.paramTy v → (∀ x ∈ a.active, HasTy Base.TpmsAuthCommand x.authCommand) →
      (runCommandWithHandles tr (i.with v) a s).result = .ok (x, y) →
      ∃ k rsp rest s' tag size params auths,
        tr.transact s (commandBytes (i.with v) a.active) (List.replicate 4096 0) =
          (.reported k, rsp ++ rest, s') ∧
        IsLoose p.response tag size params auths rsp ∧
        (tag = (if auths = [] then 0x8001 else 0x8002) → auths = [] ∨ size = params.length →
          IsResponse p.response params auths rsp) ∧
        auths.length = a.active.length ∧ AcceptAll a.active auths ∧
        unmarshal i.respTy params = (.ok x, []) := by
  obtain ⟨i, q, hi, hm, hsub⟩ : ∃ i q, (n, i) ∈ impls ∧ Meets i q ∧
      ∀ b, Valid q.response b → Valid p.response b := by
    by_cases hn : n = "GetCapability"
    · subst hn
      obtain ⟨i, hi, hm⟩ := meets_crate "GetCapability" _ (List.mem_of_getElem? (i := 3) rfl)
      refine ⟨i, _, hi, hm, fun b hb => ?_⟩
      simp only [part3, List.mem_cons, List.not_mem_nil, or_false, Prod.mk.injEq] at h
      obtain ⟨h, -⟩ | ⟨h, -⟩ | ⟨h, -⟩ | ⟨-, rfl⟩ := h
      · exact absurd h (by decide)
      · exact absurd h (by decide)
      · exact absurd h (by decide)
      · exact capability_sub b hb
    · obtain ⟨i, q, hi, hm, -, -, h3⟩ := meets_standard n p h
      exact ⟨i, q, hi, hm, fun b hb => h3 hn ▸ hb⟩
  refine ⟨i, hi, fun σ ε tr v a s x y hv ha hok => ?_⟩
  have hu : HasTy (i.with v).handlesTy (i.with v).handles := by
    simp [Impl.with, hm.handles, HasTy]
  obtain ⟨hw, hfit⟩ := run_wf tr (i.with v) a s hm.small hu hv ha (.inr (by rw [hok]; rfl))
  obtain ⟨k, rsp, rest, s', tag, size, params, auths, h1, h2, h3, h4⟩ :=
    returned i q hm tr v a s x y hw hfit hok
  have h2' : IsLoose p.response tag size params auths rsp := ⟨hsub _ h2.1, h2.2⟩
  refine ⟨k, rsp, rest, s', tag, size, params, auths, h1, h2', h2'.isResponse, ?_, h3, h4⟩
  clear h1 h2 h2' hw hfit ha hok
  generalize a.active = ss at h3
  induction ss generalizing auths with
  | nil => cases auths with
    | nil => rfl
    | cons b bs => exact h3.elim
  | cons z zs ih => cases auths with
    | nil => exact h3.elim
    | cons b bs => simp [ih bs h3.2]

/-- **C77**: the responses that are taken for an answer, exactly. -/
theorem C77_exact (n : String) (p : Part3) (h : (n, p) ∈ part3 crate) :
    ∃ i, (n, i) ∈ impls ∧ ∀ (σ ε : Type) (tr : Transport σ ε) (v : Val) (a : Area) (s : σ) (x : Val),
      CmdWF (i.with v) a → (commandBytes (i.with v) a.active).length ≤ 4096 →
      ((runCommandWithHandles tr (i.with v) a s).result = .ok (x, .unit) ↔
        ∃ k rsp rest s' tag size params auths,
          tr.transact s (commandBytes (i.with v) a.active) (List.replicate 4096 0) =
            (.reported k, rsp ++ rest, s') ∧
          IsLoose p.response tag size params auths rsp ∧ AcceptAll a.active auths ∧
          unmarshal i.respTy params = (.ok x, [])) := by
  obtain ⟨i, hi, hm⟩ := meets_crate n p h
  refine ⟨i, hi, fun σ ε tr v a s x hw hfit => ⟨returned i p hm tr v a s x .unit hw hfit, ?_⟩⟩
  rintro ⟨k, rsp, rest, s', tag, size, params, auths, h1, h2, h3, h4⟩
  exact taken i p hm tr v a s s' k tag size rsp rest params auths x hw hfit h1 h2 h3 h4

/-! ### Violations -/

/-- The command GetRandom with its implementation. -/
def random : Impl := ⟨Base.Cc.GetRandom, .unit, Base.GetRandomCmd, Base.GetRandomResp, .unit⟩

/-- Responses to GetRandom(2), with the sessions of the command. -/
def answers : List (Area × Bytes) := [
  -- no tag of a response
  (area0, [0x12, 0x34, 0, 0, 0, 14, 0, 0, 0, 0, 0, 2, 0xAA, 0xBB]),
  -- a response with sessions to a command without
  (area0, [0x80, 0x02, 0, 0, 0, 18, 0, 0, 0, 0, 0, 0, 0, 4, 0, 2, 0xAA, 0xBB]),
  -- a response without sessions to a command with one
  (area1 exSession, [0x80, 0x01, 0, 0, 0, 19, 0, 0, 0, 0, 0, 2, 0xAA, 0xBB, 0, 0, 1, 0, 0]),
  -- wrong parameter size
  (area1 exSession, [0x80, 0x02, 0, 0, 0, 23, 0, 0, 0, 0, 0, 0, 0, 0, 0, 2, 0xAA, 0xBB, 0, 0, 1, 0, 0])]

theorem random_wf (a : Area) (ha : a = area0 ∨ a = area1 exSession) :
    CmdWF (random.with (.struct [.int 2])) a := by
  rcases ha with rfl | rfl
  · exact exCmdWF0 2 (by decide)
  · exact ⟨by decide, trivial, by decide, exCmdWF.auths⟩

theorem agrees_random : Agrees Base.GetRandomResp TPM2_GetRandom_Response :=
  agrees_of_conf (by decide +kernel)

theorem no_response {params : Bytes} {auths : List Bytes} {b : Bytes}
    (h : IsResponse TPM2_GetRandom_Response params auths b) :
    (b.take 2 = [0x80, 0x01] ∧ auths = [] ∧ accepts Base.GetRandomResp (b.drop 10) = true) ∨
    (b.take 2 = [0x80, 0x02] ∧ auths ≠ [] ∧ (b.drop 10).take 4 = digits256 4 params.length ∧
      b.drop 14 = params ++ auths.flatten ∧ params ≠ [] ∧ auths.flatten ≠ []) := by
  obtain ⟨h1, h2, h3⟩ := h
  by_cases ha : auths = []
  · subst ha
    rw [if_pos rfl, if_pos rfl] at h3
    refine .inl ⟨by rw [h3]; rfl, rfl, ?_⟩
    rw [h3, List.append_nil, List.flatten_nil, List.append_nil, List.drop_append_of_le_length (by simp),
      List.drop_of_length_le (by simp), List.nil_append, accepts_eq]
    exact (agrees_random _).mpr h1
  · rw [if_neg ha, if_neg ha] at h3
    refine .inr ⟨by rw [h3]; rfl, ha, ?_, ?_, ?_, ?_⟩
    · rw [h3, List.append_assoc, List.append_assoc, List.drop_append_of_le_length (by simp),
        List.drop_of_length_le (by simp), List.nil_append, List.take_append_of_le_length (by simp),
        List.take_of_length_le (by simp)]
    · rw [h3, List.append_assoc, List.drop_append_of_le_length (by simp),
        List.drop_of_length_le (by simp), List.nil_append]
    · rintro rfl
      have := accepts_eq.mpr ((agrees_random _).mpr h1)
      exact absurd this (by decide +kernel)
    · rcases auths with _ | ⟨c, cs⟩
      · exact absurd rfl ha
      · intro e
        have hc : c = [] := by simp at e; exact e.1
        have := accepts_eq.mpr ((agrees_authResponse _).mpr (h2 c List.mem_cons_self))
        rw [hc] at this
        exact absurd this (by decide +kernel)

set_option maxRecDepth 100000 in
/-- **C77 is violated**: four responses that are none of the standard are taken
for an answer. -/
theorem C77_violated (a : Area) (b : Bytes) (h : (a, b) ∈ answers) :
    (∀ params auths, ¬ IsResponse TPM2_GetRandom_Response params auths b) ∧
    ∀ hb : 10 ≤ b.length,
      (runCommandWithHandles (replay b 10 hb) (random.with (.struct [.int 2])) a 0).result =
        .ok (.struct [.tpm2b 2 ([0xAA, 0xBB] ++ List.replicate 62 0)], .unit) := by
  simp only [answers, List.mem_cons, List.not_mem_nil, or_false, Prod.mk.injEq] at h
  constructor
  · intro params auths hr
    obtain ⟨rfl, rfl⟩ | ⟨rfl, rfl⟩ | ⟨rfl, rfl⟩ | ⟨rfl, rfl⟩ := h
    · rcases no_response hr with ⟨h, -⟩ | ⟨h, -⟩ <;> exact absurd h (by decide)
    · rcases no_response hr with ⟨h, -⟩ | ⟨-, -, h1, h2, -, h3⟩
      · exact absurd h (by decide)
      · have hl := congrArg List.length h2
        have h4 := congrArg positional h1
        have hp : params.length < 256 ^ 4 := by
          rw [List.length_append] at hl
          have : params.length ≤ 4 := by rw [show (List.drop 14 _ : Bytes).length = 4 from rfl] at hl; omega
          omega
        rw [positional_digits256, Nat.mod_eq_of_lt hp] at h4
        rw [List.length_append, ← h4] at hl
        have : auths.flatten.length = 0 := by
          have e : (4 : Nat) = 4 + auths.flatten.length := hl
          omega
        exact h3 (List.length_eq_zero_iff.mp this)
    · rcases no_response hr with ⟨-, -, h⟩ | ⟨h, -⟩
      · exact absurd h (by decide +kernel)
      · exact absurd h (by decide)
    · rcases no_response hr with ⟨h, -⟩ | ⟨-, -, h1, h2, h3, -⟩
      · exact absurd h (by decide)
      · have hl := congrArg List.length h2
        have h4 := congrArg positional h1
        have hp : params.length < 256 ^ 4 := by
          rw [List.length_append] at hl
          have : params.length ≤ 9 := by rw [show (List.drop 14 _ : Bytes).length = 9 from rfl] at hl; omega
          omega
        rw [positional_digits256, Nat.mod_eq_of_lt hp] at h4
        exact h3 (List.length_eq_zero_iff.mp h4.symm)
  · intro hb
    obtain ⟨rfl, rfl⟩ | ⟨rfl, rfl⟩ | ⟨rfl, rfl⟩ | ⟨rfl, rfl⟩ := h
    · rw [run_eq _ _ _ _ (random_wf _ (.inl rfl)) (by decide), replay_transact _ _ _ _ _ (by decide)]; rfl
    · rw [run_eq _ _ _ _ (random_wf _ (.inl rfl)) (by decide), replay_transact _ _ _ _ _ (by decide)]; rfl
    · rw [run_eq _ _ _ _ (random_wf _ (.inr rfl)) (by decide), replay_transact _ _ _ _ _ (by decide)]; rfl
    · rw [run_eq _ _ _ _ (random_wf _ (.inr rfl)) (by decide), replay_transact _ _ _ _ _ (by decide)]; rfl

/-! ### Non-vacuity -/

/-- The response of a TPM to GetRandom(2) with the password session. -/
def exAnswer : Bytes :=
  [0x80, 0x02, 0, 0, 0, 23, 0, 0, 0, 0, 0, 0, 0, 4, 0, 2, 0xAA, 0xBB, 0, 0, 1, 0, 0]

set_option maxRecDepth 100000 in
theorem exAnswer_returned : (runCommandWithHandles (replay exAnswer 23 (by decide))
    (random.with (.struct [.int 2])) (area1 exSession) 0).result =
      .ok (.struct [.tpm2b 2 ([0xAA, 0xBB] ++ List.replicate 62 0)], .unit) := by
  rw [run_eq _ _ _ _ (random_wf _ (.inr rfl)) (by decide), replay_transact _ _ _ _ _ (by decide)]; rfl

theorem exAnswer_is : IsResponse TPM2_GetRandom_Response [0, 2, 0xAA, 0xBB] [[0, 0, 1, 0, 0]]
    exAnswer := by
  refine ⟨?_, ?_, by decide⟩
  · rw [← agrees_random, ← accepts_eq]; decide +kernel
  · intro a ha
    rw [List.mem_singleton] at ha
    subst ha
    rw [← agrees_authResponse, ← accepts_eq]
    decide +kernel

set_option maxRecDepth 100000 in
theorem exAnswer_accepted : AcceptAll (area1 exSession).active [[0, 0, 1, 0, 0]] :=
  ⟨⟨.struct [.tpm2b 0 (List.replicate 64 0), .struct [.int 1], .tpm2b 0 (List.replicate 64 0)],
    rfl, rfl⟩, trivial⟩

/-- So `C74_answer_partial` applies to it. -/
example : ∃ x, (runCommandWithHandles (replay exAnswer 23 (by decide))
    (random.with (.struct [.int 2])) (area1 exSession) 0).result = .ok (x, .unit) ∧
      unmarshal Base.GetRandomResp [0, 2, 0xAA, 0xBB] = (.ok x, []) := by
  obtain ⟨i, hi, h⟩ := C74_answer_partial "GetRandom" _ (List.mem_of_getElem? (i := 1) rfl) (by decide)
  simp only [impls, List.mem_cons, List.not_mem_nil, or_false, Prod.mk.injEq] at hi
  obtain ⟨hi, -⟩ | ⟨-, rfl⟩ | ⟨hi, -⟩ | ⟨hi, -⟩ := hi
  · exact absurd hi (by decide)
  · exact h _ _ (replay exAnswer 23 (by decide)) _ _ 0 1 23 exAnswer _ _ _ (random_wf _ (.inr rfl))
      (by decide) (replay_transact _ _ _ _ _ (by decide)) exAnswer_is exAnswer_accepted
  · exact absurd hi (by decide)
  · exact absurd hi (by decide)

/-- As does `C77_returned_partial`. -/
example : ∃ k rsp rest s' tag size params auths,
    (replay exAnswer 23 (by decide)).transact 0
      (commandBytes (random.with (.struct [.int 2])) (area1 exSession).active) (List.replicate 4096 0) =
        (.reported k, rsp ++ rest, s') ∧
    IsLoose TPM2_GetRandom_Response tag size params auths rsp ∧ auths.length = 1 := by
  obtain ⟨i, hi, h⟩ := C77_returned_partial "GetRandom" _ (List.mem_of_getElem? (i := 1) rfl)
  simp only [impls, List.mem_cons, List.not_mem_nil, or_false, Prod.mk.injEq] at hi
  obtain ⟨hi, -⟩ | ⟨-, rfl⟩ | ⟨hi, -⟩ | ⟨hi, -⟩ := hi
  · exact absurd hi (by decide)
  · obtain ⟨k, rsp, rest, s', tag, size, params, auths, h1, h2, -, h3, -⟩ :=
      h _ _ (replay exAnswer 23 (by decide)) _ _ 0 _ _ (by decide) (by
        intro x hx
        rw [show x = exSession by simpa [Area.active, area1] using hx]
        decide) exAnswer_returned
    exact ⟨k, rsp, rest, s', tag, size, params, auths, h1, h2, h3⟩
  · exact absurd hi (by decide)
  · exact absurd hi (by decide)

end Verif.Tcg
