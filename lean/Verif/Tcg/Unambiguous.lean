import Verif.Tcg.Commands
import Verif.Client.Unambiguous

/-
Property theorem C104 for the commands declared in the base crate.
-/

namespace Verif.Tcg
open Verif Verif.Client

/-- The commands of the crate have different codes. -/
theorem impls_names (n n' : String) (i i' : Impl) (h : (n, i) ∈ impls) (h' : (n', i') ∈ impls)
    (hc : i.code = i'.code) : n = n' ∧ i = i' := by
  simp only [impls, List.mem_cons, List.not_mem_nil, or_false, Prod.mk.injEq] at h h'
  rcases h with ⟨rfl, rfl⟩ | ⟨rfl, rfl⟩ | ⟨rfl, rfl⟩ | ⟨rfl, rfl⟩ <;>
  rcases h' with ⟨rfl, rfl⟩ | ⟨rfl, rfl⟩ | ⟨rfl, rfl⟩ | ⟨rfl, rfl⟩ <;>
  first
  | exact ⟨rfl, rfl⟩
  | exact absurd hc (by decide)

/-- **C104**: two of the crate's commands with any arguments are handed over as
the same bytes exactly if they are the same command with the same parameters
and the same authorizations. -/
theorem C104_base {σ ε σ' ε' : Type} (tr : Transport σ ε) (tr' : Transport σ' ε')
    (n n' : String) (i i' : Impl) (hi : (n, i) ∈ impls) (hi' : (n', i') ∈ impls)
    (v v' : Val) (a a' : Area) (s : σ) (s' : σ')
    (hv : HasTy i.paramTy v) (hv' : HasTy i'.paramTy v')
    (ha : ∀ s ∈ a.active, HasTy Base.TpmsAuthCommand s.authCommand)
    (ha' : ∀ s ∈ a'.active, HasTy Base.TpmsAuthCommand s.authCommand)
    (hsent : (runCommandWithHandles (recording tr) (i.with v) a (s, [])).state.2 ≠ [])
    (hsent' : (runCommandWithHandles (recording tr') (i'.with v') a' (s', [])).state.2 ≠ []) :
    (runCommandWithHandles (recording tr) (i.with v) a (s, [])).state.2 =
      (runCommandWithHandles (recording tr') (i'.with v') a' (s', [])).state.2 ↔
    n = n' ∧ canon i.paramTy v = canon i'.paramTy v' ∧
    a.active.map (fun s => canon Base.TpmsAuthCommand s.authCommand) =
      a'.active.map (fun s => canon Base.TpmsAuthCommand s.authCommand) := by
  have hu : ∀ (m : String) (j : Impl), (m, j) ∈ impls →
      j.handlesTy = .unit ∧ j.code < 2 ^ 32 := by
    intro m j hj
    simp only [impls, List.mem_cons, List.not_mem_nil, or_false, Prod.mk.injEq] at hj
    rcases hj with ⟨_, rfl⟩ | ⟨_, rfl⟩ | ⟨_, rfl⟩ | ⟨_, rfl⟩ <;> exact ⟨rfl, by decide⟩
  have name : ∀ (m : String) (j j' : Impl), (m, j) ∈ impls → (m, j') ∈ impls → j = j' := by
    intro m j j' hj hj'
    simp only [impls, List.mem_cons, List.not_mem_nil, or_false, Prod.mk.injEq] at hj hj'
    rcases hj with ⟨e, rfl⟩ | ⟨e, rfl⟩ | ⟨e, rfl⟩ | ⟨e, rfl⟩ <;>
    rcases hj' with ⟨e', rfl⟩ | ⟨e', rfl⟩ | ⟨e', rfl⟩ | ⟨e', rfl⟩ <;>
    first | rfl | (rw [e] at e'; exact absurd e' (by decide))
  have ht : SameTypes (i.with v) (i'.with v') := fun hc => by
    obtain ⟨_, rfl⟩ := impls_names n n' i i' hi hi' hc
    exact ⟨rfl, rfl⟩
  rw [C104_sent tr tr' (i.with v) (i'.with v') a a' s s' (hu n i hi).2 (hu n' i' hi').2
    (by simp [Impl.with, (hu n i hi).1, HasTy]) (by simp [Impl.with, (hu n' i' hi').1, HasTy])
    hv hv' ha ha' ht hsent hsent']
  simp only [SameCommand, Impl.with]
  constructor
  · rintro ⟨e1, _, e3, e4⟩
    exact ⟨(impls_names n n' i i' hi hi' e1).1, e4, e3⟩
  · rintro ⟨rfl, e2, e3⟩
    obtain rfl := name n i i' hi hi'
    exact ⟨rfl, rfl, e3, e2⟩

/-- Startup and GetRandom, and Startup with another parameter. -/
example (tr : Transport Nat Unit) (i j : Impl) (hi : ("Startup", i) ∈ impls)
    (hj : ("GetRandom", j) ∈ impls) (v w : Val) (a b : Area)
    (hv : HasTy i.paramTy v) (hw : HasTy j.paramTy w)
    (ha : ∀ s ∈ a.active, HasTy Base.TpmsAuthCommand s.authCommand)
    (hb : ∀ s ∈ b.active, HasTy Base.TpmsAuthCommand s.authCommand)
    (h1 : (runCommandWithHandles (recording tr) (i.with v) a (0, [])).state.2 ≠ [])
    (h2 : (runCommandWithHandles (recording tr) (j.with w) b (0, [])).state.2 ≠ []) :
    (runCommandWithHandles (recording tr) (i.with v) a (0, [])).state.2 ≠
    (runCommandWithHandles (recording tr) (j.with w) b (0, [])).state.2 := fun h =>
  absurd ((C104_base tr tr _ _ i j hi hj v w a b 0 0 hv hw ha hb h1 h2).1 h).1 (by decide)

/-- The hypotheses are met: GetRandom for 4 bytes is handed over. -/
example (tr : Transport Nat Unit) :
    ∃ i, ("GetRandom", i) ∈ impls ∧ HasTy i.paramTy (.struct [.int 4]) ∧
    (runCommandWithHandles (recording tr) (i.with (.struct [.int 4])) area0 (0, [])).state.2 ≠ [] := by
  refine ⟨⟨Base.Cc.GetRandom, .unit, Base.GetRandomCmd, Base.GetRandomResp, .unit⟩,
    by simp [impls], by decide, ?_⟩
  have e : (⟨Base.Cc.GetRandom, .unit, Base.GetRandomCmd, Base.GetRandomResp, .unit⟩ : Impl).with
      (.struct [.int 4]) = getRandomCommand 4 := rfl
  rw [e, C31_sent tr (getRandomCommand 4) area0 0 [] (exCmdWF0 4 (by decide)) (exFit0 4)]
  exact List.cons_ne_nil _ _

end Verif.Tcg
