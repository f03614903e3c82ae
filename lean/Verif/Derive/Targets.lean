import Verif.Derive.BaseProps

/-
C102: the declarations of the base crate on targets with different alignments.  The
capacities of sized buffers and lists are computed from `size_of` of other types, which
counts padding and so depends on the alignment of the integers.
-/

namespace Verif.Derive
open Verif

/-- Alignments on 32-bit x86: `u64` is aligned to four bytes, the smaller integers to
their size. -/
def al32 (n : Nat) : Nat := min n 4

/-- The alignments of the targets considered. -/
def Aligned (al : Nat → Nat) : Prop := al = al64 ∨ al = al32

/-- The layout on 32-bit x86, from the one on 64-bit targets: the capacity of
`Tpm2bAttest` (base/src/lib.rs:804-810) is smaller. -/
def on32 (x : Ident × Ty) : Ident × Ty :=
  (x.1, if x.1 = "Tpm2bAttest" then .tpm2b 2292 else x.2)

/-- All declarations can be read on 32-bit x86, with these layouts and the constants of
64-bit targets. -/
def targetCheck : Bool :=
  match (Env.emptyOn al32).addAll Decls.all, Env.empty.addAll Decls.all with
  | some e, some e' => sameTable e.types (e'.types.map on32) && decide (e.consts = e'.consts) &&
      decide (e.assoc = e'.assoc)
  | _, _ => false

set_option maxRecDepth 100000 in
theorem targetCheck_true : targetCheck = true := by decide +kernel

theorem targets : ∃ e e', Env.empty.addAll Decls.all = some e ∧
    (Env.emptyOn al32).addAll Decls.all = some e' ∧ e'.types = e.types.map on32 ∧
    e'.consts = e.consts ∧ e'.assoc = e.assoc := by
  have h := targetCheck_true
  unfold targetCheck at h
  split at h
  · rename_i e e' he he'
    simp only [Bool.and_eq_true, decide_eq_true_eq] at h
    exact ⟨e', e, he', he, sameTable_eq h.1.1, h.1.2, h.2⟩
  · cases h

theorem lookup_on32 (i : Ident) : ∀ (l : List (Ident × Ty)),
    (l.map on32).lookup i = (l.lookup i).map fun t => if i = "Tpm2bAttest" then .tpm2b 2292 else t
  | [] => rfl
  | x :: l => by
    obtain ⟨j, t⟩ := x
    show List.lookup i ((j, _) :: List.map on32 l) = _
    rw [List.lookup_cons, List.lookup_cons, lookup_on32 i l]
    by_cases h : i = j
    · subst h; simp
    · have : (i == j) = false := by simpa using h
      simp [this]

end Verif.Derive
