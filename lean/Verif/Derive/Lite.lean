import Verif.Derive.Program

/-
The constants of a crate read without its types.  Only used to compute with the constants of
Verif/Derive/Decls.lean; nothing in /repo.
-/

namespace Verif.Derive
open Verif

/-- Every constant of the one is in the other. -/
structure Env.Sub (e e' : Env) : Prop where
  consts : ∀ x n, e.consts.lookup x = some n → e'.consts.lookup x = some n
  assoc : ∀ t l, e.assoc.lookup t = some l → e'.assoc.lookup t = some l
  types : e.types = []
  opaques : e.opaques = []
  al : e.al = e'.al

/-- Adds a declaration of constants, if their values are known. -/
def Env.addLite (e : Env) : Decl → Env
  | .const name v =>
    match e.eval v with
    | some n => { e with consts := (name, n) :: e.consts }
    | none => e
  | .assoc type l =>
    match e.evalAll l with
    | some l => { e with assoc := (type, l) :: e.assoc }
    | none => e
  | _ => e

/-- Adds declarations in order. -/
def Env.addLiteAll (e : Env) : List Decl → Env
  | [] => e
  | d :: ds => (e.addLite d).addLiteAll ds

theorem Env.Sub.const {e e' : Env} (h : e.Sub e') : ∀ x n, e.const x = some n → e'.const x = some n := by
  intro x n hx
  unfold Env.const at hx ⊢
  split at hx
  · exact h.consts _ _ hx
  · exact h.consts _ _ hx
  · rename_i t y hne
    cases ht : e.assoc.lookup t with
    | none => rw [ht] at hx; simp at hx
    | some l =>
      rw [ht] at hx
      simp only [h.assoc _ _ ht]
      exact hx
  · simp at hx

theorem Env.Sub.sizeOf {e e' : Env} (h : e.Sub e') (t : TypeE) (n : Nat)
    (hx : e.sizeOf t = some n) : e'.sizeOf t = some n := by
  unfold Env.sizeOf at hx ⊢
  split at hx
  · split at hx
    · simp at hx
    · rename_i i hi
      rw [h.types, h.opaques] at hx
      simp only [List.lookup_nil, Option.or_none] at hx
      cases hi' : intTy i with
      | none => rw [hi'] at hx; simp at hx
      | some t => rw [hi'] at hx; simpa [← h.al] using hx
  · simp at hx

theorem Expr.eval_mono {const const' : List Ident → Option Nat} {size size' : TypeE → Option Nat}
    (hc : ∀ x n, const x = some n → const' x = some n)
    (hs : ∀ x n, size x = some n → size' x = some n) (x : Expr) :
    ∀ n, x.eval const size = some n → x.eval const' size' = some n := by
  induction x using Expr.eval.induct const size <;> intro n h <;> unfold Expr.eval at h ⊢
  all_goals try simp_all
  rename_i p
  cases hp : p.names with
  | none => rw [hp] at h; simp at h
  | some l => rw [hp] at h; exact hc _ _ h

theorem Env.Sub.eval {e e' : Env} (h : e.Sub e') (x : Expr) (n : Nat) (hx : e.eval x = some n) :
    e'.eval x = some n :=
  Expr.eval_mono h.const h.sizeOf x n hx

theorem Env.Sub.evalAll {e e' : Env} (h : e.Sub e') : ∀ (l : List (Ident × Expr)) (r),
    e.evalAll l = some r → e'.evalAll l = some r
  | [], r, hx => hx
  | (x, v) :: l, r, hx => by
    unfold Env.evalAll at hx ⊢
    split at hx
    · rename_i n k hn hk
      rw [h.eval _ _ hn, h.evalAll _ _ hk]
      exact hx
    · simp at hx

theorem lookup_cons_sub {α β : Type} [BEq α] [LawfulBEq α] {l l' : List (α × β)} {x : α} {b : β}
    (h : ∀ x n, l.lookup x = some n → l'.lookup x = some n) (y : α) (n : β)
    (hy : ((x, b) :: l).lookup y = some n) : ((x, b) :: l').lookup y = some n := by
  rw [List.lookup_cons] at hy ⊢
  split at hy
  · exact hy
  · exact h _ _ hy

theorem lookup_skip_sub {α β : Type} [BEq α] [LawfulBEq α] {l l' : List (α × β)} {x : α} {b : β}
    (h : ∀ x n, l.lookup x = some n → l'.lookup x = some n) (hx : l'.lookup x = none) (y : α) (n : β)
    (hy : l.lookup y = some n) : ((x, b) :: l').lookup y = some n := by
  rw [List.lookup_cons]
  split
  · rename_i hb
    obtain rfl : y = x := by simpa using hb
    rw [h _ _ hy] at hx
    simp at hx
  · exact h _ _ hy

theorem Env.Sub.add {e e' e'' : Env} (h : e.Sub e') (d : Decl) (hd : e'.add d = some e'') :
    (e.addLite d).Sub e'' := by
  unfold Env.add at hd
  split at hd <;> split at hd
  all_goals first
    | (simp at hd; done)
    | skip
  · rename_i name v _ _ n hn hv
    simp only [Option.some.injEq] at hd
    subst hd
    unfold Env.addLite
    simp only
    split
    · rename_i m hm
      obtain rfl : m = n := by rw [h.eval _ _ hm] at hv; simpa using hv
      exact ⟨lookup_cons_sub h.consts, h.assoc, h.types, h.opaques, h.al⟩
    · exact ⟨lookup_skip_sub h.consts hn, h.assoc, h.types, h.opaques, h.al⟩
  · rename_i name v _ _ n hn hv
    simp only [Option.some.injEq] at hd
    subst hd
    unfold Env.addLite
    simp only
    split
    · rename_i m hm
      obtain rfl : m = n := by rw [h.evalAll _ _ hm] at hv; simpa using hv
      exact ⟨h.consts, lookup_cons_sub h.assoc, h.types, h.opaques, h.al⟩
    · exact ⟨h.consts, lookup_skip_sub h.assoc hn, h.types, h.opaques, h.al⟩
  · rename_i name v _ _ n hn hv
    simp only [Option.some.injEq] at hd
    subst hd
    exact ⟨h.consts, lookup_skip_sub h.assoc hn, h.types, h.opaques, h.al⟩
  all_goals
    simp only [Option.some.injEq] at hd
    subst hd
    exact ⟨h.consts, h.assoc, h.types, h.opaques, h.al⟩

theorem Env.Sub.addAll : ∀ {ds : List Decl} {e e' e'' : Env}, e.Sub e' → e'.addAll ds = some e'' →
    (e.addLiteAll ds).Sub e''
  | [], e, e', e'', h, hd => by
    simp only [Env.addAll, Option.some.injEq] at hd
    subst hd
    exact h
  | d :: ds, e, e', e'', h, hd => by
    simp only [Env.addAll] at hd
    cases h1 : e'.add d with
    | none => rw [h1] at hd; simp at hd
    | some e1 =>
      rw [h1] at hd
      exact (h.add d h1).addAll hd

theorem sub_empty (al : Nat → Nat) : (Env.emptyOn al).Sub (Env.emptyOn al) :=
  ⟨fun _ _ h => h, fun _ _ h => h, rfl, rfl, rfl⟩

/-- The constants of types read without the types are those read with them. -/
theorem lite_assoc {ds : List Decl} {e : Env} (he : Env.empty.addAll ds = some e) (t : Ident)
    (l : List (Ident × Nat)) (h : (Env.empty.addLiteAll ds).assoc.lookup t = some l) :
    e.assoc.lookup t = some l :=
  ((sub_empty al64).addAll he).assoc t l h

end Verif.Derive
