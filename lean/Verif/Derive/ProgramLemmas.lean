import Verif.Derive.Program
import Verif.Derive.Compile

namespace Verif.Derive
open Verif

/-! ### Reading is sound -/

theorem length_none {f : NField} (h : f.length = some none) : f.Bare := by
  unfold NField.length at h
  intro a ha
  split at h
  · rename_i hf
    rw [List.filter_eq_nil_iff] at hf
    simpa using hf a ha
  · split at h
    · split at h
      · rename_i hk
        revert h
        cases Path.getIdent _ <;> simp
      · cases h
    · cases h
  · cases h

theorem filter_one {α : Type} {p : α → Bool} : ∀ {l : List α} {a : α}, l.filter p = [a] →
    ∃ pre post, l = pre ++ a :: post ∧ p a = true ∧ ∀ b ∈ pre ++ post, p b = false := by
  intro l
  induction l with
  | nil => intro a h; cases h
  | cons x l ih =>
    intro a h
    rw [List.filter_cons] at h
    split at h
    · rename_i hx
      simp only [List.cons.injEq] at h
      obtain ⟨rfl, h⟩ := h
      refine ⟨[], l, rfl, hx, ?_⟩
      intro b hb
      rw [List.filter_eq_nil_iff] at h
      simpa using h b (by simpa using hb)
    · rename_i hx
      obtain ⟨pre, post, rfl, ha, hb⟩ := ih h
      refine ⟨x :: pre, post, rfl, ha, ?_⟩
      intro b hb'
      rcases List.mem_cons.mp hb' with rfl | hb'
      · simpa using hx
      · exact hb b hb'

theorem length_some {f : NField} {l : Ident} (h : f.length = some (some l)) : f.Counted l := by
  unfold NField.length at h
  split at h
  · cases h
  · rename_i a hf
    obtain ⟨pre, post, he, ha, hb⟩ := filter_one hf
    split at h
    · rename_i k p hargs
      split at h
      · rename_i hk
        cases hp : p.getIdent with
        | none => simp [hp] at h
        | some i =>
          simp only [hp, Option.map_some, Option.some.injEq] at h
          subst h
          exact ⟨pre, a, post, k, _, he, ha, hargs, .inl (by rw [getIdent_iff.mp hp]), hk, hb⟩
      · cases h
    · cases h
  · cases h

theorem isArray_iff {t : TypeE} : t.isArray = true ↔ t.IsArray := by
  cases t <;> simp [TypeE.isArray, TypeE.IsArray]

theorem readFields_means {Γ : Ctx} : ∀ {fs before : List NField} {F : Fields},
    readFields Γ before fs = some F → FieldsMean Γ before fs F := by
  intro fs
  induction fs with
  | nil => intro before F h; simp only [readFields, Option.some.injEq] at h; subst h; exact .nil
  | cons f fs ih =>
    intro before F h
    simp only [readFields] at h
    split at h
    · rename_i elem len hl hty
      split at h
      · rename_i t n r ht hn hr
        cases h
        exact .array (length_none hl) hty ht hn (ih hr)
      · cases h
    · rename_i hl hna
      split at h
      · rename_i t r ht hr
        cases h
        refine .plain (length_none hl) ?_ ht (ih hr)
        intro ha
        cases hty : f.ty with
        | array a b => exact hna a b hty
        | path p => rw [hty] at ha; cases ha
        | other => rw [hty] at ha; cases ha
      · cases h
    · rename_i l elem len hl hty
      split at h
      · cases h
      · rename_i k hk
        split at h
        · cases h
        · rename_i g hg
          split at h
          · rename_i i hgl hga hgt
            split at h
            · rename_i t n r ht hn hr
              cases h
              have hgi : g.ident = l := by
                have := List.findIdx?_eq_some_iff_getElem.mp hk
                obtain ⟨hlt, hp, _⟩ := this
                rw [List.getElem?_eq_getElem hlt] at hg
                cases hg
                simpa using hp
              refine .counted (length_some hl) hty ht hn hg hgi (length_none hgl) ?_ hgt (ih hr)
              rw [← isArray_iff, hga]; simp
            · cases h
          · cases h
    · cases h

theorem readTuple_means {Γ : Ctx} : ∀ {ts : List TypeE} {F : Fields},
    readTuple Γ ts = some F → TuplesMean Γ ts F := by
  intro ts
  induction ts with
  | nil => intro F h; cases h; exact .nil
  | cons t ts ih =>
    intro F h
    simp only [readTuple] at h
    split at h
    · rename_i ht hr; cases h; exact .cons ht (ih hr)
    · cases h

theorem readVariants_means {Γ : Ctx} : ∀ {vs : List VariantE} {V : Variants},
    readVariants Γ vs = some V → VariantsMean Γ vs V := by
  intro vs
  induction vs with
  | nil => intro F h; cases h; exact .nil
  | cons v vs ih =>
    intro F h
    simp only [readVariants] at h
    split at h
    · rename_i hf hd
      split at h
      · rename_i hs ht hr; cases h; exact .cons hf hd hs (readTuple_means ht) (ih hr)
      · cases h
    · cases h

theorem readData_means {Γ : Ctx} {w : Nat} {d : Data} {t : Ty} (h : readData Γ w d = some t) :
    Means Γ w d t := by
  unfold readData at h
  split at h
  · obtain ⟨F, hr, rfl⟩ := Option.map_eq_some_iff.mp h; exact .named (readFields_means hr)
  · obtain ⟨F, hr, rfl⟩ := Option.map_eq_some_iff.mp h; exact .unnamed (readTuple_means hr)
  · cases h; exact .unit
  · obtain ⟨F, hr, rfl⟩ := Option.map_eq_some_iff.mp h; exact .enum (readVariants_means hr)
  · cases h

/-! ### Adding declarations keeps what is defined -/

/-- Everything `Γ` defines is the same in `Δ`. -/
def Ctx.Le (Γ Δ : Ctx) : Prop :=
  (∀ x t, Γ.ty x = some t → Δ.ty x = some t) ∧ (∀ x n, Γ.size x = some n → Δ.size x = some n) ∧
  (∀ x n, Γ.sel x = some n → Δ.sel x = some n)

theorem readFields_mono {Γ Δ : Ctx} (h : Γ.Le Δ) : ∀ {fs before : List NField} {F : Fields},
    readFields Γ before fs = some F → readFields Δ before fs = some F := by
  intro fs
  induction fs with
  | nil => intro before F hF; simpa [readFields] using hF
  | cons f fs ih =>
    intro before F hF
    simp only [readFields] at hF
    split at hF
    · rename_i elem len hl hty
      split at hF
      · rename_i t n r ht hn hr
        simp only [readFields, hl, hty, h.1 _ _ ht, h.2.1 _ _ hn, ih hr]
        exact hF
      · cases hF
    · rename_i hl hna
      split at hF
      · rename_i t r ht hr
        cases hty : f.ty with
        | array a b => exact absurd hty (hna a b)
        | path p => rw [hty] at ht; simp only [readFields, hl, hty, h.1 _ _ ht, ih hr]; exact hF
        | other => rw [hty] at ht; simp only [readFields, hl, hty, h.1 _ _ ht, ih hr]; exact hF
      · cases hF
    · rename_i l elem len hl hty
      split at hF
      · cases hF
      · rename_i k hk
        split at hF
        · cases hF
        · rename_i g hg
          split at hF
          · rename_i i hgl hga hgt
            split at hF
            · rename_i t n r ht hn hr
              simp only [readFields, hl, hty, hk, hg, hgl, hga, h.1 _ _ hgt, h.1 _ _ ht, h.2.1 _ _ hn, ih hr]
              exact hF
            · cases hF
          · cases hF
    · cases hF

theorem readTuple_mono {Γ Δ : Ctx} (h : Γ.Le Δ) : ∀ {ts : List TypeE} {F : Fields},
    readTuple Γ ts = some F → readTuple Δ ts = some F := by
  intro ts
  induction ts with
  | nil => intro F hF; exact hF
  | cons t ts ih =>
    intro F hF
    simp only [readTuple] at hF
    split at hF
    · rename_i ht hr; simp only [readTuple, h.1 _ _ ht, ih hr]; exact hF
    · cases hF

theorem readVariants_mono {Γ Δ : Ctx} (h : Γ.Le Δ) : ∀ {vs : List VariantE} {V : Variants},
    readVariants Γ vs = some V → readVariants Δ vs = some V := by
  intro vs
  induction vs with
  | nil => intro F hF; exact hF
  | cons v vs ih =>
    intro F hF
    simp only [readVariants] at hF
    split at hF
    · rename_i hf hd
      split at hF
      · rename_i hs ht hr
        simp only [readVariants, hf, hd, h.2.2 _ _ hs, readTuple_mono h ht, ih hr]; exact hF
      · cases hF
    · cases hF

theorem readData_mono {Γ Δ : Ctx} (h : Γ.Le Δ) {w : Nat} {d : Data} {t : Ty}
    (ht : readData Γ w d = some t) : readData Δ w d = some t := by
  unfold readData at ht
  split at ht
  · obtain ⟨F, hr, rfl⟩ := Option.map_eq_some_iff.mp ht; simp [readData, readFields_mono h hr]
  · obtain ⟨F, hr, rfl⟩ := Option.map_eq_some_iff.mp ht; simp [readData, readTuple_mono h hr]
  · exact ht
  · obtain ⟨F, hr, rfl⟩ := Option.map_eq_some_iff.mp ht; simp [readData, readVariants_mono h hr]
  · cases ht

theorem readInput_mono {Γ Δ : Ctx} (h : Γ.Le Δ) {w : Nat} {input : Input} {t : Ty}
    (ht : readInput Γ w input = some t) : readInput Δ w input = some t := by
  unfold readInput at ht ⊢
  split at ht
  · exact readData_mono h ht
  · split at ht
    · split at ht
      · rename_i hp
        obtain ⟨n, hn, rfl⟩ := Option.map_eq_some_iff.mp ht
        obtain ⟨e, he, hs⟩ := Option.bind_eq_some_iff.mp hn
        simp [hp, he, h.2.1 _ _ hs]
      · cases ht
    · cases ht
  · cases ht

/-- Everything `e` defines is the same in `e'`. -/
structure Env.Le (e e' : Env) : Prop where
  consts : ∀ x n, e.consts.lookup x = some n → e'.consts.lookup x = some n
  assoc : ∀ x l, e.assoc.lookup x = some l → e'.assoc.lookup x = some l
  types : ∀ x t, e.types.lookup x = some t → e'.types.lookup x = some t
  opaques : ∀ x t, e.opaques.lookup x = some t → e'.opaques.lookup x = some t
  apart : ∀ x, (e.opaques.lookup x).isSome → (e'.types.lookup x) = e.types.lookup x
  al : e'.al = e.al

theorem Env.Le.refl (e : Env) : e.Le e := ⟨fun _ _ h => h, fun _ _ h => h, fun _ _ h => h, fun _ _ h => h, fun _ _ => rfl, rfl⟩

theorem Env.Le.trans {a b c : Env} (h : a.Le b) (h' : b.Le c) : a.Le c :=
  ⟨fun _ _ x => h'.consts _ _ (h.consts _ _ x), fun _ _ x => h'.assoc _ _ (h.assoc _ _ x),
   fun _ _ x => h'.types _ _ (h.types _ _ x), fun _ _ x => h'.opaques _ _ (h.opaques _ _ x),
   fun x hx => by
    have : (b.opaques.lookup x).isSome := by
      rw [Option.isSome_iff_exists] at hx ⊢
      obtain ⟨t, ht⟩ := hx
      exact ⟨t, h.opaques _ _ ht⟩
    rw [h'.apart x this, h.apart x hx],
   h'.al.trans h.al⟩

theorem Env.Le.const {e e' : Env} (h : e.Le e') {p : List Ident} {n : Nat}
    (hn : e.const p = some n) : e'.const p = some n := by
  unfold Env.const at hn ⊢
  split at hn
  · exact h.consts _ _ hn
  · exact h.consts _ _ hn
  · obtain ⟨l, hl, hx⟩ := Option.bind_eq_some_iff.mp hn
    simp [h.assoc _ _ hl, hx]
  · cases hn

theorem or_mono {α : Type} {a b a' b' : Option α} {x : α} (ha : ∀ y, a = some y → a' = some y)
    (hb : ∀ y, b = some y → b' = some y ∧ a' = a) (h : a.or b = some x) : a'.or b' = some x := by
  cases a with
  | some y => rw [ha y rfl]; simpa using h
  | none =>
    simp only [Option.none_or] at h
    obtain ⟨h1, h2⟩ := hb x h
    rw [h2, h1]; rfl

theorem Env.Le.sizeOf {e e' : Env} (h : e.Le e') {t : TypeE} {n : Nat}
    (hn : e.sizeOf t = some n) : e'.sizeOf t = some n := by
  unfold Env.sizeOf at hn ⊢
  split at hn
  · split at hn
    · cases hn
    · obtain ⟨ty, hty, rfl⟩ := Option.map_eq_some_iff.mp hn
      rename_i i hi
      have : ((intTy i).or ((e'.types.lookup i).or (e'.opaques.lookup i))) = some ty := by
        refine or_mono (fun y hy => hy) (fun y hy => ⟨?_, rfl⟩) hty
        exact or_mono (fun z hz => h.types _ _ hz)
          (fun z hz => ⟨h.opaques _ _ hz, h.apart i (by simp [hz])⟩) hy
      simp [this, h.al]
  · cases hn

theorem eval_mono {c c' : List Ident → Option Nat} {s s' : TypeE → Option Nat}
    (hc : ∀ p n, c p = some n → c' p = some n) (hs : ∀ t n, s t = some n → s' t = some n) :
    ∀ (x : Expr) (n : Nat), x.eval c s = some n → x.eval c' s' = some n
  | .lit _, n, h => h
  | .path false false p, n, h => by
    simp only [Expr.eval] at h ⊢
    obtain ⟨l, hl, hx⟩ := Option.bind_eq_some_iff.mp h
    simp [hl, hc _ _ hx]
  | .path true _ p, n, h => by simp [Expr.eval] at h
  | .path _ true p, n, h => by simp [Expr.eval] at h
  | .field x 0, n, h => by
    simp only [Expr.eval] at h ⊢; exact eval_mono hc hs x n h
  | .field x (k+1), n, h => by simp [Expr.eval] at h
  | .cast x _, n, h => by
    simp only [Expr.eval] at h ⊢; exact eval_mono hc hs x n h
  | .paren x, n, h => by
    simp only [Expr.eval] at h ⊢; exact eval_mono hc hs x n h
  | .binary op l r, n, h => by
    cases hl : l.eval c s with
    | none => cases op <;> simp [Expr.eval, hl] at h
    | some a =>
      cases hr : r.eval c s with
      | none => cases op <;> simp [Expr.eval, hr, hl] at h
      | some b =>
        have h1 := eval_mono hc hs l a hl
        have h2 := eval_mono hc hs r b hr
        simp only [Expr.eval, hl, hr] at h
        simp only [Expr.eval, h1, h2]
        exact h
  | .method x m args, n, h => by
    unfold Expr.eval at h
    split at h
    all_goals first | (rename_i hx; cases hx; done) | skip
    all_goals first | (cases h; done) | skip
    · rename_i y b heq
      cases heq
      cases ha : x.eval c s with
      | none => simp [ha] at h
      | some a =>
        simp only [ha] at h
        simp only [Expr.eval, eval_mono hc hs x a ha]
        exact h
  | .call f args, n, h => by
    unfold Expr.eval at h
    split at h
    all_goals first | (rename_i hx; cases hx; done) | skip
    all_goals first | (cases h; done) | skip
    · rename_i t heq
      cases heq
      simp only [Expr.eval]
      exact hs _ _ h
  | .other, n, h => by simp [Expr.eval] at h

theorem Env.Le.eval {e e' : Env} (h : e.Le e') {x : Expr} {n : Nat}
    (hn : e.eval x = some n) : e'.eval x = some n :=
  eval_mono (fun _ _ => h.const) (fun _ _ => h.sizeOf) x n hn

theorem Env.Le.ctx {e e' : Env} (h : e.Le e') : e.ctx.Le e'.ctx := by
  refine ⟨?_, fun x n => h.eval, fun x n => h.eval⟩
  intro x t ht
  simp only [Env.ctx] at ht ⊢
  unfold Env.ty at ht ⊢
  split at ht
  · split at ht
    · cases ht
    · rename_i i hi
      exact or_mono (fun y hy => hy) (fun y hy => ⟨h.types _ _ hy, rfl⟩) ht
  · split at ht
    · rename_i hu
      obtain ⟨m, hm, rfl⟩ := Option.map_eq_some_iff.mp ht
      simp [hu, h.eval hm]
    · cases ht
  · cases ht

theorem lookup_cons_mono {α : Type} {l : List (Ident × α)} {k : Ident} {v : α}
    (hf : l.lookup k = none) : ∀ x t, l.lookup x = some t → ((k, v) :: l).lookup x = some t := by
  intro x t h
  rw [List.lookup_cons]
  split
  · rename_i hx
    have : x = k := by simpa using hx
    subst this
    rw [hf] at h; cases h
  · exact h

theorem fresh_iff {e : Env} {i : Ident} : e.fresh i = true ↔
    e.types.lookup i = none ∧ e.opaques.lookup i = none ∧ intTy i = none := by
  simp [Env.fresh, and_assoc]

theorem add_type_le {e : Env} {i : Ident} {t : Ty} (hf : e.fresh i = true) :
    e.Le { e with types := (i, t) :: e.types } := by
  obtain ⟨h1, h2, _⟩ := fresh_iff.mp hf
  refine ⟨fun _ _ h => h, fun _ _ h => h, lookup_cons_mono h1, fun _ _ h => h, ?_, rfl⟩
  intro x hx
  show List.lookup x ((i, t) :: e.types) = _
  rw [List.lookup_cons]
  split
  · rename_i hxi
    have : x = i := by simpa using hxi
    subst this
    rw [h2] at hx; cases hx
  · rfl

theorem add_opaque_le {e : Env} {i : Ident} {t : Ty} (hf : e.fresh i = true) :
    e.Le { e with opaques := (i, t) :: e.opaques } := by
  obtain ⟨h1, h2, _⟩ := fresh_iff.mp hf
  exact ⟨fun _ _ h => h, fun _ _ h => h, fun _ _ h => h, lookup_cons_mono h2, fun _ _ => rfl, rfl⟩

theorem Env.add_le {e e' : Env} {d : Decl} (h : e.add d = some e') : e.Le e' := by
  cases d <;> simp only [Env.add] at h <;> split at h <;> (try cases h; done) <;>
    simp only [Option.some.injEq] at h <;> subst h
  · rename_i hl _
    exact ⟨lookup_cons_mono hl, fun _ _ h => h, fun _ _ h => h, fun _ _ h => h, fun _ _ => rfl, rfl⟩
  · rename_i hl _
    exact ⟨fun _ _ h => h, lookup_cons_mono hl, fun _ _ h => h, fun _ _ h => h, fun _ _ => rfl, rfl⟩
  · rename_i hl _
    exact ⟨fun _ _ h => h, lookup_cons_mono hl, fun _ _ h => h, fun _ _ h => h, fun _ _ => rfl, rfl⟩
  · rename_i hf _; exact add_type_le hf
  · rename_i hf _; exact add_type_le hf
  · rename_i hf _ _ _; exact add_type_le hf
  · rename_i hf _; exact add_opaque_le hf
  · rename_i hf _; exact add_opaque_le hf

theorem Env.addAll_le {ds : List Decl} : ∀ {e e' : Env}, e.addAll ds = some e' → e.Le e' := by
  induction ds with
  | nil => intro e e' h; cases h; exact .refl _
  | cons d ds ih =>
    intro e e' h
    obtain ⟨e1, h1, h2⟩ := Option.bind_eq_some_iff.mp h
    exact (Env.add_le h1).trans (ih h2)

/-- Every declared type has, at the end, the layout read from its declaration. -/
theorem addAll_derive {ds : List Decl} : ∀ {e e' : Env}, e.addAll ds = some e' →
    ∀ w input, .derive w input ∈ ds → ∃ t, e'.types.lookup input.ident = some t ∧
      intTy input.ident = none ∧ readInput e'.ctx w input = some t := by
  induction ds with
  | nil => intro e e' _ w input hm; cases hm
  | cons d ds ih =>
    intro e e' h w input hm
    obtain ⟨e1, h1, h2⟩ := Option.bind_eq_some_iff.mp h
    rcases List.mem_cons.mp hm with rfl | hm
    · have hle := Env.addAll_le h2
      have hle0 := (Env.add_le h1).trans hle
      simp only [Env.add] at h1
      split at h1
      · rename_i t hf hr
        cases h1
        refine ⟨t, hle.types _ _ ?_, (fresh_iff.mp hf).2.2, readInput_mono hle0.ctx hr⟩
        simp
      · cases h1
    · exact ih h2 w input hm

/-! ### Conditions on declarations, checked by evaluation -/

/-- `Usable` for the fields of a structure. -/
def usableFields : List NField → Bool
  | [] => true
  | f :: fs => (f.ident != "buffer" || (fs.isEmpty && !f.ty.isArray)) &&
    (match f.ty with | .array elem _ => elem.callable | _ => true) && usableFields fs

/-- No name twice. -/
def noDup : List Ident → Bool
  | [] => true
  | x :: l => !l.contains x && noDup l

/-- The declaration is a sized buffer, or has different names and can be used in
generated code. -/
def Input.ok (input : Input) : Bool :=
  (input.attrs.any (·.path.isIdent "marshalable")) ||
  match input.data with
  | .struct (.named fs) => noDup (fs.map (·.ident)) && usableFields fs
  | .enum vs => noDup (vs.map (·.ident))
  | _ => true

theorem noDup_nodup : ∀ {l : List Ident}, noDup l = true → l.Nodup
  | [], _ => .nil
  | x :: l, h => by
    simp only [noDup, Bool.and_eq_true, Bool.not_eq_true', List.contains_eq_mem, decide_eq_false_iff_not] at h
    exact List.nodup_cons.mpr ⟨h.1, noDup_nodup h.2⟩

theorem usableFields_usable : ∀ {fs : List NField}, usableFields fs = true →
    Usable (.struct (.named fs)) := by
  intro fs
  induction fs with
  | nil =>
    intro _
    refine ⟨?_, by simp⟩
    intro pre f post h; simp at h
  | cons f fs ih =>
    intro h
    simp only [usableFields, Bool.and_eq_true, Bool.or_eq_true, bne_iff_ne, ne_eq,
      Bool.not_eq_true', List.isEmpty_iff] at h
    obtain ⟨⟨h1, h2⟩, h3⟩ := h
    obtain ⟨i1, i2⟩ := ih h3
    refine ⟨?_, ?_⟩
    · intro pre g post he hb
      cases pre with
      | nil =>
        simp only [List.nil_append, List.cons.injEq] at he
        obtain ⟨rfl, rfl⟩ := he
        rcases h1 with h1 | ⟨h1, h1'⟩
        · exact absurd hb h1
        · refine ⟨h1, ?_⟩
          rw [← isArray_iff, h1']; simp
      | cons p pre =>
        simp only [List.cons_append, List.cons.injEq] at he
        obtain ⟨rfl, rfl⟩ := he
        exact i1 pre g post rfl hb
    · intro g hg elem len hty
      rcases List.mem_cons.mp hg with rfl | hg
      · simpa [hty] using h2
      · exact i2 g hg elem len hty

/-- A declaration whose layout can be read is accepted by the macro, and the
generated implementation compiles and has this layout. -/
theorem readInput_derive {Γ : Ctx} {w : Nat} {input : Input} {t : Ty}
    (h : readInput Γ w input = some t) (hok : input.ok = true) :
    ∃ items c, deriveMarshalable input = .ok items ∧ implOf Γ w input items = some c ∧
      c.Implements t := by
  unfold readInput at h
  split at h
  · rename_i hf
    rw [List.filter_eq_nil_iff] at hf
    have hp : input.Plain := fun a ha => by simpa using hf a ha
    have hno : input.attrs.any (·.path.isIdent "marshalable") = false := by
      rw [List.any_eq_false]; exact hf
    simp only [Input.ok, hno, Bool.false_or] at hok
    refine means_complete hp ?_ ?_ (readData_means h)
    · cases hd : input.data with
      | struct fs =>
        cases fs with
        | named fs =>
          simp only [hd, Bool.and_eq_true] at hok
          exact noDup_nodup hok.1
        | _ => trivial
      | enum vs => simp only [hd] at hok; exact noDup_nodup hok
      | union => trivial
    · cases hd : input.data with
      | struct fs =>
        cases fs with
        | named fs =>
          simp only [hd, Bool.and_eq_true] at hok
          exact usableFields_usable hok.2
        | _ => trivial
      | enum vs => trivial
      | union => trivial
  · rename_i a hf
    split at h
    · rename_i p hargs
      split at h
      · rename_i hp
        obtain ⟨n, hn, rfl⟩ := Option.map_eq_some_iff.mp h
        obtain ⟨e, he, hs⟩ := Option.bind_eq_some_iff.mp hn
        obtain ⟨pre, post, hattrs, ha, _⟩ := filter_one hf
        have hflag : ∃ a ∈ input.attrs, a.Flags "tpm2b_simple" :=
          ⟨a, by rw [hattrs]; simp, ha, [], p, hargs, .nil, hp⟩
        have hsimple := (anyFlag_iff _ _).mpr hflag
        unfold sizedCapacity at he
        split at he
        · rename_i s b hd
          split at he
          · rename_i p' q size hst hbt
            split at he
            · rename_i hc
              cases he
              obtain ⟨h1, h2, h3, h4, h5⟩ := hc
              have hcommon := (tpm2bCommon_ok (.named [s, b]) b.ident e).mpr
                ⟨s, b, rfl, h1, by rw [hst, isIdent_iff.mp h2], rfl, by rw [hbt, isIdent_iff.mp h3]⟩
              have key := unmarshal_accepts [s, b] [] [] basicRel_nil
              obtain ⟨us, hus⟩ := key.mpr (by
                intro pre f post hfs
                left
                have : f ∈ [s, b] := by rw [hfs]; simp
                simp only [List.mem_cons, List.not_mem_nil, or_false] at this
                rcases this with rfl | rfl
                · exact length_none h4
                · exact length_none h5)
              obtain ⟨ms, hms⟩ := marshal_of_unmarshal [s, b] [] us hus
              refine ⟨[.tpm2bSimple input.ident b.ident e], tpm2bCodec n, ?_, by simp [implOf, hs], ?_, ?_⟩
              · simp [deriveMarshalable, hd, hsimple, fieldMarshalBody, fieldUnmarshal, hms, hus,
                  Res.bind, tpm2bSimple, hcommon, Res.map]
              · simp [tpm2bCodec, unmarshal]
              · intro v buf hv
                cases v <;> simp only [HasTy] at hv
                simp [tpm2bCodec, marshal]
            · cases he
          · cases he
        · cases he
      · cases h
    · cases h
  · cases h

end Verif.Derive
