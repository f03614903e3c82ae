import Verif.Codec.OwnReads

/-! Helper lemmas for C112: derived types without parts of the caller's own. -/

namespace Verif.Own
open Verif

variable {X : Type}

/-- Fields of types of `Verif.Codec.Ty`. -/
def stdFields : Verif.Fields → Fields X
  | .nil => .nil
  | .plain t r => .plain (.std t) (stdFields r)
  | .fixedArr t n r => .fixedArr (.std t) n (stdFields r)
  | .lenArr k t n r => .lenArr k (.std t) n (stdFields r)

/-- Variants of such fields. -/
def stdVariants : Verif.Variants → Variants X
  | .nil => .nil
  | .cons s fs r => .cons s (stdFields fs) (stdVariants r)

/-- Their values. -/
def stdVals : Verif.Fields → List Verif.Val → List (Val X)
  | .plain _ r, v :: vs => .std v :: stdVals r vs
  | .fixedArr _ _ r, .arr es :: vs => .arr (es.map .std) :: stdVals r vs
  | .lenArr _ _ _ r, .arr es :: vs => .arr (es.map .std) :: stdVals r vs
  | _, _ => []

/-- The values of the variant with the discriminant. -/
def stdData : Verif.Variants → Nat → List Verif.Val → List (Val X)
  | .nil, _, _ => []
  | .cons s fs r, sel, vs => if sel = s then stdVals fs vs else stdData r sel vs

/-- An outcome with other values. -/
def mapOut {α β : Type} (f : α → β) : Res MErr α × Bytes → Res MErr β × Bytes
  | (.ok a, b) => (.ok (f a), b)
  | (.err e, b) => (.err e, b)
  | (.panic, b) => (.panic, b)

theorem mapOut_bind {α β α' β' : Type} {u : UM α} {u' : UM α'} {f : α → UM β} {f' : α' → UM β'}
    {g : α → α'} {k : β → β'} (b : Bytes) (hu : u' b = mapOut g (u b))
    (hf : ∀ a r, u b = (.ok a, r) → f' (g a) r = mapOut k (f a r)) :
    (u' >>= f') b = mapOut k ((u >>= f) b) := by
  simp only [UM.bind_eq, hu]
  rcases hub : u b with ⟨a | e | _, r⟩
  · exact hf a r hub
  · rfl
  · rfl

theorem std_loop (t : Verif.Ty) : ∀ (n : Nat) (b : Bytes),
    unmarshalLoop (unmarshal (.std t : Ty X)) n b =
      mapOut (List.map Val.std) (Verif.unmarshalLoop (Verif.unmarshal t) n b)
  | 0, b => rfl
  | n + 1, b => by
    unfold unmarshalLoop Verif.unmarshalLoop
    apply mapOut_bind (g := Val.std)
    · unfold unmarshal
      simp only [UM.bind_eq]
      rcases Verif.unmarshal t b with ⟨_ | _ | _, _⟩ <;> rfl
    · intro v b' _
      exact mapOut_bind b' (std_loop t n b') (fun vs r _ => rfl)

theorem std_fields : ∀ (fs : Verif.Fields) (env : List Nat) (b : Bytes),
    unmarshalFields (stdFields fs : Fields X) env b =
      mapOut (stdVals fs) (Verif.unmarshalFields fs env b)
  | .nil, env, b => by
    unfold stdFields unmarshalFields Verif.unmarshalFields
    rfl
  | .plain t r, env, b => by
    unfold stdFields unmarshalFields Verif.unmarshalFields
    apply mapOut_bind (g := Val.std)
    · unfold unmarshal
      simp only [UM.bind_eq]
      rcases Verif.unmarshal t b with ⟨_ | _ | _, _⟩ <;> rfl
    · intro v b' _
      exact mapOut_bind b' (std_fields r _ b') (fun vs r _ => rfl)
  | .fixedArr t n r, env, b => by
    unfold stdFields unmarshalFields Verif.unmarshalFields
    refine mapOut_bind (g := List.map Val.std) b (std_loop t n b) ?_
    intro es b' _
    refine mapOut_bind b' (std_fields r _ b') (fun vs r _ => ?_)
    simp [mapOut, stdVals, UM.pure_eq, Ty.default]
  | .lenArr k t n r, env, b => by
    unfold stdFields unmarshalFields Verif.unmarshalFields
    simp only
    by_cases hk : env.getD k 0 > n
    · rw [if_pos hk, if_pos hk]; rfl
    · rw [if_neg hk, if_neg hk]
      refine mapOut_bind (g := List.map Val.std) b (std_loop t _ b) ?_
      intro es b' _
      refine mapOut_bind b' (std_fields r _ b') (fun vs r _ => ?_)
      simp [mapOut, stdVals, UM.pure_eq, Ty.default]

theorem std_variant : ∀ (vs : Verif.Variants) (sel : Nat) (b : Bytes),
    unmarshalVariant (stdVariants vs : Variants X) sel b =
      mapOut (stdData vs sel) (Verif.unmarshalVariant vs sel b)
  | .nil, sel, b => by
    unfold stdVariants unmarshalVariant Verif.unmarshalVariant
    rfl
  | .cons s fs r, sel, b => by
    unfold stdVariants unmarshalVariant Verif.unmarshalVariant
    have e : (stdData (.cons s fs r) sel : List Verif.Val → List (Val X)) =
        if sel = s then stdVals fs else stdData r sel := by
      funext vs; simp only [stdData]; split <;> rfl
    rw [e]
    split
    · exact std_fields fs [] b
    · exact std_variant r sel b

theorem std_mloop (t : Verif.Ty) : ∀ (n : Nat) (es : List Verif.Val) (w : Nat) (b : Bytes),
    marshalLoop (fun v b => marshal (.std t : Ty X) v b) n (es.map .std) w b =
      Verif.marshalLoop (fun v b => Verif.marshal t v b) n es w b
  | 0, es, w, b => by cases es <;> rfl
  | n + 1, [], w, b => rfl
  | n + 1, e :: es, w, b => by
    show mthen _ _ = mthen _ _
    congr 1
    funext w b
    exact std_mloop t n es w b

theorem std_mfields : ∀ (fs : Verif.Fields) (env : List Nat) (vs : List Verif.Val) (w : Nat) (b : Bytes),
    HasTyFields fs vs →
    marshalFields (stdFields fs : Fields X) env (stdVals fs vs) w b = Verif.marshalFields fs env vs w b
  | .nil, env, vs, w, b, h => by
    cases vs with
    | nil => rfl
    | cons _ _ => simp [HasTyFields] at h
  | .plain t r, env, vs, w, b, h => by
    cases vs with
    | nil => simp [HasTyFields] at h
    | cons v vs =>
      unfold stdFields stdVals marshalFields Verif.marshalFields
      congr 1
      funext w b
      exact std_mfields r _ vs w b h.2
  | .fixedArr t n r, env, vs, w, b, h => by
    match vs, h with
    | .arr es :: vs, h =>
      unfold stdFields stdVals marshalFields Verif.marshalFields
      rw [std_mloop]
      congr 1
      funext w b
      exact std_mfields r _ vs w b h.2.2
  | .lenArr k t n r, env, vs, w, b, h => by
    match vs, h with
    | .arr es :: vs, h =>
      unfold stdFields stdVals marshalFields Verif.marshalFields
      rw [std_mloop]
      congr 1
      funext w b
      exact std_mfields r _ vs w b h.2.2

theorem std_mvariant : ∀ (vs : Verif.Variants) (sel : Nat) (fvs : List Verif.Val) (b : Bytes),
    HasTyVariant vs sel fvs →
    marshalVariant (stdVariants vs : Variants X) sel (stdData vs sel fvs) b =
      Verif.marshalVariant vs sel fvs b
  | .nil, sel, fvs, b, h => by simp [HasTyVariant] at h
  | .cons s fs r, sel, fvs, b, h => by
    unfold stdVariants marshalVariant Verif.marshalVariant
    simp only [stdData]
    simp only [HasTyVariant] at h
    by_cases hs : sel = s
    · rw [if_pos hs, if_pos hs, if_pos hs]
      rw [if_pos hs] at h
      exact std_mfields fs [] fvs 0 b h
    · rw [if_neg hs, if_neg hs, if_neg hs]
      rw [if_neg hs] at h
      exact std_mvariant r sel fvs b h

/-- The type of the crate, its structure or enum derived here. -/
def stdTy : Verif.Ty → Ty X
  | .struct fs => .struct (stdFields fs)
  | .enum w vs => .enum w (stdVariants vs)
  | t => .std t

/-- Its values. -/
def stdVal : Verif.Ty → Verif.Val → Val X
  | .struct fs, .struct vs => .struct (stdVals fs vs)
  | .enum _ vs, .enum sel fvs => .enum sel (stdData vs sel fvs)
  | _, v => .std v

end Verif.Own
