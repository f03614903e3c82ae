import Verif.Codec.OwnProps
import Verif.Width.Codec

/-
The code that `#[derive(Marshalable)]` generates for types with parts of the caller's own, on a machine
with a `usize` of a given width: model, specification and helper lemmas for C116.
-/

namespace Verif.Own
open Verif

variable {X : Type}

/-! ### The code -/

mutual
/-- `T::try_unmarshal`: marshalable-derive/src/lib.rs:147-150, 187-189, 686-693. -/
def unmarshalOn (m : Machine) : Ty X → UM (Val X)
  | .std t => do
    let v ← Verif.unmarshalOn m t
    pure (.std v)
  | .own p => do
    let x ← p.unmarshal
    pure (.own x)
  | .struct fs => do
    let vs ← unmarshalFieldsOn m fs []
    pure (.struct vs)
  | .enum w vs => do
    let sel ← unmarshalPrim w
    let fvs ← unmarshalVariantOn m vs sel
    pure (.enum sel fvs)
/-- Field by field, the length fields cast to `usize`:
marshalable-derive/src/lib.rs:597-634, 654-663. -/
def unmarshalFieldsOn (m : Machine) : Fields X → List Nat → UM (List (Val X))
  | .nil, _ => pure []
  | .plain t r, env => do
    let v ← unmarshalOn m t
    let vs ← unmarshalFieldsOn m r (env ++ [asUsize t v])
    pure (v :: vs)
  | .fixedArr t n r, env => do
    let es ← unmarshalLoop (unmarshalOn m t) n
    let vs ← unmarshalFieldsOn m r (env ++ [0])
    pure (.arr (es ++ (List.replicate n t.default).drop n) :: vs)
  | .lenArr k t n r, env => do
    let len := m.cast (env.getD k 0)
    if len > n then UM.fail .arrayLengthExceeded
    else
      let es ← unmarshalLoop (unmarshalOn m t) len
      let vs ← unmarshalFieldsOn m r (env ++ [0])
      pure (.arr (es ++ (List.replicate n t.default).drop len) :: vs)
/-- `try_unmarshal_variant`: marshalable-derive/src/lib.rs:695-727. -/
def unmarshalVariantOn (m : Machine) : Variants X → Nat → UM (List (Val X))
  | .nil, _ => UM.fail .unknownSelector
  | .cons s fs rest, sel =>
    if sel = s then unmarshalFieldsOn m fs [] else unmarshalVariantOn m rest sel
end

/-- The loop over an array: marshalable-derive/src/lib.rs:414-418, 421-425. -/
def marshalLoopOn (m : Machine) (f : Val X → Bytes → MOut) : Nat → List (Val X) → Nat → Bytes → MOut
  | 0, _, written, buf => (.ok written, buf)
  | _ + 1, [], _, buf => (.panic, buf)
  | n + 1, v :: vs, written, buf =>
    mthen (mstepOn m (f v) written buf) fun w buf => marshalLoopOn m f n vs w buf

mutual
/-- `try_marshal`: marshalable-derive/src/lib.rs:191-195, 473-478. -/
def marshalOn (m : Machine) : Ty X → Val X → Bytes → MOut
  | .std t, .std v, buf => Verif.marshalOn m t v buf
  | .own p, .own x, buf => p.marshal x buf
  | .struct fs, .struct vs, buf => marshalFieldsOn m fs [] vs 0 buf
  | .enum w vs, .enum sel fvs, buf =>
    mthen (mstepOn m (marshalPrim w sel) 0 buf) fun written buf =>
      mstepOn m (fun b => marshalVariantOn m vs sel fvs b) written buf
  | _, _, buf => (.panic, buf)
/-- Field by field: marshalable-derive/src/lib.rs:405-434, 458-468. -/
def marshalFieldsOn (m : Machine) : Fields X → List Nat → List (Val X) → Nat → Bytes → MOut
  | .nil, _, [], written, buf => (.ok written, buf)
  | .plain t r, env, v :: vs, written, buf =>
    mthen (mstepOn m (fun b => marshalOn m t v b) written buf) fun w buf =>
      marshalFieldsOn m r (env ++ [asUsize t v]) vs w buf
  | .fixedArr t n r, env, .arr es :: vs, written, buf =>
    mthen (marshalLoopOn m (fun v b => marshalOn m t v b) n es written buf) fun w buf =>
      marshalFieldsOn m r (env ++ [0]) vs w buf
  | .lenArr k t _ r, env, .arr es :: vs, written, buf =>
    mthen (marshalLoopOn m (fun v b => marshalOn m t v b) (m.cast (env.getD k 0)) es written buf)
      fun w buf => marshalFieldsOn m r (env ++ [0]) vs w buf
  | _, _, _, _, buf => (.panic, buf)
/-- `try_marshal_variant`: marshalable-derive/src/lib.rs:490-521. -/
def marshalVariantOn (m : Machine) : Variants X → Nat → List (Val X) → Bytes → MOut
  | .nil, _, _, buf => (.panic, buf)
  | .cons s fs rest, sel, fvs, buf =>
    if sel = s then marshalFieldsOn m fs [] fvs 0 buf else marshalVariantOn m rest sel fvs buf
end

/-! ### Specification -/

/-- A length field of this type says less than 2^32. -/
def Ty.Narrow : Ty X → Prop
  | .std t => t.countBytes ≤ 4
  | .own p => ∀ x, p.asUsize x < 2 ^ 32
  | _ => True

mutual
/-- All length fields are such. -/
def Ty.Counts : Ty X → Prop
  | .std t => t.countsIn 4 = true
  | .own _ => True
  | .struct fs => fs.Counts []
  | .enum _ vs => vs.Counts
/-- In the fields, after fields of which it is known whether they are such. -/
def Fields.Counts : Fields X → List Prop → Prop
  | .nil, _ => True
  | .plain t r, ws => t.Counts ∧ r.Counts (ws ++ [t.Narrow])
  | .fixedArr t _ r, ws => t.Counts ∧ r.Counts (ws ++ [True])
  | .lenArr k t _ r, ws => ws.getD k True ∧ t.Counts ∧ r.Counts (ws ++ [True])
/-- In the variants. -/
def Variants.Counts : Variants X → Prop
  | .nil => True
  | .cons _ fs r => fs.Counts [] ∧ r.Counts
end

mutual
/-- A value of the type, in whose parts of the caller's own that are written the values are such. -/
def Held (Q : Part X → X → Prop) : Ty X → Val X → Prop
  | .std t, .std v => HasTy t v
  | .own p, .own x => Q p x
  | .struct fs, .struct vs => HeldFields Q fs [] vs
  | .enum _ vs, .enum sel fvs => HeldVariant Q vs sel fvs
  | _, _ => False
/-- The same for fields. -/
def HeldFields (Q : Part X → X → Prop) : Fields X → List Nat → List (Val X) → Prop
  | .nil, _, [] => True
  | .plain t r, env, v :: vs => Held Q t v ∧ HeldFields Q r (env ++ [asUsize t v]) vs
  | .fixedArr t n r, env, .arr es :: vs => (∀ e ∈ es.take n, Held Q t e) ∧ HeldFields Q r (env ++ [0]) vs
  | .lenArr k t _ r, env, .arr es :: vs =>
      (∀ e ∈ es.take (env.getD k 0), Held Q t e) ∧ HeldFields Q r (env ++ [0]) vs
  | _, _, _ => False
/-- The same for the data of a variant. -/
def HeldVariant (Q : Part X → X → Prop) : Variants X → Nat → List (Val X) → Prop
  | .nil, _, _ => False
  | .cons s fs rest, sel, fvs =>
      if sel = s then HeldFields Q fs [] fvs else HeldVariant Q rest sel fvs
end

/-- It reports no more bytes than it was given. -/
def Truthful (p : Part X) (x : X) : Prop := ∀ b n, (p.marshal x b).1 = .ok n → n ≤ b.length

/-- What it reports is a `usize`. -/
def Reports (m : Machine) (p : Part X) (x : X) : Prop :=
  ∀ b n, (p.marshal x b).1 = .ok n → n < 2 ^ m.bits

/-! Writing with parts of any kind. -/

mutual
/-- Writing the value into the bytes reports so many and makes these of them. -/
inductive Puts : Ty X → Val X → Bytes → Nat → Bytes → Prop
  | std {t v b n b'} : Verif.marshal t v b = (.ok n, b') → Puts (.std t) (.std v) b n b'
  | own {p x b n b'} : p.marshal x b = (.ok n, b') → Puts (.own p) (.own x) b n b'
  | struct {fs vs b n b'} : PutsFields fs [] vs 0 b n b' → Puts (.struct fs) (.struct vs) b n b'
  | enum {w vs sel fvs fs b n b'} : w ≤ b.length → Selects vs sel fs →
      PutsFields fs [] fvs 0 (b.drop w) n b' →
      Puts (.enum w vs) (.enum sel fvs) b (w + n) (digits256 w sel ++ b')
/-- The fields, with so many bytes reported before: each is given what is behind these, and its report
is added. -/
inductive PutsFields : Fields X → List Nat → List (Val X) → Nat → Bytes → Nat → Bytes → Prop
  | nil {env w b} : PutsFields .nil env [] w b w b
  | plain {t rest env v vs w b n sub w' b'} : w ≤ b.length → Puts t v (b.drop w) n sub →
      PutsFields rest (env ++ [asUsize t v]) vs (w + n) (b.take w ++ sub) w' b' →
      PutsFields (.plain t rest) env (v :: vs) w b w' b'
  | fixedArr {t n rest env es vs w b w1 b1 w' b'} : PutsAll t n es w b w1 b1 →
      PutsFields rest (env ++ [0]) vs w1 b1 w' b' →
      PutsFields (.fixedArr t n rest) env (.arr es :: vs) w b w' b'
  | lenArr {k t n rest env es vs w b w1 b1 w' b'} : PutsAll t (env.getD k 0) es w b w1 b1 →
      PutsFields rest (env ++ [0]) vs w1 b1 w' b' →
      PutsFields (.lenArr k t n rest) env (.arr es :: vs) w b w' b'
/-- So many elements. -/
inductive PutsAll : Ty X → Nat → List (Val X) → Nat → Bytes → Nat → Bytes → Prop
  | nil {t es w b} : PutsAll t 0 es w b w b
  | cons {t k e es w b n sub w' b'} : w ≤ b.length → Puts t e (b.drop w) n sub →
      PutsAll t k es (w + n) (b.take w ++ sub) w' b' → PutsAll t (k + 1) (e :: es) w b w' b'
end

/-! ### Lemmas: reading -/

variable {m : Machine}

/-- The length fields before say less than 2^32 where it is known. -/
def EnvFits (ws : List Prop) (env : List Nat) : Prop :=
  ws.length = env.length ∧ ∀ k, ws.getD k True → env.getD k 0 < 2 ^ 32

theorem EnvFits.nil : EnvFits [] [] := ⟨rfl, fun _ _ => by simp⟩

theorem EnvFits.snoc {ws : List Prop} {env : List Nat} (h : EnvFits ws env) {P : Prop} {x : Nat}
    (hx : P → x < 2 ^ 32) : EnvFits (ws ++ [P]) (env ++ [x]) := by
  obtain ⟨h1, h2⟩ := h
  refine ⟨by simp [h1], fun k => ?_⟩
  simp only [List.getD_eq_getElem?_getD, List.getElem?_append] at h2 ⊢
  have := h2 k
  by_cases hk : k < env.length
  · rw [if_pos hk, if_pos (by omega)]
    exact this
  · rw [if_neg hk, if_neg (by omega), h1]
    by_cases h0 : k - env.length = 0
    · rw [h0]; simpa using hx
    · obtain ⟨j, hj⟩ : ∃ j, k - env.length = j + 1 := ⟨k - env.length - 1, by omega⟩
      rw [hj]; simp

theorem cast_small {x : Nat} (hm : 32 ≤ m.bits) (hx : x < 2 ^ 32) : m.cast x = x :=
  Nat.mod_eq_of_lt (Nat.lt_of_lt_of_le hx (Nat.pow_le_pow_right (by decide) hm))

theorem narrow_std {t : Verif.Ty} {n : Nat} (ht : t.countBytes ≤ 4) (hn : n < 256 ^ t.countBytes) :
    n < 2 ^ 32 :=
  Nat.lt_of_lt_of_le hn (Nat.le_trans (Nat.pow_le_pow_right (by decide) ht) (by decide))

theorem read_small {t : Ty X} {b r : Bytes} {v : Val X} (h : unmarshal t b = (.ok v, r)) (ht : t.Narrow) :
    asUsize t v < 2 ^ 32 := by
  cases t with
  | std t =>
    simp only [unmarshal, UM.bind_eq] at h
    rcases hu : Verif.unmarshal t b with ⟨x | _ | _, r'⟩ <;> rw [hu] at h <;> simp [UM.pure_eq] at h
    obtain ⟨rfl, rfl⟩ := h
    exact narrow_std ht (asUsize_lt_wf ((Verif.goodTy t).sound _ _ _ hu).1)
  | own p => cases v <;> simp only [asUsize] <;> first | exact ht _ | decide
  | struct fs => simp only [asUsize]; decide
  | enum w vs => simp only [asUsize]; decide

mutual
theorem unmarshalOn_eq (hm : 32 ≤ m.bits) : ∀ t : Ty X, t.Counts → unmarshalOn m t = unmarshal t
  | .std t, h => by
    simp only [unmarshalOn, unmarshal, Verif.unmarshalOn_eq (m := m) (c := 4) (by omega) (by omega) t h]
  | .own p, _ => by simp only [unmarshalOn, unmarshal]
  | .struct fs, h => by
    simp only [unmarshalOn, unmarshal, unmarshalFieldsOn_eq hm fs [] [] h .nil]
  | .enum w vs, h => by
    simp only [unmarshalOn, unmarshal, funext (unmarshalVariantOn_eq hm vs h)]
theorem unmarshalFieldsOn_eq (hm : 32 ≤ m.bits) : ∀ (fs : Fields X) (ws : List Prop) (env : List Nat),
    fs.Counts ws → EnvFits ws env → unmarshalFieldsOn m fs env = unmarshalFields fs env
  | .nil, ws, env, _, _ => by simp only [unmarshalFieldsOn, unmarshalFields]
  | .plain t r, ws, env, h, he => by
    funext b
    simp only [unmarshalFieldsOn, unmarshalFields, unmarshalOn_eq hm t h.1]
    apply bind_congr'
    intro v rest hv
    rw [unmarshalFieldsOn_eq hm r _ _ h.2 (he.snoc (read_small hv))]
  | .fixedArr t n r, ws, env, h, he => by
    simp only [unmarshalFieldsOn, unmarshalFields, unmarshalOn_eq hm t h.1,
      unmarshalFieldsOn_eq hm r _ _ h.2 (he.snoc (x := 0) (fun _ => by decide))]
  | .lenArr k t n r, ws, env, h, he => by
    simp only [unmarshalFieldsOn, unmarshalFields, unmarshalOn_eq hm t h.2.1,
      unmarshalFieldsOn_eq hm r _ _ h.2.2 (he.snoc (x := 0) (fun _ => by decide)),
      cast_small hm (he.2 k h.1)]
theorem unmarshalVariantOn_eq (hm : 32 ≤ m.bits) : ∀ vs : Variants X, vs.Counts →
    ∀ sel, unmarshalVariantOn m vs sel = unmarshalVariant vs sel
  | .nil, _, sel => by simp only [unmarshalVariantOn, unmarshalVariant]
  | .cons s fs r, h, sel => by
    simp only [unmarshalVariantOn, unmarshalVariant, unmarshalFieldsOn_eq hm fs [] [] h.1 .nil,
      unmarshalVariantOn_eq hm r h.2]
end

/-! ### Lemmas: writing with truthful parts -/

theorem held_small {Q : Part X → X → Prop} {t : Ty X} {v : Val X} (h : Held Q t v) (ht : t.Narrow) :
    asUsize t v < 2 ^ 32 := by
  cases t with
  | std t =>
    cases v <;> simp only [Held] at h
    exact narrow_std ht (asUsize_lt h)
  | own p => cases v <;> simp only [asUsize] <;> first | exact ht _ | decide
  | struct fs => simp only [asUsize]; decide
  | enum w vs => simp only [asUsize]; decide

theorem agrees_loop {fM f : Val X → Bytes → MOut} :
    ∀ (n : Nat) (es : List (Val X)), (∀ e ∈ es.take n, Agrees m (fM e) (f e)) →
      AgreesAt m (marshalLoopOn m fM n es) (marshalLoop f n es)
  | 0, es, _ => by
    have h1 : marshalLoopOn m fM 0 es = fun w b => (.ok w, b) := by
      funext w b; cases es <;> rfl
    have h2 : marshalLoop f 0 es = fun w b => (.ok w, b) := by
      funext w b; cases es <;> rfl
    rw [h1, h2]
    exact .done
  | n + 1, [], _ => agreesAt_panic
  | n + 1, e :: es, h =>
    (h e (by simp)).step.then (agrees_loop n es fun x hx => h x (by simp [hx]))

mutual
theorem marshalOn_agrees (hm : 32 ≤ m.bits) : ∀ (t : Ty X) (v : Val X), t.Counts → Held Truthful t v →
    Agrees m (marshalOn m t v) (marshal t v)
  | .std t, v, h, hv => by
    cases v <;> simp only [Held] at hv
    exact Verif.marshalOn_agrees (m := m) (c := 4) (by omega) (by omega) t _ h hv
  | .own p, v, _, hv => by
    cases v <;> simp only [Held] at hv
    exact fun b _ => ⟨rfl, p.keeps_length _ _, fun n hn => hv b n hn⟩
  | .struct fs, v, h, hv => by
    cases v <;> simp only [Held] at hv
    exact (marshalFieldsOn_agrees hm fs [] [] _ h .nil hv).start
  | .enum w vs, v, h, hv => by
    cases v <;> simp only [Held] at hv
    exact ((agrees_bytes _).step.then (marshalVariantOn_agrees hm vs _ _ h hv).step).start
theorem marshalFieldsOn_agrees (hm : 32 ≤ m.bits) : ∀ (fs : Fields X) (ws : List Prop) (env : List Nat)
    (vs : List (Val X)), fs.Counts ws → EnvFits ws env → HeldFields Truthful fs env vs →
    AgreesAt m (marshalFieldsOn m fs env vs) (marshalFields fs env vs)
  | .nil, ws, env, vs, _, _, hv => by
    cases vs <;> simp only [HeldFields] at hv
    exact .done
  | .plain t r, ws, env, vs, h, he, hv => by
    cases vs <;> simp only [HeldFields] at hv
    exact (marshalOn_agrees hm t _ h.1 hv.1).step.then
      (marshalFieldsOn_agrees hm r _ _ _ h.2 (he.snoc (held_small hv.1)) hv.2)
  | .fixedArr t n r, ws, env, vs, h, he, hv => by
    rcases vs with _ | ⟨v, vs⟩
    · simp [HeldFields] at hv
    cases v <;> simp only [HeldFields] at hv
    exact (agrees_loop _ _ fun e he => marshalOn_agrees hm t e h.1 (hv.1 e he)).then
      (marshalFieldsOn_agrees hm r _ _ _ h.2 (he.snoc (x := 0) (fun _ => by decide)) hv.2)
  | .lenArr k t n r, ws, env, vs, h, he, hv => by
    rcases vs with _ | ⟨v, vs⟩
    · simp [HeldFields] at hv
    cases v <;> simp only [HeldFields] at hv
    have hk := cast_small hm (he.2 k h.1)
    have hl := (agrees_loop (env.getD k 0) _ fun e he => marshalOn_agrees hm t e h.2.1 (hv.1 e he)).then
      (marshalFieldsOn_agrees hm r _ _ _ h.2.2 (he.snoc (x := 0) (fun _ => by decide)) hv.2)
    intro w b h1 h2
    have := hl w b h1 h2
    simp only [marshalFieldsOn, marshalFields]
    rw [hk]
    exact this
theorem marshalVariantOn_agrees (hm : 32 ≤ m.bits) : ∀ (vs : Variants X) (sel : Nat)
    (fvs : List (Val X)), vs.Counts → HeldVariant Truthful vs sel fvs →
    Agrees m (marshalVariantOn m vs sel fvs) (marshalVariant vs sel fvs)
  | .nil, sel, fvs, _, hv => by simp only [HeldVariant] at hv
  | .cons s fs r, sel, fvs, h, hv => by
    simp only [HeldVariant] at hv
    intro b hbl
    simp only [marshalVariantOn, marshalVariant]
    split <;> rename_i hs
    · rw [if_pos hs] at hv
      exact (marshalFieldsOn_agrees hm fs [] [] _ h.1 .nil hv).start b hbl
    · rw [if_neg hs] at hv
      exact marshalVariantOn_agrees hm r sel _ h.2 hv b hbl
end

mutual
theorem Held.mono {P : Part X → Prop} {Q R : Part X → X → Prop} (hq : ∀ p x, P p → Q p x → R p x) :
    ∀ (t : Ty X) (v : Val X), t.Own P → Held Q t v → Held R t v
  | .std t, v, _, hv => by cases v <;> simp only [Held] at hv ⊢; exact hv
  | .own p, v, h, hv => by cases v <;> simp only [Held] at hv ⊢; exact hq _ _ h hv
  | .struct fs, v, h, hv => by
    cases v <;> simp only [Held] at hv ⊢
    exact HeldFields.mono hq fs _ _ h hv
  | .enum w vs, v, h, hv => by
    cases v <;> simp only [Held] at hv ⊢
    exact HeldVariant.mono hq vs _ _ h hv
theorem HeldFields.mono {P : Part X → Prop} {Q R : Part X → X → Prop} (hq : ∀ p x, P p → Q p x → R p x) :
    ∀ (fs : Fields X) (env : List Nat) (vs : List (Val X)), fs.Own P → HeldFields Q fs env vs →
      HeldFields R fs env vs
  | .nil, env, vs, _, hv => by cases vs <;> simp only [HeldFields] at hv ⊢
  | .plain t r, env, vs, h, hv => by
    cases vs <;> simp only [HeldFields] at hv ⊢
    exact ⟨Held.mono hq t _ h.1 hv.1, HeldFields.mono hq r _ _ h.2 hv.2⟩
  | .fixedArr t n r, env, vs, h, hv => by
    rcases vs with _ | ⟨v, vs⟩
    · simp [HeldFields] at hv
    cases v <;> simp only [HeldFields] at hv ⊢
    exact ⟨fun e he => Held.mono hq t e h.1 (hv.1 e he), HeldFields.mono hq r _ _ h.2 hv.2⟩
  | .lenArr k t n r, env, vs, h, hv => by
    rcases vs with _ | ⟨v, vs⟩
    · simp [HeldFields] at hv
    cases v <;> simp only [HeldFields] at hv ⊢
    exact ⟨fun e he => Held.mono hq t e h.1 (hv.1 e he), HeldFields.mono hq r _ _ h.2 hv.2⟩
theorem HeldVariant.mono {P : Part X → Prop} {Q R : Part X → X → Prop} (hq : ∀ p x, P p → Q p x → R p x) :
    ∀ (vs : Variants X) (sel : Nat) (fvs : List (Val X)), vs.Own P → HeldVariant Q vs sel fvs →
      HeldVariant R vs sel fvs
  | .nil, sel, fvs, _, hv => by simp only [HeldVariant] at hv
  | .cons s fs r, sel, fvs, h, hv => by
    simp only [HeldVariant] at hv ⊢
    split <;> rename_i hs
    · rw [if_pos hs] at hv
      exact HeldFields.mono hq fs _ _ h.1 hv
    · rw [if_neg hs] at hv
      exact HeldVariant.mono hq r sel _ h.2 hv
end

/-! ### Lemmas: writing with any parts -/

theorem mstep_ok_iff (f : Bytes → MOut) (w : Nat) (b : Bytes) (k : Nat) (b' : Bytes) :
    mstep f w b = (.ok k, b') ↔
      w ≤ b.length ∧ ∃ n sub, f (b.drop w) = (.ok n, sub) ∧ k = w + n ∧ b' = b.take w ++ sub := by
  unfold mstep
  by_cases h : w ≤ b.length
  · rw [if_pos h]
    rcases f (b.drop w) with ⟨n | e | _, sub⟩
    · simp only [Prod.mk.injEq, Res.ok.injEq, h, true_and]
      constructor
      · rintro ⟨rfl, rfl⟩; exact ⟨n, sub, ⟨rfl, rfl⟩, rfl, rfl⟩
      · rintro ⟨_, _, ⟨rfl, rfl⟩, rfl, rfl⟩; exact ⟨rfl, rfl⟩
    · simp
    · simp
  · simp [h]

theorem mthen_ok_iff (r : MOut) (k : Nat → Bytes → MOut) (n : Nat) (b' : Bytes) :
    mthen r k = (.ok n, b') ↔ ∃ w b, r = (.ok w, b) ∧ k w b = (.ok n, b') := by
  rcases r with ⟨w | e | _, b⟩
  · simp only [mthen, Prod.mk.injEq, Res.ok.injEq]
    exact ⟨fun h => ⟨w, b, ⟨rfl, rfl⟩, h⟩, by rintro ⟨_, _, ⟨rfl, rfl⟩, h⟩; exact h⟩
  · simp [mthen]
  · simp [mthen]

theorem prim_ok_iff (w sel : Nat) (b : Bytes) (n : Nat) (b' : Bytes) :
    marshalPrim w sel b = (.ok n, b') ↔ w ≤ b.length ∧ n = w ∧ b' = digits256 w sel ++ b.drop w := by
  unfold marshalPrim marshalBytes copyPrefix
  rw [toBE_eq_digits256, digits256_length]
  by_cases h : w ≤ b.length
  · simp only [h, if_true, true_and, and_self, Prod.mk.injEq, Res.ok.injEq]
    exact ⟨fun ⟨h1, h2⟩ => ⟨h1.symm, h2.symm⟩, fun ⟨h1, h2⟩ => ⟨h1.symm, h2.symm⟩⟩
  · simp [h]

theorem loop_puts {t : Ty X} {f : Val X → Bytes → MOut}
    (hf : ∀ v b n b', f v b = (.ok n, b') ↔ Puts t v b n b') : ∀ (k : Nat) (es : List (Val X)) (w : Nat)
    (b : Bytes) (w' : Nat) (b' : Bytes),
    marshalLoop f k es w b = (.ok w', b') ↔ PutsAll t k es w b w' b'
  | 0, es, w, b, w', b' => by
    simp only [marshalLoop, Prod.mk.injEq, Res.ok.injEq]
    exact ⟨by rintro ⟨rfl, rfl⟩; exact .nil, fun h => by cases h; exact ⟨rfl, rfl⟩⟩
  | k + 1, [], w, b, w', b' => by
    simp only [marshalLoop, Prod.mk.injEq, reduceCtorEq, false_and, false_iff]
    exact fun h => nomatch h
  | k + 1, e :: es, w, b, w', b' => by
    simp only [marshalLoop, mthen_ok_iff, mstep_ok_iff]
    constructor
    · rintro ⟨_, _, ⟨h1, n, sub, h2, rfl, rfl⟩, h3⟩
      exact .cons h1 ((hf _ _ _ _).1 h2) ((loop_puts hf k es _ _ _ _).1 h3)
    · intro h
      cases h with
      | cons h1 h2 h3 =>
        exact ⟨_, _, ⟨h1, _, _, (hf _ _ _ _).2 h2, rfl, rfl⟩, (loop_puts hf k es _ _ _ _).2 h3⟩

mutual
theorem marshal_puts : ∀ (t : Ty X) (v : Val X) (b : Bytes) (n : Nat) (b' : Bytes),
    marshal t v b = (.ok n, b') ↔ Puts t v b n b'
  | .std t, v, b, n, b' => by
    cases v <;> simp only [marshal] <;>
      first
      | exact ⟨fun h => .std h, fun h => by cases h; assumption⟩
      | exact ⟨fun h => by simp at h, fun h => nomatch h⟩
  | .own p, v, b, n, b' => by
    cases v <;> simp only [marshal] <;>
      first
      | exact ⟨fun h => .own h, fun h => by cases h; assumption⟩
      | exact ⟨fun h => by simp at h, fun h => nomatch h⟩
  | .struct fs, v, b, n, b' => by
    cases v <;> simp only [marshal] <;>
      first
      | exact ⟨fun h => .struct ((marshalFields_puts fs _ _ _ _ _ _).1 h),
          fun h => by cases h with | struct h => exact (marshalFields_puts fs _ _ _ _ _ _).2 h⟩
      | exact ⟨fun h => by simp at h, fun h => nomatch h⟩
  | .enum w vs, v, b, n, b' => by
    cases v with
    | enum sel fvs =>
      simp only [marshal, mthen_ok_iff, mstep_ok_iff, prim_ok_iff, List.drop_zero, List.take_zero,
        List.nil_append, Nat.zero_le, true_and, Nat.zero_add]
      constructor
      · rintro ⟨_, _, ⟨_, _, ⟨h1, rfl, rfl⟩, rfl, rfl⟩, h2, k, sub, h3, rfl, rfl⟩
        rw [List.drop_left' (digits256_length _ _)] at h3
        rw [List.take_left' (digits256_length _ _)]
        obtain ⟨fs, g1, g2⟩ := (marshalVariant_puts vs sel fvs _ _ _).1 h3
        exact .enum h1 g1 g2
      · intro h
        cases h with
        | enum h1 h2 h3 =>
          rename_i k sub
          refine ⟨w, _, ⟨w, _, ⟨h1, rfl, rfl⟩, rfl, rfl⟩, ?_, k, sub, ?_, rfl, ?_⟩
          · rw [List.length_append, digits256_length]; omega
          · rw [List.drop_left' (digits256_length _ _)]
            exact (marshalVariant_puts vs sel fvs _ _ _).2 ⟨_, h2, h3⟩
          · rw [List.take_left' (digits256_length _ _)]
    | std => simp only [marshal]; exact ⟨fun h => by simp at h, fun h => nomatch h⟩
    | own => simp only [marshal]; exact ⟨fun h => by simp at h, fun h => nomatch h⟩
    | struct => simp only [marshal]; exact ⟨fun h => by simp at h, fun h => nomatch h⟩
    | arr => simp only [marshal]; exact ⟨fun h => by simp at h, fun h => nomatch h⟩
theorem marshalFields_puts : ∀ (fs : Fields X) (env : List Nat) (vs : List (Val X)) (w : Nat) (b : Bytes)
    (w' : Nat) (b' : Bytes), marshalFields fs env vs w b = (.ok w', b') ↔ PutsFields fs env vs w b w' b'
  | .nil, env, vs, w, b, w', b' => by
    cases vs with
    | nil =>
      simp only [marshalFields, Prod.mk.injEq, Res.ok.injEq]
      exact ⟨by rintro ⟨rfl, rfl⟩; exact .nil, fun h => by cases h; exact ⟨rfl, rfl⟩⟩
    | cons => simp only [marshalFields]; exact ⟨fun h => by simp at h, fun h => nomatch h⟩
  | .plain t r, env, vs, w, b, w', b' => by
    cases vs with
    | nil => simp only [marshalFields]; exact ⟨fun h => by simp at h, fun h => nomatch h⟩
    | cons v vs =>
      simp only [marshalFields, mthen_ok_iff, mstep_ok_iff]
      constructor
      · rintro ⟨_, _, ⟨h1, n, sub, h2, rfl, rfl⟩, h3⟩
        exact .plain h1 ((marshal_puts t v _ _ _).1 h2) ((marshalFields_puts r _ _ _ _ _ _).1 h3)
      · intro h
        cases h with
        | plain h1 h2 h3 =>
          exact ⟨_, _, ⟨h1, _, _, (marshal_puts t v _ _ _).2 h2, rfl, rfl⟩,
            (marshalFields_puts r _ _ _ _ _ _).2 h3⟩
  | .fixedArr t n r, env, vs, w, b, w', b' => by
    rcases vs with _ | ⟨v, vs⟩
    · simp only [marshalFields]; exact ⟨fun h => by simp at h, fun h => nomatch h⟩
    cases v with
    | arr es =>
      simp only [marshalFields, mthen_ok_iff, loop_puts (marshal_puts t), marshalFields_puts r]
      exact ⟨fun ⟨_, _, h1, h2⟩ => .fixedArr h1 h2, fun h => by
        cases h with | fixedArr h1 h2 => exact ⟨_, _, h1, h2⟩⟩
    | std => simp only [marshalFields]; exact ⟨fun h => by simp at h, fun h => nomatch h⟩
    | own => simp only [marshalFields]; exact ⟨fun h => by simp at h, fun h => nomatch h⟩
    | struct => simp only [marshalFields]; exact ⟨fun h => by simp at h, fun h => nomatch h⟩
    | enum => simp only [marshalFields]; exact ⟨fun h => by simp at h, fun h => nomatch h⟩
  | .lenArr k t n r, env, vs, w, b, w', b' => by
    rcases vs with _ | ⟨v, vs⟩
    · simp only [marshalFields]; exact ⟨fun h => by simp at h, fun h => nomatch h⟩
    cases v with
    | arr es =>
      simp only [marshalFields, mthen_ok_iff, loop_puts (marshal_puts t), marshalFields_puts r]
      exact ⟨fun ⟨_, _, h1, h2⟩ => .lenArr h1 h2, fun h => by
        cases h with | lenArr h1 h2 => exact ⟨_, _, h1, h2⟩⟩
    | std => simp only [marshalFields]; exact ⟨fun h => by simp at h, fun h => nomatch h⟩
    | own => simp only [marshalFields]; exact ⟨fun h => by simp at h, fun h => nomatch h⟩
    | struct => simp only [marshalFields]; exact ⟨fun h => by simp at h, fun h => nomatch h⟩
    | enum => simp only [marshalFields]; exact ⟨fun h => by simp at h, fun h => nomatch h⟩
theorem marshalVariant_puts : ∀ (vs : Variants X) (sel : Nat) (fvs : List (Val X)) (b : Bytes) (n : Nat)
    (b' : Bytes), marshalVariant vs sel fvs b = (.ok n, b') ↔
      ∃ fs, Selects vs sel fs ∧ PutsFields fs [] fvs 0 b n b'
  | .nil, sel, fvs, b, n, b' => by
    simp only [marshalVariant, Prod.mk.injEq, reduceCtorEq, false_and, false_iff]
    rintro ⟨_, h, _⟩
    cases h
  | .cons s fs r, sel, fvs, b, n, b' => by
    simp only [marshalVariant]
    split <;> rename_i hs
    · subst hs
      rw [marshalFields_puts fs]
      constructor
      · exact fun h => ⟨fs, .here, h⟩
      · rintro ⟨_, h1, h2⟩
        cases h1 with
        | here => exact h2
        | there h1 _ => exact absurd rfl h1
    · rw [marshalVariant_puts r]
      constructor
      · rintro ⟨fs', h1, h2⟩; exact ⟨fs', .there hs h1, h2⟩
      · rintro ⟨fs', h1, h2⟩
        cases h1 with
        | here => exact absurd rfl hs
        | there _ h1 => exact ⟨fs', h1, h2⟩
end

/-! ### Lemmas: with overflow checks -/

/-- With overflow checks the code succeeds where that without limits does with a `usize`. -/
def Checks (m : Machine) (fM f : Bytes → MOut) : Prop :=
  (∀ b, (f b).2.length = b.length) ∧ ∀ b : Bytes, b.length < 2 ^ m.bits →
    ∀ n b', fM b = (.ok n, b') ↔ f b = (.ok n, b') ∧ n < 2 ^ m.bits

/-- The same with a number of bytes already written, which grows. -/
def ChecksAt (m : Machine) (fM f : Nat → Bytes → MOut) : Prop :=
  (∀ w b, (f w b).2.length = b.length) ∧ (∀ w b n b', f w b = (.ok n, b') → w ≤ n) ∧
  ∀ (w : Nat) (b : Bytes), b.length < 2 ^ m.bits → w < 2 ^ m.bits →
    ∀ n b', fM w b = (.ok n, b') ↔ f w b = (.ok n, b') ∧ n < 2 ^ m.bits

theorem checks_of_agrees {fM f : Bytes → MOut} (h : Agrees m fM f)
    (hl : ∀ b, (f b).2.length = b.length) : Checks m fM f := by
  refine ⟨hl, fun b hb n b' => ?_⟩
  obtain ⟨h1, h2, h3⟩ := h b hb
  rw [h1]
  constructor
  · intro e
    have := h3 n (by rw [e])
    exact ⟨e, by omega⟩
  · exact fun e => e.1

theorem mstepOn_ok_iff (hc : m.checked = true) (f : Bytes → MOut) (w : Nat) (b : Bytes) (k : Nat)
    (b' : Bytes) : mstepOn m f w b = (.ok k, b') ↔
      w ≤ b.length ∧ ∃ n sub, f (b.drop w) = (.ok n, sub) ∧ k = w + n ∧ k < 2 ^ m.bits ∧
        b' = b.take w ++ sub := by
  unfold mstepOn
  by_cases h : w ≤ b.length
  · rw [if_pos h]
    rcases f (b.drop w) with ⟨n | e | _, sub⟩
    · simp only [Machine.add, hc, if_true, Prod.mk.injEq, Res.ok.injEq, h, true_and]
      by_cases hl : w + n < 2 ^ m.bits
      · simp only [hl, if_true, Prod.mk.injEq, Res.ok.injEq]
        constructor
        · rintro ⟨rfl, rfl⟩; exact ⟨n, sub, ⟨rfl, rfl⟩, rfl, hl, rfl⟩
        · rintro ⟨_, _, ⟨rfl, rfl⟩, rfl, _, rfl⟩; exact ⟨rfl, rfl⟩
      · simp only [hl, if_false, Prod.mk.injEq, reduceCtorEq, false_and, false_iff]
        rintro ⟨_, _, ⟨rfl, rfl⟩, rfl, h, _⟩
        exact hl h
    · simp
    · simp
  · simp [h]

theorem mstep_len {f : Bytes → MOut} (hf : ∀ b, (f b).2.length = b.length) (w : Nat) (b : Bytes) :
    (mstep f w b).2.length = b.length := by
  unfold mstep
  split
  · rename_i h
    have := hf (b.drop w)
    rcases hf : f (b.drop w) with ⟨n | e | _, sub⟩ <;> rw [hf] at this <;>
      simp only [List.length_drop] at this <;>
      simp only [List.length_append, List.length_take] <;> omega
  · rfl

theorem Checks.step (hc : m.checked = true) {fM f : Bytes → MOut} (h : Checks m fM f) :
    ChecksAt m (mstepOn m fM) (mstep f) := by
  refine ⟨mstep_len h.1, fun w b n b' e => ?_, fun w b hb hw n b' => ?_⟩
  · obtain ⟨_, k, _, _, rfl, _⟩ := (mstep_ok_iff _ _ _ _ _).1 e
    omega
  · have hd := h.2 (b.drop w) (by rw [List.length_drop]; omega)
    rw [mstepOn_ok_iff hc, mstep_ok_iff]
    constructor
    · rintro ⟨h1, k, sub, h2, rfl, h3, rfl⟩
      exact ⟨⟨h1, k, sub, ((hd _ _).1 h2).1, rfl, rfl⟩, h3⟩
    · rintro ⟨⟨h1, k, sub, h2, rfl, rfl⟩, h3⟩
      exact ⟨h1, k, sub, (hd _ _).2 ⟨h2, by omega⟩, rfl, h3, rfl⟩

theorem ChecksAt.then {fM f kM k : Nat → Bytes → MOut} (h : ChecksAt m fM f) (hk : ChecksAt m kM k) :
    ChecksAt m (fun w b => mthen (fM w b) kM) (fun w b => mthen (f w b) k) := by
  obtain ⟨h1, h2, h3⟩ := h
  obtain ⟨k1, k2, k3⟩ := hk
  refine ⟨fun w b => ?_, fun w b n b' e => ?_, fun w b hb hw n b' => ?_⟩
  · have hl := h1 w b
    show (mthen (f w b) k).2.length = b.length
    rcases hf : f w b with ⟨n | e | _, sub⟩ <;> rw [hf] at hl
    · exact (k1 n sub).trans hl
    · exact hl
    · exact hl
  · obtain ⟨w1, b1, e1, e2⟩ := (mthen_ok_iff _ _ _ _).1 e
    exact Nat.le_trans (h2 _ _ _ _ e1) (k2 _ _ _ _ e2)
  · simp only [mthen_ok_iff]
    constructor
    · rintro ⟨w1, b1, e1, e2⟩
      obtain ⟨e1, hw1⟩ := (h3 w b hb hw _ _).1 e1
      have hl := h1 w b
      rw [e1] at hl
      obtain ⟨e2, hn⟩ := (k3 w1 b1 (by rw [show b1.length = b.length from hl]; exact hb) hw1 _ _).1 e2
      exact ⟨⟨w1, b1, e1, e2⟩, hn⟩
    · rintro ⟨⟨w1, b1, e1, e2⟩, hn⟩
      have hw1 : w1 < 2 ^ m.bits := Nat.lt_of_le_of_lt (k2 _ _ _ _ e2) hn
      have hl := h1 w b
      rw [e1] at hl
      exact ⟨w1, b1, (h3 w b hb hw _ _).2 ⟨e1, hw1⟩,
        (k3 w1 b1 (by rw [show b1.length = b.length from hl]; exact hb) hw1 _ _).2 ⟨e2, hn⟩⟩

theorem ChecksAt.done : ChecksAt m (fun w b => (.ok w, b)) (fun w b => (.ok w, b)) := by
  refine ⟨fun _ _ => rfl, fun w b n b' e => ?_, fun w b _ hw n b' => ?_⟩
  · simp only [Prod.mk.injEq, Res.ok.injEq] at e
    omega
  · simp only [Prod.mk.injEq, Res.ok.injEq]
    exact ⟨fun e => ⟨e, by omega⟩, fun e => e.1⟩

theorem checksAt_panic : ChecksAt m (fun _ b => (.panic, b)) (fun _ b => (.panic, b)) :=
  ⟨fun _ _ => rfl, fun w b n b' e => by simp at e, fun w b _ _ n b' => by simp⟩

theorem ChecksAt.start {fM f : Nat → Bytes → MOut} (h : ChecksAt m fM f) : Checks m (fM 0) (f 0) :=
  ⟨h.1 0, fun b hb => h.2.2 0 b hb (Nat.two_pow_pos _)⟩

theorem checks_loop (hc : m.checked = true) {fM f : Val X → Bytes → MOut} :
    ∀ (n : Nat) (es : List (Val X)), (∀ e ∈ es.take n, Checks m (fM e) (f e)) →
      ChecksAt m (marshalLoopOn m fM n es) (marshalLoop f n es)
  | 0, es, _ => by
    have h1 : marshalLoopOn m fM 0 es = fun w b => (.ok w, b) := by
      funext w b; cases es <;> rfl
    have h2 : marshalLoop f 0 es = fun w b => (.ok w, b) := by
      funext w b; cases es <;> rfl
    rw [h1, h2]
    exact .done
  | n + 1, [], _ => checksAt_panic
  | n + 1, e :: es, h =>
    ((h e (by simp)).step hc).then (checks_loop hc n es fun x hx => h x (by simp [hx]))

mutual
theorem marshalOn_checks (hc : m.checked = true) (hm : 32 ≤ m.bits) : ∀ (t : Ty X) (v : Val X), t.Counts →
    Held (Reports m) t v → Checks m (marshalOn m t v) (marshal t v)
  | .std t, v, h, hv => by
    cases v <;> simp only [Held] at hv
    exact checks_of_agrees (Verif.marshalOn_agrees (m := m) (c := 4) (by omega) (by omega) t _ h hv)
      (marshal_len (.std t) (.std _))
  | .own p, v, _, hv => by
    cases v <;> simp only [Held] at hv
    refine ⟨fun b => p.keeps_length _ _, fun b _ n b' => ?_⟩
    simp only [marshalOn, marshal]
    exact ⟨fun e => ⟨e, hv b n (by rw [e])⟩, fun e => e.1⟩
  | .struct fs, v, h, hv => by
    cases v <;> simp only [Held] at hv
    exact (marshalFieldsOn_checks hc hm fs [] [] _ h .nil hv).start
  | .enum w vs, v, h, hv => by
    cases v <;> simp only [Held] at hv
    exact (((checks_of_agrees (agrees_bytes _) fun b => marshalBytes_len _ b).step hc).then
      ((marshalVariantOn_checks hc hm vs _ _ h hv).step hc)).start
theorem marshalFieldsOn_checks (hc : m.checked = true) (hm : 32 ≤ m.bits) : ∀ (fs : Fields X)
    (ws : List Prop) (env : List Nat)
    (vs : List (Val X)), fs.Counts ws → EnvFits ws env → HeldFields (Reports m) fs env vs →
    ChecksAt m (marshalFieldsOn m fs env vs) (marshalFields fs env vs)
  | .nil, ws, env, vs, _, _, hv => by
    cases vs <;> simp only [HeldFields] at hv
    exact .done
  | .plain t r, ws, env, vs, h, he, hv => by
    cases vs <;> simp only [HeldFields] at hv
    exact ((marshalOn_checks hc hm t _ h.1 hv.1).step hc).then
      (marshalFieldsOn_checks hc hm r _ _ _ h.2 (he.snoc (held_small hv.1)) hv.2)
  | .fixedArr t n r, ws, env, vs, h, he, hv => by
    rcases vs with _ | ⟨v, vs⟩
    · simp [HeldFields] at hv
    cases v <;> simp only [HeldFields] at hv
    exact (checks_loop hc _ _ fun e he => marshalOn_checks hc hm t e h.1 (hv.1 e he)).then
      (marshalFieldsOn_checks hc hm r _ _ _ h.2 (he.snoc (x := 0) (fun _ => by decide)) hv.2)
  | .lenArr k t n r, ws, env, vs, h, he, hv => by
    rcases vs with _ | ⟨v, vs⟩
    · simp [HeldFields] at hv
    cases v with
    | arr es =>
      simp only [HeldFields] at hv
      have hk := cast_small hm (he.2 k h.1)
      have hl := (checks_loop hc (env.getD k 0) es fun e he =>
        marshalOn_checks hc hm t e h.2.1 (hv.1 e he)).then
        (marshalFieldsOn_checks hc hm r _ _ vs h.2.2 (he.snoc (x := 0) (fun _ => by decide)) hv.2)
      have h1 : marshalFieldsOn m (.lenArr k t n r) env (.arr es :: vs) = fun w b =>
          mthen (marshalLoopOn m (fun v b => marshalOn m t v b) (env.getD k 0) es w b)
            (marshalFieldsOn m r (env ++ [0]) vs) := by
        funext w b
        simp only [marshalFieldsOn]
        rw [hk]
      have h2 : marshalFields (.lenArr k t n r) env (.arr es :: vs) = fun w b =>
          mthen (marshalLoop (fun v b => marshal t v b) (env.getD k 0) es w b)
            (marshalFields r (env ++ [0]) vs) := by
        funext w b
        simp only [marshalFields]
      rw [h1, h2]
      exact hl
    | std => simp [HeldFields] at hv
    | own => simp [HeldFields] at hv
    | struct => simp [HeldFields] at hv
    | enum => simp [HeldFields] at hv
theorem marshalVariantOn_checks (hc : m.checked = true) (hm : 32 ≤ m.bits) : ∀ (vs : Variants X)
    (sel : Nat) (fvs : List (Val X)), vs.Counts → HeldVariant (Reports m) vs sel fvs →
    Checks m (marshalVariantOn m vs sel fvs) (marshalVariant vs sel fvs)
  | .nil, sel, fvs, _, hv => by simp only [HeldVariant] at hv
  | .cons s fs r, sel, fvs, h, hv => by
    simp only [HeldVariant] at hv
    by_cases hs : sel = s
    · rw [if_pos hs] at hv
      have h1 : marshalVariantOn m (.cons s fs r) sel fvs = marshalFieldsOn m fs [] fvs 0 := by
        funext b; simp only [marshalVariantOn, if_pos hs]
      have h2 : marshalVariant (.cons s fs r) sel fvs = marshalFields fs [] fvs 0 := by
        funext b; simp only [marshalVariant, if_pos hs]
      rw [h1, h2]
      exact (marshalFieldsOn_checks hc hm fs [] [] _ h.1 .nil hv).start
    · rw [if_neg hs] at hv
      have h1 : marshalVariantOn m (.cons s fs r) sel fvs = marshalVariantOn m r sel fvs := by
        funext b; simp only [marshalVariantOn, if_neg hs]
      have h2 : marshalVariant (.cons s fs r) sel fvs = marshalVariant r sel fvs := by
        funext b; simp only [marshalVariant, if_neg hs]
      rw [h1, h2]
      exact marshalVariantOn_checks hc hm r sel _ h.2 hv
end

end Verif.Own
