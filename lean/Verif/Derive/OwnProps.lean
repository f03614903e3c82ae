import Verif.Derive.OwnCompile

/-! C119: the derive macro for declarations with types of the caller's own. -/

namespace Verif.Own.Derive
open Verif
open _root_.Verif.Derive

variable {X : Type}

/-- **C119**: a declaration with types of the caller's own is accepted and the generated code compiles
exactly if the declaration has a meaning and its names and element types can be used. -/
theorem C119_compiles (Γ : Ctx X) (w : Nat) (input : Input) (hp : input.Plain)
    (hd : Distinct input.data) :
    (∃ items c, deriveMarshalable input = .ok items ∧ implOf Γ w input items = some c) ↔
      Usable input.data ∧ Placed Γ input.data ∧ ∃ t, Means Γ w input.data t := by
  constructor
  · rintro ⟨items, c, h, hc⟩
    exact means_sound hp hd h hc
  · rintro ⟨hu, hq, t, ht⟩
    obtain ⟨items, c, h, hc, _⟩ := means_complete hp hd hu hq ht
    exact ⟨items, c, h, hc⟩

/-- **C119**: the generated implementation is the one declared: it calls the implementations of the
types of its fields one after the other. -/
theorem C119_generated (Γ : Ctx X) (w : Nat) (input : Input) (items : List Item) (c : Codec X)
    (hp : input.Plain) (hd : Distinct input.data) (h : deriveMarshalable input = .ok items)
    (hc : implOf Γ w input items = some c) :
    ∃ t, Means Γ w input.data t ∧ c.Implements t := by
  obtain ⟨hu, hq, t, ht⟩ := means_sound hp hd h hc
  obtain ⟨items', c', h', hc', hi⟩ := means_complete hp hd hu hq ht
  rw [h] at h'
  cases h'
  rw [hc] at hc'
  cases hc'
  exact ⟨t, ht, hi⟩

/-- Field lists have one meaning. -/
theorem fieldsMean_unique {Γ : Ctx X} {before fs : List NField} {F : Fields X}
    (h : FieldsMean Γ before fs F) : ∀ {F'}, ((before ++ fs).map (·.ident)).Nodup →
    FieldsMean Γ before fs F' → F = F' := by
  induction h with
  | nil => intro F' _ h'; cases h'; rfl
  | plain hb ha ht _ ih =>
    intro F' hd h'
    have hd' := hd
    rw [← List.append_cons] at ih
    cases h' with
    | plain hb' ha' ht' hr => rw [ht] at ht'; cases ht'; rw [ih hd hr]
    | array hb' hty _ _ _ => exact absurd (by rw [hty]; trivial) ha
    | counted hc _ _ _ _ _ _ _ _ _ _ => exact absurd hb (counted_not_bare hc)
  | array hb hty ht hn _ ih =>
    intro F' hd h'
    rw [← List.append_cons] at ih
    cases h' with
    | plain hb' ha' ht' hr => exact absurd (by rw [hty]; trivial) ha'
    | array hb' hty' ht' hn' hr =>
      rw [hty] at hty'; cases hty'
      rw [ht] at ht'; cases ht'
      rw [hn] at hn'; cases hn'
      rw [ih hd hr]
    | counted hc _ _ _ _ _ _ _ _ _ _ => exact absurd hb (counted_not_bare hc)
  | @counted before f fs elem len t n r l k g i hc hty ht hn hk hl _ _ _ _ _ ih =>
    intro F' hd h'
    rw [← List.append_cons] at ih
    cases h' with
    | plain hb' ha' ht' hr => exact absurd (by rw [hty]; trivial) ha'
    | array hb' _ _ _ _ => exact absurd hb' (counted_not_bare hc)
    | @counted _ _ _ _ _ _ _ _ l' k' g' i' hc' hty' ht' hn' hk' hl' _ _ _ _ hr =>
      rw [hty] at hty'; cases hty'
      rw [ht] at ht'; cases ht'
      rw [hn] at hn'; cases hn'
      have hll : l = l' := by
        have e1 := (attr_some f l).mpr hc
        have e2 := (attr_some f l').mpr hc'
        rw [e1] at e2
        simp only [Res.ok.injEq, Option.some.injEq, Path.ident, Path.mk.injEq, List.cons.injEq,
          Segment.mk.injEq, and_true] at e2
        exact e2
      subst hll
      have hkk : k = k' := by
        rw [List.map_append, List.nodup_append] at hd
        have a1 := (List.getElem?_eq_some_iff.mp hk)
        have a2 := (List.getElem?_eq_some_iff.mp hk')
        obtain ⟨p1, q1⟩ := a1
        obtain ⟨p2, q2⟩ := a2
        have pw := List.pairwise_iff_getElem.mp hd.1
        rcases Nat.lt_trichotomy k k' with hlt | he | hlt
        · have := pw k k' (by simpa using p1) (by simpa using p2) hlt
          simp only [List.getElem_map, q1, q2, hl, hl', ne_eq, not_true_eq_false] at this
        · exact he
        · have := pw k' k (by simpa using p2) (by simpa using p1) hlt
          simp only [List.getElem_map, q1, q2, hl, hl', ne_eq, not_true_eq_false] at this
      rw [hkk, ih hd hr]

/-- **C119**: a declaration has one meaning. -/
theorem C119_unambiguous (Γ : Ctx X) (w : Nat) (d : Data) (t t' : Ty X) (hd : Distinct d)
    (h : Means Γ w d t) (h' : Means Γ w d t') : t = t' := by
  have tup : ∀ {ts F}, TuplesMean Γ ts F → ∀ {F'}, TuplesMean Γ ts F' → F = F' := by
    intro ts F h
    induction h with
    | nil => intro F' h'; cases h'; rfl
    | cons ht _ ih =>
      intro F' h'
      cases h' with
      | cons ht' hr => rw [ht] at ht'; cases ht'; rw [ih hr]
  have var : ∀ {vs V}, VariantsMean Γ vs V → ∀ {V'}, VariantsMean Γ vs V' → V = V' := by
    intro vs V h
    induction h with
    | nil => intro F' h'; cases h'; rfl
    | cons hf hdisc hs ht _ ih =>
      intro F' h'
      cases h' with
      | cons hf' hdisc' hs' ht' hr =>
        rw [hf] at hf'; cases hf'
        rw [hdisc] at hdisc'; cases hdisc'
        rw [hs] at hs'; cases hs'
        rw [tup ht ht', ih hr]
  cases h with
  | named h => cases h' with | named h' => rw [fieldsMean_unique h hd h']
  | unnamed h => cases h' with | unnamed h' => rw [tup h h']
  | unit => cases h'; rfl
  | enum h => cases h' with | enum h' => rw [var h h']

mutual
theorem formed_fields {M : Part X → Meaning X} : ∀ (fs : Fields X) (env : List Nat) (vs : List (Val X)),
    SoundFields M fs env vs → FormedFields fs vs
  | .nil, _, vs, h => by
    cases vs with
    | nil => exact .nil
    | cons _ _ => exact absurd h (by simp [SoundFields])
  | .plain t r, env, vs, h => by
    cases vs with
    | nil => exact absurd h (by simp [SoundFields])
    | cons v vs => exact .plain (formed_fields r _ vs (by simp only [SoundFields] at h; exact h.2))
  | .fixedArr t n r, env, vs, h => by
    match vs, h with
    | .arr es :: vs, h => exact .fixedArr (formed_fields r _ vs (by simp only [SoundFields] at h; exact h.2.2))
    | [], h => exact absurd h (by simp [SoundFields])
    | .std _ :: _, h => exact absurd h (by simp [SoundFields])
    | .own _ :: _, h => exact absurd h (by simp [SoundFields])
    | .struct _ :: _, h => exact absurd h (by simp [SoundFields])
    | .enum _ _ :: _, h => exact absurd h (by simp [SoundFields])
  | .lenArr k t n r, env, vs, h => by
    match vs, h with
    | .arr es :: vs, h => exact .lenArr (formed_fields r _ vs (by simp only [SoundFields] at h; exact h.2.2.2))
    | [], h => exact absurd h (by simp [SoundFields])
    | .std _ :: _, h => exact absurd h (by simp [SoundFields])
    | .own _ :: _, h => exact absurd h (by simp [SoundFields])
    | .struct _ :: _, h => exact absurd h (by simp [SoundFields])
    | .enum _ _ :: _, h => exact absurd h (by simp [SoundFields])
theorem formed_variant {M : Part X → Meaning X} : ∀ (vs : Variants X) (sel : Nat) (fvs : List (Val X)),
    SoundVariant M vs sel fvs → ∃ fs, Selects vs sel fs ∧ FormedFields fs fvs
  | .nil, _, _, h => absurd h (by simp [SoundVariant])
  | .cons s fs rest, sel, fvs, h => by
    simp only [SoundVariant] at h
    by_cases e : sel = s
    · subst e
      rw [if_pos rfl] at h
      exact ⟨fs, .here, formed_fields fs _ fvs h⟩
    · rw [if_neg e] at h
      obtain ⟨fs', hs, hf⟩ := formed_variant rest sel fvs h
      exact ⟨fs', .there e hs, hf⟩
end

/-- **C119**: if the types of the caller's own do what they should, so does the generated
implementation: it writes the encodings of its fields one after the other, refuses if there is no room,
and reads nothing else. -/
theorem C119_lawful (Γ : Ctx X) (w : Nat) (input : Input) (items : List Item) (c : Codec X)
    (hp : input.Plain) (hd : Distinct input.data) (h : deriveMarshalable input = .ok items)
    (hc : implOf Γ w input items = some c) :
    ∃ t, Means Γ w input.data t ∧
      ∀ M : Part X → Meaning X, (t.Own fun p => Lawful p (M p)) →
      (∀ v buf, Sound M t v → (wire M t v).length ≤ buf.length →
        c.marshal v buf = (.ok (wire M t v).length, wire M t v ++ buf.drop (wire M t v).length)) ∧
      (∀ v buf n, Sound M t v → buf.length < (wire M t v).length → (c.marshal v buf).1 ≠ .ok n) ∧
      (∀ v r, Sound M t v → c.unmarshal (wire M t v ++ r) = (.ok (canon M t v), r)) ∧
      ∀ b v r, c.unmarshal b = (.ok v, r) → Sound M t v ∧ b = wire M t v ++ r := by
  obtain ⟨t, ht, hu, hm⟩ := C119_generated Γ w input items c hp hd h hc
  refine ⟨t, ht, fun M hM => ?_⟩
  have l := C112_derived (M := M) t hM
  have hf : ∀ v, Sound M t v → Formed t v := by
    intro v hv
    generalize input.data = d at ht
    cases ht with
    | named _ =>
      cases v with
      | struct vs => exact .struct (formed_fields _ [] vs (by simpa only [Sound] using hv))
      | _ => simp [Sound] at hv
    | unnamed _ =>
      cases v with
      | struct vs => exact .struct (formed_fields _ [] vs (by simpa only [Sound] using hv))
      | _ => simp [Sound] at hv
    | unit =>
      cases v with
      | struct vs => exact .struct (formed_fields _ [] vs (by simpa only [Sound] using hv))
      | _ => simp [Sound] at hv
    | enum _ =>
      cases v with
      | enum sel fvs =>
        simp only [Sound] at hv
        obtain ⟨fs, hs, hf⟩ := formed_variant _ sel fvs hv.2
        exact .enum hs hf
      | _ => simp [Sound] at hv
  refine ⟨fun v buf hv hl => ?_, fun v buf n hv hl => ?_, fun v r hv => ?_, fun b v r hb => ?_⟩
  · rw [hm v buf (hf v hv)]
    exact l.writes v buf hv hl
  · rw [hm v buf (hf v hv)]
    exact l.refuses v buf n hv hl
  · rw [hu]
    exact l.reads v r hv
  · rw [hu] at hb
    obtain ⟨h1, _, h3⟩ := l.only b v r hb
    exact ⟨h1, h3⟩

/-! ### A case -/

/-- `Small` is the type of the caller's own of C112, which can be cast; `Choice` the enum declared
below. -/
def exCtx : Ctx Nat where
  ty
    | .path p =>
      match p.getIdent with
      | some "Small" => some (.own small)
      | some "u16" => some (.std (.prim 2))
      | some "Choice" => some (.enum 1 exVs)
      | _ => none
    | _ => none
  cast
    | .path p => p.isIdent "Small" || p.isIdent "u16"
    | _ => false
  slots
    | .path p => p.isIdent "Small" || p.isIdent "u16"
    | _ => false
  size
    | .lit n => some n
    | _ => none
  sel
    | .lit n => some n
    | _ => none

/-- `enum Choice { A(Small) = 1, B(u16) = 2 }`. -/
def exChoice : Input := ⟨"Choice", [], .enum [
  ⟨"A", .unnamed [.path (.ident "Small")], some (.lit 1)⟩,
  ⟨"B", .unnamed [.path (.ident "u16")], some (.lit 2)⟩]⟩

/-- The fields of the structure below. -/
def exFields : List NField := [
  ⟨"count", .path (.ident "Small"), []⟩,
  ⟨"items", .array (.path (.ident "Small")) (.lit 3),
    [⟨.ident "marshalable", some [.path (.ident "length"), .eq, .path (.ident "count")]⟩]⟩,
  ⟨"choice", .path (.ident "Choice"), []⟩]

/-- `struct Ex { count: Small, #[marshalable(length = count)] items: [Small; 3], choice: Choice }`. -/
def exInput : Input := ⟨"Ex", [], .struct (.named exFields)⟩

theorem exMeans : Means exCtx 0 exInput.data exTy := by
  refine .named (.plain ?_ ?_ rfl (.counted (l := "count") (k := 0)
    (g := ⟨"count", .path (.ident "Small"), []⟩) ?_ rfl rfl rfl rfl rfl ?_ ?_ rfl rfl
    (.plain ?_ ?_ rfl .nil)))
  · intro a ha; cases ha
  · intro h; cases h
  · refine ⟨[], _, [], _, _, rfl, rfl, rfl, .inl rfl, rfl, ?_⟩
    intro b hb
    cases hb
  · intro a ha; cases ha
  · intro h; cases h
  · intro a ha; cases ha
  · intro h; cases h

theorem exUsable : Usable exInput.data ∧ Placed exCtx exInput.data := by
  have hm : ∀ f ∈ exFields, f.ident ≠ "buffer" := by decide
  refine ⟨⟨?_, ?_⟩, ?_⟩
  · intro pre f post h hb
    exact absurd hb (hm f (by rw [h]; simp))
  · intro f hf elem len h
    simp only [exFields, List.mem_cons, List.not_mem_nil, or_false] at hf
    rcases hf with rfl | rfl | rfl <;> cases h <;> rfl
  · intro f hf elem len h
    simp only [exFields, List.mem_cons, List.not_mem_nil, or_false] at hf
    rcases hf with rfl | rfl | rfl <;> cases h <;> rfl

theorem exDistinct : exInput.Plain ∧ Distinct exInput.data :=
  ⟨(by intro a ha; cases ha), (by
    show (exFields.map (·.ident)).Nodup
    decide)⟩

/-- Both declarations are accepted; the structure has the type of the case of C112 and is written and
read as that. -/
example : ∃ items c, deriveMarshalable exInput = .ok items ∧ implOf exCtx 0 exInput items = some c ∧
    c.marshal exVal (List.replicate 8 0xFF) = (.ok 6, [2, 1, 0, 2, 0x12, 0x34, 0xFF, 0xFF]) ∧
    c.unmarshal [2, 1, 0, 2, 0x12, 0x34, 0x56] =
      (.ok (.struct [.own 2, .arr [.own 1, .own 0, .own 3], .enum 2 [.std (.int 0x1234)]]), [0x56]) := by
  obtain ⟨items, c, h, hc⟩ := (C119_compiles exCtx 0 exInput exDistinct.1 exDistinct.2).2
    ⟨exUsable.1, exUsable.2, _, exMeans⟩
  obtain ⟨t, ht, hl⟩ := C119_lawful exCtx 0 exInput items c exDistinct.1 exDistinct.2 h hc
  have e := C119_unambiguous exCtx 0 _ _ _ exDistinct.2 ht exMeans
  subst e
  obtain ⟨h1, _, h3, _⟩ := hl (fun _ => smallMeaning) (Ty.Own.mono (fun _ h => h.1) _ exTy_own)
  exact ⟨items, c, h, hc, h1 exVal (List.replicate 8 0xFF) exVal_sound (by decide),
    h3 exVal [0x56] exVal_sound⟩

example : Means exCtx 1 exChoice.data (.enum 1 exVs) :=
  .enum (.cons rfl rfl rfl (.cons rfl .nil) (.cons rfl rfl rfl (.cons rfl .nil) .nil))

/-- An array of `Choice`, which is neither `Copy` nor `Default`, has a meaning, but the generated code
does not compile. -/
example : ∀ items c, deriveMarshalable ⟨"S", [], .struct (.named
      [⟨"all", .array (.path (.ident "Choice")) (.lit 2), []⟩])⟩ = .ok items →
    implOf exCtx 0 ⟨"S", [], .struct (.named
      [⟨"all", .array (.path (.ident "Choice")) (.lit 2), []⟩])⟩ items ≠ some c := by
  intro items c h hc
  have := ((C119_compiles exCtx 0 _ (by intro a ha; cases ha) (by
    show ([_] : List Ident).Nodup
    simp)).1 ⟨items, c, h, hc⟩).2.1
  exact absurd (this _ (List.mem_singleton.2 rfl) _ _ rfl) (by decide)

end Verif.Own.Derive
