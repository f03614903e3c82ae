import Verif.Derive.Compile
import Verif.Codec.Props

/-! C62–C66: the derive macros. -/

namespace Verif.Derive
open Verif

/-! ### An example -/

/-- The names of the examples: integer types and byte arrays, literals. -/
def exCtx : Ctx where
  ty
    | .path p =>
      match p.getIdent with
      | some "u8" => some (.prim 1)
      | some "u16" => some (.prim 2)
      | some "u32" => some (.prim 4)
      | _ => none
    | .array (.path p) (.lit n) => if p.isIdent "u8" then some (.bytes n) else none
    | _ => none
  size
    | .lit n => some n
    | _ => none
  sel
    | .lit n => some n
    | _ => none

/-- `u8`, `u16`, `u32`. -/
def exTy (i : Ident) : TypeE := .path (.ident i)

/-- `struct Ex { count: u16, tag: [u8; 2], #[marshalable(length = count)] items: [u32; 4] }`. -/
def exFields : List NField := [
  ⟨"count", exTy "u16", []⟩,
  ⟨"tag", .array (exTy "u8") (.lit 2), []⟩,
  ⟨"items", .array (exTy "u32") (.lit 4),
    [⟨.ident "doc", none⟩,
     ⟨.ident "marshalable", some [.path (.ident "length"), .eq, .path (.ident "count")]⟩]⟩]

/-- The declared codec of the example. -/
def exF : Fields := .plain (.prim 2) (.fixedArr (.prim 1) 2 (.lenArr 0 (.prim 4) 4 .nil))

/-- The example as input of the macro. -/
def exInput : Input := ⟨"Ex", [], .struct (.named exFields)⟩

theorem exMeans : Means exCtx 0 exInput.data (.struct exF) := by
  refine .named (.plain ?_ ?_ rfl (.array ?_ rfl rfl rfl
    (.counted (l := "count") (g := ⟨"count", exTy "u16", []⟩) (i := 2) ?_ rfl rfl rfl rfl rfl ?_ ?_ rfl
      .nil)))
  · intro a ha; cases ha
  · intro h; cases h
  · intro a ha; cases ha
  · refine ⟨[⟨.ident "doc", none⟩], _, [], _, _, rfl, rfl, rfl, .inl rfl, rfl, ?_⟩
    intro b hb
    simp at hb
    subst hb
    rfl
  · intro a ha; cases ha
  · intro h; cases h

theorem exUsable : Usable exInput.data := by
  have hm : ∀ f ∈ exFields, f.ident ≠ "buffer" := by decide
  refine ⟨?_, ?_⟩
  · intro pre f post h hb
    exact absurd hb (hm f (by rw [h]; simp))
  · intro f hf elem len h
    simp only [exFields, List.mem_cons, List.not_mem_nil, or_false] at hf
    rcases hf with rfl | rfl | rfl <;> cases h <;> rfl

/-! ### C62 -/

/-- **C62.** The generated implementation, if it compiles, is the declared
codec. -/
theorem C62_generated (Γ : Ctx) (w : Nat) (input : Input) (items : List Item) (c : Codec)
    (hp : input.Plain) (hd : Distinct input.data) (h : deriveMarshalable input = .ok items)
    (hc : implOf Γ w input items = some c) :
    ∃ t, Means Γ w input.data t ∧ c.Implements t := by
  obtain ⟨hu, t, ht⟩ := means_sound hp hd h hc
  obtain ⟨items', c', h', hc', hi⟩ := means_complete hp hd hu ht
  rw [h] at h'
  cases h'
  rw [hc] at hc'
  cases hc'
  exact ⟨t, ht, hi⟩

/-- Field lists have one meaning. -/
theorem fieldsMean_unique {Γ : Ctx} {before fs : List NField} {F : Fields}
    (h : FieldsMean Γ before fs F) : ∀ {F'}, ((before ++ fs).map (·.ident)).Nodup →
    FieldsMean Γ before fs F' → F = F' := by
  induction h with
  | nil => intro F' _ h'; cases h'; rfl
  | plain hb ha ht _ ih =>
    intro F' hd h'
    have hd' := hd
    rw [← List.append_cons] at ih
    cases h' with
    | plain hb' ha' ht' hr => rw [ht] at ht'; cases ht'; rw [ih hd hr]
    | array hb' hty _ _ _ => exact absurd (by rw [hty]; trivial) ha
    | counted hc _ _ _ _ _ _ _ _ _ => exact absurd hb (counted_not_bare hc)
  | array hb hty ht hn _ ih =>
    intro F' hd h'
    rw [← List.append_cons] at ih
    cases h' with
    | plain hb' ha' ht' hr => exact absurd (by rw [hty]; trivial) ha'
    | array hb' hty' ht' hn' hr =>
      rw [hty] at hty'; cases hty'
      rw [ht] at ht'; cases ht'
      rw [hn] at hn'; cases hn'
      rw [ih hd hr]
    | counted hc _ _ _ _ _ _ _ _ _ => exact absurd hb (counted_not_bare hc)
  | @counted before f fs elem len t n r l k g i hc hty ht hn hk hl _ _ _ _ ih =>
    intro F' hd h'
    rw [← List.append_cons] at ih
    cases h' with
    | plain hb' ha' ht' hr => exact absurd (by rw [hty]; trivial) ha'
    | array hb' _ _ _ _ => exact absurd hb' (counted_not_bare hc)
    | @counted _ _ _ _ _ _ _ _ l' k' g' i' hc' hty' ht' hn' hk' hl' _ _ _ hr =>
      rw [hty] at hty'; cases hty'
      rw [ht] at ht'; cases ht'
      rw [hn] at hn'; cases hn'
      have hll : l = l' := by
        have e1 := (attr_some f l).mpr hc
        have e2 := (attr_some f l').mpr hc'
        rw [e1] at e2
        simp only [Res.ok.injEq, Option.some.injEq, Path.ident, Path.mk.injEq, List.cons.injEq,
          Segment.mk.injEq, and_true] at e2
        exact e2
      subst hll
      have hkk : k = k' := by
        rw [List.map_append, List.nodup_append] at hd
        have a1 := (List.getElem?_eq_some_iff.mp hk)
        have a2 := (List.getElem?_eq_some_iff.mp hk')
        obtain ⟨p1, q1⟩ := a1
        obtain ⟨p2, q2⟩ := a2
        have pw := List.pairwise_iff_getElem.mp hd.1
        rcases Nat.lt_trichotomy k k' with hlt | he | hlt
        · have := pw k k' (by simpa using p1) (by simpa using p2) hlt
          simp only [List.getElem_map, q1, q2, hl, hl', ne_eq, not_true_eq_false] at this
        · exact he
        · have := pw k' k (by simpa using p2) (by simpa using p1) hlt
          simp only [List.getElem_map, q1, q2, hl, hl', ne_eq, not_true_eq_false] at this
      rw [hkk, ih hd hr]

/-- **C62.** A declaration has one meaning. -/
theorem C62_unambiguous (Γ : Ctx) (w : Nat) (d : Data) (t t' : Ty) (hd : Distinct d)
    (h : Means Γ w d t) (h' : Means Γ w d t') : t = t' := by
  have tup : ∀ {ts F}, TuplesMean Γ ts F → ∀ {F'}, TuplesMean Γ ts F' → F = F' := by
    intro ts F h
    induction h with
    | nil => intro F' h'; cases h'; rfl
    | cons ht _ ih =>
      intro F' h'
      cases h' with
      | cons ht' hr => rw [ht] at ht'; cases ht'; rw [ih hr]
  have var : ∀ {vs V}, VariantsMean Γ vs V → ∀ {V'}, VariantsMean Γ vs V' → V = V' := by
    intro vs V h
    induction h with
    | nil => intro F' h'; cases h'; rfl
    | cons hf hdisc hs ht _ ih =>
      intro F' h'
      cases h' with
      | cons hf' hdisc' hs' ht' hr =>
        rw [hf] at hf'; cases hf'
        rw [hdisc] at hdisc'; cases hdisc'
        rw [hs] at hs'; cases hs'
        rw [tup ht ht', ih hr]
  cases h with
  | named h => cases h' with | named h' => rw [fieldsMean_unique h hd h']
  | unnamed h => cases h' with | unnamed h' => rw [tup h h']
  | unit => cases h'; rfl
  | enum h => cases h' with | enum h' => rw [var h h']

/-- **C62.** The generated implementation inherits the round trip of the codec. -/
theorem C62_round_trip (Γ : Ctx) (w : Nat) (input : Input) (items : List Item) (c : Codec)
    (hp : input.Plain) (hd : Distinct input.data) (h : deriveMarshalable input = .ok items)
    (hc : implOf Γ w input items = some c) :
    ∃ t, Means Γ w input.data t ∧ ∀ v buf, WF t v → HasTy t v → (wire t v).length ≤ buf.length →
      c.marshal v buf = (.ok (wire t v).length, wire t v ++ buf.drop (wire t v).length) ∧
      ∀ rest, c.unmarshal (wire t v ++ rest) = (.ok (canon t v), rest) := by
  obtain ⟨t, ht, hu, hm⟩ := C62_generated Γ w input items c hp hd h hc
  refine ⟨t, ht, ?_⟩
  intro v buf hv hty hl
  refine ⟨?_, ?_⟩
  · rw [hm v buf hty]
    exact (writesTy t v hv).fit buf hl
  · intro rest
    rw [hu]
    exact (goodTy t).complete v rest hv

/-! ### C63 -/

/-- Why C63 fails: `struct S { buffer: u16, next: u16 }` is accepted, but the
generated code does not compile — the local variable for the first field hides
the parameter `buffer`. -/
theorem C63_violated :
    let input : Input := ⟨"S", [], .struct (.named [⟨"buffer", exTy "u16", []⟩, ⟨"next", exTy "u16", []⟩])⟩
    Means exCtx 0 input.data (.struct (.plain (.prim 2) (.plain (.prim 2) .nil))) ∧
    ∃ items, deriveMarshalable input = .ok items ∧ implOf exCtx 0 input items = none := by
  refine ⟨.named (.plain ?_ ?_ rfl (.plain ?_ ?_ rfl .nil)), _, rfl, rfl⟩
  · intro a ha; cases ha
  · intro h; cases h
  · intro a ha; cases ha
  · intro h; cases h

/-- **C63.** Every declaration with a meaning is accepted, and the generated
implementation is that codec, if the field names and element types can be used
in the generated code. -/
theorem C63_implemented_partial (Γ : Ctx) (w : Nat) (input : Input) (t : Ty)
    (hp : input.Plain) (hd : Distinct input.data) (hu : Usable input.data)
    (h : Means Γ w input.data t) :
    ∃ items c, deriveMarshalable input = .ok items ∧ implOf Γ w input items = some c ∧
      c.Implements t :=
  means_complete hp hd hu h

/-- **C63.** The condition is necessary. -/
theorem C63_necessary (Γ : Ctx) (w : Nat) (input : Input) (items : List Item) (c : Codec)
    (hp : input.Plain) (hd : Distinct input.data) (h : deriveMarshalable input = .ok items)
    (hc : implOf Γ w input items = some c) : Usable input.data :=
  (means_sound hp hd h hc).1

/-- Non-vacuity of C62 and C63. -/
example : ∃ items c, deriveMarshalable exInput = .ok items ∧ implOf exCtx 0 exInput items = some c ∧
    c.Implements (.struct exF) :=
  C63_implemented_partial exCtx 0 exInput _ (by intro a ha; cases ha) (by
    show (exFields.map (·.ident)).Nodup
    decide) exUsable exMeans

/-- Two items after the count and the tag. -/
example : WF (.struct exF) (.struct [.int 2, .arr [.int 7, .int 8], .arr [.int 1, .int 2, .int 0, .int 0]]) ∧
    wire (.struct exF) (.struct [.int 2, .arr [.int 7, .int 8], .arr [.int 1, .int 2, .int 0, .int 0]])
      = [0, 2, 7, 8, 0, 0, 0, 1, 0, 0, 0, 2] := by decide

/-! ### C64 -/

/-- **C64.** Which structures with named fields are accepted. -/
theorem C64_named (input : Input) (fs : List NField) (hp : input.Plain)
    (hdata : input.data = .struct (.named fs)) :
    (∃ items, deriveMarshalable input = .ok items) ↔ Acceptable fs := by
  have key := unmarshal_accepts fs [] [] basicRel_nil
  simp only [List.nil_append] at key
  rw [show Acceptable fs ↔ _ from key.symm]
  constructor
  · rintro ⟨items, h⟩
    obtain ⟨m, u, _, hu, _⟩ := derive_struct_ok hdata hp h
    exact ⟨u, hu⟩
  · rintro ⟨us, hus⟩
    obtain ⟨ms, hms⟩ := marshal_of_unmarshal fs [] us hus
    refine ⟨[.marshalStruct input.ident ms us (.names (fs.map (·.ident)))], ?_⟩
    simp [deriveMarshalable, hdata, anyFlag_plain _ _ hp, fieldMarshalBody, fieldUnmarshal, hms, hus,
      Res.bind, fieldList]

/-- **C64.** Structures with unnamed fields or none are always accepted. -/
theorem C64_unnamed (input : Input) (hp : input.Plain)
    (hdata : input.data = .struct .unit ∨ ∃ ts, input.data = .struct (.unnamed ts)) :
    ∃ items, deriveMarshalable input = .ok items := by
  rcases hdata with hdata | ⟨ts, hdata⟩
  · exact ⟨_, by
      simp only [deriveMarshalable, hdata, anyFlag_plain _ _ hp, fieldMarshalBody, fieldUnmarshal]
      rfl⟩
  · exact ⟨_, by
      simp only [deriveMarshalable, hdata, anyFlag_plain _ _ hp, fieldMarshalBody, fieldUnmarshal]
      rfl⟩

/-- **C64.** Which enums are accepted: tuple variants with explicit selectors. -/
theorem C64_enum (input : Input) (vs : List VariantE) (hp : input.Plain)
    (hdata : input.data = .enum vs) :
    (∃ items, deriveMarshalable input = .ok items) ↔
      ∀ v ∈ vs, (∃ ts, v.fields = .unnamed ts) ∧ ∃ disc, v.disc = some disc := by
  constructor
  · rintro ⟨items, h⟩
    obtain ⟨arms, conds, ha, hc, _⟩ := derive_enum_ok hdata hp h
    have hf := ((enumMarshalBody_ok vs arms).mp ha).2
    have hdisc := (enumUnmarshalBody_accepts vs hf).mp ⟨conds, hc⟩
    intro v hv
    exact ⟨hf v hv, Option.isSome_iff_exists.mp (hdisc v hv)⟩
  · intro h
    have hf := fun v hv => (h v hv).1
    obtain ⟨conds, hc⟩ := (enumUnmarshalBody_accepts vs hf).mpr
      (fun v hv => Option.isSome_iff_exists.mpr (h v hv).2)
    have ha := (enumMarshalBody_ok vs _).mpr ⟨rfl, hf⟩
    refine ⟨[.variant input.ident (vs.map armOf) conds, .marshalEnum input.ident], ?_⟩
    simp [deriveMarshalable, hdata, anyFlag_plain _ _ hp, enumImpl, ha, hc, Res.bind]

/-- **C64.** Unions are never accepted. -/
theorem C64_union (input : Input) (hdata : input.data = .union) :
    deriveMarshalable input = .err [.union] := by
  simp [deriveMarshalable, hdata]

/-- **C64.** Rejections are error messages, not panics of the macro, as long as
lengths are given by identifiers. -/
theorem C64_no_panic (input : Input)
    (h : ∀ fs, input.data = .struct (.named fs) → ∀ f ∈ fs, f.LengthIsIdent) :
    deriveMarshalable input ≠ .panic := by
  have sized : ∀ name fs, tpm2bSimple name fs ≠ .panic := by
    intro name fs
    unfold tpm2bSimple tpm2bCommon
    split
    · split
      · split
        · simp [Res.bind]
        · split
          · split <;> simp [Res.bind]
          · simp [Res.bind]
      · simp [Res.bind]
    · simp [Res.bind]
  cases hdata : input.data with
  | struct fs =>
    have hm : fieldMarshalBody fs ≠ .panic ∧ fieldUnmarshal fs ≠ .panic := by
      cases fs with
      | named fs =>
        have := h fs hdata
        exact ⟨eachField_no_panic fs [] (fun f hf b => (named_no_panic (this f hf) b).1),
          eachField_no_panic fs [] (fun f hf b => (named_no_panic (this f hf) b).2)⟩
      | unnamed ts => simp [fieldMarshalBody, fieldUnmarshal]
      | unit => simp [fieldMarshalBody, fieldUnmarshal]
    simp only [deriveMarshalable, hdata]
    cases h1 : fieldMarshalBody fs with
    | panic => exact absurd h1 hm.1
    | err e => simp [Res.bind]
    | ok m =>
      cases h2 : fieldUnmarshal fs with
      | panic => exact absurd h2 hm.2
      | err e => simp [Res.bind]
      | ok u =>
        simp only [Res.bind]
        cases input.attrs.any (hasMarshalableAttr "tpm2b_simple") <;>
          cases input.attrs.any (hasMarshalableAttr "tpm2b_struct") <;>
          cases h3 : tpm2bSimple input.ident fs <;>
          first
          | exact absurd h3 (sized _ _)
          | simp [Res.map]
  | enum vs =>
    simp only [deriveMarshalable, hdata, enumImpl]
    cases h1 : enumMarshalBody vs with
    | panic =>
      exfalso
      clear hdata h
      induction vs with
      | nil => cases h1
      | cons v vs ih =>
        simp only [enumMarshalBody] at h1
        split at h1
        · cases hr : enumMarshalBody vs with
          | panic => exact ih hr
          | ok _ => simp [hr, Res.map] at h1
          | err _ => simp [hr, Res.map] at h1
        · split at h1 <;> cases h1
    | err e => simp [Res.bind]
    | ok arms =>
      have hf := ((enumMarshalBody_ok vs arms).mp h1).2
      have : ∀ errors, enumUnmarshalBody errors vs ≠ .panic := by
        clear h1 hdata h
        induction vs with
        | nil => intro errors; simp only [enumUnmarshalBody]; split <;> simp
        | cons v vs ih =>
          intro errors
          obtain ⟨ts, hts⟩ := hf v (by simp)
          simp only [enumUnmarshalBody, hts, fieldUnmarshal]
          cases v.disc with
          | none => simp
          | some d =>
            dsimp only
            have := ih (fun x hx => hf x (List.mem_cons_of_mem _ hx)) errors
            cases hr : enumUnmarshalBody errors vs with
            | panic => exact absurd hr this
            | ok _ => simp [Res.map]
            | err _ => simp [Res.map]
      cases h2 : enumUnmarshalBody [] vs with
      | panic => exact absurd h2 (this [])
      | err e => simp [Res.bind]
      | ok conds =>
        simp only [Res.bind]
        split <;> simp
  | union => simp [deriveMarshalable, hdata]

/-- A length given by a longer path aborts the macro. -/
example : deriveMarshalable ⟨"S", [], .struct (.named
    [⟨"n", exTy "u16", []⟩, ⟨"a", .array (exTy "u8") (.lit 4),
      [⟨.ident "marshalable", some [.path (.ident "length"), .eq,
        .path (.mk [.mk "self" none, .mk "n" none])]⟩]⟩])⟩ = .panic := rfl

/-- Non-vacuity: the example is acceptable; with the length field after the
array, or with an attribute on a field that is no array, it is not. -/
example : (∃ items, deriveMarshalable exInput = .ok items) ∧
    (deriveMarshalable ⟨"S", [], .struct (.named exFields.reverse)⟩ = .err [.lengthBefore "count"]) ∧
    (deriveMarshalable ⟨"S", [], .struct (.named
      [⟨"n", exTy "u16", []⟩, ⟨"a", exTy "u8",
        [⟨.ident "marshalable", some [.path (.ident "length"), .eq, .path (.ident "n")]⟩]⟩])⟩
      = .err [.notArray]) ∧
    (deriveMarshalable ⟨"E", [], .enum [⟨"A", .unnamed [exTy "u8"], some (.lit 1)⟩,
      ⟨"B", .unit, some (.lit 2)⟩]⟩ = .err [.namedInEnum]) ∧
    (deriveMarshalable ⟨"E", [], .enum [⟨"A", .unnamed [exTy "u8"], some (.lit 1)⟩,
      ⟨"B", .unnamed [], none⟩]⟩ = .err [.noSelector]) :=
  ⟨⟨_, rfl⟩, rfl, rfl, rfl, rfl⟩

/-! ### C65 -/

/-- `#[marshalable(..)] struct T { size: u16, data: [u8; 4] }`. -/
def exSized (toks : List Tok) : Input :=
  ⟨"T", [⟨.ident "marshalable", some toks⟩],
    .struct (.named [⟨"size", exTy "u16", []⟩, ⟨"data", .array (exTy "u8") (.lit 4), []⟩])⟩

set_option maxRecDepth 20000 in
/-- Why C65 fails: with a comma after it, the flag is overlooked, and the
structure gets the layout of an ordinary one. -/
theorem C65_violated :
    let input := exSized [.path (.ident "tpm2b_simple"), .comma]
    ∃ items c, deriveMarshalable input = .ok items ∧ implOf exCtx 0 input items = some c ∧
      unmarshal (.tpm2b 4) [0, 1, 7] = (.ok (.tpm2b 1 [7, 0, 0, 0]), []) ∧
      c.unmarshal [0, 1, 7] = (.err .unexpectedEndOfBuffer, []) :=
  ⟨_, _, rfl, rfl, rfl, rfl⟩

/-- **C65.** A structure with the flag `tpm2b_simple`, coming last in its
attribute, is either rejected or becomes the sized buffer it looks like; it is
accepted exactly if it has that shape and its attributes are in order. -/
theorem C65_sized_partial (Γ : Ctx) (w : Nat) (input : Input) (fs : FieldsE)
    (hdata : input.data = .struct fs) (hflag : ∃ a ∈ input.attrs, a.Flags "tpm2b_simple") :
    ((∃ items, deriveMarshalable input = .ok items) ↔
      ∃ field size l, SizedShape fs field size ∧ fs = .named l ∧ Acceptable l) ∧
    ∀ items, deriveMarshalable input = .ok items → ∃ field size,
      SizedShape fs field size ∧ items = [.tpm2bSimple input.ident field size] ∧
      ∀ cap, Γ.size size = some cap → ∃ c, implOf Γ w input items = some c ∧
        c.Implements (.tpm2b cap) := by
  have hsimple := (anyFlag_iff _ _).mpr hflag
  have impl : ∀ field size cap, Γ.size size = some cap →
      ∃ c, implOf Γ w input [.tpm2bSimple input.ident field size] = some c ∧
        c.Implements (.tpm2b cap) := by
    intro field size cap hcap
    refine ⟨tpm2bCodec cap, by simp [implOf, hcap], ?_, ?_⟩
    · simp [tpm2bCodec, unmarshal]
    · intro v buf hv
      cases v <;> simp only [HasTy] at hv
      simp [tpm2bCodec, marshal]
  have inv : ∀ items, deriveMarshalable input = .ok items → ∃ m u field size,
      fieldMarshalBody fs = .ok m ∧ fieldUnmarshal fs = .ok u ∧
      tpm2bCommon fs = .ok (field, size) ∧ items = [.tpm2bSimple input.ident field size] := by
    intro items h
    simp only [deriveMarshalable, hdata, hsimple] at h
    cases hm : fieldMarshalBody fs with
    | ok m =>
      cases hu : fieldUnmarshal fs with
      | ok u =>
        cases hc : tpm2bCommon fs with
        | ok x =>
          obtain ⟨field, size⟩ := x
          simp [hm, hu, Res.bind, tpm2bSimple, hc, Res.map] at h
          exact ⟨m, u, field, size, rfl, rfl, rfl, h.symm⟩
        | err e => simp [hm, hu, Res.bind, tpm2bSimple, hc, Res.map] at h
        | panic => simp [hm, hu, Res.bind, tpm2bSimple, hc, Res.map] at h
      | err e => simp [hm, hu, Res.bind] at h
      | panic => simp [hm, hu, Res.bind] at h
    | err e => simp [hm, Res.bind] at h
    | panic => simp [hm, Res.bind] at h
  refine ⟨?_, ?_⟩
  · constructor
    · rintro ⟨items, h⟩
      obtain ⟨m, u, field, size, _, hu, hc, _⟩ := inv items h
      have hs := (tpm2bCommon_ok fs field size).mp hc
      obtain ⟨s, b, hfs, _⟩ := id hs
      refine ⟨field, size, [s, b], hs, hfs, ?_⟩
      have key := unmarshal_accepts [s, b] [] [] basicRel_nil
      rw [hfs] at hu
      simpa [Acceptable] using key.mp ⟨u, hu⟩
    · rintro ⟨field, size, l, hs, hl, hacc⟩
      have key := unmarshal_accepts l [] [] basicRel_nil
      obtain ⟨us, hus⟩ := key.mpr (by simpa [Acceptable] using hacc)
      obtain ⟨ms, hms⟩ := marshal_of_unmarshal l [] us hus
      have hc := (tpm2bCommon_ok fs field size).mpr hs
      subst hl
      exact ⟨[.tpm2bSimple input.ident field size], by
        simp [deriveMarshalable, hdata, hsimple, fieldMarshalBody, fieldUnmarshal, hms, hus, Res.bind,
          tpm2bSimple, hc, Res.map]⟩
  · intro items h
    obtain ⟨m, u, field, size, _, _, hc, rfl⟩ := inv items h
    exact ⟨field, size, (tpm2bCommon_ok fs field size).mp hc, rfl, impl field size⟩

/-- **C65.** What else is written in attributes has no effect: unless one of the two
flags comes last in its attribute, the result is that without attributes. -/
theorem C65_ignored_partial (input : Input)
    (h1 : ¬ ∃ a ∈ input.attrs, a.Flags "tpm2b_simple")
    (h2 : ¬ ∃ a ∈ input.attrs, a.Flags "tpm2b_struct") :
    deriveMarshalable input = deriveMarshalable { input with attrs := [] } := by
  have e1 : input.attrs.any (hasMarshalableAttr "tpm2b_simple") = false := by
    rw [← Bool.not_eq_true, anyFlag_iff]; exact h1
  have e2 : input.attrs.any (hasMarshalableAttr "tpm2b_struct") = false := by
    rw [← Bool.not_eq_true, anyFlag_iff]; exact h2
  simp only [deriveMarshalable, e1, e2, List.any_nil]
  cases input.data <;> rfl

set_option maxRecDepth 20000 in
/-- The flag followed by a comma. -/
example : deriveMarshalable (exSized [.path (.ident "tpm2b_simple"), .comma]) =
    deriveMarshalable { exSized [] with attrs := [] } := by
  refine C65_ignored_partial (exSized [.path (.ident "tpm2b_simple"), .comma]) ?_ ?_ <;>
    · rw [← anyFlag_iff]; decide

/-- **C65.** An enum or structure only has an implementation of its own if the
flags are absent: with `tpm2b_struct` alone, nothing is generated for a
structure. -/
theorem C65_no_impl (Γ : Ctx) (w : Nat) (input : Input) (items : List Item)
    (hs : ∃ a ∈ input.attrs, a.Flags "tpm2b_struct")
    (hn : ¬ ∃ a ∈ input.attrs, a.Flags "tpm2b_simple")
    (h : deriveMarshalable input = .ok items) : implOf Γ w input items = none := by
  have h1 := (anyFlag_iff _ _).mpr hs
  have h2 : input.attrs.any (hasMarshalableAttr "tpm2b_simple") = false := by
    rw [← Bool.not_eq_true, anyFlag_iff]; exact hn
  cases hdata : input.data with
  | struct fs =>
    simp only [deriveMarshalable, hdata, h1, h2] at h
    cases hm : fieldMarshalBody fs with
    | ok m =>
      cases hu : fieldUnmarshal fs with
      | ok u =>
        simp [hm, hu, Res.bind] at h
        subst h
        rfl
      | err e => simp [hm, hu, Res.bind] at h
      | panic => simp [hm, hu, Res.bind] at h
    | err e => simp [hm, Res.bind] at h
    | panic => simp [hm, Res.bind] at h
  | enum vs =>
    simp only [deriveMarshalable, hdata, h1, h2, enumImpl] at h
    cases hm : enumMarshalBody vs with
    | ok m =>
      cases hu : enumUnmarshalBody [] vs with
      | ok u =>
        simp [hm, hu, Res.bind] at h
        subst h
        rfl
      | err e => simp [hm, hu, Res.bind] at h
      | panic => simp [hm, hu, Res.bind] at h
    | err e => simp [hm, Res.bind] at h
    | panic => simp [hm, Res.bind] at h
  | union => simp [deriveMarshalable, hdata] at h

set_option maxRecDepth 20000 in
/-- Non-vacuity: the structure of `C65_violated` without the comma. -/
example : ∃ items c, deriveMarshalable (exSized [.path (.ident "tpm2b_simple")]) = .ok items ∧
    implOf exCtx 0 (exSized [.path (.ident "tpm2b_simple")]) items = some c ∧
    c.unmarshal [0, 1, 7] = (.ok (.tpm2b 1 [7, 0, 0, 0]), []) :=
  ⟨_, _, rfl, rfl, rfl⟩

/-- Non-vacuity: the flag after another name. -/
example : (⟨.ident "marshalable", some [.path (.ident "x"), .comma, .path (.ident "tpm2b_simple")]⟩ :
    Attr).Flags "tpm2b_simple" :=
  ⟨rfl, [.path (.ident "x"), .comma], _, rfl, .comma rfl .nil, rfl⟩

/-! ### C66 -/

/-- **C66.** `Tpm2bStruct` can be derived exactly for sized buffers whose
capacity is `size_of::<T>()`, and refers to that `T`. -/
theorem C66_struct_accepts (input : Input) (items : List Item) :
    deriveTpm2bStruct input = .ok items ↔
      ∃ fs field inner attrs qself more segs args, input.data = .struct fs ∧
        SizedShape fs field (.call (.path attrs qself
          (.mk (.mk "size_of" (some (.type (.path inner) :: more)) :: segs))) args) ∧
        items = [.tpm2bStruct input.ident inner field] := by
  unfold deriveTpm2bStruct
  constructor
  · intro h
    cases hdata : input.data with
    | struct fs =>
      simp only [hdata, tpm2bStruct] at h
      cases hc : tpm2bCommon fs with
      | panic => simp [hc, Res.bind, Res.map] at h
      | err e => simp [hc, Res.bind, Res.map] at h
      | ok x =>
        obtain ⟨field, size⟩ := x
        have hs := (tpm2bCommon_ok fs field size).mp hc
        simp only [hc, Res.bind] at h
        split at h
        · rename_i at' q i args segs cargs
          split at h
          · simp [Res.map] at h
          · rename_i hi
            have hi : i = "size_of" := by simpa using hi
            subst hi
            split at h
            · rename_i p more
              simp only [Res.map, Res.ok.injEq] at h
              exact ⟨fs, field, p, _, _, _, _, _, rfl, hs, h.symm⟩
            · simp [Res.map] at h
        · simp [Res.map] at h
    | enum vs => simp [hdata] at h
    | union => simp [hdata] at h
  · rintro ⟨fs, field, inner, attrs, qself, more, segs, args, hdata, hs, rfl⟩
    have hc := (tpm2bCommon_ok _ _ _).mpr hs
    simp [hdata, tpm2bStruct, hc, Res.bind, Res.map]

/-- **C66.** The derive never panics. -/
theorem C66_no_panic (input : Input) : deriveTpm2bStruct input ≠ .panic := by
  unfold deriveTpm2bStruct
  cases input.data with
  | struct fs =>
    dsimp only [tpm2bStruct]
    cases hc : tpm2bCommon fs with
    | panic =>
      exfalso
      unfold tpm2bCommon at hc
      repeat' split at hc
      all_goals cases hc
    | err e => simp [Res.bind, Res.map]
    | ok x =>
      simp only [Res.bind]
      repeat' split
      all_goals simp_all [Res.map]
  | enum vs => simp
  | union => simp

/-- Non-vacuity: `struct T { size: u16, data: [u8; size_of::<Inner>()] }`. -/
example : deriveTpm2bStruct ⟨"T", [], .struct (.named [⟨"size", exTy "u16", []⟩,
    ⟨"data", .array (exTy "u8")
      (.call (.path false false (.mk [.mk "size_of" (some [.type (exTy "Inner")])])) []), []⟩])⟩
    = .ok [.tpm2bStruct "T" (.ident "Inner") "data"] := rfl

/-- `core::mem::size_of::<Inner>()` is rejected: only the first segment counts. -/
example : deriveTpm2bStruct ⟨"T", [], .struct (.named [⟨"size", exTy "u16", []⟩,
    ⟨"data", .array (exTy "u8")
      (.call (.path false false (.mk [.mk "core" none, .mk "mem" none,
        .mk "size_of" (some [.type (exTy "Inner")])])) []), []⟩])⟩
    = .err [.sizeOf] := rfl

end Verif.Derive
