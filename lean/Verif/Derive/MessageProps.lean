import Verif.Derive.Messages
import Verif.Derive.Props

/-! C99: the errors reported for rejected declarations. -/

namespace Verif.Derive
open Verif

/-- The errors of `#[derive(Marshalable)]` are exactly those of `Rejected`:
marshalable-derive/src/lib.rs:124-203. -/
theorem C99_marshalable (input : Input) (es : List Msg) :
    deriveMarshalable input = .err es ↔ Rejected input es := by
  have flag := anyFlag_iff "tpm2b_simple" input.attrs
  cases hdata : input.data with
  | union =>
    have : deriveMarshalable input = .err [.union] := by simp only [deriveMarshalable, hdata]
    rw [this]
    constructor
    · intro h
      cases h
      exact .union hdata
    · intro h
      cases h with
      | union => rfl
      | attrs h | arrays h | sized h | variants h | selectors h => rw [hdata] at h; cases h
  | enum vs =>
    have heq : deriveMarshalable input =
        (enumImpl input.ident vs).bind fun pure =>
          if input.attrs.any (hasMarshalableAttr "tpm2b_simple") ||
            input.attrs.any (hasMarshalableAttr "tpm2b_struct") then .ok [pure]
          else .ok [pure, .marshalEnum input.ident] := by
      simp only [deriveMarshalable, hdata]
    have herr : deriveMarshalable input = .err es ↔ enumImpl input.ident vs = .err es := by
      rw [heq]
      cases enumImpl input.ident vs with
      | ok r => simp only [Res.bind]; split <;> simp
      | err e => simp [Res.bind]
      | panic => simp [Res.bind]
    rw [herr]
    obtain ⟨h2, h3, h4⟩ := enumMarshal_cases vs []
    unfold enumImpl
    constructor
    · intro h
      cases hm : enumMarshalBody vs with
      | panic => exact absurd hm h4
      | err e =>
        rw [hm] at h
        cases h
        obtain ⟨hne, he⟩ := (h2 es).mp hm
        cases es with
        | nil => exact absurd rfl hne
        | cons m ms => exact .variants hdata he
      | ok arms =>
        have he := h3.mp ⟨arms, hm⟩
        obtain ⟨h5, h6⟩ := enumUnmarshal_tuples vs [] he
        rw [hm] at h
        cases hu : enumUnmarshalBody [] vs with
        | panic => exact absurd hu h6
        | ok c => rw [Res.bind, hu] at h; cases h
        | err e =>
          rw [Res.bind, hu] at h
          cases h
          obtain ⟨rfl, v, hv, hd⟩ := (h5 es).mp hu
          exact .selectors hdata he hv hd
    · intro h
      cases h with
      | variants h he =>
        rw [hdata] at h
        cases h
        rw [(h2 _).mpr ⟨by simp, he⟩]
        rfl
      | selectors h he hv hd =>
        rw [hdata] at h
        cases h
        obtain ⟨arms, hm⟩ := h3.mpr he
        rw [hm, Res.bind, ((enumUnmarshal_tuples vs [] he).1 _).mpr ⟨rfl, _, hv, hd⟩]
        rfl
      | attrs h | arrays h | sized h | union h => rw [hdata] at h; cases h
  | struct fs =>
    have heq : deriveMarshalable input =
        (fieldMarshalBody fs).bind fun m => (fieldUnmarshal fs).bind fun u =>
          (if input.attrs.any (hasMarshalableAttr "tpm2b_simple") then
            (tpm2bSimple input.ident fs).map ([·]) else .ok []).bind fun pure =>
          if input.attrs.any (hasMarshalableAttr "tpm2b_simple") ||
            input.attrs.any (hasMarshalableAttr "tpm2b_struct") then .ok pure
          else .ok (pure ++ [.marshalStruct input.ident m u (fieldList fs)]) := by
      simp only [deriveMarshalable, hdata]
    rw [heq]
    -- the last step
    have last : ∀ m u, (((if input.attrs.any (hasMarshalableAttr "tpm2b_simple") then
            (tpm2bSimple input.ident fs).map ([·]) else .ok []).bind fun pure =>
          if input.attrs.any (hasMarshalableAttr "tpm2b_simple") ||
            input.attrs.any (hasMarshalableAttr "tpm2b_struct") then .ok pure
          else .ok (pure ++ [.marshalStruct input.ident m u (fieldList fs)])) : D (List Item)) =
            .err es ↔
        (∃ a ∈ input.attrs, a.Flags "tpm2b_simple") ∧ ∃ x, es = [x] ∧ SizedFault fs x := by
      intro m u
      rw [← flag, ← tpm2bCommon_err]
      cases input.attrs.any (hasMarshalableAttr "tpm2b_simple") with
      | false =>
        simp only [Bool.false_eq_true, if_false, Res.bind, false_and, iff_false]
        split <;> simp
      | true =>
        simp only [if_true, true_and, Bool.true_or]
        unfold tpm2bSimple
        cases tpm2bCommon fs <;> simp [Res.bind, Res.map]
    cases hfs : fs with
    | named l =>
      subst hfs
      obtain ⟨h1, h2, h3⟩ := eachMarshal l [] [] basicRel_nil
      show ((eachField namedFieldMarshal [] l).bind fun m =>
        (eachField namedFieldUnmarshal [] l).bind _) = _ ↔ _
      constructor
      · intro h
        cases hm : eachField namedFieldMarshal [] l with
        | panic => rw [hm] at h; cases h
        | err e =>
          rw [hm] at h
          cases h
          obtain ⟨hne, hn, he⟩ := (h2 es).mp hm
          cases es with
          | nil => exact absurd rfl hne
          | cons m ms => exact .attrs hdata hn he
        | ok m =>
          obtain ⟨hn, he⟩ := h3.mp ⟨m, hm⟩
          obtain ⟨h5, h6, h7⟩ := eachUnmarshal l [] [] basicRel_nil hn he
          rw [hm] at h
          cases hu : eachField namedFieldUnmarshal [] l with
          | panic => exact absurd hu h7
          | err e =>
            rw [Res.bind, hu] at h
            cases h
            obtain ⟨hne, hx⟩ := (h5 es).mp hu
            cases es with
            | nil => exact absurd rfl hne
            | cons m ms => exact .arrays hdata hn he hx
          | ok u =>
            rw [Res.bind, hu] at h
            obtain ⟨hf, x, rfl, hx⟩ := (last m u).mp h
            refine .sized hdata ?_ hf hx
            rintro l' hl'
            cases hl'
            exact ⟨hn, he, h6.mp ⟨u, hu⟩⟩
      · intro h
        cases h with
        | attrs h hn he =>
          rw [hdata] at h
          cases h
          rw [(h2 _).mpr ⟨by simp, hn, he⟩]
          rfl
        | arrays h hn he hx =>
          rw [hdata] at h
          cases h
          obtain ⟨m, hm⟩ := h3.mpr ⟨hn, he⟩
          obtain ⟨h5, h6, h7⟩ := eachUnmarshal _ [] [] basicRel_nil hn he
          rw [hm, Res.bind, (h5 _).mpr ⟨by simp, hx⟩]
          rfl
        | sized h hok hf hx =>
          rw [hdata] at h
          cases h
          obtain ⟨hn, he, hx'⟩ := hok l rfl
          obtain ⟨m, hm⟩ := h3.mpr ⟨hn, he⟩
          obtain ⟨h5, h6, h7⟩ := eachUnmarshal l [] [] basicRel_nil hn he
          obtain ⟨u, hu⟩ := h6.mpr hx'
          rw [hm, Res.bind, hu, Res.bind]
          exact (last m u).mpr ⟨hf, _, rfl, hx⟩
        | variants h | selectors h | union h => rw [hdata] at h; cases h
    | unnamed ts =>
      subst hfs
      refine (last _ _).trans ?_
      constructor
      · rintro ⟨hf, x, rfl, hx⟩
        exact .sized hdata (by intro l hl; cases hl) hf hx
      · intro h
        cases h with
        | sized h _ hf hx => rw [hdata] at h; cases h; exact ⟨hf, _, rfl, hx⟩
        | attrs h | arrays h | variants h | selectors h | union h => rw [hdata] at h; cases h
    | unit =>
      subst hfs
      refine (last _ _).trans ?_
      constructor
      · rintro ⟨hf, x, rfl, hx⟩
        exact .sized hdata (by intro l hl; cases hl) hf hx
      · intro h
        cases h with
        | sized h _ hf hx => rw [hdata] at h; cases h; exact ⟨hf, _, rfl, hx⟩
        | attrs h | arrays h | variants h | selectors h | union h => rw [hdata] at h; cases h

/-- The macro panics exactly for named fields with a length that is a path but
not an identifier, whatever else is wrong. -/
theorem C99_panics (input : Input) :
    deriveMarshalable input = .panic ↔
      ∃ fs, input.data = .struct (.named fs) ∧ ∃ f ∈ fs, f.Breaks := by
  have tail : ∀ fs m u, (((if input.attrs.any (hasMarshalableAttr "tpm2b_simple") then
          (tpm2bSimple input.ident fs).map ([·]) else .ok []).bind fun pure =>
        if input.attrs.any (hasMarshalableAttr "tpm2b_simple") ||
          input.attrs.any (hasMarshalableAttr "tpm2b_struct") then .ok pure
        else .ok (pure ++ [.marshalStruct input.ident m u (fieldList fs)])) : D (List Item)) ≠
          .panic := by
    intro fs m u
    cases input.attrs.any (hasMarshalableAttr "tpm2b_simple") with
    | false =>
      simp only [Bool.false_eq_true, if_false, Res.bind]
      split <;> simp
    | true =>
      have := tpm2bCommon_no_panic fs
      simp only [if_true, Bool.true_or]
      unfold tpm2bSimple
      cases hc : tpm2bCommon fs with
      | panic => exact absurd hc this
      | ok r => simp [Res.bind, Res.map]
      | err r => simp [Res.bind, Res.map]
  cases hdata : input.data with
  | union => simp [deriveMarshalable, hdata]
  | enum vs =>
    simp only [reduceCtorEq, false_and, exists_false, iff_false]
    intro h
    simp only [deriveMarshalable, hdata, enumImpl] at h
    obtain ⟨_, h3, h4⟩ := enumMarshal_cases vs []
    cases hm : enumMarshalBody vs with
    | panic => exact h4 hm
    | err e => rw [hm] at h; cases h
    | ok arms =>
      have h6 := (enumUnmarshal_tuples vs [] (h3.mp ⟨arms, hm⟩)).2
      rw [hm] at h
      cases hu : enumUnmarshalBody [] vs with
      | panic => exact h6 hu
      | err e => simp [Res.bind, hu] at h
      | ok c =>
        simp only [Res.bind, hu] at h
        split at h <;> cases h
  | struct fs =>
    cases fs with
    | named l =>
      obtain ⟨h1, h2, h3⟩ := eachMarshal l [] [] basicRel_nil
      have : (∃ fs, Data.struct (.named l) = .struct (.named fs) ∧ ∃ f ∈ fs, f.Breaks) ↔
          ∃ f ∈ l, f.Breaks := by
        constructor
        · rintro ⟨fs, h, hf⟩
          cases h
          exact hf
        · intro h
          exact ⟨l, rfl, h⟩
      rw [this, ← h1]
      simp only [deriveMarshalable, hdata, fieldMarshalBody, fieldUnmarshal]
      cases hm : eachField namedFieldMarshal [] l with
      | panic => simp [Res.bind]
      | err e => simp [Res.bind]
      | ok m =>
        obtain ⟨hn, he⟩ := h3.mp ⟨m, hm⟩
        have h7 := (eachUnmarshal l [] [] basicRel_nil hn he).2.2
        simp only [reduceCtorEq, iff_false]
        cases hu : eachField namedFieldUnmarshal [] l with
        | panic => exact absurd hu h7
        | err e => simp [Res.bind]
        | ok u => exact tail _ m u
    | unnamed ts =>
      simp only [Data.struct.injEq, reduceCtorEq, false_and, exists_false, iff_false]
      simp only [deriveMarshalable, hdata, fieldMarshalBody, fieldUnmarshal]
      exact tail _ _ _
    | unit =>
      simp only [Data.struct.injEq, reduceCtorEq, false_and, exists_false, iff_false]
      simp only [deriveMarshalable, hdata, fieldMarshalBody, fieldUnmarshal]
      exact tail _ _ _

/-- The error of `#[derive(Tpm2bStruct)]` is exactly the one of `RejectedSized`:
marshalable-derive/src/lib.rs:26-60. -/
theorem C99_sized (input : Input) (es : List Msg) :
    deriveTpm2bStruct input = .err es ↔ ∃ m, es = [m] ∧ RejectedSized input m := by
  have sized : ∀ fs size name field, tpm2bCommon fs = .ok (field, size) →
      (tpm2bStruct name fs = .err [.sizeOf] ∧ ∀ p, ¬ size.SizeOf p) ∨
      (∃ p, tpm2bStruct name fs = .ok (.tpm2bStruct name p field) ∧ size.SizeOf p) := by
    intro fs size name field hc
    unfold tpm2bStruct
    rw [hc]
    simp only [Res.bind]
    split
    · rename_i a q i args segs cargs
      split
      · rename_i hi
        refine .inl ⟨rfl, ?_⟩
        rintro p ⟨a', q', more, segs', args', h⟩
        cases h
        simp at hi
      · rename_i hi
        have hi : i = "size_of" := by simpa using hi
        subst hi
        split
        · rename_i p more
          exact .inr ⟨p, rfl, _, _, _, _, _, rfl⟩
        · rename_i hne
          refine .inl ⟨rfl, ?_⟩
          rintro p ⟨a', q', more, segs', args', h⟩
          cases h
          exact hne _ _ rfl
    · rename_i hne
      refine .inl ⟨rfl, ?_⟩
      rintro p ⟨a', q', more, segs', args', h⟩
      exact hne _ _ _ _ _ _ h
  cases hdata : input.data with
  | struct fs =>
    simp only [deriveTpm2bStruct, hdata]
    cases hc : tpm2bCommon fs with
    | panic => exact absurd hc (tpm2bCommon_no_panic fs)
    | err e =>
      obtain ⟨m, rfl, hm⟩ := (tpm2bCommon_err fs e).mp hc
      simp only [tpm2bStruct, hc, Res.bind, Res.map, Res.err.injEq]
      constructor
      · rintro rfl
        exact ⟨m, rfl, .fields hdata hm⟩
      · rintro ⟨m', rfl, h⟩
        cases h with
        | notStruct h => exact absurd hdata (h fs)
        | fields h h' =>
          rw [hdata] at h
          cases h
          have := (tpm2bCommon_err fs [m']).mpr ⟨m', rfl, h'⟩
          rw [hc] at this
          cases this
          rfl
        | sizeOf h hs _ =>
          rw [hdata] at h
          cases h
          rw [(tpm2bCommon_ok _ _ _).mpr hs] at hc
          cases hc
    | ok r =>
      obtain ⟨field, size⟩ := r
      have hshape := (tpm2bCommon_ok _ _ _).mp hc
      have nofault : ∀ m, ¬ SizedFault fs m := by
        intro m h
        rw [(tpm2bCommon_err fs [m]).mpr ⟨m, rfl, h⟩] at hc
        cases hc
      rcases sized fs size input.ident field hc with ⟨h, hs⟩ | ⟨p, h, hs⟩
      · rw [h]
        simp only [Res.map, Res.err.injEq]
        constructor
        · rintro rfl
          exact ⟨_, rfl, .sizeOf hdata hshape hs⟩
        · rintro ⟨m, rfl, h⟩
          cases h with
          | notStruct h => exact absurd hdata (h fs)
          | fields h h' => rw [hdata] at h; cases h; exact absurd h' (nofault _)
          | sizeOf _ _ _ => rfl
      · rw [h]
        simp only [Res.map, reduceCtorEq, false_iff]
        rintro ⟨m, rfl, h⟩
        cases h with
        | notStruct h => exact h fs hdata
        | fields h h' => rw [hdata] at h; cases h; exact nofault _ h'
        | sizeOf h hs' hn =>
          rw [hdata] at h
          cases h
          have := (tpm2bCommon_ok _ _ _).mpr hs'
          rw [hc] at this
          cases this
          exact hn p hs
  | enum vs =>
    simp only [deriveTpm2bStruct, hdata, Res.err.injEq]
    constructor
    · rintro rfl
      exact ⟨_, rfl, .notStruct (by intro fs; rw [hdata]; simp)⟩
    · rintro ⟨m, rfl, h⟩
      cases h with
      | notStruct _ => rfl
      | fields h | sizeOf h => rw [hdata] at h; cases h
  | union =>
    simp only [deriveTpm2bStruct, hdata, Res.err.injEq]
    constructor
    · rintro rfl
      exact ⟨_, rfl, .notStruct (by intro fs; rw [hdata]; simp)⟩
    · rintro ⟨m, rfl, h⟩
      cases h with
      | notStruct _ => rfl
      | fields h | sizeOf h => rw [hdata] at h; cases h

/-! Concrete cases: -/

/-- An attribute `#[marshalable(..)]`. -/
def exMark (toks : List Tok) : Attr := ⟨.ident "marshalable", some toks⟩

/-- Five faulty fields and a good one. -/
def exFaulty : Input := ⟨"S", [], .struct (.named [
  ⟨"a", exTy "u8", [exMark [.path (.ident "length")]]⟩,
  ⟨"n", exTy "u16", []⟩,
  ⟨"b", exTy "u8", [exMark [.path (.ident "size"), .eq, .path (.ident "n")]]⟩,
  ⟨"c", .array (exTy "u8") (.lit 4), [exMark [.path (.ident "length"), .eq, .expr (.lit 3)]]⟩,
  ⟨"d", .array (exTy "u8") (.lit 4), [exMark [.path (.ident "length"), .eq, .path (.ident "a")]]⟩,
  ⟨"e", .array (exTy "u8") (.lit 4), [exMark [.path (.ident "length"), .eq, .path (.ident "n")],
    exMark []]⟩])⟩

example : Rejected exFaulty [.syntax, .unknownAttr, .notIdent, .lengthBefore "a", .onlyOne] :=
  (C99_marshalable _ _).mp rfl

example : ¬ Rejected exFaulty [.syntax] := by
  intro h
  have := (C99_marshalable _ _).mpr h
  have h2 : deriveMarshalable exFaulty =
    .err [.syntax, .unknownAttr, .notIdent, .lengthBefore "a", .onlyOne] := rfl
  rw [h2] at this
  cases this

/-- A length attribute on a number is reported only when nothing else is wrong. -/
example : Rejected ⟨"S", [], .struct (.named [⟨"n", exTy "u16", []⟩, ⟨"b", exTy "u8",
    [exMark [.path (.ident "length"), .eq, .path (.ident "n")]]⟩])⟩ [.notArray] :=
  (C99_marshalable _ _).mp rfl

/-- A path as length. -/
example : deriveMarshalable ⟨"S", [], .struct (.named [⟨"a", exTy "u8", [exMark []]⟩, ⟨"b", exTy "u8",
    [exMark [.path (.ident "length"), .eq, .path (.mk [.mk "x" none, .mk "n" none])]]⟩])⟩ = .panic :=
  (C99_panics _).mpr ⟨_, rfl, _, .tail _ (.head _), _, _, rfl, .inr ⟨_, rfl, rfl⟩, by
    intro i h
    cases h⟩

/-- The second of the fields of a sized buffer is wrong. -/
example : deriveTpm2bStruct ⟨"S", [], .struct (.named [⟨"size", exTy "u16", []⟩,
    ⟨"data", .array (exTy "u16") (.lit 4), []⟩])⟩ = .err [.second] :=
  (C99_sized _ _).mpr ⟨_, rfl, .fields rfl (.second rfl rfl rfl (by
    intro n h
    simp [exTy, Path.ident] at h))⟩

/-! ## C100: which field the error about a missing length names -/

/-- The full claim: the error says that the length must come before field `x`
using it, so `x` has a length attribute and no such field before it. -/
def NamesUser (input : Input) : Prop :=
  ∀ es x, deriveMarshalable input = .err es → .lengthBefore x ∈ es →
    ∃ pre f post l, input.data = .struct (.named (pre ++ f :: post)) ∧ f.ident = x ∧ f.Counted l ∧
      ∀ g ∈ pre, g.ident = l → g.Bare → g.ty.IsArray

theorem each_mem {α : Type} {P : List α → α → Msg → Prop} {before l : List α} {ms : List Msg}
    (h : Each P before l ms) : ∀ m ∈ ms, ∃ pre x post, l = pre ++ x :: post ∧ P (before ++ pre) x m := by
  induction h with
  | nil => intro m hm; cases hm
  | @faulty before x xs m' ms hp _ ih =>
    intro m hm
    rcases List.mem_cons.mp hm with rfl | hm
    · exact ⟨[], x, xs, rfl, by simpa using hp⟩
    · obtain ⟨pre, y, post, rfl, hy⟩ := ih m hm
      exact ⟨x :: pre, y, post, rfl, by simpa using hy⟩
  | @fine before x xs ms hp _ ih =>
    intro m hm
    obtain ⟨pre, y, post, rfl, hy⟩ := ih m hm
    exact ⟨x :: pre, y, post, rfl, by simpa using hy⟩

theorem marks_counted {f : NField} {a : Attr} {l : Ident} (hm : f.marks = [a])
    (hs : a.Says (.ident "length") (.path false false (.ident l))) : f.Counted l := by
  rw [← attr_some, attribute_single hm hs, isIdent_ident]
  rfl

/-- It names what the attribute gives as length instead.  Missing: the name of
the field with the attribute, which is not in the message
(marshalable-derive/src/lib.rs:582-588). -/
theorem C100_names_partial (input : Input) (es : List Msg) (x : Ident)
    (h : deriveMarshalable input = .err es) (hx : .lengthBefore x ∈ es) :
    ∃ pre f post, input.data = .struct (.named (pre ++ f :: post)) ∧ f.Counted x ∧
      ∀ g ∈ pre, g.ident = x → g.Bare → g.ty.IsArray := by
  have hr := (C99_marshalable input es).mp h
  cases hr with
  | attrs hd hn he =>
    obtain ⟨pre, f, post, rfl, hf⟩ := each_mem he _ hx
    cases hf with
    | before hm hs hl => exact ⟨pre, f, post, hd, marks_counted hm hs, by simpa using hl⟩
  | arrays hd hn _ he =>
    obtain ⟨pre, f, post, rfl, hf⟩ := each_mem he _ hx
    cases hf
  | sized hd _ _ hs =>
    cases List.mem_singleton.mp hx
    cases hs
  | variants hd he =>
    obtain ⟨pre, f, post, rfl, hf⟩ := each_mem he _ hx
    cases hf
  | selectors _ _ _ _ => cases List.mem_singleton.mp hx
  | union _ => cases List.mem_singleton.mp hx

/-- `struct S { #[marshalable(length = n)] items: [u8; 4], n: u16 }`: the error
is that the length must come before field `n`, which has no attribute. -/
theorem C100_violated : ∃ input, ¬ NamesUser input := by
  refine ⟨⟨"S", [], .struct (.named [⟨"items", .array (exTy "u8") (.lit 4),
    [exMark [.path (.ident "length"), .eq, .path (.ident "n")]]⟩, ⟨"n", exTy "u16", []⟩])⟩, ?_⟩
  intro h
  obtain ⟨pre, f, post, l, hd, hi, hc, _⟩ := h [.lengthBefore "n"] "n" rfl (by simp)
  simp only [Data.struct.injEq, FieldsE.named.injEq] at hd
  cases pre with
  | nil =>
    simp only [List.nil_append, List.cons.injEq] at hd
    rw [← hd.1] at hi
    simp at hi
  | cons a pre =>
    cases pre with
    | nil =>
      simp only [List.cons_append, List.nil_append, List.cons.injEq] at hd
      exact counted_not_bare hc (by rw [← hd.2.1]; intro b hb; cases hb)
    | cons b pre => simp at hd

/-- A case of `C100_names_partial`. -/
example : ∃ pre f post, Input.data ⟨"S", [], .struct (.named exFields.reverse)⟩ =
      .struct (.named (pre ++ f :: post)) ∧ f.Counted "count" ∧
      ∀ g ∈ pre, g.ident = "count" → g.Bare → g.ty.IsArray :=
  C100_names_partial _ [.lengthBefore "count"] "count" rfl (by simp)

end Verif.Derive
