import Verif.Width.DeriveLemmas

/-! C120: the derive macro for declarations with types of the caller's own, on machines of any width. -/

namespace Verif.Own.Derive.Wide
open Verif
open _root_.Verif.Derive

variable {X : Type} {m : Machine}

/-- **C120**: whether the generated code compiles does not depend on the machine. -/
theorem C120_compiles (m : Machine) (Γ : Ctx X) (w : Nat) (input : Input) (hp : input.Plain)
    (hd : Distinct input.data) :
    (∃ items c, deriveMarshalable input = .ok items ∧ implOfOn m Γ w input items = some c) ↔
      Usable input.data ∧ Placed Γ input.data ∧ ∃ t, Means Γ w input.data t := by
  constructor
  · rintro ⟨items, c, h, hc⟩
    exact means_sound hp hd h hc
  · rintro ⟨hu, hq, t, ht⟩
    obtain ⟨items, c, h, hc, _⟩ := means_complete (m := m) hp hd hu hq ht
    exact ⟨items, c, h, hc⟩

/-- **C120**: the generated implementation is the one declared, as the machine runs it (C116). -/
theorem C120_generated (m : Machine) (Γ : Ctx X) (w : Nat) (input : Input) (items : List Item)
    (c : Codec X) (hp : input.Plain) (hd : Distinct input.data)
    (h : deriveMarshalable input = .ok items) (hc : implOfOn m Γ w input items = some c) :
    ∃ t, Means Γ w input.data t ∧ ImplementsOn m c t := by
  obtain ⟨hu, hq, t, ht⟩ := means_sound hp hd h hc
  obtain ⟨items', c', h', hc', hi⟩ := means_complete (m := m) hp hd hu hq ht
  rw [h] at h'
  cases h'
  rw [hc] at hc'
  cases hc'
  exact ⟨t, ht, hi⟩

theorem held_fields {Q : Part X → X → Prop} : ∀ (fs : Fields X) (env : List Nat) (vs : List (Val X)),
    HeldFields Q fs env vs → FormedFields fs vs
  | .nil, _, vs, h => by
    cases vs with
    | nil => exact .nil
    | cons _ _ => exact absurd h (by simp [HeldFields])
  | .plain t r, env, vs, h => by
    cases vs with
    | nil => exact absurd h (by simp [HeldFields])
    | cons v vs => exact .plain (held_fields r _ vs (by simp only [HeldFields] at h; exact h.2))
  | .fixedArr t n r, env, vs, h => by
    match vs, h with
    | .arr es :: vs, h => exact .fixedArr (held_fields r _ vs (by simp only [HeldFields] at h; exact h.2))
    | [], h => exact absurd h (by simp [HeldFields])
    | .std _ :: _, h => exact absurd h (by simp [HeldFields])
    | .own _ :: _, h => exact absurd h (by simp [HeldFields])
    | .struct _ :: _, h => exact absurd h (by simp [HeldFields])
    | .enum _ _ :: _, h => exact absurd h (by simp [HeldFields])
  | .lenArr k t n r, env, vs, h => by
    match vs, h with
    | .arr es :: vs, h => exact .lenArr (held_fields r _ vs (by simp only [HeldFields] at h; exact h.2))
    | [], h => exact absurd h (by simp [HeldFields])
    | .std _ :: _, h => exact absurd h (by simp [HeldFields])
    | .own _ :: _, h => exact absurd h (by simp [HeldFields])
    | .struct _ :: _, h => exact absurd h (by simp [HeldFields])
    | .enum _ _ :: _, h => exact absurd h (by simp [HeldFields])

theorem held_variant {Q : Part X → X → Prop} : ∀ (vs : Variants X) (sel : Nat) (fvs : List (Val X)),
    HeldVariant Q vs sel fvs → ∃ fs, Selects vs sel fs ∧ FormedFields fs fvs
  | .nil, _, _, h => absurd h (by simp [HeldVariant])
  | .cons s fs rest, sel, fvs, h => by
    simp only [HeldVariant] at h
    by_cases e : sel = s
    · subst e
      rw [if_pos rfl] at h
      exact ⟨fs, .here, held_fields fs _ fvs h⟩
    · rw [if_neg e] at h
      obtain ⟨fs', hs, hf⟩ := held_variant rest sel fvs h
      exact ⟨fs', .there e hs, hf⟩

theorem held_formed {Q : Part X → X → Prop} {Γ : Ctx X} {w : Nat} {d : Data} {t : Ty X}
    (ht : Means Γ w d t) (v : Val X) (hv : Held Q t v) : Formed t v := by
  have hstruct : ∀ F : Fields X, Held Q (.struct F) v → Formed (.struct F) v := by
    intro F hv
    cases v with
    | struct vs => exact .struct (held_fields _ [] vs (by simpa only [Held] using hv))
    | _ => simp [Held] at hv
  cases ht with
  | named _ => exact hstruct _ hv
  | unnamed _ => exact hstruct _ hv
  | unit => exact hstruct _ hv
  | enum _ =>
    cases v with
    | enum sel fvs =>
      simp only [Held] at hv
      obtain ⟨fs, hs, hf⟩ := held_variant _ sel fvs hv
      exact .enum hs hf
    | _ => simp [Held] at hv

/-- **C120**, as far as it holds: what is generated does on machines of 32 bits and more what it does
without limits (C119), if length fields say less than 2^32 and no type of the caller's own reports more
than it was given.  Missing are those that do, on machines without overflow checks (`C120_violated`). -/
theorem C120_same_partial (hm : 32 ≤ m.bits) (Γ : Ctx X) (w : Nat) (input : Input) (items : List Item)
    (c c' : Codec X) (hp : input.Plain) (hd : Distinct input.data)
    (h : deriveMarshalable input = .ok items) (hc : implOfOn m Γ w input items = some c)
    (hc' : implOf Γ w input items = some c') :
    ∃ t, Means Γ w input.data t ∧ (t.Counts → c.unmarshal = c'.unmarshal ∧
      ∀ v b, Held Truthful t v → b.length < 2 ^ m.bits → c.marshal v b = c'.marshal v b) := by
  obtain ⟨t, ht, hu, hw⟩ := C120_generated m Γ w input items c hp hd h hc
  obtain ⟨t', ht', hu', hw'⟩ := C119_generated Γ w input items c' hp hd h hc'
  have e := C119_unambiguous Γ w _ _ _ hd ht' ht
  subst e
  refine ⟨t', ht, fun hn => ⟨?_, fun v b hv hb => ?_⟩⟩
  · rw [hu, hu']
    exact funext fun b => C116_reads hm t' hn b
  · have hf := held_formed ht v hv
    rw [hw v b hf, hw' v b hf]
    exact (C116_same_partial hm t' hn v hv b hb).1

/-- **C120**: with overflow checks, whatever the types of the caller's own report, writing succeeds
exactly if the fields can be written one behind the other and the sum of the reports is a `usize`. -/
theorem C120_checked (hk : m.checked = true) (hm : 32 ≤ m.bits) (Γ : Ctx X) (w : Nat) (input : Input)
    (items : List Item) (c : Codec X) (hp : input.Plain) (hd : Distinct input.data)
    (h : deriveMarshalable input = .ok items) (hc : implOfOn m Γ w input items = some c) :
    ∃ t, Means Γ w input.data t ∧ (t.Counts → ∀ v b n b', Held (Reports m) t v → b.length < 2 ^ m.bits →
      (c.marshal v b = (.ok n, b') ↔ Puts t v b n b' ∧ n < 2 ^ m.bits)) := by
  obtain ⟨t, ht, hu, hw⟩ := C120_generated m Γ w input items c hp hd h hc
  refine ⟨t, ht, fun hn v b n b' hv hb => ?_⟩
  rw [hw v b (held_formed ht v hv)]
  exact C116_checked hk hm t hn v hv b hb n b'

/-- **C120**: if the types of the caller's own do what they should, so does what is generated, on every
such machine. -/
theorem C120_lawful (hm : 32 ≤ m.bits) (Γ : Ctx X) (w : Nat) (input : Input) (items : List Item)
    (c : Codec X) (hp : input.Plain) (hd : Distinct input.data)
    (h : deriveMarshalable input = .ok items) (hc : implOfOn m Γ w input items = some c) :
    ∃ t, Means Γ w input.data t ∧
      (t.Counts → ∀ M : Part X → Meaning X, (t.Own fun p => Lawful p (M p)) →
      (∀ v b, Sound M t v → Held (fun p x => (M p).sound x) t v → b.length < 2 ^ m.bits →
        ((wire M t v).length ≤ b.length →
          c.marshal v b = (.ok (wire M t v).length, wire M t v ++ b.drop (wire M t v).length)) ∧
        (b.length < (wire M t v).length → ∀ n, (c.marshal v b).1 ≠ .ok n)) ∧
      (∀ v r, Sound M t v → c.unmarshal (wire M t v ++ r) = (.ok (canon M t v), r)) ∧
      (∀ b v r, c.unmarshal b = (.ok v, r) → Sound M t v ∧ b = wire M t v ++ r) ∧
      ∀ b, (c.unmarshal b).1 ≠ .panic) := by
  obtain ⟨t, ht, hu, hw⟩ := C120_generated m Γ w input items c hp hd h hc
  refine ⟨t, ht, fun hn M hM => ?_⟩
  obtain ⟨h1, h2, h3, h4⟩ := C116_lawful (M := M) hm t hn hM
  rw [hu]
  refine ⟨fun v b hv hh hb => ?_, h2, fun b v r hb => ?_, h4⟩
  · rw [hw v b (held_formed ht v hh)]
    exact h1 v b hv hh hb
  · obtain ⟨a1, _, a3⟩ := h3 b v r hb
    exact ⟨a1, a3⟩

/-! ### Cases -/

/-- The types of the caller's own in the cases of C116, with `Choice` of C119. -/
def wideCtx : Ctx Nat where
  ty
    | .path p =>
      match p.getIdent with
      | some "Count" => some (.own smallCount)
      | some "Small" => some (.own small)
      | some "Claims" => some (.own claims)
      | some "u8" => some (.std (.prim 1))
      | some "Choice" => some (.enum 1 exVs)
      | _ => none
    | _ => none
  cast
    | .path p => p.isIdent "Count" || p.isIdent "u8"
    | _ => false
  slots
    | .path p => p.isIdent "Small"
    | _ => false
  size
    | .lit n => some n
    | _ => none
  sel
    | .lit n => some n
    | _ => none

/-- The fields of the structure below. -/
def wideFields : List NField := [
  ⟨"count", .path (.ident "Count"), []⟩,
  ⟨"items", .array (.path (.ident "Small")) (.lit 3),
    [⟨.ident "marshalable", some [.path (.ident "length"), .eq, .path (.ident "count")]⟩]⟩,
  ⟨"choice", .path (.ident "Choice"), []⟩]

/-- `struct Wide { count: Count, #[marshalable(length = count)] items: [Small; 3], choice: Choice }`. -/
def wideInput : Input := ⟨"Wide", [], .struct (.named wideFields)⟩

theorem wideMeans : Means wideCtx 0 wideInput.data wideTy := by
  refine .named (.plain ?_ ?_ rfl (.counted (l := "count") (k := 0)
    (g := ⟨"count", .path (.ident "Count"), []⟩) ?_ rfl rfl rfl rfl rfl ?_ ?_ rfl rfl
    (.plain ?_ ?_ rfl .nil)))
  · intro a ha; cases ha
  · intro h; cases h
  · refine ⟨[], _, [], _, _, rfl, rfl, rfl, .inl rfl, rfl, ?_⟩
    intro b hb
    cases hb
  · intro a ha; cases ha
  · intro h; cases h
  · intro a ha; cases ha
  · intro h; cases h

theorem wideUsable : Usable wideInput.data ∧ Placed wideCtx wideInput.data := by
  have hm : ∀ f ∈ wideFields, f.ident ≠ "buffer" := by decide
  refine ⟨⟨?_, ?_⟩, ?_⟩
  · intro pre f post h hb
    exact absurd hb (hm f (by rw [h]; simp))
  · intro f hf elem len h
    simp only [wideFields, List.mem_cons, List.not_mem_nil, or_false] at hf
    rcases hf with rfl | rfl | rfl <;> cases h <;> rfl
  · intro f hf elem len h
    simp only [wideFields, List.mem_cons, List.not_mem_nil, or_false] at hf
    rcases hf with rfl | rfl | rfl <;> cases h <;> rfl

theorem wideDistinct : wideInput.Plain ∧ Distinct wideInput.data :=
  ⟨(by intro a ha; cases ha), (by
    show (wideFields.map (·.ident)).Nodup
    decide)⟩

/-- On 32 bits the structure is written and read as without limits. -/
example : ∃ items c, deriveMarshalable wideInput = .ok items ∧
    implOfOn ⟨32, false⟩ wideCtx 0 wideInput items = some c ∧
    c.marshal exVal (List.replicate 8 0xFF) = (.ok 6, [2, 1, 0, 2, 0x12, 0x34, 0xFF, 0xFF]) ∧
    c.unmarshal [2, 1, 0, 2, 0x12, 0x34, 0x56] =
      (.ok (.struct [.own 2, .arr [.own 1, .own 0, .own 3], .enum 2 [.std (.int 0x1234)]]), [0x56]) := by
  obtain ⟨items, c, h, hc⟩ := (C120_compiles ⟨32, false⟩ wideCtx 0 wideInput wideDistinct.1
    wideDistinct.2).2 ⟨wideUsable.1, wideUsable.2, _, wideMeans⟩
  obtain ⟨t, ht, hl⟩ := C120_lawful (m := ⟨32, false⟩) (Nat.le_refl _) wideCtx 0 wideInput items c
    wideDistinct.1 wideDistinct.2 h hc
  have e := C119_unambiguous wideCtx 0 _ _ _ wideDistinct.2 ht wideMeans
  subst e
  obtain ⟨h1, h2, _⟩ := hl wideTy_counts (fun _ => smallMeaning) wideTy_own
  exact ⟨items, c, h, hc, (h1 exVal (List.replicate 8 0xFF) wide_sound wide_held (by decide)).1 (by decide),
    h2 exVal [0x56] wide_sound⟩

/-- And what is generated for it does the same on every machine with what fits into its memory. -/
example (hm : 32 ≤ m.bits) (b : Bytes) (hb : b.length < 2 ^ m.bits) :
    ∃ items c c', deriveMarshalable wideInput = .ok items ∧
    implOfOn m wideCtx 0 wideInput items = some c ∧ implOf wideCtx 0 wideInput items = some c' ∧
    c.unmarshal = c'.unmarshal ∧ c.marshal exVal b = c'.marshal exVal b := by
  obtain ⟨items, c, h, hc⟩ := (C120_compiles m wideCtx 0 wideInput wideDistinct.1
    wideDistinct.2).2 ⟨wideUsable.1, wideUsable.2, _, wideMeans⟩
  obtain ⟨items', c', h', hc'⟩ := (C119_compiles wideCtx 0 wideInput wideDistinct.1
    wideDistinct.2).2 ⟨wideUsable.1, wideUsable.2, _, wideMeans⟩
  rw [h] at h'
  cases h'
  obtain ⟨t, ht, hl⟩ := C120_same_partial hm wideCtx 0 wideInput items c c' wideDistinct.1 wideDistinct.2
    h hc hc'
  have e := C119_unambiguous wideCtx 0 _ _ _ wideDistinct.2 ht wideMeans
  subst e
  obtain ⟨h1, h2⟩ := hl wideTy_counts
  refine ⟨items, c, c', h, hc, hc', h1, h2 exVal b ?_ hb⟩
  exact Held.mono (P := fun p => Lawful p smallMeaning) (fun p x hp hx b n hn => by
    by_cases hl : (smallMeaning.bytes x).length ≤ b.length
    · rw [hp.writes x b hx hl] at hn
      cases hn
      exact hl
    · exact absurd hn (hp.refuses x b n hx (Nat.lt_of_not_le hl))) _ _ wideTy_own wide_held

/-- `struct Claim(u8, Claims, u8)`, with the type that reports what it did not write. -/
def claimInput : Input := ⟨"Claim", [], .struct (.unnamed
  [.path (.ident "u8"), .path (.ident "Claims"), .path (.ident "u8")])⟩

/-- **C120** is violated: the declaration is accepted, and what is generated overwrites a field and
reports one byte on a machine of 64 bits without overflow checks, where it panics with them, and without
limits. -/
theorem C120_violated :
    claimInput.Plain ∧ Distinct claimInput.data ∧ Means wideCtx 0 claimInput.data claimTy ∧ claimTy.Counts ∧
    ∃ items, deriveMarshalable claimInput = .ok items ∧
    ∃ c cc c', implOfOn ⟨64, false⟩ wideCtx 0 claimInput items = some c ∧
      implOfOn ⟨64, true⟩ wideCtx 0 claimInput items = some cc ∧
      implOf wideCtx 0 claimInput items = some c' ∧
      c.marshal (claimVal (2 ^ 64 - 1)) [7, 8, 9] = (.ok 1, [2, 8, 9]) ∧
      cc.marshal (claimVal (2 ^ 64 - 1)) [7, 8, 9] = (.panic, [1, 8, 9]) ∧
      c'.marshal (claimVal (2 ^ 64 - 1)) [7, 8, 9] = (.panic, [1, 8, 9]) := by
  have hp : claimInput.Plain := by intro a ha; cases ha
  have hd : Distinct claimInput.data := trivial
  have ht : Means wideCtx 0 claimInput.data claimTy := .unnamed (.cons rfl (.cons rfl (.cons rfl .nil)))
  have hf : Formed claimTy (claimVal (2 ^ 64 - 1)) := .struct (.plain (.plain (.plain .nil)))
  obtain ⟨items, c', h, hc', hi'⟩ := Derive.means_complete hp hd trivial trivial ht
  obtain ⟨items1, c, h1, hc, hi⟩ := means_complete (m := ⟨64, false⟩) hp hd trivial trivial ht
  obtain ⟨items2, cc, h2, hcc, hii⟩ := means_complete (m := ⟨64, true⟩) hp hd trivial trivial ht
  rw [h] at h1 h2
  cases h1
  cases h2
  obtain ⟨_, _, v1, v2, v3, _⟩ := C116_violated
  refine ⟨hp, hd, ht, claimTy_counts, items, h, c, cc, c', hc, hcc, hc', ?_, ?_, ?_⟩
  · rw [hi.2 _ _ hf]; exact v1
  · rw [hii.2 _ _ hf]; exact v3
  · rw [hi'.2 _ _ hf]; exact v2

/-- With overflow checks, a report of one byte that was not written counts on every machine. -/
example (hm : 32 ≤ m.bits) (hk : m.checked = true) : ∃ items c, deriveMarshalable claimInput = .ok items ∧
    implOfOn m wideCtx 0 claimInput items = some c ∧
    c.marshal (claimVal 1) [7, 8, 9] = (.ok 3, [1, 8, 2]) := by
  have hp : claimInput.Plain := by intro a ha; cases ha
  have hd : Distinct claimInput.data := trivial
  have hn : Means wideCtx 0 claimInput.data claimTy := .unnamed (.cons rfl (.cons rfl (.cons rfl .nil)))
  have h32 : 2 ^ 32 ≤ 2 ^ m.bits := Nat.pow_le_pow_right (by decide) hm
  obtain ⟨items, c, h, hc⟩ := (C120_compiles m wideCtx 0 claimInput hp hd).2 ⟨trivial, trivial, _, hn⟩
  obtain ⟨t, ht, hl⟩ := C120_checked hk hm wideCtx 0 claimInput items c hp hd h hc
  have e := C119_unambiguous wideCtx 0 _ _ _ hd ht hn
  subst e
  exact ⟨items, c, h, hc, (hl claimTy_counts (claimVal 1) [7, 8, 9] 3 [1, 8, 2]
    (claim_held fun b n hn => by cases hn; omega) (show 3 < _ by omega)).2 ⟨claim_puts, by omega⟩⟩

end Verif.Own.Derive.Wide
