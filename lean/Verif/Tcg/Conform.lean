import Verif.Tcg.Spec
import Verif.Codec.Unmarshal

/-! Helper lemmas: a check that a type of the model accepts exactly the bytes a
type of Part 2 describes. -/

namespace Verif.Tcg
open Verif

/-! ### The check -/

/-- The type a union has for a selector. -/
def Cases.find : Cases → Nat → Option Shape
  | .nil, _ => none
  | .case s t r, sel => if sel = s then some t else r.find sel

/-- The selectors of a union. -/
def Cases.selectors : Cases → List Nat
  | .nil => []
  | .case s _ r => s :: r.selectors

/-- Are there only unions selected by `x`? -/
def unionsOn (x : String) : Rows → Bool
  | .nil => true
  | .union _ y _ r => y == x && unionsOn x r
  | _ => false

/-- The types of unions for selector `s`. -/
def choose (s : Nat) : Rows → Option (List Shape)
  | .nil => some []
  | .union _ _ cs r =>
    match cs.find s, choose s r with
    | some t, some l => some (t :: l)
    | _, _ => none
  | _ => none

/-- The selectors of the first union. -/
def firstSelectors : Rows → List Nat
  | .union _ _ cs _ => cs.selectors
  | _ => []

/-- Do the variants cover all selectors? -/
def covers (vs : Variants) (r : Rows) : Bool :=
  match r with
  | .union _ _ _ _ =>
    (firstSelectors r).all fun s => !(choose s r).isSome || vs.selectors.contains s
  | _ => false

/-- Remembers the number of an integer member. -/
def note (t : Ty) (y : String) (idx : Nat) (names : List (String × Option Nat)) :
    List (String × Option Nat) :=
  match t with
  | .prim _ => (y, some idx) :: names
  | _ => (y, none) :: names

/-- The name of the row after the fields. -/
def selectorName : Rows → Fields → Option String
  | .row x _ _, .nil => some x
  | .row _ _ r, .plain _ f => selectorName r f
  | _, _ => none

mutual
/-- Does the type follow the table? -/
def conf : Ty → Shape → Bool
  | .prim n, .uint m => n == m
  | .bytes n, .octets m => n == m
  | .tpm2b n, .buffer m => n == m
  | .struct fs, .uint n => confWrap fs n
  | .struct fs, .table rows => confRows fs rows [] 0
  | .enum w vs, .table (.row x (.uint m) r) =>
    w == m && unionsOn x r && covers vs r && confVariants vs r
  | .split pre w mid vs, .table (.row x t r) =>
    match selectorName (.row x t r) pre with
    | some y =>
      match plainRows y pre (.row x t r) with
      | some (.row z (.uint m) r') =>
        match plainRows y mid r' with
        | some u => z == y && w == m && unionsOn y u && covers vs u && confVariants vs u
        | none => false
      | _ => false
    | none => false
  | _, _ => false
/-- An integer in a structure of one member. -/
def confWrap : Fields → Nat → Bool
  | .plain t .nil, n => conf t (.uint n)
  | _, _ => false
/-- The fields of a structure against a table. -/
def confRows : Fields → Rows → List (String × Option Nat) → Nat → Bool
  | .nil, .nil, _, _ => true
  | .plain t f, .row y u r, names, idx => conf t u && confRows f r (note t y idx names) (idx + 1)
  | .lenArr k t n f, .array _ u count max r, names, idx =>
    names.lookup count == some (some k) && n == max && conf t u && confRows f r names (idx + 1)
  | _, _, _, _ => false
/-- Plain fields against the first rows of a table, none of them called `x`; the
remaining rows. -/
def plainRows (x : String) : Fields → Rows → Option Rows
  | .nil, rows => some rows
  | .plain t f, .row y u r => if y != x && conf t u then plainRows x f r else none
  | _, _ => none
/-- Variants against unions. -/
def confVariants : Variants → Rows → Bool
  | .nil, _ => true
  | .cons s fs rest, r =>
    (match choose s r with
      | some l => confList fs l
      | none => false) && confVariants rest r
/-- Fields against types. -/
def confList : Fields → List Shape → Bool
  | .nil, [] => true
  | .plain t f, u :: l => conf t u && confList f l
  | _, _ => false
end

/-! ### What a type accepts -/

/-- The bytes are the encoding of a value of the type. -/
def Lang (t : Ty) (b : Bytes) : Prop := ∃ v, WF t v ∧ wire t v = b
/-- The bytes are the encoding of fields. -/
def LangF (fs : Fields) (env : List Nat) (b : Bytes) : Prop :=
  ∃ vs, WFFields fs env vs ∧ wireFields fs env vs = b
/-- The bytes are the encoding of the data of a variant. -/
def LangV (vs : Variants) (sel : Nat) (b : Bytes) : Prop :=
  ∃ fvs, WFVariant vs sel fvs ∧ wireVariant vs sel fvs = b
/-- The bytes are of these types one after the other. -/
def ValidList : List Shape → Bytes → Prop
  | [], b => b = []
  | t :: l, b => ∃ c d, b = c ++ d ∧ Valid t c ∧ ValidList l d

theorem langF_nil {env : List Nat} {b : Bytes} : LangF .nil env b ↔ b = [] := by
  constructor
  · rintro ⟨vs, h, rfl⟩
    cases vs <;> simp [WFFields] at h
    simp [wireFields]
  · rintro rfl
    exact ⟨[], by simp [WFFields], by simp [wireFields]⟩

theorem langF_plain {t : Ty} {r : Fields} {env : List Nat} {b : Bytes} :
    LangF (.plain t r) env b ↔
      ∃ v d, WF t v ∧ b = wire t v ++ d ∧ LangF r (env ++ [asUsize v]) d := by
  constructor
  · rintro ⟨vs, h, rfl⟩
    cases vs with
    | nil => simp [WFFields] at h
    | cons v vs =>
      simp only [WFFields] at h
      exact ⟨v, _, h.1, by rw [wireFields], vs, h.2, rfl⟩
  · rintro ⟨v, d, hv, rfl, vs, h, rfl⟩
    exact ⟨v :: vs, by simp only [WFFields]; exact ⟨hv, h⟩, by rw [wireFields]⟩

theorem langF_lenArr {k : Nat} {t : Ty} {n : Nat} {r : Fields} {env : List Nat} {b : Bytes} :
    LangF (.lenArr k t n r) env b ↔
      env.getD k 0 ≤ n ∧ ∃ (es : List Bytes) (d : Bytes), b = es.flatten ++ d ∧
        es.length = env.getD k 0 ∧ (∀ e ∈ es, Lang t e) ∧ LangF r (env ++ [0]) d := by
  constructor
  · rintro ⟨vs, h, rfl⟩
    cases vs with
    | nil => simp [WFFields] at h
    | cons v vs =>
      cases v <;> simp only [WFFields] at h
      rename_i es
      obtain ⟨h1, h2, h3, h4⟩ := h
      refine ⟨h2, (es.take (env.getD k 0)).map (wire t), _, by rw [wireFields], ?_, ?_, vs, h4, rfl⟩
      · simp only [List.length_map, List.length_take]; omega
      · intro e he
        obtain ⟨v, hv, rfl⟩ := List.mem_map.mp he
        exact ⟨v, h3 v hv, rfl⟩
  · rintro ⟨hk, es, d, rfl, hl, hes, vs, hvs, rfl⟩
    have key : ∀ es : List Bytes, (∀ e ∈ es, Lang t e) →
        ∃ ws : List Val, ws.length = es.length ∧ (∀ w ∈ ws, WF t w) ∧ ws.map (wire t) = es := by
      intro es
      induction es with
      | nil => intro _; exact ⟨[], rfl, by simp, rfl⟩
      | cons e es ih =>
        intro h
        obtain ⟨ws, h1, h2, h3⟩ := ih fun x hx => h x (by simp [hx])
        obtain ⟨w, hw, hwe⟩ := h e (by simp)
        refine ⟨w :: ws, by simp [h1], ?_, by simp [h3, hwe]⟩
        intro x hx
        rcases List.mem_cons.mp hx with rfl | hx
        · exact hw
        · exact h2 x hx
    obtain ⟨ws, h1, h2, h3⟩ := key es hes
    have htake : (ws ++ List.replicate (n - env.getD k 0) Val.unit).take (env.getD k 0) = ws := by
      rw [← hl, ← h1, List.take_left]
    refine ⟨.arr (ws ++ List.replicate (n - env.getD k 0) .unit) :: vs, ?_, ?_⟩
    · simp only [WFFields]
      refine ⟨by simp only [List.length_append, List.length_replicate]; omega, hk, ?_, hvs⟩
      rw [htake]; exact h2
    · rw [wireFields, htake]
      simp [← h3]

theorem langV_find {sel : Nat} {b : Bytes} : ∀ {vs : Variants},
    LangV vs sel b ↔ ∃ fs, vs.find sel = some fs ∧ LangF fs [] b
  | .nil => by simp [LangV, WFVariant, Variants.find]
  | .cons s fs rest => by
    have ih := @langV_find sel b rest
    unfold LangV at ih ⊢
    simp only [WFVariant, wireVariant, Variants.find]
    by_cases h : sel = s
    · simp only [if_pos h]
      constructor
      · rintro ⟨fvs, h1, h2⟩; exact ⟨fs, rfl, fvs, h1, h2⟩
      · rintro ⟨_, h0, fvs, h1, h2⟩; cases h0; exact ⟨fvs, h1, h2⟩
    · simp only [if_neg h]
      exact ih

theorem find_selectors {sel : Nat} {fs : Fields} : ∀ {vs : Variants},
    vs.find sel = some fs → sel ∈ vs.selectors
  | .nil, h => by simp [Variants.find] at h
  | .cons s u r, h => by
    simp only [Variants.find] at h
    simp only [Variants.selectors, List.mem_cons]
    by_cases hs : sel = s
    · exact .inl hs
    · rw [if_neg hs] at h; exact .inr (find_selectors h)

/-! ### Unions -/

theorem validCase_find {sel : Nat} {b : Bytes} : ∀ {cs : Cases},
    ValidCase cs sel b ↔ ∃ t, cs.find sel = some t ∧ Valid t b
  | .nil => by simp [ValidCase, Cases.find]
  | .case s t r => by
    have ih := @validCase_find sel b r
    simp only [ValidCase, Cases.find]
    by_cases h : sel = s
    · simp [if_pos h]
    · simp only [if_neg h]; exact ih

theorem cases_find_selectors {sel : Nat} {t : Shape} : ∀ {cs : Cases},
    cs.find sel = some t → sel ∈ cs.selectors
  | .nil, h => by simp [Cases.find] at h
  | .case s u r, h => by
    simp only [Cases.find] at h
    simp only [Cases.selectors, List.mem_cons]
    by_cases hs : sel = s
    · exact .inl hs
    · rw [if_neg hs] at h; exact .inr (cases_find_selectors h)

theorem validRows_unions {x : String} {env : List (String × Nat)} {s : Nat}
    (he : env.lookup x = some s) : ∀ {r : Rows} {b : Bytes}, unionsOn x r = true →
    (ValidRows r env b ↔ ∃ l, choose s r = some l ∧ ValidList l b)
  | .nil, b, _ => by simp [ValidRows, choose, ValidList]
  | .row _ _ _, b, h => by simp [unionsOn] at h
  | .array _ _ _ _ _, b, h => by simp [unionsOn] at h
  | .union y z cs r, b, h => by
    simp only [unionsOn, Bool.and_eq_true, beq_iff_eq] at h
    obtain ⟨rfl, h⟩ := h
    simp only [ValidRows, choose]
    constructor
    · rintro ⟨s', hs', c, d, rfl, hc, hd⟩
      rw [he] at hs'
      cases hs'
      obtain ⟨t, ht, hv⟩ := validCase_find.mp hc
      obtain ⟨l, hl, hvl⟩ := (validRows_unions he h).mp hd
      exact ⟨t :: l, by rw [ht, hl], c, d, rfl, hv, hvl⟩
    · rintro ⟨l, hl, hv⟩
      rcases ht : cs.find s with _ | t
      · rw [ht] at hl; simp at hl
      rcases hc : choose s r with _ | l'
      · rw [ht, hc] at hl; simp at hl
      rw [ht, hc] at hl
      cases hl
      obtain ⟨c, d, rfl, h1, h2⟩ := hv
      exact ⟨s, he, c, d, rfl, validCase_find.mpr ⟨t, ht, h1⟩,
        (validRows_unions he h).mpr ⟨l', hc, h2⟩⟩

theorem unionsOn_lookup {x : String} {e e' : List (String × Nat)}
    (h : e.lookup x = e'.lookup x) : ∀ {r : Rows} {b : Bytes}, unionsOn x r = true →
    ValidRows r e b → ValidRows r e' b
  | .nil, b, _, hv => by simpa [ValidRows] using hv
  | .row _ _ _, b, hu, _ => by simp [unionsOn] at hu
  | .array _ _ _ _ _, b, hu, _ => by simp [unionsOn] at hu
  | .union y z cs r, b, hu, hv => by
    simp only [unionsOn, Bool.and_eq_true, beq_iff_eq] at hu
    obtain ⟨rfl, hu⟩ := hu
    simp only [ValidRows] at hv ⊢
    obtain ⟨s, hs, c, d, hb, hc, hd⟩ := hv
    exact ⟨s, by rw [← h, hs], c, d, hb, hc, unionsOn_lookup h hu hd⟩

theorem covers_mem {vs : Variants} {r : Rows} {s : Nat} {l : List Shape}
    (h : covers vs r = true) (hc : choose s r = some l) : s ∈ vs.selectors := by
  cases r with
  | union y z cs r' =>
    simp only [covers, List.all_eq_true, Bool.or_eq_true, Bool.not_eq_true',
      List.contains_iff_mem, firstSelectors] at h
    have hs : s ∈ cs.selectors := by
      rcases ht : cs.find s with _ | t
      · simp [choose, ht] at hc
      · exact cases_find_selectors ht
    rcases h s hs with h | h
    · rw [hc] at h; cases h
    · exact h
  | nil => simp [covers] at h
  | row => simp [covers] at h
  | array => simp [covers] at h

/-! ### The check is right -/

theorem lang_wrap {t : Ty} {b : Bytes} : Lang (.struct (.plain t .nil)) b ↔ Lang t b := by
  constructor
  · rintro ⟨v, h, rfl⟩
    cases v <;> simp only [WF] at h
    rename_i vs
    cases vs with
    | nil => simp [WFFields] at h
    | cons v vs =>
      cases vs <;> simp only [WFFields] at h
      · exact ⟨v, h.1, by simp [wire, wireFields]⟩
      · exact h.2.elim
  · rintro ⟨v, h, rfl⟩
    exact ⟨.struct [v], by simp [WF, WFFields, h], by simp [wire, wireFields]⟩

theorem lang_struct {fs : Fields} {b : Bytes} : Lang (.struct fs) b ↔ LangF fs [] b := by
  constructor
  · rintro ⟨v, h, rfl⟩
    cases v <;> simp only [WF] at h
    exact ⟨_, h, by rw [wire]⟩
  · rintro ⟨vs, h, rfl⟩
    exact ⟨.struct vs, by simpa only [WF] using h, by rw [wire]⟩

theorem lang_prim {n : Nat} {b : Bytes} : Lang (.prim n) b ↔ b.length = n := by
  constructor
  · rintro ⟨v, h, rfl⟩
    cases v <;> simp only [WF] at h
    simp [wire]
  · rintro rfl
    exact ⟨.int (positional b), by simpa only [WF] using positional_lt b,
      by simp only [wire, digits256_positional]⟩

theorem lang_tpm2b {n : Nat} {b : Bytes} : Lang (.tpm2b n) b ↔
    ∃ c : Bytes, b = digits256 2 c.length ++ c ∧ c.length < 65536 ∧ c.length ≤ n := by
  constructor
  · rintro ⟨v, h, rfl⟩
    cases v <;> simp only [WF] at h
    rename_i size buf
    have hl : (buf.take size).length = size := by simp only [List.length_take]; omega
    exact ⟨buf.take size, by rw [wire, hl], by omega, by omega⟩
  · rintro ⟨c, rfl, h1, h2⟩
    refine ⟨.tpm2b c.length (c ++ List.replicate (n - c.length) 0), ?_, ?_⟩
    · simp only [WF, List.length_append, List.length_replicate]; omega
    · simp [wire]

theorem lang_enum {w : Nat} {vs : Variants} {b : Bytes} : Lang (.enum w vs) b ↔
    ∃ c d, b = c ++ d ∧ c.length = w ∧ LangV vs (positional c) d := by
  constructor
  · rintro ⟨v, h, rfl⟩
    cases v <;> simp only [WF] at h
    rename_i sel fvs
    refine ⟨digits256 w sel, _, by rw [wire], by simp, ?_⟩
    rw [positional_digits256_of_lt h.1]
    exact ⟨fvs, h.2, rfl⟩
  · rintro ⟨c, d, rfl, rfl, fvs, h, rfl⟩
    exact ⟨.enum (positional c) fvs, by simp only [WF]; exact ⟨positional_lt c, h⟩,
      by rw [wire, digits256_positional]⟩

theorem lang_split {pre mid : Fields} {w : Nat} {vs : Variants} {b : Bytes} :
    Lang (.split pre w mid vs) b ↔
    ∃ p c m d, b = p ++ (c ++ (m ++ d)) ∧ LangF pre [] p ∧ c.length = w ∧ LangF mid [] m ∧
      LangV vs (positional c) d := by
  constructor
  · rintro ⟨v, h, rfl⟩
    cases v <;> simp only [WF] at h
    rename_i pvs mvs sel fvs
    obtain ⟨h1, h2, h3, h4⟩ := h
    refine ⟨wireFields pre [] pvs, digits256 w sel, wireFields mid [] mvs,
      wireVariant vs sel fvs, by rw [wire]; simp only [List.append_assoc], ⟨pvs, h1, rfl⟩, by simp, ⟨mvs, h2, rfl⟩, ?_⟩
    rw [positional_digits256_of_lt h3]
    exact ⟨fvs, h4, rfl⟩
  · rintro ⟨_, c, _, _, rfl, ⟨pvs, h1, rfl⟩, rfl, ⟨mvs, h2, rfl⟩, fvs, h4, rfl⟩
    exact ⟨.split pvs mvs (positional c) fvs,
      by simp only [WF]; exact ⟨h1, h2, positional_lt c, h4⟩,
      by rw [wire, digits256_positional]; simp only [List.append_assoc]⟩

/-- The environments agree on the remembered members. -/
def Agree (names : List (String × Option Nat)) (e : List (String × Nat)) (env : List Nat) : Prop :=
  ∀ y k, names.lookup y = some (some k) → k < env.length ∧ e.lookup y = some (env.getD k 0)

theorem getD_append_lt {l : List Nat} {k x : Nat} (h : k < l.length) :
    (l ++ [x]).getD k 0 = l.getD k 0 := by
  simp [List.getD_eq_getElem?_getD, List.getElem?_append_left h]

theorem agree_note {names : List (String × Option Nat)} {e : List (String × Nat)} {env : List Nat}
    (h : Agree names e env) {t : Ty} {y : String} {v : Val} (hv : WF t v) :
    Agree (note t y env.length names) ((y, positional (wire t v)) :: e)
      (env ++ [asUsize v]) := by
  intro z k hz
  by_cases hzy : z = y
  · subst hzy
    cases t <;> simp only [note, List.lookup_cons_self, Option.some.injEq, reduceCtorEq] at hz
    subst hz
    cases v <;> simp only [WF] at hv
    refine ⟨by simp, ?_⟩
    simp only [List.lookup_cons_self, wire, positional_digits256_of_lt hv, asUsize]
    simp [List.getD_eq_getElem?_getD]
  · have hne : (z == y) = false := by simpa using hzy
    have hz' : names.lookup z = some (some k) := by
      cases t <;> simpa only [note, List.lookup_cons, hne] using hz
    obtain ⟨h1, h2⟩ := h z k hz'
    refine ⟨by simp only [List.length_append, List.length_singleton]; omega, ?_⟩
    rw [List.lookup_cons, hne, getD_append_lt h1]
    exact h2

theorem agree_snoc {names : List (String × Option Nat)} {e : List (String × Nat)} {env : List Nat}
    (h : Agree names e env) (x : Nat) : Agree names e (env ++ [x]) := by
  intro z k hz
  obtain ⟨h1, h2⟩ := h z k hz
  exact ⟨by simp only [List.length_append, List.length_singleton]; omega,
    by rw [getD_append_lt h1]; exact h2⟩

theorem variants_iff (vs : Variants) (r : Rows) (x : String) (e : List (String × Nat)) (s : Nat)
    (hu : unionsOn x r = true) (hcov : covers vs r = true)
    (both : s ∈ vs.selectors → ∃ fs l, vs.find s = some fs ∧ choose s r = some l ∧
      ∀ env b, ValidList l b ↔ LangF fs env b)
    (he : e.lookup x = some s) (b : Bytes) : ValidRows r e b ↔ LangV vs s b := by
  rw [validRows_unions he hu, langV_find]
  constructor
  · rintro ⟨l, hl, hb⟩
    obtain ⟨fs, l', hf, hl', h⟩ := both (covers_mem hcov hl)
    rw [hl] at hl'
    cases hl'
    exact ⟨fs, hf, (h [] b).mp hb⟩
  · rintro ⟨fs, hf, hb⟩
    obtain ⟨fs', l, hf', hl, h⟩ := both (find_selectors hf)
    rw [hf] at hf'
    cases hf'
    exact ⟨l, hl, (h [] b).mpr hb⟩

mutual
theorem conf_iff : ∀ (t : Ty) (s : Shape), conf t s = true → ∀ b, Valid s b ↔ Lang t b
  | .prim n, s, h, b => by
    cases s <;> simp only [conf, Bool.false_eq_true, beq_iff_eq] at h
    subst h
    rw [lang_prim, Valid]
  | .unit, s, h, b => by cases s <;> simp [conf] at h
  | .bytes n, s, h, b => by
    cases s <;> simp only [conf, Bool.false_eq_true, beq_iff_eq] at h
    subst h
    rw [Valid]
    constructor
    · intro hb; exact ⟨.bytes b, by simpa only [WF] using hb, by rw [wire]⟩
    · rintro ⟨v, hv, rfl⟩
      cases v <;> simp only [WF] at hv
      rw [wire]; exact hv
  | .tpm2b n, s, h, b => by
    cases s <;> simp only [conf, Bool.false_eq_true, beq_iff_eq] at h
    subst h
    rw [lang_tpm2b, Valid]
  | .struct fs, s, h, b => by
    cases s <;> simp only [conf, Bool.false_eq_true] at h
    · exact confWrap_iff fs _ h b
    · rw [Valid, lang_struct]
      exact confRows_iff fs _ [] [] [] (by intro y k hy; cases hy) h b
  | .enum w vs, s, h, b => by
    match s, h with
    | .table (.row x (.uint m) r), h =>
      simp only [conf, Bool.and_eq_true, beq_iff_eq] at h
      obtain ⟨⟨⟨rfl, hu⟩, hcov⟩, hv⟩ := h
      rw [Valid, ValidRows, lang_enum]
      constructor
      · rintro ⟨c, d, rfl, hc, hd⟩
        rw [Valid] at hc
        refine ⟨c, d, rfl, hc, ?_⟩
        exact (variants_iff vs r x _ _ hu hcov (variant_both vs r _ hv) (by simp) d).mp hd
      · rintro ⟨c, d, rfl, hc, hd⟩
        refine ⟨c, d, rfl, by rw [Valid]; exact hc, ?_⟩
        exact (variants_iff vs r x _ _ hu hcov (variant_both vs r _ hv) (by simp) d).mpr hd
  | .split pre w mid vs, s, h, b => by
    match s, h with
    | .table (.row x t r), h =>
      simp only [conf] at h
      split at h
      · rename_i y _
        split at h
        · rename_i z m r' hpre
          split at h
          · rename_i u hmid
            simp only [Bool.and_eq_true, beq_iff_eq] at h
            obtain ⟨⟨⟨⟨rfl, rfl⟩, hu⟩, hcov⟩, hv⟩ := h
            rw [Valid, lang_split]
            have hIu : ∀ (e e' : List (String × Nat)) (d : Bytes),
                e.lookup z = e'.lookup z → ValidRows u e d → ValidRows u e' d :=
              fun e e' d he => unionsOn_lookup he hu
            have hmid' := fun e env b => plainRows_iff z mid r' u e env hmid hIu b
            have hIp : ∀ (e e' : List (String × Nat)) (d : Bytes),
                e.lookup z = e'.lookup z → ValidRows (.row z (.uint w) r') e d →
                ValidRows (.row z (.uint w) r') e' d := by
              intro e e' d _ hd
              rw [ValidRows] at hd ⊢
              obtain ⟨c, d, rfl, hc, hd⟩ := hd
              refine ⟨c, d, rfl, hc, ?_⟩
              obtain ⟨m, d, rfl, hm, hd⟩ := (hmid' _ [] _).mp hd
              exact (hmid' _ [] _).mpr ⟨m, d, rfl, hm, hIu _ _ _ (by simp) hd⟩
            rw [plainRows_iff z pre _ _ [] [] hpre hIp b]
            constructor
            · rintro ⟨p, d, rfl, hp, hd⟩
              rw [ValidRows] at hd
              obtain ⟨c, d, rfl, hc, hd⟩ := hd
              rw [Valid] at hc
              obtain ⟨m, d, rfl, hm, hd⟩ := (hmid' _ [] _).mp hd
              exact ⟨p, c, m, d, rfl, hp, hc, hm,
                (variants_iff vs u z _ _ hu hcov (variant_both vs u _ hv) (by simp) d).mp hd⟩
            · rintro ⟨p, c, m, d, rfl, hp, hc, hm, hd⟩
              refine ⟨p, _, rfl, hp, ?_⟩
              rw [ValidRows]
              refine ⟨c, _, rfl, by rw [Valid]; exact hc, ?_⟩
              exact (hmid' _ [] _).mpr ⟨m, d, rfl, hm,
                (variants_iff vs u z _ _ hu hcov (variant_both vs u _ hv) (by simp) d).mpr hd⟩
          · cases h
        · cases h
      · cases h
theorem confWrap_iff : ∀ (fs : Fields) (n : Nat), confWrap fs n = true →
    ∀ b, Valid (.uint n) b ↔ Lang (.struct fs) b
  | .plain t .nil, n, h, b => by
    rw [lang_wrap]
    exact conf_iff t _ (by simpa only [confWrap] using h) b
  | .nil, n, h, b => by simp [confWrap] at h
  | .plain t (.plain _ _), n, h, b => by simp [confWrap] at h
  | .plain t (.fixedArr _ _ _), n, h, b => by simp [confWrap] at h
  | .plain t (.lenArr _ _ _ _), n, h, b => by simp [confWrap] at h
  | .fixedArr _ _ _, n, h, b => by simp [confWrap] at h
  | .lenArr _ _ _ _, n, h, b => by simp [confWrap] at h
theorem confRows_iff : ∀ (fs : Fields) (r : Rows) (names : List (String × Option Nat))
    (e : List (String × Nat)) (env : List Nat), Agree names e env →
    confRows fs r names env.length = true → ∀ b, ValidRows r e b ↔ LangF fs env b
  | .nil, r, names, e, env, ha, h, b => by
    cases r <;> simp only [confRows, Bool.false_eq_true] at h
    rw [langF_nil, ValidRows]
  | .plain t f, r, names, e, env, ha, h, b => by
    cases r <;> simp only [confRows, Bool.false_eq_true, Bool.and_eq_true] at h
    rename_i y u r
    obtain ⟨h1, h2⟩ := h
    have ih := fun v (hv : WF t v) => confRows_iff f r (note t y env.length names)
      ((y, positional (wire t v)) :: e) (env ++ [asUsize v]) (agree_note ha hv)
      (by simpa only [List.length_append, List.length_singleton] using h2)
    rw [ValidRows, langF_plain]
    constructor
    · rintro ⟨c, d, rfl, hc, hd⟩
      obtain ⟨v, hv, rfl⟩ := (conf_iff t u h1 c).mp hc
      exact ⟨v, d, hv, rfl, (ih v hv d).mp hd⟩
    · rintro ⟨v, d, hv, rfl, hd⟩
      exact ⟨_, d, rfl, (conf_iff t u h1 _).mpr ⟨v, hv, rfl⟩, (ih v hv d).mpr hd⟩
  | .fixedArr t n f, r, names, e, env, ha, h, b => by cases r <;> simp [confRows] at h
  | .lenArr k t n f, r, names, e, env, ha, h, b => by
    cases r <;> simp only [confRows, Bool.false_eq_true, Bool.and_eq_true, beq_iff_eq] at h
    rename_i y u count max r
    obtain ⟨⟨⟨h1, rfl⟩, h2⟩, h3⟩ := h
    have ih := confRows_iff f r names e (env ++ [0]) (agree_snoc ha 0)
      (by simpa only [List.length_append, List.length_singleton] using h3)
    have hl := (ha count k h1).2
    rw [ValidRows, langF_lenArr]
    constructor
    · rintro ⟨m, hm, hle, es, d, rfl, hlen, hes, hd⟩
      rw [hl] at hm
      cases hm
      exact ⟨hle, es, d, rfl, hlen, fun x hx => (conf_iff t u h2 x).mp (hes x hx), (ih d).mp hd⟩
    · rintro ⟨hle, es, d, rfl, hlen, hes, hd⟩
      exact ⟨_, hl, hle, es, d, rfl, hlen, fun x hx => (conf_iff t u h2 x).mpr (hes x hx),
        (ih d).mpr hd⟩
theorem plainRows_iff : ∀ (x : String) (fs : Fields) (r r' : Rows) (e : List (String × Nat))
    (env : List Nat), plainRows x fs r = some r' →
    (∀ (e e' : List (String × Nat)) (d : Bytes),
      e.lookup x = e'.lookup x → ValidRows r' e d → ValidRows r' e' d) →
    ∀ b, ValidRows r e b ↔ ∃ c d, b = c ++ d ∧ LangF fs env c ∧ ValidRows r' e d
  | x, .nil, r, r', e, env, h, hI, b => by
    simp only [plainRows, Option.some.injEq] at h
    subst h
    constructor
    · intro hb; exact ⟨[], b, rfl, langF_nil.mpr rfl, hb⟩
    · rintro ⟨c, d, rfl, hc, hd⟩
      rw [langF_nil.mp hc]; exact hd
  | x, .plain t f, r, r', e, env, h, hI, b => by
    cases r <;> simp only [plainRows, reduceCtorEq] at h
    rename_i y u r
    split at h
    · rename_i hc
      simp only [Bool.and_eq_true, bne_iff_ne, ne_eq] at hc
      obtain ⟨hne, hconf⟩ := hc
      have hlook : ∀ n, ((y, n) :: e).lookup x = e.lookup x := by
        intro n
        have : (x == y) = false := by simpa using fun h : x = y => hne h.symm
        rw [List.lookup_cons, this]
      rw [ValidRows]
      constructor
      · rintro ⟨c, d, rfl, hc, hd⟩
        obtain ⟨v, hv, rfl⟩ := (conf_iff t u hconf c).mp hc
        obtain ⟨c', d', rfl, hc', hd'⟩ :=
          (plainRows_iff x f r r' _ (env ++ [asUsize v]) h hI d).mp hd
        exact ⟨wire t v ++ c', d', by simp, langF_plain.mpr ⟨v, c', hv, rfl, hc'⟩,
          hI _ _ _ (hlook _) hd'⟩
      · rintro ⟨c, d, rfl, hc, hd⟩
        obtain ⟨v, c', hv, rfl, hc'⟩ := langF_plain.mp hc
        refine ⟨wire t v, c' ++ d, by simp, (conf_iff t u hconf _).mpr ⟨v, hv, rfl⟩, ?_⟩
        exact (plainRows_iff x f r r' _ (env ++ [asUsize v]) h hI _).mpr
          ⟨c', d, rfl, hc', hI _ _ _ (hlook _).symm hd⟩
    · cases h
  | x, .fixedArr t n f, r, r', e, env, h, hI, b => by cases r <;> simp [plainRows] at h
  | x, .lenArr k t n f, r, r', e, env, h, hI, b => by cases r <;> simp [plainRows] at h
theorem variant_both : ∀ (vs : Variants) (r : Rows) (s : Nat), confVariants vs r = true →
    s ∈ vs.selectors → ∃ fs l, vs.find s = some fs ∧ choose s r = some l ∧
      ∀ env b, ValidList l b ↔ LangF fs env b
  | .nil, r, s, h, hs => by simp [Variants.selectors] at hs
  | .cons s' fs rest, r, s, h, hs => by
    simp only [confVariants, Bool.and_eq_true] at h
    simp only [Variants.selectors, List.mem_cons] at hs
    simp only [Variants.find]
    by_cases hss : s = s'
    · subst hss
      rcases hc : choose s r with _ | l
      · rw [hc] at h; simp at h
      · rw [hc] at h
        exact ⟨fs, l, by simp, rfl, confList_iff fs l h.1⟩
    · rw [if_neg hss]
      exact variant_both rest r s h.2 (hs.resolve_left hss)
theorem confList_iff : ∀ (fs : Fields) (l : List Shape), confList fs l = true →
    ∀ env b, ValidList l b ↔ LangF fs env b
  | .nil, l, h, env, b => by
    cases l <;> simp only [confList, Bool.false_eq_true] at h
    rw [langF_nil, ValidList]
  | .plain t f, l, h, env, b => by
    cases l <;> simp only [confList, Bool.false_eq_true, Bool.and_eq_true] at h
    rename_i u l
    rw [langF_plain, ValidList]
    constructor
    · rintro ⟨c, d, rfl, hc, hd⟩
      obtain ⟨v, hv, rfl⟩ := (conf_iff t u h.1 c).mp hc
      exact ⟨v, d, hv, rfl, (confList_iff f l h.2 _ d).mp hd⟩
    · rintro ⟨v, d, hv, rfl, hd⟩
      exact ⟨_, d, rfl, (conf_iff t u h.1 _).mpr ⟨v, hv, rfl⟩, (confList_iff f l h.2 _ d).mpr hd⟩
  | .fixedArr t n f, l, h, env, b => by cases l <;> simp [confList] at h
  | .lenArr k t n f, l, h, env, b => by cases l <;> simp [confList] at h
end

/-- Unmarshalling accepts exactly the encodings. -/
theorem accepts_iff (t : Ty) (b : Bytes) : (∃ v, unmarshal t b = (.ok v, [])) ↔ Lang t b := by
  constructor
  · rintro ⟨v, h⟩
    obtain ⟨h1, -, h3⟩ := (goodTy t).sound _ _ _ h
    exact ⟨v, h1, by simpa using h3.symm⟩
  · rintro ⟨v, h, rfl⟩
    exact ⟨_, by simpa using (goodTy t).complete v [] h⟩

end Verif.Tcg
