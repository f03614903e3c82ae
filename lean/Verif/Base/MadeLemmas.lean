import Verif.Base.Made
import Verif.Codec.Unmarshal
import Verif.Codec.Marshal
import Verif.Codec.MarshalAny

/-! Helper lemmas for C82. -/

namespace Verif.Base
open Verif Verif.Errors

theorem map_eq_self {α : Type} (f : α → α) : ∀ l : List α, l.map f = l ↔ ∀ x ∈ l, f x = x
  | [] => by simp
  | a :: l => by simp [map_eq_self f l]

theorem append_pad_iff {α : Type} (l : List α) (f : α → α) (d : α) (k n : Nat) (hl : l.length = n)
    (hk : k ≤ n) :
    (l.take k).map f ++ List.replicate (n - k) d = l ↔
      (∀ x ∈ l.take k, f x = x) ∧ ∀ x ∈ l.drop k, x = d := by
  constructor
  · intro h
    have h0 : (l.take k).map f ++ List.replicate (n - k) d = l.take k ++ l.drop k := by
      rw [List.take_append_drop]; exact h
    obtain ⟨h1, h2⟩ := List.append_inj h0 (by simp)
    refine ⟨(map_eq_self f _).1 h1, fun x hx => ?_⟩
    rw [← h2] at hx
    exact (List.mem_replicate.1 hx).2
  · rintro ⟨h1, h2⟩
    rw [(map_eq_self f _).2 h1]
    have : l.drop k = List.replicate (n - k) d := by
      rw [List.eq_replicate_iff]
      exact ⟨by rw [List.length_drop, hl], h2⟩
    rw [← this, List.take_append_drop]

mutual
/-- A clean value is its own canonical form, and conversely. -/
theorem canon_iff : ∀ (t : Ty) (v : Val), WF t v → (canon t v = v ↔ Clean t v)
  | .prim n, v, h => by cases v <;> simp [canon, Clean]
  | .unit, v, h => by cases v <;> simp [canon, Clean]
  | .bytes m, v, h => by cases v <;> simp [canon, Clean]
  | .tpm2b cap, v, h => by
    cases v <;> simp only [WF] at h
    rename_i size b
    simp only [canon, Val.tpm2b.injEq, true_and, Clean]
    have := append_pad_iff b id (0 : UInt8) size cap h.2.1 h.2.2
    simp only [List.map_id, id_eq, implies_true, true_and] at this
    exact this
  | .struct fs, v, h => by
    cases v <;> simp only [WF] at h
    simp only [canon, Val.struct.injEq, Clean]
    exact canonFields_iff fs [] _ h
  | .enum w vs, v, h => by
    cases v <;> simp only [WF] at h
    simp only [canon, Val.enum.injEq, true_and, Clean]
    exact canonVariant_iff vs _ _ h.2
  | .split pre w mid vs, v, h => by
    cases v <;> simp only [WF] at h
    simp only [canon, Val.split.injEq, true_and, Clean]
    rw [canonFields_iff pre [] _ h.1, canonFields_iff mid [] _ h.2.1, canonVariant_iff vs _ _ h.2.2.2]
/-- The same for field lists. -/
theorem canonFields_iff : ∀ (fs : Fields) (env : List Nat) (vs : List Val), WFFields fs env vs →
    (canonFields fs env vs = vs ↔ CleanFields fs env vs)
  | .nil, env, vs, h => by cases vs <;> simp [canonFields, CleanFields]
  | .plain t r, env, [], h => by simp [WFFields] at h
  | .plain t r, env, v :: vs, h => by
    simp only [WFFields] at h
    simp only [canonFields, List.cons.injEq, CleanFields]
    rw [canon_iff t v h.1, canonFields_iff r _ vs h.2]
  | .fixedArr t n r, env, [], h => by simp [WFFields] at h
  | .fixedArr t n r, env, v :: vs, h => by
    cases v <;> simp only [WFFields] at h
    simp only [canonFields, List.cons.injEq, Val.arr.injEq, CleanFields, map_eq_self]
    rw [canonFields_iff r _ vs h.2.2]
    exact and_congr_left' (forall₂_congr fun e he => canon_iff t e (h.2.1 e he))
  | .lenArr k t n r, env, [], h => by simp [WFFields] at h
  | .lenArr k t n r, env, v :: vs, h => by
    cases v <;> simp only [WFFields] at h
    rename_i es
    simp only [canonFields, List.cons.injEq, Val.arr.injEq, CleanFields]
    rw [canonFields_iff r _ vs h.2.2.2, append_pad_iff es _ _ _ n h.1 h.2.1, and_assoc]
    exact and_congr_left' (forall₂_congr fun e he => canon_iff t e (h.2.2.1 e he))
/-- The same for variant data. -/
theorem canonVariant_iff : ∀ (vs : Variants) (sel : Nat) (fvs : List Val), WFVariant vs sel fvs →
    (canonVariant vs sel fvs = fvs ↔ CleanVariant vs sel fvs)
  | .nil, sel, fvs, h => by simp [canonVariant, CleanVariant]
  | .cons s fs rest, sel, fvs, h => by
    simp only [WFVariant] at h
    simp only [canonVariant, CleanVariant]
    split
    · rename_i hs
      rw [if_pos hs] at h
      exact canonFields_iff fs [] fvs h
    · rename_i hs
      rw [if_neg hs] at h
      exact canonVariant_iff rest sel fvs h
end

/-! ### Defaults -/

theorem default_asUsize (t : Ty) : asUsize t.default = 0 := by
  cases t <;> simp [Ty.default, asUsize]

theorem getD_zeros (env : List Nat) (h : ∀ x ∈ env, x = 0) (k : Nat) : env.getD k 0 = 0 := by
  rw [List.getD_eq_getElem?_getD]
  rcases hk : env[k]? with _ | x
  · rfl
  · exact h x (List.mem_of_getElem? hk)

theorem zeros_append {env : List Nat} (h : ∀ x ∈ env, x = 0) : ∀ x ∈ env ++ [0], x = 0 := by
  intro x hx
  rcases List.mem_append.1 hx with hx | hx
  · exact h x hx
  · simpa using hx

mutual
theorem default_good : ∀ t : Ty, declares t = true → WF t t.default ∧ Clean t t.default
  | .prim n, _ => by simp [Ty.default, WF, Clean, Nat.pos_of_ne_zero]
  | .unit, _ => by simp [Ty.default, WF, Clean]
  | .bytes m, _ => by simp [Ty.default, WF, Clean]
  | .tpm2b cap, _ => by
    refine ⟨by simp [Ty.default, WF], ?_⟩
    simp only [Ty.default, Clean, List.drop_zero]
    exact fun x hx => (List.mem_replicate.1 hx).2
  | .struct fs, h => by
    simp only [declares] at h
    exact defaultFields_good fs [] (by simp) h
  | .enum w vs, h => by
    simp only [declares] at h
    cases vs with
    | nil => simp [declaresVariants] at h
    | cons s fs rest =>
      simp only [declaresVariants, Bool.and_eq_true, decide_eq_true_eq] at h
      have := defaultFields_good fs [] (by simp) h.2
      simp only [Ty.default, Variants.default, Variants.defaultSel, WF, Clean, WFVariant,
        CleanVariant, if_true]
      exact ⟨⟨h.1, this.1⟩, this.2⟩
  | .split pre w mid vs, h => by
    simp only [declares, Bool.and_eq_true, and_assoc] at h
    have h1 := defaultFields_good pre [] (by simp) h.1
    have h2 := defaultFields_good mid [] (by simp) h.2.1
    cases vs with
    | nil => simp [declaresVariants] at h
    | cons s fs rest =>
      have h3 := h.2.2
      simp only [declaresVariants, Bool.and_eq_true, decide_eq_true_eq] at h3
      have := defaultFields_good fs [] (by simp) h3.2
      simp only [Ty.default, Variants.default, Variants.defaultSel, WF, Clean, WFVariant,
        CleanVariant, if_true]
      exact ⟨⟨h1.1, h2.1, h3.1, this.1⟩, h1.2, h2.2, this.2⟩
theorem defaultFields_good : ∀ (fs : Fields) (env : List Nat), (∀ x ∈ env, x = 0) →
    declaresFields fs = true → WFFields fs env fs.default ∧ CleanFields fs env fs.default
  | .nil, env, _, _ => by simp [Fields.default, WFFields, CleanFields]
  | .plain t r, env, he, h => by
    simp only [declaresFields, Bool.and_eq_true] at h
    have h1 := default_good t h.1
    have h2 := defaultFields_good r (env ++ [0]) (zeros_append he) h.2
    simp only [Fields.default, WFFields, CleanFields, default_asUsize]
    exact ⟨⟨h1.1, h2.1⟩, h1.2, h2.2⟩
  | .fixedArr t n r, env, he, h => by
    simp only [declaresFields, Bool.and_eq_true] at h
    have h1 := default_good t h.1
    have h2 := defaultFields_good r (env ++ [0]) (zeros_append he) h.2
    simp only [Fields.default, WFFields, CleanFields, List.length_replicate, true_and]
    refine ⟨⟨fun e h => ?_, h2.1⟩, fun e h => ?_, h2.2⟩
    · rw [(List.mem_replicate.1 h).2]; exact h1.1
    · rw [(List.mem_replicate.1 h).2]; exact h1.2
  | .lenArr k t n r, env, he, h => by
    simp only [declaresFields, Bool.and_eq_true] at h
    have h2 := defaultFields_good r (env ++ [0]) (zeros_append he) h.2
    simp only [Fields.default, WFFields, CleanFields, List.length_replicate, true_and,
      getD_zeros env he, List.take_zero, List.drop_zero]
    refine ⟨⟨Nat.zero_le _, by simp, h2.1⟩, by simp, fun e h => (List.mem_replicate.1 h).2, h2.2⟩
end

/-! ### Made values -/

/-- Being well-formed and clean. -/
def Good (t : Ty) (v : Val) : Prop := WF t v ∧ Clean t v

theorem good_of_unmarshal {t : Ty} {b r : Bytes} {v : Val} (h : unmarshal t b = (.ok v, r)) :
    Good t v := by
  obtain ⟨h1, h2, -⟩ := (goodTy t).sound _ _ _ h
  exact ⟨h1, (canon_iff t v h1).1 h2⟩

theorem find_wf : ∀ (vs : Variants) (sel : Nat) (fs : Fields) (fvs : List Val),
    vs.find sel = some fs → WFFields fs [] fvs ∧ CleanFields fs [] fvs →
    WFVariant vs sel fvs ∧ CleanVariant vs sel fvs
  | .nil, sel, fs, fvs, h, _ => by simp [Variants.find] at h
  | .cons s gs rest, sel, fs, fvs, h, hg => by
    simp only [Variants.find] at h
    simp only [WFVariant, CleanVariant]
    split at h
    · rename_i hs
      simp only [Option.some.injEq] at h
      subst h
      simpa [hs] using hg
    · rename_i hs
      simp only [hs, if_false]
      exact find_wf rest sel fs fvs h hg

theorem good_fromBytes {cap : Nat} {b : Bytes} {v : Val} (h : tpm2bFromBytes cap b = .ok v) :
    Good (.tpm2b cap) v := by
  unfold tpm2bFromBytes at h
  split at h
  · simp at h
  · rename_i hl
    simp only [copyPrefix, List.length_replicate] at h
    rw [if_pos ⟨by omega, trivial⟩] at h
    simp only [Res.ok.injEq] at h
    rw [Nat.mod_eq_of_lt (by omega)] at h
    subst h
    refine ⟨by simp [WF]; omega, ?_⟩
    simp only [Clean]
    rw [List.drop_left]
    intro x hx
    rw [List.drop_replicate] at hx
    exact (List.mem_replicate.1 hx).2

theorem good_fromStruct {cap : Nat} {t : Ty} {v w : Val} (hc : cap < 65536) (hv : HasTy t v)
    (h : tpm2bFromStruct cap t v = .ok w) : Good (.tpm2b cap) w := by
  unfold tpm2bFromStruct at h
  rcases hm : marshal t v (List.replicate cap 0) with ⟨n | _ | _, field⟩ <;> rw [hm] at h <;>
    simp only [Res.ok.injEq, reduceCtorEq] at h
  have hwf := marshal_ok_wf t v (List.replicate cap 0) n hv (by rw [hm])
  have hlen := marshal_len t v (List.replicate cap 0)
  rw [hm, List.length_replicate] at hlen
  by_cases hl : (wire t v).length ≤ cap
  · have hf := (writesTy t v hwf).fit (List.replicate cap 0) (by simpa using hl)
    rw [hm] at hf
    simp only [Prod.mk.injEq, Res.ok.injEq] at hf
    obtain ⟨rfl, rfl⟩ := hf
    rw [Nat.mod_eq_of_lt (by omega)] at h
    subst h
    refine ⟨?_, ?_⟩
    · simp only [WF]
      exact ⟨by omega, hlen, hl⟩
    · simp only [Clean]
      rw [List.drop_left]
      intro x hx
      rw [List.drop_replicate] at hx
      exact (List.mem_replicate.1 hx).2
  · rcases (writesTy t v hwf).short (List.replicate cap 0) (by simpa using hl) with h | ⟨-, h⟩ <;>
      rw [hm] at h <;> simp at h

theorem tpml_good_iff (t : Ty) (n : Nat) (v : Val) :
    Good (tpml t n) v ↔ ∃ count list, v = .struct [.int count, .arr list] ∧ count < 2 ^ 32 ∧
      list.length = n ∧ count ≤ n ∧ (∀ e ∈ list.take count, Good t e) ∧
      ∀ e ∈ list.drop count, e = t.default := by
  constructor
  · rintro ⟨h1, h2⟩
    cases v <;> simp only [tpml, WF] at h1
    rename_i vs
    rcases vs with _ | ⟨v1, _ | ⟨v2, _ | ⟨v3, vs⟩⟩⟩
    · simp only [WFFields] at h1
    · simp only [WFFields, and_false] at h1
    · cases v2 <;> simp only [WFFields, and_false] at h1
      cases v1 <;> simp only [WF, false_and] at h1
      rename_i list count
      simp only [tpml, Clean, CleanFields, true_and, asUsize, List.nil_append] at h2
      simp only [asUsize, List.nil_append] at h1
      simp only [List.getD_cons_zero] at h1 h2
      exact ⟨count, list, rfl, by simpa using h1.1, h1.2.1, h1.2.2.1,
        fun e he => ⟨h1.2.2.2.1 e he, h2.1 e he⟩, h2.2.1⟩
    · cases v2 <;> simp only [WFFields, and_false] at h1
  · rintro ⟨count, list, rfl, h1, h2, h3, h4, h5⟩
    simp only [Good, tpml, WF, WFFields, Clean, CleanFields, asUsize, List.nil_append,
      List.getD_cons_zero, true_and, and_true]
    exact ⟨⟨by simpa using h1, h2, h3, fun e he => (h4 e he).1⟩, fun e he => (h4 e he).2, h5⟩

theorem good_listNew {t : Ty} {n : Nat} {es : List Val} {v : Val} (hn : n < 2 ^ 32)
    (he : ∀ e ∈ es, Good t e) (h : tpmlNew t n es = .ok v) : Good (tpml t n) v := by
  unfold tpmlNew at h
  split at h
  · simp at h
  · rename_i hl
    simp only [List.length_replicate] at h
    rw [if_pos (by omega), Nat.mod_eq_of_lt (by omega)] at h
    simp only [Res.ok.injEq] at h
    subst h
    refine (tpml_good_iff t n _).2 ⟨es.length, _, rfl, by omega, by simp; omega, by omega, ?_, ?_⟩
    · rw [List.take_left]; exact he
    · rw [List.drop_left, List.drop_replicate]
      exact fun e he => (List.mem_replicate.1 he).2

theorem good_listAdd {t : Ty} {n : Nat} {v e w : Val} (hv : Good (tpml t n) v) (he : Good t e)
    (h : tpmlAdd v e = (.ok (), w)) : Good (tpml t n) w := by
  obtain ⟨count, list, rfl, h1, h2, h3, h4, h5⟩ := (tpml_good_iff t n v).1 hv
  simp only [tpmlAdd] at h
  split at h
  · simp at h
  · rename_i hc
    rw [if_pos (by omega)] at h
    split at h
    · rename_i hc2
      simp only [Prod.mk.injEq, true_and] at h
      subst h
      refine (tpml_good_iff t n _).2 ⟨count + 1, _, rfl, hc2, by simpa using h2, by omega, ?_, ?_⟩
      · intro x hx
        rw [List.take_set, List.mem_iff_getElem?] at hx
        obtain ⟨i, hi⟩ := hx
        rw [List.getElem?_set] at hi
        split at hi
        · split at hi
          · simp only [Option.some.injEq] at hi
            subst hi
            exact he
          · simp at hi
        · rename_i hne
          rw [List.getElem?_take] at hi
          split at hi
          · refine h4 x (List.mem_iff_getElem?.2 ⟨i, ?_⟩)
            rw [List.getElem?_take, if_pos (by omega)]
            exact hi
          · simp at hi
      · intro x hx
        rw [List.drop_set, if_pos (by omega)] at hx
        refine h5 x ?_
        rw [← List.drop_drop] at hx
        exact List.mem_of_mem_drop hx
    · simp at h

mutual
theorem made_good : ∀ {t : Ty} {v : Val}, Made t v → Good t v
  | _, _, .int n x h => ⟨by simpa [WF] using h, by simp [Clean]⟩
  | _, _, .unit => ⟨by simp [WF], by simp [Clean]⟩
  | _, _, .bytes m b h => ⟨by simpa [WF] using h, by simp [Clean]⟩
  | _, _, .struct fs vs h => by
    simp only [Good, WF, Clean]
    exact madeFields_good h
  | _, _, .enum w vs sel fs fvs hs hf h => by
    simp only [Good, WF, Clean]
    have := find_wf vs sel fs fvs hf (madeFields_good h)
    exact ⟨⟨hs, this.1⟩, this.2⟩
  | _, _, .split pre w mid vs pvs mvs sel fs fvs hp hm hs hf h => by
    simp only [Good, WF, Clean]
    have h1 := madeFields_good hp
    have h2 := madeFields_good hm
    have := find_wf vs sel fs fvs hf (madeFields_good h)
    exact ⟨⟨h1.1, h2.1, hs, this.1⟩, h1.2, h2.2, this.2⟩
  | _, _, .default t h => default_good t h
  | _, _, .decoded t b r v h => good_of_unmarshal h
  | _, _, .fromBytes cap b v h => good_fromBytes h
  | _, _, .fromStruct cap t v w hc hv h => good_fromStruct hc hv h
  | _, _, .toStruct t o v h => by
    unfold tpm2bToStruct at h
    rcases hb : tpm2bGetBuffer o with b | _ | _ <;> rw [hb] at h <;> simp [Res.bind] at h
    exact good_of_unmarshal (r := (unmarshal t b).2) (Prod.ext h rfl)
  | _, _, .listNew t n es v hn he h => good_listNew hn (fun e hm => made_good (he e hm)) h
  | _, _, .listAdd t n v e w hv he h => good_listAdd (made_good hv) (made_good he) h
theorem madeFields_good : ∀ {fs : Fields} {env : List Nat} {vs : List Val}, MadeFields fs env vs →
    WFFields fs env vs ∧ CleanFields fs env vs
  | _, _, _, .nil env => by simp [WFFields, CleanFields]
  | _, _, _, .plain t r env v vs hv h => by
    have h1 := made_good hv
    have h2 := madeFields_good h
    simp only [WFFields, CleanFields]
    exact ⟨⟨h1.1, h2.1⟩, h1.2, h2.2⟩
  | _, _, _, .fixedArr t n r env es vs hn he h => by
    have h2 := madeFields_good h
    simp only [WFFields, CleanFields]
    exact ⟨⟨hn, fun e hm => (made_good (he e hm)).1, h2.1⟩, fun e hm => (made_good (he e hm)).2, h2.2⟩
  | _, _, _, .lenArr k t n r env es vs hk hn he h => by
    have h2 := madeFields_good h
    simp only [WFFields, CleanFields, hk, List.take_left, List.drop_left]
    exact ⟨⟨by simp; omega, hn, fun e hm => (made_good (he e hm)).1, h2.1⟩,
      fun e hm => (made_good (he e hm)).2, fun e hm => (List.mem_replicate.1 hm).2, h2.2⟩
end

end Verif.Base
