import Verif.Codec.OwnLemmas

/-! Helper lemmas for C112: reading with parts of any kind. -/

namespace Verif.Own
open Verif

variable {X : Type}

theorem prim_ok {w : Nat} (d b : Bytes) (h : d.length = w) :
    unmarshalPrim w (d ++ b) = (.ok (positional d), b) := by
  have h1 := (goodPrim w).complete (positional d) b (by subst h; exact positional_lt d)
  have h2 : digits256 w (positional d) = d := by subst h; exact digits256_positional d
  rw [h2] at h1
  exact h1

theorem prim_short {w : Nat} (b : Bytes) (h : b.length < w) :
    unmarshalPrim w b = (.err .unexpectedEndOfBuffer, b) := by
  simp [unmarshalPrim, unmarshalBytes, bufGet, UM.bind_eq, UM.fail, h]

theorem prim_cases (w : Nat) (b : Bytes) :
    (∃ d r, d.length = w ∧ b = d ++ r) ∨ b.length < w := by
  by_cases h : b.length < w
  · exact Or.inr h
  · exact Or.inl ⟨b.take w, b.drop w, by simp; omega, by simp⟩

theorem res_of {α : Type} {o : Res MErr α} (h : ∀ v, o ≠ .ok v) : ∃ h : Halt, o = h.res := by
  cases o with
  | ok v => exact absurd rfl (h v)
  | err e => exact ⟨some e, rfl⟩
  | panic => exact ⟨none, rfl⟩

theorem res_ne {α : Type} (h : Halt) (v : α) : h.res ≠ Res.ok v := by
  cases h <;> simp [Halt.res]

theorem res_inj {α : Type} {h h' : Halt} (e : (h.res : Res MErr α) = h'.res) : h = h' := by
  cases h <;> cases h' <;> simp_all [Halt.res]

theorem bind_halt {α β : Type} {u : UM α} {f : α → UM β} {b r : Bytes} {h : Halt}
    (e : u b = (h.res, r)) : (u >>= f) b = (h.res, r) := by
  cases h <;> simp [UM.bind_eq, e, Halt.res]

theorem bind_ok {α β : Type} {u : UM α} {f : α → UM β} {b r : Bytes} {a : α}
    (e : u b = (.ok a, r)) : (u >>= f) b = f a r := by
  simp [UM.bind_eq, e]

/-- One of the two descriptions holds. -/
def Ans {α : Type} (u : UM α) (b : Bytes) (R : α → Bytes → Prop) (S : Halt → Bytes → Prop) : Prop :=
  (∃ v r, u b = (.ok v, r) ∧ R v r) ∨ ∃ h r, u b = (h.res, r) ∧ S h r

theorem Ans.of {α : Type} (u : UM α) (b : Bytes) {R : α → Bytes → Prop} {S : Halt → Bytes → Prop}
    (hR : ∀ v r, u b = (.ok v, r) → R v r) (hS : ∀ h r, u b = (Halt.res h, r) → S h r) : Ans u b R S := by
  rcases hub : u b with ⟨o, r⟩
  by_cases ho : ∃ v, o = .ok v
  · obtain ⟨v, rfl⟩ := ho
    exact Or.inl ⟨v, r, hub, hR v r hub⟩
  · obtain ⟨h, rfl⟩ := res_of (fun v hv => ho ⟨v, hv⟩)
    exact Or.inr ⟨h, r, hub, hS h r hub⟩

theorem Ans.bind {α β : Type} {u : UM α} {f : α → UM β} {b : Bytes}
    {R : α → Bytes → Prop} {S : Halt → Bytes → Prop} {R' : β → Bytes → Prop} {S' : Halt → Bytes → Prop}
    (hu : Ans u b R S) (hf : ∀ a r, R a r → Ans (f a) r R' S') (hs : ∀ h r, S h r → S' h r) :
    Ans (u >>= f) b R' S' := by
  rcases hu with ⟨v, r, e, h⟩ | ⟨h, r, e, hh⟩
  · unfold Ans
    rw [bind_ok e]
    exact hf v r h
  · exact Or.inr ⟨h, r, bind_halt e, hs h r hh⟩

theorem Ans.pure {α : Type} {a : α} {b : Bytes} {R : α → Bytes → Prop} {S : Halt → Bytes → Prop}
    (h : R a b) : Ans (Pure.pure a) b R S := Or.inl ⟨a, b, rfl, h⟩

theorem ansAll {t : Ty X} (h : ∀ b, Ans (unmarshal t) b (Reads t b) (Stops t b)) : ∀ n b,
    Ans (unmarshalLoop (unmarshal t) n) b (ReadsAll t n b) (StopsAll t n b)
  | 0, b => Ans.pure .nil
  | n + 1, b => by
    unfold unmarshalLoop
    refine Ans.bind (h b) (fun v b' h1 => ?_) (fun h r hs => .here hs)
    refine Ans.bind (ansAll h n b') (fun vs r h2 => ?_) (fun h r hs => .there h1 hs)
    exact Ans.pure (.cons h1 h2)

mutual
theorem ansTy : ∀ (t : Ty X) (b : Bytes), Ans (unmarshal t) b (Reads t b) (Stops t b)
  | .std t, b => by
    unfold unmarshal
    refine Ans.bind (Ans.of _ b (fun v r h => h) (fun h r e => e)) (fun v r h => ?_) (fun h r e => .std e)
    exact Ans.pure (.std h)
  | .own p, b => by
    unfold unmarshal
    refine Ans.bind (Ans.of _ b (fun v r h => h) (fun h r e => e)) (fun v r h => ?_) (fun h r e => .own e)
    exact Ans.pure (.own h)
  | .struct fs, b => by
    unfold unmarshal
    refine Ans.bind (ansFields fs [] b) (fun v r h => ?_) (fun h r e => .struct e)
    exact Ans.pure (.struct h)
  | .enum w vs, b => by
    unfold unmarshal
    rcases prim_cases w b with ⟨d, r, hd, rfl⟩ | hb
    · have e := prim_ok d r hd
      unfold Ans
      rw [bind_ok e]
      rcases ansVariant vs (positional d) r with ⟨fs, hs, h⟩ | ⟨hs, h⟩
      · exact Ans.bind h (fun fvs r h => Ans.pure (.enum d hd hs h)) (fun h r e => .enum d hd hs e)
      · refine Or.inr ⟨some .unknownSelector, r, ?_, .unknown d hd hs⟩
        exact bind_halt (h := some .unknownSelector) h
    · refine Or.inr ⟨some .unexpectedEndOfBuffer, b, ?_, .short hb⟩
      exact bind_halt (h := some .unexpectedEndOfBuffer) (prim_short b hb)
theorem ansFields : ∀ (fs : Fields X) (env : List Nat) (b : Bytes),
    Ans (unmarshalFields fs env) b (ReadsFields fs env b) (StopsFields fs env b)
  | .nil, env, b => by
    unfold unmarshalFields
    exact Ans.pure .nil
  | .plain t rest, env, b => by
    unfold unmarshalFields
    refine Ans.bind (ansTy t b) (fun v b' h1 => ?_) (fun h r e => .here e)
    refine Ans.bind (ansFields rest _ b') (fun vs r h2 => ?_) (fun h r e => .there h1 e)
    exact Ans.pure (.plain h1 h2)
  | .fixedArr t n rest, env, b => by
    unfold unmarshalFields
    refine Ans.bind (ansAll (ansTy t) n b) (fun v b' h1 => ?_) (fun h r e => .fixedHere e)
    refine Ans.bind (ansFields rest _ b') (fun vs r h2 => ?_) (fun h r e => .fixedThere h1 e)
    have : v ++ (List.replicate n t.default).drop n = v := by simp
    rw [this]
    exact Ans.pure (.fixedArr h1 h2)
  | .lenArr k t n rest, env, b => by
    unfold unmarshalFields
    simp only
    by_cases hk : env.getD k 0 > n
    · rw [if_pos hk]
      exact Or.inr ⟨some .arrayLengthExceeded, b, rfl, .long hk⟩
    · rw [if_neg hk]
      have hk : env.getD k 0 ≤ n := Nat.not_lt.mp hk
      refine Ans.bind (ansAll (ansTy t) _ b) (fun v b' h1 => ?_) (fun h r e => .lenHere hk e)
      refine Ans.bind (ansFields rest _ b') (fun vs r h2 => ?_) (fun h r e => .lenThere hk h1 e)
      rw [List.drop_replicate]
      exact Ans.pure (.lenArr hk h1 h2)
theorem ansVariant : ∀ (vs : Variants X) (sel : Nat) (b : Bytes),
    (∃ fs, Selects vs sel fs ∧
      Ans (unmarshalVariant vs sel) b (ReadsFields fs [] b) (StopsFields fs [] b)) ∨
    ((∀ fs, ¬ Selects vs sel fs) ∧ unmarshalVariant vs sel b = (.err .unknownSelector, b))
  | .nil, sel, b => by
    right
    refine ⟨fun fs h => (by cases h), ?_⟩
    unfold unmarshalVariant
    rfl
  | .cons s fs rest, sel, b => by
    unfold unmarshalVariant
    by_cases h : sel = s
    · subst h
      rw [if_pos rfl]
      exact Or.inl ⟨fs, .here, ansFields fs [] b⟩
    · rw [if_neg h]
      rcases ansVariant rest sel b with ⟨fs', hs, ha⟩ | ⟨hs, ha⟩
      · exact Or.inl ⟨fs', .there h hs, ha⟩
      · refine Or.inr ⟨fun fs' hh => ?_, ha⟩
        cases hh with
        | here => exact h rfl
        | there _ h2 => exact hs _ h2
end

theorem readsAll_sound {t : Ty X} (h : ∀ b v r, Reads t b v r → unmarshal t b = (.ok v, r)) :
    ∀ n b es r, ReadsAll t n b es r →
      es.length = n ∧ unmarshalLoop (unmarshal t) n b = (.ok es, r)
  | 0, b, es, r, hr => by cases hr; exact ⟨rfl, rfl⟩
  | n + 1, b, es, r, hr => by
    cases hr with
    | cons h1 h2 =>
      obtain ⟨h3, h4⟩ := readsAll_sound h n _ _ _ h2
      refine ⟨by simp [h3], ?_⟩
      unfold unmarshalLoop
      rw [bind_ok (h _ _ _ h1), bind_ok h4]
      rfl

mutual
theorem reads_sound : ∀ (t : Ty X) (b : Bytes) (v : Val X) (r : Bytes), Reads t b v r →
    unmarshal t b = (.ok v, r)
  | .std t, b, v, r, h => by
    cases h with
    | std h => unfold unmarshal; rw [bind_ok h]; rfl
  | .own p, b, v, r, h => by
    cases h with
    | own h => unfold unmarshal; rw [bind_ok h]; rfl
  | .struct fs, b, v, r, h => by
    cases h with
    | struct h => unfold unmarshal; rw [bind_ok (readsFields_sound fs [] _ _ _ h)]; rfl
  | .enum w vs, b, v, r, h => by
    cases h with
    | enum d hd hs hf =>
      unfold unmarshal
      rw [bind_ok (prim_ok d _ hd), bind_ok (readsVariant_sound vs _ _ _ _ _ hs hf)]
      rfl
theorem readsFields_sound : ∀ (fs : Fields X) (env : List Nat) (b : Bytes) (vs : List (Val X)) (r : Bytes),
    ReadsFields fs env b vs r → unmarshalFields fs env b = (.ok vs, r)
  | .nil, env, b, vs, r, h => by
    cases h; unfold unmarshalFields; rfl
  | .plain t rest, env, b, vs, r, h => by
    cases h with
    | plain h1 h2 =>
      unfold unmarshalFields
      rw [bind_ok (reads_sound t _ _ _ h1), bind_ok (readsFields_sound rest _ _ _ _ h2)]
      rfl
  | .fixedArr t n rest, env, b, vs, r, h => by
    cases h with
    | fixedArr h1 h2 =>
      unfold unmarshalFields
      rw [bind_ok (readsAll_sound (reads_sound t) _ _ _ _ h1).2,
        bind_ok (readsFields_sound rest _ _ _ _ h2)]
      simp [UM.pure_eq]
  | .lenArr k t n rest, env, b, vs, r, h => by
    cases h with
    | lenArr hk h1 h2 =>
      unfold unmarshalFields
      simp only
      rw [if_neg (by omega), bind_ok (readsAll_sound (reads_sound t) _ _ _ _ h1).2,
        bind_ok (readsFields_sound rest _ _ _ _ h2)]
      simp [UM.pure_eq]
theorem readsVariant_sound : ∀ (vs : Variants X) (sel : Nat) (fs : Fields X) (b : Bytes)
    (fvs : List (Val X)) (r : Bytes), Selects vs sel fs → ReadsFields fs [] b fvs r →
    unmarshalVariant vs sel b = (.ok fvs, r)
  | .nil, _, _, _, _, _, hs, _ => by cases hs
  | .cons s fs rest, sel, fs', b, fvs, r, hs, h => by
    unfold unmarshalVariant
    cases hs with
    | here => rw [if_pos rfl]; exact readsFields_sound fs _ _ _ _ h
    | there hn h2 => rw [if_neg hn]; exact readsVariant_sound rest _ _ _ _ _ h2 h
end

theorem stopsAll_sound {t : Ty X} (hr : ∀ b v r, Reads t b v r → unmarshal t b = (.ok v, r))
    (hs : ∀ b h r, Stops t b h r → unmarshal t b = (Halt.res h, r)) :
    ∀ n b h r, StopsAll t n b h r → unmarshalLoop (unmarshal t) n b = (Halt.res h, r)
  | 0, b, h, r, hh => by cases hh
  | n + 1, b, h, r, hh => by
    unfold unmarshalLoop
    cases hh with
    | here h1 => exact bind_halt (hs _ _ _ h1)
    | there h1 h2 =>
      rw [bind_ok (hr _ _ _ h1)]
      exact bind_halt (stopsAll_sound hr hs n _ _ _ h2)

mutual
theorem stops_sound : ∀ (t : Ty X) (b : Bytes) (h : Halt) (r : Bytes), Stops t b h r →
    unmarshal t b = (h.res, r)
  | .std t, b, h, r, hh => by
    cases hh with
    | std e => unfold unmarshal; exact bind_halt e
  | .own p, b, h, r, hh => by
    cases hh with
    | own e => unfold unmarshal; exact bind_halt e
  | .struct fs, b, h, r, hh => by
    cases hh with
    | struct e => unfold unmarshal; exact bind_halt (stopsFields_sound fs [] _ _ _ e)
  | .enum w vs, b, h, r, hh => by
    unfold unmarshal
    cases hh with
    | short e => exact bind_halt (h := some .unexpectedEndOfBuffer) (prim_short _ e)
    | unknown d hd hs =>
      rw [bind_ok (prim_ok d _ hd)]
      rcases ansVariant vs (positional d) r with ⟨fs, h1, -⟩ | ⟨-, h1⟩
      · exact absurd h1 (hs fs)
      · exact bind_halt (h := some .unknownSelector) h1
    | enum d hd hs hf =>
      rw [bind_ok (prim_ok d _ hd)]
      exact bind_halt (stopsVariant_sound vs _ _ _ _ _ hs hf)
theorem stopsFields_sound : ∀ (fs : Fields X) (env : List Nat) (b : Bytes) (h : Halt) (r : Bytes),
    StopsFields fs env b h r → unmarshalFields fs env b = (h.res, r)
  | .nil, env, b, h, r, hh => by cases hh
  | .plain t rest, env, b, h, r, hh => by
    unfold unmarshalFields
    cases hh with
    | here h1 => exact bind_halt (stops_sound t _ _ _ h1)
    | there h1 h2 =>
      rw [bind_ok (reads_sound t _ _ _ h1)]
      exact bind_halt (stopsFields_sound rest _ _ _ _ h2)
  | .fixedArr t n rest, env, b, h, r, hh => by
    unfold unmarshalFields
    cases hh with
    | fixedHere h1 => exact bind_halt (stopsAll_sound (reads_sound t) (stops_sound t) _ _ _ _ h1)
    | fixedThere h1 h2 =>
      rw [bind_ok (readsAll_sound (reads_sound t) _ _ _ _ h1).2]
      exact bind_halt (stopsFields_sound rest _ _ _ _ h2)
  | .lenArr k t n rest, env, b, h, r, hh => by
    unfold unmarshalFields
    simp only
    cases hh with
    | long hk => rw [if_pos hk]; rfl
    | lenHere hk h1 =>
      rw [if_neg (by omega)]
      exact bind_halt (stopsAll_sound (reads_sound t) (stops_sound t) _ _ _ _ h1)
    | lenThere hk h1 h2 =>
      rw [if_neg (by omega), bind_ok (readsAll_sound (reads_sound t) _ _ _ _ h1).2]
      exact bind_halt (stopsFields_sound rest _ _ _ _ h2)
theorem stopsVariant_sound : ∀ (vs : Variants X) (sel : Nat) (fs : Fields X) (b : Bytes)
    (h : Halt) (r : Bytes), Selects vs sel fs → StopsFields fs [] b h r →
    unmarshalVariant vs sel b = (h.res, r)
  | .nil, _, _, _, _, _, hs, _ => by cases hs
  | .cons s fs rest, sel, fs', b, h, r, hs, hh => by
    unfold unmarshalVariant
    cases hs with
    | here => rw [if_pos rfl]; exact stopsFields_sound fs _ _ _ _ hh
    | there hn h2 => rw [if_neg hn]; exact stopsVariant_sound rest _ _ _ _ _ h2 hh
end

end Verif.Own
