import Verif.Codec.Own
import Verif.Codec.Unmarshal
import Verif.Codec.MarshalAny

/-! Helper lemmas for C112: derived implementations of lawful parts are lawful. -/

namespace Verif.Own
open Verif

variable {X : Type}

/-! ### Reading -/

/-- What is shown of reading functions. -/
structure Good {α : Type} (u : UM α) (P : α → Prop) (w : α → Bytes) (c : α → α) : Prop where
  sound : ∀ b a r, u b = (.ok a, r) → P a ∧ c a = a ∧ b = w a ++ r
  complete : ∀ a x, P a → u (w a ++ x) = (.ok (c a), x)
  total : ∀ b, (u b).1 ≠ .panic ∧ ∃ p, b = p ++ (u b).2

theorem Good.of {α : Type} {u : UM α} {P : α → Prop} {w : α → Bytes} {c : α → α} (h : GoodU u P w c) :
    Good u P w c := ⟨h.sound, h.complete, h.total⟩

theorem Good.seqGen {α β γ : Type} {u : UM α} {f : α → UM β} {mk : α → β → γ}
    {Pa : α → Prop} {wa : α → Bytes} {ca : α → α}
    {Pb : α → β → Prop} {wb : α → β → Bytes} {cb : α → β → β}
    {P : γ → Prop} {w : γ → Bytes} {c : γ → γ}
    (hu : Good u Pa wa ca)
    (hf : ∀ a, Pa a → Good (f a) (Pb a) (wb a) (cb a))
    (hfc : ∀ a, Pa a → f (ca a) = f a)
    (hdec : ∀ g, P g → ∃ a b, Pa a ∧ Pb a b ∧ w g = wa a ++ wb a b ∧ c g = mk (ca a) (cb a b))
    (hmk : ∀ a b, Pa a → Pb a b → ca a = a → cb a b = b →
      P (mk a b) ∧ c (mk a b) = mk a b ∧ w (mk a b) = wa a ++ wb a b) :
    Good (do let a ← u; let b ← f a; pure (mk a b)) P w c := by
  constructor
  · intro b g r h
    simp only [UM.bind_eq] at h
    rcases hub : u b with ⟨_ | _ | _, b1⟩ <;> rw [hub] at h <;> simp at h
    rename_i a
    obtain ⟨pa, ca', rfl⟩ := hu.sound _ _ _ hub
    rcases hfb : f a b1 with ⟨_ | _ | _, b2⟩ <;> rw [hfb] at h <;> simp [UM.pure_eq] at h
    obtain ⟨rfl, rfl⟩ := h
    obtain ⟨pb, cb', rfl⟩ := (hf a pa).sound _ _ _ hfb
    obtain ⟨h1, h2, h3⟩ := hmk _ _ pa pb ca' cb'
    exact ⟨h1, h2, by rw [h3, List.append_assoc]⟩
  · intro g x pg
    obtain ⟨a, b, pa, pb, hw, hc⟩ := hdec g pg
    rw [hw, hc, List.append_assoc]
    simp only [UM.bind_eq, hu.complete _ _ pa, hfc _ pa, (hf a pa).complete _ _ pb, UM.pure_eq]
  · intro b
    simp only [UM.bind_eq]
    have ht := hu.total b
    rcases hub : u b with ⟨_ | _ | _, b1⟩ <;> rw [hub] at ht <;> simp only at ht ⊢
    · rename_i a
      obtain ⟨-, p, rfl⟩ := ht
      obtain ⟨pa, -, -⟩ := hu.sound _ _ _ hub
      have ht2 := (hf a pa).total b1
      rcases hfb : f a b1 with ⟨_ | _ | _, b2⟩ <;> rw [hfb] at ht2 <;>
        simp only [UM.pure_eq] at ht2 ⊢
      · obtain ⟨-, q, rfl⟩ := ht2
        exact ⟨by simp, p ++ q, by simp⟩
      · obtain ⟨-, q, rfl⟩ := ht2
        exact ⟨by simp, p ++ q, by simp⟩
      · exact absurd rfl ht2.1
    · exact ⟨by simp, ht.2⟩
    · exact absurd rfl ht.1

theorem Good.seq {α β γ : Type} {u : UM α} {f : α → UM β} {mk : α → β → γ}
    {Pa : α → Prop} {wa : α → Bytes} {ca : α → α}
    {Pb : α → β → Prop} {wb : α → β → Bytes} {cb : α → β → β}
    {P : γ → Prop} {w : γ → Bytes} {c : γ → γ}
    (hu : Good u Pa wa ca)
    (hf : ∀ a, Pa a → Good (f a) (Pb a) (wb a) (cb a))
    (hfc : ∀ a, Pa a → f (ca a) = f a)
    (hP : ∀ g, P g → ∃ a b, g = mk a b ∧ Pa a ∧ Pb a b)
    (hmk : ∀ a b, Pa a → Pb a b → P (mk a b))
    (hw : ∀ a b, Pa a → Pb a b → w (mk a b) = wa a ++ wb a b)
    (hc : ∀ a b, Pa a → Pb a b → c (mk a b) = mk (ca a) (cb a b)) :
    Good (do let a ← u; let b ← f a; pure (mk a b)) P w c := by
  apply Good.seqGen hu hf hfc
  · intro g hg
    obtain ⟨a, b, rfl, pa, pb⟩ := hP g hg
    exact ⟨a, b, pa, pb, hw _ _ pa pb, hc _ _ pa pb⟩
  · intro a b pa pb ha hb
    exact ⟨hmk _ _ pa pb, by rw [hc _ _ pa pb, ha, hb], hw _ _ pa pb⟩

theorem Good.map {α γ : Type} {u : UM α} {mk : α → γ}
    {Pa : α → Prop} {wa : α → Bytes} {ca : α → α}
    {P : γ → Prop} {w : γ → Bytes} {c : γ → γ}
    (hu : Good u Pa wa ca)
    (hP : ∀ g, P g → ∃ a, g = mk a ∧ Pa a)
    (hmk : ∀ a, Pa a → P (mk a))
    (hw : ∀ a, Pa a → w (mk a) = wa a)
    (hc : ∀ a, Pa a → c (mk a) = mk (ca a)) :
    Good (do let a ← u; pure (mk a)) P w c := by
  constructor
  · intro b g r h
    simp only [UM.bind_eq] at h
    rcases hub : u b with ⟨_ | _ | _, b1⟩ <;> rw [hub] at h <;> simp [UM.pure_eq] at h
    rename_i a
    obtain ⟨pa, ca', rfl⟩ := hu.sound _ _ _ hub
    obtain ⟨rfl, rfl⟩ := h
    exact ⟨hmk _ pa, by rw [hc _ pa, ca'], by rw [hw _ pa]⟩
  · intro g x pg
    obtain ⟨a, rfl, pa⟩ := hP g pg
    simp only [hw _ pa, hc _ pa, UM.bind_eq, hu.complete _ _ pa, UM.pure_eq]
  · intro b
    simp only [UM.bind_eq]
    have ht := hu.total b
    rcases hub : u b with ⟨_ | _ | _, b1⟩ <;> rw [hub] at ht <;> simp only [UM.pure_eq] at ht ⊢
    · exact ⟨by simp, ht.2⟩
    · exact ⟨by simp, ht.2⟩
    · exact absurd rfl ht.1

theorem Good.congr {α : Type} {u : UM α} {P P' : α → Prop} {w w' : α → Bytes} {c c' : α → α}
    (h : Good u P w c) (hP : ∀ a, P' a ↔ P a) (hw : ∀ a, P a → w' a = w a)
    (hc : ∀ a, P a → c' a = c a) : Good u P' w' c' := by
  constructor
  · intro b a r hb
    obtain ⟨p, q, rfl⟩ := h.sound b a r hb
    exact ⟨(hP a).mpr p, by rw [hc _ p, q], by rw [hw _ p]⟩
  · intro a x pa
    have pa := (hP a).mp pa
    rw [hw _ pa, hc _ pa]; exact h.complete a x pa
  · exact h.total

theorem goodLoop {u : UM (Val X)} {P : Val X → Prop} {w : Val X → Bytes} {c : Val X → Val X}
    (hu : Good u P w c) (n : Nat) :
    Good (unmarshalLoop u n) (fun es => es.length = n ∧ ∀ e ∈ es, P e)
      (fun es => (es.map w).flatten) (fun es => es.map c) := by
  induction n with
  | zero =>
    apply Good.of
    apply GoodU.pure
    · intro g
      constructor
      · intro h; exact List.length_eq_zero_iff.mp h.1
      · rintro rfl; simp
    · rfl
    · rfl
  | succ n ih =>
    apply Good.seq (mk := fun (v : Val X) (vs : List (Val X)) => v :: vs) hu (fun _ _ => ih)
      (fun _ _ => rfl)
    · rintro (_ | ⟨e, es⟩) ⟨hl, he⟩
      · simp at hl
      · exact ⟨e, es, rfl, he e (by simp), by simpa using hl, fun x hx => he x (by simp [hx])⟩
    · rintro a b pa ⟨hl, hb⟩
      refine ⟨by simp [hl], ?_⟩
      intro e he
      rcases List.mem_cons.mp he with rfl | h
      · exact pa
      · exact hb e h
    · intro a b _ _; simp
    · intro a b _ _; simp

/-- The laws, as a condition on the types of the caller's own. -/
abbrev Laws (M : Part X → Meaning X) : Part X → Prop := fun p => Lawful p (M p)

variable {M : Part X → Meaning X}

theorem asUsize_canon (t : Ty X) (ht : t.Own (Laws M)) (v : Val X) (hv : Sound M t v) :
    asUsize t (canon M t v) = asUsize t v := by
  cases t with
  | std t =>
    cases v <;> simp only [Sound] at hv
    simp only [canon, asUsize, Verif.asUsize_canon]
  | own p =>
    cases v <;> simp only [Sound] at hv
    simp only [canon, asUsize]
    exact Lawful.cast ht _ hv
  | struct fs => cases v <;> simp [asUsize]
  | enum w vs => cases v <;> simp [asUsize]

mutual
theorem goodTy : ∀ t : Ty X, t.Own (Laws M) → Good (unmarshal t) (Sound M t) (wire M t) (canon M t)
  | .std t, _ => by
    unfold unmarshal
    apply Good.map (Good.of (Verif.goodTy t))
    · intro g hg
      cases g <;> simp only [Sound] at hg
      exact ⟨_, rfl, hg⟩
    · intro a ha; simpa [Sound] using ha
    · intro a _; simp [wire]
    · intro a _; simp [canon]
  | .own p, h => by
    unfold unmarshal
    apply Good.map (Pa := (M p).sound) (wa := (M p).bytes) (ca := (M p).canon)
      ⟨Lawful.only h, Lawful.reads h, Lawful.total h⟩
    · intro g hg
      cases g <;> simp only [Sound] at hg
      exact ⟨_, rfl, hg⟩
    · intro a ha; simpa [Sound] using ha
    · intro a _; simp [wire]
    · intro a _; simp [canon]
  | .struct fs, h => by
    unfold unmarshal
    apply Good.map (goodFields fs [] h)
    · intro g hg
      cases g <;> simp only [Sound] at hg
      exact ⟨_, rfl, hg⟩
    · intro a ha; simpa [Sound] using ha
    · intro a _; simp [wire]
    · intro a _; simp [canon]
  | .enum n vs, h => by
    unfold unmarshal
    apply Good.seq (mk := fun sel fvs => Val.enum sel fvs) (Good.of (goodPrim n))
      (fun sel _ => goodVariant vs sel h) (fun _ _ => rfl)
    · intro g hg
      cases g <;> simp only [Sound] at hg
      exact ⟨_, _, rfl, hg⟩
    · intro a b ha hb; simp only [Sound]; exact ⟨ha, hb⟩
    · intro a b _ _; simp [wire]
    · intro a b _ _; simp [canon]
theorem goodFields : ∀ (fs : Fields X) (env : List Nat), fs.Own (Laws M) →
    Good (unmarshalFields fs env) (SoundFields M fs env) (wireFields M fs env) (canonFields M fs env)
  | .nil, env, _ => by
    unfold unmarshalFields
    apply Good.of
    apply GoodU.pure
    · intro g; cases g <;> simp [SoundFields]
    · simp [wireFields]
    · simp [canonFields]
  | .plain t r, env, h => by
    unfold unmarshalFields
    apply Good.seq (mk := fun (v : Val X) (vs : List (Val X)) => v :: vs) (goodTy t h.1)
      (fun v _ => goodFields r (env ++ [asUsize t v]) h.2)
    · intro v hv; rw [asUsize_canon t h.1 v hv]
    · intro g hg
      cases g <;> simp only [SoundFields] at hg
      exact ⟨_, _, rfl, hg⟩
    · intro a b ha hb; simp only [SoundFields]; exact ⟨ha, hb⟩
    · intro a b _ _; simp [wireFields]
    · intro a b _ _; simp [canonFields]
  | .fixedArr t n r, env, h => by
    unfold unmarshalFields
    apply Good.seq (mk := fun (es : List (Val X)) (vs : List (Val X)) =>
      Val.arr (es ++ (List.replicate n t.default).drop n) :: vs) (goodLoop (goodTy t h.1) n)
      (fun _ _ => goodFields r (env ++ [0]) h.2) (fun _ _ => rfl)
    · intro g hg
      match g, hg with
      | .arr es :: vs, hg =>
        simp only [SoundFields] at hg
        exact ⟨es, vs, by simp, ⟨hg.1, hg.2.1⟩, hg.2.2⟩
      | [], hg => simp only [SoundFields] at hg
    · intro a b ha hb; simp only [SoundFields]; simp; exact ⟨ha.1, ha.2, hb⟩
    · intro a b _ _; simp [wireFields]
    · intro a b _ _; simp [canonFields]
  | .lenArr k t n r, env, h => by
    unfold unmarshalFields
    simp only
    by_cases hlen : env.getD k 0 > n
    · simp only [hlen, if_true]
      apply Good.of
      apply GoodU.fail
      intro g hg
      match g, hg with
      | .arr es :: vs, hg =>
        simp only [SoundFields] at hg
        omega
      | [], hg => simp only [SoundFields] at hg
    · simp only [hlen, if_false]
      have hlen : env.getD k 0 ≤ n := Nat.not_lt.mp hlen
      apply Good.seqGen (mk := fun (es : List (Val X)) (vs : List (Val X)) =>
        Val.arr (es ++ (List.replicate n t.default).drop (env.getD k 0)) :: vs)
        (goodLoop (goodTy t h.1) (env.getD k 0))
        (fun _ _ => goodFields r (env ++ [0]) h.2) (fun _ _ => rfl)
      · intro g hg
        match g, hg with
        | .arr es :: vs, hg =>
          simp only [SoundFields] at hg
          refine ⟨es.take (env.getD k 0), vs, ⟨by rw [List.length_take]; omega, hg.2.2.1⟩,
            hg.2.2.2, ?_, ?_⟩
          · simp [wireFields]
          · simp [canonFields]
        | [], hg => simp only [SoundFields] at hg
      · rintro a b ⟨hla, ha⟩ hb hca hcb
        have htake : ∀ l : List (Val X), List.take (env.getD k 0) (a ++ l) = a := by
          intro l
          rw [List.take_append_of_le_length (by omega), List.take_of_length_le (by omega)]
        refine ⟨?_, ?_, ?_⟩
        · simp only [SoundFields, htake]
          refine ⟨?_, hlen, ha, hb⟩
          rw [List.length_append, hla, List.length_drop, List.length_replicate]; omega
        · simp only [canonFields, htake, hca, hcb]
          simp
        · simp only [wireFields, htake]
theorem goodVariant : ∀ (vs : Variants X) (sel : Nat), vs.Own (Laws M) →
    Good (unmarshalVariant vs sel) (SoundVariant M vs sel) (wireVariant M vs sel)
      (canonVariant M vs sel)
  | .nil, sel, _ => by
    unfold unmarshalVariant
    apply Good.of
    apply GoodU.fail
    intro g hg; simp only [SoundVariant] at hg
  | .cons s fs rest, sel, hl => by
    unfold unmarshalVariant
    by_cases h : sel = s
    · simp only [h, if_true]
      apply (goodFields fs [] hl.1).congr
      · intro a; simp [SoundVariant]
      · intro a _; simp [wireVariant]
      · intro a _; simp [canonVariant]
    · simp only [h, if_false]
      apply (goodVariant rest sel hl.2).congr
      · intro a; simp [SoundVariant, h]
      · intro a _; simp [wireVariant, h]
      · intro a _; simp [canonVariant, h]
end

/-! ### Writing -/

/-- `m` writes `x` at the start of the buffer; `s` says whether it may panic without room. -/
structure Writes (s : Bool) (m : Bytes → MOut) (x : Bytes) : Prop where
  fit : ∀ buf, x.length ≤ buf.length → m buf = (.ok x.length, x ++ buf.drop x.length)
  short : ∀ buf n, buf.length < x.length → (m buf).1 ≠ .ok n
  calm : s = false → ∀ buf, (m buf).1 ≠ .panic

/-- `m` writes `x` after the first `wr` bytes of the buffer. -/
structure WritesAt (s : Bool) (m : Nat → Bytes → MOut) (x : Bytes) : Prop where
  fit : ∀ wr buf, wr + x.length ≤ buf.length →
    m wr buf = (.ok (wr + x.length), buf.take wr ++ (x ++ buf.drop (wr + x.length)))
  short : ∀ wr buf n, wr ≤ buf.length → buf.length < wr + x.length → (m wr buf).1 ≠ .ok n
  calm : s = false → ∀ wr buf, wr ≤ buf.length → (m wr buf).1 ≠ .panic

theorem Writes.of {s s' : Bool} {m : Bytes → MOut} {x : Bytes} (h : Verif.Writes s m x)
    (hs : s = true → s' = true) : Writes s' m x := by
  refine ⟨h.fit, fun buf n hb hx => ?_, fun h0 buf hx => ?_⟩
  · rcases h.short buf hb with h | ⟨-, h⟩ <;> rw [h] at hx <;> cases hx
  · by_cases hl : x.length ≤ buf.length
    · rw [h.fit buf hl] at hx; cases hx
    · rcases h.short buf (by omega) with h | ⟨h1, -⟩
      · rw [h] at hx; cases hx
      · rw [hs h1] at h0; cases h0

theorem Writes.step {s : Bool} {m : Bytes → MOut} {x : Bytes} (h : Writes s m x) :
    WritesAt s (mstep m) x := by
  constructor
  · intro wr buf hl
    unfold mstep
    rw [if_pos (by omega), h.fit _ (by simp; omega)]
    simp
  · intro wr buf n h1 h2
    unfold mstep
    rw [if_pos h1]
    have := h.short (buf.drop wr)
    rcases hm : m (buf.drop wr) with ⟨k | _ | _, sub⟩
    · exact absurd (by rw [hm]) (this k (by simp; omega))
    · simp
    · simp
  · intro h0 wr buf h1
    unfold mstep
    rw [if_pos h1]
    have := h.calm h0 (buf.drop wr)
    rcases hm : m (buf.drop wr) with ⟨k | _ | _, sub⟩
    · simp
    · simp
    · rw [hm] at this; exact absurd rfl this

theorem WritesAt.start {s : Bool} {m : Nat → Bytes → MOut} {x : Bytes} (h : WritesAt s m x) :
    Writes s (m 0) x := by
  constructor
  · intro buf hl
    rw [h.fit 0 buf (by omega)]; simp
  · intro buf n hl
    exact h.short 0 buf n (by omega) (by omega)
  · intro h0 buf
    exact h.calm h0 0 buf (by omega)

theorem WritesAt.then {s : Bool} {m k : Nat → Bytes → MOut} {x y : Bytes}
    (hm : WritesAt s m x) (hk : WritesAt s k y) :
    WritesAt s (fun w b => mthen (m w b) k) (x ++ y) := by
  have hlen : ∀ (wr : Nat) (buf : Bytes), wr + x.length ≤ buf.length →
      (buf.take wr ++ (x ++ buf.drop (wr + x.length))).length = buf.length := by
    intro wr buf h; simp; omega
  constructor
  · intro wr buf hl
    simp only [List.length_append] at hl ⊢
    rw [hm.fit wr buf (by omega)]
    simp only [mthen]
    rw [hk.fit _ _ (by rw [hlen _ _ (by omega)]; omega)]
    have h1 : (buf.take wr ++ x).length = wr + x.length := by simp; omega
    rw [← List.append_assoc (buf.take wr), List.take_append_of_le_length (by omega),
      List.take_of_length_le (by omega), List.drop_append, List.drop_of_length_le (by omega),
      List.nil_append, List.drop_drop, h1]
    refine Prod.ext ?_ ?_
    · simp; omega
    · simp only [List.append_assoc]
      congr 4
      omega
  · intro wr buf n h1 h2
    simp only [List.length_append] at h2
    by_cases hx : wr + x.length ≤ buf.length
    · rw [hm.fit wr buf hx]
      simp only [mthen]
      exact hk.short _ _ n (by rw [hlen _ _ hx]; omega) (by rw [hlen _ _ hx]; omega)
    · have := hm.short wr buf
      rcases hmm : m wr buf with ⟨j | _ | _, sub⟩
      · exact absurd (by rw [hmm]) (this j h1 (by omega))
      · simp [mthen]
      · simp [mthen]
  · intro h0 wr buf h1
    by_cases hx : wr + x.length ≤ buf.length
    · rw [hm.fit wr buf hx]
      simp only [mthen]
      exact hk.calm h0 _ _ (by rw [hlen _ _ hx]; omega)
    · have hs := hm.short wr buf
      have hc := hm.calm h0 wr buf h1
      rcases hmm : m wr buf with ⟨j | _ | _, sub⟩
      · exact absurd (by rw [hmm]) (hs j h1 (by omega))
      · simp [mthen]
      · rw [hmm] at hc; exact absurd rfl hc

theorem WritesAt.nil (s : Bool) : WritesAt s (fun w b => (.ok w, b)) [] := by
  constructor
  · intro wr buf hl; simp
  · intro wr buf n h1 h2; simp at h2; omega
  · intro _ wr buf _; simp

theorem writesLoop {s : Bool} {f : Val X → Bytes → MOut} {w : Val X → Bytes} :
    ∀ (n : Nat) (es : List (Val X)), n ≤ es.length → (∀ e ∈ es.take n, Writes s (f e) (w e)) →
      WritesAt s (marshalLoop f n es) ((es.take n).map w).flatten
  | 0, es, _, _ => by
    simp only [List.take_zero, List.map_nil, List.flatten_nil]
    have : marshalLoop f 0 es = fun w b => (.ok w, b) := by
      funext w b; cases es <;> rfl
    rw [this]
    exact WritesAt.nil s
  | n + 1, [], h, _ => by simp at h
  | n + 1, e :: es, h, hw => by
    simp only [List.take_succ_cons, List.map_cons, List.flatten_cons]
    have h1 : Writes s (f e) (w e) := hw e (by simp)
    have h2 := writesLoop n es (by simpa using h) (fun x hx => hw x (by simp [hx]))
    exact h1.step.then h2

/-- The laws of writing; with `s = false` also that nothing panics. -/
def WLaws (s : Bool) (M : Part X → Meaning X) : Part X → Prop :=
  fun p => Lawful p (M p) ∧ (s = false → Calm p (M p))

/-- The types of the crate: with `s = false` without sized buffers. -/
def WStd (s : Bool) : Verif.Ty → Prop := fun t => s = false → hasSized t = false

mutual
theorem writesTy (s : Bool) : ∀ (t : Ty X) (v : Val X), t.Own (WLaws s M) → t.Std (WStd s) →
    Sound M t v → Writes s (marshal t v) (wire M t v)
  | .std t, v, _, h2 => by
    cases v <;> simp only [Sound, false_implies]
    intro hv
    refine Writes.of (Verif.writesTy t _ hv) ?_
    intro ht
    rcases s with _ | _
    · rw [h2 rfl] at ht; cases ht
    · rfl
  | .own p, v, h1, _ => by
    cases v <;> simp only [Sound, false_implies]
    intro hv
    exact ⟨fun buf hl => h1.1.writes _ buf hv hl, fun buf n hl => h1.1.refuses _ buf n hv hl,
      fun h0 buf => h1.2 h0 _ buf hv⟩
  | .struct fs, v, h1, h2 => by
    cases v <;> simp only [Sound, false_implies]
    intro h
    exact (writesFields s fs [] _ h1 h2 h).start
  | .enum n vs, v, h1, h2 => by
    cases v <;> simp only [Sound, false_implies]
    intro h
    rename_i sel fvs
    have g1 : WritesAt s (mstep (marshalPrim n sel)) (digits256 n sel) :=
      (Writes.of (writesPrim n sel) (by simp)).step
    have g2 := (writesVariant s vs sel fvs h1 h2 h.2).step
    exact (g1.then g2).start
theorem writesFields (s : Bool) : ∀ (fs : Fields X) (env : List Nat) (vs : List (Val X)),
    fs.Own (WLaws s M) → fs.Std (WStd s) → SoundFields M fs env vs →
    WritesAt s (marshalFields fs env vs) (wireFields M fs env vs)
  | .nil, env, vs, _, _ => by
    cases vs <;> simp only [SoundFields, false_implies]
    intro _
    exact WritesAt.nil _
  | .plain t r, env, vs, h1, h2 => by
    cases vs <;> simp only [SoundFields, false_implies]
    intro h
    exact (writesTy s t _ h1.1 h2.1 h.1).step.then (writesFields s r _ _ h1.2 h2.2 h.2)
  | .fixedArr t n r, env, vs, h1, h2 => by
    match vs with
    | [] => simp only [SoundFields, false_implies]
    | v :: vs =>
      cases v <;> simp only [SoundFields, false_implies]
      rename_i es
      intro h
      have g1 : WritesAt s (marshalLoop (fun v b => marshal t v b) n es)
          ((es.take n).map (wire M t)).flatten := by
        apply writesLoop n es (by omega)
        intro e he
        exact writesTy s t e h1.1 h2.1 (h.2.1 e (List.mem_of_mem_take he))
      rw [List.take_of_length_le (by omega)] at g1
      exact g1.then (writesFields s r _ _ h1.2 h2.2 h.2.2)
  | .lenArr k t n r, env, vs, h1, h2 => by
    match vs with
    | [] => simp only [SoundFields, false_implies]
    | v :: vs =>
      cases v <;> simp only [SoundFields, false_implies]
      rename_i es
      intro h
      have g1 : WritesAt s (marshalLoop (fun v b => marshal t v b) (env.getD k 0) es)
          ((es.take (env.getD k 0)).map (wire M t)).flatten := by
        apply writesLoop _ es (by omega)
        intro e he
        exact writesTy s t e h1.1 h2.1 (h.2.2.1 e he)
      exact g1.then (writesFields s r _ _ h1.2 h2.2 h.2.2.2)
theorem writesVariant (s : Bool) : ∀ (vs : Variants X) (sel : Nat) (fvs : List (Val X)),
    vs.Own (WLaws s M) → vs.Std (WStd s) → SoundVariant M vs sel fvs →
    Writes s (marshalVariant vs sel fvs) (wireVariant M vs sel fvs)
  | .nil, sel, fvs, _, _ => by simp only [SoundVariant, false_implies]
  | .cons d fs rest, sel, fvs, h1, h2 => by
    intro h
    simp only [SoundVariant] at h
    by_cases hs : sel = d
    · rw [if_pos hs] at h
      have g := (writesFields s fs [] fvs h1.1 h2.1 h).start
      have e1 : marshalVariant (.cons d fs rest) sel fvs = marshalFields fs [] fvs 0 := by
        funext b; rw [marshalVariant, if_pos hs]
      rw [e1, wireVariant, if_pos hs]
      exact g
    · rw [if_neg hs] at h
      have g := writesVariant s rest sel fvs h1.2 h2.2 h
      have e1 : marshalVariant (.cons d fs rest) sel fvs = marshalVariant rest sel fvs := by
        funext b; rw [marshalVariant, if_neg hs]
      rw [e1, wireVariant, if_neg hs]
      exact g
end

/-! ### Buffers keep their length -/

theorem marshalLoop_len {f : Val X → Bytes → MOut} (hf : ∀ v b, (f v b).2.length = b.length) :
    ∀ (n : Nat) (es : List (Val X)) (w : Nat) (b : Bytes), (marshalLoop f n es w b).2.length = b.length
  | 0, es, w, b => by cases es <;> rfl
  | n + 1, [], w, b => rfl
  | n + 1, e :: es, w, b => by
    unfold marshalLoop
    apply mthen_len (mstep_len (hf e) w b)
    intro w' b' hb
    rw [marshalLoop_len hf, hb]

mutual
theorem marshal_len : ∀ (t : Ty X) (v : Val X) (b : Bytes), (marshal t v b).2.length = b.length
  | .std t, v, b => by
    cases v <;> simp only [marshal]
    exact Verif.marshal_len _ _ _
  | .own p, v, b => by
    cases v <;> simp only [marshal]
    exact p.keeps_length _ _
  | .struct fs, v, b => by
    cases v <;> simp only [marshal]
    exact marshalFields_len _ _ _ _ _
  | .enum n vs, v, b => by
    cases v <;> simp only [marshal]
    apply mthen_len (mstep_len (fun b => marshalBytes_len _ b) _ _)
    intro w b' hb
    rw [mstep_len (fun b => marshalVariant_len vs _ _ b), hb]
theorem marshalFields_len : ∀ (fs : Fields X) (env : List Nat) (vs : List (Val X)) (w : Nat) (b : Bytes),
    (marshalFields fs env vs w b).2.length = b.length
  | .nil, env, vs, w, b => by cases vs <;> simp [marshalFields]
  | .plain t r, env, vs, w, b => by
    cases vs <;> simp only [marshalFields]
    apply mthen_len (mstep_len (fun b => marshal_len t _ b) _ _)
    intro w b' hb
    rw [marshalFields_len, hb]
  | .fixedArr t n r, env, vs, w, b => by
    match vs with
    | [] => simp [marshalFields]
    | v :: vs =>
      cases v <;> simp only [marshalFields]
      apply mthen_len (marshalLoop_len (fun v b => marshal_len t v b) _ _ _ _)
      intro w b' hb
      rw [marshalFields_len, hb]
  | .lenArr k t n r, env, vs, w, b => by
    match vs with
    | [] => simp [marshalFields]
    | v :: vs =>
      cases v <;> simp only [marshalFields]
      apply mthen_len (marshalLoop_len (fun v b => marshal_len t v b) _ _ _ _)
      intro w b' hb
      rw [marshalFields_len, hb]
theorem marshalVariant_len : ∀ (vs : Variants X) (sel : Nat) (fvs : List (Val X)) (b : Bytes),
    (marshalVariant vs sel fvs b).2.length = b.length
  | .nil, sel, fvs, b => by simp [marshalVariant]
  | .cons s fs rest, sel, fvs, b => by
    simp only [marshalVariant]
    split
    · exact marshalFields_len _ _ _ _ _
    · exact marshalVariant_len _ _ _ _
end

/-- The type derived, as an implementation of `Marshalable` that can be part of others
(marshalable-derive/src/lib.rs:180-200). -/
def derived (t : Ty X) : Part (Val X) where
  marshal := marshal t
  unmarshal := unmarshal t
  default := t.default
  asUsize := asUsize t
  keeps_length := marshal_len t

/-- The data of the variant with the discriminant, for which the derived enum implements
`MarshalableVariant` (marshalable/src/lib.rs:53-69): it can be read and written apart from the
discriminant. -/
def derivedVariant (vs : Variants X) (sel : Nat) : Part (List (Val X)) where
  marshal := marshalVariant vs sel
  unmarshal := unmarshalVariant vs sel
  default := vs.default
  asUsize _ := 0
  keeps_length := marshalVariant_len vs sel

mutual
theorem Ty.Own.mono {P Q : Part X → Prop} (h : ∀ p, P p → Q p) : ∀ t : Ty X, t.Own P → t.Own Q
  | .std _, _ => trivial
  | .own p, hp => h p hp
  | .struct fs, hf => Fields.Own.mono h fs hf
  | .enum _ vs, hv => Variants.Own.mono h vs hv
theorem Fields.Own.mono {P Q : Part X → Prop} (h : ∀ p, P p → Q p) :
    ∀ fs : Fields X, fs.Own P → fs.Own Q
  | .nil, _ => trivial
  | .plain t r, hh => ⟨Ty.Own.mono h t hh.1, Fields.Own.mono h r hh.2⟩
  | .fixedArr t _ r, hh => ⟨Ty.Own.mono h t hh.1, Fields.Own.mono h r hh.2⟩
  | .lenArr _ t _ r, hh => ⟨Ty.Own.mono h t hh.1, Fields.Own.mono h r hh.2⟩
theorem Variants.Own.mono {P Q : Part X → Prop} (h : ∀ p, P p → Q p) :
    ∀ vs : Variants X, vs.Own P → vs.Own Q
  | .nil, _ => trivial
  | .cons _ fs rest, hh => ⟨Fields.Own.mono h fs hh.1, Variants.Own.mono h rest hh.2⟩
end

mutual
theorem Ty.Std.mono {P Q : Verif.Ty → Prop} (h : ∀ p, P p → Q p) : ∀ t : Ty X, t.Std P → t.Std Q
  | .std p, hp => h p hp
  | .own _, _ => trivial
  | .struct fs, hf => Fields.Std.mono h fs hf
  | .enum _ vs, hv => Variants.Std.mono h vs hv
theorem Fields.Std.mono {P Q : Verif.Ty → Prop} (h : ∀ p, P p → Q p) :
    ∀ fs : Fields X, fs.Std P → fs.Std Q
  | .nil, _ => trivial
  | .plain t r, hh => ⟨Ty.Std.mono h t hh.1, Fields.Std.mono h r hh.2⟩
  | .fixedArr t _ r, hh => ⟨Ty.Std.mono h t hh.1, Fields.Std.mono h r hh.2⟩
  | .lenArr _ t _ r, hh => ⟨Ty.Std.mono h t hh.1, Fields.Std.mono h r hh.2⟩
theorem Variants.Std.mono {P Q : Verif.Ty → Prop} (h : ∀ p, P p → Q p) :
    ∀ vs : Variants X, vs.Std P → vs.Std Q
  | .nil, _ => trivial
  | .cons _ fs rest, hh => ⟨Fields.Std.mono h fs hh.1, Variants.Std.mono h rest hh.2⟩
end

mutual
theorem Ty.Std.all {P : Verif.Ty → Prop} (h : ∀ p, P p) : ∀ t : Ty X, t.Std P
  | .std p => h p
  | .own _ => trivial
  | .struct fs => Fields.Std.all h fs
  | .enum _ vs => Variants.Std.all h vs
theorem Fields.Std.all {P : Verif.Ty → Prop} (h : ∀ p, P p) : ∀ fs : Fields X, fs.Std P
  | .nil => trivial
  | .plain t r => ⟨Ty.Std.all h t, Fields.Std.all h r⟩
  | .fixedArr t _ r => ⟨Ty.Std.all h t, Fields.Std.all h r⟩
  | .lenArr _ t _ r => ⟨Ty.Std.all h t, Fields.Std.all h r⟩
theorem Variants.Std.all {P : Verif.Ty → Prop} (h : ∀ p, P p) : ∀ vs : Variants X, vs.Std P
  | .nil => trivial
  | .cons _ fs rest => ⟨Fields.Std.all h fs, Variants.Std.all h rest⟩
end

end Verif.Own
