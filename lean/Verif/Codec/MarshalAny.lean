import Verif.Codec.Marshal

/-! Helper lemmas: marshalling of arbitrary in-memory values (also ill-formed
ones): the buffer length never changes, and success implies well-formedness. -/

namespace Verif

theorem mthen_len {r : MOut} {k : Nat → Bytes → MOut} {n : Nat} (hr : r.2.length = n)
    (hk : ∀ w b, b.length = n → (k w b).2.length = n) : (mthen r k).2.length = n := by
  rcases r with ⟨_ | _ | _, b⟩ <;> simp [mthen] at hr ⊢
  · exact hk _ _ hr
  · exact hr
  · exact hr

theorem mstep_len {f : Bytes → MOut} (hf : ∀ b, (f b).2.length = b.length) (w : Nat) (b : Bytes) :
    (mstep f w b).2.length = b.length := by
  unfold mstep
  split
  · rename_i h
    have := hf (b.drop w)
    rcases hm : f (b.drop w) with ⟨_ | _ | _, sub⟩ <;> rw [hm] at this <;> simp at this ⊢ <;> omega
  · rfl

theorem marshalBytes_len (x b : Bytes) : (marshalBytes x b).2.length = b.length := by
  unfold marshalBytes copyPrefix
  split
  · simp [*]
  · rfl

theorem marshalTpm2b_len (cap size : Nat) (x b : Bytes) :
    (marshalTpm2b cap size x b).2.length = b.length := by
  unfold marshalTpm2b
  apply mthen_len (marshalBytes_len _ _)
  intro w b' hb
  split
  · simp only
    split
    · exact hb
    · unfold sliceTo copyPrefix
      split
      · exact hb
      · split
        · exact hb
        · rename_i h
          split at h
          · cases h
            rename_i h2
            simp at h2 ⊢
            omega
          · simp at h
  · exact hb

theorem marshalLoop_len {f : Val → Bytes → MOut} (hf : ∀ v b, (f v b).2.length = b.length) :
    ∀ (n : Nat) (es : List Val) (w : Nat) (b : Bytes), (marshalLoop f n es w b).2.length = b.length
  | 0, es, w, b => by cases es <;> rfl
  | n + 1, [], w, b => rfl
  | n + 1, e :: es, w, b => by
    unfold marshalLoop
    apply mthen_len (mstep_len (hf e) w b)
    intro w' b' hb
    rw [marshalLoop_len hf, hb]

mutual
theorem marshal_len : ∀ (t : Ty) (v : Val) (b : Bytes), (marshal t v b).2.length = b.length
  | .prim n, v, b => by cases v <;> simp [marshal, marshalPrim, marshalBytes_len]
  | .unit, v, b => by cases v <;> simp [marshal]
  | .bytes m, v, b => by cases v <;> simp [marshal, marshalBytes_len]
  | .tpm2b cap, v, b => by cases v <;> simp [marshal, marshalTpm2b_len]
  | .struct fs, v, b => by
    cases v <;> simp only [marshal]
    exact marshalFields_len _ _ _ _ _
  | .enum n vs, v, b => by
    cases v <;> simp only [marshal]
    apply mthen_len (mstep_len (fun b => marshalBytes_len _ b) _ _)
    intro w b' hb
    rw [mstep_len (fun b => marshalVariant_len vs _ _ b), hb]
  | .split pre n mid vs, v, b => by
    cases v <;> simp only [marshal]
    apply mthen_len (marshalFields_len _ _ _ _ _)
    intro w b' hb
    apply mthen_len ((mstep_len (f := marshalPrim n _) (fun b => marshalBytes_len _ b) _ _).trans hb)
    intro w b' hb
    apply mthen_len (by rw [marshalFields_len, hb])
    intro w b' hb
    rw [mstep_len (fun b => marshalVariant_len vs _ _ b), hb]
theorem marshalFields_len : ∀ (fs : Fields) (env : List Nat) (vs : List Val) (w : Nat) (b : Bytes),
    (marshalFields fs env vs w b).2.length = b.length
  | .nil, env, vs, w, b => by cases vs <;> simp [marshalFields]
  | .plain t r, env, vs, w, b => by
    cases vs <;> simp only [marshalFields]
    apply mthen_len (mstep_len (fun b => marshal_len t _ b) _ _)
    intro w b' hb
    rw [marshalFields_len, hb]
  | .fixedArr t n r, env, vs, w, b => by
    match vs with
    | [] => simp [marshalFields]
    | v :: vs =>
      cases v <;> simp only [marshalFields]
      apply mthen_len (marshalLoop_len (fun v b => marshal_len t v b) _ _ _ _)
      intro w b' hb
      rw [marshalFields_len, hb]
  | .lenArr k t n r, env, vs, w, b => by
    match vs with
    | [] => simp [marshalFields]
    | v :: vs =>
      cases v <;> simp only [marshalFields]
      apply mthen_len (marshalLoop_len (fun v b => marshal_len t v b) _ _ _ _)
      intro w b' hb
      rw [marshalFields_len, hb]
theorem marshalVariant_len : ∀ (vs : Variants) (sel : Nat) (fvs : List Val) (b : Bytes),
    (marshalVariant vs sel fvs b).2.length = b.length
  | .nil, sel, fvs, b => by simp [marshalVariant]
  | .cons s fs rest, sel, fvs, b => by
    simp only [marshalVariant]
    split
    · exact marshalFields_len _ _ _ _ _
    · exact marshalVariant_len _ _ _ _
end

theorem mthen_ok {r : MOut} {k : Nat → Bytes → MOut} {n : Nat} (h : (mthen r k).1 = .ok n) :
    ∃ w b, r = (.ok w, b) ∧ (k w b).1 = .ok n := by
  rcases r with ⟨_ | _ | _, b⟩ <;> simp [mthen] at h
  exact ⟨_, _, rfl, h⟩

theorem mstep_ok {f : Bytes → MOut} {w n : Nat} {b : Bytes} (h : (mstep f w b).1 = .ok n) :
    ∃ b' m, (f b').1 = .ok m := by
  unfold mstep at h
  split at h
  · rcases hm : f (b.drop w) with ⟨_ | _ | _, sub⟩ <;> rw [hm] at h <;> simp at h
    exact ⟨b.drop w, _, by rw [hm]⟩
  · simp at h

theorem marshalLoop_ok {f : Val → Bytes → MOut} :
    ∀ (n : Nat) (es : List Val) (w : Nat) (b : Bytes) (m : Nat),
      (marshalLoop f n es w b).1 = .ok m →
      n ≤ es.length ∧ ∀ e ∈ es.take n, ∃ b' m', (f e b').1 = .ok m'
  | 0, es, w, b, m, _ => by simp
  | n + 1, [], w, b, m, h => by simp [marshalLoop] at h
  | n + 1, e :: es, w, b, m, h => by
    unfold marshalLoop at h
    obtain ⟨w', b', h1, h2⟩ := mthen_ok h
    obtain ⟨b1, m1, h3⟩ := mstep_ok (show (mstep (f e) w b).1 = .ok w' by rw [h1])
    obtain ⟨h4, h5⟩ := marshalLoop_ok n es w' b' m h2
    refine ⟨by simp; omega, ?_⟩
    intro x hx
    simp only [List.take_succ_cons, List.mem_cons] at hx
    rcases hx with rfl | hx
    · exact ⟨_, _, h3⟩
    · exact h5 x hx

theorem marshalTpm2b_ok {cap size : Nat} {x b : Bytes} {n : Nat}
    (h : (marshalTpm2b cap size x b).1 = .ok n) : size ≤ x.length := by
  unfold marshalTpm2b at h
  obtain ⟨w, b', h1, h2⟩ := mthen_ok h
  split at h2
  · simp only at h2
    split at h2
    · simp at h2
    · unfold sliceTo at h2
      split at h2
      · simp at h2
      · rename_i h3
        split at h3
        · assumption
        · simp at h3
  · simp at h2

mutual
theorem marshal_ok_wf : ∀ (t : Ty) (v : Val) (b : Bytes) (n : Nat), HasTy t v →
    (marshal t v b).1 = .ok n → WF t v
  | .prim n, v, b, m, ht, h => by
    cases v <;> simp only [HasTy] at ht
    simpa [WF] using ht
  | .unit, v, b, m, ht, h => by
    cases v <;> simp only [HasTy] at ht
    simp [WF]
  | .bytes n, v, b, m, ht, h => by
    cases v <;> simp only [HasTy] at ht
    simpa [WF] using ht
  | .tpm2b cap, v, b, m, ht, h => by
    cases v <;> simp only [HasTy] at ht
    simp only [marshal] at h
    have := marshalTpm2b_ok h
    simp only [WF]
    omega
  | .struct fs, v, b, m, ht, h => by
    cases v <;> simp only [HasTy] at ht
    simp only [marshal] at h
    simp only [WF]
    exact marshalFields_ok_wf _ _ _ _ _ _ ht h
  | .enum n vs, v, b, m, ht, h => by
    cases v <;> simp only [HasTy] at ht
    simp only [marshal] at h
    simp only [WF]
    obtain ⟨w, b', h1, h2⟩ := mthen_ok h
    obtain ⟨b1, m1, h3⟩ := mstep_ok h2
    exact ⟨ht.1, marshalVariant_ok_wf _ _ _ _ _ ht.2 h3⟩
  | .split pre n mid vs, v, b, m, ht, h => by
    cases v <;> simp only [HasTy] at ht
    simp only [marshal] at h
    simp only [WF]
    obtain ⟨w, b', h1, h2⟩ := mthen_ok h
    obtain ⟨w2, b2, h3, h4⟩ := mthen_ok h2
    obtain ⟨w3, b3, h5, h6⟩ := mthen_ok h4
    obtain ⟨b4, m4, h7⟩ := mstep_ok h6
    exact ⟨marshalFields_ok_wf _ _ _ _ _ _ ht.1 (congrArg Prod.fst h1),
      marshalFields_ok_wf _ _ _ _ _ _ ht.2.1 (congrArg Prod.fst h5), ht.2.2.1,
      marshalVariant_ok_wf _ _ _ _ _ ht.2.2.2 h7⟩
theorem marshalFields_ok_wf : ∀ (fs : Fields) (env : List Nat) (vs : List Val) (w : Nat) (b : Bytes)
    (n : Nat), HasTyFields fs vs → (marshalFields fs env vs w b).1 = .ok n → WFFields fs env vs
  | .nil, env, vs, w, b, n, ht, h => by
    cases vs <;> simp only [HasTyFields] at ht
    simp [WFFields]
  | .plain t r, env, vs, w, b, n, ht, h => by
    cases vs <;> simp only [HasTyFields] at ht
    simp only [marshalFields] at h
    simp only [WFFields]
    obtain ⟨w, b', h1, h2⟩ := mthen_ok h
    obtain ⟨b1, m1, h3⟩ := mstep_ok (congrArg Prod.fst h1)
    exact ⟨marshal_ok_wf _ _ _ _ ht.1 h3, marshalFields_ok_wf _ _ _ _ _ _ ht.2 h2⟩
  | .fixedArr t n r, env, vs, w, b, m, ht, h => by
    match vs with
    | [] => simp only [HasTyFields] at ht
    | v :: vs =>
      cases v <;> simp only [HasTyFields] at ht
      simp only [marshalFields] at h
      simp only [WFFields]
      obtain ⟨w, b', h1, h2⟩ := mthen_ok h
      obtain ⟨h3, h4⟩ := marshalLoop_ok _ _ _ _ _ (congrArg Prod.fst h1)
      refine ⟨ht.1, ?_, marshalFields_ok_wf _ _ _ _ _ _ ht.2.2 h2⟩
      intro e he
      rw [List.take_of_length_le (by omega)] at h4
      obtain ⟨b1, m1, h5⟩ := h4 e he
      exact marshal_ok_wf _ _ _ _ (ht.2.1 e he) h5
  | .lenArr k t n r, env, vs, w, b, m, ht, h => by
    match vs with
    | [] => simp only [HasTyFields] at ht
    | v :: vs =>
      cases v <;> simp only [HasTyFields] at ht
      simp only [marshalFields] at h
      simp only [WFFields]
      obtain ⟨w, b', h1, h2⟩ := mthen_ok h
      obtain ⟨h3, h4⟩ := marshalLoop_ok _ _ _ _ _ (congrArg Prod.fst h1)
      refine ⟨ht.1, by omega, ?_, marshalFields_ok_wf _ _ _ _ _ _ ht.2.2 h2⟩
      intro e he
      obtain ⟨b1, m1, h5⟩ := h4 e he
      exact marshal_ok_wf _ _ _ _ (ht.2.1 e (List.mem_of_mem_take he)) h5
theorem marshalVariant_ok_wf : ∀ (vs : Variants) (sel : Nat) (fvs : List Val) (b : Bytes) (n : Nat),
    HasTyVariant vs sel fvs → (marshalVariant vs sel fvs b).1 = .ok n → WFVariant vs sel fvs
  | .nil, sel, fvs, b, n, ht, h => by simp only [HasTyVariant] at ht
  | .cons s fs rest, sel, fvs, b, n, ht, h => by
    simp only [HasTyVariant] at ht
    simp only [marshalVariant] at h
    simp only [WFVariant]
    split at ht
    · rename_i hs
      rw [if_pos hs] at h ⊢
      exact marshalFields_ok_wf _ _ _ _ _ _ ht h
    · rename_i hs
      rw [if_neg hs] at h ⊢
      exact marshalVariant_ok_wf _ _ _ _ _ ht h
end

end Verif
