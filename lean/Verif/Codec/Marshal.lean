import Verif.Codec.IntLemmas

/-! Helper lemmas: marshalling writes exactly the wire format. -/

namespace Verif

mutual
/-- Does a value of the type contain a sized buffer (`tpm2b_simple`)? -/
def hasSized : Ty → Bool
  | .prim _ => false
  | .unit => false
  | .bytes _ => false
  | .tpm2b _ => true
  | .struct fs => hasSizedF fs
  | .enum _ vs => hasSizedV vs
  | .split pre _ mid vs => hasSizedF pre || hasSizedF mid || hasSizedV vs
/-- `hasSized` for fields. -/
def hasSizedF : Fields → Bool
  | .nil => false
  | .plain t r => hasSized t || hasSizedF r
  | .fixedArr t _ r => hasSized t || hasSizedF r
  | .lenArr _ t _ r => hasSized t || hasSizedF r
/-- `hasSized` for variants. -/
def hasSizedV : Variants → Bool
  | .nil => false
  | .cons _ fs rest => hasSizedF fs || hasSizedV rest
end

/-- Failure on a buffer that is too small: an error, or (only in the presence
of sized buffers, `s`) a panic. -/
def ShortFail (s : Bool) (r : Res MErr Nat) : Prop :=
  r = .err .unexpectedEndOfBuffer ∨ (s = true ∧ r = .panic)

theorem ShortFail.mono {s s' : Bool} {r : Res MErr Nat} (h : ShortFail s r)
    (hs : s = true → s' = true) : ShortFail s' r := by
  rcases h with h | ⟨h1, h2⟩
  · exact .inl h
  · exact .inr ⟨hs h1, h2⟩

/-- `m` writes `x` at the start of the buffer. -/
structure Writes (s : Bool) (m : Bytes → MOut) (x : Bytes) : Prop where
  fit : ∀ buf, x.length ≤ buf.length → m buf = (.ok x.length, x ++ buf.drop x.length)
  short : ∀ buf, buf.length < x.length → ShortFail s (m buf).1

/-- `m` writes `x` after the first `wr` bytes of the buffer. -/
structure WritesAt (s : Bool) (m : Nat → Bytes → MOut) (x : Bytes) : Prop where
  fit : ∀ wr buf, wr + x.length ≤ buf.length →
    m wr buf = (.ok (wr + x.length), buf.take wr ++ (x ++ buf.drop (wr + x.length)))
  short : ∀ wr buf, wr ≤ buf.length → buf.length < wr + x.length → ShortFail s (m wr buf).1

theorem Writes.mono {s s' : Bool} {m : Bytes → MOut} {x : Bytes} (h : Writes s m x)
    (hs : s = true → s' = true) : Writes s' m x :=
  ⟨h.fit, fun b hb => (h.short b hb).mono hs⟩

theorem WritesAt.mono {s s' : Bool} {m : Nat → Bytes → MOut} {x : Bytes} (h : WritesAt s m x)
    (hs : s = true → s' = true) : WritesAt s' m x :=
  ⟨h.fit, fun w b h1 h2 => (h.short w b h1 h2).mono hs⟩

theorem Writes.step {s : Bool} {m : Bytes → MOut} {x : Bytes} (h : Writes s m x) :
    WritesAt s (mstep m) x := by
  constructor
  · intro wr buf hl
    unfold mstep
    rw [if_pos (by omega), h.fit _ (by simp; omega)]
    simp
  · intro wr buf h1 h2
    unfold mstep
    rw [if_pos h1]
    have := h.short (buf.drop wr) (by simp; omega)
    rcases hm : m (buf.drop wr) with ⟨_ | _ | _, sub⟩ <;> rw [hm] at this <;>
      simp [ShortFail] at this ⊢ <;> exact this

theorem WritesAt.start {s : Bool} {m : Nat → Bytes → MOut} {x : Bytes} (h : WritesAt s m x) :
    Writes s (m 0) x := by
  constructor
  · intro buf hl
    rw [h.fit 0 buf (by omega)]; simp
  · intro buf hl
    exact h.short 0 buf (by omega) (by omega)

theorem WritesAt.then {s : Bool} {m k : Nat → Bytes → MOut} {x y : Bytes}
    (hm : WritesAt s m x) (hk : WritesAt s k y) :
    WritesAt s (fun w b => mthen (m w b) k) (x ++ y) := by
  constructor
  · intro wr buf hl
    simp only [List.length_append] at hl ⊢
    rw [hm.fit wr buf (by omega)]
    simp only [mthen]
    have hlen : (buf.take wr ++ (x ++ buf.drop (wr + x.length))).length = buf.length := by
      simp; omega
    rw [hk.fit _ _ (by rw [hlen]; omega)]
    have h1 : (buf.take wr ++ x).length = wr + x.length := by simp; omega
    rw [← List.append_assoc (buf.take wr), List.take_append_of_le_length (by omega),
      List.take_of_length_le (by omega), List.drop_append, List.drop_of_length_le (by omega),
      List.nil_append, List.drop_drop, h1]
    refine Prod.ext ?_ ?_
    · simp; omega
    · simp only [List.append_assoc]
      congr 4
      omega
  · intro wr buf h1 h2
    simp only [List.length_append] at h2
    by_cases hx : wr + x.length ≤ buf.length
    · rw [hm.fit wr buf hx]
      simp only [mthen]
      have hlen : (buf.take wr ++ (x ++ buf.drop (wr + x.length))).length = buf.length := by
        simp; omega
      exact hk.short _ _ (by rw [hlen]; omega) (by rw [hlen]; omega)
    · have := hm.short wr buf h1 (by omega)
      rcases hmm : m wr buf with ⟨_ | _ | _, sub⟩ <;> rw [hmm] at this <;>
        simp [ShortFail, mthen] at this ⊢ <;> exact this

theorem WritesAt.nil (s : Bool) : WritesAt s (fun w b => (.ok w, b)) [] := by
  constructor
  · intro wr buf hl; simp
  · intro wr buf h1 h2; simp at h2; omega

theorem writesBytes (b : Bytes) : Writes false (marshalBytes b) b := by
  constructor
  · intro buf hl
    simp [marshalBytes, copyPrefix, hl]
  · intro buf hl
    simp [marshalBytes, ShortFail, Nat.not_le.mpr hl]

theorem writesPrim (n x : Nat) : Writes false (marshalPrim n x) (digits256 n x) := by
  unfold marshalPrim
  rw [toBE_eq_digits256]
  exact writesBytes _

theorem writesTpm2b {cap size : Nat} {b : Bytes} (hb : b.length = cap) (hs : size ≤ cap) :
    Writes true (marshalTpm2b cap size b) (digits256 2 size ++ b.take size) := by
  have hp := writesPrim 2 size
  have hlt : (List.take size b).length = size := by simp; omega
  constructor
  · intro buf hl
    rw [List.length_append, digits256_length, hlt] at hl ⊢
    unfold marshalTpm2b
    rw [hp.fit buf (by simp; omega)]
    simp only [mthen, digits256_length]
    rw [if_pos (by simp)]
    rw [if_neg (by simp; omega)]
    simp only [sliceTo, hb, hs, if_true, copyPrefix]
    rw [if_pos (by rw [hlt]; simp; omega)]
    simp
  · intro buf hl
    rw [List.length_append, digits256_length, hlt] at hl
    unfold marshalTpm2b
    by_cases h2 : 2 ≤ buf.length
    · rw [hp.fit buf (by simpa using h2)]
      simp only [mthen, digits256_length]
      rw [if_pos (by simp)]
      rw [if_neg (by simp; omega)]
      simp only [sliceTo, hb, hs, if_true, copyPrefix]
      rw [if_neg (by rw [hlt]; simp; omega)]
      exact .inr ⟨rfl, rfl⟩
    · have := hp.short buf (by simp; omega)
      rcases hmm : marshalPrim 2 size buf with ⟨_ | _ | _, sub⟩ <;> rw [hmm] at this <;>
        simp [ShortFail, mthen] at this ⊢ <;> exact this

theorem writesLoop {s : Bool} {f : Val → Bytes → MOut} {w : Val → Bytes} :
    ∀ (n : Nat) (es : List Val), n ≤ es.length → (∀ e ∈ es.take n, Writes s (f e) (w e)) →
      WritesAt s (marshalLoop f n es) ((es.take n).map w).flatten
  | 0, es, _, _ => by
    simp only [List.take_zero, List.map_nil, List.flatten_nil]
    have : marshalLoop f 0 es = fun w b => (.ok w, b) := by
      funext w b; cases es <;> rfl
    rw [this]
    exact WritesAt.nil s
  | n + 1, [], h, _ => by simp at h
  | n + 1, e :: es, h, hw => by
    simp only [List.take_succ_cons, List.map_cons, List.flatten_cons]
    have h1 : Writes s (f e) (w e) := hw e (by simp)
    have h2 := writesLoop n es (by simpa using h) (fun x hx => hw x (by simp [hx]))
    exact h1.step.then h2

mutual
theorem writesTy : ∀ (t : Ty) (v : Val), WF t v → Writes (hasSized t) (marshal t v) (wire t v)
  | .prim n, v => by
    cases v <;> simp only [WF, false_implies]
    intro _
    exact writesPrim _ _
  | .unit, v => by
    cases v <;> simp only [WF, false_implies]
    intro _
    constructor
    · intro buf _; simp [marshal, wire]
    · intro buf h; simp [wire] at h
  | .bytes m, v => by
    cases v <;> simp only [WF, false_implies]
    intro _
    exact writesBytes _
  | .tpm2b cap, v => by
    cases v <;> simp only [WF, false_implies]
    intro h
    exact writesTpm2b h.2.1 h.2.2
  | .struct fs, v => by
    cases v <;> simp only [WF, false_implies]
    intro h
    exact (writesFields fs [] _ h).start
  | .enum n vs, v => by
    cases v <;> simp only [WF, false_implies]
    intro h
    rename_i sel fvs
    have h1 : WritesAt (hasSizedV vs) (mstep (marshalPrim n sel)) (digits256 n sel) :=
      ((writesPrim n sel).mono (by simp)).step
    have h2 := (writesVariant vs sel fvs h.2).step
    exact (h1.then h2).start
  | .split pre n mid vs, v => by
    cases v <;> simp only [WF, false_implies]
    intro h
    rename_i pvs mvs sel fvs
    have h1 := (writesFields pre [] pvs h.1).mono (s' := hasSized (.split pre n mid vs))
      (by simp [hasSized]; intro h; simp [h])
    have h2 : WritesAt (hasSized (.split pre n mid vs)) (mstep (marshalPrim n sel))
      (digits256 n sel) := ((writesPrim n sel).mono (by simp)).step
    have h3 := (writesFields mid [] mvs h.2.1).mono (s' := hasSized (.split pre n mid vs))
      (by simp [hasSized]; intro h; simp [h])
    have h4 := ((writesVariant vs sel fvs h.2.2.2).mono (s' := hasSized (.split pre n mid vs))
      (by simp [hasSized]; intro h; simp [h])).step
    have := (h1.then (h2.then (h3.then h4))).start
    simp only [wire, List.append_assoc]
    exact this
theorem writesFields : ∀ (fs : Fields) (env : List Nat) (vs : List Val), WFFields fs env vs →
    WritesAt (hasSizedF fs) (marshalFields fs env vs) (wireFields fs env vs)
  | .nil, env, vs => by
    cases vs <;> simp only [WFFields, false_implies]
    intro _
    exact WritesAt.nil _
  | .plain t r, env, vs => by
    cases vs <;> simp only [WFFields, false_implies]
    intro h
    have h1 := ((writesTy t _ h.1).mono (s' := hasSizedF (.plain t r))
      (by simp [hasSizedF]; intro h; simp [h])).step
    have h2 := (writesFields r _ _ h.2).mono (s' := hasSizedF (.plain t r))
      (by simp [hasSizedF]; intro h; simp [h])
    exact h1.then h2
  | .fixedArr t n r, env, vs => by
    match vs with
    | [] => simp only [WFFields, false_implies]
    | v :: vs =>
      cases v <;> simp only [WFFields, false_implies]
      rename_i es
      intro h
      have h1 : WritesAt (hasSizedF (.fixedArr t n r))
          (marshalLoop (fun v b => marshal t v b) n es) ((es.take n).map (wire t)).flatten := by
        apply writesLoop n es (by omega)
        intro e he
        exact (writesTy t e (h.2.1 e (List.mem_of_mem_take he))).mono
          (by simp [hasSizedF]; intro h; simp [h])
      rw [List.take_of_length_le (by omega)] at h1
      have h2 := (writesFields r _ _ h.2.2).mono (s' := hasSizedF (.fixedArr t n r))
        (by simp [hasSizedF]; intro h; simp [h])
      exact h1.then h2
  | .lenArr k t n r, env, vs => by
    match vs with
    | [] => simp only [WFFields, false_implies]
    | v :: vs =>
      cases v <;> simp only [WFFields, false_implies]
      rename_i es
      intro h
      have h1 : WritesAt (hasSizedF (.lenArr k t n r))
          (marshalLoop (fun v b => marshal t v b) (env.getD k 0) es)
          ((es.take (env.getD k 0)).map (wire t)).flatten := by
        apply writesLoop _ es (by omega)
        intro e he
        exact (writesTy t e (h.2.2.1 e he)).mono
          (by simp [hasSizedF]; intro h; simp [h])
      have h2 := (writesFields r _ _ h.2.2.2).mono (s' := hasSizedF (.lenArr k t n r))
        (by simp [hasSizedF]; intro h; simp [h])
      exact h1.then h2
theorem writesVariant : ∀ (vs : Variants) (sel : Nat) (fvs : List Val), WFVariant vs sel fvs →
    Writes (hasSizedV vs) (marshalVariant vs sel fvs) (wireVariant vs sel fvs)
  | .nil, sel, fvs => by simp only [WFVariant, false_implies]
  | .cons s fs rest, sel, fvs => by
    intro h
    simp only [WFVariant] at h
    by_cases hs : sel = s
    · rw [if_pos hs] at h
      have := ((writesFields fs [] fvs h).start).mono (s' := hasSizedV (.cons s fs rest))
        (by simp [hasSizedV]; intro h; simp [h])
      constructor
      · intro buf hl
        simp only [wireVariant, marshalVariant, hs, if_true] at hl ⊢
        exact this.fit buf hl
      · intro buf hl
        simp only [wireVariant, marshalVariant, hs, if_true] at hl ⊢
        exact this.short buf hl
    · rw [if_neg hs] at h
      have := (writesVariant rest sel fvs h).mono (s' := hasSizedV (.cons s fs rest))
        (by simp [hasSizedV]; intro h; simp [h])
      constructor
      · intro buf hl
        simp only [wireVariant, marshalVariant, hs, if_false] at hl ⊢
        exact this.fit buf hl
      · intro buf hl
        simp only [wireVariant, marshalVariant, hs, if_false] at hl ⊢
        exact this.short buf hl
end

end Verif
