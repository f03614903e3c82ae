import Verif.Codec.Parts
import Verif.Codec.MarshalAny

/-! Helper lemmas: marshalling writes the parts of a value that fit. -/

namespace Verif

theorem Part.fate_ok {p : Part} {space : Nat} (h : p.fate space = .ok ()) :
    p.bytes.length ≤ space := by
  cases p with
  | item b =>
    by_cases hb : b.length ≤ space
    · exact hb
    · simp [Part.fate, hb] at h
  | contents cap size array =>
    by_cases hb : size ≤ array.length ∧ size ≤ space
    · simp only [Part.bytes, List.length_take]; omega
    · simp only [Part.fate, if_neg hb] at h
      split at h <;> cases h
  | missing => cases h

theorem writeParts_len : ∀ (ps : List Part) (space : Nat),
    (writeParts ps space).2.length ≤ space ∧
      ∀ n, (writeParts ps space).1 = .ok n → n = (writeParts ps space).2.length
  | [], space => ⟨Nat.zero_le _, fun n h => by cases h; rfl⟩
  | p :: ps, space => by
    rw [writeParts]
    rcases hf : p.fate space with ⟨⟩ | e | _
    · have hl := Part.fate_ok hf
      have ih := writeParts_len ps (space - p.bytes.length)
      simp only [List.length_append]
      refine ⟨by omega, fun n h => ?_⟩
      rcases hr : (writeParts ps (space - p.bytes.length)).1 with m | e | _ <;>
        rw [hr] at h <;> simp only [Res.map] at h <;> cases h
      rw [← ih.2 m hr]
    · exact ⟨Nat.zero_le _, fun n h => by cases h⟩
    · exact ⟨Nat.zero_le _, fun n h => by cases h⟩

/-- Continue with further parts. -/
def Res.more {α : Type} (r : Res MErr Nat × List α) (k : Nat → Res MErr Nat × List α) :
    Res MErr Nat × List α :=
  match r with
  | (.ok n, w) => ((k n).1.map (n + ·), w ++ (k n).2)
  | (.err e, w) => (.err e, w)
  | (.panic, w) => (.panic, w)

theorem Res.map_zero (r : Res MErr Nat) : r.map (0 + ·) = r := by
  cases r <;> simp [Res.map]

theorem Res.map_add (m n : Nat) (r : Res MErr Nat) :
    (r.map (n + ·)).map (m + ·) = r.map (m + n + ·) := by
  cases r <;> simp [Res.map, Nat.add_assoc]

theorem writeParts_append : ∀ (ps qs : List Part) (space : Nat),
    writeParts (ps ++ qs) space =
      Res.more (writeParts ps space) fun n => writeParts qs (space - n)
  | [], qs, space => by
    show writeParts qs space = _
    simp only [writeParts, Res.more, Nat.sub_zero, List.nil_append, Res.map_zero]
  | p :: ps, qs, space => by
    rw [List.cons_append, writeParts, writeParts]
    rcases hf : p.fate space with ⟨⟩ | e | _
    · dsimp only
      rw [writeParts_append ps qs]
      rcases hr : writeParts ps (space - p.bytes.length) with ⟨n | e | _, w⟩
      · simp only [Res.more, Res.map_add, Nat.sub_sub]
        rw [Res.map]
        simp only [List.append_assoc]
      · simp only [Res.more, Res.map]
      · simp only [Res.more, Res.map]
    · rfl
    · rfl

/-- `f` writes the parts at the start of the buffer. -/
def Runs (f : Bytes → MOut) (ps : List Part) : Prop := ∀ buf,
  f buf = ((writeParts ps buf.length).1,
    (writeParts ps buf.length).2 ++ buf.drop (writeParts ps buf.length).2.length)

/-- `g` writes the parts after the first `wr` bytes of the buffer. -/
def RunsAt (g : Nat → Bytes → MOut) (ps : List Part) : Prop := ∀ wr buf, wr ≤ buf.length →
  g wr buf = ((writeParts ps (buf.length - wr)).1.map (wr + ·),
    buf.take wr ++ ((writeParts ps (buf.length - wr)).2 ++
      buf.drop (wr + (writeParts ps (buf.length - wr)).2.length)))

theorem Runs.step {f : Bytes → MOut} {ps : List Part} (h : Runs f ps) : RunsAt (mstep f) ps := by
  intro wr buf hw
  unfold mstep
  rw [if_pos hw, h]
  simp only [List.length_drop, List.drop_drop]
  rcases (writeParts ps (buf.length - wr)).1 with n | e | _ <;> rfl

theorem RunsAt.start {g : Nat → Bytes → MOut} {ps : List Part} (h : RunsAt g ps) :
    Runs (g 0) ps := by
  intro buf
  rw [h 0 buf (Nat.zero_le _)]
  rw [Nat.sub_zero, Res.map_zero, List.take_zero, List.nil_append, Nat.zero_add]

theorem RunsAt.then {g k : Nat → Bytes → MOut} {ps qs : List Part} (hg : RunsAt g ps)
    (hk : RunsAt k qs) : RunsAt (fun w b => mthen (g w b) k) (ps ++ qs) := by
  intro wr buf hw
  dsimp only
  rw [hg wr buf hw, writeParts_append]
  have hl := writeParts_len ps (buf.length - wr)
  rcases hr : writeParts ps (buf.length - wr) with ⟨n | e | _, w⟩
  · rw [hr] at hl
    obtain ⟨h1, h2⟩ := hl
    have h2 := h2 n rfl
    simp only at h1 h2
    subst h2
    simp only [Res.map, mthen, Res.more]
    have hlen : (buf.take wr ++ (w ++ buf.drop (wr + w.length))).length = buf.length := by
      simp only [List.length_append, List.length_take, List.length_drop]; omega
    rw [hk _ _ (by rw [hlen]; omega), hlen, Nat.sub_sub]
    refine Prod.ext (Res.map_add _ _ _).symm ?_
    simp only
    have h3 : (buf.take wr ++ w).length = wr + w.length := by
      simp only [List.length_append, List.length_take]; omega
    rw [← List.append_assoc (buf.take wr), List.take_append_of_le_length (by omega),
      List.take_of_length_le (by omega), List.drop_append, List.drop_of_length_le (by omega),
      List.nil_append, List.drop_drop, h3, List.length_append]
    simp only [List.append_assoc]
    congr 4
    omega
  · simp only [Res.map, mthen, Res.more]
  · simp only [Res.map, mthen, Res.more]

theorem RunsAt.nil : RunsAt (fun w b => (.ok w, b)) [] := by
  intro wr buf hw
  simp [writeParts, Res.map]

theorem RunsAt.missing (ps : List Part) : RunsAt (fun _ b => (.panic, b)) (.missing :: ps) := by
  intro wr buf hw
  simp [writeParts, Part.fate, Res.map]

theorem runsBytes (b : Bytes) : Runs (marshalBytes b) [.item b] := by
  intro buf
  unfold marshalBytes copyPrefix
  by_cases hb : b.length ≤ buf.length
  · simp [writeParts, Part.fate, Part.bytes, hb, Res.map]
  · simp [writeParts, Part.fate, hb]

theorem runsPrim (n x : Nat) : Runs (marshalPrim n x) [.item (digits256 n x)] := by
  rw [← toBE_eq_digits256]
  exact runsBytes _

theorem runsContents (cap size : Nat) (field : Bytes) :
    RunsAt (fun used buf =>
      if used ≤ buf.length then
        let rest := buf.drop used
        if size > max cap rest.length then (.err .unexpectedEndOfBuffer, buf)
        else
          match sliceTo field size with
          | none => (.panic, buf)
          | some src =>
            match copyPrefix rest size src with
            | none => (.panic, buf)
            | some rest' => (.ok (used + size), buf.take used ++ rest')
      else (.panic, buf)) [.contents cap size field] := by
  intro wr buf hw
  dsimp only
  rw [if_pos hw, writeParts]
  by_cases h1 : size ≤ field.length ∧ size ≤ buf.length - wr
  · have hlt : (field.take size).length = size := by rw [List.length_take]; omega
    simp only [Part.fate, if_pos h1, Part.bytes, writeParts, Res.map, List.append_nil, hlt]
    rw [if_neg (by rw [List.length_drop]; omega), sliceTo, if_pos h1.1]
    dsimp only
    rw [copyPrefix, if_pos ⟨by rw [List.length_drop]; omega, hlt⟩]
    simp only [List.drop_drop, Nat.add_zero]
  · by_cases h2 : cap < size ∧ buf.length - wr < size
    · simp only [Part.fate, if_neg h1, if_pos h2, Res.map]
      rw [if_pos (by rw [List.length_drop]; omega)]
      simp
    · simp only [Part.fate, if_neg h1, if_neg h2, Res.map]
      by_cases h3 : size > max cap (buf.drop wr).length
      · rw [List.length_drop] at h3
        exact absurd ⟨by omega, by omega⟩ h2
      · rw [if_neg h3]
        unfold sliceTo
        by_cases h4 : size ≤ field.length
        · rw [if_pos h4]
          dsimp only
          rw [copyPrefix, if_neg (by rw [List.length_drop]; omega)]
          simp
        · rw [if_neg h4]
          simp

theorem runsTpm2b (cap size : Nat) (field : Bytes) :
    Runs (marshalTpm2b cap size field) [.item (digits256 2 size), .contents cap size field] := by
  have h := ((runsPrim 2 size).step.then (runsContents cap size field)).start
  intro buf
  have hb := h buf
  dsimp only at hb
  rw [← List.singleton_append, ← hb]
  unfold marshalTpm2b
  congr 1
  unfold mstep
  rw [if_pos (Nat.zero_le _), List.drop_zero, List.take_zero]
  rcases marshalPrim 2 size buf with ⟨n | e | _, sub⟩ <;> simp

theorem runsLoop {f : Val → Bytes → MOut} {q : Val → List Part} : ∀ (es : List Val) (n : Nat),
    (∀ e ∈ es, Runs (f e) (q e)) →
    RunsAt (marshalLoop f n es)
      (((es.take n).map q).flatten ++ (if n ≤ es.length then [] else [.missing]))
  | es, 0, _ => by
    have : marshalLoop f 0 es = fun w b => (.ok w, b) := by
      funext w b; cases es <;> rfl
    rw [this]
    simpa using RunsAt.nil
  | [], n + 1, _ => by
    have : marshalLoop f (n + 1) [] = fun _ b => (.panic, b) := by funext w b; rfl
    rw [this]
    simpa using RunsAt.missing []
  | e :: es, n + 1, h => by
    have ih := runsLoop es n (fun e' h' => h e' (List.mem_cons_of_mem _ h'))
    have := (h e (List.mem_cons_self ..)).step.then ih
    simp only [List.take_succ_cons, List.map_cons, List.flatten_cons, List.append_assoc,
      List.length_cons, Nat.add_le_add_iff_right]
    exact this

mutual
theorem runs : ∀ (t : Ty) (v : Val), Runs (marshal t v) (parts t v)
  | .prim n, v => by
    cases v with
    | int x => exact runsPrim n x
    | _ => exact (RunsAt.missing []).start
  | .unit, v => by
    cases v with
    | unit => exact RunsAt.nil.start
    | _ => exact (RunsAt.missing []).start
  | .bytes n, v => by
    cases v with
    | bytes b => exact runsBytes b
    | _ => exact (RunsAt.missing []).start
  | .tpm2b cap, v => by
    cases v with
    | tpm2b size b => exact runsTpm2b cap size b
    | _ => exact (RunsAt.missing []).start
  | .struct fs, v => by
    cases v with
    | struct vs =>
      have h := (runsFields fs [] vs).start
      intro buf
      rw [marshal, parts]
      exact h buf
    | _ => exact (RunsAt.missing []).start
  | .enum w vs, v => by
    cases v with
    | enum sel fvs =>
      have h := ((runsPrim w sel).step.then (runsVariant vs sel fvs).step).start
      intro buf
      rw [marshal, parts]
      exact h buf
    | _ => exact (RunsAt.missing []).start
  | .split pre w mid vs, v => by
    cases v with
    | split pvs mvs sel fvs =>
      have h := ((runsFields pre [] pvs).then ((runsPrim w sel).step.then
        ((runsFields mid [] mvs).then (runsVariant vs sel fvs).step))).start
      intro buf
      rw [marshal, parts]
      exact h buf
    | _ => exact (RunsAt.missing []).start
theorem runsFields : ∀ (fs : Fields) (env : List Nat) (vs : List Val),
    RunsAt (marshalFields fs env vs) (partsFields fs env vs)
  | .nil, env, vs => by
    cases vs with
    | nil =>
      have h := RunsAt.nil
      intro wr buf hw
      rw [marshalFields, partsFields]
      exact h wr buf hw
    | cons v vs =>
      have h := RunsAt.missing []
      intro wr buf hw
      rw [marshalFields, partsFields]
      · exact h wr buf hw
      all_goals simp
  | .plain t r, env, vs => by
    cases vs with
    | nil =>
      have h := RunsAt.missing []
      intro wr buf hw
      rw [marshalFields, partsFields]
      · exact h wr buf hw
      all_goals simp
    | cons v vs =>
      have h := (runs t v).step.then (runsFields r (env ++ [asUsize v]) vs)
      intro wr buf hw
      rw [marshalFields, partsFields]
      exact h wr buf hw
  | .fixedArr t n r, env, vs => by
    have hm := RunsAt.missing []
    rcases vs with _ | ⟨v, vs⟩
    · intro wr buf hw
      rw [marshalFields, partsFields]
      · exact hm wr buf hw
      all_goals simp
    · cases v with
      | arr es =>
        have h := (runsLoop (f := fun v b => marshal t v b) (q := fun e => parts t e) es n
          (fun e _ => runs t e)).then (runsFields r (env ++ [0]) vs)
        intro wr buf hw
        rw [marshalFields, partsFields]
        exact h wr buf hw
      | _ =>
        intro wr buf hw
        rw [marshalFields, partsFields]
        · exact hm wr buf hw
        all_goals simp
  | .lenArr k t n r, env, vs => by
    have hm := RunsAt.missing []
    rcases vs with _ | ⟨v, vs⟩
    · intro wr buf hw
      rw [marshalFields, partsFields]
      · exact hm wr buf hw
      all_goals simp
    · cases v with
      | arr es =>
        have h := (runsLoop (f := fun v b => marshal t v b) (q := fun e => parts t e) es
          (env.getD k 0) (fun e _ => runs t e)).then (runsFields r (env ++ [0]) vs)
        intro wr buf hw
        rw [marshalFields, partsFields]
        exact h wr buf hw
      | _ =>
        intro wr buf hw
        rw [marshalFields, partsFields]
        · exact hm wr buf hw
        all_goals simp
theorem runsVariant : ∀ (vs : Variants) (sel : Nat) (fvs : List Val),
    Runs (marshalVariant vs sel fvs) (partsVariant vs sel fvs)
  | .nil, sel, fvs => by
    have h := (RunsAt.missing []).start
    intro buf
    rw [marshalVariant, partsVariant]
    exact h buf
  | .cons s fs rest, sel, fvs => by
    have h1 := (runsFields fs [] fvs).start
    have h2 := runsVariant rest sel fvs
    intro buf
    rw [marshalVariant, partsVariant]
    split
    · exact h1 buf
    · exact h2 buf
end

/-! ### Parts of values of a type -/

/-- The bytes of parts one after the other. -/
theorem flatMap_parts (t : Ty) : ∀ (es : List Val),
    (∀ e ∈ es, (parts t e).flatMap Part.bytes = wire t e) →
    (es.map fun e => parts t e).flatten.flatMap Part.bytes = (es.map fun e => wire t e).flatten
  | [], _ => rfl
  | e :: es, h => by
    simp only [List.map_cons, List.flatten_cons, List.flatMap_append]
    rw [h e (List.mem_cons_self ..), flatMap_parts t es fun e' h' => h e' (List.mem_cons_of_mem _ h')]

/-- Nothing is wrong with the part but a size beyond the capacity or a missing
element. -/
def Part.Typed : Part → Prop
  | .contents cap size array => array.length = cap ∧ size < 65536
  | _ => True

theorem writeParts_sound : ∀ (ps : List Part) (space : Nat), (∀ p ∈ ps, p.Sound) →
    (ps.flatMap Part.bytes).length ≤ space →
    writeParts ps space = (.ok (ps.flatMap Part.bytes).length, ps.flatMap Part.bytes)
  | [], _, _, _ => rfl
  | p :: ps, space, h, hl => by
    simp only [List.flatMap_cons, List.length_append] at hl ⊢
    have hp : p.fate space = .ok () := by
      have := h p (List.mem_cons_self ..)
      cases p with
      | item b => exact if_pos (by simp only [Part.bytes] at hl; omega)
      | contents cap size array =>
        simp only [Part.Sound] at this
        simp only [Part.bytes, List.length_take] at hl
        exact if_pos ⟨by omega, by omega⟩
      | missing => exact absurd this id
    rw [writeParts, hp]
    dsimp only
    rw [writeParts_sound ps _ (fun q hq => h q (List.mem_cons_of_mem _ hq)) (by omega)]
    rfl

/-- Where writing stops, if it does: after sound parts that fit. -/
theorem writeParts_cases : ∀ (ps : List Part) (space : Nat), (∀ p ∈ ps, p.Typed) →
    ((∀ p ∈ ps, p.Sound) ∧ (ps.flatMap Part.bytes).length ≤ space) ∨
    ∃ pre p post, ps = pre ++ p :: post ∧ (∀ q ∈ pre, q.Sound) ∧
      (pre.flatMap Part.bytes).length ≤ space ∧
      p.fate (space - (pre.flatMap Part.bytes).length) ≠ .ok ()
  | [], _, _ => .inl ⟨by simp, Nat.zero_le _⟩
  | p :: ps, space, h => by
    by_cases hf : p.fate space = .ok ()
    · have hl := Part.fate_ok hf
      have hp : p.Sound := by
        have := h p (List.mem_cons_self ..)
        cases p with
        | item b => trivial
        | contents cap size array =>
          simp only [Part.Typed] at this
          by_cases hb : size ≤ array.length ∧ size ≤ space
          · exact ⟨this.1, by omega⟩
          · simp only [Part.fate, if_neg hb] at hf
            split at hf <;> cases hf
        | missing => cases hf
      rcases writeParts_cases ps (space - p.bytes.length)
        (fun q hq => h q (List.mem_cons_of_mem _ hq)) with ⟨h1, h2⟩ | ⟨pre, q, post, h1, h2, h3, h4⟩
      · refine .inl ⟨fun q hq => ?_, ?_⟩
        · rcases List.mem_cons.mp hq with rfl | hq
          · exact hp
          · exact h1 q hq
        · rw [List.flatMap_cons, List.length_append]; omega
      · refine .inr ⟨p :: pre, q, post, by rw [h1]; rfl, fun q' hq => ?_, ?_, ?_⟩
        · rcases List.mem_cons.mp hq with rfl | hq
          · exact hp
          · exact h2 q' hq
        · rw [List.flatMap_cons, List.length_append]; omega
        · rw [List.flatMap_cons, List.length_append, ← Nat.sub_sub]
          exact h4
    · exact .inr ⟨[], p, ps, rfl, by simp, Nat.zero_le _, hf⟩

/-- After sound parts that fit, the next one decides if it is not written. -/
theorem writeParts_stop (pre : List Part) (p : Part) (post : List Part) (space : Nat)
    (h : ∀ q ∈ pre, q.Sound) (hl : (pre.flatMap Part.bytes).length ≤ space)
    (hf : p.fate (space - (pre.flatMap Part.bytes).length) ≠ .ok ()) :
    writeParts (pre ++ p :: post) space =
      ((p.fate (space - (pre.flatMap Part.bytes).length)).map fun _ => 0,
        pre.flatMap Part.bytes) := by
  rw [writeParts_append, writeParts_sound pre space h hl]
  simp only [Res.more, writeParts]
  rcases hp : p.fate (space - (pre.flatMap Part.bytes).length) with ⟨⟩ | e | _
  · exact absurd hp hf
  · simp only [Res.map, List.append_nil]
  · simp only [Res.map, List.append_nil]

theorem Part.breaks_iff {p : Part} (h : p.Typed) (space : Nat) :
    p.fate space = .panic ↔ p.Breaks space := by
  cases p with
  | item b =>
    simp only [Part.fate, Part.Breaks, iff_false]
    split <;> exact fun h => by cases h
  | contents cap size array =>
    simp only [Part.Typed] at h
    simp only [Part.fate, Part.Breaks]
    by_cases h1 : size ≤ array.length ∧ size ≤ space
    · rw [if_pos h1]
      exact ⟨fun h => (by cases h), fun h => by omega⟩
    · rw [if_neg h1]
      by_cases h2 : cap < size ∧ space < size
      · rw [if_pos h2]
        exact ⟨fun h => (by cases h), fun h => by omega⟩
      · rw [if_neg h2]
        exact ⟨fun _ => by omega, fun _ => rfl⟩
  | missing => exact ⟨fun _ => trivial, fun _ => rfl⟩

theorem Part.refused_iff {p : Part} (h : p.Typed) (space : Nat) (e : MErr) :
    p.fate space = .err e ↔ e = .unexpectedEndOfBuffer ∧ p.Refused space := by
  cases p with
  | item b =>
    simp only [Part.fate, Part.Refused]
    by_cases h1 : b.length ≤ space
    · rw [if_pos h1]
      exact ⟨fun h => (by cases h), fun h => by omega⟩
    · rw [if_neg h1]
      exact ⟨fun h => by cases h; exact ⟨rfl, by omega⟩, fun h => by rw [h.1]⟩
  | contents cap size array =>
    simp only [Part.Typed] at h
    simp only [Part.fate, Part.Refused]
    by_cases h1 : size ≤ array.length ∧ size ≤ space
    · rw [if_pos h1]
      exact ⟨fun h => (by cases h), fun h => by omega⟩
    · rw [if_neg h1]
      by_cases h2 : cap < size ∧ space < size
      · rw [if_pos h2]
        exact ⟨fun h => by cases h; exact ⟨rfl, h2⟩, fun h => by rw [h.1]⟩
      · rw [if_neg h2]
        exact ⟨fun h => (by cases h), fun h => absurd h.2 h2⟩
  | missing => exact ⟨fun h => (by cases h), fun h => h.2.elim⟩

/-- The three ways writing parts can end. -/
theorem writeParts_ends (ps : List Part) (space : Nat) (ht : ∀ p ∈ ps, p.Typed) :
    ((∀ p ∈ ps, p.Sound) ∧ partsLen ps ≤ space ∧ (writeParts ps space).1 = .ok (partsLen ps)) ∨
    (StopsAt Part.Refused ps space ∧ (writeParts ps space).1 = .err .unexpectedEndOfBuffer) ∨
    (StopsAt Part.Breaks ps space ∧ (writeParts ps space).1 = .panic) := by
  rcases writeParts_cases ps space ht with ⟨h1, h2⟩ | ⟨pre, p, post, h1, h2, h3, h4⟩
  · exact .inl ⟨h1, h2, by rw [writeParts_sound _ _ h1 h2]⟩
  · have htp := ht p (by rw [h1]; simp)
    have hr := congrArg Prod.fst (writeParts_stop pre p post space h2 h3 h4)
    rw [← h1] at hr
    rcases hf : p.fate (space - (pre.flatMap Part.bytes).length) with ⟨⟩ | e | _
    · exact absurd hf h4
    · have he := (Part.refused_iff htp _ _).mp hf
      rw [hf, he.1] at hr
      exact .inr (.inl ⟨⟨pre, p, post, h1, h2, h3, he.2⟩, hr⟩)
    · rw [hf] at hr
      exact .inr (.inr ⟨⟨pre, p, post, h1, h2, h3, (Part.breaks_iff htp _).mp hf⟩, hr⟩)

theorem writeParts_breaks {ps : List Part} {space : Nat} (ht : ∀ p ∈ ps, p.Typed)
    (h : StopsAt Part.Breaks ps space) : (writeParts ps space).1 = .panic := by
  obtain ⟨pre, p, post, h1, h2, h3, h4⟩ := h
  have hf := (Part.breaks_iff (ht p (by rw [h1]; simp)) _).mpr h4
  rw [h1, writeParts_stop pre p post _ h2 h3 (by rw [hf]; simp), hf]
  rfl

theorem writeParts_refused {ps : List Part} {space : Nat} (ht : ∀ p ∈ ps, p.Typed)
    (h : StopsAt Part.Refused ps space) :
    (writeParts ps space).1 = .err .unexpectedEndOfBuffer := by
  obtain ⟨pre, p, post, h1, h2, h3, h4⟩ := h
  have hf := (Part.refused_iff (ht p (by rw [h1]; simp)) _ .unexpectedEndOfBuffer).mpr ⟨rfl, h4⟩
  rw [h1, writeParts_stop pre p post _ h2 h3 (by rw [hf]; simp), hf]
  rfl

mutual
theorem parts_wf : ∀ (t : Ty) (v : Val), WF t v →
    (parts t v).flatMap Part.bytes = wire t v ∧ ∀ p ∈ parts t v, p.Sound
  | .prim n, .int x, _ => by simp [parts, wire, Part.bytes, Part.Sound]
  | .unit, .unit, _ => by simp [parts, wire]
  | .bytes n, .bytes b, _ => by simp [parts, wire, Part.bytes, Part.Sound]
  | .tpm2b cap, .tpm2b size b, h => by
    simp only [WF] at h
    simp [parts, wire, Part.bytes, Part.Sound, h.2]
  | .struct fs, .struct vs, h => by
    rw [WF] at h
    rw [parts, wire]
    exact partsFields_wf fs [] vs h
  | .enum w vs, .enum sel fvs, h => by
    rw [WF] at h
    have := partsVariant_wf vs sel fvs h.2
    rw [parts, wire]
    refine ⟨by simp [this.1, Part.bytes], fun p hp => ?_⟩
    rcases List.mem_cons.mp hp with rfl | hp
    · trivial
    · exact this.2 p hp
  | .split pre w mid vs, .split pvs mvs sel fvs, h => by
    rw [WF] at h
    have h1 := partsFields_wf pre [] pvs h.1
    have h2 := partsFields_wf mid [] mvs h.2.1
    have h3 := partsVariant_wf vs sel fvs h.2.2.2
    rw [parts, wire]
    refine ⟨by simp [h1.1, h2.1, h3.1, Part.bytes], fun p hp => ?_⟩
    simp only [List.mem_append, List.mem_cons] at hp
    rcases hp with hp | rfl | hp | hp
    · exact h1.2 p hp
    · trivial
    · exact h2.2 p hp
    · exact h3.2 p hp
theorem partsFields_wf : ∀ (fs : Fields) (env : List Nat) (vs : List Val), WFFields fs env vs →
    (partsFields fs env vs).flatMap Part.bytes = wireFields fs env vs ∧
      ∀ p ∈ partsFields fs env vs, p.Sound
  | .nil, env, [], _ => by
    rw [partsFields, wireFields]
    · simp
    all_goals simp
  | .plain t r, env, v :: vs, h => by
    rw [WFFields] at h
    have h1 := parts_wf t v h.1
    have h2 := partsFields_wf r (env ++ [asUsize v]) vs h.2
    rw [partsFields, wireFields]
    refine ⟨by simp [h1.1, h2.1], fun p hp => ?_⟩
    rcases List.mem_append.mp hp with hp | hp
    · exact h1.2 p hp
    · exact h2.2 p hp
  | .fixedArr t n r, env, .arr es :: vs, h => by
    rw [WFFields] at h
    obtain ⟨hn, he, h⟩ := h
    have h1 : ∀ e ∈ es, (parts t e).flatMap Part.bytes = wire t e ∧ ∀ p ∈ parts t e, p.Sound :=
      fun e hm => parts_wf t e (he e hm)
    have h2 := partsFields_wf r (env ++ [0]) vs h
    rw [partsFields, wireFields, if_pos (by omega), List.append_nil, List.take_of_length_le (by omega)]
    refine ⟨?_, fun p hp => ?_⟩
    · rw [List.flatMap_append, flatMap_parts t es fun e hm => (h1 e hm).1, h2.1]
    · rcases List.mem_append.mp hp with hp | hp
      · obtain ⟨l, hl, hp⟩ := List.mem_flatten.mp hp
        obtain ⟨e, he, rfl⟩ := List.mem_map.mp hl
        exact (h1 e he).2 p hp
      · exact h2.2 p hp
  | .lenArr k t n r, env, .arr es :: vs, h => by
    rw [WFFields] at h
    obtain ⟨hn, hk, he, h⟩ := h
    have h1 : ∀ e ∈ es.take (env.getD k 0),
        (parts t e).flatMap Part.bytes = wire t e ∧ ∀ p ∈ parts t e, p.Sound :=
      fun e hm => parts_wf t e (he e hm)
    have h2 := partsFields_wf r (env ++ [0]) vs h
    rw [partsFields, wireFields, if_pos (by omega), List.append_nil]
    refine ⟨?_, fun p hp => ?_⟩
    · rw [List.flatMap_append, flatMap_parts t _ fun e hm => (h1 e hm).1, h2.1]
    · rcases List.mem_append.mp hp with hp | hp
      · obtain ⟨l, hl, hp⟩ := List.mem_flatten.mp hp
        obtain ⟨e, he, rfl⟩ := List.mem_map.mp hl
        exact (h1 e he).2 p hp
      · exact h2.2 p hp
theorem partsVariant_wf : ∀ (vs : Variants) (sel : Nat) (fvs : List Val), WFVariant vs sel fvs →
    (partsVariant vs sel fvs).flatMap Part.bytes = wireVariant vs sel fvs ∧
      ∀ p ∈ partsVariant vs sel fvs, p.Sound
  | .cons s fs rest, sel, fvs, h => by
    rw [WFVariant] at h
    rw [partsVariant, wireVariant]
    split
    · rename_i hs
      rw [if_pos hs] at h
      exact partsFields_wf fs [] fvs h
    · rename_i hs
      rw [if_neg hs] at h
      exact partsVariant_wf rest sel fvs h
end

mutual
theorem parts_sound : ∀ (t : Ty) (v : Val), HasTy t v →
    (∀ p ∈ parts t v, p.Typed) ∧ ((∀ p ∈ parts t v, p.Sound) → WF t v)
  | .prim n, .int x, h => by simpa [parts, WF, HasTy, Part.Typed, Part.Sound] using h
  | .unit, .unit, _ => by simp [parts, WF]
  | .bytes n, .bytes b, h => by simpa [parts, WF, HasTy, Part.Typed, Part.Sound] using h
  | .tpm2b cap, .tpm2b size b, h => by
    simp only [HasTy] at h
    simp [parts, WF, Part.Typed, Part.Sound, h]
  | .struct fs, .struct vs, h => by
    rw [HasTy] at h
    rw [parts, WF]
    exact partsFields_sound fs [] vs h
  | .enum w vs, .enum sel fvs, h => by
    rw [HasTy] at h
    have := partsVariant_sound vs sel fvs h.2
    rw [parts, WF]
    refine ⟨fun p hp => ?_, fun hs => ⟨h.1, this.2 fun p hp => hs p (List.mem_cons_of_mem _ hp)⟩⟩
    rcases List.mem_cons.mp hp with rfl | hp
    · trivial
    · exact this.1 p hp
  | .split pre w mid vs, .split pvs mvs sel fvs, h => by
    rw [HasTy] at h
    have h1 := partsFields_sound pre [] pvs h.1
    have h2 := partsFields_sound mid [] mvs h.2.1
    have h3 := partsVariant_sound vs sel fvs h.2.2.2
    rw [parts, WF]
    simp only [List.mem_append, List.mem_cons]
    refine ⟨fun p hp => ?_, fun hs => ⟨h1.2 fun p hp => hs p (.inl hp),
      h2.2 fun p hp => hs p (.inr (.inr (.inl hp))), h.2.2.1,
      h3.2 fun p hp => hs p (.inr (.inr (.inr hp)))⟩⟩
    rcases hp with hp | rfl | hp | hp
    · exact h1.1 p hp
    · trivial
    · exact h2.1 p hp
    · exact h3.1 p hp
theorem partsFields_sound : ∀ (fs : Fields) (env : List Nat) (vs : List Val), HasTyFields fs vs →
    (∀ p ∈ partsFields fs env vs, p.Typed) ∧
      ((∀ p ∈ partsFields fs env vs, p.Sound) → WFFields fs env vs)
  | .nil, env, [], _ => by simp [partsFields, WFFields]
  | .plain t r, env, v :: vs, h => by
    rw [HasTyFields] at h
    have h1 := parts_sound t v h.1
    have h2 := partsFields_sound r (env ++ [asUsize v]) vs h.2
    rw [partsFields, WFFields]
    simp only [List.mem_append]
    refine ⟨fun p hp => ?_, fun hs => ⟨h1.2 fun p hp => hs p (.inl hp),
      h2.2 fun p hp => hs p (.inr hp)⟩⟩
    rcases hp with hp | hp
    · exact h1.1 p hp
    · exact h2.1 p hp
  | .fixedArr t n r, env, .arr es :: vs, h => by
    rw [HasTyFields] at h
    obtain ⟨hn, he, h⟩ := h
    have h1 : ∀ e ∈ es, (∀ p ∈ parts t e, p.Typed) ∧ ((∀ p ∈ parts t e, p.Sound) → WF t e) :=
      fun e hm => parts_sound t e (he e hm)
    have h2 := partsFields_sound r (env ++ [0]) vs h
    rw [partsFields, WFFields, if_pos (by omega), List.append_nil, List.take_of_length_le (by omega)]
    simp only [List.mem_append, List.mem_flatten, List.mem_map]
    refine ⟨fun p hp => ?_, fun hs => ⟨hn, fun e hm => (h1 e hm).2 fun p hp =>
      hs p (.inl ⟨_, ⟨e, hm, rfl⟩, hp⟩), h2.2 fun p hp => hs p (.inr hp)⟩⟩
    rcases hp with ⟨l, ⟨e, hm, rfl⟩, hp⟩ | hp
    · exact (h1 e hm).1 p hp
    · exact h2.1 p hp
  | .lenArr k t n r, env, .arr es :: vs, h => by
    rw [HasTyFields] at h
    obtain ⟨hn, he, h⟩ := h
    have h1 : ∀ e ∈ es, (∀ p ∈ parts t e, p.Typed) ∧ ((∀ p ∈ parts t e, p.Sound) → WF t e) :=
      fun e hm => parts_sound t e (he e hm)
    have h2 := partsFields_sound r (env ++ [0]) vs h
    rw [partsFields, WFFields]
    simp only [List.mem_append, List.mem_flatten, List.mem_map]
    refine ⟨fun p hp => ?_, fun hs => ⟨hn, ?_, fun e hm => (h1 e (List.mem_of_mem_take hm)).2
      fun p hp => hs p (.inl (.inl ⟨_, ⟨e, hm, rfl⟩, hp⟩)), h2.2 fun p hp => hs p (.inr hp)⟩⟩
    · rcases hp with (⟨l, ⟨e, hm, rfl⟩, hp⟩ | hp) | hp
      · exact (h1 e (List.mem_of_mem_take hm)).1 p hp
      · split at hp
        · cases hp
        · rw [List.mem_singleton.mp hp]; trivial
      · exact h2.1 p hp
    · by_cases hk : env.getD k 0 ≤ es.length
      · omega
      · exact (hs .missing (.inl (.inr (by rw [if_neg hk]; exact List.mem_singleton.mpr rfl)))).elim
theorem partsVariant_sound : ∀ (vs : Variants) (sel : Nat) (fvs : List Val), HasTyVariant vs sel fvs →
    (∀ p ∈ partsVariant vs sel fvs, p.Typed) ∧
      ((∀ p ∈ partsVariant vs sel fvs, p.Sound) → WFVariant vs sel fvs)
  | .cons s fs rest, sel, fvs, h => by
    rw [HasTyVariant] at h
    rw [partsVariant, WFVariant]
    split
    · rename_i hs
      rw [if_pos hs] at h
      exact partsFields_sound fs [] fvs h
    · rename_i hs
      rw [if_neg hs] at h
      exact partsVariant_sound rest sel fvs h
end

end Verif
