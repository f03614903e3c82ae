import Verif.Codec.Unmarshal

/-
What can be wrong with bytes that are not an encoding, stated with the wire
format only; and the proof that unmarshalling reports just that.
-/

namespace Verif

/-! ### Specification -/

/-- What is wrong with the first item at fault. -/
inductive Fault where
  /-- the input ends within the item -/
  | short
  /-- a sized buffer announces more bytes than it can hold -/
  | size
  /-- an undeclared selector -/
  | selector
  /-- a count beyond the capacity of the array -/
  | count
  deriving DecidableEq, Repr

/-- The elements `es` of an array of `n` can be read, the next one is at fault. -/
def FaultyLoop (F : Bytes → Prop) (P : Val → Prop) (w : Val → Bytes) (n : Nat) (b : Bytes) : Prop :=
  ∃ (es : List Val) (rest : Bytes), es.length < n ∧ (∀ e ∈ es, P e) ∧ b = (es.map w).flatten ++ rest ∧ F rest

mutual
/-- Reading a value of the type from the bytes, everything is fine up to an item
with the fault `k`. -/
def Faulty (k : Fault) : Ty → Bytes → Prop
  | .prim n, b => k = .short ∧ b.length < n
  | .unit, _ => False
  | .bytes m, b => k = .short ∧ b.length < m
  | .tpm2b cap, b =>
    (k = .short ∧ b.length < 2) ∨
    ∃ s rest, s < 65536 ∧ b = digits256 2 s ++ rest ∧
      ((k = .size ∧ cap < s) ∨ (k = .short ∧ s ≤ cap ∧ rest.length < s))
  | .struct fs, b => FaultyFields k fs [] b
  | .enum w vs, b =>
    (k = .short ∧ b.length < w) ∨
    ∃ sel rest, sel < 256 ^ w ∧ b = digits256 w sel ++ rest ∧ FaultyVariant k vs sel rest
  | .split pre w mid vs, b =>
    FaultyFields k pre [] b ∨
    ∃ pvs r1, WFFields pre [] pvs ∧ b = wireFields pre [] pvs ++ r1 ∧
      ((k = .short ∧ r1.length < w) ∨
      ∃ sel r2, sel < 256 ^ w ∧ r1 = digits256 w sel ++ r2 ∧
        (FaultyFields k mid [] r2 ∨
        ∃ mvs r3, WFFields mid [] mvs ∧ r2 = wireFields mid [] mvs ++ r3 ∧
          FaultyVariant k vs sel r3))
/-- The same for fields. -/
def FaultyFields (k : Fault) : Fields → List Nat → Bytes → Prop
  | .nil, _, _ => False
  | .plain t r, env, b =>
    Faulty k t b ∨
    ∃ v rest, WF t v ∧ b = wire t v ++ rest ∧ FaultyFields k r (env ++ [asUsize v]) rest
  | .fixedArr t n r, env, b =>
    FaultyLoop (fun b => Faulty k t b) (WF t) (wire t) n b ∨
    ∃ (es : List Val) (rest : Bytes), es.length = n ∧ (∀ e ∈ es, WF t e) ∧ b = (es.map (wire t)).flatten ++ rest ∧
      FaultyFields k r (env ++ [0]) rest
  | .lenArr j t n r, env, b =>
    (k = .count ∧ n < env.getD j 0) ∨
    (env.getD j 0 ≤ n ∧
      (FaultyLoop (fun b => Faulty k t b) (WF t) (wire t) (env.getD j 0) b ∨
      ∃ (es : List Val) (rest : Bytes), es.length = env.getD j 0 ∧ (∀ e ∈ es, WF t e) ∧
        b = (es.map (wire t)).flatten ++ rest ∧ FaultyFields k r (env ++ [0]) rest))
/-- The same for the data of the selected variant. -/
def FaultyVariant (k : Fault) : Variants → Nat → Bytes → Prop
  | .nil, _, _ => k = .selector
  | .cons s fs rest, sel, b =>
    if sel = s then FaultyFields k fs [] b else FaultyVariant k rest sel b
end

/-- The error code for each fault. -/
def Fault.code : Fault → MErr
  | .short => .unexpectedEndOfBuffer
  | .size => .unexpectedEndOfBuffer
  | .selector => .unknownSelector
  | .count => .arrayLengthExceeded

/-! ### Proof -/

/-- An unmarshalling function fails exactly on the given faults, which exclude
each other. -/
structure FailsU {α : Type} (u : UM α) (F : Fault → Bytes → Prop) : Prop where
  err : ∀ b e, (u b).1 = .err e ↔ ∃ k, F k b ∧ k.code = e
  uniq : ∀ b k k', F k b → F k' b → k = k'

theorem FailsU.not_ok {α : Type} {u : UM α} {F : Fault → Bytes → Prop} (h : FailsU u F) {b : Bytes}
    {k : Fault} {a : α} {r : Bytes} (hk : F k b) (hu : u b = (.ok a, r)) : False := by
  have := (h.err b k.code).mpr ⟨k, hk, rfl⟩
  rw [hu] at this
  cases this

theorem FailsU.congr {α : Type} {u : UM α} {F G : Fault → Bytes → Prop} (h : FailsU u F)
    (hFG : ∀ k b, G k b ↔ F k b) : FailsU u G where
  err b e := by simp only [hFG]; exact h.err b e
  uniq b k k' h1 h2 := h.uniq b k k' ((hFG _ _).mp h1) ((hFG _ _).mp h2)

theorem FailsU.bind {α β : Type} {u : UM α} {f : α → UM β}
    {P : α → Prop} {w : α → Bytes} {c : α → α} {F : Fault → Bytes → Prop}
    {G : α → Fault → Bytes → Prop} (hg : GoodU u P w c) (hu : FailsU u F)
    (hf : ∀ a, P a → FailsU (f a) (G a)) (hc : ∀ a, P a → f (c a) = f a)
    (hG : ∀ a k b, P a → (G (c a) k b ↔ G a k b)) :
    FailsU (u >>= f) (fun k b => F k b ∨ ∃ a rest, P a ∧ b = w a ++ rest ∧ G a k rest) := by
  constructor
  · intro b e
    rw [UM.bind_eq]
    constructor
    · intro h
      rcases hub : u b with ⟨_ | _ | _, b1⟩ <;> rw [hub] at h
      · rename_i a
        obtain ⟨pa, -, hb⟩ := hg.sound _ _ _ hub
        obtain ⟨k, hk, he⟩ := ((hf a pa).err b1 e).mp h
        exact ⟨k, .inr ⟨a, b1, pa, hb, hk⟩, he⟩
      · obtain ⟨k, hk, he⟩ := (hu.err b e).mp (by rw [hub]; simpa using h)
        exact ⟨k, .inl hk, he⟩
      · cases h
    · rintro ⟨k, hk | ⟨a, rest, pa, rfl, hk⟩, rfl⟩
      · have := (hu.err b k.code).mpr ⟨k, hk, rfl⟩
        rcases hub : u b with ⟨_ | _ | _, b1⟩ <;> rw [hub] at this <;> simp_all
      · rw [hg.complete a rest pa]
        simp only [hc a pa]
        exact ((hf a pa).err rest k.code).mpr ⟨k, hk, rfl⟩
  · rintro b k k' (h1 | ⟨a, r, pa, rfl, h1⟩) (h2 | ⟨a', r', pa', hb, h2⟩)
    · exact hu.uniq b k k' h1 h2
    · subst hb
      exact (hu.not_ok h1 (hg.complete a' r' pa')).elim
    · exact (hu.not_ok h2 (hg.complete a r pa)).elim
    · have e1 := hg.complete a r pa
      have e2 := hg.complete a' r' pa'
      rw [← hb, e1] at e2
      simp only [Prod.mk.injEq, Res.ok.injEq] at e2
      obtain ⟨e2, rfl⟩ := e2
      have h2 := (hG a' k' r pa').mpr h2
      rw [← e2] at h2
      exact (hf a pa).uniq r k k' h1 ((hG a k' r pa).mp h2)

theorem FailsU.map {α γ : Type} {u : UM α} {F : Fault → Bytes → Prop} (hu : FailsU u F)
    (mk : α → γ) : FailsU (do let a ← u; pure (mk a)) F := by
  constructor
  · intro b e
    rw [← hu.err b e, UM.bind_eq]
    rcases u b with ⟨_ | _ | _, b1⟩ <;> simp [UM.pure_eq]
  · exact hu.uniq

theorem FailsU.seq {α β γ : Type} {u : UM α} {f : α → UM β} (mk : α → β → γ)
    {P : α → Prop} {w : α → Bytes} {c : α → α} {F : Fault → Bytes → Prop}
    {G : α → Fault → Bytes → Prop} (hg : GoodU u P w c) (hu : FailsU u F)
    (hf : ∀ a, P a → FailsU (f a) (G a)) (hc : ∀ a, P a → f (c a) = f a)
    (hG : ∀ a k b, P a → (G (c a) k b ↔ G a k b)) :
    FailsU (do let a ← u; let b ← f a; pure (mk a b))
      (fun k b => F k b ∨ ∃ a rest, P a ∧ b = w a ++ rest ∧ G a k rest) := by
  have h := FailsU.bind hg hu hf hc hG
  constructor
  · intro b e
    rw [← h.err b e]
    simp only [UM.bind_eq]
    rcases u b with ⟨a | _ | _, b1⟩
    · simp only [UM.pure_eq]
      rcases f a b1 with ⟨_ | _ | _, b2⟩ <;> simp
    · simp
    · simp
  · exact h.uniq

theorem failsPure {α : Type} (a : α) : FailsU (Pure.pure a : UM α) (fun _ _ => False) where
  err b e := by simp [UM.pure_eq]
  uniq _ _ _ h := h.elim

theorem failsBytes (m : Nat) : FailsU (unmarshalBytes m) (fun k b => k = .short ∧ b.length < m) where
  err b e := by
    rw [unmarshalBytes_eq]
    split
    · rename_i h
      simp only [reduceCtorEq, false_iff]
      rintro ⟨k, ⟨-, h'⟩, -⟩
      omega
    · rename_i h
      simp only [Res.err.injEq]
      constructor
      · rintro rfl
        exact ⟨.short, ⟨rfl, by omega⟩, rfl⟩
      · rintro ⟨k, ⟨rfl, -⟩, rfl⟩
        rfl
  uniq b k k' h1 h2 := by rw [h1.1, h2.1]

theorem failsPrim (n : Nat) : FailsU (unmarshalPrim n) (fun k b => k = .short ∧ b.length < n) :=
  (failsBytes n).map _

theorem failsTpm2bTail (cap s : Nat) : FailsU (tpm2bTail cap s)
    (fun k rest => (k = .size ∧ cap < s) ∨ (k = .short ∧ s ≤ cap ∧ rest.length < s)) where
  err b e := by
    rw [tpm2bTail_eq]
    split
    · rename_i h
      simp only [Res.err.injEq]
      constructor
      · rintro rfl
        by_cases hc : cap < s
        · exact ⟨.size, .inl ⟨rfl, hc⟩, rfl⟩
        · exact ⟨.short, .inr ⟨rfl, by omega, h⟩, rfl⟩
      · rintro ⟨k, ⟨rfl, -⟩ | ⟨rfl, -⟩, rfl⟩ <;> rfl
    · rename_i h
      split
      · rename_i hc
        simp only [Res.err.injEq]
        constructor
        · rintro rfl
          exact ⟨.size, .inl ⟨rfl, hc⟩, rfl⟩
        · rintro ⟨k, ⟨rfl, -⟩ | ⟨rfl, -⟩, rfl⟩ <;> rfl
      · rename_i hc
        simp only [reduceCtorEq, false_iff]
        rintro ⟨k, ⟨-, h'⟩ | ⟨-, -, h'⟩, -⟩
        · exact hc h'
        · exact h h'
  uniq b k k' h1 h2 := by
    rcases h1 with ⟨rfl, h1⟩ | ⟨rfl, h1, -⟩ <;> rcases h2 with ⟨rfl, h2⟩ | ⟨rfl, h2, -⟩
    · rfl
    · omega
    · omega
    · rfl

theorem unmarshalTpm2b_eq (cap : Nat) :
    unmarshalTpm2b cap = (unmarshalPrim 2 >>= fun s => tpm2bTail cap s) := rfl

theorem failsLoop {u : UM Val} {P : Val → Prop} {w : Val → Bytes} {c : Val → Val}
    {F : Fault → Bytes → Prop} (hg : GoodU u P w c) (hu : FailsU u F) (n : Nat) :
    FailsU (unmarshalLoop u n) (fun k b => FaultyLoop (F k) P w n b) := by
  induction n with
  | zero =>
    refine (failsPure []).congr fun k b => ?_
    simp [FaultyLoop]
  | succ n ih =>
    refine (FailsU.seq (fun v vs => v :: vs) (G := fun _ k b => FaultyLoop (F k) P w n b) hg hu
      (fun _ _ => ih) (fun _ _ => rfl) ?_).congr ?_
    · intros; exact Iff.rfl
    · intro k b
      constructor
      · rintro ⟨es, rest, hl, hP, rfl, hF⟩
        cases es with
        | nil => exact .inl (by simpa using hF)
        | cons e es =>
          refine .inr ⟨e, (es.map w).flatten ++ rest, hP e (by simp), by simp, es, rest, ?_,
            fun x hx => hP x (by simp [hx]), rfl, hF⟩
          simpa using hl
      · rintro (h | ⟨a, rest, pa, rfl, es, r, hl, hP, rfl, hF⟩)
        · exact ⟨[], b, by simp, by simp, by simp, h⟩
        · refine ⟨a :: es, r, by simpa using hl, ?_, by simp, hF⟩
          intro e he
          rcases List.mem_cons.mp he with rfl | h
          · exact pa
          · exact hP e h

mutual
theorem failsTy : ∀ t : Ty, FailsU (unmarshal t) (fun k b => Faulty k t b)
  | .prim n => by
    unfold unmarshal
    refine ((failsPrim n).map _).congr fun k b => ?_
    simp only [Faulty]
  | .unit => by
    unfold unmarshal
    refine (failsPure _).congr fun k b => ?_
    simp only [Faulty]
  | .bytes m => by
    unfold unmarshal
    refine ((failsBytes m).map _).congr fun k b => ?_
    simp only [Faulty]
  | .tpm2b cap => by
    unfold unmarshal
    rw [unmarshalTpm2b_eq]
    refine (FailsU.bind (goodPrim 2) (failsPrim 2) (fun s _ => failsTpm2bTail cap s)
      (fun _ _ => rfl) (fun _ _ _ _ => Iff.rfl)).congr fun k b => ?_
    simp only [Faulty]
  | .struct fs => by
    unfold unmarshal
    refine ((failsFields fs []).map _).congr fun k b => ?_
    simp only [Faulty]
  | .enum w vs => by
    unfold unmarshal
    refine (FailsU.seq _ (goodPrim w) (failsPrim w) (fun s _ => failsVariant vs s)
      (fun _ _ => rfl) (fun _ _ _ _ => Iff.rfl)).congr fun k b => ?_
    simp only [Faulty]
  | .split pre w mid vs => by
    have h3 : ∀ sel, FailsU (do
        let mvs ← unmarshalFields mid []
        let fvs ← unmarshalVariant vs sel
        pure (mvs, fvs)) _ := fun sel =>
      FailsU.seq _ (goodFields mid []) (failsFields mid []) (fun _ _ => failsVariant vs sel)
        (fun _ _ => rfl) (fun _ _ _ _ => Iff.rfl)
    have h2 : FailsU (do
        let sel ← unmarshalPrim w
        let x ← (do
          let mvs ← unmarshalFields mid []
          let fvs ← unmarshalVariant vs sel
          pure (mvs, fvs))
        pure (sel, x)) _ :=
      FailsU.seq _ (goodPrim w) (failsPrim w) (fun sel _ => h3 sel)
        (fun _ _ => rfl) (fun _ _ _ _ => Iff.rfl)
    have h1 : FailsU (do
        let pvs ← unmarshalFields pre []
        let x ← (do
          let sel ← unmarshalPrim w
          let x ← (do
            let mvs ← unmarshalFields mid []
            let fvs ← unmarshalVariant vs sel
            pure (mvs, fvs))
          pure (sel, x))
        pure (Val.split pvs x.2.1 x.1 x.2.2)) _ :=
      FailsU.seq _ (goodFields pre []) (failsFields pre []) (fun _ _ => h2)
        (fun _ _ => rfl) (fun _ _ _ _ => Iff.rfl)
    have heq : unmarshal (.split pre w mid vs) = (do
        let pvs ← unmarshalFields pre []
        let x ← (do
          let sel ← unmarshalPrim w
          let x ← (do
            let mvs ← unmarshalFields mid []
            let fvs ← unmarshalVariant vs sel
            pure (mvs, fvs))
          pure (sel, x))
        pure (Val.split pvs x.2.1 x.1 x.2.2)) := by
      unfold unmarshal
      funext b
      simp only [UM.bind_eq]
      rcases unmarshalFields pre [] b with ⟨_ | _ | _, b1⟩ <;> simp only
      rcases unmarshalPrim w b1 with ⟨_ | _ | _, b2⟩ <;> simp only
      rcases unmarshalFields mid [] b2 with ⟨_ | _ | _, b3⟩ <;> simp only
      rename_i sel _
      rcases unmarshalVariant vs sel b3 with ⟨_ | _ | _, b4⟩ <;> simp only [UM.pure_eq]
    rw [heq]
    refine h1.congr fun k b => ?_
    simp only [Faulty]
theorem failsFields : ∀ (fs : Fields) (env : List Nat),
    FailsU (unmarshalFields fs env) (fun k b => FaultyFields k fs env b)
  | .nil, env => by
    unfold unmarshalFields
    refine (failsPure _).congr fun k b => ?_
    simp only [FaultyFields]
  | .plain t r, env => by
    unfold unmarshalFields
    refine (FailsU.seq _ (goodTy t) (failsTy t) (fun v _ => failsFields r (env ++ [asUsize v]))
      (fun v _ => by rw [asUsize_canon]) (fun v _ _ _ => by rw [asUsize_canon])).congr
      fun k b => ?_
    simp only [FaultyFields]
  | .fixedArr t n r, env => by
    unfold unmarshalFields
    refine (FailsU.seq (fun es vs => Val.arr (es ++ (List.replicate n t.default).drop n) :: vs)
      (goodLoop (goodTy t) n) (failsLoop (goodTy t) (failsTy t) n)
      (fun _ _ => failsFields r (env ++ [0])) (fun _ _ => rfl) (fun _ _ _ _ => Iff.rfl)).congr
      fun k b => ?_
    simp only [FaultyFields, and_assoc]
  | .lenArr j t n r, env => by
    unfold unmarshalFields
    simp only
    by_cases hlen : env.getD j 0 > n
    · simp only [hlen, if_true]
      constructor
      · intro b e
        simp only [UM.fail, Res.err.injEq, FaultyFields]
        constructor
        · rintro rfl
          exact ⟨.count, .inl ⟨rfl, hlen⟩, rfl⟩
        · rintro ⟨k, ⟨rfl, -⟩ | ⟨h, -⟩, rfl⟩
          · rfl
          · omega
      · intro b k k' h1 h2
        simp only [FaultyFields] at h1 h2
        rcases h1 with ⟨rfl, -⟩ | ⟨h, -⟩
        · rcases h2 with ⟨rfl, -⟩ | ⟨h, -⟩
          · rfl
          · omega
        · omega
    · simp only [hlen, if_false]
      refine (FailsU.seq (fun es vs =>
          Val.arr (es ++ (List.replicate n t.default).drop (env.getD j 0)) :: vs)
        (goodLoop (goodTy t) (env.getD j 0)) (failsLoop (goodTy t) (failsTy t) (env.getD j 0))
        (fun _ _ => failsFields r (env ++ [0])) (fun _ _ => rfl) (fun _ _ _ _ => Iff.rfl)).congr
        fun k b => ?_
      simp only [FaultyFields, and_assoc]
      constructor
      · rintro (⟨-, h⟩ | ⟨-, h⟩)
        · exact absurd h hlen
        · exact h
      · intro h
        exact .inr ⟨by omega, h⟩
theorem failsVariant : ∀ (vs : Variants) (sel : Nat),
    FailsU (unmarshalVariant vs sel) (fun k b => FaultyVariant k vs sel b)
  | .nil, sel => by
    unfold unmarshalVariant
    constructor
    · intro b e
      simp only [UM.fail, Res.err.injEq, FaultyVariant]
      constructor
      · rintro rfl; exact ⟨_, rfl, rfl⟩
      · rintro ⟨k, rfl, rfl⟩; rfl
    · intro b k k' h1 h2
      simp only [FaultyVariant] at h1 h2
      rw [h1, h2]
  | .cons s fs rest, sel => by
    unfold unmarshalVariant
    by_cases h : sel = s
    · simp only [h, if_true]
      refine (failsFields fs []).congr fun k b => ?_
      simp only [FaultyVariant, if_true]
    · simp only [h, if_false]
      refine (failsVariant rest sel).congr fun k b => ?_
      simp only [FaultyVariant, h, if_false]
end

end Verif
