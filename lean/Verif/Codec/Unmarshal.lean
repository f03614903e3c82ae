import Verif.Codec.IntLemmas

/-! Helper lemmas: unmarshalling is sound and complete for the wire format. -/

namespace Verif

/-- What we prove of every unmarshalling function, relative to a specification
consisting of a validity predicate, an encoding and a canonical form. -/
structure GoodU {α : Type} (u : UM α) (P : α → Prop) (w : α → Bytes) (c : α → α) : Prop where
  sound : ∀ b a r, u b = (.ok a, r) → P a ∧ c a = a ∧ b = w a ++ r
  complete : ∀ a x, P a → u (w a ++ x) = (.ok (c a), x)
  total : ∀ b, (u b).1 ≠ .panic ∧ ∃ p, b = p ++ (u b).2
  trunc : ∀ a p q, P a → w a = p ++ q → q ≠ [] → (u p).1 = .err .unexpectedEndOfBuffer

namespace UM

theorem bind_eq {α β : Type} (m : UM α) (f : α → UM β) (b : Bytes) :
    (m >>= f) b = match m b with
      | (.ok a, b') => f a b'
      | (.err e, b') => (.err e, b')
      | (.panic, b') => (.panic, b') := rfl

theorem pure_eq {α : Type} (a : α) (b : Bytes) : (Pure.pure a : UM α) b = (.ok a, b) := rfl

end UM

theorem GoodU.seqGen {α β γ : Type} {u : UM α} {f : α → UM β} {mk : α → β → γ}
    {Pa : α → Prop} {wa : α → Bytes} {ca : α → α}
    {Pb : α → β → Prop} {wb : α → β → Bytes} {cb : α → β → β}
    {P : γ → Prop} {w : γ → Bytes} {c : γ → γ}
    (hu : GoodU u Pa wa ca)
    (hf : ∀ a, Pa a → GoodU (f a) (Pb a) (wb a) (cb a))
    (hfc : ∀ a, Pa a → f (ca a) = f a)
    (hdec : ∀ g, P g → ∃ a b, Pa a ∧ Pb a b ∧ w g = wa a ++ wb a b ∧ c g = mk (ca a) (cb a b))
    (hmk : ∀ a b, Pa a → Pb a b → ca a = a → cb a b = b →
      P (mk a b) ∧ c (mk a b) = mk a b ∧ w (mk a b) = wa a ++ wb a b) :
    GoodU (do let a ← u; let b ← f a; pure (mk a b)) P w c := by
  constructor
  · intro b g r h
    simp only [UM.bind_eq] at h
    rcases hub : u b with ⟨_ | _ | _, b1⟩ <;> rw [hub] at h <;> simp at h
    rename_i a
    obtain ⟨pa, ca', rfl⟩ := hu.sound _ _ _ hub
    rcases hfb : f a b1 with ⟨_ | _ | _, b2⟩ <;> rw [hfb] at h <;> simp [UM.pure_eq] at h
    obtain ⟨rfl, rfl⟩ := h
    obtain ⟨pb, cb', rfl⟩ := (hf a pa).sound _ _ _ hfb
    obtain ⟨h1, h2, h3⟩ := hmk _ _ pa pb ca' cb'
    exact ⟨h1, h2, by rw [h3, List.append_assoc]⟩
  · intro g x pg
    obtain ⟨a, b, pa, pb, hw, hc⟩ := hdec g pg
    rw [hw, hc, List.append_assoc]
    simp only [UM.bind_eq, hu.complete _ _ pa, hfc _ pa, (hf a pa).complete _ _ pb, UM.pure_eq]
  · intro b
    simp only [UM.bind_eq]
    have ht := hu.total b
    rcases hub : u b with ⟨_ | _ | _, b1⟩ <;> rw [hub] at ht <;> simp only at ht ⊢
    · rename_i a
      obtain ⟨-, p, rfl⟩ := ht
      obtain ⟨pa, -, -⟩ := hu.sound _ _ _ hub
      have ht2 := (hf a pa).total b1
      rcases hfb : f a b1 with ⟨_ | _ | _, b2⟩ <;> rw [hfb] at ht2 <;>
        simp only [UM.pure_eq] at ht2 ⊢
      · obtain ⟨-, q, rfl⟩ := ht2
        exact ⟨by simp, p ++ q, by simp⟩
      · obtain ⟨-, q, rfl⟩ := ht2
        exact ⟨by simp, p ++ q, by simp⟩
      · exact absurd rfl ht2.1
    · exact ⟨by simp, ht.2⟩
    · exact absurd rfl ht.1
  · intro g p q pg hpq hq
    obtain ⟨a, b, pa, pb, hw, hc⟩ := hdec g pg
    rw [hw] at hpq
    simp only [UM.bind_eq]
    rcases List.append_eq_append_iff.mp hpq with ⟨s, rfl, hs⟩ | ⟨s, hs, rfl⟩
    · -- the first part is complete
      rw [hu.complete _ _ pa]
      simp only [hfc _ pa]
      have := (hf a pa).trunc _ _ _ pb hs hq
      rcases hfb : f a s with ⟨_ | _ | _, b2⟩ <;> rw [hfb] at this <;> simp at this
      simp [this]
    · by_cases hs0 : s = []
      · subst hs0
        have hp : p = wa a := by simpa using hs.symm
        subst hp
        have := hu.complete _ [] pa
        rw [List.append_nil] at this
        rw [this]
        simp only [hfc _ pa]
        have := (hf a pa).trunc b [] (wb a b) pb rfl (by simpa using hq)
        rcases hfb : f a [] with ⟨_ | _ | _, b2⟩ <;> rw [hfb] at this <;> simp at this
        simp [this]
      · have := hu.trunc _ _ _ pa hs hs0
        rcases hub : u p with ⟨_ | _ | _, b1⟩ <;> rw [hub] at this <;> simp at this
        simp [this]

theorem GoodU.seq {α β γ : Type} {u : UM α} {f : α → UM β} {mk : α → β → γ}
    {Pa : α → Prop} {wa : α → Bytes} {ca : α → α}
    {Pb : α → β → Prop} {wb : α → β → Bytes} {cb : α → β → β}
    {P : γ → Prop} {w : γ → Bytes} {c : γ → γ}
    (hu : GoodU u Pa wa ca)
    (hf : ∀ a, Pa a → GoodU (f a) (Pb a) (wb a) (cb a))
    (hfc : ∀ a, Pa a → f (ca a) = f a)
    (hP : ∀ g, P g → ∃ a b, g = mk a b ∧ Pa a ∧ Pb a b)
    (hmk : ∀ a b, Pa a → Pb a b → P (mk a b))
    (hw : ∀ a b, Pa a → Pb a b → w (mk a b) = wa a ++ wb a b)
    (hc : ∀ a b, Pa a → Pb a b → c (mk a b) = mk (ca a) (cb a b)) :
    GoodU (do let a ← u; let b ← f a; pure (mk a b)) P w c := by
  apply GoodU.seqGen hu hf hfc
  · intro g hg
    obtain ⟨a, b, rfl, pa, pb⟩ := hP g hg
    exact ⟨a, b, pa, pb, hw _ _ pa pb, hc _ _ pa pb⟩
  · intro a b pa pb ha hb
    exact ⟨hmk _ _ pa pb, by rw [hc _ _ pa pb, ha, hb], hw _ _ pa pb⟩

theorem GoodU.map {α γ : Type} {u : UM α} {mk : α → γ}
    {Pa : α → Prop} {wa : α → Bytes} {ca : α → α}
    {P : γ → Prop} {w : γ → Bytes} {c : γ → γ}
    (hu : GoodU u Pa wa ca)
    (hP : ∀ g, P g → ∃ a, g = mk a ∧ Pa a)
    (hmk : ∀ a, Pa a → P (mk a))
    (hw : ∀ a, Pa a → w (mk a) = wa a)
    (hc : ∀ a, Pa a → c (mk a) = mk (ca a)) :
    GoodU (do let a ← u; pure (mk a)) P w c := by
  constructor
  · intro b g r h
    simp only [UM.bind_eq] at h
    rcases hub : u b with ⟨_ | _ | _, b1⟩ <;> rw [hub] at h <;> simp [UM.pure_eq] at h
    rename_i a
    obtain ⟨pa, ca', rfl⟩ := hu.sound _ _ _ hub
    obtain ⟨rfl, rfl⟩ := h
    exact ⟨hmk _ pa, by rw [hc _ pa, ca'], by rw [hw _ pa]⟩
  · intro g x pg
    obtain ⟨a, rfl, pa⟩ := hP g pg
    simp only [hw _ pa, hc _ pa, UM.bind_eq, hu.complete _ _ pa, UM.pure_eq]
  · intro b
    simp only [UM.bind_eq]
    have ht := hu.total b
    rcases hub : u b with ⟨_ | _ | _, b1⟩ <;> rw [hub] at ht <;> simp only [UM.pure_eq] at ht ⊢
    · exact ⟨by simp, ht.2⟩
    · exact ⟨by simp, ht.2⟩
    · exact absurd rfl ht.1
  · intro g p q pg hpq hq
    obtain ⟨a, rfl, pa⟩ := hP g pg
    rw [hw _ pa] at hpq
    simp only [UM.bind_eq]
    have := hu.trunc _ _ _ pa hpq hq
    rcases hub : u p with ⟨_ | _ | _, b1⟩ <;> rw [hub] at this <;> simp at this
    simp [this]

theorem GoodU.pure {α : Type} {P : α → Prop} {w : α → Bytes} {c : α → α} (a : α)
    (hP : ∀ g, P g ↔ g = a) (hw : w a = []) (hc : c a = a) :
    GoodU (Pure.pure a : UM α) P w c := by
  constructor
  · intro b g r h
    simp [UM.pure_eq] at h
    obtain ⟨rfl, rfl⟩ := h
    exact ⟨(hP _).mpr rfl, hc, by simp [hw]⟩
  · intro g x pg
    obtain rfl := (hP _).mp pg
    simp [UM.pure_eq, hw, hc]
  · intro b
    exact ⟨by simp [UM.pure_eq], [], by simp [UM.pure_eq]⟩
  · intro g p q pg hpq hq
    obtain rfl := (hP _).mp pg
    rw [hw] at hpq
    simp at hpq
    exact absurd hpq.2 hq

/-- A function that always fails is good for the empty specification. -/
theorem GoodU.fail {α : Type} {P : α → Prop} {w : α → Bytes} {c : α → α} (e : MErr)
    (hP : ∀ g, ¬ P g) : GoodU (UM.fail e : UM α) P w c := by
  constructor
  · intro b g r h
    simp [UM.fail] at h
  · intro g x pg; exact absurd pg (hP g)
  · intro b; exact ⟨by simp [UM.fail], [], by simp [UM.fail]⟩
  · intro g p q pg; exact absurd pg (hP g)

theorem GoodU.congr {α : Type} {u : UM α} {P P' : α → Prop} {w w' : α → Bytes} {c c' : α → α}
    (h : GoodU u P w c) (hP : ∀ a, P' a ↔ P a) (hw : ∀ a, P a → w' a = w a)
    (hc : ∀ a, P a → c' a = c a) : GoodU u P' w' c' := by
  constructor
  · intro b a r hb
    obtain ⟨p, q, rfl⟩ := h.sound b a r hb
    exact ⟨(hP a).mpr p, by rw [hc _ p, q], by rw [hw _ p]⟩
  · intro a x pa
    have pa := (hP a).mp pa
    rw [hw _ pa, hc _ pa]; exact h.complete a x pa
  · exact h.total
  · intro a p q pa
    have pa := (hP a).mp pa
    rw [hw _ pa]; exact h.trunc a p q pa

/-! ### Primitive types -/

theorem unmarshalBytes_eq (m : Nat) (b : Bytes) :
    unmarshalBytes m b =
      if m ≤ b.length then (.ok (b.take m), b.drop m) else (.err .unexpectedEndOfBuffer, b) := by
  unfold unmarshalBytes
  simp only [UM.bind_eq, bufGet]
  by_cases h : m > b.length
  · simp [h, UM.fail]
  · simp [h, UM.pure_eq, Nat.not_lt.mp h]

theorem goodBytes (m : Nat) :
    GoodU (unmarshalBytes m) (fun b => b.length = m) (fun b => b) (fun b => b) := by
  constructor
  · intro b a r h
    rw [unmarshalBytes_eq] at h
    split at h <;> simp at h
    obtain ⟨rfl, rfl⟩ := h
    simp; omega
  · intro a x ha
    subst ha
    rw [unmarshalBytes_eq]
    simp
  · intro b
    rw [unmarshalBytes_eq]
    split
    · exact ⟨by simp, b.take m, by simp⟩
    · exact ⟨by simp, [], by simp⟩
  · intro a p q ha hpq hq
    rw [unmarshalBytes_eq]
    have : p.length < m := by
      have := congrArg List.length hpq
      have hq' : 0 < q.length := by
        cases q with
        | nil => exact absurd rfl hq
        | cons => simp
      simp at this; omega
    simp [Nat.not_le.mpr this]

theorem goodPrim (n : Nat) :
    GoodU (unmarshalPrim n) (fun x => x < 256 ^ n) (fun x => digits256 n x) (fun x => x) := by
  have hb := goodBytes n
  constructor
  · intro b x r h
    unfold unmarshalPrim at h
    simp only [UM.bind_eq] at h
    rcases hub : unmarshalBytes n b with ⟨_ | _ | _, b1⟩ <;> rw [hub] at h <;>
      simp [UM.pure_eq] at h
    rename_i a
    obtain ⟨rfl, -, rfl⟩ := hb.sound _ _ _ hub
    obtain ⟨rfl, rfl⟩ := h
    rw [fromBE_eq_positional]
    exact ⟨positional_lt _, rfl, by rw [digits256_positional]⟩
  · intro x y hx
    unfold unmarshalPrim
    simp only [UM.bind_eq, hb.complete _ _ (digits256_length n x), UM.pure_eq,
      fromBE_eq_positional, positional_digits256_of_lt hx]
  · intro b
    unfold unmarshalPrim
    have ht := hb.total b
    simp only [UM.bind_eq]
    rcases hub : unmarshalBytes n b with ⟨_ | _ | _, b1⟩ <;> rw [hub] at ht <;>
      simp only [UM.pure_eq] at ht ⊢
    · exact ⟨by simp, ht.2⟩
    · exact ⟨by simp, ht.2⟩
    · exact absurd rfl ht.1
  · intro x p q hx hpq hq
    unfold unmarshalPrim
    have := hb.trunc _ _ _ (digits256_length n x) hpq hq
    simp only [UM.bind_eq]
    rcases hub : unmarshalBytes n p with ⟨_ | _ | _, b1⟩ <;> rw [hub] at this <;> simp at this
    simp [this]

/-- The payload part of a sized buffer of which the size has been read. -/
def tpm2bTail (cap size : Nat) : UM Val := do
  match ← bufGet size with
  | none => UM.fail .unexpectedEndOfBuffer
  | some sized =>
    if sized.length > cap then UM.fail .unexpectedEndOfBuffer
    else
      match copyPrefix (List.replicate cap 0) size sized with
      | some field => pure (.tpm2b size field)
      | none => UM.panic

theorem tpm2bTail_eq (cap size : Nat) (b : Bytes) :
    tpm2bTail cap size b =
      if b.length < size then (.err .unexpectedEndOfBuffer, b)
      else if cap < size then (.err .unexpectedEndOfBuffer, b.drop size)
      else (.ok (.tpm2b size (b.take size ++ List.replicate (cap - size) 0)), b.drop size) := by
  unfold tpm2bTail
  simp only [UM.bind_eq, bufGet]
  by_cases h : size > b.length
  · simp [h, UM.fail]
  · have h' : ¬ b.length < size := h
    simp only [h, if_false]
    have hl : (List.take size b).length = size := by simp; omega
    rw [hl]
    by_cases hc : size > cap
    · simp [hc, UM.fail]
    · have hc' : ¬ cap < size := hc
      simp only [hc', if_false, copyPrefix]
      have : size ≤ (List.replicate cap (0 : UInt8)).length ∧ (List.take size b).length = size := by
        simp; omega
      rw [if_pos this]
      simp [UM.pure_eq]

theorem goodTpm2b (cap : Nat) :
    GoodU (unmarshalTpm2b cap) (WF (.tpm2b cap)) (wire (.tpm2b cap)) (canon (.tpm2b cap)) := by
  have hp := goodPrim 2
  have heq : ∀ b, unmarshalTpm2b cap b = match unmarshalPrim 2 b with
      | (.ok s, b') => tpm2bTail cap s b'
      | (.err e, b') => (.err e, b')
      | (.panic, b') => (.panic, b') := by
    intro b; unfold unmarshalTpm2b; rw [UM.bind_eq]
    rcases unmarshalPrim 2 b with ⟨_ | _ | _, _⟩ <;> rfl
  constructor
  · intro b a r h
    rw [heq] at h
    rcases hub : unmarshalPrim 2 b with ⟨_ | _ | _, b1⟩ <;> rw [hub] at h <;> simp at h
    rename_i s
    obtain ⟨hs, -, rfl⟩ := hp.sound _ _ _ hub
    rw [tpm2bTail_eq] at h
    split at h
    · simp at h
    · split at h
      · simp at h
      · simp at h
        obtain ⟨rfl, rfl⟩ := h
        refine ⟨?_, ?_, ?_⟩
        · simp [WF]; omega
        · simp only [canon]
          rw [List.take_append_of_le_length (by simp; omega)]
          simp [List.take_take]
        · simp only [wire, List.append_assoc]
          rw [List.take_append_of_le_length (by simp; omega)]
          simp [List.take_take]
  · intro a x ha
    cases a <;> simp only [WF] at ha
    rename_i size b
    obtain ⟨hs, hl, hc⟩ := ha
    simp only [wire, List.append_assoc, heq, hp.complete _ _ (show size < 256 ^ 2 from hs), canon]
    rw [tpm2bTail_eq]
    rw [if_neg (by simp; omega), if_neg (by omega)]
    have h1 : (List.take size b).length = size := by simp; omega
    rw [List.take_append_of_le_length (by omega), List.drop_append_of_le_length (by omega)]
    simp [h1, List.take_of_length_le]
  · intro b
    rw [heq]
    have ht := hp.total b
    rcases hub : unmarshalPrim 2 b with ⟨_ | _ | _, b1⟩ <;> rw [hub] at ht <;> simp only at ht ⊢
    · obtain ⟨-, p, rfl⟩ := ht
      rw [tpm2bTail_eq]
      split
      · exact ⟨by simp, p, rfl⟩
      · rename_i s _
        split <;> exact ⟨by simp, p ++ b1.take s, by simp⟩
    · exact ⟨by simp, ht.2⟩
    · exact absurd rfl ht.1
  · intro a p q ha hpq hq
    cases a <;> simp only [WF] at ha
    rename_i size b
    obtain ⟨hs, hl, hc⟩ := ha
    have hs' : size < 256 ^ 2 := hs
    simp only [wire] at hpq
    rw [heq]
    rcases List.append_eq_append_iff.mp hpq with ⟨s, rfl, hs2⟩ | ⟨s, hs2, rfl⟩
    · rw [hp.complete _ _ hs']
      simp only
      rw [tpm2bTail_eq]
      have : s.length < size := by
        have := congrArg List.length hs2
        have hq' : 0 < q.length := by
          cases q with
          | nil => exact absurd rfl hq
          | cons => simp
        simp at this; omega
      simp [this]
    · by_cases hs0 : s = []
      · subst hs0
        have hp' : p = digits256 2 size := by simpa using hs2.symm
        subst hp'
        have := hp.complete _ [] hs'
        rw [List.append_nil] at this
        rw [this]
        simp only
        rw [tpm2bTail_eq]
        have : ([] : Bytes).length < size := by
          rcases Nat.eq_zero_or_pos size with h | h
          · subst h; simp at hq
          · simpa using h
        simp only [this, if_true]
      · have := hp.trunc _ _ _ hs' hs2 hs0
        rcases hub : unmarshalPrim 2 p with ⟨_ | _ | _, b1⟩ <;> rw [hub] at this <;> simp at this
        simp [this]

/-! ### Loops -/

theorem goodLoop {u : UM Val} {P : Val → Prop} {w : Val → Bytes} {c : Val → Val}
    (hu : GoodU u P w c) (n : Nat) :
    GoodU (unmarshalLoop u n) (fun es => es.length = n ∧ ∀ e ∈ es, P e)
      (fun es => (es.map w).flatten) (fun es => es.map c) := by
  induction n with
  | zero =>
    apply GoodU.pure
    · intro g
      constructor
      · intro h; exact List.length_eq_zero_iff.mp h.1
      · rintro rfl; simp
    · rfl
    · rfl
  | succ n ih =>
    apply GoodU.seq (mk := fun (v : Val) (vs : List Val) => v :: vs) hu (fun _ _ => ih)
      (fun _ _ => rfl)
    · rintro (_ | ⟨e, es⟩) ⟨hl, he⟩
      · simp at hl
      · exact ⟨e, es, rfl, he e (by simp), by simpa using hl, fun x hx => he x (by simp [hx])⟩
    · rintro a b pa ⟨hl, hb⟩
      refine ⟨by simp [hl], ?_⟩
      intro e he
      rcases List.mem_cons.mp he with rfl | h
      · exact pa
      · exact hb e h
    · intro a b _ _; simp
    · intro a b _ _; simp

theorem asUsize_canon (t : Ty) (v : Val) : asUsize (canon t v) = asUsize v := by
  cases t <;> cases v <;> simp [canon, asUsize]

/-! ### The main induction -/

mutual
theorem goodTy : ∀ t : Ty, GoodU (unmarshal t) (WF t) (wire t) (canon t)
  | .prim n => by
    unfold unmarshal
    apply GoodU.map (goodPrim n)
    · intro g hg
      cases g <;> simp only [WF] at hg
      exact ⟨_, rfl, hg⟩
    · intro a ha; simpa [WF] using ha
    · intro a _; simp [wire]
    · intro a _; simp [canon]
  | .unit => by
    unfold unmarshal
    apply GoodU.pure
    · intro g; cases g <;> simp [WF]
    · simp [wire]
    · simp [canon]
  | .bytes m => by
    unfold unmarshal
    apply GoodU.map (goodBytes m)
    · intro g hg
      cases g <;> simp only [WF] at hg
      exact ⟨_, rfl, hg⟩
    · intro a ha; simpa [WF] using ha
    · intro a _; simp [wire]
    · intro a _; simp [canon]
  | .tpm2b cap => by
    unfold unmarshal
    exact goodTpm2b cap
  | .struct fs => by
    unfold unmarshal
    apply GoodU.map (goodFields fs [])
    · intro g hg
      cases g <;> simp only [WF] at hg
      exact ⟨_, rfl, hg⟩
    · intro a ha; simpa [WF] using ha
    · intro a _; simp [wire]
    · intro a _; simp [canon]
  | .enum n vs => by
    unfold unmarshal
    apply GoodU.seq (mk := fun sel fvs => Val.enum sel fvs) (goodPrim n)
      (fun sel _ => goodVariant vs sel) (fun _ _ => rfl)
    · intro g hg
      cases g <;> simp only [WF] at hg
      exact ⟨_, _, rfl, hg⟩
    · intro a b ha hb; simp only [WF]; exact ⟨ha, hb⟩
    · intro a b _ _; simp [wire]
    · intro a b _ _; simp [canon]
  | .split pre n mid vs => by
    unfold unmarshal
    have h3 : ∀ sel, GoodU (do
        let mvs ← unmarshalFields mid []
        let fvs ← unmarshalVariant vs sel
        pure (mvs, fvs))
        (fun g => WFFields mid [] g.1 ∧ WFVariant vs sel g.2)
        (fun g => wireFields mid [] g.1 ++ wireVariant vs sel g.2)
        (fun g => (canonFields mid [] g.1, canonVariant vs sel g.2)) := by
      intro sel
      apply GoodU.seq (mk := fun a b => (a, b)) (goodFields mid [])
        (fun _ _ => goodVariant vs sel) (fun _ _ => rfl)
      · rintro ⟨a, b⟩ ⟨ha, hb⟩; exact ⟨a, b, rfl, ha, hb⟩
      · intro a b ha hb; exact ⟨ha, hb⟩
      · intro a b _ _; rfl
      · intro a b _ _; rfl
    have h2 : GoodU (do
        let sel ← unmarshalPrim n
        let mf ← (do
          let mvs ← unmarshalFields mid []
          let fvs ← unmarshalVariant vs sel
          pure (mvs, fvs))
        pure (sel, mf))
        (fun g => g.1 < 256 ^ n ∧ WFFields mid [] g.2.1 ∧ WFVariant vs g.1 g.2.2)
        (fun g => digits256 n g.1 ++ (wireFields mid [] g.2.1 ++ wireVariant vs g.1 g.2.2))
        (fun g => (g.1, canonFields mid [] g.2.1, canonVariant vs g.1 g.2.2)) := by
      apply GoodU.seq (mk := fun a b => (a, b)) (goodPrim n) (fun sel _ => h3 sel)
        (fun _ _ => rfl)
      · rintro ⟨a, b⟩ ⟨ha, hb⟩; exact ⟨a, b, rfl, ha, hb⟩
      · intro a b ha hb; exact ⟨ha, hb⟩
      · intro a b _ _; rfl
      · intro a b _ _; rfl
    have h1 := GoodU.seq (mk := fun (a : List Val) (b : Nat × List Val × List Val) =>
        Val.split a b.2.1 b.1 b.2.2) (P := WF (.split pre n mid vs))
        (w := wire (.split pre n mid vs)) (c := canon (.split pre n mid vs))
        (goodFields pre []) (fun _ _ => h2) (fun _ _ => rfl)
        (by
          intro g hg
          cases g <;> simp only [WF] at hg
          rename_i pvs mvs sel fvs
          exact ⟨pvs, (sel, mvs, fvs), rfl, hg.1, hg.2.2.1, hg.2.1, hg.2.2.2⟩)
        (by intro a b ha hb; simp only [WF]; exact ⟨ha, hb.2.1, hb.1, hb.2.2⟩)
        (by intro a b _ _; simp [wire])
        (by intro a b _ _; simp [canon])
    have heq : (do
        let pvs ← unmarshalFields pre []
        let sel ← unmarshalPrim n
        let mvs ← unmarshalFields mid []
        let fvs ← unmarshalVariant vs sel
        pure (Val.split pvs mvs sel fvs) : UM Val) = (do
        let a ← unmarshalFields pre []
        let b ← (do
          let sel ← unmarshalPrim n
          let mf ← (do
            let mvs ← unmarshalFields mid []
            let fvs ← unmarshalVariant vs sel
            pure (mvs, fvs))
          pure (sel, mf))
        pure (Val.split a b.2.1 b.1 b.2.2)) := by
      funext b
      simp only [UM.bind_eq]
      rcases unmarshalFields pre [] b with ⟨_ | _ | _, b1⟩ <;> simp only
      rcases unmarshalPrim n b1 with ⟨_ | _ | _, b2⟩ <;> simp only
      rcases unmarshalFields mid [] b2 with ⟨_ | _ | _, b3⟩ <;> simp only
      rename_i sel _
      rcases unmarshalVariant vs sel b3 with ⟨_ | _ | _, b4⟩ <;> simp only [UM.pure_eq]
    rw [heq]
    exact h1
theorem goodFields : ∀ (fs : Fields) (env : List Nat),
    GoodU (unmarshalFields fs env) (WFFields fs env) (wireFields fs env) (canonFields fs env)
  | .nil, env => by
    unfold unmarshalFields
    apply GoodU.pure
    · intro g; cases g <;> simp [WFFields]
    · simp [wireFields]
    · simp [canonFields]
  | .plain t r, env => by
    unfold unmarshalFields
    apply GoodU.seq (mk := fun (v : Val) (vs : List Val) => v :: vs) (goodTy t)
      (fun v _ => goodFields r (env ++ [asUsize v]))
    · intro v _; rw [asUsize_canon]
    · intro g hg
      cases g <;> simp only [WFFields] at hg
      exact ⟨_, _, rfl, hg⟩
    · intro a b ha hb; simp only [WFFields]; exact ⟨ha, hb⟩
    · intro a b _ _; simp [wireFields]
    · intro a b _ _; simp [canonFields]
  | .fixedArr t n r, env => by
    unfold unmarshalFields
    apply GoodU.seq (mk := fun (es : List Val) (vs : List Val) =>
      Val.arr (es ++ (List.replicate n t.default).drop n) :: vs) (goodLoop (goodTy t) n)
      (fun _ _ => goodFields r (env ++ [0])) (fun _ _ => rfl)
    · intro g hg
      match g, hg with
      | .arr es :: vs, hg =>
        simp only [WFFields] at hg
        exact ⟨es, vs, by simp, ⟨hg.1, hg.2.1⟩, hg.2.2⟩
      | [], hg => simp only [WFFields] at hg
    · intro a b ha hb; simp only [WFFields]; simp; exact ⟨ha.1, ha.2, hb⟩
    · intro a b _ _; simp [wireFields]
    · intro a b _ _; simp [canonFields]
  | .lenArr k t n r, env => by
    unfold unmarshalFields
    simp only
    by_cases hlen : env.getD k 0 > n
    · simp only [hlen, if_true]
      apply GoodU.fail
      intro g hg
      match g, hg with
      | .arr es :: vs, hg =>
        simp only [WFFields] at hg
        omega
      | [], hg => simp only [WFFields] at hg
    · simp only [hlen, if_false]
      have hlen : env.getD k 0 ≤ n := Nat.not_lt.mp hlen
      apply GoodU.seqGen (mk := fun (es : List Val) (vs : List Val) =>
        Val.arr (es ++ (List.replicate n t.default).drop (env.getD k 0)) :: vs)
        (goodLoop (goodTy t) (env.getD k 0))
        (fun _ _ => goodFields r (env ++ [0])) (fun _ _ => rfl)
      · intro g hg
        match g, hg with
        | .arr es :: vs, hg =>
          simp only [WFFields] at hg
          refine ⟨es.take (env.getD k 0), vs, ⟨by rw [List.length_take]; omega, hg.2.2.1⟩,
            hg.2.2.2, ?_, ?_⟩
          · simp [wireFields]
          · simp [canonFields]
        | [], hg => simp only [WFFields] at hg
      · rintro a b ⟨hla, ha⟩ hb hca hcb
        have htake : ∀ l : List Val, List.take (env.getD k 0) (a ++ l) = a := by
          intro l
          rw [List.take_append_of_le_length (by omega), List.take_of_length_le (by omega)]
        refine ⟨?_, ?_, ?_⟩
        · simp only [WFFields, htake]
          refine ⟨?_, hlen, ha, hb⟩
          rw [List.length_append, hla, List.length_drop, List.length_replicate]; omega
        · simp only [canonFields, htake, hca, hcb]
          simp
        · simp only [wireFields, htake]
theorem goodVariant : ∀ (vs : Variants) (sel : Nat),
    GoodU (unmarshalVariant vs sel) (WFVariant vs sel) (wireVariant vs sel) (canonVariant vs sel)
  | .nil, sel => by
    unfold unmarshalVariant
    apply GoodU.fail
    intro g hg; simp only [WFVariant] at hg
  | .cons s fs rest, sel => by
    unfold unmarshalVariant
    by_cases h : sel = s
    · simp only [h, if_true]
      apply (goodFields fs []).congr
      · intro a; simp [WFVariant]
      · intro a _; simp [wireVariant]
      · intro a _; simp [canonVariant]
    · simp only [h, if_false]
      apply (goodVariant rest sel).congr
      · intro a; simp [WFVariant, h]
      · intro a _; simp [wireVariant, h]
      · intro a _; simp [canonVariant, h]
end

end Verif
