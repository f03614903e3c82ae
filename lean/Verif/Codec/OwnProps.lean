import Verif.Codec.OwnStd

/-! C112: derived types with parts of the caller's own. -/

namespace Verif.Own
open Verif

variable {X : Type} {M : Part X → Meaning X}

/-- **C112**: a derived type whose parts of the caller's own do what they should does so too: it
writes the encodings of its parts one after the other, reads them back, and reads nothing else.  It
can in turn be a part of others. -/
theorem C112_derived (t : Ty X) (h : t.Own fun p => Lawful p (M p)) :
    Lawful (derived t) (meaning M t) := by
  have g := goodTy t h
  have w := fun v => writesTy (M := M) true t v (Ty.Own.mono (fun p hp => ⟨hp, by simp⟩) t h)
    (Ty.Std.all (fun _ => by simp [WStd]) t)
  exact ⟨fun v buf hv => (w v hv).fit buf, fun v buf n hv => (w v hv).short buf n, fun v r hv => g.complete v r hv,
    g.sound, g.total, fun v hv => asUsize_canon t h v hv⟩

/-- **C112**: it does not panic for want of room if its parts do not, and it contains no sized buffer
of the crate (which does, C15). -/
theorem C112_calm (t : Ty X) (h : t.Own fun p => Lawful p (M p) ∧ Calm p (M p))
    (hs : t.Std fun t => hasSized t = false) : Calm (derived t) (meaning M t) := by
  intro v buf hv
  exact (writesTy (M := M) false t v (Ty.Own.mono (fun p hp => ⟨hp.1, fun _ => hp.2⟩) t h)
    (Ty.Std.mono (fun _ ht _ => ht) t hs) hv).calm rfl buf

/-- **C112**: so does the data of each variant, for types whose discriminant is elsewhere. -/
theorem C112_variant (vs : Variants X) (sel : Nat) (h : vs.Own fun p => Lawful p (M p)) :
    Lawful (derivedVariant vs sel) ⟨SoundVariant M vs sel, wireVariant M vs sel, canonVariant M vs sel⟩ := by
  have g := goodVariant vs sel h
  have w := fun v => writesVariant (M := M) true vs sel v
    (Variants.Own.mono (fun p hp => ⟨hp, by simp⟩) vs h) (Variants.Std.all (fun _ => by simp [WStd]) vs)
  exact ⟨fun v buf hv => (w v hv).fit buf, fun v buf n hv => (w v hv).short buf n,
    fun v r hv => g.complete v r hv, g.sound, g.total, fun _ _ => rfl⟩

/-- **C112**: what is written is read back. -/
theorem C112_round_trip (t : Ty X) (h : t.Own fun p => Lawful p (M p)) (v : Val X) (buf : Bytes)
    (n : Nat) (hv : Sound M t v) (hm : ((derived t).marshal v buf).1 = .ok n) (r : Bytes) :
    (derived t).unmarshal (((derived t).marshal v buf).2.take n ++ r) = (.ok (canon M t v), r) := by
  have l := C112_derived t h
  by_cases hl : (wire M t v).length ≤ buf.length
  · have e := l.writes v buf hv hl
    rw [e] at hm ⊢
    cases hm
    have e2 : (wire M t v ++ buf.drop (wire M t v).length).take (wire M t v).length = wire M t v := by
      simp
    exact (congrArg (fun x => (derived t).unmarshal (x ++ r)) e2).trans (l.reads v r hv)
  · exact absurd hm (l.refuses v buf n hv (Nat.lt_of_not_le hl))

/-- **C112**: whatever the parts do, reading succeeds exactly if they can be read one after the
other, each from what the one before left. -/
theorem C112_reads (t : Ty X) (b : Bytes) (v : Val X) (r : Bytes) :
    (derived t).unmarshal b = (.ok v, r) ↔ Reads t b v r := by
  constructor
  · intro h
    change unmarshal t b = _ at h
    rcases ansTy t b with ⟨v', r', e, hr⟩ | ⟨hh, r', e, hr⟩
    · rw [e] at h; cases h; exact hr
    · rw [e] at h; exact absurd (congrArg Prod.fst h) (res_ne hh v)
  · exact reads_sound t b v r

/-- **C112**: and otherwise ends as the first part that cannot be read, with its error or panic, or
with that of a count above the capacity or of an unknown discriminant. -/
theorem C112_stops (t : Ty X) (b : Bytes) (h : Halt) (r : Bytes) :
    (derived t).unmarshal b = (h.res, r) ↔ Stops t b h r := by
  constructor
  · intro e0
    change unmarshal t b = _ at e0
    rcases ansTy t b with ⟨v', r', e, hr⟩ | ⟨hh, r', e, hr⟩
    · rw [e] at e0; exact absurd (congrArg Prod.fst e0).symm (res_ne h v')
    · rw [e] at e0
      have h1 := res_inj (congrArg Prod.fst e0)
      have h2 : r' = r := congrArg Prod.snd e0
      subst h1 h2
      exact hr
  · exact stops_sound t b h r

mutual
theorem blank_iff : ∀ (t : Ty X) (v : Val X), Blank t v ↔ v = t.default
  | .std t, v => by simp [Blank, Ty.default]
  | .own p, v => by simp [Blank, Ty.default]
  | .struct fs, v => by
    simp only [Blank, Ty.default, blankFields_iff fs]
    exact ⟨by rintro ⟨_, rfl, rfl⟩; rfl, fun h => ⟨_, h, rfl⟩⟩
  | .enum _ .nil, v => by simp [Blank, Ty.default, Variants.default, Variants.defaultSel]
  | .enum _ (.cons s fs _), v => by
    simp only [Blank, Ty.default, Variants.default, Variants.defaultSel, blankFields_iff fs]
    exact ⟨by rintro ⟨_, rfl, rfl⟩; rfl, fun h => ⟨_, h, rfl⟩⟩
theorem blankFields_iff : ∀ (fs : Fields X) (vs : List (Val X)), BlankFields fs vs ↔ vs = fs.default
  | .nil, vs => by simp [BlankFields, Fields.default]
  | .plain t r, vs => by
    simp only [BlankFields, Fields.default, blank_iff t, blankFields_iff r]
    exact ⟨by rintro ⟨_, _, rfl, rfl, rfl⟩; rfl, fun h => ⟨_, _, h, rfl, rfl⟩⟩
  | .fixedArr t n r, vs => by
    simp only [BlankFields, Fields.default, blank_iff t, blankFields_iff r]
    constructor
    · rintro ⟨es, _, rfl, h1, h2, rfl⟩
      rw [List.eq_replicate_of_mem h2, h1]
    · exact fun h => ⟨_, _, h, by simp, by simp, rfl⟩
  | .lenArr _ t n r, vs => by
    simp only [BlankFields, Fields.default, blank_iff t, blankFields_iff r]
    constructor
    · rintro ⟨es, _, rfl, h1, h2, rfl⟩
      rw [List.eq_replicate_of_mem h2, h1]
    · exact fun h => ⟨_, _, h, by simp, by simp, rfl⟩
end

/-- **C112**: what stands in the slots of an array behind the elements that were read is the default
of every part, with all slots of arrays in it. -/
theorem C112_slots (t : Ty X) (v : Val X) : Blank t v ↔ v = t.default := blank_iff t v

/-- **C112**: for types without parts of the caller's own this is the code of the other theorems
about marshalling. -/
theorem C112_std (t : Verif.Ty) :
    (∀ b, (derived (stdTy t : Ty X)).unmarshal b = mapOut (stdVal t) (Verif.unmarshal t b)) ∧
    ∀ v b, HasTy t v → (derived (stdTy t : Ty X)).marshal (stdVal t v) b = Verif.marshal t v b := by
  have other : ∀ t : Verif.Ty, (∀ v, (stdVal t v : Val X) = .std v) →
      ∀ b, unmarshal (.std t : Ty X) b = mapOut (stdVal t) (Verif.unmarshal t b) := by
    intro t ht b
    have : (stdVal t : Verif.Val → Val X) = .std := funext ht
    rw [this]
    unfold unmarshal
    simp only [UM.bind_eq]
    rcases Verif.unmarshal t b with ⟨_ | _ | _, _⟩ <;> rfl
  constructor
  · intro b
    show unmarshal (stdTy t) b = _
    cases t with
    | struct fs =>
      unfold stdTy unmarshal Verif.unmarshal
      exact mapOut_bind b (std_fields fs [] b) (fun vs r _ => rfl)
    | enum w vs =>
      unfold stdTy unmarshal Verif.unmarshal
      refine mapOut_bind (g := id) b ?_ (fun sel r _ => ?_)
      · rcases unmarshalPrim w b with ⟨_ | _ | _, _⟩ <;> rfl
      · exact mapOut_bind r (std_variant vs sel r) (fun fvs r _ => rfl)
    | prim n => exact other _ (fun _ => rfl) b
    | unit => exact other _ (fun _ => rfl) b
    | bytes m => exact other _ (fun _ => rfl) b
    | tpm2b cap => exact other _ (fun _ => rfl) b
    | split p w m vs => exact other _ (fun _ => rfl) b
  · intro v b h
    show marshal (stdTy t) (stdVal t v) b = _
    cases t with
    | struct fs =>
      cases v with
      | struct vs => exact std_mfields fs [] vs 0 b h
      | _ => simp [HasTy] at h
    | enum w vs =>
      cases v with
      | enum sel fvs =>
        unfold stdTy stdVal marshal Verif.marshal
        congr 1
        funext w b
        have e : (fun b => marshalVariant (stdVariants vs : Variants X) sel (stdData vs sel fvs) b) =
            fun b => Verif.marshalVariant vs sel fvs b := by
          funext b
          exact std_mvariant vs sel fvs b h.2
        rw [e]
      | _ => simp [HasTy] at h
    | prim n => rfl
    | unit => rfl
    | bytes m => rfl
    | tpm2b cap => rfl
    | split p w m vs => rfl

/-! ### A case -/

/-- A number below 4 in one byte; others are refused. -/
def small : Part Nat where
  marshal x buf := match buf with
    | [] => (.err .unexpectedEndOfBuffer, [])
    | _ :: r => (.ok 1, UInt8.ofNat x :: r)
  unmarshal b := match b with
    | [] => (.err .unexpectedEndOfBuffer, [])
    | x :: r => if x.toNat < 4 then (.ok x.toNat, r) else (.err .unknownSelector, r)
  default := 3
  asUsize := id
  keeps_length x b := by cases b <;> rfl

/-- What it stands for. -/
def smallMeaning : Meaning Nat := ⟨(· < 4), fun x => [UInt8.ofNat x], id⟩

theorem small_lawful : Lawful small smallMeaning where
  writes x buf hx hl := by
    cases buf with
    | nil => simp [smallMeaning] at hl
    | cons y r => rfl
  refuses x buf n hx hl := by
    cases buf with
    | nil => simp [small]
    | cons y r => simp [smallMeaning] at hl
  reads x r hx := by
    have hx : x < 4 := hx
    have : (UInt8.ofNat x).toNat = x := by simp; omega
    show (if (UInt8.ofNat x).toNat < 4 then _ else _) = _
    rw [this, if_pos hx]
    rfl
  only b x r h := by
    cases b with
    | nil => simp [small] at h
    | cons y b =>
      simp only [small] at h
      split at h
      · cases h
        rename_i hy
        exact ⟨hy, rfl, by simp [smallMeaning]⟩
      · simp at h
  total b := by
    cases b with
    | nil => exact ⟨by simp [small], [], rfl⟩
    | cons y b =>
      simp only [small]
      split
      · exact ⟨by simp, [y], rfl⟩
      · exact ⟨by simp, [y], rfl⟩
  cast x _ := rfl

theorem small_calm : Calm small smallMeaning := by
  intro x buf _
  cases buf <;> simp [small]

/-- A count of the caller's own, so many elements of the caller's own out of at most three, and a
choice between another and a `u16`. -/
def exTy : Ty Nat :=
  .struct (.plain (.own small) (.lenArr 0 (.own small) 3 (.plain
    (.enum 1 (.cons 1 (.plain (.own small) .nil) (.cons 2 (.plain (.std (.prim 2)) .nil) .nil))) .nil)))

/-- Two elements, and the `u16`. -/
def exVal : Val Nat :=
  .struct [.own 2, .arr [.own 1, .own 0, .own 9], .enum 2 [.std (.int 0x1234)]]

theorem exTy_own : exTy.Own fun p => Lawful p smallMeaning ∧ Calm p smallMeaning :=
  have h := And.intro small_lawful small_calm
  ⟨h, h, ⟨⟨h, trivial⟩, ⟨trivial, trivial⟩, trivial⟩, trivial⟩

theorem exVal_sound : Sound (fun _ => smallMeaning) exTy exVal := by
  refine ⟨show 2 < 4 by decide, rfl, show 2 ≤ 3 by decide, ?_, ⟨by decide, ?_⟩, trivial⟩
  · intro e he
    have : e = .own 1 ∨ e = .own 0 := by
      simpa [asUsize, small] using he
    rcases this with rfl | rfl
    · exact show 1 < 4 by decide
    · exact show 0 < 4 by decide
  · exact ⟨show 0x1234 < 256 ^ 2 by decide, trivial⟩

/-- It is written and read back, with the default in the third slot. -/
example : (derived exTy).marshal exVal (List.replicate 8 0xFF) =
      (.ok 6, [2, 1, 0, 2, 0x12, 0x34, 0xFF, 0xFF]) ∧
    ∀ r, (derived exTy).unmarshal ([2, 1, 0, 2, 0x12, 0x34] ++ r) =
      (.ok (.struct [.own 2, .arr [.own 1, .own 0, .own 3], .enum 2 [.std (.int 0x1234)]]), r) := by
  have l := C112_derived (M := fun _ => smallMeaning) exTy (Ty.Own.mono (fun _ h => h.1) _ exTy_own)
  exact ⟨l.writes exVal (List.replicate 8 0xFF) exVal_sound (by decide),
    fun r => l.reads exVal r exVal_sound⟩

/-- The variants of the choice in `exTy`. -/
def exVs : Variants Nat :=
  .cons 1 (.plain (.own small) .nil) (.cons 2 (.plain (.std (.prim 2)) .nil) .nil)

/-- The data of the second variant without its discriminant. -/
example (r : Bytes) : (derivedVariant exVs 2).unmarshal (0x12 :: 0x34 :: r) =
    (.ok [.std (.int 0x1234)], r) := by
  have h : exVs.Own (fun p => Lawful p smallMeaning) :=
    ⟨⟨small_lawful, trivial⟩, ⟨trivial, trivial⟩, trivial⟩
  have l := C112_variant (M := fun _ => smallMeaning) exVs 2 h
  exact l.reads [.std (.int 0x1234)] r ⟨show 0x1234 < 256 ^ 2 by decide, trivial⟩

/-- Without room it is refused and nothing panics. -/
example : ∀ buf : Bytes, ((derived exTy).marshal exVal buf).1 ≠ .panic :=
  fun buf => C112_calm (M := fun _ => smallMeaning) exTy exTy_own
    ⟨trivial, trivial, ⟨⟨trivial, trivial⟩, ⟨rfl, trivial⟩, trivial⟩, trivial⟩ exVal buf exVal_sound

/-- The element that is refused by the implementation of the caller ends the reading with its error. -/
example (r : Bytes) : (derived exTy).unmarshal (2 :: 1 :: 7 :: r) = (.err .unknownSelector, r) :=
  (C112_stops exTy _ (some .unknownSelector) r).2
    (.struct (.there (v := .own 2) (.own rfl) (.lenHere (by decide)
      (.there (v := .own 1) (.own rfl) (.here (.own rfl))))))

/-- A length field above the capacity does it before any element is read. -/
example (r : Bytes) : ∀ v s, (derived (.struct (.plain (.own small) (.lenArr 0 (.own small) 2 .nil)))).unmarshal
    (3 :: r) ≠ (.ok v, s) := by
  intro v s h
  have := (C112_stops (.struct (.plain (.own small) (.lenArr 0 (.own small) 2 .nil))) (3 :: r)
    (some .arrayLengthExceeded) r).2 (.struct (.there (v := .own 3) (.own rfl) (.long (by decide))))
  rw [this] at h
  cases h

/-- The hypotheses are met: reading one of two structures with an array of parts of the caller's own,
the other one has its three slots with the default. -/
example (r : Bytes) : (derived (.struct (.plain (.std (.prim 1))
      (.lenArr 0 (.struct (.fixedArr (.own small) 3 .nil)) 2 .nil)))).unmarshal (1 :: 2 :: 1 :: 3 :: r) =
    (.ok (.struct [.std (.int 1), .arr [.struct [.arr [.own 2, .own 1, .own 3]],
      .struct [.arr [.own small.default, .own small.default, .own small.default]]]]), r) := rfl

end Verif.Own
