import Verif.Codec.Unmarshal
import Verif.Codec.Marshal
import Verif.Codec.MarshalAny
import Verif.Codec.Check
import Verif.Base.Types
import Verif.Base.LayoutLemmas

/-
Property theorems C01-C16: marshalling and unmarshalling of every derivable
type.  Specification: `wire`, `canon`, `positional`, `WF` (Verif/Codec/Spec.lean
and Verif/Codec/Ty.lean).
-/

namespace Verif
open Verif.Base

set_option maxRecDepth 8000

/-! ### Concrete values used in the examples -/

/-- Selects PCRs 0 and 9 of the SHA-256 bank; `sizeof_select` is 3. -/
def exPcrSel : Val := .struct [.struct [.int Alg.SHA256], .int 3,
  .arr [.int 1, .int 2, .int 0, .int 0]]

/-- A list of two PCR selections; the unused slots hold garbage. -/
def exPcrList : Val := .struct [.int 2, .arr (exPcrSel :: exPcrSel :: List.replicate 14 .unit)]

/-- A sized buffer with two bytes in use and stale bytes after them. -/
def exDigest : Val := .tpm2b 2 ([7, 8, 9] ++ List.replicate 61 0xff)

/-- The public area of an RSA key: AES-128-CFB symmetric, no scheme. -/
def exPublic : Val := .split []
  [.struct [.int Alg.SHA256], .struct [.int 0x00030072], .tpm2b 0 (List.replicate 64 0)]
  Alg.RSA
  [.struct [.enum Alg.AES [.struct [.int 128], .struct [.int 0x43]],
            .enum Alg.Null [.struct []], .struct [.int 2048], .int 0],
   .tpm2b 4 ([1, 2, 3, 4] ++ List.replicate 508 0)]

example : WF TpmlPcrSelection exPcrList := by decide
example : WF Tpm2bDigest exDigest := by decide
example : WF TpmtPublic exPublic := by decide
example : wire TpmlPcrSelection exPcrList =
    [0, 0, 0, 2, 0, 0xB, 3, 1, 2, 0, 0, 0xB, 3, 1, 2, 0] := by decide
example : wire Tpm2bDigest exDigest = [0, 2, 7, 8] := by decide
example : wire TpmtPublic exPublic =
    [0, 1, 0, 0xB, 0, 3, 0, 0x72, 0, 0, 0, 6, 0, 128, 0, 0x43, 0, 0x10, 8, 0, 0, 0, 0, 0,
     0, 4, 1, 2, 3, 4] := by decide

/-! ### C01 -/

/-- **C01.** Marshalling any well-formed value into a large enough buffer and
unmarshalling it, whatever follows, gives the value back and leaves exactly
what follows. -/
theorem C01_round_trip (t : Ty) (v : Val) (buf rest : Bytes)
    (hv : WF t v) (hbuf : (wire t v).length ≤ buf.length) :
    ∃ n buf', marshal t v buf = (.ok n, buf') ∧
      unmarshal t (buf'.take n ++ rest) = (.ok (canon t v), rest) ∧
      unmarshal t (buf' ++ rest) = (.ok (canon t v), buf.drop n ++ rest) := by
  refine ⟨_, _, (writesTy t v hv).fit buf hbuf, ?_, ?_⟩
  · rw [List.take_left]; exact (goodTy t).complete v rest hv
  · rw [List.append_assoc]; exact (goodTy t).complete v _ hv

/-- The canonical form carries the same information: it has the same encoding,
is well-formed, and is its own canonical form. -/
theorem C01_canon_faithful (t : Ty) (v : Val) (hv : WF t v) :
    WF t (canon t v) ∧ wire t (canon t v) = wire t v ∧ canon t (canon t v) = canon t v := by
  have h := (goodTy t).complete v [] hv
  obtain ⟨h1, h2, h3⟩ := (goodTy t).sound _ _ _ h
  exact ⟨h1, by simpa using h3.symm, h2⟩

/-- Non-vacuity: an RSA public area in a 40-byte buffer, followed by two bytes. -/
example : ∃ n buf', marshal TpmtPublic exPublic (List.replicate 40 0xAA) = (.ok n, buf') ∧
    unmarshal TpmtPublic (buf'.take n ++ [5, 6]) = (.ok (canon TpmtPublic exPublic), [5, 6]) ∧
    unmarshal TpmtPublic (buf' ++ [5, 6]) =
      (.ok (canon TpmtPublic exPublic), (List.replicate 40 0xAA).drop n ++ [5, 6]) :=
  C01_round_trip _ _ _ _ (by decide) (by decide)

/-! ### C02 -/

/-- **C02.** The consumed bytes are exactly the encoding of the result and the
rest of the input is irrelevant. -/
theorem C02_exact_consumption (t : Ty) (b : Bytes) (v : Val) (r : Bytes)
    (h : unmarshal t b = (.ok v, r)) :
    b = wire t v ++ r ∧ ∀ r', unmarshal t (wire t v ++ r') = (.ok v, r') := by
  obtain ⟨hv, hc, hb⟩ := (goodTy t).sound _ _ _ h
  refine ⟨hb, fun r' => ?_⟩
  have := (goodTy t).complete v r' hv
  rwa [hc] at this

example : ∃ v, unmarshal TpmsPcrSelection [0, 0xB, 3, 1, 2, 0, 99] = (.ok v, [99]) := ⟨_, rfl⟩

/-! ### C03 -/

/-- **C03.** Unmarshalling never panics, and what is left is a suffix of the
input, on success and on failure. -/
theorem C03_unmarshal_total (t : Ty) (b : Bytes) :
    (unmarshal t b).1 ≠ .panic ∧ (unmarshal t b).2 <:+ b := by
  obtain ⟨h1, p, hp⟩ := (goodTy t).total b
  exact ⟨h1, p, hp.symm⟩

/-! ### C04 -/

/-- **C04.** Accepted bytes are what the result marshals to. -/
theorem C04_accepted_bytes_canonical (t : Ty) (b : Bytes) (v : Val) (r buf : Bytes)
    (h : unmarshal t b = (.ok v, r)) (hbuf : b.length - r.length ≤ buf.length) :
    marshal t v buf = (.ok (b.length - r.length),
      b.take (b.length - r.length) ++ buf.drop (b.length - r.length)) := by
  obtain ⟨hv, -, hb⟩ := (goodTy t).sound _ _ _ h
  have hl : b.length - r.length = (wire t v).length := by rw [hb]; simp
  rw [hl] at hbuf ⊢
  rw [(writesTy t v hv).fit buf hbuf, hb, List.take_left]

example : ∃ v, unmarshal TpmsPcrSelection [0, 0xB, 3, 1, 2, 0, 99] = (.ok v, [99]) ∧
    marshal TpmsPcrSelection v (List.replicate 8 0) = (.ok 6, [0, 0xB, 3, 1, 2, 0, 0, 0]) :=
  ⟨_, rfl, C04_accepted_bytes_canonical TpmsPcrSelection [0, 0xB, 3, 1, 2, 0, 99] _ [99] _ rfl
    (by decide)⟩

/-! ### C05 -/

/-- **C05.** Every strict prefix of an encoding is rejected. -/
theorem C05_truncation_rejected (t : Ty) (v : Val) (p : Bytes) (hv : WF t v)
    (hp : p <+: wire t v) (hne : p ≠ wire t v) :
    (unmarshal t p).1 = .err .unexpectedEndOfBuffer := by
  obtain ⟨q, hq⟩ := hp
  refine (goodTy t).trunc v p q hv hq.symm ?_
  rintro rfl
  exact hne (by simpa using hq)

example : (unmarshal TpmtPublic ((wire TpmtPublic exPublic).take 27)).1 =
    .err .unexpectedEndOfBuffer :=
  C05_truncation_rejected _ exPublic _ (by decide) (List.take_prefix _ _) (by decide)

/-! ### C06 -/

/-- **C06.** Marshalling keeps the length of the buffer and, when it reports
`n` bytes, has written the encoding to the first `n` and touched no other.
Holds for every value of the Rust type, also with out-of-range length fields. -/
theorem C06_marshal_writes_only_reported (t : Ty) (v : Val) (buf : Bytes) (hv : HasTy t v) :
    (marshal t v buf).2.length = buf.length ∧
    ∀ n, (marshal t v buf).1 = .ok n →
      n = (wire t v).length ∧ (marshal t v buf).2 = wire t v ++ buf.drop n := by
  refine ⟨marshal_len t v buf, fun n hn => ?_⟩
  have hw := marshal_ok_wf t v buf n hv hn
  by_cases hl : (wire t v).length ≤ buf.length
  · have := (writesTy t v hw).fit buf hl
    rw [this] at hn ⊢
    simp only [Res.ok.injEq] at hn
    subst hn
    exact ⟨rfl, rfl⟩
  · exfalso
    rcases (writesTy t v hw).short buf (by omega) with h | ⟨-, h⟩ <;> rw [hn] at h <;> cases h

/-! ### C07 -/

/-- **C07 is violated**: marshalling a one-byte digest into a two-byte buffer
panics (marshalable-derive/src/lib.rs:281 compares with the *larger* of the
capacity and the space left). -/
theorem C07_violated : ∃ v, WF Tpm2bDigest v ∧
    ∃ buf : Bytes, buf.length < (wire Tpm2bDigest v).length ∧
      (marshal Tpm2bDigest v buf).1 = .panic :=
  ⟨.tpm2b 1 (7 :: List.replicate 63 0), by decide, [0, 0], by decide, by decide⟩

/-- Does the type contain a sized buffer? (specification) -/
abbrev containsSizedBuffer (t : Ty) : Prop := hasSized t = true

/-- **C07 (partial).** A too small buffer never leads to success.  For types
without sized buffers the result is the expected error; with sized buffers it
may be a panic instead (`C07_violated`). -/
theorem C07_short_buffer_partial (t : Ty) (v : Val) (buf : Bytes) (hv : WF t v)
    (hbuf : buf.length < (wire t v).length) :
    ((marshal t v buf).1 = .err .unexpectedEndOfBuffer ∨ (marshal t v buf).1 = .panic) ∧
    (¬ containsSizedBuffer t → (marshal t v buf).1 = .err .unexpectedEndOfBuffer) := by
  rcases (writesTy t v hv).short buf hbuf with h | ⟨hs, h⟩
  · exact ⟨.inl h, fun _ => h⟩
  · exact ⟨.inr h, fun hn => absurd hs hn⟩

example : (marshal TpmlPcrSelection exPcrList (List.replicate 15 0)).1 =
    .err .unexpectedEndOfBuffer :=
  (C07_short_buffer_partial _ _ _ (by decide) (by decide)).2 (by decide)

/-! ### C08 -/

/-- **C08.** Encodings are unambiguous and prefix-free: if the encoding of one
value is a prefix of that of another, the values agree in everything the
encoding carries; and values that agree have the same encoding. -/
theorem C08_unambiguous (t : Ty) (v v' : Val) (hv : WF t v) (hv' : WF t v') :
    (wire t v <+: wire t v' ↔ canon t v = canon t v') ∧
    (wire t v = wire t v' ↔ canon t v = canon t v') := by
  have key : canon t v = canon t v' → wire t v = wire t v' := by
    intro h
    rw [← (C01_canon_faithful t v hv).2.1, ← (C01_canon_faithful t v' hv').2.1, h]
  have key2 : wire t v <+: wire t v' → canon t v = canon t v' := by
    rintro ⟨q, hq⟩
    have h1 := (goodTy t).complete v q hv
    have h2 := (goodTy t).complete v' [] hv'
    rw [hq] at h1
    rw [List.append_nil, h1] at h2
    simp only [Prod.mk.injEq, Res.ok.injEq] at h2
    exact h2.1
  refine ⟨⟨key2, fun h => ?_⟩, ⟨fun h => key2 ?_, key⟩⟩
  · rw [key h]; exact List.prefix_rfl
  · rw [h]; exact List.prefix_rfl

example : ¬ (wire Tpm2bDigest exDigest <+: wire Tpm2bDigest (.tpm2b 3 (7 :: 8 :: 9 :: List.replicate 61 0))) := by
  rw [(C08_unambiguous _ _ _ (by decide) (by decide)).1]
  intro h
  have := congrArg (fun v => match v with | .tpm2b n _ => n | _ => 0) h
  exact absurd this (by decide)

/-! ### C09 -/

theorem unmarshalVariant_find : ∀ (vs : Variants) (sel : Nat), unmarshalVariant vs sel =
    match vs.find sel with
    | some fs => unmarshalFields fs []
    | none => UM.fail .unknownSelector
  | .nil, sel => by simp [unmarshalVariant, Variants.find]
  | .cons s fs rest, sel => by
    simp only [unmarshalVariant, Variants.find]
    by_cases h : sel = s
    · rw [if_pos h, if_pos h]
    · rw [if_neg h, if_neg h]; exact unmarshalVariant_find rest sel

theorem find_eq_none_iff : ∀ (vs : Variants) (sel : Nat), vs.find sel = none ↔ sel ∉ vs.selectors
  | .nil, sel => by simp [Variants.find, Variants.selectors]
  | .cons s fs rest, sel => by
    simp only [Variants.find, Variants.selectors, List.mem_cons, not_or]
    by_cases h : sel = s
    · simp [h]
    · simp [h, find_eq_none_iff rest sel]

theorem unmarshalPrim_digits (w sel : Nat) (rest : Bytes) (h : sel < 256 ^ w) :
    unmarshalPrim w (digits256 w sel ++ rest) = (.ok sel, rest) :=
  (goodPrim w).complete sel rest h

theorem C09_undeclared_selector (w : Nat) (vs : Variants) (sel : Nat) (rest : Bytes)
    (hs : sel < 256 ^ w) (hn : sel ∉ vs.selectors) :
    unmarshal (.enum w vs) (digits256 w sel ++ rest) = (.err .unknownSelector, rest) := by
  have h0 := (find_eq_none_iff vs sel).2 hn
  simp only [unmarshal, UM.bind_eq, unmarshalPrim_digits w sel rest hs, unmarshalVariant_find, h0]
  rfl

/-- **C09** for directly tagged unions: with an undeclared selector the result
is the unknown-selector error; with a declared one the rest of the input is
parsed as the fields declared for it. -/
theorem C09_enum_selector (w : Nat) (vs : Variants) (sel : Nat) (rest : Bytes)
    (hs : sel < 256 ^ w) :
    (sel ∉ vs.selectors →
      unmarshal (.enum w vs) (digits256 w sel ++ rest) = (.err .unknownSelector, rest)) ∧
    (∀ fs, vs.find sel = some fs → ∀ v r,
      (unmarshal (.enum w vs) (digits256 w sel ++ rest) = (.ok v, r) ↔
        ∃ fvs, v = .enum sel fvs ∧ unmarshal (.struct fs) rest = (.ok (.struct fvs), r))) := by
  refine ⟨C09_undeclared_selector w vs sel rest hs, fun fs hf v r => ?_⟩
  simp only [unmarshal, UM.bind_eq, unmarshalPrim_digits w sel rest hs, unmarshalVariant_find, hf]
  rcases unmarshalFields fs [] rest with ⟨_ | _ | _, b⟩
  · simp only [UM.pure_eq, Prod.mk.injEq, Res.ok.injEq, Val.struct.injEq]
    constructor
    · rintro ⟨rfl, rfl⟩; exact ⟨_, rfl, rfl, rfl⟩
    · rintro ⟨fvs, rfl, rfl, rfl⟩; exact ⟨rfl, rfl⟩
  · simp
  · simp

/-- **C09** for unions whose tag is stored earlier in the structure: accepted
only with a declared selector, and once the fields around the tag have been
read an undeclared selector gives the unknown-selector error; with a declared one
the rest is parsed as the fields declared for it. -/
theorem C09_split_selector (pre : Fields) (w : Nat) (mid : Fields) (vs : Variants) :
    (∀ b v r, unmarshal (.split pre w mid vs) b = (.ok v, r) →
      ∃ pvs mvs sel fvs, v = .split pvs mvs sel fvs ∧ sel ∈ vs.selectors) ∧
    (∀ pvs mvs sel rest, WF (.struct pre) (.struct pvs) → WF (.struct mid) (.struct mvs) →
      sel < 256 ^ w → sel ∉ vs.selectors →
      (unmarshal (.split pre w mid vs) (wire (.struct pre) (.struct pvs) ++ (digits256 w sel ++
        (wire (.struct mid) (.struct mvs) ++ rest)))).1 = .err .unknownSelector) ∧
    (∀ pvs mvs sel rest fs, WF (.struct pre) (.struct pvs) → WF (.struct mid) (.struct mvs) →
      sel < 256 ^ w → vs.find sel = some fs → ∀ v r,
      (unmarshal (.split pre w mid vs) (wire (.struct pre) (.struct pvs) ++ (digits256 w sel ++
        (wire (.struct mid) (.struct mvs) ++ rest))) = (.ok v, r) ↔
        ∃ fvs, v = .split (canonFields pre [] pvs) (canonFields mid [] mvs) sel fvs ∧
          unmarshal (.struct fs) rest = (.ok (.struct fvs), r))) := by
  refine ⟨?_, ?_, ?_⟩
  · intro b v r h
    simp only [unmarshal, UM.bind_eq] at h
    rcases h1 : unmarshalFields pre [] b with ⟨_ | _ | _, b1⟩ <;> rw [h1] at h <;> simp at h
    rcases h2 : unmarshalPrim w b1 with ⟨sel | _ | _, b2⟩ <;> rw [h2] at h <;> simp at h
    rcases h3 : unmarshalFields mid [] b2 with ⟨_ | _ | _, b3⟩ <;> rw [h3] at h <;> simp at h
    rcases h4 : unmarshalVariant vs sel b3 with ⟨_ | _ | _, b4⟩ <;> rw [h4] at h <;>
      simp [UM.pure_eq] at h
    refine ⟨_, _, sel, _, h.1.symm, ?_⟩
    refine Decidable.by_contra fun hn => ?_
    rw [unmarshalVariant_find, (find_eq_none_iff vs sel).2 hn] at h4
    cases h4
  · intro pvs mvs sel rest hp hm hs hn
    simp only [WF] at hp hm
    simp only [wire, unmarshal, UM.bind_eq, (goodFields pre []).complete _ _ hp,
      unmarshalPrim_digits w sel _ hs, (goodFields mid []).complete _ _ hm,
      unmarshalVariant_find, (find_eq_none_iff vs sel).2 hn]
    rfl
  · intro pvs mvs sel rest fs hp hm hs hf v r
    simp only [WF] at hp hm
    simp only [wire, unmarshal, UM.bind_eq, (goodFields pre []).complete _ _ hp,
      unmarshalPrim_digits w sel _ hs, (goodFields mid []).complete _ _ hm,
      unmarshalVariant_find, hf]
    rcases unmarshalFields fs [] rest with ⟨fvs | _ | _, r'⟩ <;> simp [UM.pure_eq]
    constructor
    · rintro ⟨rfl, rfl⟩; exact ⟨_, rfl, rfl, rfl⟩
    · rintro ⟨_, rfl, rfl, rfl⟩; exact ⟨rfl, rfl⟩

/-- Non-vacuity: selector 0x99 is not a hash algorithm of `TpmtHa`. -/
example : unmarshal TpmtHa (digits256 2 0x99 ++ [1, 2, 3]) = (.err .unknownSelector, [1, 2, 3]) :=
  (C09_enum_selector 2 _ 0x99 [1, 2, 3] (by decide)).1 (by decide)

/-! ### C10 -/

/-- **C10** for the counted lists (`tpml`): a count beyond the capacity is
rejected right after the count itself has been read. -/
theorem C10_count_exceeds (w : Nat) (t : Ty) (n : Nat) (more : Fields) (count : Nat)
    (rest : Bytes) (hc : count < 256 ^ w) (hn : n < count) :
    unmarshal (.struct (.plain (.prim w) (.lenArr 0 t n more))) (digits256 w count ++ rest) =
      (.err .arrayLengthExceeded, rest) := by
  simp only [unmarshal, unmarshalFields, UM.bind_eq, unmarshalPrim_digits w count rest hc,
    UM.pure_eq, asUsize]
  simp [hn, UM.fail]

/-- **C10** for any position of the array and its length field: with a count
beyond capacity nothing is read from the array's position on. -/
theorem C10_count_exceeds_at (k : Nat) (t : Ty) (n : Nat) (more : Fields) (env : List Nat)
    (b : Bytes) (hn : n < env.getD k 0) :
    unmarshalFields (.lenArr k t n more) env b = (.err .arrayLengthExceeded, b) := by
  rw [unmarshalFields]
  simp only [gt_iff_lt, hn, if_true]
  rfl

theorem unmarshalLoop_err (t : Ty) (e : MErr) : ∀ (n : Nat) (b : Bytes),
    (unmarshalLoop (unmarshal t) n b).1 = .err e →
    ∃ (es : List Val) (b' : Bytes), es.length < n ∧ (∀ x ∈ es, WF t x) ∧ b = (es.map (wire t)).flatten ++ b' ∧
      (unmarshal t b').1 = .err e
  | 0, b, h => by cases h
  | n + 1, b, h => by
    rw [unmarshalLoop, UM.bind_eq] at h
    rcases h1 : unmarshal t b with ⟨v | _ | _, b1⟩ <;> rw [h1] at h <;> simp only at h
    · rw [UM.bind_eq] at h
      rcases h2 : unmarshalLoop (unmarshal t) n b1 with ⟨_ | _ | _, b2⟩ <;> rw [h2] at h <;>
        simp only at h
      · cases h
      · obtain ⟨es, b', hl, hw, rfl, he⟩ := unmarshalLoop_err t e n b1 (by rw [h2]; exact h)
        obtain ⟨hv, -, rfl⟩ := (goodTy t).sound _ _ _ h1
        refine ⟨v :: es, b', by simp; omega, ?_, by simp, he⟩
        intro x hx
        rcases List.mem_cons.1 hx with rfl | hx
        · exact hv
        · exact hw x hx
      · cases h
    · exact ⟨[], b, by simp, by simp, by simp, by rw [h1]; simpa using h⟩
    · cases h

theorem unmarshalLoop_ok (t : Ty) : ∀ (n : Nat) (b : Bytes) (es : List Val) (b' : Bytes),
    unmarshalLoop (unmarshal t) n b = (.ok es, b') →
    es.length = n ∧ (∀ x ∈ es, WF t x) ∧ b = (es.map (wire t)).flatten ++ b'
  | 0, b, es, b', h => by cases h; simp
  | n + 1, b, es, b', h => by
    rw [unmarshalLoop, UM.bind_eq] at h
    rcases h1 : unmarshal t b with ⟨v | _ | _, b1⟩ <;> rw [h1] at h <;> simp only at h
    · rw [UM.bind_eq] at h
      rcases h2 : unmarshalLoop (unmarshal t) n b1 with ⟨vs | _ | _, b2⟩ <;> rw [h2] at h <;>
        simp only at h
      · cases h
        obtain ⟨hl, hw, rfl⟩ := unmarshalLoop_ok t n b1 vs b' h2
        obtain ⟨hv, -, rfl⟩ := (goodTy t).sound _ _ _ h1
        refine ⟨by simp [hl], ?_, by simp⟩
        intro x hx
        rcases List.mem_cons.1 hx with rfl | hx
        · exact hv
        · exact hw x hx
      · cases h
      · cases h
    · cases h
    · cases h

/-- **C10**, converse: with a count within capacity the array itself does not
cause the array-length error; it can only come from the element that follows some
of the counted ones, or from the fields that follow all of them. -/
theorem C10_count_within (k : Nat) (t : Ty) (n : Nat) (more : Fields) (env : List Nat)
    (b : Bytes) (hn : env.getD k 0 ≤ n)
    (h : (unmarshalFields (.lenArr k t n more) env b).1 = .err .arrayLengthExceeded) :
    ∃ (es : List Val) (b' : Bytes), (∀ x ∈ es, WF t x) ∧ b = (es.map (wire t)).flatten ++ b' ∧
      ((es.length < env.getD k 0 ∧ (unmarshal t b').1 = .err .arrayLengthExceeded) ∨
       (es.length = env.getD k 0 ∧
        (unmarshalFields more (env ++ [0]) b').1 = .err .arrayLengthExceeded)) := by
  rw [unmarshalFields] at h
  simp only [gt_iff_lt, Nat.not_lt.2 hn, if_false] at h
  rw [UM.bind_eq] at h
  rcases h1 : unmarshalLoop (unmarshal t) (env.getD k 0) b with ⟨es | _ | _, b1⟩ <;>
    rw [h1] at h <;> simp only at h
  · rw [UM.bind_eq] at h
    obtain ⟨hl, hw, hb⟩ := unmarshalLoop_ok t _ b es b1 h1
    rcases h2 : unmarshalFields more (env ++ [0]) b1 with ⟨_ | _ | _, b2⟩ <;>
      rw [h2] at h <;> simp only at h
    · cases h
    · exact ⟨es, b1, hw, hb, .inr ⟨hl, by rw [h2]; exact h⟩⟩
    · cases h
  · obtain ⟨es, b', hl, hw, hb, he⟩ := unmarshalLoop_err t .arrayLengthExceeded _ b (by rw [h1]; simpa using h)
    exact ⟨es, b', hw, hb, .inl ⟨hl, he⟩⟩
  · cases h

/-- Non-vacuity: 17 PCR selections do not fit the list of 16. -/
example : unmarshal TpmlPcrSelection (digits256 4 17 ++ [1, 2]) =
    (.err .arrayLengthExceeded, [1, 2]) :=
  C10_count_exceeds 4 _ 16 _ 17 _ (by decide) (by decide)

/-! ### C11 -/

/-- **C11**, construction from a slice. -/
theorem C11_from_bytes (cap : Nat) (b : Bytes) :
    (b.length ≤ min 65535 cap →
      ∃ v, tpm2bFromBytes cap b = .ok v ∧ WF (.tpm2b cap) v ∧ tpm2bGetBuffer v = .ok b) ∧
    (min 65535 cap < b.length → tpm2bFromBytes cap b = .err .arrayLengthExceeded) := by
  constructor
  · intro h
    refine ⟨.tpm2b b.length (b ++ List.replicate (cap - b.length) 0), ?_, ?_, ?_⟩
    · simp only [tpm2bFromBytes, gt_iff_lt, Nat.not_lt.2 h, if_false, copyPrefix,
        List.length_replicate, List.drop_replicate]
      rw [if_pos ⟨by omega, trivial⟩, Nat.mod_eq_of_lt (by omega)]
    · simp only [WF, List.length_append, List.length_replicate]; omega
    · simp [tpm2bGetBuffer, sliceTo]
  · intro h
    simp [tpm2bFromBytes, h]

/-- **C11**, from the wire: accepted exactly when the declared size is within
capacity and available; then the buffer holds exactly the declared bytes. -/
theorem C11_from_wire (cap size : Nat) (rest : Bytes) (hs : size < 65536) :
    (size ≤ cap ∧ size ≤ rest.length →
      ∃ v, unmarshal (.tpm2b cap) (digits256 2 size ++ rest) = (.ok v, rest.drop size) ∧
        WF (.tpm2b cap) v ∧ tpm2bGetBuffer v = .ok (rest.take size)) ∧
    (¬ (size ≤ cap ∧ size ≤ rest.length) →
      (unmarshal (.tpm2b cap) (digits256 2 size ++ rest)).1 = .err .unexpectedEndOfBuffer) := by
  have hrun : unmarshal (.tpm2b cap) (digits256 2 size ++ rest) = tpm2bTail cap size rest := by
    simp only [unmarshal, unmarshalTpm2b, UM.bind_eq,
      unmarshalPrim_digits 2 size rest (by simpa using hs)]
    rfl
  rw [hrun, tpm2bTail_eq]
  constructor
  · rintro ⟨h1, h2⟩
    refine ⟨.tpm2b size (rest.take size ++ List.replicate (cap - size) 0), ?_, ?_, ?_⟩
    · simp [Nat.not_lt.2 h1, Nat.not_lt.2 h2]
    · simp only [WF, List.length_append, List.length_replicate, List.length_take]; omega
    · simp only [tpm2bGetBuffer, sliceTo, List.length_append, List.length_take,
        List.length_replicate]
      rw [if_pos (by omega), List.take_append_of_le_length (by simp; omega), List.take_take,
        Nat.min_self]
  · intro h
    by_cases h2 : size ≤ rest.length
    · have h1 : cap < size := by omega
      simp [h1, Nat.not_lt.2 h2]
    · simp [Nat.lt_of_not_le h2]

/-- Input too short for the size field itself. -/
theorem C11_from_wire_no_size (cap : Nat) (b : Bytes) (h : b.length < 2) :
    (unmarshal (.tpm2b cap) b).1 = .err .unexpectedEndOfBuffer := by
  simp only [unmarshal, unmarshalTpm2b, UM.bind_eq, unmarshalPrim, unmarshalBytes, bufGet, gt_iff_lt, h, if_true]
  rfl

example : ∃ v, tpm2bFromBytes 64 [1, 2, 3] = .ok v ∧ WF Tpm2bDigest v ∧
    tpm2bGetBuffer v = .ok [1, 2, 3] := (C11_from_bytes 64 [1, 2, 3]).1 (by decide)
example : tpm2bFromBytes 2 [1, 2, 3] = .err .arrayLengthExceeded :=
  (C11_from_bytes 2 [1, 2, 3]).2 (by decide)

/-! ### C12 -/

/-- A PCR selection whose public `sizeof_select` is 5, for an array of 4. -/
def exBadPcrSel : Val := .struct [.struct [.int Alg.SHA256], .int 5,
  .arr [.int 1, .int 2, .int 0, .int 0]]

theorem marshalLoop_over {s : Bool} {f : Val → Bytes → MOut} {wd : Val → Bytes} :
    ∀ (es : List Val) (n w : Nat) (buf : Bytes), (∀ e ∈ es, Writes s (f e) (wd e)) →
      es.length < n → w + (es.map wd).flatten.length ≤ buf.length →
      (marshalLoop f n es w buf).1 = .panic
  | [], n + 1, w, buf, _, _, _ => rfl
  | e :: es, n + 1, w, buf, he, hn, hb => by
    have h1 := (he e (by simp)).step.fit w buf (by
      simp only [List.map_cons, List.flatten_cons, List.length_append] at hb; omega)
    rw [marshalLoop, h1]
    simp only [mthen]
    refine marshalLoop_over es n _ _ (fun e' h' => he e' (by simp [h'])) (by simpa using hn) ?_
    simp only [List.map_cons, List.flatten_cons, List.length_append, List.length_take,
      List.length_drop] at hb ⊢
    omega
  | _, 0, _, _, _, hn, _ => by omega

/-- The marshalling loop of a counted array panics when the length field
exceeds the array, for every buffer with room for the elements there are. -/
theorem C12_violated_general (k : Nat) (t : Ty) (n : Nat) (more : Fields) (env : List Nat)
    (es vs : List Val) (written : Nat) (buf : Bytes) (hes : ∀ e ∈ es, WF t e)
    (hk : es.length < env.getD k 0)
    (hbuf : written + ((es.map (wire t)).flatten).length ≤ buf.length) :
    (marshalFields (.lenArr k t n more) env (.arr es :: vs) written buf).1 = .panic := by
  have h := marshalLoop_over (s := hasSized t) (f := fun v b => marshal t v b) es (env.getD k 0) written buf
    (fun e he => writesTy t e (hes e he)) hk hbuf
  rw [marshalFields]
  rcases hr : marshalLoop (fun v b => marshal t v b) (env.getD k 0) es written buf with ⟨r, b⟩
  rw [hr] at h
  simp only at h
  subst h
  rfl

/-- **C12 is violated**: marshalling `exBadPcrSel` panics, for every buffer that
is large enough to reach the missing element. -/
theorem C12_violated (buf : Bytes) (hbuf : 7 ≤ buf.length) :
    HasTy TpmsPcrSelection exBadPcrSel ∧ (marshal TpmsPcrSelection exBadPcrSel buf).1 = .panic := by
  refine ⟨by decide, ?_⟩
  have h1 := (writesTy TpmiAlgHash (.struct [.int Alg.SHA256]) (by decide)).step.fit 0 buf
    (by have : (wire TpmiAlgHash (.struct [.int Alg.SHA256])).length = 2 := by decide
        omega)
  have e1 : wire TpmiAlgHash (.struct [.int Alg.SHA256]) = [0, 0xB] := by decide
  rw [e1] at h1
  have h2 := (writesTy u8 (.int 5) (by decide)).step.fit 2 ([0, 0xB] ++ buf.drop 2)
    (by have : (wire u8 (.int 5)).length = 1 := by decide
        simp; omega)
  have e2 : wire u8 (.int 5) = [5] := by decide
  rw [e2] at h2
  simp only [List.take_zero, List.nil_append, Nat.zero_add, List.length_cons, List.length_nil] at h1
  have h3 := C12_violated_general 1 u8 4 .nil [0, 5] [.int 1, .int 2, .int 0, .int 0] [] 3
    ([0, 0xB] ++ ([5] ++ buf.drop 3)) (by decide) (by decide) (by
      have : ([Val.int 1, .int 2, .int 0, .int 0].map (wire u8)).flatten.length = 4 := by decide
      simp only [this, List.length_append, List.length_cons, List.length_nil, List.length_drop]
      omega)
  have h2' : mstep (fun b => marshal u8 (.int 5) b) 2 ([0, 11] ++ buf.drop 2) =
      (.ok 3, [0, 0xB] ++ ([5] ++ buf.drop 3)) := by
    rw [h2]; simp
  rw [TpmsPcrSelection, exBadPcrSel, marshal, marshalFields, h1]
  simp only [mthen, List.nil_append]
  rw [marshalFields, h2']
  exact h3

/-- **C12 (partial).** Marshalling a value with an out-of-range length or size
field never succeeds (the result is an error or a panic). -/
theorem C12_bad_length_never_ok_partial (t : Ty) (v : Val) (buf : Bytes) (hv : HasTy t v)
    (hbad : ¬ WF t v) : (marshal t v buf).1 = .panic ∨ ∃ e, (marshal t v buf).1 = .err e := by
  rcases h : (marshal t v buf).1 with n | e | _
  · exact absurd (marshal_ok_wf t v buf n hv h) hbad
  · exact .inr ⟨e, rfl⟩
  · exact .inl rfl

example : HasTy TpmsPcrSelection exBadPcrSel ∧ ¬ WF TpmsPcrSelection exBadPcrSel :=
  ⟨(C12_violated (List.replicate 7 0) (by decide)).1, by decide⟩

/-! ### C13 -/

/-- **C13.** Integers are marshalled big-endian. -/
theorem C13_marshal_big_endian (n x : Nat) (buf : Bytes) (hx : x < 256 ^ n)
    (hbuf : n ≤ buf.length) :
    ∃ b : Bytes, marshal (.prim n) (.int x) buf = (.ok n, b ++ buf.drop n) ∧
      b.length = n ∧ positional b = x := by
  refine ⟨digits256 n x, ?_, digits256_length n x, positional_digits256_of_lt hx⟩
  have := (writesTy (.prim n) (.int x) (by simpa [WF] using hx)).fit buf (by simpa [wire] using hbuf)
  simpa [wire] using this

/-- **C13.** Integers are unmarshalled big-endian. -/
theorem C13_unmarshal_big_endian (b rest : Bytes) :
    unmarshal (.prim b.length) (b ++ rest) = (.ok (.int (positional b)), rest) := by
  have := (goodTy (.prim b.length)).complete (.int (positional b)) rest
    (by simpa [WF] using positional_lt b)
  simpa [wire, canon, digits256_positional] using this

example : positional [0x12, 0x34] = 0x1234 := by decide

/-! ### C16 (before C14, which uses it) -/

/-- **C16.** The encoding of a well-formed value never exceeds the size of its
type, for all alignments of the primitive types. -/
theorem C16_encoding_le_size (al : Nat → Nat) (t : Ty) (v : Val) (hv : WF t v) :
    (wire t v).length ≤ sizeOfTy al t := wire_le al t v hv

/-- **C16**, consequence: a buffer of `size_of::<T>()` bytes is always enough. -/
theorem C16_size_suffices (al : Nat → Nat) (t : Ty) (v : Val) (buf : Bytes) (hv : WF t v)
    (hbuf : sizeOfTy al t ≤ buf.length) :
    marshal t v buf = (.ok (wire t v).length, wire t v ++ buf.drop (wire t v).length) :=
  (writesTy t v hv).fit buf (Nat.le_trans (wire_le al t v hv) hbuf)

example : sizeOfTy al64 TpmtPublic = 616 ∧ (wire TpmtPublic exPublic).length = 30 := by decide

/-! ### C14 -/

/-- Wrapping works for every structure type whose size is within the capacity. -/
theorem C14_wrap_general (al : Nat → Nat) (t : Ty) (cap : Nat) (v : Val) (hv : WF t v)
    (hcap : sizeOfTy al t ≤ cap) (h16 : cap < 65536) :
    ∃ outer, tpm2bFromStruct cap t v = .ok outer ∧ WF (.tpm2b cap) outer ∧
      tpm2bGetBuffer outer = .ok (wire t v) ∧ tpm2bToStruct t outer = .ok (canon t v) := by
  have hle := Nat.le_trans (wire_le al t v hv) hcap
  have hm := (writesTy t v hv).fit (List.replicate cap 0) (by simpa using hle)
  refine ⟨.tpm2b (wire t v).length (wire t v ++ (List.replicate cap 0).drop (wire t v).length),
    ?_, ?_, ?_, ?_⟩
  · simp only [tpm2bFromStruct, hm, Nat.mod_eq_of_lt (show (wire t v).length < 65536 by omega)]
  · simp only [WF, List.length_append, List.length_drop, List.length_replicate]; omega
  · simp [tpm2bGetBuffer, sliceTo]
  · have := (goodTy t).complete v [] hv
    rw [List.append_nil] at this
    simp [tpm2bToStruct, tpm2bGetBuffer, sliceTo, Res.bind, this]

/-- **C14.** The three structures that the base crate wraps (base/src/lib.rs:876,
1206, 1496), with the sized types they are wrapped in: wrapping succeeds,
records exactly the encoding, and unwrapping gives the structure back. -/
theorem C14_wrap_unwrap (inner sized : Ty) (v : Val)
    (hp : (inner, sized) ∈ [(TpmsSensitiveCreate, Tpm2bSensitiveCreate),
      (TpmtPublic, Tpm2bPublic), (TpmsCreationData, Tpm2bCreationData)])
    (hv : WF inner v) :
    ∃ cap, sized = .tpm2b cap ∧ ∃ outer, tpm2bFromStruct cap inner v = .ok outer ∧
      WF sized outer ∧ tpm2bGetBuffer outer = .ok (wire inner v) ∧
      tpm2bToStruct inner outer = .ok (canon inner v) := by
  simp only [List.mem_cons, Prod.mk.injEq, List.not_mem_nil, or_false] at hp
  rcases hp with ⟨rfl, rfl⟩ | ⟨rfl, rfl⟩ | ⟨rfl, rfl⟩ <;>
    exact ⟨_, rfl, C14_wrap_general al64 _ _ v hv (Nat.le_refl _) (by decide)⟩

example : ∃ cap, Tpm2bPublic = .tpm2b cap ∧ ∃ outer, tpm2bFromStruct cap TpmtPublic exPublic = .ok outer ∧
    WF Tpm2bPublic outer ∧ tpm2bGetBuffer outer = .ok (wire TpmtPublic exPublic) ∧
    tpm2bToStruct TpmtPublic outer = .ok (canon TpmtPublic exPublic) :=
  C14_wrap_unwrap TpmtPublic Tpm2bPublic exPublic (by simp) (by decide)

/-! ### C15 -/

/-- **C15 is violated**: whatever surplus bytes follow the structure inside the
sized buffer are ignored (marshalable-derive/src/lib.rs:101-104). -/
theorem C15_violated (t : Ty) (v : Val) (extra pad : Bytes) (hv : WF t v) :
    tpm2bToStruct t (.tpm2b ((wire t v).length + extra.length) (wire t v ++ extra ++ pad)) =
      .ok (canon t v) := by
  have := (goodTy t).complete v extra hv
  have h2 : (wire t v ++ extra ++ pad).take ((wire t v).length + extra.length) =
      wire t v ++ extra := by
    rw [← List.length_append, List.take_left]
  simp only [tpm2bToStruct, tpm2bGetBuffer, sliceTo, Res.bind]
  rw [if_pos (by simp), h2]
  simp [this]

/-- **C15 (partial).** What unwrapping returns is the structure whose encoding
starts the declared bytes; surplus bytes are ignored rather than rejected. -/
theorem C15_unwrap_prefix_partial (t : Ty) (size : Nat) (buf : Bytes) (v : Val)
    (h : tpm2bToStruct t (.tpm2b size buf) = .ok v) :
    size ≤ buf.length ∧ wire t v <+: buf.take size ∧ WF t v := by
  simp only [tpm2bToStruct, tpm2bGetBuffer, sliceTo] at h
  by_cases hs : size ≤ buf.length
  · rw [if_pos hs] at h
    simp only [Res.bind] at h
    obtain ⟨h1, -, h3⟩ := (goodTy t).sound (buf.take size) v (unmarshal t (buf.take size)).2
      (by rw [← h])
    exact ⟨hs, ⟨_, h3.symm⟩, h1⟩
  · rw [if_neg hs] at h; cases h

/-- **C15 (partial).** Exactly: unwrapping returns a structure if and only if some
encoding starts the declared bytes, and then this structure; it panics if and only if
the declared size exceeds the buffer, and fails in all other cases. -/
theorem C15_exact_partial (t : Ty) (size : Nat) (buf : Bytes) :
    (∀ v, tpm2bToStruct t (.tpm2b size buf) = .ok v ↔
      size ≤ buf.length ∧ ∃ v0 rest, WF t v0 ∧ buf.take size = wire t v0 ++ rest ∧ v = canon t v0) ∧
    (tpm2bToStruct t (.tpm2b size buf) = .panic ↔ buf.length < size) ∧
    ((∃ e, tpm2bToStruct t (.tpm2b size buf) = .err e) ↔
      size ≤ buf.length ∧ ¬ ∃ v0 rest, WF t v0 ∧ buf.take size = wire t v0 ++ rest) := by
  by_cases hs : size ≤ buf.length
  · have e : tpm2bToStruct t (.tpm2b size buf) = (unmarshal t (buf.take size)).1 := by
      simp only [tpm2bToStruct, tpm2bGetBuffer, sliceTo]
      rw [if_pos hs]
      rfl
    have ok : ∀ v, (unmarshal t (buf.take size)).1 = .ok v ↔
        ∃ v0 rest, WF t v0 ∧ buf.take size = wire t v0 ++ rest ∧ v = canon t v0 := by
      intro v
      constructor
      · intro h
        obtain ⟨h1, h2, h3⟩ := (goodTy t).sound (buf.take size) v (unmarshal t (buf.take size)).2
          (by rw [← h])
        exact ⟨v, _, h1, h3, h2.symm⟩
      · rintro ⟨v0, rest, h1, h2, rfl⟩
        rw [h2, (goodTy t).complete v0 rest h1]
    have np : (unmarshal t (buf.take size)).1 ≠ .panic := (C03_unmarshal_total t _).1
    rw [e]
    refine ⟨fun v => by rw [ok v]; exact ⟨fun h => ⟨hs, h⟩, fun h => h.2⟩,
      ⟨fun h => (np h).elim, fun h => by omega⟩, ?_⟩
    constructor
    · rintro ⟨x, h⟩
      refine ⟨hs, ?_⟩
      rintro ⟨v0, rest, h1, h2⟩
      have := (ok (canon t v0)).2 ⟨v0, rest, h1, h2, rfl⟩
      rw [this] at h
      cases h
    · rintro ⟨-, h⟩
      rcases hu : (unmarshal t (buf.take size)).1 with v | x | _
      · obtain ⟨v0, rest, h1, h2, -⟩ := (ok v).1 hu
        exact (h ⟨v0, rest, h1, h2⟩).elim
      · exact ⟨x, rfl⟩
      · exact (np hu).elim
  · have e : tpm2bToStruct t (.tpm2b size buf) = .panic := by
      simp only [tpm2bToStruct, tpm2bGetBuffer, sliceTo]
      rw [if_neg hs]
      rfl
    rw [e]
    refine ⟨fun v => ⟨fun h => (by cases h), fun h => (hs h.1).elim⟩,
      ⟨fun _ => by omega, fun _ => rfl⟩, ⟨?_, fun h => (hs h.1).elim⟩⟩
    rintro ⟨x, h⟩
    cases h

/-- Non-vacuity: a structure too short for its type, and a size beyond the buffer. -/
example : tpm2bToStruct (.prim 4) (.tpm2b 3 [1, 2, 3, 4]) = .err .unexpectedEndOfBuffer ∧
    tpm2bToStruct (.prim 4) (.tpm2b 5 [1, 2, 3, 4]) = .panic := ⟨rfl, rfl⟩

/-- Non-vacuity of both: an RSA public area followed by three surplus bytes. -/
example : tpm2bToStruct TpmtPublic
    (.tpm2b 33 (wire TpmtPublic exPublic ++ [9, 9, 9] ++ List.replicate 583 0)) =
    .ok (canon TpmtPublic exPublic) :=
  C15_violated TpmtPublic exPublic [9, 9, 9] _ (by decide)

end Verif
