import Verif.Codec.PartsLemmas
import Verif.Codec.Props

/-! What marshalling does for every value and every buffer (C84, C07, C12). -/

namespace Verif
open Verif.Base

set_option maxRecDepth 8000

/-! ### C84 -/

/-- **C84.** For every value and every buffer, marshalling writes the parts of
the value in order up to the first that is not written, and leaves the rest of
the buffer as it was, whether it succeeds, fails or panics. -/
theorem C84_marshal (t : Ty) (v : Val) (buf : Bytes) :
    (marshal t v buf).1 = (writeParts (parts t v) buf.length).1 ∧
    (marshal t v buf).2 = (writeParts (parts t v) buf.length).2 ++
      buf.drop (writeParts (parts t v) buf.length).2.length := by
  rw [runs t v buf]
  exact ⟨rfl, rfl⟩

/-- **C84 (parts).** The parts are those of the encoding: one after the other
they are the encoding of a well-formed value; and a value of the type is
well-formed just if each of its parts is sound. -/
theorem C84_parts (t : Ty) (v : Val) (hv : HasTy t v) :
    (WF t v ↔ ∀ p ∈ parts t v, p.Sound) ∧
    (WF t v → (parts t v).flatMap Part.bytes = wire t v) :=
  ⟨⟨fun h => (parts_wf t v h).2, (parts_sound t v hv).2⟩, fun h => (parts_wf t v h).1⟩

/-- **C84 (panics).** Marshalling panics just if, after sound parts that fit,
there comes a part that breaks: a missing element, or the contents of a sized
buffer whose size is within one but not both of the capacity and the space. -/
theorem C84_panics (t : Ty) (v : Val) (buf : Bytes) (hv : HasTy t v) :
    (marshal t v buf).1 = .panic ↔ StopsAt Part.Breaks (parts t v) buf.length := by
  have ht := (parts_sound t v hv).1
  rw [(C84_marshal t v buf).1]
  refine ⟨fun h => ?_, writeParts_breaks ht⟩
  rcases writeParts_ends _ buf.length ht with ⟨-, -, e⟩ | ⟨-, e⟩ | ⟨h', -⟩
  · rw [e] at h; cases h
  · rw [e] at h; cases h
  · exact h'

/-- **C84 (errors).** Marshalling returns an error just if, after sound parts
that fit, there comes a part that is refused; the error is that the buffer is
too short. -/
theorem C84_errors (t : Ty) (v : Val) (buf : Bytes) (e : MErr) (hv : HasTy t v) :
    (marshal t v buf).1 = .err e ↔
      e = .unexpectedEndOfBuffer ∧ StopsAt Part.Refused (parts t v) buf.length := by
  have ht := (parts_sound t v hv).1
  rw [(C84_marshal t v buf).1]
  refine ⟨fun h => ?_, fun h => by rw [h.1]; exact writeParts_refused ht h.2⟩
  rcases writeParts_ends _ buf.length ht with ⟨-, -, e⟩ | ⟨h', e⟩ | ⟨-, e⟩
  · rw [e] at h; cases h
  · rw [e] at h; cases h
    exact ⟨rfl, h'⟩
  · rw [e] at h; cases h

/-- **C84 (success).** Marshalling succeeds just if the value is well-formed
and its encoding fits. -/
theorem C84_succeeds (t : Ty) (v : Val) (buf : Bytes) (n : Nat) (hv : HasTy t v) :
    (marshal t v buf).1 = .ok n ↔ WF t v ∧ (wire t v).length ≤ buf.length ∧
      n = (wire t v).length := by
  constructor
  · intro h
    rw [(C84_marshal t v buf).1] at h
    rcases writeParts_ends _ buf.length (parts_sound t v hv).1 with ⟨h1, h2, e⟩ | ⟨-, e⟩ | ⟨-, e⟩
    · have hw := (C84_parts t v hv).1.mpr h1
      rw [partsLen, (C84_parts t v hv).2 hw] at h2 e
      rw [e] at h
      cases h
      exact ⟨hw, h2, rfl⟩
    · rw [e] at h; cases h
    · rw [e] at h; cases h
  · rintro ⟨hw, hl, rfl⟩
    rw [(writesTy t v hw).fit buf hl]

/-- Well-formed values, values of the type that are not, and the four outcomes
(success, error, panic by lack of space, panic by a bad size). -/
example :
    let v := Val.tpm2b 1 (7 :: List.replicate 63 0)
    let bad := Val.tpm2b 65 (7 :: List.replicate 63 0)
    HasTy Tpm2bDigest v ∧ WF Tpm2bDigest v ∧ HasTy Tpm2bDigest bad ∧ ¬ WF Tpm2bDigest bad ∧
    marshal Tpm2bDigest v [9, 9, 9, 9] = (.ok 3, [0, 1, 7, 9]) ∧
    marshal Tpm2bDigest v [9] = (.err .unexpectedEndOfBuffer, [9]) ∧
    marshal Tpm2bDigest v [9, 9] = (.panic, [0, 1]) ∧
    marshal Tpm2bDigest bad [9, 9, 9] = (.err .unexpectedEndOfBuffer, [0, 65, 9]) ∧
    marshal Tpm2bDigest bad (List.replicate 67 9) = (.panic, [0, 65] ++ List.replicate 65 9) := by
  decide

/-! ### C07, exactly -/

/-- **C07 (exactly).** Marshalling a well-formed value into a buffer smaller
than the encoding panics just if the buffer ends before the end of the contents
of a sized buffer whose size field still fits; otherwise it returns the error. -/
theorem C07_exact_partial (t : Ty) (v : Val) (buf : Bytes) (hv : HasTy t v) (hw : WF t v)
    (hbuf : buf.length < (wire t v).length) :
    let cut := ∃ pre cap size array post, parts t v = pre ++ .contents cap size array :: post ∧
      partsLen pre ≤ buf.length ∧ buf.length < partsLen pre + size
    (cut → (marshal t v buf).1 = .panic) ∧
    (¬ cut → (marshal t v buf).1 = .err .unexpectedEndOfBuffer) := by
  intro cut
  have hs := (C84_parts t v hv).1.mp hw
  constructor
  · rintro ⟨pre, cap, size, array, post, h1, h2, h3⟩
    refine (C84_panics t v buf hv).mpr ⟨pre, _, post, h1, fun q hq => hs q (by rw [h1]; simp [hq]),
      h2, .inl ⟨?_, by omega⟩⟩
    exact (hs (.contents cap size array) (by rw [h1]; simp)).2
  · intro hc
    rcases C07_short_buffer_partial t v buf hw hbuf with ⟨h | h, -⟩
    · exact h
    · obtain ⟨pre, p, post, h1, h2, h3, h4⟩ := (C84_panics t v buf hv).mp h
      have hp := hs p (by rw [h1]; simp)
      cases p with
      | item b => exact h4.elim
      | missing => exact hp.elim
      | contents cap size array =>
        have h5 := hp.2
        exact absurd ⟨pre, cap, size, array, post, h1, h3, by
          rcases h4 with h4 | h4 <;> omega⟩ hc

/-- Cut within the second of two sized buffers, at its very beginning, and
within its size field: of the lengths below 6, these panic. -/
example :
    let t := Ty.struct (.plain Tpm2bDigest (.plain Tpm2bDigest .nil))
    let d := Val.tpm2b 1 (7 :: List.replicate 63 0)
    HasTy t (.struct [d, d]) ∧ WF t (.struct [d, d]) ∧ (wire t (.struct [d, d])).length = 6 ∧
    (List.range 6).filter (fun n =>
      (marshal t (.struct [d, d]) (List.replicate n 0)).1 = .panic) = [2, 5] := by
  decide

/-! ### C12, exactly -/

/-- **C12 (exactly).** For a value with a length or size field out of range,
given room for the sound parts before the first unsound one: a missing element
panics; a size beyond the capacity gives an error if it is also beyond the rest
of the buffer, and panics otherwise. -/
theorem C12_exact_partial (t : Ty) (v : Val) (buf : Bytes) (hv : HasTy t v) (hbad : ¬ WF t v) :
    ∃ pre p post, parts t v = pre ++ p :: post ∧ (∀ q ∈ pre, q.Sound) ∧
      ((p = .missing ∧ (partsLen pre ≤ buf.length → (marshal t v buf).1 = .panic)) ∨
       ∃ cap size array, p = .contents cap size array ∧ cap < size ∧
        (partsLen pre ≤ buf.length → buf.length < partsLen pre + size →
          (marshal t v buf).1 = .err .unexpectedEndOfBuffer) ∧
        (partsLen pre + size ≤ buf.length → (marshal t v buf).1 = .panic)) := by
  have ht := (parts_sound t v hv).1
  have hb : ¬ ∀ p ∈ parts t v, p.Sound := fun h => hbad ((C84_parts t v hv).1.mpr h)
  have split : ∀ ps : List Part, (¬ ∀ p ∈ ps, p.Sound) → ∃ pre p post, ps = pre ++ p :: post ∧
      (∀ q ∈ pre, q.Sound) ∧ ¬ p.Sound := by
    intro ps
    induction ps with
    | nil => intro h; exact absurd (by simp) h
    | cons p ps ih =>
      intro h
      by_cases hp : p.Sound
      · obtain ⟨pre, q, post, h1, h2, h3⟩ := ih fun h' => h fun q hq => by
          rcases List.mem_cons.mp hq with rfl | hq
          · exact hp
          · exact h' q hq
        refine ⟨p :: pre, q, post, by rw [h1]; rfl, fun q' hq => ?_, h3⟩
        rcases List.mem_cons.mp hq with rfl | hq
        · exact hp
        · exact h2 q' hq
      · exact ⟨[], p, ps, rfl, by simp, hp⟩
  obtain ⟨pre, p, post, h1, h2, h3⟩ := split _ hb
  refine ⟨pre, p, post, h1, h2, ?_⟩
  have htp := ht p (by rw [h1]; simp)
  cases p with
  | item b => exact absurd trivial h3
  | missing => exact .inl ⟨rfl, fun hl => (C84_panics t v buf hv).mpr ⟨pre, _, post, h1, h2, hl, trivial⟩⟩
  | contents cap size array =>
    have hc : cap < size := by
      simp only [Part.Typed] at htp
      simp only [Part.Sound] at h3
      omega
    refine .inr ⟨cap, size, array, rfl, hc, fun hl hs => ?_, fun hl => ?_⟩
    · exact (C84_errors t v buf _ hv).mpr ⟨rfl, pre, _, post, h1, h2, hl, hc, by omega⟩
    · exact (C84_panics t v buf hv).mpr ⟨pre, _, post, h1, h2, by omega, .inr ⟨hc, by omega⟩⟩

example : HasTy TpmsPcrSelection exBadPcrSel ∧ ¬ WF TpmsPcrSelection exBadPcrSel ∧
    (marshal TpmsPcrSelection exBadPcrSel (List.replicate 6 0)).1 = .err .unexpectedEndOfBuffer ∧
    (marshal TpmsPcrSelection exBadPcrSel (List.replicate 7 0)).1 = .panic ∧
    (marshal TpmsPcrSelection exBadPcrSel (List.replicate 100 0)).1 = .panic := by
  decide

end Verif
