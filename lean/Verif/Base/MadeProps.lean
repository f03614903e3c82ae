import Verif.Base.MadeLemmas
import Verif.Base.Types
import Verif.Codec.Check

/-
Property theorems C82: comparing values and comparing encodings.
-/

namespace Verif.Base
open Verif Verif.Errors

set_option maxRecDepth 8000

/-- **C82**: whatever the functions of the crates make can be encoded and has
nothing in the unused parts of its buffers and arrays. -/
theorem C82_made (t : Ty) (v : Val) (h : Made t v) : WF t v ∧ Clean t v := made_good h

/-- **C82**: marshalling a value and unmarshalling the bytes gives back the value
itself, equal in all its bytes, exactly if it has nothing in its unused parts. -/
theorem C82_round_trip_iff (t : Ty) (v : Val) (buf rest : Bytes) (hv : WF t v)
    (hbuf : (wire t v).length ≤ buf.length) :
    ∃ n buf', marshal t v buf = (.ok n, buf') ∧
      (unmarshal t (buf'.take n ++ rest) = (.ok v, rest) ↔ Clean t v) := by
  refine ⟨_, _, (writesTy t v hv).fit buf hbuf, ?_⟩
  rw [List.take_left, (goodTy t).complete v rest hv, ← canon_iff t v hv]
  simp

/-- **C82**: so a made value compares equal to what arrives. -/
theorem C82_round_trip (t : Ty) (v : Val) (buf rest : Bytes) (h : Made t v)
    (hbuf : (wire t v).length ≤ buf.length) :
    ∃ n buf', marshal t v buf = (.ok n, buf') ∧
      unmarshal t (buf'.take n ++ rest) = (.ok v, rest) := by
  obtain ⟨h1, h2⟩ := made_good h
  obtain ⟨n, buf', h3, h4⟩ := C82_round_trip_iff t v buf rest h1 hbuf
  exact ⟨n, buf', h3, h4.2 h2⟩

/-- **C82**: two made values of a type are equal exactly if they marshal to the
same bytes. -/
theorem C82_equal_iff (t : Ty) (v v' : Val) (buf : Bytes) (h : Made t v) (h' : Made t v')
    (hbuf : (wire t v).length ≤ buf.length) (hbuf' : (wire t v').length ≤ buf.length) :
    v = v' ↔ ∃ n b, (marshal t v buf).1 = .ok n ∧ (marshal t v' buf).1 = .ok n ∧
      (marshal t v buf).2.take n = b ∧ (marshal t v' buf).2.take n = b := by
  obtain ⟨h1, h2⟩ := made_good h
  obtain ⟨h1', h2'⟩ := made_good h'
  have e := (writesTy t v h1).fit buf hbuf
  have e' := (writesTy t v' h1').fit buf hbuf'
  constructor
  · rintro rfl
    exact ⟨_, _, by rw [e], by rw [e], rfl, rfl⟩
  · rintro ⟨n, b, g1, g2, g3, g4⟩
    rw [e] at g1 g3
    rw [e'] at g2 g4
    simp only [Res.ok.injEq] at g1 g2
    subst g1
    dsimp only at g3 g4
    rw [List.take_left] at g3
    rw [← g2, List.take_left] at g4
    have c := (goodTy t).complete v [] h1
    have c' := (goodTy t).complete v' [] h1'
    rw [g3, (canon_iff t v h1).2 h2] at c
    rw [g4, (canon_iff t v' h1').2 h2', c] at c'
    simpa using c'

/-- **C82**: every type of the base crate has a default value that can be encoded
and comes back as itself. -/
theorem C82_default : ∀ nt ∈ allTypes, ∀ rest,
    WF nt.2 nt.2.default ∧
    unmarshal nt.2 (wire nt.2 nt.2.default ++ rest) = (.ok nt.2.default, rest) := by
  have hd : ∀ nt ∈ allTypes, declares nt.2 = true := by decide
  intro nt hnt rest
  obtain ⟨h1, h2⟩ := default_good nt.2 (hd nt hnt)
  have := (goodTy nt.2).complete _ rest h1
  rw [(canon_iff _ _ h1).2 h2] at this
  exact ⟨h1, this⟩

/-! ### Examples -/

/-- A list of two digests, made by adding to the default list; the first digest is
made from bytes and the second is unmarshalled. -/
theorem exMade : ∃ v, Made TpmlDigest v ∧
    wire TpmlDigest v = [0, 0, 0, 2, 0, 3, 1, 2, 3, 0, 1, 9] := by
  have d1 : Made Tpm2bDigest (.tpm2b 3 ([1, 2, 3] ++ List.replicate 61 0)) :=
    .fromBytes 64 [1, 2, 3] _ rfl
  have d2 : Made Tpm2bDigest (.tpm2b 1 ([9] ++ List.replicate 63 0)) :=
    .decoded _ [0, 1, 9, 77] [77] _ rfl
  have l0 : Made TpmlDigest TpmlDigest.default := .default _ rfl
  have l1 : Made TpmlDigest _ := .listAdd _ _ _ _ _ l0 d1 rfl
  have l2 : Made TpmlDigest _ := .listAdd _ _ _ _ _ l1 d2 rfl
  exact ⟨_, l2, by decide⟩

example : ∃ v n buf', Made TpmlDigest v ∧ marshal TpmlDigest v (List.replicate 20 0) = (.ok n, buf') ∧
    unmarshal TpmlDigest (buf'.take n ++ [5]) = (.ok v, [5]) := by
  obtain ⟨v, h1, h2⟩ := exMade
  obtain ⟨n, buf', h⟩ := C82_round_trip TpmlDigest v (List.replicate 20 0) [5] h1 (by
    rw [h2]; decide)
  exact ⟨v, n, buf', h1, h⟩

/-- A PCR selection of three bytes with something in the fourth. -/
def exLiteral : Val := .struct [.struct [.int Alg.SHA256], .int 3,
  .arr [.int 1, .int 2, .int 3, .int 0xFF]]

/-- Without the condition it is false: the literal arrives as another value, with
the same bytes. -/
theorem C82_literal : WF TpmsPcrSelection exLiteral ∧ ¬ Clean TpmsPcrSelection exLiteral ∧
    ∃ v, v ≠ exLiteral ∧ Made TpmsPcrSelection v ∧
      unmarshal TpmsPcrSelection (wire TpmsPcrSelection exLiteral) = (.ok v, []) ∧
      wire TpmsPcrSelection v = wire TpmsPcrSelection exLiteral := by
  have hw : WF TpmsPcrSelection exLiteral := by decide
  have hu := (goodTy TpmsPcrSelection).complete exLiteral [] hw
  rw [List.append_nil] at hu
  have hne : canon TpmsPcrSelection exLiteral ≠ exLiteral := by
    intro h
    simp [canon, canonFields, TpmsPcrSelection, exLiteral, asUsize, u8, Ty.default] at h
  refine ⟨hw, fun h => hne ((canon_iff _ _ hw).2 h), _, hne, .decoded _ _ _ _ hu, hu, ?_⟩
  have := ((goodTy TpmsPcrSelection).sound _ _ _ hu).2.2
  rw [List.append_nil] at this
  exact this.symm

end Verif.Base
