import Verif.Codec.Faults
import Verif.Codec.Check
import Verif.Base.Types

/-! C68: which error unmarshalling reports.  Specification: `Faulty`
(Verif/Codec/Faults.lean). -/

namespace Verif
open Verif.Base

set_option maxRecDepth 8000

/-- **C68 (partial).** Undeclared selectors and excessive counts are reported as
such, exactly if they are the first thing wrong with the input.  The error for a
premature end is reported if the input ends within an item, but also if a sized
buffer announces more bytes than it can hold. -/
theorem C68_errors_partial (t : Ty) (b : Bytes) :
    ((unmarshal t b).1 = .err .unknownSelector ↔ Faulty .selector t b) ∧
    ((unmarshal t b).1 = .err .arrayLengthExceeded ↔ Faulty .count t b) ∧
    ((unmarshal t b).1 = .err .unexpectedEndOfBuffer ↔ Faulty .short t b ∨ Faulty .size t b) := by
  simp only [(failsTy t).err]
  refine ⟨⟨?_, fun h => ⟨_, h, rfl⟩⟩, ⟨?_, fun h => ⟨_, h, rfl⟩⟩, ⟨?_, ?_⟩⟩
  · rintro ⟨_ | _ | _ | _, h, he⟩ <;> first | exact h | cases he
  · rintro ⟨_ | _ | _ | _, h, he⟩ <;> first | exact h | cases he
  · rintro ⟨_ | _ | _ | _, h, he⟩ <;> first | exact .inl h | exact .inr h | cases he
  · rintro (h | h)
    · exact ⟨_, h, rfl⟩
    · exact ⟨_, h, rfl⟩

/-- **C68.** Any input either begins with an encoding or has exactly one first
fault. -/
theorem C68_exactly_one (t : Ty) (b : Bytes) :
    ((∃ v rest, WF t v ∧ b = wire t v ++ rest) ∧ ∀ k, ¬ Faulty k t b) ∨
    ((¬ ∃ v rest, WF t v ∧ b = wire t v ++ rest) ∧
      ∃ k, Faulty k t b ∧ ∀ k', Faulty k' t b → k' = k) := by
  rcases hu : unmarshal t b with ⟨v | e | _, r⟩
  · obtain ⟨hv, -, hb⟩ := (goodTy t).sound _ _ _ hu
    exact .inl ⟨⟨v, r, hv, hb⟩, fun k hk => (failsTy t).not_ok hk hu⟩
  · obtain ⟨k, hk, -⟩ := ((failsTy t).err b e).mp (by rw [hu])
    refine .inr ⟨?_, k, hk, fun k' hk' => (failsTy t).uniq b k' k hk' hk⟩
    rintro ⟨v, rest, hv, rfl⟩
    rw [(goodTy t).complete v rest hv] at hu
    cases hu
  · exact absurd (by rw [hu]) ((goodTy t).total b).1

/-- **C68 is violated**: a digest of 65 bytes, all of which are there, and however
many bytes follow, is reported as an unexpected end of the buffer. -/
theorem C68_violated (more : Bytes) :
    ¬ Faulty .short Tpm2bDigest ([0, 65] ++ List.replicate 65 7 ++ more) ∧
    (unmarshal Tpm2bDigest ([0, 65] ++ List.replicate 65 7 ++ more)).1 =
      .err .unexpectedEndOfBuffer := by
  have hs : Faulty .size Tpm2bDigest ([0, 65] ++ List.replicate 65 7 ++ more) := by
    simp only [Tpm2bDigest, Faulty]
    refine .inr ⟨65, List.replicate 65 7 ++ more, by decide, ?_, .inl ⟨trivial, by decide⟩⟩
    rw [List.append_assoc]
    rfl
  refine ⟨fun h => ?_, (C68_errors_partial _ _).2.2.mpr (.inr hs)⟩
  cases (failsTy _).uniq _ _ _ h hs

/-- Cases: an unknown capability, too many handles, the end of the input within
a counter, and a fault behind well-formed parts of a public area. -/
example : Faulty .selector TpmsCapabilityData [0, 0, 0, 99, 1] :=
  (C68_errors_partial _ _).1.mp rfl
example : Faulty .count TpmsCapabilityData [0, 0, 0, 1, 0, 0, 1, 0, 1] :=
  (C68_errors_partial _ _).2.1.mp rfl
example : Faulty .short TpmsClockInfo [0, 0, 0, 0, 0, 0, 0, 9, 0, 0, 0, 2, 0, 0] := by
  simp only [TpmsClockInfo, S, plains, Faulty, FaultyFields]
  exact .inr ⟨.int 9, [0, 0, 0, 2, 0, 0], by decide, by decide,
    .inr ⟨.int 2, [0, 0], by decide, by decide, .inl ⟨trivial, by decide⟩⟩⟩
example : Faulty .selector TpmtPublic [0, 0x99, 0, 0xB, 0, 0, 0, 0, 0, 0] :=
  (C68_errors_partial _ _).1.mp rfl

end Verif
