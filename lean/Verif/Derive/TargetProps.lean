import Verif.Derive.Targets
import Verif.Codec.Props

/-! Property theorems C102: declared types on targets with different alignments. -/

namespace Verif.Derive
open Verif

/-- The bytes of a sized buffer: the number of bytes of the contents in two bytes, and the
contents. -/
def sizedBytes (data : Bytes) : Bytes := digits256 2 data.length ++ data

/-- Reading a sized buffer gives the contents. -/
def Reads (t : Ty) (data : Bytes) : Prop :=
  ∀ rest, ∃ v, unmarshal t (sizedBytes data ++ rest) = (.ok v, rest) ∧ tpm2bGetBuffer v = .ok data

theorem reads_tpm2b {cap : Nat} {data : Bytes} (h : data.length ≤ cap) (hc : data.length < 65536) :
    Reads (.tpm2b cap) data := by
  intro rest
  have hv : WF (.tpm2b cap) (.tpm2b data.length (data ++ List.replicate (cap - data.length) 0)) := by
    simp only [WF, List.length_append, List.length_replicate]; omega
  have := (goodTy (.tpm2b cap)).complete _ rest hv
  simp only [wire, canon, List.take_left] at this
  exact ⟨_, this, by simp [tpm2bGetBuffer, sliceTo]⟩

/-- **C102 (partial).** On all the targets the declarations can be read and define the same
types; except `Tpm2bAttest`, every type has the same layout, so that the same values are
encoded as, and decoded from, the same bytes; all constants are the same. -/
theorem C102_same_partial (al al' : Nat → Nat) (h : Aligned al) (h' : Aligned al') :
    ∃ e e', (Env.emptyOn al).addAll Decls.all = some e ∧
      (Env.emptyOn al').addAll Decls.all = some e' ∧
      (∀ i, i ≠ "Tpm2bAttest" → e.types.lookup i = e'.types.lookup i) ∧
      e.consts = e'.consts ∧ e.assoc = e'.assoc := by
  obtain ⟨e, e', he, he', ht, hc, ha⟩ := targets
  have hl : ∀ i, i ≠ "Tpm2bAttest" → e'.types.lookup i = e.types.lookup i := fun i hi => by
    rw [ht, lookup_on32]
    cases e.types.lookup i <;> simp [hi]
  rcases h with rfl | rfl <;> rcases h' with rfl | rfl
  · exact ⟨e, e, he, he, fun _ _ => rfl, rfl, rfl⟩
  · exact ⟨e, e', he, he', fun i hi => (hl i hi).symm, hc.symm, ha.symm⟩
  · exact ⟨e', e, he', he, hl, hc, ha⟩
  · exact ⟨e', e', he', he', fun _ _ => rfl, rfl, rfl⟩

theorem lookup_reverse {l : List (Ident × Ty)} {m : List (Ident × Ty)} (h : l.reverse = m)
    (i : Ident) : l.lookup i = m.reverse.lookup i := by
  rw [← h, List.reverse_reverse]

/-- The two types on 64-bit targets and on 32-bit x86. -/
theorem attest_types : ∃ e e', Env.empty.addAll Decls.all = some e ∧
    (Env.emptyOn al32).addAll Decls.all = some e' ∧
    e.types.lookup "TpmsAttest" = some Base.TpmsAttest ∧
    e'.types.lookup "TpmsAttest" = some Base.TpmsAttest ∧
    e.types.lookup "Tpm2bAttest" = some (.tpm2b 2304) ∧
    e'.types.lookup "Tpm2bAttest" = some (.tpm2b 2292) := by
  obtain ⟨e, e', he, he', ht, -, -⟩ := targets
  obtain ⟨e0, he0, htab⟩ := C67_table
  rw [he] at he0
  cases he0
  have h1 : e.types.lookup "TpmsAttest" = some Base.TpmsAttest := by
    rw [lookup_reverse htab]; rfl
  have h2 : e.types.lookup "Tpm2bAttest" = some (.tpm2b 2304) := by
    rw [lookup_reverse htab]; rfl
  refine ⟨e, e', he, he', h1, ?_, h2, ?_⟩
  · rw [ht, lookup_on32, h1]; rfl
  · rw [ht, lookup_on32, h2]; rfl

/-- Non-vacuity: the type of public areas, with its 616 bytes of memory, is in both. -/
example : Aligned al64 ∧ Aligned al32 ∧
    (∃ e, (Env.emptyOn al32).addAll Decls.all = some e ∧
      e.types.lookup "TpmtPublic" = some Base.TpmtPublic) ∧
    sizeOfTy al64 Base.TpmtPublic = 616 ∧ sizeOfTy al32 Base.TpmtPublic = 616 ∧
    sizeOfTy al64 Base.TpmsClockInfo = 24 ∧ sizeOfTy al32 Base.TpmsClockInfo = 20 := by
  refine ⟨.inl rfl, .inr rfl, ?_, by decide, by decide, by decide, by decide⟩
  obtain ⟨e, e', he, he', hl, -, -⟩ := C102_same_partial al64 al32 (.inl rfl) (.inr rfl)
  refine ⟨e', he', ?_⟩
  rw [← hl _ (by decide)]
  obtain ⟨e0, he0, htab⟩ := C67_table
  have : e0 = e := by
    rw [show Env.empty = Env.emptyOn al64 from rfl, he] at he0
    exact (Option.some.inj he0).symm
  subst this
  rw [lookup_reverse htab]; rfl

/-- **C102 is violated** by `Tpm2bAttest`: contents of 2293 to 2304 bytes are read on 64-bit
targets and rejected on 32-bit x86. -/
theorem C102_violated (data : Bytes) (h : 2292 < data.length) (h' : data.length ≤ 2304) :
    ∃ e e' t t', Env.empty.addAll Decls.all = some e ∧
      (Env.emptyOn al32).addAll Decls.all = some e' ∧
      e.types.lookup "Tpm2bAttest" = some t ∧ e'.types.lookup "Tpm2bAttest" = some t' ∧
      Reads t data ∧ ∀ rest, ∃ x r, unmarshal t' (sizedBytes data ++ rest) = (.err x, r) := by
  obtain ⟨e, e', he, he', -, -, h1, h2⟩ := attest_types
  refine ⟨e, e', _, _, he, he', h1, h2, reads_tpm2b h' (by omega), fun rest => ?_⟩
  rcases hu : unmarshal (.tpm2b 2292) (sizedBytes data ++ rest) with ⟨v | x | _, r⟩
  · obtain ⟨hw, -, hb⟩ := (goodTy (.tpm2b 2292)).sound _ _ _ hu
    rcases v with _ | _ | _ | ⟨size, b⟩ | _ | _ | _ | _ <;> simp only [WF] at hw
    simp only [wire, sizedBytes, List.append_assoc] at hb
    have := congrArg (List.take 2) hb
    simp only [List.take_left' (digits256_length _ _)] at this
    have := congrArg positional this
    rw [positional_digits256_of_lt (by omega), positional_digits256_of_lt (by omega)] at this
    omega
  · exact ⟨x, r, rfl⟩
  · exact absurd (by rw [hu]) ((goodTy (.tpm2b 2292)).total (sizedBytes data ++ rest)).1

/-- Non-vacuity: 2300 bytes. -/
example : 2292 < (List.replicate 2300 (0 : UInt8)).length ∧
    (List.replicate 2300 (0 : UInt8)).length ≤ 2304 := by
  simp only [List.length_replicate]; omega

/-- **C102 (partial).** Contents of at most 2292 bytes are read on all targets, and this is
enough for every attestation. -/
theorem C102_attest_partial (al : Nat → Nat) (h : Aligned al) :
    ∃ e t s, (Env.emptyOn al).addAll Decls.all = some e ∧
      e.types.lookup "TpmsAttest" = some t ∧ e.types.lookup "Tpm2bAttest" = some s ∧
      (∀ data, data.length ≤ 2292 → Reads s data) ∧
      ∀ v, WF t v → (wire t v).length ≤ 2292 := by
  obtain ⟨e, e', he, he', t1, t2, h1, h2⟩ := attest_types
  have hle : ∀ v, WF Base.TpmsAttest v → (wire Base.TpmsAttest v).length ≤ 2292 := fun v hv =>
    Nat.le_trans (C16_encoding_le_size al32 _ v hv) (by decide)
  rcases h with rfl | rfl
  · exact ⟨e, _, _, he, t1, h1, fun data hd => reads_tpm2b (by omega) (by omega), hle⟩
  · exact ⟨e', _, _, he', t2, h2, fun data hd => reads_tpm2b (by omega) (by omega), hle⟩

/-- Non-vacuity: an attestation of the time. -/
example : ∃ v, WF Base.TpmsAttest v ∧ (wire Base.TpmsAttest v).length = 68 := by
  let clock : Val := .struct [.int 7, .int 1, .int 2, .struct [.int 1]]
  refine ⟨.split [.struct [.int 0xFF544347]]
    [.tpm2b 0 (List.replicate 66 0), .tpm2b 0 (List.replicate 64 0), clock, .int 5] 0x8019
    [.struct [.struct [.int 9, clock], .int 5]], ?_, ?_⟩
  · decide
  · decide

end Verif.Derive
