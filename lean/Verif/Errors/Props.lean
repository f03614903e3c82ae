import Verif.Errors.Impl

/-
Property theorems C23-C26 about error codes.
-/

namespace Verif.Errors
open Verif

set_option maxRecDepth 8000

/-- A format-one error code without annotation (TPM 2.0 Part 2, 6.6.2): bit 7
set, six bits of error number, all other bits clear. -/
def IsFormatOne (e : TpmRcError) : Prop := ∃ n, n < 64 ∧ e.code = 128 + n

/-- The four error codes that the API can annotate are format-one codes. -/
example : IsFormatOne .Asymmetric ∧ IsFormatOne .Value ∧ IsFormatOne .Size ∧
    IsFormatOne .Selector := ⟨⟨1, by decide⟩, ⟨4, by decide⟩, ⟨0x15, by decide⟩, ⟨0x18, by decide⟩⟩

/-- What an annotated code must be arithmetically, when the annotation fits
(parameters 1-15; handles and sessions 1-7): base code plus 256 times the
position plus the kind's bit. -/
def kindBit : ErrorType → Nat
  | .handle => 0
  | .parameter => 64
  | .session => 2048

/-- Is the position representable for the kind?  (TPM 2.0 Part 2, 6.6.2) -/
def Fits (on : ErrorType) (pos : ErrorPosition) : Prop :=
  on = .parameter ∨ (pos.val + 1) ≤ 7

instance (on : ErrorType) (pos : ErrorPosition) : Decidable (Fits on pos) := by
  unfold Fits; infer_instance

instance (p : ErrorType → Prop) [DecidablePred p] : Decidable (∀ t, p t) :=
  decidable_of_iff (p .handle ∧ p .parameter ∧ p .session)
    ⟨fun h t => by cases t <;> simp [h], fun h => ⟨h _, h _, h _⟩⟩

theorem or_and_mask (a b m : Nat) : (a ||| b) &&& m = (a &&& m) ||| (b &&& m) :=
  Nat.and_or_distrib_right a b m

theorem fmt1_bits {e : TpmRcError} (h : IsFormatOne e) :
    e.code &&& 0x80 = 0x80 ∧ e.code &&& 0x40 = 0 ∧ e.code &&& 0xF00 = 0 ∧ e.code < 256 ∧
    e.code &&& 0xBF = e.code := by
  obtain ⟨n, hn, he⟩ := h
  rw [he]
  have : ∀ n : Fin 64, (128 + n.val) &&& 0x80 = 0x80 ∧ (128 + n.val) &&& 0x40 = 0 ∧
      (128 + n.val) &&& 0xF00 = 0 ∧ (128 + n.val) < 256 ∧ (128 + n.val) &&& 0xBF = 128 + n.val := by
    decide
  exact this ⟨n, hn⟩

theorem annotate_code (e : TpmRcError) (h : IsFormatOne e) (on : ErrorType) (pos : ErrorPosition) :
    annotate e on pos = some ⟨e.code ||| on.toMask ||| ErrorPosition.toMask pos⟩ := by
  unfold annotate TpmRcError.new
  rw [if_neg]
  intro h0
  have h1 := (fmt1_bits h).1
  have : (e.code ||| on.toMask ||| ErrorPosition.toMask pos) &&& 0x80 = 0 := by rw [h0]; rfl
  rw [or_and_mask, or_and_mask, h1] at this
  have h2 : (0x80 : Nat) ||| (on.toMask &&& 0x80) ||| (ErrorPosition.toMask pos &&& 0x80) ≠ 0 := by
    clear this h0; revert on pos; decide
  exact h2 this

/-! ### C23 -/

/-- **C23 is violated** in two ways: a reference to a handle is reported as a
reference to a session, and a reference to session 1 is reported as session 9
(crates/tpm2/src/errors/tpm_rc/mod.rs:154, 206). -/
theorem C23_violated :
    (annotate .Value .handle 0).bind format1Parameter = some (.session, 0) ∧
    (annotate .Value .session 0).bind format1Parameter = some (.session, 8) := by decide

/-- **C23 (partial).** The round trip holds for references to parameters, for
every format-one error and every position.  For handles the position is right
but the kind is always reported as a session; for sessions the kind is right
but positions 1-7 are reported as 9-15. -/
theorem C23_position_codec_partial (e : TpmRcError) (h : IsFormatOne e) (pos : ErrorPosition) :
    (annotate e .parameter pos).bind format1Parameter = some (.parameter, pos) ∧
    (annotate e .handle pos).bind format1Parameter = some (.session, pos) ∧
    (∀ pos', (pos'.val + 1) = (if (pos.val + 1) ≤ 7 then (pos.val + 1) + 8 else (pos.val + 1)) →
      (annotate e .session pos).bind format1Parameter = some (.session, pos')) := by
  obtain ⟨h80, h40, hF, -, -⟩ := fmt1_bits h
  simp only [annotate_code e h, Option.bind_some, format1Parameter, ErrorType.fromMask,
    ErrorPosition.fromMask, or_and_mask, h80, h40, hF]
  clear h h80 h40 hF
  revert pos
  decide

/-- **C23 (partial).** Every code of format one with a position from 1 to 15 is read as that
position, of a parameter or, without the bit for parameters, of a session. -/
theorem C23_reads_partial (b n : Nat) (hb : b < 64) (h1 : 1 ≤ n) (hn : n ≤ 15) :
    ∃ pos : ErrorPosition, pos.val + 1 = n ∧
      format1Parameter ⟨0x80 + 0x40 + b + 0x100 * n⟩ = some (.parameter, pos) ∧
      format1Parameter ⟨0x80 + b + 0x100 * n⟩ = some (.session, pos) := by
  have h : ∀ b < 64, ∀ n < 15, ∃ pos : ErrorPosition, pos.val = n ∧
      format1Parameter ⟨0x80 + 0x40 + b + 0x100 * (n + 1)⟩ = some (.parameter, pos) ∧
      format1Parameter ⟨0x80 + b + 0x100 * (n + 1)⟩ = some (.session, pos) := by decide +kernel
  obtain ⟨pos, h2, h3⟩ := h b hb (n - 1) (by omega)
  rw [show n - 1 + 1 = n by omega] at h3
  exact ⟨pos, by omega, h3⟩

example : format1Parameter ⟨0xFD5⟩ = some (.parameter, 14) := by decide

/-- Without annotation there is no reference. -/
theorem C23_unannotated (e : TpmRcError) (h : IsFormatOne e) : format1Parameter e = none := by
  obtain ⟨h80, h40, hF, -, -⟩ := fmt1_bits h
  simp [format1Parameter, ErrorPosition.fromMask, h80, hF]

/-- Codes that are not format one carry no reference. -/
theorem C23_not_format_one (e : TpmRcError) (h : e.code &&& 0x80 = 0) :
    format1Parameter e = none := by
  simp [format1Parameter, ErrorType.fromMask, h]

example : (annotate .Size .parameter 2).bind format1Parameter = some (.parameter, 2) :=
  (C23_position_codec_partial .Size ⟨0x15, by decide⟩ 2).1

/-! ### C24 -/

/-- **C24 is violated**: different annotations may give the same code. -/
theorem C24_violated :
    annotate .Value .session 0 = annotate .Value .session 8 ∧
    annotate .Value .session 0 = annotate .Value .handle 8 := by decide

/-- **C24 (partial).** Annotating never panics and never gives zero; the base
code is recovered by removing the annotation bits; the result is format one;
its value is the sum the TPM specification prescribes when the position fits
the kind; and among fitting annotations (parameters 1-15, handles and sessions
1-7) different annotations give different codes.  Missing: the constructor also
accepts handle and session positions above 7, which collide. -/
theorem C24_annotation_identity_partial (e : TpmRcError) (h : IsFormatOne e) (on : ErrorType)
    (pos : ErrorPosition) :
    ∃ a, annotate e on pos = some a ∧ a.code ≠ 0 ∧ a.code < 4096 ∧
      a.code &&& 0xBF = e.code ∧ a.code &&& 0x80 = 0x80 ∧
      (Fits on pos → a.code = e.code + 256 * (pos.val + 1) + kindBit on) ∧
      (∀ on' pos', Fits on pos → Fits on' pos' → annotate e on' pos' = some a →
        on' = on ∧ pos' = pos) := by
  obtain ⟨h80, h40, hF, hlt, hBF⟩ := fmt1_bits h
  refine ⟨_, annotate_code e h on pos, ?_, ?_, ?_, ?_, ?_, ?_⟩
  · simp only
    intro h0
    have : (e.code ||| on.toMask ||| ErrorPosition.toMask pos) &&& 0x80 = 0 := by rw [h0]; rfl
    rw [or_and_mask, or_and_mask, h80] at this
    revert this; clear h0 h h80 h40 hF hlt hBF; revert on pos; decide
  · have h1 : on.toMask < 2 ^ 12 := by cases on <;> decide
    have h2 : ErrorPosition.toMask pos < 2 ^ 12 := by revert pos; decide
    exact Nat.or_lt_two_pow (Nat.or_lt_two_pow (by omega) h1) h2
  · simp only [or_and_mask, hBF]
    have : on.toMask &&& 0xBF = 0 ∧ ErrorPosition.toMask pos &&& 0xBF = 0 := by
      revert on pos; decide
    rw [this.1, this.2]; simp
  · simp only [or_and_mask, h80]
    clear h h80 h40 hF hlt hBF; revert on pos; decide
  · intro hf
    simp only
    obtain ⟨n, hn, he⟩ := h
    rw [he, Nat.or_assoc]
    have hk : on.toMask ||| ErrorPosition.toMask pos = 256 * (pos.val + 1) + kindBit on := by
      clear he h80 h40 hF hlt hBF; revert hf; revert on pos; decide
    rw [hk]
    have h64 : ∀ n : Fin 64, 64 ||| (128 + n.val) = 192 + n.val := by decide
    have h64' := h64 ⟨n, hn⟩
    simp only at h64'
    cases on
    · have := Nat.two_pow_add_eq_or_of_lt (i := 8) (b := 128 + n) (by omega) (pos.val + 1)
      rw [Nat.or_comm, kindBit, Nat.add_zero, ← this]; omega
    · have h1 := Nat.two_pow_add_eq_or_of_lt (i := 8) (b := 192 + n) (by omega) (pos.val + 1)
      have h2 := Nat.two_pow_add_eq_or_of_lt (i := 8) (b := 64) (by omega) (pos.val + 1)
      simp only [kindBit]
      rw [show 256 * (pos.val + 1) + 64 = 2 ^ 8 * (pos.val + 1) ||| 64 from h2,
        Nat.or_comm, Nat.or_assoc, h64', ← h1]
      omega
    · have := Nat.two_pow_add_eq_or_of_lt (i := 8) (b := 128 + n) (by omega)
        ((pos.val + 1) + 8)
      rw [Nat.or_comm, kindBit,
        show 256 * (pos.val + 1) + 2048 = 2 ^ 8 * ((pos.val + 1) + 8) by omega, ← this]
      omega
  · intro on' pos' hf hf' heq
    rw [annotate_code e h] at heq
    simp only [Option.some.injEq, TpmRcError.mk.injEq] at heq
    have h1 := congrArg (· &&& 0x40) heq
    have h2 := congrArg (· &&& 0xF00) heq
    simp only [or_and_mask, h40, hF] at h1 h2
    clear h80 h40 hF hlt hBF heq h
    revert h1 h2 hf hf'
    revert on pos on' pos'
    decide

/-- **C24 (partial).** Exactly which annotations give the same code: for parameters only
the same position; for handles and sessions those with the same three low bits of the
position that agree on bit 3, which is set for sessions and for positions above 7. -/
theorem C24_exact_partial (e : TpmRcError) (h : IsFormatOne e) (on on' : ErrorType)
    (pos pos' : ErrorPosition) :
    annotate e on pos = annotate e on' pos' ↔
      (on = .parameter ∧ on' = .parameter ∧ pos = pos') ∨
      (on ≠ .parameter ∧ on' ≠ .parameter ∧
        (pos.val + 1) % 8 = (pos'.val + 1) % 8 ∧
        ((on = .session ∨ 8 ≤ (pos.val + 1)) ↔
          (on' = .session ∨ 8 ≤ (pos'.val + 1)))) := by
  obtain ⟨h80, h40, hF, hlt, hBF⟩ := fmt1_bits h
  rw [annotate_code e h, annotate_code e h]
  simp only [Option.some.injEq, TpmRcError.mk.injEq]
  have key : on.toMask ||| ErrorPosition.toMask pos = on'.toMask ||| ErrorPosition.toMask pos' ↔
      (on = .parameter ∧ on' = .parameter ∧ pos = pos') ∨
      (on ≠ .parameter ∧ on' ≠ .parameter ∧
        (pos.val + 1) % 8 = (pos'.val + 1) % 8 ∧
        ((on = .session ∨ 8 ≤ (pos.val + 1)) ↔
          (on' = .session ∨ 8 ≤ (pos'.val + 1)))) := by
    clear h h80 h40 hF hlt hBF
    revert on pos on' pos'
    decide
  rw [← key]
  constructor
  · intro heq
    have h1 := congrArg (· &&& 0x40) heq
    have h2 := congrArg (· &&& 0xF00) heq
    simp only [or_and_mask, h40, hF] at h1 h2
    clear h80 h40 hF hlt hBF heq h key
    revert h1 h2
    revert on pos on' pos'
    decide
  · intro heq
    rw [Nat.or_assoc, heq, Nat.or_assoc]

/-- Non-vacuity: handle 9 (an index of 8) and session 1 collide, handle 1 does not. -/
example : annotate .Value .handle 8 = annotate .Value .session 0 ∧
    annotate .Value .handle 0 ≠ annotate .Value .session 0 := by decide

example : ∃ a, annotate .Selector .session 2 = some a ∧ a.code = 0x98 + 256 * 3 + 2048 := by
  decide

/-! ### C25 -/

/-- **C25.** Conversion to an error succeeds exactly for non-zero codes, and
the error yields back the code. -/
theorem C25_nonzero (code : Nat) :
    ((TssError.tryFrom code).isSome ↔ code ≠ 0) ∧
    (∀ e, TssError.tryFrom code = some e → e.get = code) ∧ TssError.tryFrom 0 = none := by
  refine ⟨?_, ?_, rfl⟩
  · by_cases h : code = 0 <;> simp [TssError.tryFrom, h]
  · intro e he
    by_cases h : code = 0
    · simp [TssError.tryFrom, h] at he
    · simp only [TssError.tryFrom, if_neg h, Option.some.injEq] at he
      rw [← he]; rfl

/-- Every named response code is non-zero, below 4096, and converting it to the
common error type preserves it. -/
theorem C25_named_codes (p : String × Nat) (hp : p ∈ tpm2Table ++ baseTable) :
    p.2 ≠ 0 ∧ p.2 < 4096 ∧ (TpmRcError.mk p.2).toTss.get = p.2 ∧
    TpmRcError.new p.2 = some ⟨p.2⟩ := by
  have h : ∀ p ∈ tpm2Table ++ baseTable, p.2 ≠ 0 ∧ p.2 < 4096 := by decide
  refine ⟨(h p hp).1, (h p hp).2, rfl, ?_⟩
  unfold TpmRcError.new
  rw [if_neg (h p hp).1]

/-- **C25.** The constructor for the TPM's errors panics exactly on success. -/
theorem C25_new (v : Nat) :
    (TpmRcError.new v = none ↔ v = 0) ∧ ∀ e, TpmRcError.new v = some e → e.code = v := by
  unfold TpmRcError.new
  by_cases h : v = 0
  · simp [h]
  · simp only [h, if_false, reduceCtorEq, Option.some.injEq, true_and]
    rintro e rfl
    rfl

/-- **C25.** Layer errors: for every common code `v < 4096` the constructor does
not panic, the layer and the code can be read off the error, so errors of
different layers or codes differ, and none equals a TPM response code (all of
which are below 4096, `C25_named_codes`, `C24_annotation_identity_partial`). -/
theorem C25_layers (l l' : Layer) (v v' : Nat) (hv : v < 4096) (hv' : v' < 4096) :
    layerNew l v = some (layerError l v).get ∧
    (layerError l v).get / 4096 = l.value ∧ (layerError l v).get % 4096 = v ∧
    (layerError l v = layerError l' v' → l = l' ∧ v = v') ∧
    ∀ e : TpmRcError, e.code < 4096 → e.toTss ≠ layerError l v := by
  have key : ∀ (l : Layer) (v : Nat), v < 4096 → (layerError l v).get = 4096 * l.value + v := by
    intro l v hv
    have := Nat.two_pow_add_eq_or_of_lt (i := 12) (b := v) (by omega) l.value
    have h2 : l.value <<< 12 = 2 ^ 12 * l.value := by rw [Nat.shiftLeft_eq, Nat.mul_comm]
    rw [layerError, TssError.get, h2, Nat.or_comm]
    exact this.symm
  have hl : ∀ l : Layer, 1 ≤ l.value := by intro l; cases l <;> decide
  have h1 := key l v hv
  have h2 := key l' v' hv'
  refine ⟨?_, ?_, ?_, ?_, ?_⟩
  · have h3 : layerNew l v = if (layerError l v).get = 0 then none else some (layerError l v).get := rfl
    rw [h3, if_neg]
    have := hl l
    omega
  · omega
  · omega
  · intro he
    have h3 := congrArg TssError.get he
    rw [h1, h2] at h3
    have h4 : l.value = l'.value ∧ v = v' := by omega
    refine ⟨?_, h4.2⟩
    have h5 := h4.1
    cases l <;> cases l' <;> first | rfl | (exact absurd h5 (by decide))
  · intro e he heq
    have h3 := congrArg TssError.get heq
    rw [h1] at h3
    have h4 : e.toTss.get = e.code := rfl
    have := hl l
    omega

example : (layerError .tcs 16).get = 0x2010 ∧ ("TpmUnexpected", 16) ∈ layerConstants := by decide

/-- The named constants of the layers are such codes, and different names denote
different codes: two named layer errors are equal only if layer and name are. -/
theorem C25_layer_names (l l' : Layer) (p q : String × Nat) (hp : p ∈ layerConstants)
    (hq : q ∈ layerConstants) :
    p.2 ≠ 0 ∧ p.2 < 4096 ∧ (layerError l p.2 = layerError l' q.2 → l = l' ∧ p.1 = q.1) := by
  have h : ∀ p ∈ layerConstants, p.2 ≠ 0 ∧ p.2 < 4096 ∧
      ∀ q ∈ layerConstants, p.2 = q.2 → p.1 = q.1 := by decide
  obtain ⟨h1, h2, h3⟩ := h p hp
  refine ⟨h1, h2, fun he => ?_⟩
  obtain ⟨h4, h5⟩ := (C25_layers l l' p.2 q.2 h2 (h q hq).2.1).2.2.2.1 he
  exact ⟨h4, h3 q hq h5⟩

example : ("TpmUnexpected", 16) ∈ layerConstants ∧ ("BadParameter", 3) ∈ layerConstants ∧
    layerError .tcs 16 ≠ layerError .tcs 3 := by decide

/-- The layers of the TSS specification ("TSS Return Codes"), numbered as in the upper
bits of its error codes. -/
def tssLayer : Layer → Nat
  | .tddl => 0x1000
  | .tcs => 0x2000
  | .tsp => 0x3000

/-- The return codes all layers have in common (`TSS_E_FAIL`, `TSS_E_BAD_PARAMETER`, ... of
the TSS specification), under the names the crate gives them. -/
def tssCommon : List (String × Nat) := [
  ("GeneralFailure", 0x02), ("BadParameter", 0x03), ("InternalError", 0x04),
  ("OutOfMemory", 0x05), ("NotImplemented", 0x06), ("KeyAlredyRegistered", 0x08),
  ("TpmUnexpected", 0x10), ("CommFailure", 0x11), ("Timeout", 0x12), ("Unsupported", 0x14),
  ("Canceled", 0x16)]

/-- **C25.** The errors of the layers have the numbers of the TSS specification: the layer's
number plus that of the common code, for any code. -/
theorem C25_tss_values (l : Layer) :
    (∀ v < 4096, (layerError l v).get = tssLayer l + v) ∧
    ∀ n v, (n, v) ∈ layerConstants ↔ (n, v) ∈ tssCommon := by
  refine ⟨fun v hv => ?_, fun n v => Iff.rfl⟩
  obtain ⟨-, h1, h2, -⟩ := C25_layers l l v v hv hv
  have : tssLayer l = 4096 * l.value := by cases l <;> rfl
  omega

example : (layerError .tddl 0x11).get = 0x1011 ∧ (layerError .tsp 0x16).get = 0x3016 := by decide

/-- Marshalling errors become distinct non-zero response codes, none of which
is a client-layer error: `TPM_RC_SIZE`, `TPM_RC_MEMORY` and `TPM_RC_SELECTOR`. -/
theorem C25_marshal_codes :
    (merrToTss .arrayLengthExceeded).get = 0x095 ∧ (merrToTss .unexpectedEndOfBuffer).get = 0x904 ∧
    (merrToTss .unknownSelector).get = 0x098 := by decide

/-- Marshalling errors become distinct non-zero response codes, none of which
is a client-layer error. -/
theorem C25_marshal_errors (e e' : MErr) :
    (merrToTss e).get ≠ 0 ∧ (merrToTss e).get < 4096 ∧ (merrToTss e = merrToTss e' → e = e') := by
  cases e <;> cases e' <;> decide

/-! ### C26 -/

/-- **C26 is violated**: `Sequence` is 0x102 in the error crate and 0x103 in
the structure crate. -/
theorem C26_violated : ("Sequence", 0x102) ∈ tpm2Table ∧ ("Sequence", 0x103) ∈ baseTable := by
  decide

/-- **C26 (partial).** Every other common name denotes the same code, and in
each table different names denote different codes. -/
theorem C26_tables_agree_partial :
    (∀ p ∈ tpm2Table, ∀ q ∈ baseTable, p.1 = q.1 → p.1 ≠ "Sequence" → p.2 = q.2) ∧
    (tpm2Table.map (·.2)).Nodup ∧ (baseTable.map (·.2)).Nodup ∧
    (tpm2Table.map (·.1)).Nodup ∧ (baseTable.map (·.1)).Nodup := by
  decide

example : ("Memory", 0x904) ∈ tpm2Table ∧ ("Memory", 0x904) ∈ baseTable := by decide

/-! ### C59 -/

/-- **C59.** A code is classified as a warning exactly if it is a format-zero
code (bit 7 clear) of TPM 2.0 (bit 8 set) with the severity bit (bit 11) set. -/
theorem C59_bits (e : TpmRcError) :
    e.isWarning = true ↔
      e.code.testBit 7 = false ∧ e.code.testBit 8 = true ∧ e.code.testBit 11 = true := by
  unfold TpmRcError.isWarning
  rw [beq_iff_eq]
  have hb : ∀ i, (e.code &&& 0x980).testBit i = (e.code.testBit i && (0x980 : Nat).testBit i) :=
    fun i => Nat.testBit_and ..
  constructor
  · intro h
    have h7 := hb 7
    have h8 := hb 8
    have h11 := hb 11
    rw [h] at h7 h8 h11
    simp only [show (0x900 : Nat).testBit 7 = false by decide,
      show (0x900 : Nat).testBit 8 = true by decide, show (0x900 : Nat).testBit 11 = true by decide,
      show (0x980 : Nat).testBit 7 = true by decide, show (0x980 : Nat).testBit 8 = true by decide,
      show (0x980 : Nat).testBit 11 = true by decide, Bool.and_true] at h7 h8 h11
    exact ⟨h7.symm, h8.symm, h11.symm⟩
  · intro ⟨h7, h8, h11⟩
    apply Nat.eq_of_testBit_eq
    intro i
    rw [hb]
    rcases Nat.lt_or_ge i 12 with hi | hi
    · by_cases e7 : i = 7
      · rw [e7, h7]; decide
      by_cases e8 : i = 8
      · rw [e8, h8]; decide
      by_cases e11 : i = 11
      · rw [e11, h11]; decide
      have : ∀ i < 12, i ≠ 7 → i ≠ 8 → i ≠ 11 →
          (0x980 : Nat).testBit i = false ∧ (0x900 : Nat).testBit i = false := by decide
      rw [(this i hi e7 e8 e11).1, (this i hi e7 e8 e11).2, Bool.and_false]
    · have hp : 2 ^ 12 ≤ 2 ^ i := Nat.pow_le_pow_right (by decide) hi
      rw [Nat.testBit_lt_two_pow (x := 0x980) (by omega),
        Nat.testBit_lt_two_pow (x := 0x900) (by omega), Bool.and_false]

/-- **C59.** Among the named codes of both crates the warnings are exactly those
from 0x900 on. -/
theorem C59_named (p : String × Nat) (hp : p ∈ tpm2Table ++ baseTable) :
    (TpmRcError.mk p.2).isWarning = true ↔ 0x900 ≤ p.2 := by
  have h : ∀ p ∈ tpm2Table ++ baseTable,
      (TpmRcError.mk p.2).isWarning = true ↔ 0x900 ≤ p.2 := by decide
  exact h p hp

/-- **C59.** A format-one error is never a warning, whatever it refers to. -/
theorem C59_annotated (e a : TpmRcError) (h : IsFormatOne e) (on : ErrorType)
    (pos : ErrorPosition) (ha : annotate e on pos = some a) :
    e.isWarning = false ∧ a.isWarning = false := by
  have key : ∀ c : Nat, c &&& 0x80 = 0x80 → (TpmRcError.mk c).isWarning = false := by
    intro c hc
    unfold TpmRcError.isWarning
    rw [beq_eq_false_iff_ne]
    intro h9
    have : c &&& 0x980 &&& 0x80 = c &&& 0x80 := by rw [Nat.and_assoc]; rfl
    rw [h9, hc] at this
    exact absurd this (by decide)
  refine ⟨key _ (fmt1_bits h).1, ?_⟩
  obtain ⟨a', h1, -, -, -, h2, -⟩ := C24_annotation_identity_partial e h on pos
  rw [h1] at ha
  injection ha with ha
  rw [← ha]
  exact key _ h2

example : (TpmRcError.mk 0x904).isWarning = true ∧ (TpmRcError.mk 0x143).isWarning = false ∧
    (TpmRcError.mk 0x9C4).isWarning = false := by decide
example := C59_annotated .Value ⟨0x984⟩ ⟨4, by decide⟩ .session 0 (by decide)

end Verif.Errors
