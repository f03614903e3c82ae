import Verif.Errors.Props

/-! The unit tests of crates/tpm2/src/errors/tpm_rc/tests.rs, as in `Tests/Marshalable`. -/

namespace Verif.Tests
open Verif.Errors

/-- crates/tpm2/src/errors/tpm_rc/tests.rs:3-13; `Pos2` is number 1. -/
theorem test_format1 :
    ∃ error, annotate .Asymmetric .parameter 1 = some error ∧ error.code = 0x2C1 ∧
      format1Parameter error = some (.parameter, 1) :=
  ⟨⟨0x2C1⟩, by decide, rfl, by decide⟩

/-- crates/tpm2/src/errors/tpm_rc/tests.rs:15-19 -/
theorem test_warning : TpmRcError.Memory.isWarning = true := by decide

end Verif.Tests
