import Verif.Width.Server
import Verif.Tcp.Lemmas

/-
The connection on a machine with a `usize` of a given width: the operations in which it
matters.  A sum that panics is `none`.
-/

namespace Verif.Tcp
open Verif

variable {σ : Type}

/-- `write_vectored` of a command code, a header and data, with the sum of their lengths:
crates/tpm2-client/src/connection/tcp.rs:109-119, 406-416. -/
def writePartsOn (m : Machine) (os : Os σ) (p : Port) (code header data : Bytes) (c : Conn σ) :
    Option (Except IoErr Unit × Conn σ) :=
  match write os p (code ++ header ++ data) c with
  | (.error e, c) => some (.error e, c)
  | (.ok n, c) =>
    match m.add code.length header.length with
    | none => none
    | some sum =>
      match m.add sum data.length with
      | none => none
      | some sum => some (if n ≠ sum then (.error .writeZero, c) else (.ok (), c))

/-- `hcrtm_sequence`: crates/tpm2-client/src/connection/tcp.rs:98-128. -/
def hcrtmSequenceOn (m : Machine) (os : Os σ) (data : Bytes) (c : Conn σ) :
    Option (Except IoErr Unit × Conn σ) :=
  match (do
      writeAll os .tpm (toBE 4 TpmCode.signalHashStart.val)
      checkResponseEnd os .tpm : M σ Unit) c with
  | (.error e, c) => some (.error e, c)
  | (.ok _, c) =>
    match writePartsOn m os .tpm (toBE 4 TpmCode.signalHashData.val)
        (toBE 4 (data.length % 2 ^ 32)) data c with
    | none => none
    | some (.error e, c) => some (.error e, c)
    | some (.ok _, c) =>
      some ((do
        checkResponseEnd os .tpm
        writeAll os .tpm (toBE 4 TpmCode.signalHashEnd.val)
        checkResponseEnd os .tpm : M σ Unit) c)

/-- `get_command_response_sizes`, with `length.get() as usize`:
crates/tpm2-client/src/connection/tcp.rs:234-255. -/
def getCommandResponseSizesOn (m : Machine) (os : Os σ) : M σ Bytes := do
  writeAll os .plat (toBE 4 PlatCode.getCommandResponseSizes.val)
  let length ← readLocal os .plat 4
  if m.cast (fromBE length) ≠ 16 then M.fail .invalidData
  else do
    let resp ← readLocal os .plat 16
    checkResponseEnd os .plat
    M.pure resp

/-- `transact`, with `resp_hdr.length.get() as usize`:
crates/tpm2-client/src/connection/tcp.rs:392-433. -/
def transactOn (m : Machine) (os : Os σ) (command response : Bytes) (c : Conn σ) :
    Option (Except IoErr Nat × Bytes × Conn σ) :=
  if 2 ^ 32 ≤ command.length then some (.error .invalidInput, response, c)
  else
    match writePartsOn m os .tpm (toBE 4 TpmCode.sendCommand.val)
        (toBE 1 c.locality ++ toBE 4 command.length) command c with
    | none => none
    | some (.error e, c) => some (.error e, response, c)
    | some (.ok _, c) =>
      match readLocal os .tpm 4 c with
      | (.error e, c) => some (.error e, response, c)
      | (.ok hdr, c) =>
        let length := m.cast (fromBE hdr)
        if length > response.length then some (.error .invalidInput, response, c)
        else
          match readExact os .tpm length c with
          | (.error e, b, c) => some (.error e, b ++ response.drop b.length, c)
          | (.ok _, b, c) =>
            let response := b ++ response.drop b.length
            match checkResponseEnd os .tpm c with
            | (.error e, c) => some (.error e, response, c)
            | (.ok _, c) => some (.ok length, response, c)

/-! ### Proof -/

variable {m : Machine}

theorem writePartsOn_eq (os : Os σ) (p : Port) (code header data : Bytes) (c : Conn σ)
    (h : code.length + header.length + data.length < 2 ^ m.bits) :
    writePartsOn m os p code header data c
      = some (writeVectored os p (code ++ header ++ data) c) := by
  unfold writePartsOn writeVectored
  rw [bind_def, M.bind]
  have h1 : m.add code.length header.length = some (code.length + header.length) :=
    if_pos (by omega)
  have h2 : m.add (code.length + header.length) data.length
      = some (code.length + header.length + data.length) := if_pos h
  rcases write os p (code ++ header ++ data) c with ⟨e | n, c'⟩
  · rfl
  · simp only [h1, h2, List.length_append]
    split <;> rfl

theorem readLocal_lt {os : Os σ} {p : Port} {c c' : Conn σ} {b : Bytes}
    (h : readLocal os p 4 c = (.ok b, c')) : fromBE b < 256 ^ 4 := by
  unfold readLocal at h
  have := (readExact_spec os p 4 c).2.2.2
  rcases hr : readExact os p 4 c with ⟨e | _, b', c''⟩ <;> rw [hr] at h this
  · simp at h
  · have hl : b'.length = 4 := this rfl
    simp only [Prod.mk.injEq, Except.ok.injEq] at h
    rw [← h.1, fromBE_eq_positional, ← hl]
    exact positional_lt _

theorem hcrtmSequenceOn_eq (os : Os σ) (data : Bytes) (c : Conn σ)
    (h : 8 + data.length < 2 ^ m.bits) :
    hcrtmSequenceOn m os data c = some (hcrtmSequence os data c) := by
  unfold hcrtmSequenceOn hcrtmSequence
  simp only [bind_def, M.bind]
  rcases writeAll os .tpm (toBE 4 TpmCode.signalHashStart.val) c with ⟨e | _, c1⟩
  · rfl
  · simp only
    rcases checkResponseEnd os .tpm c1 with ⟨e | _, c2⟩
    · rfl
    · simp only
      rw [writePartsOn_eq os .tpm _ _ _ c2 (by simpa [toBE_eq_digits256, digits256_length] using h)]
      rcases writeVectored os .tpm _ c2 with ⟨e | _, c3⟩ <;> rfl

theorem getCommandResponseSizesOn_eq (hb : 32 ≤ m.bits) (os : Os σ) :
    getCommandResponseSizesOn m os = getCommandResponseSizes os := by
  funext c
  unfold getCommandResponseSizesOn getCommandResponseSizes
  simp only [bind_def, M.bind]
  rcases writeAll os .plat (toBE 4 PlatCode.getCommandResponseSizes.val) c with ⟨e | _, c1⟩
  · rfl
  · simp only
    rcases hr : readLocal os .plat 4 c1 with ⟨e | b, c2⟩
    · rfl
    · simp only
      rw [cast_of_lt (c := 4) (readLocal_lt hr) (by decide) (by omega)]

theorem transactOn_eq (hb : 32 ≤ m.bits) (os : Os σ) (command response : Bytes) (c : Conn σ)
    (h : 9 + command.length < 2 ^ m.bits) :
    transactOn m os command response c = some (transact os command response c) := by
  unfold transactOn transact
  by_cases hl : 2 ^ 32 ≤ command.length
  · rw [if_pos hl, if_pos hl]
  rw [if_neg hl, if_neg hl, sendFrame,
    writePartsOn_eq os .tpm _ _ _ c (by
      simp only [toBE_eq_digits256, digits256_length, List.length_append]; omega)]
  rcases writeVectored os .tpm _ c with ⟨e | _, c1⟩
  · rfl
  · simp only
    rcases hr : readLocal os .tpm 4 c1 with ⟨e | hdr, c2⟩
    · rfl
    · simp only
      rw [cast_of_lt (c := 4) (readLocal_lt hr) (by decide) (by omega)]
      split
      · rfl
      · rcases readExact os .tpm (fromBE hdr) c2 with ⟨e | _, b, c3⟩
        · rfl
        · simp only
          rcases checkResponseEnd os .tpm c3 with ⟨e | _, c4⟩ <;> rfl

end Verif.Tcp
