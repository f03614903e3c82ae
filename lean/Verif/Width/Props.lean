import Verif.Width.Client
import Verif.Width.Server
import Verif.Width.Tcp
import Verif.Base.Tpml
import Verif.Server.Props

/-
Property theorems C98: the width of `usize`, and whether overflows are checked, make no
difference on machines of at least 32 bits.
-/

namespace Verif
open Verif.Base Verif.Errors

/-! ### Types -/

/-- Reading a value gives the same result on every machine of at least 32 bits, and the one
without any limit. -/
theorem C98_unmarshal (m₁ m₂ : Machine) (h₁ : 32 ≤ m₁.bits) (h₂ : 32 ≤ m₂.bits) (t : Ty)
    (ht : t.countsIn 4 = true) (b : Bytes) :
    unmarshalOn m₁ t b = unmarshalOn m₂ t b ∧ unmarshalOn m₁ t b = unmarshal t b := by
  rw [unmarshalOn_eq (c := 4) (by omega) (by omega) t ht,
    unmarshalOn_eq (m := m₂) (c := 4) (by omega) (by omega) t ht]
  exact ⟨rfl, rfl⟩

/-- Writing a value gives the same result and the same buffer on every machine of at least
32 bits on which there is such a buffer. -/
theorem C98_marshal (m₁ m₂ : Machine) (h₁ : 32 ≤ m₁.bits) (h₂ : 32 ≤ m₂.bits) (t : Ty)
    (ht : t.countsIn 4 = true) (v : Val) (hv : HasTy t v) (buf : Bytes)
    (hb₁ : buf.length < 2 ^ m₁.bits) (hb₂ : buf.length < 2 ^ m₂.bits) :
    marshalOn m₁ t v buf = marshalOn m₂ t v buf ∧ marshalOn m₁ t v buf = marshal t v buf := by
  have e₁ := (marshalOn_agrees (m := m₁) (c := 4) (by omega) (by omega) t v ht hv buf hb₁).1
  have e₂ := (marshalOn_agrees (m := m₂) (c := 4) (by omega) (by omega) t v ht hv buf hb₂).1
  exact ⟨e₁.trans e₂.symm, e₁⟩

/-- All types that the crates declare are covered. -/
theorem C98_declared : ∀ t ∈ allTypes, t.2.countsIn 4 = true := by decide

/-- A machine of 32 bits in a release build, one of 64 bits in a debug build, and a small one. -/
def machine32 : Machine := ⟨32, false⟩
/-- See `machine32`. -/
def machine64 : Machine := ⟨64, true⟩
/-- See `machine32`. -/
def machine16 : Machine := ⟨16, false⟩

/-- A list of at most two commands that claims to have 65537 is refused … -/
example : unmarshalOn machine32 (tpml TpmCc 2) [0, 1, 0, 1, 0, 0, 1, 0x7B] =
    (.err .arrayLengthExceeded, [0, 0, 1, 0x7B]) := by
  rw [(C98_unmarshal machine32 machine64 (by decide) (by decide) (tpml TpmCc 2) (by decide) _).2]
  simp [unmarshal, tpml, unmarshalFields, UM.bind_eq, UM.pure_eq, asUsize, UM.fail,
    show unmarshalPrim 4 [0, 1, 0, 1, 0, 0, 1, 0x7B] = (.ok 65537, [0, 0, 1, 0x7b]) from rfl]

/-- … but would be taken for a list of a single one if `usize` had 16 bits. -/
example : unmarshalOn machine16 (tpml u32 2) [0, 1, 0, 1, 0, 0, 1, 0x7B] =
    (.ok (.struct [.int 65537, .arr [.int 0x17B, .int 0]]), []) := by
  simp only [unmarshalOn, tpml, unmarshalFieldsOn, UM.bind_eq, UM.pure_eq, asUsize,
    show unmarshalPrim 4 [0, 1, 0, 1, 0, 0, 1, 0x7B] = (.ok 65537, [0, 0, 1, 0x7b]) from rfl]
  simp [show machine16.cast 65537 = 1 by decide, UM.bind_eq, unmarshalLoop, UM.pure_eq, Ty.default,
    List.replicate, show unmarshalPrim 4 [0, 0, 1, 0x7B] = (.ok 0x17b, []) from rfl]

/-- A caller's type whose length is given by eight bytes. -/
def longCount : Ty := .struct (.plain (.prim 8) (.lenArr 0 (.prim 1) 2 .nil))

/-- It is not covered, and for it there is a difference: 2^32 entries are none. -/
example : longCount.countsIn 4 = false ∧
    unmarshalOn machine32 longCount [0, 0, 0, 1, 0, 0, 0, 0] =
      (.ok (.struct [.int (2 ^ 32), .arr [.int 0, .int 0]]), []) ∧
    unmarshalOn machine64 longCount [0, 0, 0, 1, 0, 0, 0, 0] = (.err .arrayLengthExceeded, []) := by
  have h : unmarshalPrim 8 [0, 0, 0, 1, 0, 0, 0, 0] = (.ok (2 ^ 32), []) := rfl
  refine ⟨by decide, ?_, ?_⟩
  · simp only [unmarshalOn, longCount, unmarshalFieldsOn, UM.bind_eq, UM.pure_eq, asUsize, h]
    simp [show machine32.cast 4294967296 = 0 by decide, UM.bind_eq, unmarshalLoop, UM.pure_eq,
      Ty.default, List.replicate]
  · simp only [unmarshalOn, longCount, unmarshalFieldsOn, UM.bind_eq, UM.pure_eq, asUsize, h]
    simp [show machine64.cast 4294967296 = 4294967296 by decide, UM.fail]

/-- A list with a wrong count is written up to the end of its array, with a panic, on both. -/
example : (marshalOn machine64 (tpml u8 2) (.struct [.int 65537, .arr [.int 7, .int 8]])
    (List.replicate 7 1)) = (.panic, [0, 1, 0, 1, 7, 8, 1]) := by
  rw [(C98_marshal machine64 machine32 (by decide) (by decide) (tpml u8 2) (by decide) _
    ((tyCheck_iff _ _).1 (by decide)) _ (by decide) (by decide)).2]
  rfl

/-! ### Lists -/

namespace Base

/-- `count`, with `self.count as usize`: base/src/lib.rs:1563-1565. -/
def tpmlCountOn (m : Machine) : Val → Nat
  | .struct [.int count, .arr _] => m.cast count
  | _ => 0

/-- `add`: base/src/lib.rs:1553-1561. -/
def tpmlAddOn (m : Machine) (v element : Val) : Res TpmRcError Unit × Val :=
  match v with
  | .struct [.int count, .arr list] =>
    if m.cast count ≥ list.length then (.err .Size, v)
    else if m.cast count < list.length then
      let list := list.set (m.cast count) element
      -- `count` itself is a `u32`
      if count + 1 < 2 ^ 32 then (.ok (), .struct [.int (count + 1), .arr list])
      else if m.checked then (.panic, .struct [.int count, .arr list])
      else (.ok (), .struct [.int ((count + 1) % 2 ^ 32), .arr list])
    else (.panic, v)
  | _ => (.panic, v)

/-- The accessor: base/src/lib.rs:1567-1569. -/
def tpmlElemsOn (m : Machine) (n : Nat) : Val → Res TpmRcError (List Val)
  | .struct [.int count, .arr list] =>
    if min (m.cast count) n ≤ list.length then .ok (list.take (min (m.cast count) n)) else .panic
  | _ => .panic

end Base

/-- Lists of at most 2^32 - 1 entries: their number, their entries, and adding one. -/
theorem C98_lists (m : Machine) (h : 32 ≤ m.bits) (t : Ty) (n : Nat) (hn : n < 2 ^ 32) (v : Val)
    (hv : HasTy (tpml t n) v) (e : Val) :
    tpmlCountOn m v = tpmlCount v ∧ tpmlElemsOn m n v = tpmlElems n v ∧
    tpmlAddOn m v e = tpmlAdd v e := by
  have hlt : ∀ {c : Nat}, c < 2 ^ 32 → m.cast c = c := fun hc =>
    Nat.mod_eq_of_lt (Nat.lt_of_lt_of_le hc (Nat.pow_le_pow_right (by decide) h))
  rcases v with _ | _ | _ | _ | vs | _ | _ | _ <;> simp [tpml, HasTy] at hv
  rcases vs with _ | ⟨x, _ | ⟨y, vs⟩⟩ <;> simp [HasTyFields] at hv
  rcases x with c | _ | _ | _ | _ | _ | _ | _ <;> simp [HasTy] at hv
  rcases y with _ | _ | _ | _ | _ | l | _ | _ <;> simp [HasTyFields] at hv
  rcases vs with _ | ⟨z, vs⟩ <;> simp [HasTyFields] at hv
  have hc := hlt (show c < 2 ^ 32 by simpa using hv.1)
  have hl : l.length = n := hv.2.1
  simp only [tpmlCountOn, tpmlCount, tpmlElemsOn, tpmlElems, tpmlAddOn, tpmlAdd, hc, true_and]
  split
  · rfl
  · rw [if_pos (by omega), if_pos (by omega), if_pos (by omega), if_pos (by omega)]

/-- The third entry of three is added, on a machine of either kind. -/
example : tpmlAddOn machine64 (.struct [.int 2, .arr [.int 5, .int 6, .int 0]]) (.int 7) =
    (.ok (), .struct [.int 3, .arr [.int 5, .int 6, .int 7]]) := by
  rw [(C98_lists machine64 (by decide) u32 3 (by decide) _ ((tyCheck_iff _ _).1 (by decide)) _).2.2]
  rfl

/-! ### The client -/

namespace Client

/-- Running a command has the same result, and hands the same bytes to the connection, on
every machine of at least 32 bits. -/
theorem C98_client {σ ε : Type} (m₁ m₂ : Machine) (h₁ : 32 ≤ m₁.bits) (h₂ : 32 ≤ m₂.bits)
    (tr : Transport σ ε) (c : Command) (a : Area) (h : CmdTyped c a) (hc : c.CountsIn) (s : σ) :
    runCommandWithHandlesOn m₁ tr c a s = runCommandWithHandlesOn m₂ tr c a s ∧
    runCommandWithHandlesOn m₁ tr c a s = runCommandWithHandles tr c a s := by
  rw [runCommandWithHandlesOn_eq h₁ tr c a h hc, runCommandWithHandlesOn_eq h₂ tr c a h hc]
  exact ⟨rfl, rfl⟩

/-- GetRandom, with a password. -/
def exGetRandom : Command :=
  ⟨Cc.GetRandom, .unit, .unit, GetRandomCmd, .struct [.int 16], GetRandomResp, .unit⟩

example : CmdTyped exGetRandom (area1 (passwordSession Tpm2bDigest.default)) ∧ exGetRandom.CountsIn := by
  refine ⟨⟨by decide, (tyCheck_iff _ _).1 (by decide), (tyCheck_iff _ _).1 (by decide), ?_⟩,
    ⟨by decide, by decide, by decide, by decide⟩⟩
  intro s hs
  simp only [area1, Area.active, List.mem_singleton] at hs
  rw [hs]
  exact (tyCheck_iff _ _).1 (by decide)

end Client

/-! ### The server -/

namespace Server

variable {D E : Type}

/-- Answering a request has the same result on every machine of at least 32 bits. -/
theorem C98_separate (m₁ m₂ : Machine) (h₁ : 32 ≤ m₁.bits) (h₂ : 32 ≤ m₂.bits) (g : Drbg D)
    (es : Entropy E) (k : Crypto D E) (request response : Bytes) :
    executeSeparateOn m₁ g es k request response = executeSeparateOn m₂ g es k request response ∧
    executeSeparateOn m₁ g es k request response = executeSeparate g es k request response := by
  simp only [executeSeparateOn, executeSeparate, executeCommandOn_eq h₁, executeCommandOn_eq h₂,
    completeOn_eq h₁, completeOn_eq h₂, and_self]

/-- The same in place. -/
theorem C98_in_place (m₁ m₂ : Machine) (h₁ : 32 ≤ m₁.bits) (h₂ : 32 ≤ m₂.bits) (g : Drbg D)
    (es : Entropy E) (k : Crypto D E) (inOut : Bytes) (size : Nat) :
    executeInPlaceOn m₁ g es k inOut size = executeInPlaceOn m₂ g es k inOut size ∧
    executeInPlaceOn m₁ g es k inOut size = executeInPlace g es k inOut size := by
  simp only [executeInPlaceOn, executeInPlace, executeCommandOn_eq h₁, executeCommandOn_eq h₂,
    completeOn_eq h₁, completeOn_eq h₂, and_self]

/-- A request for two bytes whose size field says 65548 instead of 12. -/
def exHuge : Bytes := [0x80, 1, 0, 1, 0, 12, 0, 0, 1, 0x7B, 0, 2]

/-- It is refused … -/
example : executeSeparateOn machine32 fakeDrbg fakeEntropy (fakeState 0) exHuge
    (List.replicate 12 9) = (some 10, [9, 9, 9, 9, 9, 9, 0, 0, 1, 0x42, 9, 9], fakeState 0) := by
  rw [(C98_separate machine32 machine64 (by decide) (by decide) _ _ _ _ _).2]
  have h : ∀ c : Cursor, c = ⟨.separate exHuge (List.replicate 12 9), 2, 10⟩ →
      c.readBE 4 = (some 65548, { c with requestOffset := 6 }) := fun c hc => by rw [hc]; rfl
  unfold executeSeparate executeCommand
  dsimp only
  rw [show (Cursor.mk (.separate exHuge (List.replicate 12 9)) 0 10).readBE 2 =
    (some 0x8001, ⟨.separate exHuge (List.replicate 12 9), 2, 10⟩) from rfl]
  simp only [h _ rfl]
  rw [if_pos (by decide)]
  rfl

/-- … but would be answered if `usize` had 16 bits. -/
example : (executeSeparateOn machine16 fakeDrbg fakeEntropy (fakeState 0) exHuge
    (List.replicate 12 9)).1 = some 12 ∧
    (executeSeparateOn machine16 fakeDrbg fakeEntropy (fakeState 0) exHuge
      (List.replicate 12 9)).2.1 = responseOf 0 [1, 2] := by
  decide

end Server

/-! ### The connection -/

namespace Tcp

variable {σ : Type}

/-- A transaction has the same result and the same effects on every machine of at least 32
bits on which there is room for the command and its header. -/
theorem C98_transact (m₁ m₂ : Machine) (h₁ : 32 ≤ m₁.bits) (h₂ : 32 ≤ m₂.bits) (os : Os σ)
    (command response : Bytes) (c : Conn σ) (hc₁ : 9 + command.length < 2 ^ m₁.bits)
    (hc₂ : 9 + command.length < 2 ^ m₂.bits) :
    transactOn m₁ os command response c = transactOn m₂ os command response c ∧
    transactOn m₁ os command response c = some (transact os command response c) := by
  rw [transactOn_eq h₁ os command response c hc₁, transactOn_eq h₂ os command response c hc₂]
  exact ⟨rfl, rfl⟩

/-- The same for the measurement of data … -/
theorem C98_hcrtm (m₁ m₂ : Machine) (os : Os σ) (data : Bytes) (c : Conn σ)
    (hc₁ : 8 + data.length < 2 ^ m₁.bits) (hc₂ : 8 + data.length < 2 ^ m₂.bits) :
    hcrtmSequenceOn m₁ os data c = hcrtmSequenceOn m₂ os data c ∧
    hcrtmSequenceOn m₁ os data c = some (hcrtmSequence os data c) := by
  rw [hcrtmSequenceOn_eq os data c hc₁, hcrtmSequenceOn_eq os data c hc₂]
  exact ⟨rfl, rfl⟩

/-- … and for the sizes. -/
theorem C98_sizes (m₁ m₂ : Machine) (h₁ : 32 ≤ m₁.bits) (h₂ : 32 ≤ m₂.bits) (os : Os σ)
    (c : Conn σ) :
    getCommandResponseSizesOn m₁ os c = getCommandResponseSizesOn m₂ os c ∧
    getCommandResponseSizesOn m₁ os c = getCommandResponseSizes os c := by
  rw [getCommandResponseSizesOn_eq h₁, getCommandResponseSizesOn_eq h₂]
  exact ⟨rfl, rfl⟩

end Tcp

end Verif
