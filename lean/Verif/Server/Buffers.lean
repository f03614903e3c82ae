import Verif.Server.Impl

/-
Model of the TPM server with arbitrary buffers: the platform may implement the
traits `TpmReadBuffer` and `TpmWriteBuffer` itself
(crates/tpm2-impl/src/platform/mod.rs:15-18).  Verif/Server/Impl.lean is the
special case of byte slices.
-/

namespace Verif.Server.Gen
open Verif Verif.Errors

/-! ### Traits -/

/-- `TpmReadBuffer`: crates/tpm2-impl/src/platform/buffer.rs:6-35.  All methods may
be implemented in any way; `read_into` fills a slice of the given length. -/
structure ReadBuffer (R : Type) where
  len : R → Nat
  readInto : R → Nat → Nat → Option Bytes
  readInto_length : ∀ r o n b, readInto r o n = some b → b.length = n
  readU16 : R → Nat → Option Nat
  readU32 : R → Nat → Option Nat

/-- The provided `read_be_u16`: crates/tpm2-impl/src/platform/buffer.rs:22-26. -/
def defaultU16 {R : Type} (readInto : R → Nat → Nat → Option Bytes) (r : R) (offset : Nat) :
    Option Nat :=
  (readInto r offset 2).map fromBE

/-- The provided `read_be_u32`: crates/tpm2-impl/src/platform/buffer.rs:30-34. -/
def defaultU32 {R : Type} (readInto : R → Nat → Nat → Option Bytes) (r : R) (offset : Nat) :
    Option Nat :=
  (readInto r offset 4).map fromBE

/-- What an implementation of `write_callback` does with the callback, an
`FnOnce`: nothing, or calls it with some slice and goes on with what the callback
left there. -/
inductive Callback (W : Type) where
  | skip (ok : Bool) (w : W)
  | call (slice : Bytes) (after : Bytes → Bool × W)

/-- `TpmWriteBuffer`: crates/tpm2-impl/src/platform/buffer.rs:42-58. -/
structure WriteBuffer (W : Type) extends ReadBuffer W where
  write : W → Nat → Bytes → Bool × W
  writeCallback : W → Nat → Nat → Callback W

/-- `TpmBuffers` (crates/tpm2-impl/src/platform/buffer.rs:99-111) with the
methods of the request that are used. -/
structure TpmBuffers (B W : Type) where
  requestLen : B → Nat
  requestU16 : B → Nat → Option Nat
  requestU32 : B → Nat → Option Nat
  response : B → W
  setResponse : B → W → B

/-- `SeparateBuffers`: crates/tpm2-impl/src/buffers/separate.rs:4-33. -/
def separate {R : Type} (rb : ReadBuffer R) (W : Type) : TpmBuffers (R × W) W where
  requestLen b := rb.len b.1
  requestU16 b := rb.readU16 b.1
  requestU32 b := rb.readU32 b.1
  response b := b.2
  setResponse b w := (b.1, w)

/-- `read_into` of `InOutBuffer`: crates/tpm2-impl/src/buffers/inout.rs:34-40. -/
def inOutRead {W : Type} (wb : WriteBuffer W) (b : W × Nat) (offset n : Nat) : Option Bytes :=
  if b.2 < offset + n then none else wb.readInto b.1 offset n

/-- `InOutBuffer`: crates/tpm2-impl/src/buffers/inout.rs:4-41. -/
def inOut {W : Type} (wb : WriteBuffer W) : TpmBuffers (W × Nat) W where
  requestLen b := b.2
  requestU16 := defaultU16 (inOutRead wb)
  requestU32 := defaultU32 (inOutRead wb)
  response b := b.1
  setResponse b w := (w, b.2)

/-! ### Requests -/

/-- `RequestResponseCursor`: crates/tpm2-impl/src/req_resp.rs:88-92. -/
structure Cursor (B : Type) where
  buffers : B
  requestOffset : Nat
  responseOffset : Nat

variable {B W R D E : Type}

/-- `read_be_u16`: crates/tpm2-impl/src/req_resp.rs:13-22. -/
def Cursor.readU16 (tb : TpmBuffers B W) (c : Cursor B) : Option Nat × Cursor B :=
  match tb.requestU16 c.buffers c.requestOffset with
  | none => (none, c)
  | some x => (some x, { c with requestOffset := c.requestOffset + 2 })

/-- `read_be_u32`: crates/tpm2-impl/src/req_resp.rs:27-36. -/
def Cursor.readU32 (tb : TpmBuffers B W) (c : Cursor B) : Option Nat × Cursor B :=
  match tb.requestU32 c.buffers c.requestOffset with
  | none => (none, c)
  | some x => (some x, { c with requestOffset := c.requestOffset + 4 })

/-- `get_random` with `Response::write_callback`:
crates/tpm2-impl/src/handler/random.rs:23-43, crates/tpm2-impl/src/req_resp.rs:71-83.
If the callback panics, the buffer is left as if it had returned (simplified). -/
def getRandom (wb : WriteBuffer W) (tb : TpmBuffers B W) (g : Drbg D) (es : Entropy E)
    (k : Crypto D E) (c : Cursor B) : Res TpmRcError Unit × Cursor B × Crypto D E :=
  match c.readU16 tb with
  | (none, c) => (.err .CommandSize, c, k)
  | (some requested, c) =>
    match wb.writeCallback (tb.response c.buffers) c.responseOffset requested with
    | .skip ok w =>
      let c := { c with buffers := tb.setResponse c.buffers w }
      if ok then (.ok (), { c with responseOffset := c.responseOffset + requested }, k)
      else (.err .Memory, c, k)
    | .call slice after =>
      let r := tryGetRandom g es k slice
      let a := after r.2.1
      let c := { c with buffers := tb.setResponse c.buffers a.2 }
      if r.1 = true then
        if a.1 then (.ok (), { c with responseOffset := c.responseOffset + requested }, r.2.2)
        else (.err .Memory, c, r.2.2)
      else (.panic, { c with responseOffset := c.responseOffset + requested }, r.2.2)

/-- The part of `execute_command` after the handler (`response_size as u32`
truncates): crates/tpm2-impl/src/tpmctx.rs:78-94. -/
def finish (wb : WriteBuffer W) (w : W) (responseSize : Nat) : Res TpmRcError Nat × W :=
  match wb.write w 0 (toBE 2 0x8001) with
  | (false, w) => (.err .Memory, w)
  | (true, w) =>
    match wb.write w 2 (toBE 4 responseSize) with
    | (false, w) => (.err .Memory, w)
    | (true, w) =>
      match wb.write w 6 (toBE 4 0) with
      | (false, w) => (.err .Memory, w)
      | (true, w) => (.ok responseSize, w)

/-- `execute_command`: crates/tpm2-impl/src/tpmctx.rs:58-95. -/
def executeCommand (wb : WriteBuffer W) (tb : TpmBuffers B W) (g : Drbg D) (es : Entropy E)
    (k : Crypto D E) (b : B) : Res TpmRcError Nat × W × Crypto D E :=
  let requestSize := tb.requestLen b
  let c : Cursor B := ⟨b, 0, 10⟩
  match c.readU16 tb with
  | (none, c) => (.err .CommandSize, tb.response c.buffers, k)
  | (some _session, c) =>
    match c.readU32 tb with
    | (none, c) => (.err .CommandSize, tb.response c.buffers, k)
    | (some size, c) =>
      if size ≠ requestSize then (.err .CommandSize, tb.response c.buffers, k)
      else
        match c.readU32 tb with
        | (none, c) => (.err .CommandSize, tb.response c.buffers, k)
        | (some commandCode, c) =>
          if commandCode = 0x17B then
            match getRandom wb tb g es k c with
            | (.ok (), c, k) =>
              let r := finish wb (tb.response c.buffers) c.responseOffset
              (r.1, r.2, k)
            | (.err e, c, k) => (.err e, tb.response c.buffers, k)
            | (.panic, c, k) => (.panic, tb.response c.buffers, k)
          else (.err .CommandCode, tb.response c.buffers, k)

/-- `fill_error` and the common part of the two public functions:
crates/tpm2-impl/src/tpmctx.rs:30-33, 44-47, 50-56.  `none` is a panic. -/
def complete (wb : WriteBuffer W) (r : Res TpmRcError Nat × W × Crypto D E) :
    Option Nat × W × Crypto D E :=
  match r with
  | (.ok size, w, k) => (some size, w, k)
  | (.err e, w, k) =>
    match wb.write w 6 (toBE 4 e.code) with
    | (false, w) => (some 0, w, k)
    | (true, w) => (some 10, w, k)
  | (.panic, w, k) => (none, w, k)

/-- `execute_command_separate`: crates/tpm2-impl/src/tpmctx.rs:24-34. -/
def executeSeparate (rb : ReadBuffer R) (wb : WriteBuffer W) (g : Drbg D) (es : Entropy E)
    (k : Crypto D E) (request : R) (response : W) : Option Nat × W × Crypto D E :=
  complete wb (executeCommand wb (separate rb W) g es k (request, response))

/-- `execute_command_in_place` with `InOutBuffer::new`:
crates/tpm2-impl/src/tpmctx.rs:38-48, crates/tpm2-impl/src/buffers/inout.rs:11-14. -/
def executeInPlace (wb : WriteBuffer W) (g : Drbg D) (es : Entropy E) (k : Crypto D E)
    (inOutBuffer : W) (requestSize : Nat) : Option Nat × W × Crypto D E :=
  complete wb (executeCommand wb (inOut wb) g es k
    (inOutBuffer, min requestSize (wb.len inOutBuffer)))

/-! ### Byte slices -/

/-- `TpmReadBuffer` for `[u8]`: crates/tpm2-impl/src/platform/buffer.rs:60-71. -/
def sliceRead : ReadBuffer Bytes where
  len b := b.length
  readInto := readInto
  readInto_length := by
    intro r o n b h
    unfold readInto at h
    split at h
    · injection h with h
      rw [← h, List.length_take, List.length_drop]
      omega
    · cases h
  readU16 := defaultU16 readInto
  readU32 := defaultU32 readInto

/-- `TpmWriteBuffer` for `[u8]`: crates/tpm2-impl/src/platform/buffer.rs:73-94. -/
def slice : WriteBuffer Bytes where
  toReadBuffer := sliceRead
  write b offset data :=
    match Server.write b offset data with
    | some b => (true, b)
    | none => (false, b)
  writeCallback b offset size :=
    if offset + size ≤ b.length then
      .call ((b.drop offset).take size)
        (fun new => (true, b.take offset ++ new ++ b.drop (offset + size)))
    else .skip false b

end Verif.Server.Gen
