import Verif.Server.Drbg
import Verif.Errors.Impl

/-
Model of the TPM server: crates/tpm2-impl/src.  Buffers are the `[u8]` buffers of
crates/tpm2-impl/src/platform/buffer.rs:60-94, the only implementation of the
buffer traits besides `InOutBuffer`.
-/

namespace Verif.Server
open Verif Verif.Errors

/-! ### Buffers -/

/-- `read_into` of `[u8]`: crates/tpm2-impl/src/platform/buffer.rs:64-70. -/
def readInto (b : Bytes) (offset n : Nat) : Option Bytes :=
  if offset + n ≤ b.length then some ((b.drop offset).take n) else none

/-- `write` of `[u8]`: crates/tpm2-impl/src/platform/buffer.rs:74-81. -/
def write (b : Bytes) (offset : Nat) (data : Bytes) : Option Bytes :=
  if offset + data.length ≤ b.length then
    some (b.take offset ++ data ++ b.drop (offset + data.length))
  else none

/-- `write_callback` of `[u8]`: crates/tpm2-impl/src/platform/buffer.rs:82-93.
`callback` returns its own result and the new contents of the slice. -/
def writeCallback {γ : Type} (b : Bytes) (offset size : Nat) (callback : Bytes → γ × Bytes) :
    Option (γ × Bytes) :=
  if offset + size ≤ b.length then
    let r := callback ((b.drop offset).take size)
    some (r.1, b.take offset ++ r.2 ++ b.drop (offset + size))
  else none

/-- The two implementations of `TpmBuffers`: `SeparateBuffers`
(crates/tpm2-impl/src/buffers/separate.rs:4-33) and `InOutBuffer`
(crates/tpm2-impl/src/buffers/inout.rs:4-41). -/
inductive Buffers where
  | separate (reader writer : Bytes)
  | inOut (buffer : Bytes) (len : Nat)

namespace Buffers

/-- `InOutBuffer::new`: crates/tpm2-impl/src/buffers/inout.rs:11-14. -/
def newInOut (buffer : Bytes) (requestSize : Nat) : Buffers :=
  .inOut buffer (min requestSize buffer.length)

/-- `get_request().len()`: crates/tpm2-impl/src/platform/buffer.rs:61-63 and
crates/tpm2-impl/src/buffers/inout.rs:30-32. -/
def requestLen : Buffers → Nat
  | .separate r _ => r.length
  | .inOut _ len => len

/-- `get_request().read_into()`: crates/tpm2-impl/src/platform/buffer.rs:64-70 and
crates/tpm2-impl/src/buffers/inout.rs:34-40. -/
def requestRead (bs : Buffers) (offset n : Nat) : Option Bytes :=
  match bs with
  | .separate r _ => readInto r offset n
  | .inOut b len => if len < offset + n then none else readInto b offset n

/-- `get_response()`: crates/tpm2-impl/src/buffers/separate.rs:30-32 and
crates/tpm2-impl/src/buffers/inout.rs:24-26. -/
def response : Buffers → Bytes
  | .separate _ w => w
  | .inOut b _ => b

/-- The buffers after a change of the response through `get_response()`. -/
def setResponse : Buffers → Bytes → Buffers
  | .separate r _, w => .separate r w
  | .inOut _ len, w => .inOut w len

end Buffers

/-- `RequestResponseCursor`: crates/tpm2-impl/src/req_resp.rs:88-92. -/
structure Cursor where
  buffers : Buffers
  requestOffset : Nat
  responseOffset : Nat

/-- `read_be_u16` and `read_be_u32` (with the number of bytes as parameter):
crates/tpm2-impl/src/req_resp.rs:13-22, 27-36 and
crates/tpm2-impl/src/platform/buffer.rs:22-26, 30-34. -/
def Cursor.readBE (n : Nat) (c : Cursor) : Option Nat × Cursor :=
  match c.buffers.requestRead c.requestOffset n with
  | none => (none, c)
  | some b => (some (fromBE b), { c with requestOffset := c.requestOffset + n })

/-- `Response::write`: crates/tpm2-impl/src/req_resp.rs:59-66 (not used yet). -/
def Cursor.write (c : Cursor) (data : Bytes) : Option Cursor :=
  match Server.write c.buffers.response c.responseOffset data with
  | none => none
  | some b =>
    some { c with buffers := c.buffers.setResponse b, responseOffset := c.responseOffset + data.length }

/-- `Response::write_callback`: crates/tpm2-impl/src/req_resp.rs:71-83. -/
def Cursor.writeCallback {γ : Type} (c : Cursor) (size : Nat) (callback : Bytes → γ × Bytes) :
    Option (γ × Cursor) :=
  match Server.writeCallback c.buffers.response c.responseOffset size callback with
  | none => none
  | some (g, b) =>
    some (g, { c with buffers := c.buffers.setResponse b, responseOffset := c.responseOffset + size })

/-! ### The generator -/

/-- `Crypto`: crates/tpm2-impl/src/crypto.rs:9-12.
(`CommandHandler`, crates/tpm2-impl/src/handler/mod.rs:7-10, and `TpmContext`,
crates/tpm2-impl/src/tpmctx.rs:10-12, only wrap it.) -/
structure Crypto (D E : Type) where
  drbg : D
  entropy : E

variable {D E : Type}

/-- `Crypto::new` and through it `TpmContext::new`:
crates/tpm2-impl/src/crypto.rs:15-27, crates/tpm2-impl/src/handler/mod.rs:14-18,
crates/tpm2-impl/src/tpmctx.rs:16-20.  `none` is `ServerError::DrbgError`. -/
def Crypto.new (g : Drbg D) (es : Entropy E) : Option (Crypto D E) :=
  let entropyInput := es.fill es.start g.entropyDefault
  let nonce := es.fill entropyInput.2 g.nonceDefault
  match g.instantiate entropyInput.1 nonce.1 [] with
  | none => none
  | some d => some ⟨d, nonce.2⟩

/-- The call of `fill_bytes`: crates/tpm2-impl/src/handler/random.rs:20. -/
def draw (g : Drbg D) (k : Crypto D E) (buffer : Bytes) : Bool × Bytes × Crypto D E :=
  let r := g.fillBytes k.drbg [] buffer
  (r.1, r.2.1, { k with drbg := r.2.2 })

/-- `try_get_random`: crates/tpm2-impl/src/handler/random.rs:14-21. -/
def tryGetRandom (g : Drbg D) (es : Entropy E) (k : Crypto D E) (buffer : Bytes) :
    Bool × Bytes × Crypto D E :=
  let asked := g.requiresReseeding k.drbg
  let k1 : Crypto D E := { k with drbg := asked.2 }
  if asked.1 = true then
    let seed := es.fill k1.entropy g.entropyDefault
    let re := g.reseed k1.drbg seed.1 []
    let k2 : Crypto D E := ⟨re.2, seed.2⟩
    if re.1 = true then draw g k2 buffer else (false, buffer, k2)
  else draw g k1 buffer

/-- `CommandHandler::get_random` with `get_random_or_faiure_mode`:
crates/tpm2-impl/src/handler/random.rs:23-43.  The `todo!()` of line 25 is a
panic. -/
def getRandom (g : Drbg D) (es : Entropy E) (k : Crypto D E) (c : Cursor) :
    Res TpmRcError Unit × Cursor × Crypto D E :=
  match c.readBE 2 with
  | (none, c) => (.err .CommandSize, c, k)
  | (some requested, c) =>
    match c.writeCallback requested (fun buffer =>
        let r := tryGetRandom g es k buffer
        ((r.1, r.2.2), r.2.1)) with
    | none => (.err .Memory, c, k)
    | some ((ok, k), c) => (if ok then .ok () else .panic, c, k)

/-- The part of `execute_command` after the handler:
crates/tpm2-impl/src/tpmctx.rs:78-94. -/
def finish (c : Cursor) : Res TpmRcError Nat × Bytes :=
  let responseSize := c.responseOffset
  let b := c.buffers.response
  match write b 0 (toBE 2 0x8001) with
  | none => (.err .Memory, b)
  | some b =>
    match write b 2 (toBE 4 responseSize) with
    | none => (.err .Memory, b)
    | some b =>
      match write b 6 (toBE 4 0) with
      | none => (.err .Memory, b)
      | some b => (.ok responseSize, b)

/-- `execute_command`: crates/tpm2-impl/src/tpmctx.rs:58-95.  Returns the result,
the response buffer and the generator afterwards. -/
def executeCommand (g : Drbg D) (es : Entropy E) (k : Crypto D E) (bs : Buffers) :
    Res TpmRcError Nat × Bytes × Crypto D E :=
  let requestSize := bs.requestLen
  let c : Cursor := ⟨bs, 0, 10⟩
  match c.readBE 2 with
  | (none, c) => (.err .CommandSize, c.buffers.response, k)
  | (some _session, c) =>
    match c.readBE 4 with
    | (none, c) => (.err .CommandSize, c.buffers.response, k)
    | (some size, c) =>
      if size ≠ requestSize then (.err .CommandSize, c.buffers.response, k)
      else
        match c.readBE 4 with
        | (none, c) => (.err .CommandSize, c.buffers.response, k)
        | (some commandCode, c) =>
          if commandCode = 0x17B then
            match getRandom g es k c with
            | (.ok (), c, k) =>
              let r := finish c
              (r.1, r.2, k)
            | (.err e, c, k) => (.err e, c.buffers.response, k)
            | (.panic, c, k) => (.panic, c.buffers.response, k)
          else (.err .CommandCode, c.buffers.response, k)

/-- `fill_error`: crates/tpm2-impl/src/tpmctx.rs:50-56. -/
def fillError (response : Bytes) (e : TpmRcError) : Nat × Bytes :=
  match write response 6 (toBE 4 e.code) with
  | none => (0, response)
  | some b => (10, b)

/-- The common part of the two public functions: crates/tpm2-impl/src/tpmctx.rs:30-33,
44-47.  `none` is a panic. -/
def complete (r : Res TpmRcError Nat × Bytes × Crypto D E) : Option Nat × Bytes × Crypto D E :=
  match r with
  | (.ok size, b, k) => (some size, b, k)
  | (.err e, b, k) => let f := fillError b e; (some f.1, f.2, k)
  | (.panic, b, k) => (none, b, k)

/-- `execute_command_separate`: crates/tpm2-impl/src/tpmctx.rs:24-34.  Returns the
size (`none` is a panic), the response buffer and the generator afterwards. -/
def executeSeparate (g : Drbg D) (es : Entropy E) (k : Crypto D E) (request response : Bytes) :
    Option Nat × Bytes × Crypto D E :=
  complete (executeCommand g es k (.separate request response))

/-- `execute_command_in_place`: crates/tpm2-impl/src/tpmctx.rs:38-48. -/
def executeInPlace (g : Drbg D) (es : Entropy E) (k : Crypto D E) (inOut : Bytes)
    (requestSize : Nat) : Option Nat × Bytes × Crypto D E :=
  complete (executeCommand g es k (Buffers.newInOut inOut requestSize))

end Verif.Server
