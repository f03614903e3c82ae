import Verif.Server.Buffers
import Verif.Server.Handlers

/-
Model of the TPM server with any handlers of commands and any buffers of the platform: the
handlers are generic over the buffers (`impl TpmBuffers`), so what they do depends only on what
the views return.  Verif/Server/Handlers.lean is the case of byte slices, Verif/Server/Buffers.lean
that of one handler.
-/

namespace Verif.Server.Gen
open Verif Verif.Errors

/-- What a handler does with a `Response` (crates/tpm2-impl/src/req_resp.rs:46-84), `K` being
the state of the `CommandHandler` (crates/tpm2-impl/src/handler/mod.rs:7-10).  `write` goes on with
whether it succeeded; `callback` with this and with what was in the slice when the callback was
called, if it was.  A callback that panics is one after which the handler is done with `.panic`. -/
inductive Writing (K : Type) where
  | done (r : Res TpmRcError Unit) (k : K)
  | write (data : Bytes) (next : Bool → Writing K)
  | callback (size : Nat) (fill : Bytes → Bytes) (keeps : ∀ b, (fill b).length = b.length)
      (next : Bool → Option Bytes → Writing K)

/-- What a handler does with a `RequestThenResponse`
(crates/tpm2-impl/src/req_resp.rs:5-44). -/
inductive Reading (K : Type) where
  | u16 (next : Option Nat → Reading K)
  | u32 (next : Option Nat → Reading K)
  | respond (w : Writing K)

/-- The handlers by command code, as in the `match` of
crates/tpm2-impl/src/tpmctx.rs:73-76. -/
abbrev Handlers (K : Type) := Nat → Option (K → Reading K)

variable {B W R K D E : Type}

/-- Running the second part of a handler, with `Response::write` and
`Response::write_callback`: crates/tpm2-impl/src/req_resp.rs:59-83. -/
def Writing.run (wb : WriteBuffer W) (tb : TpmBuffers B W) :
    Writing K → Cursor B → Res TpmRcError Unit × Cursor B × K
  | .done r k, c => (r, c, k)
  | .write data next, c =>
    match wb.write (tb.response c.buffers) c.responseOffset data with
    | (false, w) => (next false).run wb tb { c with buffers := tb.setResponse c.buffers w }
    | (true, w) => (next true).run wb tb
        { c with buffers := tb.setResponse c.buffers w, responseOffset := c.responseOffset + data.length }
  | .callback size fill _ next, c =>
    match wb.writeCallback (tb.response c.buffers) c.responseOffset size with
    | .skip false w =>
      (next false none).run wb tb { c with buffers := tb.setResponse c.buffers w }
    | .skip true w => (next true none).run wb tb
        { c with buffers := tb.setResponse c.buffers w, responseOffset := c.responseOffset + size }
    | .call slice after =>
      match after (fill slice) with
      | (false, w) =>
        (next false (some slice)).run wb tb { c with buffers := tb.setResponse c.buffers w }
      | (true, w) => (next true (some slice)).run wb tb
          { c with buffers := tb.setResponse c.buffers w, responseOffset := c.responseOffset + size }

/-- Running a handler, with `read_be_u16`, `read_be_u32` and `into_response`:
crates/tpm2-impl/src/req_resp.rs:13-43. -/
def Reading.run (wb : WriteBuffer W) (tb : TpmBuffers B W) :
    Reading K → Cursor B → Res TpmRcError Unit × Cursor B × K
  | .u16 next, c => (next (c.readU16 tb).1).run wb tb (c.readU16 tb).2
  | .u32 next, c => (next (c.readU32 tb).1).run wb tb (c.readU32 tb).2
  | .respond w, c => w.run wb tb c

/-- `execute_command` with any handlers: crates/tpm2-impl/src/tpmctx.rs:58-95. -/
def executeCommandWith (wb : WriteBuffer W) (tb : TpmBuffers B W) (h : Handlers K) (k : K) (b : B) :
    Res TpmRcError Nat × W × K :=
  let requestSize := tb.requestLen b
  let c : Cursor B := ⟨b, 0, 10⟩
  match c.readU16 tb with
  | (none, c) => (.err .CommandSize, tb.response c.buffers, k)
  | (some _session, c) =>
    match c.readU32 tb with
    | (none, c) => (.err .CommandSize, tb.response c.buffers, k)
    | (some size, c) =>
      if size ≠ requestSize then (.err .CommandSize, tb.response c.buffers, k)
      else
        match c.readU32 tb with
        | (none, c) => (.err .CommandSize, tb.response c.buffers, k)
        | (some commandCode, c) =>
          match h commandCode with
          | some f =>
            match (f k).run wb tb c with
            | (.ok (), c, k) =>
              let r := finish wb (tb.response c.buffers) c.responseOffset
              (r.1, r.2, k)
            | (.err e, c, k) => (.err e, tb.response c.buffers, k)
            | (.panic, c, k) => (.panic, tb.response c.buffers, k)
          | none => (.err .CommandCode, tb.response c.buffers, k)

/-- `fill_error` and the common part of the two public functions:
crates/tpm2-impl/src/tpmctx.rs:30-33, 44-47, 50-56.  `none` is a panic. -/
def completeWith (wb : WriteBuffer W) (r : Res TpmRcError Nat × W × K) : Option Nat × W × K :=
  match r with
  | (.ok size, w, k) => (some size, w, k)
  | (.err e, w, k) =>
    match wb.write w 6 (toBE 4 e.code) with
    | (false, w) => (some 0, w, k)
    | (true, w) => (some 10, w, k)
  | (.panic, w, k) => (none, w, k)

/-- `execute_command_separate` with any handlers: crates/tpm2-impl/src/tpmctx.rs:24-34. -/
def executeSeparateWith (rb : ReadBuffer R) (wb : WriteBuffer W) (h : Handlers K) (k : K)
    (request : R) (response : W) : Option Nat × W × K :=
  completeWith wb (executeCommandWith wb (separate rb W) h k (request, response))

/-- `execute_command_in_place` with any handlers, and `InOutBuffer::new`:
crates/tpm2-impl/src/tpmctx.rs:38-48, crates/tpm2-impl/src/buffers/inout.rs:11-14. -/
def executeInPlaceWith (wb : WriteBuffer W) (h : Handlers K) (k : K) (inOutBuffer : W)
    (requestSize : Nat) : Option Nat × W × K :=
  completeWith wb (executeCommandWith wb (inOut wb) h k
    (inOutBuffer, min requestSize (wb.len inOutBuffer)))

/-- A call of one of the two public functions: crates/tpm2-impl/src/tpmctx.rs:24-28, 38-42. -/
inductive Call (R W : Type) where
  | separate (request : R) (response : W)
  | inPlace (buffer : W) (size : Nat)

/-- A call and what it returns: crates/tpm2-impl/src/tpmctx.rs:24-48. -/
def Call.run (rb : ReadBuffer R) (wb : WriteBuffer W) (h : Handlers K) (k : K) :
    Call R W → Option Nat × W × K
  | .separate request response => executeSeparateWith rb wb h k request response
  | .inPlace buffer size => executeInPlaceWith wb h k buffer size

/-- Calls one after the other with one `TpmContext` (crates/tpm2-impl/src/tpmctx.rs:9-22), until
one panics: sizes and buffers. -/
def runCalls (rb : ReadBuffer R) (wb : WriteBuffer W) (h : Handlers K) :
    K → List (Call R W) → List (Option Nat × W)
  | _, [] => []
  | k, x :: xs =>
    let r := x.run rb wb h k
    (r.1, r.2.1) :: if r.1 = none then [] else runCalls rb wb h r.2.2 xs

/-- The handler of `GetRandom`: crates/tpm2-impl/src/handler/random.rs:23-43. -/
def getRandomHandler (g : Drbg D) (es : Entropy E) (k : Crypto D E) : Reading (Crypto D E) :=
  .u16 fun
    | none => .respond (.done (.err .CommandSize) k)
    | some requested => .respond (.callback requested
        (fun b => (tryGetRandom g es k b).2.1) (tryGetRandom_length g es k)
        fun ok seen =>
          match seen with
          | none => .done (if ok then .ok () else .err .Memory) k
          | some b => .done (if (tryGetRandom g es k b).1 then if ok then .ok () else .err .Memory
              else .panic) (tryGetRandom g es k b).2.2)

/-- The handlers of the crate: crates/tpm2-impl/src/tpmctx.rs:73-76. -/
def crateHandlers (g : Drbg D) (es : Entropy E) : Handlers (Crypto D E) :=
  fun code => if code = 0x17B then some (getRandomHandler g es) else none

/-! ### Specification -/

/-- The second part of a handler on buffers that call the callback if and only if the slice
fits. -/
def Writing.plain : Writing K → Server.Writing K
  | .done r k => .done r k
  | .write data next => .write data fun ok => (next ok).plain
  | .callback size fill keeps next =>
    .callback size (next false none).plain fill keeps fun b => (next true (some b)).plain

/-- A handler on such buffers. -/
def Reading.plain : Reading K → Server.Reading K
  | .u16 next => .u16 fun x => (next x).plain
  | .u32 next => .u32 fun x => (next x).plain
  | .respond w => .respond w.plain

/-- Handlers on such buffers. -/
def Handlers.plain (h : Handlers K) : Server.Handlers K :=
  fun code => (h code).map fun f k => (f k).plain

/-- The bytes of the request and of the response buffer of a call. -/
def Call.plain (rbytes : R → Bytes) (bytes : W → Bytes) : Call R W → Bytes × Bytes
  | .separate request response => (rbytes request, bytes response)
  | .inPlace buffer size => ((bytes buffer).take size, bytes buffer)

/-- Requests, each with the bytes of its response buffer, and what comes back: every request is
answered as C105 says, in the state the one before has left; a panic ends everything. -/
inductive Conversation (h : Server.Handlers K) :
    K → List (Bytes × Bytes) → List (Option Nat × Bytes) → Prop
  | nil {k} : Conversation h k [] []
  | panic {k k' request response b xs} :
      Server.executeSeparateWith h k request response = (none, b, k') →
      Conversation h k ((request, response) :: xs) [(none, b)]
  | answer {k k' request response n b xs ys} :
      Server.executeSeparateWith h k request response = (some n, b, k') →
      Conversation h k' xs ys →
      Conversation h k ((request, response) :: xs) ((some n, b) :: ys)

/-- The second part of a handler does not panic. -/
inductive Writing.Calm : Writing K → Prop
  | done {r k} : r ≠ .panic → Calm (.done r k)
  | write {data next} : (∀ ok, Calm (next ok)) → Calm (.write data next)
  | callback {size fill keeps next} : (∀ ok seen, Calm (next ok seen)) →
      Calm (.callback size fill keeps next)

/-- A handler does not panic. -/
inductive Reading.Calm : Reading K → Prop
  | respond {w} : w.Calm → Calm (.respond w)
  | u16 {next} : (∀ x, Calm (next x)) → Calm (.u16 next)
  | u32 {next} : (∀ x, Calm (next x)) → Calm (.u32 next)

end Verif.Server.Gen
