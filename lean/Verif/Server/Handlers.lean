import Verif.Server.Lemmas

/-
Model of the TPM server with any handlers of commands: what a handler can do is limited by
the types of the views it is given (crates/tpm2-impl/src/req_resp.rs).  It reads numbers from
the request, then it converts the view (`into_response`) and can only write.
Verif/Server/Impl.lean is the special case of one handler.
-/

namespace Verif.Server
open Verif Verif.Errors

/-! ### Handlers -/

/-- What a handler does with a `Response` (crates/tpm2-impl/src/req_resp.rs:46-84), `K` being
the state of the `CommandHandler` (crates/tpm2-impl/src/handler/mod.rs:7-10).
`write` goes on with whether it succeeded; `callback` with what was in the slice when the
callback was called, or with `full`.  Loops are finite.  A callback that panics is one after
which the handler is done with `.panic`. -/
inductive Writing (K : Type) where
  | done (r : Res TpmRcError Unit) (k : K)
  | write (data : Bytes) (next : Bool → Writing K)
  | callback (size : Nat) (full : Writing K) (fill : Bytes → Bytes)
      (keeps : ∀ b, (fill b).length = b.length) (next : Bytes → Writing K)

/-- What a handler does with a `RequestThenResponse`
(crates/tpm2-impl/src/req_resp.rs:5-44). -/
inductive Reading (K : Type) where
  | u16 (next : Option Nat → Reading K)
  | u32 (next : Option Nat → Reading K)
  | respond (w : Writing K)

/-- The handlers by command code, as in the `match` of
crates/tpm2-impl/src/tpmctx.rs:73-76. -/
abbrev Handlers (K : Type) := Nat → Option (K → Reading K)

variable {K D E : Type}

/-- Running the second part of a handler, with `Response::write` and
`Response::write_callback`: crates/tpm2-impl/src/req_resp.rs:59-83. -/
def Writing.run : Writing K → Cursor → Res TpmRcError Unit × Cursor × K
  | .done r k, c => (r, c, k)
  | .write data next, c =>
    match c.write data with
    | none => (next false).run c
    | some c => (next true).run c
  | .callback size full fill _ next, c =>
    match c.writeCallback size (fun old => (old, fill old)) with
    | none => full.run c
    | some (old, c) => (next old).run c

/-- Running a handler, with `read_be_u16`, `read_be_u32` and `into_response`:
crates/tpm2-impl/src/req_resp.rs:13-43. -/
def Reading.run : Reading K → Cursor → Res TpmRcError Unit × Cursor × K
  | .u16 next, c => (next (c.readBE 2).1).run (c.readBE 2).2
  | .u32 next, c => (next (c.readBE 4).1).run (c.readBE 4).2
  | .respond w, c => w.run c

/-- `execute_command` with any handlers: crates/tpm2-impl/src/tpmctx.rs:58-95. -/
def executeCommandWith (h : Handlers K) (k : K) (bs : Buffers) : Res TpmRcError Nat × Bytes × K :=
  let requestSize := bs.requestLen
  let c : Cursor := ⟨bs, 0, 10⟩
  match c.readBE 2 with
  | (none, c) => (.err .CommandSize, c.buffers.response, k)
  | (some _session, c) =>
    match c.readBE 4 with
    | (none, c) => (.err .CommandSize, c.buffers.response, k)
    | (some size, c) =>
      if size ≠ requestSize then (.err .CommandSize, c.buffers.response, k)
      else
        match c.readBE 4 with
        | (none, c) => (.err .CommandSize, c.buffers.response, k)
        | (some commandCode, c) =>
          match h commandCode with
          | some f =>
            match (f k).run c with
            | (.ok (), c, k) =>
              let r := finish c
              (r.1, r.2, k)
            | (.err e, c, k) => (.err e, c.buffers.response, k)
            | (.panic, c, k) => (.panic, c.buffers.response, k)
          | none => (.err .CommandCode, c.buffers.response, k)

/-- The common part of the two public functions: crates/tpm2-impl/src/tpmctx.rs:30-33,
44-47.  `none` is a panic. -/
def completeWith (r : Res TpmRcError Nat × Bytes × K) : Option Nat × Bytes × K :=
  match r with
  | (.ok size, b, k) => (some size, b, k)
  | (.err e, b, k) => let f := fillError b e; (some f.1, f.2, k)
  | (.panic, b, k) => (none, b, k)

/-- `execute_command_separate` with any handlers: crates/tpm2-impl/src/tpmctx.rs:24-34. -/
def executeSeparateWith (h : Handlers K) (k : K) (request response : Bytes) :
    Option Nat × Bytes × K :=
  completeWith (executeCommandWith h k (.separate request response))

/-- `execute_command_in_place` with any handlers: crates/tpm2-impl/src/tpmctx.rs:38-48. -/
def executeInPlaceWith (h : Handlers K) (k : K) (inOut : Bytes) (requestSize : Nat) :
    Option Nat × Bytes × K :=
  completeWith (executeCommandWith h k (Buffers.newInOut inOut requestSize))

/-- The handler of `GetRandom`: crates/tpm2-impl/src/handler/random.rs:23-43. -/
def getRandomHandler (g : Drbg D) (es : Entropy E) (k : Crypto D E) : Reading (Crypto D E) :=
  .u16 fun
    | none => .respond (.done (.err .CommandSize) k)
    | some requested => .respond (.callback requested (.done (.err .Memory) k)
        (fun b => (tryGetRandom g es k b).2.1) (tryGetRandom_length g es k)
        fun b => .done (if (tryGetRandom g es k b).1 then .ok () else .panic)
          (tryGetRandom g es k b).2.2)

/-- The handlers of the crate: crates/tpm2-impl/src/tpmctx.rs:73-76. -/
def crateHandlers (g : Drbg D) (es : Entropy E) : Handlers (Crypto D E) :=
  fun code => if code = 0x17B then some (getRandomHandler g es) else none

/-! ### Specification -/

/-- With `space` left in the response buffer, the second part of a handler writes `out`, one
thing after the other from the start of the space, and ends with `r` and the state `k`.  What
does not fit is not written, and the handler is told. -/
inductive Writing.Writes : Writing K → Bytes → Bytes → Res TpmRcError Unit → K → Prop
  | done {r k space} : Writes (.done r k) space [] r k
  | fits {data next old rest out r k} : old.length = data.length →
      Writes (next true) rest out r k → Writes (.write data next) (old ++ rest) (data ++ out) r k
  | full {data next space out r k} : space.length < data.length →
      Writes (next false) space out r k → Writes (.write data next) space out r k
  | filled {size full fill keeps next old rest out r k} : old.length = size →
      Writes (next old) rest out r k →
      Writes (.callback size full fill keeps next) (old ++ rest) (fill old ++ out) r k
  | refused {size full fill keeps next space out r k} : space.length < size →
      Writes full space out r k → Writes (.callback size full fill keeps next) space out r k

/-- With `input` left of the request, a handler reads numbers, one after the other, until it
goes on with `w`.  A number of which not all bytes are there is not read, and the handler is
told. -/
inductive Reading.Reads : Reading K → Bytes → Writing K → Prop
  | respond {w input} : Reads (.respond w) input w
  | u16 {next b rest w} : b.length = 2 → Reads (next (some (positional b))) rest w →
      Reads (.u16 next) (b ++ rest) w
  | u32 {next b rest w} : b.length = 4 → Reads (next (some (positional b))) rest w →
      Reads (.u32 next) (b ++ rest) w
  | no16 {next input w} : input.length < 2 → Reads (next none) input w → Reads (.u16 next) input w
  | no32 {next input w} : input.length < 4 → Reads (next none) input w → Reads (.u32 next) input w

/-- The answer to a request with a response buffer of a header and `space`: the size returned,
the contents of the buffer and the state afterwards. -/
inductive Answered (h : Handlers K) (k : K) (req hdr space : Bytes) : Option Nat → Bytes → K → Prop
  | size : ¬ WellSized req →
      Answered h k req hdr space (some 10) (hdr.take 6 ++ digits256 4 0x142 ++ space) k
  | code : WellSized req → h (field req 6 4) = none →
      Answered h k req hdr space (some 10) (hdr.take 6 ++ digits256 4 0x143 ++ space) k
  | success {f w out k'} : WellSized req → h (field req 6 4) = some f →
      (f k).Reads (req.drop 10) w → w.Writes space out (.ok ()) k' →
      Answered h k req hdr space (some (10 + out.length))
        (responseOf 0 out ++ space.drop out.length) k'
  | error {f w out e k'} : WellSized req → h (field req 6 4) = some f →
      (f k).Reads (req.drop 10) w → w.Writes space out (.err e) k' →
      Answered h k req hdr space (some 10)
        (hdr.take 6 ++ digits256 4 e.code ++ out ++ space.drop out.length) k'
  | panic {f w out k'} : WellSized req → h (field req 6 4) = some f →
      (f k).Reads (req.drop 10) w → w.Writes space out .panic k' →
      Answered h k req hdr space none (hdr ++ out ++ space.drop out.length) k'

/-- The second part of a handler if nothing can be written at all, not even nothing. -/
inductive Writing.Mute : Writing K → Res TpmRcError Unit → K → Prop
  | done {r k} : Mute (.done r k) r k
  | write {data next r k} : Mute (next false) r k → Mute (.write data next) r k
  | callback {size full fill keeps next r k} : Mute full r k →
      Mute (.callback size full fill keeps next) r k

end Verif.Server
