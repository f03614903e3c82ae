# Design

Formal model of tpm-rs (Rust sources in /repo) in Lean 4, and proofs of the
properties in `properties.jsonl`.  `MANIFEST.json` maps each property to its
theorems; `seeded/LOG.jsonl` records the wrong programs the theorems were tested
against.

## Trusted base

* Lean 4.33.0's kernel.
* Axioms: each theorem depends at most on `propext`, `Classical.choice` and
  `Quot.sound` (Lean's standard axioms).  No axiom is added; no `sorry`,
  `native_decide` or `bv_decide` is used.  Mathlib is not used.
* The correspondence between the Rust text and the Lean definitions.  Every
  model definition cites the file and lines it models.
* Rust core library facts modelled in `Verif/Basic.lean`: slicing panics out
  of range, `copy_from_slice` panics on unequal lengths, `to/from_be_bytes`.
* `usize` is at least 32 bits wide (so `u32 as usize` is lossless), and buffers
  are shorter than `usize::MAX`.  C98 proves that under these conditions codec, lists,
  client, server and connection behave as the models, which use unbounded numbers.
* Debug assertions and overflow checks: where an arithmetic operation can
  overflow, the model panics (the checked semantics).

## Modules

`Impl` files hold the model, `Spec` files the specification the properties are
stated with, `Lemmas` auxiliary facts, and `Props` the property theorems, each
with a concrete case beside it.

| Code in /repo | Model | Properties |
|---|---|---|
| marshalable/src/{lib,errors}.rs | `Codec/Impl`, `Errors/Impl` | `Codec/Props`, `Codec/FaultProps`, `Codec/PartsProps` |
| marshalable-derive/src/lib.rs (generated code) | `Codec/Ty`, `Codec/Impl` | `Codec/Props` |
| marshalable-derive/src/lib.rs (the macros) | `Derive/Impl`, `Derive/Sem` | `Derive/Props`, `Derive/MessageProps` |
| base/src/{lib,constants}.rs types | `Base/Types`, `Base/Layout` | `Codec/Props` |
| their declarations, as read by the macros | `Derive/Program`, `Derive/Decls` | `Derive/BaseProps` |
| base/src/lib.rs attributes, lists | `Base/Attr`, `Base/Tpml` | `Base/AttrProps`, `Base/TpmlProps` |
| base/src/constants.rs, base/src/lib.rs handles | `Base/Handle` | `Base/HandleProps` |
| crates/tpm2/src/errors, base/src/constants.rs `TpmRc` | `Errors/Impl` | `Errors/Props` |
| crates/tpm2/src (marshal, tpmi, tpmt, limits) | `Tpm2/Impl`, `Tpm2/Fixed`, `Tpm2/Limits` | `Tpm2/Props`, `Tpm2/FixedProps`, `Tpm2/LimitsProps` |
| crates/tpm2-client/src (lib, sessions) | `Client/Impl`, `Client/Live`, `Client/Area` | `Client/Props`, `Client/FitProps`, `Client/LiveProps`, `Client/AreaProps` |
| crates/tpm2-client/src/connection/tcp.rs | `Tcp/Impl`, `Tcp/Simulator` | `Tcp/Props`, `Tcp/ResultProps`, `Tcp/SimulatorProps` |
| crates/tpm2-impl/src | `Server/Impl`, `Server/Drbg`, `Server/Buffers` | `Server/Props`, `Server/DrbgProps`, `Server/BufferProps` |
| base/src types, constants, codes and commands, against the standard | `Tcg/Spec`, `Tcg/Part2`, `Tcg/Constants`, `Tcg/Codes`, `Tcg/Commands` | `Tcg/Layouts`, `Tcg/Constants`, `Tcg/Codes`, `Tcg/Commands`, `Tcg/Responses`, `Tcg/Sizes`, `Tcg/Server` |
| client + server, client + connection | `EndToEnd/Impl` | `EndToEnd/Props` |
| programs with a connection, against the reference simulator | `Tcp/Reference`, `EndToEnd/Program` | `EndToEnd/ProgramProps` |
| ending a session with it | `EndToEnd/Ending` | `EndToEnd/EndingProps` |
| the unit tests (marshalable, base, tpm2, tpm2-client, tpm2-impl) | `Tests/*` | |

## The repository's unit tests

`Verif/Tests` holds the unit tests of /repo and the examples in its documentation, one
theorem per test with the test's name, the assertions turned into statements about the
model (59 tests).  All hold.  They prove none of the properties; they check the model.
Not expressible: `size_of_tpmt_ha` (crates/tpm2/src/lib.rs:76), about the layout of a Rust
enum with references.  The tests in crates/tpm2-client/tests, which run the external
simulator, are in `Tests/Integration` as programs over a connection (C111).

## Modelling conventions

* A panic is an explicit result (`Res.panic`, or `none` for the server), so
  absence of panics is a theorem, never an assumption.
* `&mut` arguments are returned as new values, also on failure.
* Traits implemented by the caller or outside the repository (`Connection`,
  `Session`, `Drbg`, `EntropySource`, limits, sockets) are parameters ranging
  over all behaviours.
* Marshalable types are a deep embedding: `Ty` is the type universe of the
  derive macros (primitives, arrays of bytes, sized buffers, structs with length
  fields, enums with selectors, structs whose selector is a field of its own),
  `Val` their untyped values, `HasTy` Rust's typing, `WF` typing and valid
  length fields.  The code model `marshal`/`unmarshal` recurses on `Ty` as the
  generated code does; the specification `wire` is concatenation without
  buffers or offsets.
* Uses of a parameter are observed by wrapping it (`recording` transports,
  `watched` generators and entropy sources), and a theorem says that wrapping
  changes nothing.  The simulator connection instead keeps a log of bytes moved
  per port in its state (`Conn.log`); its entries are written by `read` and
  `write`, the only functions that call the operating system.
* A property that the code violates is kept in full: the violation is proved
  with a concrete witness (`Cxx_violated`) and the provable part is a theorem
  with suffix `_partial`.

## Simplifications

* `Session` methods take `&self`; in `Client/Impl` they are pure functions (no
  interior mutability, no panic).  `Client/Live` is the same code with sessions
  and connections that may change any state and panic; C80 relates the two.
* In `Client/Impl` and `Client/Live` an authorization area gives the same sessions
  at every call, and is empty exactly if it has no first session, as the ones of
  the crate.  `Client/Area` is the same code with an arbitrary area (C81).
* In these the types of a command are derived ones.  `Client/Own` is the same code
  with arbitrary implementations of `Marshalable` (C93).  There `written += n` with a
  sum beyond `usize` is a panic (overflow checks).
* The slice returned by `Connection::transact` is a prefix of the response
  buffer, represented by its length.
* Sockets: `read` and `write` may return any error or any number of bytes up to
  the request, and any bytes; they do not block forever.  `write_vectored` is
  one `write` of the concatenation.
* C layout: sizes and alignments of primitives are a parameter in C16; the
  capacities of the capability lists (`MAX_CAP_DATA / size_of`) are computed
  with the usual 64-bit layout `al64` (other targets: C102).
* Only `[u8]` is used as buffer type of sized buffers, as in the repository.
* Derive macros: the input is the part of syn's syntax tree the macros look at
  (syn itself is trusted), the output a small language of generated
  implementations.  `Derive/Sem` gives them meaning by elaboration in an
  environment of named types, constants and selectors; elaboration fails where
  rustc would reject the generated code.  Not covered: `Copy`/`Default` of array
  elements, constants hidden by local variables, signed length fields (see C103), and
  `safe_discriminant` (trusted to check that explicit discriminants are those
  of the representation).
* `Derive/Decls` transcribes the declarations of base/src and of the client's
  headers as syntax, in an order in which each follows what it refers to.
  `open_enum` and the repository's own `macro_rules` are expanded by hand:
  wrappers are tuple structs of their integer with associated constants.
  `TpmtPublic`, `TpmsAttest` and `TpmtSensitive`, whose implementations are
  written by hand in the source, are declared by their parts (`Decl.manual`).
* The client's panic leaves the connection state of the last call.

## Not modelled

syn's parser, the text of compile-time diagnostics, `Debug` output, `Display` of the standard library's errors,
`open_enum`/`bitflags` helper traits, the operating system's sockets, processes
and files (arbitrary parameters), reaping of ended processes, random number
quality, time, the internals of concrete generators and entropy sources.

## Properties

**C01-C06, C08, C13** Generic induction over `Ty` (all derivable types and all
values).  Soundness (`unmarshal` success means: the consumed bytes are `wire v`
and `v` is canonical), completeness (`wire v` is accepted), totality (no panic),
and the buffer behaviour of `marshal`.
**C07 (violated)** A sized buffer in a too small buffer panics
(`buffer[2..]`, copy).  Proved: never success, and from C84 exactly when it panics
and when it returns the error.
**C09, C10, C11** Same universe; statements about the first offending field.
**C12 (violated)** A public length field beyond the capacity panics.  Proved:
never success, and from C84 exactly when it panics and when it returns an error.
**C14** Wrapping succeeds for every structure whose `size_of` is the capacity.
**C15 (violated)** Surplus bytes in a sized structure are ignored, for every
structure.  Proved: what is returned, and exactly when.
**C16** C layout bounds `wire`, for any alignments.
**C17, C18** Refinement of list helpers to bounded `List`s over all histories.
**C19, C20** Bit extensionality, all fields of all attribute types, against
tables of the specification.
**C21** Arithmetic on ranges.  **C22 (violated)** Unmarshalling does not check
ranges.
**C23 (violated)** Handle references read back as session references, session
positions shifted by eight.  Exact wrong answers proved.
**C24 (violated)** Positions above 7 collide; exactly which do is decided on the 45
annotations, for any base code.
**C25, C59** Codes and layers; bit arguments.  The numbers of the layers and of the
common codes are compared with those of the TSS specification (`tssLayer`, `tssCommon`).
**C26 (violated)** The two tables disagree on some names.
**C27-C30** Case analysis over arbitrary limits.
**C31-C36, C60** The client as a function of an arbitrary transport.
`run_eq`: a well-formed command that fits is `transact` on the specified bytes
followed by parsing.  `readResponse_ok_iff` characterizes success.
**C37 (violated)** Declared size below ten with code zero panics; proved that
exactly these do.
**C38 (violated)** The reported number of bytes is ignored; the declared number decides.
**C39 (violated)** Panics instead of an error; never sent.  `Client/Fit` gives the
parts of a command (see C84), of which the first that is not written decides.
**C40, C41, C43, C44, C61** Traces of bytes per port for any peer; delivery for
any simulator and chunking.  **C42 (violated)** An unread oversized reply is
parsed as the next reply; `Tcp/Ledger` says what every history returns.
**C45** Induction over attempts.
**C46-C50** Server with arbitrary generator and entropy source.  **C51
(violated)** Error responses lack tag and size; exactly when they happen to be there
already.  **C52 (violated)** Generator
failure panics; exactly when.
**C53-C55** Recursion over the destination; arbitrary generator.
**C56 (violated)** The server sends random bytes without their size.  Proved
for every generator: what the client returns instead.
**C57, C58** Composition; C58 is a simulation over sequences of commands.
**C62** Simulation between the elaborated generated code and the codec of the
declared layout, by induction over the fields with the scope of local variables
as invariant; uniqueness of the layout by rule induction.
**C63 (violated)** A field called `buffer` followed by another field, or an array
called `buffer`, hides the parameter, and the generated code does not compile;
so does an element type with arguments.  Proved: these are the only cases.
**C64, C66** Case analysis of the macro over all syntax trees.
**C65 (violated)** `#[marshalable(tpm2b_simple,)]` is ignored.  Proved when the
flag comes last; otherwise the attributes make no difference.
**C67** `Env.addAll` reads declarations into layouts; the kernel evaluates it on
all of `Derive/Decls` and compares with `Base/Types` (`C67_table`).  Reading is
monotone in the environment and implies the macro's rules, so the general C62
applies to every declaration (`C67_derived`).
**C68 (violated)** `Faulty` says on the wire format what the first fault is; the
error agrees with it by induction over `Ty`.  A sized buffer that announces more
than its capacity is reported as an unexpected end although the bytes are there.
**C69 (violated)** A port file that exists but is still empty ends the attempts.
Proved: success and failure characterized exactly over arbitrary systems; what a
port file may contain is stated by `PortText`, apart from the parser.
**C70 (violated)** `new` does not end the process when a later step fails: any
predicate kept by the steps it performs, such as running, still holds.  Proved
for `drop` of any simulator that was started: a complete stop, or else a kill of
the process that was started; and for an explicit stop.
**C71** `Server/Buffers` is the server over arbitrary implementations of the
buffer traits; a refinement shows that lawful ones behave as byte slices, for
which `Server/Impl` is the model.  If the callback panics, the buffer is left as
if it had returned (simplified).
**C72-C79** compare the crate with the TPM 2.0 Library Specification (revision
1.59).  `Tcg/Spec` gives meaning to the notation of Part 2 (tables with counted
arrays, unions and sized buffers) as sets of byte sequences, without reference
to the code; `Tcg/Part2` and `Tcg/Constants` transcribe the tables.  These
transcriptions are made from knowledge of the standard, whose text is not in
/repo, and are part of the trusted base of these properties.  Ranges of
interface types (`TPMI_...`) are left out: they are integers of their size.
**C72** The kernel compares all constants read from `Derive/Decls` with the
tables.
**C73 (violated)** `conf` is a checker between layouts and tables, proved sound
for all byte sequences (`conf_iff`) and then evaluated.  `Choices` are the six
places in which the crate departs from the standard: size of TPM2B_DATA, XOR as
symmetric algorithm of objects, RSA and ECC schemes mixed, a null sensitive area,
no NV digest attestations, no countdown timers.  Witnesses for each type.
**C74 (violated)** C31 and C34 with the bytes described by Parts 1 and 3 in place
of `wire`.
**C75 (violated)** Tables of Part 2, 6.6.3, against the two tables of codes; one
wrong value in the crate `tpm2`, one code missing in the base crate.
**C76** Tables of bits against the flags; the meaning of flags and fields is
proved for every word (with C19).
**C77 (violated)** Converse of C74.  `IsLoose` is a response with any tag and any
parameter size, which the client does not check; with it the answers taken are
characterized exactly.
**C78** `Ty.longest` and `Ty.shortest` bound encodings by induction over types;
values that attain them are computed and checked by the kernel for each type.
**C79 (violated)** C47 and C48 with the commands and responses of Parts 1 and 3.
The server sends random bytes without their size, does not look at the tag, reads
the number of bytes where the authorizations are, and leaves the first six bytes
of an error response as they were.
**C80** `Client/Live` threads a state through every call of a session or the
connection.  `Built` and `Checked` say that such a run does what the run with
constant sessions giving the same answers does; from them the conditions for
success and, with `watched` sessions and connection, the order of calls.
**C81** `Client/Area` makes the area a pair of functions on the common state.  Its
runs are reduced to those of `Client/Live` between the calls of the area; the area
of the crate is steady, so both agree.
**C82** `Clean` says that unused parts are zero or default, `Made` is an inductive
definition of the ways of getting a value from the crates.  Unmarshalling yields
`canon v`, and `canon v = v` exactly if `v` is clean; each way of making a value
keeps it clean by induction.
**C83 (violated)** `Tcp/Reference` specifies the reference simulator's two loops around
an arbitrary device, and an operating system that carries bytes between them and the
client (`Link`; `Willing` if it does not fail).  `Owes` says what the simulator still has
to deliver; it is kept by every step of the simulator and used up by reads.  Calls are
`Sound` and `Live` for what the device does, and programs follow by induction.
`Tcp/ReferenceServer` is an operating system that satisfies the specification for every
device.  H-CRTM data of 4 GiB is sent with length 0 and then taken for requests; Linux
accepts less than 2 GiB in one write, so that there the call fails instead.
**C84** `Codec/Parts` flattens a value into parts, each written, refused with an error
or crashing, given the space that is left; `marshal` is shown to write the parts, for
all types by induction, without any hypothesis.
**C85** `Tcp/Calls` wraps an operating system in one that writes down every call and its
result, and says which call may come next (`due`), given the pieces of an exchange and
what was transferred.  A relation between runs with and without the record is kept by
every function and by sequencing.  Connecting is not recorded (C45 counts attempts).
**C86** `Tpm2/Fixed`: all types with a fixed size through the blanket implementations.
The specification is a relation between values and byte strings (`Encodes`).
**C87** `Tpm2/Limits` is the tagged digest again with limits that are functions on a
state and may panic; it is related to `Tpm2/Impl`, whose limits are a set.
**C88** `EndToEnd/Ending` adds streams that are shut down (`Shuts`; `Gentle` if the
operating system does not fail) to the simulator of C83.  An invariant (`Phase`) says
which part of the code has arrived on each port and on which ports it has been read; it
is kept by writes and by the simulator.  That the real simulator's process may be gone
before the second port is told is not modelled: then the call fails.
**C89** `Server/History`: what a call is to get is read off its request and buffer;
`Yields` is the generator used without a server.  Induction over the calls.
**C90 (violated)** `Client/Outcome`: the first thing wrong with a response as an inductive
predicate over its bytes (with `Faulty` of C68 for the parts), proved equivalent to the
error returned.  Faults of encodings become codes of the TPM
(`TPM_RC_MEMORY`, `TPM_RC_SELECTOR`, `TPM_RC_SIZE`) although the TPM sent success or
nothing at all.

**C91 (violated)** `Tcp/PeerProps`: a `Machine` says which process accepts connections on a
port and which is at the other end of a stream.  `Sim.new` takes the first readable port
files, which may be those of an earlier process; if only files of the started process
are ever found, both streams lead to it.
**C92** `EndToEnd/Text`: `Display` of `u32`, division by ten, against the decimal numeral as
such; I/O errors as a sum of those of the connection and those made by `Error::other`.
**C93** `Client/Own`: a command is four functions on buffer and common state.  `Composes`
and `Decomposes` say how a command comes about and a response is taken apart;
`buildOwn_iff` and `readOwn_ok_iff` prove the code equivalent to them.  For derived types
it is the code of `Client/Area`.
**C94** `Tpm2/Own`: the two functions of a type on array and state; the crate's own types
are an instance (`Fixed.own`).
**C95 (violated)** `EndToEnd/Password`: the derived `Debug` without options as text.  The
text is read from the left: digits end at the first other character.
**C96 (violated)** `EndToEnd/Random`: programs as trees that branch on what was seen;
`Dreams` runs them on the generator alone, with what is shown of the bytes as a parameter.
The full claim is `Dreams .bytes`; proved is `Dreams misread`, by `C56_exact_partial`,
which says for any generated bytes what the client returns.
**C97** `Server/BufferUse`: `Answers` says which calls the buffers see and what becomes of
them; nothing is assumed about the buffers.  Both directions are proved, except for what a
panic leaves behind.
**C98** `Width/Codec`, `Width/Client`, `Width/Server` and `Width/Tcp` are the models again
with a `Machine`: casts to `usize` truncate, sums that do not fit panic or wrap.  Proved by
carrying along that what was written so far fits into the buffer, and that length fields
hold what fits into their bytes (`Ty.countsIn`).  The functions of the other chapters are
unchanged; only slices are modelled as the server's buffers here.
**C99** `Derive/Messages` says what is wrong with a declaration (`NField.Fault`, `Each`,
`SizedFault`, `Rejected`) without the macros' loops; the errors are exactly these, by
induction over the fields with what the macro knows of the earlier ones (`BasicRel`).
Texts and spans are not modelled, except for the name in the message of C100.
**C100 (violated)** The message is built from the path of the attribute; `NamesUser` is the
full claim.
**C101** `EndToEnd/Remote`: C83 with the server as the device (`Runs`) and C96's programs;
one command with the device is one command with the server because the server leaves the
rest of the buffer alone (C46).
**C102 (violated)** `Derive/Targets`: the declarations of C67 read with the alignments of
32-bit x86 (`Env.emptyOn al32`) and compared with those of 64-bit targets by evaluation.
`Tpm2bAttest` is 12 bytes shorter, since `TpmsAttest` has less padding; all other layouts and
all constants are equal.  That every attestation fits uses C16, which holds for all alignments.
Targets that align `u32` to two bytes or less are not considered.
**C103** `Codec/Signed`: the signed integers apart from the universe of types, whose integers
are unsigned; `twos` is the value of bytes in two's complement, defined on the first byte.
The structures with a signed length are related to those with an unsigned one.

**C104** `Client/Unambiguous`, `Tcg/Unambiguous`: `SameCommand` compares codes, handles,
authorizations and parameters (`canon` forgets the unused bytes of buffers); `SameTypes` says that
commands with the same code have the same types of handles and parameters, which holds for the
commands of the base crate (`C104_base`). `sentStream` are the commands of a client written one
after the other.

**C105** `Server/Handlers`: a handler is a tree of what it does (`Reading`, then `Writing`, as
`into_response` consumes the view), with any continuation for each result; `Reads`, `Writes` and
`Answered` say what comes of it without offsets. Proved by induction over the trees; in place, by
the same reads giving the same second part. `C105_crate` gives back `Server/Impl`.

**C106** `Client/Responses`: `SameResponse` compares tags, handles, parameters, authorization
responses and, if present, parameter sizes. Each part of a response is a code in which no word is
the beginning of another (C08), and authorization responses are not empty. `C106_returned` is C33
with "every" for "some".

**C107** `EndToEnd/Handlers`: the client (C31-C35) over the server with any handlers (C105), both
sides given by their own specifications: `Reads` and `Writes` of the handler, encodings of the
client's values.

**C108** `EndToEnd/Dialog`: C101 with any handlers and any commands. `Dialog.Handled` gives the
results from `Reads` and `Writes` of the handlers; C107 gives the runs with the server called
directly, C83 those over the connection. What is behind the size reported by the server differs
between the two (a handler may write before it fails), but the client does not look at it
(`readResponse_trim`).

**C109** `Tcp/Interrupts`: elsewhere the operating system of `Tcp/Impl` may answer any call with an
error, which ends the operation; the loops of `write_all` and `read_exact` that repeat a call after
`EINTR` are taken to be part of the call. Here they are modelled as they are (`Raw.*`), for
operating systems that do not interrupt for ever (`Patient`), and compared with `Tcp/Impl` over an
operating system without interrupts (`calm`): equal, unless the result is the interruption. Violated
for calls that send with `write_vectored`, which std does not repeat (`C109_violated`): the caller
gets an error though nothing happened. `C109_unsent_partial` and `C109_repeated_partial` say that
the caller can repeat such a call; not so `hcrtm_sequence`, whose start has been sent by then
(`C109_hcrtm_partial`). `C109_device_partial` gives C83 with interrupts.

**C110** `Server/AnyBuffers`: C105 with the buffers of C71. A handler is a tree as in C105, but goes
on after `write_callback` with the result and with what the callback saw, if it was called: buffers
that do not keep their contract may call it and fail, or not call it and succeed. `Handlers.plain`
forgets these branches; it is used to state `C110_answered` with the specification of C105.
`C110_same` compares platforms directly; `C110_history` is about any calls one after the other. `C110_no_panic` needs no contract;
`Calm` says that no leaf of the tree of the handler is a panic.

**C111** `EndToEnd/Standard`, `EndToEnd/StandardProps`, `Tests/Integration`: a TPM is a function from
commands with authorizations to answers (`Tpm`, `Answer`); `Answer.bytes` is the format of the
standard and `Conforms` says that the device of the simulator answers in it. `Prog.Meets` says in
these terms what a program gets; no bytes occur in it except to say that commands and answers fit
into 4096. `C111_completes` and `C111_same` follow from C83, C34 and the list of failures (C77).
The integration tests of crates/tpm2-client/tests are programs whose result is the proposition they
assert. They are tried with every device that conforms to a `Usable` TPM, and with one concrete
device. Not modelled of these tests: starting the process of the simulator (C69, C91).

**C112** `Codec/Own`, lemmas `Codec/OwnLemmas`, `Codec/OwnReads`, `Codec/OwnStd`, theorems
`Codec/OwnProps`: the derived code over implementations of `Marshalable` by the caller. Such an
implementation is a `Part`: two arbitrary functions (which may fail, panic or report wrong sizes), a
default, what `as usize` gives, and that a slice keeps its length. The types are the universe of
`Codec/Ty` as leaves, parts as leaves, and structures and enums over them. `Lawful` says what an
implementation should do, in terms of a `Meaning` (sound values, encoding, value read back); the
theorem is that the derived implementation, itself a `Part`, is lawful again (mutual induction on
types, fields and variants, as for C01 to C09, without the part about truncated input, since the
errors of the caller are not known). `Reads` and `Stops` describe reading over any implementations as
inductive relations; they are shown equal to the code. `C112_std` shows that the code is that of
`Codec/Impl` where there are no parts of the caller. Simplified: a derived enum without data, which
Rust could cast, is no length field (nor in `Derive/Sem`). All values of the caller's types are of one
Lean type `X` (a sum, if there are several).

`C112_variant` is the same for the data of an enum without its discriminant (`marshal_variant`,
`unmarshal_variant`).

**C113** `Client/Lawful`, `Client/LawfulProps`: the client of C93, in which the caller gives
implementations of all types of a command, with implementations that are lawful in the sense of C112.
`requestBytes` and `successBytes` are the formats of the standard, written with the encodings of the
`Meaning`s. `C113_sent` and `C113_success` follow from C93 with the fields of `Lawful`; `C113_panics`
goes through the code again, since C93 says nothing about commands that fail.

**C114 (violated)** `Width/Own`, `Width/OwnProps`: the client of C93 with a `Machine` as in C98. What
the caller's types report is any number; `Modest` excludes those that could wrap. Where a sum that
overflows is a panic, the model without limits panics at the next slice in the same state
(`own_step`), so both end alike. `braggart_sends` is the witness for the violation.

**C115** `Client/Endings`, `Client/EndingsProps`: the complement of C93. `BuildStops`, `AreaStops`,
`AuthsStop`, `ReadStops`, `BodyStops` and `ReplyStops` list the ways to end without a result, each with
its code or a panic and the state; they are stated with the types and answers of the caller, `StopsAt`
(C84) for authorizations that are not written, and `Faulty` (C68) for those that are not read.
`settled_build` unfolds the composition once; `C115_ends` shows that a run ends so exactly if the list
says so, `C115_all` that there is nothing else. C112 has a further theorem, `C112_slots`, found missing
by a wrong program: what stands in unused slots of arrays of derived types with parts of the caller.

**C116 (violated)** `Width/OwnCodec`, `Width/OwnCodecProps`: the derived code of C112 with a `Machine`
as in C98: length fields are cast, and the sums of what the parts report may overflow. `Puts` describes
writing over any implementations as an inductive relation (what `Reads` is to reading) and is shown
equal to the code (`C116_puts`). `Counts` asks that length fields say less than 2^32, which those of
the crate do. `C116_same_partial` is the agreement with the code without limits as in C98, for parts
that report no more than they were given; `C116_checked` needs no such assumption, since a sum that
overflows is a panic and what has been written only grows. `C116_violated` is the witness without
checks. Of values, `Held` asks only that those of the crate are of their types in what is written.

**C117** `EndToEnd/OwnProgram`, `EndToEnd/OwnProgramProps`: C83 and C108 with the commands of C93.
`OwnProg` is the program; its state `S` is what the caller's types and sessions work on, beside the state
of the connection (`beside`: the connection does not touch the one, the caller's code not the other).
`play` runs it over the `TcpConnection`, `dream` with the device itself, `Handled` says what it would get
from the handlers, by the relations of C93 (`Composes`, `Decomposes`), C105 (`Reads`, `Writes`) and C115
(`BuildStops`, `BodyStops`). Panics of a command are results, so that what a program does after catching
one is included. `C117_observes` and `C117_completes` are by induction on the program, `C117_handled` by
induction on `Handled`.

**C118 (violated)** `Width/Handlers`, `Width/HandlersProps`: the server of C105 with a `Machine` as in
C98: the sums of offset and size, of the cursor of a handler and of the server itself, may panic or wrap.
A wrapped sum is smaller than the offset, so that the slice refuses it: without overflow checks all is as
without limits. With them `Exceeds` says when a handler comes to ask for too much, and `C118_checked` shows
that the server panics exactly then. `Holds` says what Rust guarantees of slices (at most `isize::MAX`
bytes), `Handlers.On` that sizes are of type `usize`; nothing else is asked of handlers in
`C118_slices` and `C118_request`. `C118_same_partial` is for handlers that never come to exceed. Only
slices as buffers.

**C119** `Derive/OwnSem`, `Derive/OwnLemmas`, `Derive/OwnCompile`, `Derive/OwnProps`: the meaning of the
generated code of C62 for declarations with types of the caller's own, linking the macro to the code of
C112. The macro itself (`Derive/Impl`) is that of C62–C66. `Ctx` says what the compiler knows of a type
expression: the type it denotes, whether it can be cast by `as usize` (and copied), and whether it is `Copy`
and `Default`, which arrays need. `Means` is the reading of the declaration as in C62, `Usable` is that of
C63, `Placed` the condition on arrays. Soundness and completeness are by induction on the fields as for
C62; `C119_compiles` puts them together, `C119_lawful` is with `C112_derived`. Of values, `Formed` asks
only for the number of fields and for arrays where arrays are declared. Not modelled: generic parameters
of the declaration, visibility of the types and traits named in it, and field names that are also names of
constants in scope (a `let` of such a name does not bind a variable).

**C120 (violated)** `Width/DeriveOn`, `Width/DeriveLemmas`, `Width/DeriveProps`: the meaning of the
generated code of C119 with a `Machine` as in C116: the sums of reported lengths are those of the machine,
lengths are cast to its `usize`, and fields are read and written by the codecs of C116. `ImplementsOn` says
that the generated code is the layout declared as C116 runs it. Soundness and completeness are shown again
for the new interpretation, by the inductions of C119; that `C120_compiles` has the same right-hand side as
`C119_compiles` shows that what compiles does not depend on the machine. `C120_same_partial`,
`C120_checked` and `C120_lawful` are with the theorems of C116; values that meet their hypotheses have the
form declared (`held_formed`). `C120_violated` is the witness of C116 as a declaration `struct Claim(u8,
Claims, u8)`. Not modelled: as for C119; nothing is said about machines of 16 bits.

**C121** `Client/Declared`, `Client/DeclaredProps`: the macro, the code it generates and the client together.
`Declared` is a declaration that the macro accepts and whose generated code compiles (the model of C119),
`Says` its layout, `Made` a command of the client whose four types are such declarations, given by the
generated implementations only. By `C119_generated` and `C119_unambiguous` such a command is the one of C113
with the types derived from the layouts (`made_eq`); sound values have the form declared
(`Declared.formed`). `C121_made` shows that there is such a command for all declarations and sound values.
`Width/Declared`, `Width/DeclaredProps`: `MadeOn` is such a command with the code generated as it runs on a
machine (C120); `C121_machines` shows that the client of the machine (C114) does with it what it does without
limits, for types whose parts do what they should and whose length fields say less than 2^32, and
`C121_made_on` that there is such a command. `build_handOver_congr` is the induction of C114 for two commands
that agree on what the client gives them. Not modelled here: machines of less than 32 bits; code of the
caller that keeps state between the calls (C93 says what is sent then).
