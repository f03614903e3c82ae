{"id": "C01", "title": "Marshal/unmarshal round trip", "statement": "Marshalling any well-formed value of a TPM structure into a buffer that is large enough and then unmarshalling that buffer (whatever bytes follow the encoding) succeeds, yields a value equal to the original in everything the encoding carries, and leaves exactly the following bytes unread.", "quantifier": "every structure type built from the derive macro's constructs (hence every TPM type in the base crate), every well-formed value of it, every destination buffer of sufficient length, every trailing byte string", "why_tests_cant": "The value and input spaces are unbounded (or astronomically large) and span every TPM structure; a unit test samples a handful of byte strings.", "anchors": ["marshalable/src/lib.rs:Marshalable", "marshalable-derive/src/lib.rs:derive_tpm_marshal", "base/src/lib.rs:TpmtPublic", "base/src/lib.rs:TpmsAttest", "base/src/lib.rs:TpmtSensitive"]}
{"id": "C02", "title": "Unmarshalling consumes exactly one encoding and depends on nothing else", "statement": "If unmarshalling succeeds, the bytes it consumed are exactly the encoding of the returned value, and replacing the bytes after the consumed ones by anything else gives the same value and leaves the replacement unread.", "quantifier": "every structure type, every input buffer on which unmarshalling succeeds, every replacement of the unread bytes", "why_tests_cant": "The value and input spaces are unbounded (or astronomically large) and span every TPM structure; a unit test samples a handful of byte strings.", "anchors": ["marshalable/src/lib.rs:UnmarshalBuf::get", "marshalable-derive/src/lib.rs:derive_tpm_marshal"]}
{"id": "C03", "title": "Unmarshalling never panics", "statement": "Unmarshalling any byte string as any TPM structure returns a value or an error; it never panics, and what remains in the buffer is always a suffix of the input.", "quantifier": "every structure type, every input byte string (including truncated, oversized and adversarial ones)", "why_tests_cant": "Adversarial bytes from a TPM or the bus are arbitrary; tests try a few truncations.", "anchors": ["marshalable/src/lib.rs:UnmarshalBuf", "marshalable-derive/src/lib.rs:get_field_unmarshal", "marshalable-derive/src/lib.rs:get_enum_unmarshal_body"]}
{"id": "C04", "title": "One encoding per value: accepted bytes re-marshal to themselves", "statement": "Whenever a byte string is accepted by unmarshalling, marshalling the resulting value into any large enough buffer succeeds and writes back exactly the bytes that were consumed.", "quantifier": "every structure type, every accepted byte string, every destination buffer of sufficient length", "why_tests_cant": "The value and input spaces are unbounded (or astronomically large) and span every TPM structure; a unit test samples a handful of byte strings.", "anchors": ["marshalable/src/lib.rs:Marshalable", "marshalable-derive/src/lib.rs:derive_tpm_marshal", "marshalable-derive/src/lib.rs:tpm2b_simple!"]}
{"id": "C05", "title": "Truncated encodings are always rejected", "statement": "Every strict prefix of the encoding of a well-formed value is rejected with the unexpected-end-of-buffer error.", "quantifier": "every structure type, every well-formed value, every truncation point", "why_tests_cant": "Tests truncate one sample at one place; the claim is about each cut of each encoding.", "anchors": ["marshalable/src/lib.rs:UnmarshalBuf::get", "marshalable-derive/src/lib.rs:tpm2b_simple!"]}
{"id": "C06", "title": "Marshalling writes only the bytes it reports", "statement": "Whatever the result, marshalling never changes the length of the destination; if it succeeds with n, then n is the length of the encoding, the first n bytes are the encoding and every byte after them is untouched.", "quantifier": "every structure type, every in-memory value (well-formed or not), every destination buffer", "why_tests_cant": "The value and input spaces are unbounded (or astronomically large) and span every TPM structure; a unit test samples a handful of byte strings.", "anchors": ["marshalable/src/lib.rs:Marshalable::try_marshal", "marshalable-derive/src/lib.rs:get_field_marshal_body", "marshalable-derive/src/lib.rs:get_enum_marshal_body"]}
{"id": "C07", "title": "Marshalling into a too small buffer reports an error", "statement": "If the destination is smaller than the encoding, marshalling returns the unexpected-end-of-buffer error; it never succeeds and never panics.", "quantifier": "every structure type, every well-formed value, every destination buffer shorter than the encoding", "why_tests_cant": "The failing combinations depend on the position of the first field that does not fit; tests cover only primitive fields.", "anchors": ["marshalable-derive/src/lib.rs:tpm2b_simple!", "marshalable/src/lib.rs:[u8; M]::try_marshal"]}
{"id": "C08", "title": "Encodings are unambiguous", "statement": "Two well-formed values of the same type that differ in anything the encoding carries never have the same encoding, and neither encoding is a prefix of the other.", "quantifier": "every structure type, every pair of well-formed values", "why_tests_cant": "Quantifies over pairs of values.", "anchors": ["marshalable/src/lib.rs:Marshalable", "marshalable-derive/src/lib.rs:derive_tpm_marshal"]}
{"id": "C09", "title": "Unknown union selectors are rejected", "statement": "A tagged union (directly tagged, or with the tag stored earlier in the structure) is only ever accepted with one of its declared selectors; any other selector value yields the unknown-selector error, and the declared selector decides which variant is parsed.", "quantifier": "every tagged-union type, every selector value, every following byte string", "why_tests_cant": "All 2^16 or 2^32 selector values for each union, with any payload.", "anchors": ["marshalable-derive/src/lib.rs:get_enum_unmarshal_impl", "base/src/lib.rs:PublicParmsAndId", "base/src/lib.rs:TpmuAttest", "base/src/lib.rs:TpmsCapabilityData"]}
{"id": "C10", "title": "Element counts beyond capacity are rejected before any element is read", "statement": "When the element count read from the wire exceeds the capacity of the array it controls, unmarshalling fails with the array-length-exceeded error and reads no element bytes; when it does not exceed it, that error is not caused by this array.", "quantifier": "every counted-array structure, every count on the wire, every following byte string", "why_tests_cant": "All counts in the range of the length field and all payloads.", "anchors": ["marshalable-derive/src/lib.rs:get_field_unmarshal", "base/src/lib.rs:TpmlPcrSelection", "base/src/lib.rs:TpmlDigest", "base/src/lib.rs:TpmsPcrSelection"]}
{"id": "C11", "title": "Sized buffers hold exactly what they were given", "statement": "A sized buffer built from a byte slice succeeds exactly when the slice fits its capacity and then returns exactly these bytes; unmarshalled from the wire it succeeds exactly when the declared size is within capacity and available, and then holds exactly the declared bytes.", "quantifier": "every sized-buffer capacity up to the type limit, every byte slice, every wire input", "why_tests_cant": "The value and input spaces are unbounded (or astronomically large) and span every TPM structure; a unit test samples a handful of byte strings.", "anchors": ["marshalable-derive/src/lib.rs:tpm2b_simple!", "base/src/lib.rs:Tpm2bSimple::from_bytes", "base/src/lib.rs:Tpm2bDigest", "base/src/lib.rs:Tpm2bName"]}
{"id": "C12", "title": "Out-of-range public length fields do not crash the caller", "statement": "Marshalling a structure whose public length field exceeds the capacity of the array it controls returns an error instead of panicking.", "quantifier": "every counted-array structure, every value of the public length field, every destination buffer", "why_tests_cant": "The panic depends on the value of a public integer field; tests only use in-range counts.", "anchors": ["marshalable-derive/src/lib.rs:get_named_field_marshal", "base/src/lib.rs:TpmsPcrSelection::sizeof_select", "base/src/lib.rs:TpmlTaggedTpmProperty::count"]}
{"id": "C13", "title": "Integers are big-endian", "statement": "An n-byte integer field is encoded as the n bytes whose most-significant-first positional value is the integer, and decoding n bytes gives that positional value.", "quantifier": "every integer width, every integer value, every byte string", "why_tests_cant": "The value and input spaces are unbounded (or astronomically large) and span every TPM structure; a unit test samples a handful of byte strings.", "anchors": ["marshalable/src/lib.rs:impl_be_prim_marshalable!"]}
{"id": "C14", "title": "Wrapping a structure in a sized buffer always works and is reversible", "statement": "Wrapping any well-formed structure in its sized-buffer type always succeeds without panicking, records the exact encoded size, and unwrapping returns the same structure.", "quantifier": "each structure/sized-buffer pair of the base crate, every well-formed structure value", "why_tests_cant": "The capacity is the in-memory size of the type; whether every value's encoding fits needs an argument over all values and layouts.", "anchors": ["marshalable-derive/src/lib.rs:derive_tpm2b_struct", "base/src/lib.rs:Tpm2bPublic", "base/src/lib.rs:Tpm2bSensitiveCreate", "base/src/lib.rs:Tpm2bCreationData"]}
{"id": "C15", "title": "Unwrapping a sized structure rejects surplus bytes", "statement": "Unwrapping a sized buffer as a structure succeeds only if the structure's encoding fills the declared size exactly.", "quantifier": "each structure/sized-buffer pair, every buffer content", "why_tests_cant": "All contents with any surplus.", "anchors": ["marshalable-derive/src/lib.rs:derive_tpm2b_struct", "base/src/lib.rs:Tpm2bStruct::to_struct"]}
{"id": "C16", "title": "Encodings never outgrow the in-memory structure", "statement": "The encoding of any well-formed value is no longer than the size of its in-memory representation, so a buffer of that size is always sufficient to marshal it.", "quantifier": "every structure type (C layout, any field alignments), every well-formed value", "why_tests_cant": "The value and input spaces are unbounded (or astronomically large) and span every TPM structure; a unit test samples a handful of byte strings.", "anchors": ["base/src/lib.rs:Tpm2bPublic", "base/src/lib.rs:size_of", "marshalable-derive/src/lib.rs:derive_tpm2b_struct"]}
{"id": "C17", "title": "TPM lists behave as bounded sequences", "statement": "Creating a TPM list from a slice, adding elements and reading it back behaves exactly like a bounded sequence: creation fails exactly when the slice exceeds the capacity, add fails exactly when full and then changes nothing, otherwise appends, and reading returns the elements in order.", "quantifier": "every list type, every element sequence, every history of add operations", "why_tests_cant": "Quantifies over all operation histories.", "anchors": ["base/src/lib.rs:impl_tpml!", "base/src/lib.rs:TpmlDigest", "base/src/lib.rs:TpmlHandle"]}
{"id": "C18", "title": "Decoded lists can be read back completely", "statement": "After unmarshalling a TPM list, the reported count equals the number of elements returned by the accessor, which are exactly the elements on the wire in order.", "quantifier": "every list type, every accepted input", "why_tests_cant": "The value and input spaces are unbounded (or astronomically large) and span every TPM structure; a unit test samples a handful of byte strings.", "anchors": ["base/src/lib.rs:impl_tpml!", "marshalable-derive/src/lib.rs:get_field_unmarshal"]}
{"id": "C19", "title": "Attribute fields are independent", "statement": "Writing a multi-bit attribute field and reading it back returns the written value masked to the field width, and every other bit of the attribute word keeps its value; boolean attributes set or clear exactly their own bit.", "quantifier": "every attribute word, every field, every value (including values too wide for the field)", "why_tests_cant": "2^32 words by every value.", "anchors": ["base/src/lib.rs:set_attribute_field", "base/src/lib.rs:TpmaNv", "base/src/lib.rs:TpmaCc", "base/src/lib.rs:TpmaLocality"]}
{"id": "C20", "title": "NV index type codec", "statement": "Setting the NV index type of an attribute word makes the getter return that type (for all 4-bit types) and changes no other attribute; building attributes from a type yields only type bits.", "quantifier": "every NV attribute word, every index type value", "why_tests_cant": "2^32 words by 256 types.", "anchors": ["base/src/lib.rs:TpmaNv::set_type", "base/src/lib.rs:TpmaNv::get_index_type", "base/src/lib.rs:TpmaNv::from_index_type"]}
{"id": "C21", "title": "Handle classification", "statement": "Converting a 32-bit value to an NV index succeeds exactly for the NV index range, and to an authorization session exactly for HMAC-session handles, policy-session handles and the password session; the ranges are disjoint, and a converted handle yields back the same value.", "quantifier": "every 32-bit value", "why_tests_cant": "All 2^32 values.", "anchors": ["base/src/lib.rs:TpmiRhNvIndex", "base/src/lib.rs:TpmiShAuthSession", "base/src/constants.rs:TpmHc"]}
{"id": "C22", "title": "Range-checked handle types are range-checked on the wire too", "statement": "Unmarshalling an NV-index or authorization-session handle from the wire succeeds only for values that the checked conversion accepts.", "quantifier": "every 4-byte wire value", "why_tests_cant": "All 2^32 wire values.", "anchors": ["base/src/lib.rs:TpmiRhNvIndex", "base/src/lib.rs:TpmiShAuthSession"]}
{"id": "C23", "title": "Error position codec round trip", "statement": "Annotating a format-one error with the parameter, session or handle it refers to and asking the annotated error for that reference returns what was put in.", "quantifier": "every format-one error code, every kind of reference, every position number", "why_tests_cant": "Every (code, kind, position) triple.", "anchors": ["crates/tpm2/src/errors/tpm_rc/mod.rs:format1_parameter", "crates/tpm2/src/errors/tpm_rc/mod.rs:ErrorPosition"]}
{"id": "C24", "title": "Annotating an error keeps its identity", "statement": "Annotating a format-one error with a reference keeps the base error code recoverable, keeps it format-one, never makes it zero (success), and different annotations of the same error give different codes.", "quantifier": "every format-one error code, every kind and position", "why_tests_cant": "Every (code, kind, position) pair of triples.", "anchors": ["crates/tpm2/src/errors/tpm_rc/mod.rs:TpmRcError", "crates/tpm2/src/errors/tpm_rc/mod.rs:ErrorType::to_mask"]}
{"id": "C25", "title": "Success can never be represented as an error, and every failure code is preserved", "statement": "Converting a 32-bit response code to an error succeeds exactly for non-zero codes and the error yields back the same code; errors of different origin layers never collide with each other or with TPM response codes.", "quantifier": "every 32-bit code, every error constant", "why_tests_cant": "All 2^32 codes.", "anchors": ["crates/tpm2/src/errors/mod.rs:TssError", "crates/tpm2/src/errors/tss_rc.rs:new", "crates/tpm2/src/errors/tpm_rc/mod.rs:TpmRcError"]}
{"id": "C26", "title": "The two error tables agree", "statement": "Every error name that exists both in the error crate and in the structure crate's response-code table denotes the same numeric code, and the names of one table denote distinct codes.", "quantifier": "every name common to both tables; every pair of names of a table", "why_tests_cant": "Tests check single constants against literals taken from the same source.", "anchors": ["crates/tpm2/src/errors/tpm_rc/mod.rs:TpmRcError", "base/src/constants.rs:TpmRc"]}
{"id": "C27", "title": "Hash-agile digests round trip under any limits", "statement": "Marshalling a tagged digest of the zero-copy crate and unmarshalling it under the same limits gives the digest back and consumes exactly the encoding; the reported size is exactly the number of bytes written and never exceeds the advertised maximum for these limits.", "quantifier": "every limits configuration, every digest value, every destination buffer, every trailing byte string", "why_tests_cant": "The value and input spaces are unbounded (or astronomically large) and span every TPM structure; a unit test samples a handful of byte strings.", "anchors": ["crates/tpm2/src/tpmt.rs:TpmtHa", "crates/tpm2/src/marshal.rs:Marshal", "crates/tpm2/src/marshal.rs:Limits"]}
{"id": "C28", "title": "Algorithm limits are enforced in both directions", "statement": "Under limits that do not support a hash algorithm, neither marshalling nor unmarshalling a digest tagged with it succeeds, nothing is written, and the destination value of a failed unmarshal keeps its previous value.", "quantifier": "every limits configuration, every input", "why_tests_cant": "All limit sets by all inputs.", "anchors": ["crates/tpm2/src/tpmt.rs:TpmtHa", "crates/tpm2/src/tpmi.rs:TpmiAlgHash", "crates/tpm2/src/marshal.rs:Limits"]}
{"id": "C29", "title": "The two crates agree on the digest encoding", "statement": "A tagged digest encoded by the structure crate is accepted by the zero-copy crate (when its algorithm is supported) with the same algorithm and bytes, and conversely.", "quantifier": "every tagged digest present in both crates, every trailing byte string", "why_tests_cant": "Cross-crate agreement over all digests.", "anchors": ["base/src/lib.rs:TpmtHa", "crates/tpm2/src/tpmt.rs:TpmtHa"]}
{"id": "C30", "title": "Algorithm identifiers convert back and forth", "statement": "Converting a hash algorithm to its identifier and back is the identity, and the conversion from identifiers succeeds exactly for identifiers of hash algorithms with the table's digest sizes.", "quantifier": "every algorithm identifier value", "why_tests_cant": "All 2^16 identifiers.", "anchors": ["crates/tpm2/src/tpmi.rs:TpmiAlgHash", "crates/tpm2/src/constants.rs:Alg"]}
{"id": "C31", "title": "Commands are framed correctly", "statement": "Whenever the client hands a command to the transport, the bytes handed over consist exactly of a header whose tag says whether authorizations are present, whose size is the number of bytes handed over and whose code is the command's code, then the handles, then (only with authorizations) the size-prefixed authorization list in order, then the parameters.", "quantifier": "every command, handle tuple and up to three authorizations with well-formed values, every transport", "why_tests_cant": "All commands and session combinations.", "anchors": ["crates/tpm2-client/src/lib.rs:run_command_with_handles", "crates/tpm2-client/src/lib.rs:CmdHeader", "crates/tpm2-client/src/lib.rs:write_command_sessions"]}
{"id": "C32", "title": "TPM errors are never reported as success", "statement": "If the transport delivers a response whose response code is non-zero, the client returns an error carrying exactly this code.", "quantifier": "every command, every session combination, every response byte string with non-zero response code", "why_tests_cant": "All response codes and bodies.", "anchors": ["crates/tpm2-client/src/lib.rs:read_response_header", "crates/tpm2-client/src/lib.rs:run_command_with_handles"]}
{"id": "C33", "title": "Successful responses are accounted for completely", "statement": "If the client reports success, the response declared a zero code and a size within the receive buffer, and the declared size is exactly filled by header, response handles, parameter size (if the response is tagged with sessions), response parameters and authorization responses; nothing is left over.", "quantifier": "every command, every session combination, every transport behaviour", "why_tests_cant": "The value and input spaces are unbounded (or astronomically large) and span every TPM structure; a unit test samples a handful of byte strings.", "anchors": ["crates/tpm2-client/src/lib.rs:run_command_with_handles", "crates/tpm2-client/src/lib.rs:read_response_sessions"]}
{"id": "C34", "title": "Well-formed responses are delivered faithfully", "statement": "If the TPM answers with a well-formed success response carrying given response handles, parameters and acceptable authorization responses, the client returns exactly these response handles and parameters.", "quantifier": "every command, every well-formed response content fitting the receive buffer, up to three authorizations", "why_tests_cant": "The value and input spaces are unbounded (or astronomically large) and span every TPM structure; a unit test samples a handful of byte strings.", "anchors": ["crates/tpm2-client/src/lib.rs:run_command_with_handles", "crates/tpm2-client/src/lib.rs:read_response_sessions"]}
{"id": "C35", "title": "Every authorization response is validated", "statement": "If the client reports success for a command with authorizations, then every authorization checked one response from the response's authorization area, in order, and accepted it.", "quantifier": "every list of authorizations, every response", "why_tests_cant": "All session behaviours and all responses.", "anchors": ["crates/tpm2-client/src/lib.rs:read_response_sessions", "crates/tpm2-client/src/sessions/session.rs:Session", "crates/tpm2-client/src/sessions/authorization_area/mod.rs:AuthorizationArea"]}
{"id": "C36", "title": "Password authorization", "statement": "A password authorization can be made from exactly the secrets of at most 64 bytes, sends exactly the secret with the password handle, an empty nonce and no attributes, and accepts exactly the responses with empty nonce, empty acknowledgement and only the continue flag set.", "quantifier": "every secret, every authorization response", "why_tests_cant": "The value and input spaces are unbounded (or astronomically large) and span every TPM structure; a unit test samples a handful of byte strings.", "anchors": ["crates/tpm2-client/src/sessions/password.rs:PasswordSession"]}
{"id": "C37", "title": "The client survives any response", "statement": "No response bytes delivered by the transport make the client panic.", "quantifier": "every command with well-formed handles and parameters that fits the command buffer, every transport behaviour", "why_tests_cant": "Adversarial header sizes and bodies; tests use two.", "anchors": ["crates/tpm2-client/src/lib.rs:run_command_with_handles", "crates/tpm2-client/src/lib.rs:read_response_header"]}
{"id": "C38", "title": "The client interprets only bytes the transport delivered", "statement": "The outcome of a command depends only on the bytes the transport reported as the response, and a response declaring more bytes than were delivered is not accepted.", "quantifier": "every command, every transport behaviour", "why_tests_cant": "Depends on mismatches between delivered and declared sizes.", "anchors": ["crates/tpm2-client/src/lib.rs:run_command_with_handles", "crates/tpm2-client/src/connection/mod.rs:Connection"]}
{"id": "C39", "title": "Commands that do not fit are never sent", "statement": "If header, handles, authorizations and parameters do not fit the command buffer, nothing is handed to the transport and the client returns an error.", "quantifier": "every command whose encoding exceeds the command buffer, every session combination", "why_tests_cant": "The failing field can be anywhere; tests use one oversized parameter.", "anchors": ["crates/tpm2-client/src/lib.rs:run_command_with_handles", "crates/tpm2-client/src/lib.rs:write_command_sessions"]}
{"id": "C40", "title": "Simulator transaction framing", "statement": "A successful simulator transaction writes exactly the send-command code, the current locality, the command length and the command, and returns exactly the announced response bytes followed by a zero acknowledgement.", "quantifier": "every command, locality, response, write/read chunking allowed by the stream", "why_tests_cant": "The value and input spaces are unbounded (or astronomically large) and span every TPM structure; a unit test samples a handful of byte strings.", "anchors": ["crates/tpm2-client/src/connection/tcp.rs:TpmTcpConnection::transact", "crates/tpm2-client/src/connection/tcp.rs:check_response_end"]}
{"id": "C41", "title": "Simulator stream stays synchronized over any history of successful transactions", "statement": "If the simulator answers each of any number of commands with a well-formed reply, then the i-th transaction returns the i-th reply; no reply bytes are lost, duplicated or attributed to another command.", "quantifier": "every history of commands and replies", "why_tests_cant": "Quantifies over histories.", "anchors": ["crates/tpm2-client/src/connection/tcp.rs:transact"]}
{"id": "C42", "title": "A failed transaction does not corrupt later ones", "statement": "After a transaction fails because the reply is larger than the caller's buffer, the next transaction on the same connection still returns its own reply or an error.", "quantifier": "every oversized reply, every following transaction", "why_tests_cant": "Needs histories with adversarial reply contents.", "anchors": ["crates/tpm2-client/src/connection/tcp.rs:transact"]}
{"id": "C43", "title": "Partial writes and bad acknowledgements are errors", "statement": "A transaction whose request was only partially written, whose acknowledgement is non-zero, or whose reply stream ends early returns an error, and a partially written request reads nothing from the stream.", "quantifier": "every number of bytes accepted by the stream, every reply stream", "why_tests_cant": "All short-write and truncation points.", "anchors": ["crates/tpm2-client/src/connection/tcp.rs:transact", "crates/tpm2-client/src/connection/tcp.rs:check_response_end"]}
{"id": "C44", "title": "Simulator control port operations do not disturb the command port", "statement": "Signals and other platform operations write only to the platform port and their own code, command transactions only to the TPM port; re-initialization sends NV off, power off, power on, NV on in this order and stops at the first failure.", "quantifier": "every sequence of operations, every peer behaviour", "why_tests_cant": "Quantifies over operation sequences.", "anchors": ["crates/tpm2-client/src/connection/tcp.rs:platform_signal", "crates/tpm2-client/src/connection/tcp.rs:reinit", "crates/tpm2-client/src/connection/tcp.rs:set_alternative_result"]}
{"id": "C45", "title": "Connection retries are bounded and return the first success", "statement": "Connecting with retries makes at most the documented number of attempts, returns the first successful connection, and fails only if every attempt failed, with the last error.", "quantifier": "every sequence of attempt outcomes", "why_tests_cant": "All outcome sequences.", "anchors": ["crates/tpm2-client/src/connection/tcp.rs:connect_with_retries"]}
{"id": "C46", "title": "The server never reads or writes outside the caller's buffers", "statement": "Executing any request returns a response size within the response buffer and never panics because of an out-of-range access; bytes of the response buffer beyond the response size are untouched by error responses and the request buffer is never modified in separate-buffer mode.", "quantifier": "every request, every response buffer size, both buffer modes, every random generator that does not fail", "why_tests_cant": "All requests by all buffer sizes.", "anchors": ["crates/tpm2-impl/src/tpmctx.rs:TpmContext", "crates/tpm2-impl/src/req_resp.rs:RequestThenResponse", "crates/tpm2-impl/src/req_resp.rs:Response", "crates/tpm2-impl/src/buffers/inout.rs:InOutBuffer", "crates/tpm2-impl/src/buffers/separate.rs:SeparateBuffers", "crates/tpm2-impl/src/platform/buffer.rs:TpmReadBuffer", "crates/tpm2-impl/src/platform/buffer.rs:TpmWriteBuffer"]}
{"id": "C47", "title": "Malformed requests are rejected with the right code", "statement": "A request shorter than its header or whose size field differs from its length is answered with COMMAND_SIZE, and a well-sized request with an unsupported command code with COMMAND_CODE; neither touches the random generator.", "quantifier": "every request of these kinds, both buffer modes", "why_tests_cant": "The value and input spaces are unbounded (or astronomically large) and span every TPM structure; a unit test samples a handful of byte strings.", "anchors": ["crates/tpm2-impl/src/tpmctx.rs:execute_command"]}
{"id": "C48", "title": "GetRandom responses", "statement": "A GetRandom request that fits is answered with success, a header whose size equals the returned size, and exactly the requested number of bytes produced by the random generator; if the response buffer is too small the answer is MEMORY and the generator is not used.", "quantifier": "every requested count, every response buffer, every random generator state", "why_tests_cant": "The value and input spaces are unbounded (or astronomically large) and span every TPM structure; a unit test samples a handful of byte strings.", "anchors": ["crates/tpm2-impl/src/handler/random.rs:get_random", "crates/tpm2-impl/src/tpmctx.rs:execute_command"]}
{"id": "C49", "title": "In-place and separate buffers are equivalent", "statement": "Executing the same request from the same state with the request in the response buffer or in a separate buffer gives the same response size, the same meaningful response bytes and the same next state.", "quantifier": "every request, state and buffer size", "why_tests_cant": "Aliasing bugs depend on overlaps of reads and writes at any offset.", "anchors": ["crates/tpm2-impl/src/tpmctx.rs:execute_command_in_place", "crates/tpm2-impl/src/tpmctx.rs:execute_command_separate", "crates/tpm2-impl/src/buffers/inout.rs:InOutBuffer"]}
{"id": "C50", "title": "Random bytes are never drawn from a generator that demands reseeding", "statement": "Over any history of requests, whenever the generator reports that it needs reseeding it is reseeded with fresh entropy before any byte is drawn for a response.", "quantifier": "every history of requests, every generator and entropy-source behaviour", "why_tests_cant": "Quantifies over histories.", "anchors": ["crates/tpm2-impl/src/handler/random.rs:try_get_random", "crates/tpm2-impl/src/crypto.rs:Crypto"]}
{"id": "C51", "title": "Every response is a well-formed TPM response", "statement": "Every response, success or error, starts with a header carrying the no-sessions tag, a size equal to the returned size, and the response code.", "quantifier": "every request, every sufficiently large response buffer", "why_tests_cant": "The value and input spaces are unbounded (or astronomically large) and span every TPM structure; a unit test samples a handful of byte strings.", "anchors": ["crates/tpm2-impl/src/tpmctx.rs:fill_error", "crates/tpm2-impl/src/tpmctx.rs:execute_command"]}
{"id": "C52", "title": "Random generator failures are reported", "statement": "If the random generator fails while serving a request, in reseeding or in producing bytes, the server answers with an error response instead of panicking.", "quantifier": "every failure point of generator and entropy source", "why_tests_cant": "All failure points.", "anchors": ["crates/tpm2-impl/src/handler/random.rs:get_random_or_faiure_mode"]}
{"id": "C53", "title": "Filling bytes from a word generator", "statement": "Filling a buffer from a word generator writes the generator's successive little-endian words truncated to the buffer length, uses the 32-bit word only for a tail of at most four bytes, passes the additional input exactly with the first word, and stops at the first failure.", "quantifier": "every buffer length, every generator, every additional input", "why_tests_cant": "All lengths and generator behaviours.", "anchors": ["crates/tpm2-impl/src/platform/crypto/drbg/helpers.rs:fill_bytes_via_next"]}
{"id": "C54", "title": "Word helpers agree with byte order", "statement": "The word helpers return the little-endian value of the generated bytes and combine two 32-bit words with the first word least significant, so that the byte and word helpers are inverse to each other.", "quantifier": "every generator output", "why_tests_cant": "All words.", "anchors": ["crates/tpm2-impl/src/platform/crypto/drbg/helpers.rs:next_u64_via_u32", "crates/tpm2-impl/src/platform/crypto/drbg/helpers.rs:fill_bytes_via_next"]}
{"id": "C55", "title": "Generator instantiation order", "statement": "Creating a context draws the entropy input and then the nonce as two separate requests of the entropy source and instantiates the generator with exactly these; if the instantiation fails, no context is created.", "quantifier": "every entropy-source behaviour", "why_tests_cant": "All failure points.", "anchors": ["crates/tpm2-impl/src/crypto.rs:Crypto::new"]}
{"id": "C56", "title": "Client and server agree: random bytes", "statement": "A client's GetRandom command executed by the server returns to the client exactly the random bytes the server generated.", "quantifier": "every requested count that fits, every generator", "why_tests_cant": "Composition of two crates over all inputs.", "anchors": ["crates/tpm2-client/src/lib.rs:run_command", "crates/tpm2-impl/src/handler/random.rs:get_random", "base/src/commands/random.rs:GetRandomCmd", "base/src/commands/random.rs:GetRandomResp"]}
{"id": "C57", "title": "Client and server agree: errors", "statement": "A client command that the server rejects is reported to the client as an error with the server's response code.", "quantifier": "every client command the server does not support or cannot fit, all parameters and authorizations", "why_tests_cant": "Composition of two crates over all inputs.", "anchors": ["crates/tpm2-client/src/lib.rs:run_command_with_handles", "crates/tpm2-impl/src/tpmctx.rs:fill_error"]}
{"id": "C58", "title": "The simulator connection is transparent to the client", "statement": "Any sequence of client commands and locality changes over the simulator connection, with a simulator whose TPM behaves like some function and whose responses fit into the client's buffer, gives exactly the results of handing the same command bytes to this TPM directly, whatever the chunking of the streams.", "quantifier": "all TPM behaviours, chunkings, sequences of commands with any sessions, localities", "why_tests_cant": "Tests run one simulator, one chunking and short sequences; desynchronization shows up only under particular chunkings and histories.", "anchors": ["crates/tpm2-client/src/connection/tcp.rs:transact", "crates/tpm2-client/src/lib.rs:run_command_with_handles"]}
{"id": "C59", "title": "Warnings are told from errors by the code alone", "statement": "An error code is reported as a warning exactly if it is a format-zero TPM 2.0 code with the severity bit set; in particular no format-one error is a warning, however it is annotated, and among the named codes the warnings are exactly those from 0x900 on.", "quantifier": "every response code and every named code", "why_tests_cant": "All codes and annotations; tests check a few named constants.", "anchors": ["crates/tpm2/src/errors/tpm_rc/mod.rs:is_warning", "base/src/constants.rs:TpmRc"]}
{"id": "C60", "title": "Commands without handles and sessions", "statement": "Running a command without handles and sessions hands over, once, the command with default handles, no authorization area and the tag for no sessions; it returns exactly the response parameters, and passes on errors of the TPM and of the connection unchanged. For GetCapability these are twenty-two bytes holding capability, property and count.", "quantifier": "every command and parameter value, every transport, every response", "why_tests_cant": "All commands and responses; tests send a fixed command with one answer.", "anchors": ["crates/tpm2-client/src/lib.rs:run_command", "crates/tpm2-client/src/lib.rs:get_capability"]}
{"id": "C61", "title": "Results of simulator operations are the peer's words", "statement": "A handshake, a query of an authenticated countdown timer or of the largest command and response that succeeds has sent exactly its request and received exactly its reply and acknowledgement, and returns exactly the words received: network byte order for versions, timers and codes, the byte order of the host for the sizes. A size reply of another length is an error.", "quantifier": "every peer, chunking and host byte order", "why_tests_cant": "All word values and chunkings; the tests use a simulator that answers with fixed values.", "anchors": ["crates/tpm2-client/src/connection/tcp.rs:remote_handshake", "crates/tpm2-client/src/connection/tcp.rs:act_get_signaled", "crates/tpm2-client/src/connection/tcp.rs:get_command_response_sizes"]}
{"id": "C62", "title": "Derived implementations are the declared codec", "statement": "Whenever deriving Marshalable for a struct or enum is accepted and the generated code compiles, the declaration has exactly one reading as a layout (fields in order, fixed arrays element by element, arrays with a length attribute counted by the named earlier field, tuple variants by selector), and the generated try_marshal and try_unmarshal behave exactly as that layout for every value and every buffer; in particular they round-trip.", "quantifier": "every declaration (any number and types of fields, attributes, variants), every environment of named types, every value and buffer", "why_tests_cant": "Quantifies over all inputs of a compiler plugin and all values of the generated types; tests expand a few fixed structs.", "anchors": ["marshalable-derive/src/lib.rs:derive_tpm_marshal", "marshalable-derive/src/lib.rs:get_field_unmarshal", "marshalable-derive/src/lib.rs:get_enum_unmarshal_body"]}
{"id": "C63", "title": "Declarations that make sense can be derived", "statement": "For every declaration that follows the documented rules, deriving Marshalable is accepted, and the generated code compiles whatever the fields are called.", "quantifier": "every documented declaration and choice of field names", "why_tests_cant": "All declarations and names; tests use fixed names.", "anchors": ["marshalable-derive/src/lib.rs:derive_tpm_marshal", "marshalable-derive/src/lib.rs:get_named_field_unmarshal"]}
{"id": "C64", "title": "Declarations against the rules are rejected with a message", "statement": "Deriving Marshalable is accepted exactly for: structs in which every field attribute gives the length of an array by an earlier, unannotated, non-array field; tuple and unit structs; and enums all of whose variants are tuple-like with explicit discriminants. Everything else, unions in particular, is rejected with an error message and without panicking if lengths are given by plain identifiers.", "quantifier": "every macro input", "why_tests_cant": "All syntax trees; compile-fail tests cover a few.", "anchors": ["marshalable-derive/src/lib.rs:derive_tpm_marshal_inner", "marshalable-derive/src/lib.rs:get_marshal_attribute"]}
{"id": "C65", "title": "The sized-buffer flag decides the layout", "statement": "A struct whose marshalable attribute contains the flag tpm2b_simple is either rejected or marshals as a sized buffer; it is accepted exactly if it is a u16 called size followed by one byte array. With only tpm2b_struct nothing is generated.", "quantifier": "every struct and attribute list containing the flag", "why_tests_cant": "All attribute token sequences and structs.", "anchors": ["marshalable-derive/src/lib.rs:has_marshalable_attr", "marshalable-derive/src/lib.rs:derive_tpm2b_simple"]}
{"id": "C66", "title": "Sized structures name their contents", "statement": "Deriving Tpm2bStruct is accepted exactly for a u16 called size followed by one byte array of capacity size_of::<T>(), and the generated conversions are to and from that T. It never panics.", "quantifier": "every macro input", "why_tests_cant": "All syntax trees.", "anchors": ["marshalable-derive/src/lib.rs:derive_tpm2b_struct"]}
{"id": "C67", "title": "Every declared type is derived with its layout", "statement": "Each of the 127 uses of derive(Marshalable) in the base crate and the client is accepted by the macro, the generated code compiles, and its try_marshal and try_unmarshal are those of the layout fixed for that type in the model, constants and buffer capacities computed from the declarations; the three sized structures have the size of their contents as capacity. So what is proved of layouts holds of the types of the crate.", "quantifier": "every derived declaration; every value and buffer of the resulting types", "why_tests_cant": "Quantifies over all values and buffers of all declared types; the tests marshal a few values of a few types.", "anchors": ["base/src/lib.rs:TpmtPublic", "base/src/lib.rs:Tpm2bSimple", "base/src/constants.rs:TpmAlgId", "marshalable-derive/src/lib.rs:derive_tpm_marshal"]}
{"id": "C68", "title": "Unmarshalling errors name the first fault", "statement": "If unmarshalling fails, the error tells what is wrong with the first faulty item of the input, reading from the front: an unknown selector if that item is a selector the type does not declare, an exceeded array length if it announces more than the capacity, and an unexpected end of buffer only if the input ends within it. Every input either begins with an encoding or has exactly one first fault.", "quantifier": "every marshalable type and every byte sequence", "why_tests_cant": "Quantifies over all malformed inputs of all types, including faults behind arbitrarily long well-formed prefixes.", "anchors": ["marshalable/src/lib.rs:try_unmarshal", "marshalable-derive/src/lib.rs:get_field_unmarshal", "marshalable-derive/src/lib.rs:derive_tpm2b_simple", "marshalable/src/errors.rs:Error"]}
{"id": "C69", "title": "Starting a simulator waits for the ports it announces", "statement": "TcpSimulator::new starts the process, then takes the port numbers from the two files the simulator writes, trying four times a second apart until each holds a decimal port number, and connects to exactly these two ports with at most four attempts; it succeeds whenever all of that does. Otherwise the error is that of the first step that failed, and nothing is done after it.", "quantifier": "every behaviour of processes, files and network; every content of the files", "why_tests_cant": "The outcome depends on races between two processes and on arbitrary file contents.", "anchors": ["crates/tpm2-client/src/connection/tcp.rs:TcpSimulator", "crates/tpm2-client/src/connection/tcp.rs:read_port_from_file_with_retries"]}
{"id": "C70", "title": "No simulator process is left behind", "statement": "A simulator process that was started is told to stop or killed: if starting fails after the process was started, and when the simulator is dropped. Dropping sends the stop code to both ports and shuts down both streams; if any of that fails the process is killed.", "quantifier": "every behaviour of processes, files and network, failing anywhere", "why_tests_cant": "Failures at every point of the protocol, including those of the operating system.", "anchors": ["crates/tpm2-client/src/connection/tcp.rs:TcpSimulator", "crates/tpm2-client/src/connection/tcp.rs:drop"]}
{"id": "C71", "title": "The server works with any buffers of the platform", "statement": "With every implementation of the buffer traits that behaves as their documentation says, executing a command has exactly the outcome it has with byte slices: the returned size, the contents of the response buffer, and the state of generator and entropy source. Byte slices behave as documented. Whatever an implementation does, the server does not panic unless the generator fails.", "quantifier": "every implementation of TpmReadBuffer and TpmWriteBuffer, every generator and entropy source, every request and response buffer", "why_tests_cant": "Quantifies over all implementations of a trait; the tests only use slices.", "anchors": ["crates/tpm2-impl/src/platform/buffer.rs:TpmWriteBuffer", "crates/tpm2-impl/src/tpmctx.rs:execute_command", "crates/tpm2-impl/src/req_resp.rs:RequestResponseCursor"]}
{"id": "C72", "title": "Constants have the values of the standard", "statement": "Every constant of the types of algorithms, curves, command codes, arithmetic operands, structure tags, startup and session types, capabilities, properties, handle types, permanent handles and NV types has the value that the TPM 2.0 Library Specification gives to its name, every value listed there is present, and different constants of a type differ. Interface types take their values from the type they restrict, and contain all values the standard lists for them. The same holds for the algorithms of the crate tpm2.", "quantifier": "every constant of these types", "why_tests_cant": "Covers all of about four hundred constants; the tests compare none with the standard.", "anchors": ["base/src/constants.rs:TpmAlgId", "base/src/constants.rs:TpmCc", "base/src/constants.rs:TpmPt", "base/src/lib.rs:TpmiAlgHash", "crates/tpm2/src/constants.rs:Alg"]}
{"id": "C73", "title": "Structures are those of the standard", "statement": "For each structure of Part 2 of the TPM 2.0 Library Specification that the base crate declares, the bytes that unmarshal without a rest are exactly the bytes the standard's table describes, the bytes that marshalling produces are exactly these too, and the fields have the standard's names in the standard's order.", "quantifier": "every declared structure and every byte sequence", "why_tests_cant": "Compares two languages of byte sequences; the tests use no encodings but the crate's own.", "anchors": ["base/src/lib.rs:TpmtPublic", "base/src/lib.rs:TpmsAttest", "base/src/lib.rs:TpmtSignature", "base/src/lib.rs:Tpm2bData", "base/src/lib.rs:TpmsCapabilityData", "crates/tpm2-client/src/lib.rs:CmdHeader"]}
{"id": "C74", "title": "Commands are those of the standard", "statement": "For Startup, GetRandom, PCR_Read and GetCapability: whatever the client hands to the connection is that command of the TPM 2.0 Library Specification, with the right code, size and one authorization for each session; every such command that fits its buffer can be sent; and every successful response of the standard whose authorizations the sessions accept is returned as the value of its parameters.", "quantifier": "every command, parameters, sessions, connection and response", "why_tests_cant": "Quantifies over all parameters, connections and responses.", "anchors": ["base/src/commands/random.rs:GetRandomCmd", "base/src/commands/pcr.rs:PcrReadCmd", "base/src/commands/capability.rs:GetCapabilityCmd", "base/src/commands/startup.rs:StartupCmd", "crates/tpm2-client/src/lib.rs:run_command_with_handles"]}
{"id": "C75", "title": "Response codes have the values of the standard", "statement": "Every response code of the base crate and of the crate tpm2 has the value the TPM 2.0 Library Specification gives to its name; the base crate has every code of the standard; and of the codes of the standard exactly the warnings are reported to be warnings, also if the number of a parameter, handle or session is added.", "quantifier": "every response code of the crates and of the standard", "why_tests_cant": "Covers all of about a hundred codes in two crates; no test compares them with the standard.", "anchors": ["base/src/constants.rs:TpmRc", "crates/tpm2/src/errors/tpm_rc/mod.rs:TpmRcError", "crates/tpm2/src/errors/tpm_rc/mod.rs:is_warning"]}
{"id": "C76", "title": "Attribute words have the bits of the standard", "statement": "For each of the attribute types of objects, algorithms, sessions, localities, commands and NV indices there is exactly one flag for each bit the TPM 2.0 Library Specification names, and no other; testing, inserting and removing it reads, sets and clears that bit alone. The index type is bits 7:4 of TPMA_NV, the command index bits 15:0 and the number of handles bits 27:25 of TPMA_CC, and a locality is extended exactly if bits 7:5 are not zero; writing a field changes no other bit.", "quantifier": "every flag and every word", "why_tests_cant": "Quantifies over all 32-bit words and all flags.", "anchors": ["base/src/lib.rs:TpmaNv", "base/src/lib.rs:TpmaCc", "base/src/lib.rs:TpmaObject", "base/src/lib.rs:TpmaSession", "base/src/lib.rs:TpmaLocality"]}
{"id": "C77", "title": "Only responses of the standard are taken for answers", "statement": "If the client returns a value for Startup, GetRandom, PCR_Read or GetCapability, the received bytes begin with a successful response of the TPM 2.0 Library Specification to that command: right tag, size, parameter size, parameters, and one authorization response for each session, accepted by it; and the value is that of the parameters.", "quantifier": "every command, parameters, sessions and connection", "why_tests_cant": "Quantifies over everything a connection can deliver.", "anchors": ["crates/tpm2-client/src/lib.rs:run_command_with_handles", "crates/tpm2-client/src/lib.rs:read_response_sessions"]}
{"id": "C78", "title": "Sizes of encodings and buffers", "statement": "For each declared type the shortest and the longest encoding have the lengths given in a table: marshalling never reports less or more, both are reached, and the longer one is exactly the size of buffer that suffices for every value. Capability data of the standard fits 1024 bytes. Every command and every response of the TPM 2.0 Library Specification for Startup, GetRandom, PCR_Read and GetCapability with up to three authorizations fits the buffers of the client, so every such command can be sent.", "quantifier": "every declared type, value, command and response", "why_tests_cant": "Quantifies over all values; tests marshal small ones.", "anchors": ["base/src/lib.rs:TpmsCapabilityData", "base/src/constants.rs:TPM2_MAX_CAP_BUFFER", "crates/tpm2-client/src/lib.rs:CMD_BUFFER_SIZE", "marshalable/src/lib.rs:try_marshal"]}
{"id": "C79", "title": "The server answers as the standard says", "statement": "Every command of the TPM 2.0 Library Specification that the server is given is answered with a response of the standard: GetRandom with the requested number of bytes as a sized buffer, or fewer; a command it does not implement with the response code COMMAND_CODE, tag TPM_ST_NO_SESSIONS and size 10; and nothing else is answered with success.", "quantifier": "every command, with or without authorizations, every response buffer, generator and entropy source", "why_tests_cant": "Quantifies over all commands and response buffers; the tests compare one answer with itself.", "anchors": ["crates/tpm2-impl/src/handler/random.rs:get_random", "crates/tpm2-impl/src/tpmctx.rs:execute_command", "crates/tpm2-impl/src/req_resp.rs:Response"]}
{"id": "C80", "title": "Sessions and connections with state of their own", "statement": "Whatever sessions and connection do when called, running a command asks each session once for its authorization, in order, then hands exactly the command with these authorizations to the connection, once, then gives each session its authorization response, in order; an error or panic of any of them ends the run with that result, and the command succeeds exactly if all succeed and the response is well-formed. Apart from panics, the result is that of sessions without state that give the same answers.", "quantifier": "every behaviour of the sessions and the connection, sharing any state", "why_tests_cant": "Quantifies over all implementations of two traits with side effects; the tests use one session.", "anchors": ["crates/tpm2-client/src/lib.rs:run_command_with_handles", "crates/tpm2-client/src/lib.rs:write_command_sessions", "crates/tpm2-client/src/lib.rs:read_response_sessions", "crates/tpm2-client/src/sessions/session.rs:Session", "crates/tpm2-client/src/sessions/nosession.rs:NoSession"]}
{"id": "C81", "title": "Authorization areas of the caller's own", "statement": "With any implementation of the authorization area, including one that changes its mind between calls, a command succeeds exactly if the area answers while the command is built, its sessions authorize, the connection, handed the command framed by these answers, reports a well-formed response, and the sessions the area gives afterwards accept their authorization responses, one for each. The bytes sent are a TPM command exactly if the area is empty just when it gives no session. The areas of the crate with up to three sessions give their sessions in order at every call and are empty exactly without any, so with them this is the run of C80; decomposing them as areas with at least one or two sessions gives the same sessions at the same places.", "quantifier": "every implementation of the authorization area, of the sessions and of the connection", "why_tests_cant": "Quantifies over all implementations of three traits; the tests use the area without sessions and one of one session.", "anchors": ["crates/tpm2-client/src/sessions/authorization_area/mod.rs:AuthorizationArea", "crates/tpm2-client/src/lib.rs:run_command_with_handles", "crates/tpm2-client/src/lib.rs:write_command_sessions", "crates/tpm2-client/src/lib.rs:read_response_sessions"]}
{"id": "C82", "title": "Comparing values is comparing encodings", "statement": "A value made by a program from literals, defaults, unmarshalling, sized buffers made from bytes or structures, and lists made or added to, is well-formed; marshalling and unmarshalling gives back a value that is equal to it; and two such values of a type are equal exactly if they marshal to the same bytes. For a value in general the round trip gives an equal value exactly if the bytes beyond the size of its buffers are zero and the slots beyond the count of its lists are default.", "quantifier": "every type, every value and every way of making it", "why_tests_cant": "Quantifies over all values and all sequences of operations making them; derived equality also compares the unused parts.", "anchors": ["marshalable/src/lib.rs:try_marshal", "marshalable/src/lib.rs:try_unmarshal", "base/src/lib.rs:Tpm2bSimple", "base/src/lib.rs:TpmlDigest", "base/src/lib.rs:TpmsPcrSelection"]}
{"id": "C83", "title": "Programs see the device itself", "statement": "A program that uses a connection to the TCG reference simulator - TPM commands, handshakes, signals, H-CRTM sequences, in any order, each call depending on earlier results - has, if it runs to its end, the results it would have with the simulated device at hand instead of a connection: same results, same final state of the device, and nothing left over on the two streams. If the operating system does not fail, it runs to its end whenever it would with the device. This holds however the streams cut the bytes into pieces and whenever the simulator gets to run.", "quantifier": "every device, every program, every fragmentation and every schedule of the simulator", "why_tests_cant": "Quantifies over interactive programs, devices and schedules; the tests need a simulator and run one command.", "anchors": ["crates/tpm2-client/src/connection/tcp.rs:transact", "crates/tpm2-client/src/connection/tcp.rs:hcrtm_sequence", "crates/tpm2-client/src/connection/tcp.rs:check_response_end", "crates/tpm2-client/src/lib.rs:run_command_with_handles"]}
{"id": "C84", "title": "What marshalling does in every case", "statement": "For every value of a marshalable type, also with size or length fields out of range, and every buffer: integers, byte arrays and contents of sized buffers are written in the order of the encoding up to the first that is not written, and everything after them in the buffer keeps its contents, whether the call succeeds, fails or panics. It succeeds exactly if every size and length field is in range and the encoding fits; it returns the unexpected-end error exactly if an integer or byte array does not fit or a size exceeds both the capacity and the space; it panics exactly if a counted array is indexed beyond its end or a size exceeds just one of the capacity and the space.", "quantifier": "every type, every in-memory value and every buffer", "why_tests_cant": "Quantifies over all types, values and buffer lengths; the tests marshal valid values into large buffers.", "anchors": ["marshalable/src/lib.rs:try_marshal", "marshalable-derive/src/lib.rs:derive_tpm2b_simple", "marshalable-derive/src/lib.rs:get_field_marshal_body"]}
{"id": "C85", "title": "System calls of a connection", "statement": "The bytes a connection is said to send and receive are exactly those that its system calls on the two sockets transfer, in order. During an operation or a TPM command, each system call is the one the exchange asks for next: a write of exactly the bytes not yet accepted, a read of exactly the bytes outstanding in the current item, or the shutdown of the socket. None follows a call that failed or transferred nothing, a request accepted in part that is to be sent at once, a wrong word or a length beyond the response buffer. The number of calls is at most one more than the number of bytes transferred and sockets shut down. Success means that no call failed and the exchange is complete.", "quantifier": "every operation, every command and response buffer, every behaviour of the operating system", "why_tests_cant": "Quantifies over all ways the operating system may split, fail or end transfers.", "anchors": ["crates/tpm2-client/src/connection/tcp.rs:transact", "crates/tpm2-client/src/connection/tcp.rs:check_response_end", "crates/tpm2-client/src/connection/tcp.rs:hcrtm_sequence", "crates/tpm2-client/src/connection/tcp.rs:session_end"]}
{"id": "C86", "title": "Fixed-size values of the zero-copy crate", "statement": "Every fixed-size value - unsigned and signed integers, byte arrays, algorithm identifiers, hash algorithms - has one encoding of exactly the advertised size, most significant byte first, two's complement if signed, and no other value has it. Marshalling writes it and returns the rest of the buffer, or, if the buffer is too short, fails and leaves the buffer as it was. Unmarshalling succeeds exactly on an encoding followed by anything, returns what follows and stores the value; otherwise it fails and leaves the destination as it was. The other crate writes and accepts the same bytes for signed integers.", "quantifier": "every type, every value, every buffer and input", "why_tests_cant": "Quantifies over all values, buffers and inputs; there is no test of these functions.", "anchors": ["crates/tpm2/src/marshal.rs:MarshalArray", "crates/tpm2/src/marshal.rs:UnmarshalArray", "crates/tpm2/src/constants.rs:Alg", "crates/tpm2/src/tpmi.rs:TpmiAlgHash", "marshalable/src/lib.rs:impl_be_prim_marshalable!"]}
{"id": "C87", "title": "Limits of the caller's own", "statement": "With any implementation of the limits, also one that changes its mind or panics, marshalling a tagged digest asks exactly once, about the algorithm of the digest, and unmarshalling asks at most once, about the algorithm of the tag, and only if it is one that a tagged digest can have; the outcome is that under limits which always give this answer, and a panic leaves buffer and destination as they were. The provided maximum asks in the order of decreasing size until the first supported algorithm. A successful call writes exactly the encoding, of the length reported. Limits that give the answers of a set of algorithms are as good as that set.", "quantifier": "every implementation of the limits, every digest, buffer and input", "why_tests_cant": "Quantifies over all implementations of a trait with side effects.", "anchors": ["crates/tpm2/src/marshal.rs:Limits", "crates/tpm2/src/tpmt.rs:TpmtHa"]}
{"id": "C88", "title": "Ending a session and stopping the simulator", "statement": "When the call that ends the session with the TCG reference simulator, or stops it, returns, exactly the code of the protocol has been sent on both ports, no byte is left to be read, and both streams are shut down. The simulator reads the code once on each port, in either order, answers nothing and closes the connection; the device sees nothing else after the state in which the program before left it. Every later call leaves device and streams as they are and fails, except for setting the locality; no TPM command succeeds any more. The calls return if the operating system does not fail.", "quantifier": "every device, every fragmentation, every schedule of the simulator and every later call", "why_tests_cant": "Quantifies over schedules of a process that is not part of the repository; the tests ignore the result of stopping.", "anchors": ["crates/tpm2-client/src/connection/tcp.rs:session_end", "crates/tpm2-client/src/connection/tcp.rs:stop_simulator"]}
{"id": "C89", "title": "Histories of the server", "statement": "Over any sequence of requests, executed in place or with separate buffers, the well-formed GetRandom requests whose answer fits get, in order, exactly what the generator yields if asked for their numbers of bytes in this order, each piece once. All other requests are refused with their response code and leave no trace: without them every other request has the same answer, and the server the same state. What was in anybody's buffers before has no influence on sizes, response codes, random bytes or state.", "quantifier": "every sequence of requests and buffers, every generator and entropy source", "why_tests_cant": "Quantifies over all histories and generators; the tests execute single requests with a counter as generator.", "anchors": ["crates/tpm2-impl/src/tpmctx.rs:execute_command_separate", "crates/tpm2-impl/src/tpmctx.rs:execute_command_in_place", "crates/tpm2-impl/src/handler/random.rs:try_get_random"]}
{"id": "C90", "title": "Failures are reported with the code of their cause", "statement": "If a command returns a response code of the TPM, then the connection delivered a response with this code. Everything else that goes wrong is reported with the code of its cause in the numbering of the client's layers: a declared size beyond the response buffer, a response with parts missing, malformed or left over, an authorization response the session refuses, a command that does not fit. What is reported is the first thing wrong with the response in the order of its bytes.", "quantifier": "every command, every authorization area, every connection and every response", "why_tests_cant": "Quantifies over all responses and combinations of faults; the tests check a few error paths.", "anchors": ["crates/tpm2-client/src/lib.rs:run_command_with_handles", "crates/tpm2-client/src/lib.rs:read_response_sessions", "crates/tpm2-client/src/lib.rs:read_response_header", "crates/tpm2-client/src/sessions/password.rs:validate_auth_response", "marshalable/src/errors.rs:From"]}
{"id": "C91", "title": "A started simulator is the one connected to", "statement": "If starting a simulator succeeds, the process at the other end of both the TPM and the platform connection is the process that was started, and it is this process that is stopped in the end.", "quantifier": "every command line, every machine with processes that listen on ports, every time at which the port files are written", "why_tests_cant": "Depends on what earlier processes left behind and on the time the new one takes to write its port files; the tests start one simulator in a fresh directory.", "anchors": ["crates/tpm2-client/src/connection/tcp.rs:TcpSimulator", "crates/tpm2-client/src/connection/tcp.rs:read_port_from_file_with_retries"]}
{"id": "C92", "title": "Error texts and I/O errors keep the code", "statement": "The text shown for an error of the client is its code in decimal, without leading zeros, and nothing else, so that different errors have different texts and reading the number gives the code. Over the simulator connection, whose errors are I/O errors, a program recovers a code from the I/O error it gets exactly if the client reported this code, and the I/O error is shown as this code; in all other cases it is the error of the connection. The errors of the codec have different texts, none of which is a number.", "quantifier": "every error code, every command, connection and response", "why_tests_cant": "Quantifies over all 32-bit codes and all ways in which a command can fail.", "anchors": ["crates/tpm2/src/errors/mod.rs:TssError", "crates/tpm2/src/errors/std.rs:From", "marshalable/src/errors.rs:Error"]}
{"id": "C93", "title": "Commands of the caller's own", "statement": "With any implementation of marshalling for the handles and parameters of a command and of unmarshalling for its response, including ones that misreport how much they wrote, change any byte they can reach, panic, or share state with each other, the sessions and the connection: the connection is handed a command exactly if one can be composed, and it then declares its own length, at most 4096 bytes, and consists of header, the bytes the handles left where they report to have written, the authorizations and the bytes the parameters left in theirs. The command succeeds exactly if moreover the response of the connection has code zero, is within the buffer, and its bytes, taken apart by the implementations in order, leave exactly the authorization responses, which the sessions accept; the results are those of the implementations. Implementations that write fixed bytes and say so give exactly one command. A count beyond the buffer panics before anything is sent.", "quantifier": "every implementation of the command's types, every authorization area, session and connection", "why_tests_cant": "Quantifies over all implementations of the traits; the tests define a few commands with derived types.", "anchors": ["crates/tpm2-client/src/lib.rs:run_command_with_handles", "base/src/commands.rs:TpmCommand", "marshalable/src/lib.rs:Marshalable"]}
{"id": "C94", "title": "Fixed-size values of the caller's own", "statement": "With any implementation of fixed-size marshalling and unmarshalling, including ones that panic, look at what is in the buffer or keep state: if there are fewer bytes than the array has, the call fails, the implementation is not asked, and buffer, destination and state are as before. Otherwise it is asked exactly once, with exactly the first bytes; what it writes stands there, the rest of the buffer is untouched and returned; the destination changes exactly if it accepts the bytes. The advertised sizes are the number of bytes written exactly if the implementation's constant is the length of its array. An implementation that reads back what it writes gives a round trip with anything following.", "quantifier": "every implementation, value, buffer, input and state", "why_tests_cant": "Quantifies over all implementations of public traits; the tests have none of their own.", "anchors": ["crates/tpm2/src/marshal.rs:MarshalArray", "crates/tpm2/src/marshal.rs:UnmarshalArray"]}
{"id": "C95", "title": "Password sessions keep their password", "statement": "A session made from a password has this password; two sessions are equal exactly if they were made from the same password; the default session is that of the empty password. The text printed of a session for debugging does not depend on the password.", "quantifier": "every two passwords", "why_tests_cant": "Quantifies over all pairs of passwords; the tests look at one session.", "anchors": ["crates/tpm2-client/src/sessions/password.rs:PasswordSession"]}
{"id": "C96", "title": "Programs of the client over the server see the generator", "statement": "A program that uses the server through the client, where each command may depend on everything seen before, has exactly the result it would have with the generator itself at hand: requests for random bytes that fit get the next bytes of the generator, larger ones TPM_RC_MEMORY, other commands TPM_RC_COMMAND_CODE, and only the first kind moves the generator. It comes to an end if the generator does not fail.", "quantifier": "every such program, generator, entropy source and initial state", "why_tests_cant": "Quantifies over all adaptive programs and generators; the crates have no test that combines client and server.", "anchors": ["crates/tpm2-client/src/lib.rs:run_command_with_handles", "crates/tpm2-impl/src/tpmctx.rs:execute_command_separate", "crates/tpm2-impl/src/handler/random.rs:get_random"]}
{"id": "C97", "title": "What the server does with the platform's buffers", "statement": "With any implementation of the buffer traits, documented behaviour or not: the request is read at most at the offsets 0, 2, 6 and 10, and before anything is written. A refused request causes one write, of the code at offset 6, after at most one vain attempt to get at the place behind the header; the size returned is 10, or 0 if this write fails. Random bytes are asked of the generator only inside the callback, for exactly the slice the buffer offers; afterwards tag, size and code are written in this order, and the first of these writes that fails turns the answer into a refusal with TPM_RC_MEMORY.", "quantifier": "every implementation of TpmReadBuffer and TpmWriteBuffer, every generator, entropy source, request and state", "why_tests_cant": "Quantifies over all implementations of two traits, with state of their own and failing at any point; the tests only use slices.", "anchors": ["crates/tpm2-impl/src/tpmctx.rs:execute_command", "crates/tpm2-impl/src/tpmctx.rs:fill_error", "crates/tpm2-impl/src/req_resp.rs:RequestResponseCursor", "crates/tpm2-impl/src/platform/buffer.rs:TpmWriteBuffer"]}
{"id": "C98", "title": "The same on machines of different widths", "statement": "For all types whose arrays take their length from a field of at most 32 bits, which includes all declared ones: reading a value from bytes and writing a value to a buffer, the accessors of lists, running a command through the client, answering a request in the server and the operations of the simulator connection have the same results and effects on any two machines whose usize has at least 32 bits, whether arithmetic overflow is checked or wraps, as long as the buffers fit on both. They are also those computed without any limit on numbers.", "quantifier": "every two machines of at least 32 bits, every such type, value, buffer, command, connection, generator and request", "why_tests_cant": "Tests run on one machine; quantifies over widths, build modes and all inputs.", "anchors": ["marshalable-derive/src/lib.rs:get_field_marshal_body", "base/src/lib.rs:impl_tpml", "crates/tpm2-client/src/lib.rs:run_command_with_handles", "crates/tpm2-impl/src/tpmctx.rs:execute_command", "crates/tpm2-impl/src/platform/buffer.rs:TpmWriteBuffer", "crates/tpm2-client/src/connection/tcp.rs:transact"]}
{"id": "C99", "title": "The errors of rejected declarations", "statement": "What #[derive(Marshalable)] and #[derive(Tpm2bStruct)] report for a declaration they reject is determined by it as follows. Named fields with wrong attributes are reported all together, in order, each with one error: its first marshalable attribute not having the form key = value, else a second one, else a key other than length, else a value that is no path, that has attributes or an explicit self type, or that does not name an earlier field without attribute which is not an array. Only if there are none of these, length attributes on things other than arrays are reported, once each; and only then that the fields are not those of a sized buffer although the declaration asks for one. Variants of an enum that are no tuples are reported once each, and otherwise a missing discriminant once; unions, and for Tpm2bStruct everything but structures, are reported as such, and for Tpm2bStruct a capacity that is not size_of::<T>(). The macro panics exactly if some field of a structure with names gives as length a path that is not an identifier.", "quantifier": "every declaration", "why_tests_cant": "Quantifies over all declarations and all combinations of faults; the tests compile only correct declarations.", "anchors": ["marshalable-derive/src/lib.rs:derive_tpm_marshal", "marshalable-derive/src/lib.rs:derive_tpm_2b_struct", "marshalable-derive/src/lib.rs:get_marshal_attribute", "marshalable-derive/src/lib.rs:get_primitive", "marshalable-derive/src/lib.rs:get_array_default", "marshalable-derive/src/lib.rs:derive_tpm2b_common"]}
{"id": "C100", "title": "The error about a missing length names the field using it", "statement": "If #[derive(Marshalable)] reports that a length field must appear before field x using it in a length attribute, then x is a field with a length attribute, and no field before it can be used as this length.", "quantifier": "every declaration", "why_tests_cant": "Quantifies over all declarations; the tests compile only correct declarations and look at no error.", "anchors": ["marshalable-derive/src/lib.rs:get_primitive", "marshalable-derive/src/lib.rs:get_named_field_marshal"]}
{"id": "C101", "title": "The simulator connection adds nothing to client and server", "statement": "A program that runs commands, each depending on what it saw before, through the client over a connection to a reference simulator in which the server is the TPM has the same result, and leaves the server in the same state, as with the server called directly, however the bytes are cut into pieces and whenever the simulator runs; nothing is left over on the connections. If the operating system does not fail, it runs to its end whenever it does so with the server called directly, and so always if the generator does not fail.", "quantifier": "every program, operating system, generator, entropy source and initial state", "why_tests_cant": "Quantifies over all adaptive programs, all schedules and fragmentations, and all generators; no test combines client, connection and server.", "anchors": ["crates/tpm2-client/src/lib.rs:run_command_with_handles", "crates/tpm2-client/src/connection/tcp.rs:transact", "crates/tpm2-impl/src/tpmctx.rs:execute_command_separate"]}
{"id": "C102", "title": "The declared types are the same on all targets", "statement": "On 64-bit targets and on 32-bit x86, where u64 is aligned to four bytes only, every marshalable type of the base crate and the client is encoded in the same way: the sized buffers and lists, whose capacities are computed from the sizes in memory of other types, accept the same bytes, and all constants are the same.", "quantifier": "every type declared in the base crate and the client, every two of the targets, all bytes", "why_tests_cant": "Tests run on one target; quantifies over all bytes for every type.", "anchors": ["base/src/lib.rs:Tpm2bAttest", "base/src/lib.rs:TpmsAttest", "base/src/lib.rs:TPM2_MAX_CAP_DATA", "base/src/lib.rs:Tpm2bPublic"]}
{"id": "C103", "title": "Signed integers", "statement": "A signed integer of n bytes is read from any n bytes, as their value in two's complement, highest byte first, and consumes exactly these; fewer bytes are rejected and nothing is consumed. Every integer in the range of n bytes is written as the only n bytes that have this value, if there is room; otherwise an error is returned and the buffer is unchanged. What is written is read back as the same integer, and what is read is written again as the same bytes. In a derived structure whose array has a signed integer as its length, a negative length read is rejected as exceeding the array, and a negative length is never successfully written; with any other length the structure is read and written as with an unsigned one.", "quantifier": "every width, all bytes and integers, every element type and capacity", "why_tests_cant": "Quantifies over all bytes, integers and types; the tests have some positive values only.", "anchors": ["marshalable/src/lib.rs:impl_be_prim_marshalable", "marshalable-derive/src/lib.rs:get_named_field_marshal", "marshalable-derive/src/lib.rs:get_named_field_unmarshal"]}
{"id": "C104", "title": "Commands on the wire can be read in one way only", "statement": "Two commands that the client hands to a connection are handed over as the same bytes exactly if they have the same command code, the same handles, the same authorizations in the same order and the same parameters, up to the unused bytes of buffers; for the commands of the base crate this means: exactly if they are the same command with the same arguments. No command handed over is a proper beginning of another one, even with another code, and if all bytes written by one client begin those written by another one, the commands of the one begin those of the other.", "quantifier": "every two commands and lists of commands with all arguments and authorizations, every connection", "why_tests_cant": "Quantifies over all pairs of commands and arguments; the tests compare a few encodings with constants.", "anchors": ["crates/tpm2-client/src/lib.rs:run_command_with_handles", "crates/tpm2-client/src/lib.rs:write_command_sessions", "crates/tpm2-client/src/lib.rs:CmdHeader"]}
{"id": "C105", "title": "Handlers of commands see the request and write the response in order", "statement": "Whatever handlers of commands are added to the server, written with the views of request and response it offers: a request with a wrong size or a code without handler is refused as before and reaches no handler. The handler of the code reads big-endian numbers from the bytes of the request behind the header, one after the other; a number of which bytes are missing is not read, and the handler is told and can go on. What it writes then, directly or by a callback, stands without gaps behind the header of the response; what does not fit is not written, and the handler is told. If it succeeds, tag, size and code zero stand in front, the size is that of the header and of everything written, and the rest of the buffer is untouched. If it fails, its code is in the header and the size is 10; what it wrote stays behind the header. In place the outcome is that with a copy of the request. The server as it is, is the one with the handler of GetRandom alone.", "quantifier": "all handlers, states, requests and response buffers", "why_tests_cant": "Quantifies over all handlers, which do not exist yet; the tests have one handler and a few requests.", "anchors": ["crates/tpm2-impl/src/req_resp.rs:RequestThenResponse", "crates/tpm2-impl/src/req_resp.rs:Response", "crates/tpm2-impl/src/tpmctx.rs:execute_command", "crates/tpm2-impl/src/buffers/inout.rs:InOutBuffer"]}
{"id": "C106", "title": "Responses on the wire can be read in one way only", "statement": "Whatever follows it, a well-formed successful response to a given command can be read in one way only: two responses have the same bytes exactly if they have the same tag, response handles, parameter size (if the tag says sessions), parameters and authorization responses in number and order, up to the unused bytes of buffers, and no response is the beginning of another one; a stream of responses to known commands divides in one way. If the client reports success, what it returns is that reading: each response to the command that the delivered bytes begin with has exactly the returned handles and parameters and authorization responses the sessions accept. Two answers without sessions accepted with the same result are the same bytes up to their declared size, unless their tags differ.", "quantifier": "all commands and types, all well-formed responses shorter than 2^32 bytes, all bytes after them, all sequences of responses, all connections, sessions and states", "why_tests_cant": "it is a statement about all pairs of responses of unbounded size and any bytes following them; tests compare single decoded responses", "anchors": ["crates/tpm2-client/src/lib.rs:run_command_with_handles", "crates/tpm2-client/src/lib.rs:read_response_header", "crates/tpm2-client/src/lib.rs:read_response_sessions", "base/src/commands.rs:TpmCommand"]}
{"id": "C107", "title": "Commands and handlers of the caller's own fit together", "statement": "A command of the client's own is given to the server with any handlers: if there is no handler for its code, the client gets COMMAND_CODE and no handler runs. Otherwise the handler is given exactly the handles, authorization area and parameters of the command, in this order, and the client gets: the code of the handler's error, whatever was written before; or, if the handler ends without error, exactly the response handles and parameters whose encodings it wrote, one after the other, together with authorization responses that the sessions accept; and an error if it wrote anything else. The state of the server is the one the handler left.", "quantifier": "all handlers, all commands and their types, all sessions, all states; all handlers that read, write or fill the response in any order", "why_tests_cant": "handlers and commands are arbitrary programs and types; the crate has one of each that both sides know", "anchors": ["crates/tpm2-impl/src/tpmctx.rs:execute_command", "crates/tpm2-impl/src/req_resp.rs:RequestThenResponse", "crates/tpm2-impl/src/req_resp.rs:Response", "crates/tpm2-client/src/lib.rs:run_command_with_handles"]}
{"id": "C108", "title": "Programs of any commands get over a connection what the handlers give", "statement": "A program runs commands of any types, with sessions, each depending on the results of earlier ones, against a server with any handlers that is the TPM of a simulator reached over TCP. It gets the results, and leaves the server in the state, that it would have if it called the handlers itself with the handles, authorizations and parameters of its commands and took what they write; that is also what it gets when the server is called directly. If the operating system does not fail, it runs to its end.", "quantifier": "all programs, command types, handlers, states of the server, sessions, splittings of the streams by the operating system", "why_tests_cant": "needs arbitrary handlers and command types, and sequences of commands of any length over every behaviour of the sockets", "anchors": ["crates/tpm2-client/src/lib.rs:run_command_with_handles", "crates/tpm2-client/src/connection/tcp.rs:transact", "crates/tpm2-impl/src/tpmctx.rs:execute_command_separate", "crates/tpm2-impl/src/req_resp.rs:RequestThenResponse"]}
{"id": "C109", "title": "Interrupted system calls do not make simulator operations fail", "statement": "If system calls on the two streams are interrupted (any number of times, but not for ever), every operation of a simulator connection does and returns what it would if the calls were not interrupted. Where that is not so: an operation returns the interruption only if it sends its request in one piece; then nothing was sent or received, the connection is as before, and repeating the call while it is interrupted ends with the result of the uninterrupted one; except that a hashing sequence is abandoned after its start. A program that ends without an error did to the device what it is meant to do.", "quantifier": "all operating systems, numbers and places of interruptions, splittings of the streams, operations, programs of operations", "why_tests_cant": "signals that arrive during a system call cannot be placed by tests, and there are many places for them", "anchors": ["crates/tpm2-client/src/connection/tcp.rs:transact", "crates/tpm2-client/src/connection/tcp.rs:hcrtm_sequence", "crates/tpm2-client/src/connection/tcp.rs:remote_handshake", "crates/tpm2-client/src/connection/tcp.rs:platform_signal", "crates/tpm2-client/src/connection/tcp.rs:check_response_end"]}
{"id": "C110", "title": "Any handlers of commands work with any buffers of the platform", "statement": "Whatever handlers of commands the server has and whatever type the platform uses for its buffers: if the buffers behave as their traits document (lengths, reads and writes in bounds act on the bytes, those out of bounds are refused and change nothing, the callback gets the bytes there and they are replaced), then the size, the bytes in the response buffer and the new state are those C105 says for the bytes in the buffers, so that two platforms with the same bytes get the same, over any number of calls with separate or common buffers; in place the outcome is that with a copy of the request. If the buffers do not behave as documented, the server still does not panic unless a handler does. The server as it is, is the one with the handler of GetRandom alone, whatever the buffers do.", "quantifier": "all handlers, states, implementations of the buffer traits, requests, buffers and sequences of calls", "why_tests_cant": "buffers are supplied by the platform and handlers are to be added; the tests know byte slices and one handler", "anchors": ["crates/tpm2-impl/src/req_resp.rs:RequestThenResponse", "crates/tpm2-impl/src/req_resp.rs:Response", "crates/tpm2-impl/src/tpmctx.rs:execute_command", "crates/tpm2-impl/src/platform/buffer.rs:TpmBuffers", "crates/tpm2-impl/src/buffers/inout.rs:InOutBuffer", "crates/tpm2-impl/src/buffers/separate.rs:SeparateBuffers"]}
{"id": "C111", "title": "Programs get what a TPM of the standard answers", "statement": "If the TPM of a simulator gives to each command an answer in the format of the standard (a failure with its code; or response handles, parameters and authorization responses), then a program over a connection to the simulator gets, call by call, exactly this: the code as error; the handles and parameters if the sessions accept the authorizations; the error of the first session that does not. It leaves the TPM in the state these commands lead to, and ends if the operating system does not fail. The integration tests of the client crate are such programs: they succeed with every simulator whose TPM can be started, gives as many random bytes as asked for up to a limit between 32 and 64, and has the expected manufacturer; the one about repeated bytes exactly if less than half of them are repeated.", "quantifier": "all TPMs, commands, sessions, programs, operating systems and splittings of the streams; hashed H-CRTM data below 4 GiB", "why_tests_cant": "the integration tests run with one simulator, or not at all without it, and with one schedule of the sockets", "anchors": ["crates/tpm2-client/src/lib.rs:run_command_with_handles", "crates/tpm2-client/src/connection/tcp.rs:transact", "crates/tpm2-client/tests/simulator.rs:test_startup_tpm", "crates/tpm2-client/tests/commands/random.rs:test_get_random_large_sizes", "crates/tpm2-client/tests/commands/capability.rs:test_get_capability_manufacturer_id"]}
{"id": "C112", "title": "Derived types with parts that the caller implements", "statement": "A structure or enum with derived marshalling may have fields, elements of arrays, data of variants and length fields whose types are implemented by the caller. If these implementations do what they should (write the encoding of a value where there is room and refuse where not, read exactly encodings, do not panic when reading), so does the derived one, with the encodings of the parts one after the other, and unused slots of arrays read as the default of their type; it can be a part of others again. It does not panic for want of room unless a part does. Whatever the caller's implementations do, reading takes the parts in order, each from what the one before left, and ends with the first error or panic of a part, or of a count above the capacity or an unknown discriminant.", "quantifier": "all implementations by the caller, all structures and enums derived over them to any depth, all values, bytes and buffers", "why_tests_cant": "the implementations of the caller are arbitrary code that no test of the crate can enumerate; the macro is tested with the types of the crate only", "anchors": ["marshalable/src/lib.rs:Marshalable", "marshalable-derive/src/lib.rs:get_named_field_unmarshal", "marshalable-derive/src/lib.rs:get_named_field_marshal", "marshalable-derive/src/lib.rs:get_enum_unmarshal_impl"]}
{"id": "C113", "title": "Commands whose types the caller implements as documented", "statement": "A caller may define commands whose handles, parameters and responses are types with marshalling implemented by the caller. If these implementations do what they should (C112), then what is sent is the command in the format of the standard with the encodings of handles, authorizations and parameters, if it has at most 4096 bytes, and nothing otherwise; the command succeeds exactly if the connection reports a successful response with the encodings of the values that are returned and authorizations that the sessions accept; two implementations with the same encodings can be exchanged; and without sessions the command does not panic unless the connection does or reports a response that declares less than its header.", "quantifier": "all command codes, implementations by the caller, values, areas, sessions, connections and states", "why_tests_cant": "the types of commands and their implementations are supplied by the caller and have no bound; the tests know those of the crate", "anchors": ["crates/tpm2-client/src/lib.rs:run_command_with_handles", "marshalable/src/lib.rs:Marshalable", "base/src/commands.rs:TpmCommand"]}
{"id": "C114", "title": "Commands with types of the caller on machines of any width", "statement": "Whatever the types of handles and parameters that the caller implements report to have written, and on machines of any width of at least 32 bits, with or without overflow checks: what the connection is given begins with a header that declares its length and the code of the command, and the result and effects are the same on all such machines.", "quantifier": "all machines, command codes, implementations by the caller, areas, sessions, connections and states", "why_tests_cant": "the implementations are supplied by the caller; the tests run in debug builds on one width, where a sum that exceeds usize panics", "anchors": ["crates/tpm2-client/src/lib.rs:run_command_with_handles", "crates/tpm2-client/src/lib.rs:write_command_sessions", "marshalable/src/lib.rs:Marshalable"]}
{"id": "C115", "title": "Every way a command can end", "statement": "For commands whose types are implemented by the caller, with any authorization areas, sessions and connections: a run without a result ends in exactly one of a fixed list of ways, each with its error code (or a panic) and the state of the program at that point. Before anything is sent: the area or a session panics; handles, an authorization or parameters are not written (with the code of the reason), or report more bytes than they were given (a panic); there is no room for the size of the authorization area (TPM_RC_MEMORY without sessions; with sessions a panic after the first one was asked). Then the connection fails or panics. After that: a nonzero response code; a declared size beyond the buffer (TSS_E_OUTOFMEMORY) or below that of the header (a panic); response handles, parameter size, parameters or authorization responses that cannot be read, a session that refuses its response or panics, or bytes that are left (TSS_E_TPM_UNEXPECTED). Whatever happens before sending does not depend on the connection.", "quantifier": "all command codes, implementations by the caller, areas, sessions that give values of the type, connections and states; machines of at least 32 bits", "why_tests_cant": "the ways to end depend on code of the caller and on the space left by what was written before; a test runs through one of them", "anchors": ["crates/tpm2-client/src/lib.rs:run_command_with_handles", "crates/tpm2-client/src/lib.rs:write_command_sessions", "crates/tpm2-client/src/lib.rs:read_response_sessions", "crates/tpm2-client/src/lib.rs:read_response_header"]}
{"id": "C116", "title": "Derived types with parts of the caller on machines of any width", "statement": "A derived type with parts whose marshalling the caller implements reads and writes the same on every machine with a usize of 32 bits or more: it succeeds in writing exactly if each part can be written behind what those before it reported, and reports the sum; parts that do what they should make up types that do. (With parts that report more than they were given, in builds without overflow checks, this is violated: the count wraps, fields overwrite earlier ones and a small number is reported.)", "quantifier": "all derived types, implementations by the caller, values, buffers and widths of at least 32 bits, with and without overflow checks", "why_tests_cant": "tests run on one width, with overflow checks, and with the types of the crate, which report what they write", "anchors": ["marshalable-derive/src/lib.rs:get_named_field_marshal", "marshalable-derive/src/lib.rs:get_named_field_unmarshal", "marshalable-derive/src/lib.rs:get_enum_marshal_impl"]}
{"id": "C117", "title": "Programs with types, sessions and state of the caller over a connection", "statement": "A program that runs commands whose types, sessions, authorization areas and state are its own, looks at and changes its state and decides by the results how to go on, has over a connection to a simulator the result it has with the device itself, with the same states of the device and of the program afterwards and nothing left over on the connections; it completes if the operating system does not fail. If the device answers with handlers, the result is what the program would get by calling them itself: each is given what the caller's types and sessions compose behind the header, and they are given what it wrote; commands that are not composed, error codes and responses that are not accepted are seen as such.", "quantifier": "all programs (that do not end the session; H-CRTM data below 4 GiB, see C83), commands, types, sessions and areas of the caller, states, devices, handlers and behaviours of the operating system", "why_tests_cant": "a test runs a fixed sequence of commands of the crate with fixed answers; here code of the caller runs between all steps", "anchors": ["crates/tpm2-client/src/lib.rs:run_command_with_handles", "crates/tpm2-client/src/connection/tcp.rs:transact", "crates/tpm2-impl/src/tpmctx.rs:execute_command_separate"]}
{"id": "C118", "title": "Buffers and any handlers of commands on machines of any width", "statement": "Access to a slice as a buffer of the platform refuses exactly what is not in the slice, whatever the offset and size, on machines with a usize of any width; and the server with any handlers of commands answers every request the same on every machine with a usize of 32 bits or more. (Violated in builds with overflow checks: an offset and a size whose sum does not fit into a usize are a panic instead of being refused; the server panics exactly if a handler comes to ask for such a size. The handlers of the crate do not.)", "quantifier": "all handlers that can be written for the machine, states, requests, buffers, offsets and sizes, all widths of at least 32 bits, with and without overflow checks", "why_tests_cant": "tests use small sizes on one width; whether large ones are refused depends on the width and on how the program is built", "anchors": ["crates/tpm2-impl/src/platform/buffer.rs:write_callback", "crates/tpm2-impl/src/platform/buffer.rs:read_into", "crates/tpm2-impl/src/req_resp.rs:write_callback", "crates/tpm2-impl/src/tpmctx.rs:execute_command_separate"]}
{"id": "C119", "title": "The derive macro for declarations with types of the caller", "statement": "Deriving Marshalable for a declaration whose field types may have implementations by the caller is accepted and compiles exactly if the declaration has a reading as a layout, no field but the last is called buffer and no array is, and the element types of arrays are names of types that are Copy and Default. The layout is then unique, a length may be given by a field of any type that can be cast, and the generated code does on every buffer what calling the implementations of the fields in this order does. If those do what they should, what is generated writes their encodings one after the other, refuses if there is no room, reads them back and reads nothing else.", "quantifier": "all declarations, types and implementations of the caller, values and buffers", "why_tests_cant": "tests expand a few declarations whose fields are integers, arrays of bytes and types of the crate; here any code of the caller is called from generated code", "anchors": ["marshalable-derive/src/lib.rs:derive_tpm_marshal", "marshalable-derive/src/lib.rs:get_named_field_marshal", "marshalable-derive/src/lib.rs:get_named_field_unmarshal", "marshalable-derive/src/lib.rs:get_enum_unmarshal_body"]}
{"id": "C120", "title": "Code generated by the derive macro on machines of any width, with types of the caller", "statement": "What deriving Marshalable generates for a declaration whose field types may have implementations by the caller compiles or not independently of the width of usize, is on each machine the layout declared, run with the arithmetic of the machine, and does on every machine with a usize of 32 bits or more, on every buffer that fits there, what it does without limits, if length fields say less than 2^32. With overflow checks it writes exactly if the fields can be written one behind the other and the sum of the reported lengths is a usize; if the implementations of the caller do what they should, what is generated does on each such machine. (Violated in builds without overflow checks: a field that reports 2^64 - 1 bytes makes the next field overwrite the one before it and the sum of three fields be one, where the code should panic.)", "quantifier": "all declarations, types and implementations of the caller, values, buffers and widths of at least 32 bits, with and without overflow checks", "why_tests_cant": "tests run generated code on one width for implementations that report what they wrote; wrong reports wrap around only in some builds", "anchors": ["marshalable-derive/src/lib.rs:derive_tpm_marshal", "marshalable-derive/src/lib.rs:get_named_field_marshal", "marshalable-derive/src/lib.rs:get_named_field_unmarshal", "marshalable-derive/src/lib.rs:get_enum_unmarshal_body"]}
{"id": "C121", "title": "Commands whose types are declared with the derive macro", "statement": "If the types of the handles, parameters, response handles and response of a command are declared with the derive macro, from fields of types of the crate or of types the caller implements as documented, the command that is sent is a header followed by the fields of the handles in the order of their declaration, the authorizations, and the fields of the parameters in that order, with arrays cut to their length fields; it is sent exactly if it has at most 4096 bytes and the sessions answer. It succeeds exactly if the response has, behind its header, the fields of the declared responses in order and authorizations the sessions accept, and returns these fields. Without sessions, sized buffers or implementations that panic for want of room it panics only if the connection does or a response declares less than its header.", "quantifier": "all declarations that compile, values, implementations of the caller that do what they should, sessions, connections and states", "why_tests_cant": "tests run commands of the crate, whose declarations are fixed; here the text of the declaration determines the bytes on the wire", "anchors": ["marshalable-derive/src/lib.rs:derive_tpm_marshal", "crates/tpm2-client/src/lib.rs:run_command_with_handles", "base/src/commands.rs:TpmCommand"]}
