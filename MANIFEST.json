{
 "claims": [
  {
   "property": "C01",
   "status": "proved",
   "theorems": [
    "Verif.C01_round_trip",
    "Verif.C01_canon_faithful"
   ],
   "note": "All derivable types by induction over the type universe."
  },
  {
   "property": "C02",
   "status": "proved",
   "theorems": [
    "Verif.C02_exact_consumption"
   ],
   "note": ""
  },
  {
   "property": "C03",
   "status": "proved",
   "theorems": [
    "Verif.C03_unmarshal_total"
   ],
   "note": ""
  },
  {
   "property": "C04",
   "status": "proved",
   "theorems": [
    "Verif.C04_accepted_bytes_canonical"
   ],
   "note": ""
  },
  {
   "property": "C05",
   "status": "proved",
   "theorems": [
    "Verif.C05_truncation_rejected"
   ],
   "note": ""
  },
  {
   "property": "C06",
   "status": "proved",
   "theorems": [
    "Verif.C06_marshal_writes_only_reported"
   ],
   "note": ""
  },
  {
   "property": "C07",
   "status": "partial",
   "theorems": [
    "Verif.C07_short_buffer_partial",
    "Verif.C07_exact_partial",
    "Verif.C07_violated"
   ],
   "note": "The code violates the property: sized buffers panic in short buffers (C07_violated). Proved: never success, and exactly when it panics and when it returns the error (C07_exact_partial)."
  },
  {
   "property": "C08",
   "status": "proved",
   "theorems": [
    "Verif.C08_unambiguous"
   ],
   "note": ""
  },
  {
   "property": "C09",
   "status": "proved",
   "theorems": [
    "Verif.C09_enum_selector",
    "Verif.C09_split_selector"
   ],
   "note": ""
  },
  {
   "property": "C10",
   "status": "proved",
   "theorems": [
    "Verif.C10_count_exceeds",
    "Verif.C10_count_exceeds_at",
    "Verif.C10_count_within"
   ],
   "note": ""
  },
  {
   "property": "C11",
   "status": "proved",
   "theorems": [
    "Verif.C11_from_bytes",
    "Verif.C11_from_wire",
    "Verif.C11_from_wire_no_size"
   ],
   "note": ""
  },
  {
   "property": "C12",
   "status": "partial",
   "theorems": [
    "Verif.C12_bad_length_never_ok_partial",
    "Verif.C12_exact_partial",
    "Verif.C12_violated",
    "Verif.C12_violated_general"
   ],
   "note": "The code violates the property: an out-of-range length field makes marshalling index out of bounds and panic (C12_violated). Proved: it never succeeds, and exactly when it panics and when it returns the error (C12_exact_partial)."
  },
  {
   "property": "C13",
   "status": "proved",
   "theorems": [
    "Verif.C13_marshal_big_endian",
    "Verif.C13_unmarshal_big_endian"
   ],
   "note": ""
  },
  {
   "property": "C14",
   "status": "proved",
   "theorems": [
    "Verif.C14_wrap_unwrap",
    "Verif.C14_wrap_general"
   ],
   "note": ""
  },
  {
   "property": "C15",
   "status": "partial",
   "theorems": [
    "Verif.C15_unwrap_prefix_partial",
    "Verif.C15_exact_partial",
    "Verif.C15_violated"
   ],
   "note": "The code violates the property: surplus bytes are ignored (C15_violated, for every structure). Proved: the result is the structure whose encoding starts the declared bytes, and exactly when it succeeds, fails and panics."
  },
  {
   "property": "C16",
   "status": "proved",
   "theorems": [
    "Verif.C16_encoding_le_size",
    "Verif.C16_size_suffices"
   ],
   "note": "For every alignment of the primitive types."
  },
  {
   "property": "C17",
   "status": "proved",
   "theorems": [
    "Verif.Base.C17_new",
    "Verif.Base.C17_default",
    "Verif.Base.C17_add",
    "Verif.Base.C17_history",
    "Verif.Base.C17_history_closed",
    "Verif.Base.C17_accessor_total"
   ],
   "note": "Refinement to a bounded sequence over all histories."
  },
  {
   "property": "C18",
   "status": "proved",
   "theorems": [
    "Verif.Base.C18_decoded_list",
    "Verif.Base.C18_list_transfer"
   ],
   "note": ""
  },
  {
   "property": "C19",
   "status": "proved",
   "theorems": [
    "Verif.Base.C19_set_field_bits",
    "Verif.Base.C19_get_field_bits",
    "Verif.Base.C19_get_after_set",
    "Verif.Base.C19_other_bits",
    "Verif.Base.C19_command_attributes",
    "Verif.Base.C19_flags",
    "Verif.Base.C19_flag_tables",
    "Verif.Base.C19_tcg_masks",
    "Verif.Base.C19_locality_extended"
   ],
   "note": ""
  },
  {
   "property": "C20",
   "status": "proved",
   "theorems": [
    "Verif.Base.C20_nv_type"
   ],
   "note": ""
  },
  {
   "property": "C21",
   "status": "proved",
   "theorems": [
    "Verif.Base.C21_classification",
    "Verif.Base.C21_disjoint"
   ],
   "note": ""
  },
  {
   "property": "C22",
   "status": "partial",
   "theorems": [
    "Verif.Base.C22_wire_value_partial",
    "Verif.Base.C22_violated"
   ],
   "note": "The code violates the property: unmarshalling does not check ranges (C22_violated). Proved: unmarshalling delivers exactly the wire value."
  },
  {
   "property": "C23",
   "status": "partial",
   "theorems": [
    "Verif.Errors.C23_position_codec_partial",
    "Verif.Errors.C23_unannotated",
    "Verif.Errors.C23_not_format_one",
    "Verif.Errors.C23_violated",
    "Verif.Errors.C23_reads_partial"
   ],
   "note": "The code violates the property (C23_violated): handle references are reported as session references and session positions 1-7 as 9-15. Proved for parameter references, with the exact wrong answer for the other kinds."
  },
  {
   "property": "C24",
   "status": "partial",
   "theorems": [
    "Verif.Errors.C24_annotation_identity_partial",
    "Verif.Errors.C24_exact_partial",
    "Verif.Errors.C24_violated"
   ],
   "note": "The code violates distinctness for positions above 7 (C24_violated). Proved for all positions that fit the field; code recoverability, format and non-zero for all; exactly which annotations collide."
  },
  {
   "property": "C25",
   "status": "proved",
   "theorems": [
    "Verif.Errors.C25_nonzero",
    "Verif.Errors.C25_named_codes",
    "Verif.Errors.C25_layers",
    "Verif.Errors.C25_layer_names",
    "Verif.Errors.C25_marshal_errors",
    "Verif.Errors.C25_tss_values",
    "Verif.Errors.C25_marshal_codes",
    "Verif.Errors.C25_new"
   ],
   "note": ""
  },
  {
   "property": "C26",
   "status": "partial",
   "theorems": [
    "Verif.Errors.C26_tables_agree_partial",
    "Verif.Errors.C26_violated"
   ],
   "note": "The tables disagree on some names (C26_violated); proved for all others."
  },
  {
   "property": "C27",
   "status": "proved",
   "theorems": [
    "Verif.Tpm2.C27_round_trip",
    "Verif.Tpm2.C27_short_buffer",
    "Verif.Tpm2.C27_integers",
    "Verif.Tpm2.C27_max_exact",
    "Verif.Tpm2.C27_integers_short"
   ],
   "note": "Every limits configuration; the provided method max_digest_size is not overridden."
  },
  {
   "property": "C28",
   "status": "proved",
   "theorems": [
    "Verif.Tpm2.C28_marshal_unsupported",
    "Verif.Tpm2.C28_unmarshal_limits",
    "Verif.Tpm2.C28_unmarshal_unsupported"
   ],
   "note": ""
  },
  {
   "property": "C29",
   "status": "proved",
   "theorems": [
    "Verif.Tpm2.C29_base_to_tpm2",
    "Verif.Tpm2.C29_tpm2_to_base",
    "Verif.Tpm2.C29_sm3_only_in_base"
   ],
   "note": "SM3 digests exist only in the structure crate."
  },
  {
   "property": "C30",
   "status": "proved",
   "theorems": [
    "Verif.Tpm2.C30_conversions"
   ],
   "note": ""
  },
  {
   "property": "C31",
   "status": "proved",
   "theorems": [
    "Verif.Client.C31_framing",
    "Verif.Client.C31_sent",
    "Verif.Client.C31_recording"
   ],
   "note": "Every transport, any values of the right types."
  },
  {
   "property": "C32",
   "status": "proved",
   "theorems": [
    "Verif.Client.C32_error_code",
    "Verif.Client.C32_success_code"
   ],
   "note": ""
  },
  {
   "property": "C33",
   "status": "proved",
   "theorems": [
    "Verif.Client.C33_accounted"
   ],
   "note": ""
  },
  {
   "property": "C34",
   "status": "proved",
   "theorems": [
    "Verif.Client.C34_delivered"
   ],
   "note": "Values are delivered in canonical form (untransmitted bytes and slots are zero)."
  },
  {
   "property": "C35",
   "status": "proved",
   "theorems": [
    "Verif.Client.C35_validated"
   ],
   "note": "Sessions are pure functions in the model."
  },
  {
   "property": "C36",
   "status": "proved",
   "theorems": [
    "Verif.Client.C36_new_ok",
    "Verif.Client.C36_new_err",
    "Verif.Client.C36_validate"
   ],
   "note": ""
  },
  {
   "property": "C37",
   "status": "partial",
   "theorems": [
    "Verif.Client.C37_panics_iff_partial",
    "Verif.Client.C37_transport_error",
    "Verif.Client.C37_violated"
   ],
   "note": "The code violates the property: a zero code with declared size below ten panics (C37_violated). Proved: exactly these responses panic."
  },
  {
   "property": "C38",
   "status": "partial",
   "theorems": [
    "Verif.Client.C38_reported_bytes_partial",
    "Verif.Client.C38_declared_bytes_partial",
    "Verif.Client.C38_violated",
    "Verif.Client.C38_violated_ignores_report"
   ],
   "note": "The code violates the property: it ignores the number of bytes reported (two witnesses). Proved for responses reported completely, and which bytes are interpreted instead."
  },
  {
   "property": "C39",
   "status": "partial",
   "theorems": [
    "Verif.Client.C39_not_sent_partial",
    "Verif.Client.C39_exact_partial",
    "Verif.Client.C39_parts",
    "Verif.Client.C39_memory_error",
    "Verif.Client.C39_base_commands_fit",
    "Verif.Client.C39_violated"
   ],
   "note": "The code violates the property: it may panic instead of returning an error (C39_violated). Proved: never sent, never successful; exactly when it panics and when it returns the memory error, for all arguments of their types (C39_exact_partial); all base commands fit."
  },
  {
   "property": "C40",
   "status": "proved",
   "theorems": [
    "Verif.Tcp.C40_framing",
    "Verif.Tcp.C40_answered"
   ],
   "note": "Success for any peer and chunking implies the exact frames; a simulator is always answered."
  },
  {
   "property": "C41",
   "status": "proved",
   "theorems": [
    "Verif.Tcp.C41_history",
    "Verif.Tcp.C41_synchronized"
   ],
   "note": "Safety for any peer and interleaved platform operations; delivery for any simulator."
  },
  {
   "property": "C42",
   "status": "partial",
   "theorems": [
    "Verif.Tcp.C42_tpm_response_partial",
    "Verif.Tcp.C42_exact_partial",
    "Verif.Tcp.C42_violated",
    "Verif.Tcp.C42_violated_general"
   ],
   "note": "The code violates the property: the unread oversized reply is parsed as the next reply (C42_violated, C42_violated_general). Proved for responses starting with a TPM tag and buffers below 2^31 bytes: the next transaction fails; and exactly what every transaction of any history returns (C42_exact_partial)."
  },
  {
   "property": "C43",
   "status": "proved",
   "theorems": [
    "Verif.Tcp.C43_partial_write",
    "Verif.Tcp.C43_write_error",
    "Verif.Tcp.C43_bad_ack",
    "Verif.Tcp.C43_early_end"
   ],
   "note": ""
  },
  {
   "property": "C44",
   "status": "proved",
   "theorems": [
    "Verif.Tcp.C44_operations",
    "Verif.Tcp.C44_platform_only",
    "Verif.Tcp.C44_transact_only",
    "Verif.Tcp.C44_reinit"
   ],
   "note": "Every operation of both ports, any peer."
  },
  {
   "property": "C45",
   "status": "proved",
   "theorems": [
    "Verif.Tcp.C45_first_success",
    "Verif.Tcp.C45_all_fail",
    "Verif.Tcp.C45_connect"
   ],
   "note": ""
  },
  {
   "property": "C46",
   "status": "proved",
   "theorems": [
    "Verif.Server.C46_bounds",
    "Verif.Server.C46_error_bytes"
   ],
   "note": "All requests, buffers, states and generators. The only panic is that of C52."
  },
  {
   "property": "C47",
   "status": "proved",
   "theorems": [
    "Verif.Server.C47_bad_size",
    "Verif.Server.C47_bad_code",
    "Verif.Server.C47_no_count"
   ],
   "note": ""
  },
  {
   "property": "C48",
   "status": "proved",
   "theorems": [
    "Verif.Server.C48_success",
    "Verif.Server.C48_reliable",
    "Verif.Server.C48_memory"
   ],
   "note": ""
  },
  {
   "property": "C49",
   "status": "proved",
   "theorems": [
    "Verif.Server.C49_in_place",
    "Verif.Server.C49_contents"
   ],
   "note": ""
  },
  {
   "property": "C50",
   "status": "proved",
   "theorems": [
    "Verif.Server.C50_reseeding",
    "Verif.Server.C50_from_new",
    "Verif.Server.C50_watching",
    "Verif.Server.C50_need_irrelevant",
    "Verif.Server.C50_record"
   ],
   "note": "Stated over a generator that writes down its uses; C50_watching: writing down changes nothing."
  },
  {
   "property": "C51",
   "status": "partial",
   "theorems": [
    "Verif.Server.C51_success_partial",
    "Verif.Server.C51_exact_partial",
    "Verif.Server.C51_violated"
   ],
   "note": "The code violates the property: error responses lack tag and size (C51_violated). Proved: success responses are well-formed; error responses carry the right code at the right place; exactly when an answer is a TPM response (C51_exact_partial)."
  },
  {
   "property": "C52",
   "status": "partial",
   "theorems": [
    "Verif.Server.C52_panics_iff_partial",
    "Verif.Server.C52_violated"
   ],
   "note": "The code violates the property: it panics (C52_violated). Proved: exactly when it panics."
  },
  {
   "property": "C53",
   "status": "proved",
   "theorems": [
    "Verif.Server.C53_fill",
    "Verif.Server.C53_success"
   ],
   "note": ""
  },
  {
   "property": "C54",
   "status": "proved",
   "theorems": [
    "Verif.Server.C54_words",
    "Verif.Server.C54_combine",
    "Verif.Server.C54_combine_fails",
    "Verif.Server.C54_inverse"
   ],
   "note": ""
  },
  {
   "property": "C55",
   "status": "proved",
   "theorems": [
    "Verif.Server.C55_creation",
    "Verif.Server.C55_uses",
    "Verif.Server.C55_stream"
   ],
   "note": ""
  },
  {
   "property": "C56",
   "status": "partial",
   "theorems": [
    "Verif.EndToEnd.C56_interpreted_partial",
    "Verif.EndToEnd.C56_violated",
    "Verif.EndToEnd.C56_violated_short",
    "Verif.EndToEnd.C56_exact_partial",
    "Verif.EndToEnd.C56_violated_sizes"
   ],
   "note": "The code violates the property: the server does not send the size of the random bytes, so the client takes the first two of them for it (C56_violated holds for every generator and count). Proved: what the client returns instead."
  },
  {
   "property": "C57",
   "status": "proved",
   "theorems": [
    "Verif.EndToEnd.C57_unsupported",
    "Verif.EndToEnd.C57_no_count",
    "Verif.EndToEnd.C57_too_many",
    "Verif.EndToEnd.C57_memory",
    "Verif.EndToEnd.C57_every"
   ],
   "note": "All rejections of well-formed client commands."
  },
  {
   "property": "C58",
   "status": "proved",
   "theorems": [
    "Verif.EndToEnd.C58_transparent",
    "Verif.EndToEnd.C58_server_errors"
   ],
   "note": ""
  },
  {
   "property": "C59",
   "status": "proved",
   "theorems": [
    "Verif.Errors.C59_bits",
    "Verif.Errors.C59_named",
    "Verif.Errors.C59_annotated"
   ],
   "note": ""
  },
  {
   "property": "C60",
   "status": "proved",
   "theorems": [
    "Verif.Client.C60_sent",
    "Verif.Client.C60_delivered",
    "Verif.Client.C60_accounted",
    "Verif.Client.C60_errors",
    "Verif.Client.C60_get_capability",
    "Verif.Client.C60_capability_answer"
   ],
   "note": ""
  },
  {
   "property": "C61",
   "status": "proved",
   "theorems": [
    "Verif.Tcp.C61_handshake",
    "Verif.Tcp.C61_act",
    "Verif.Tcp.C61_sizes",
    "Verif.Tcp.C61_sizes_length"
   ],
   "note": ""
  },
  {
   "property": "C62",
   "status": "proved",
   "theorems": [
    "Verif.Derive.C62_generated",
    "Verif.Derive.C62_unambiguous",
    "Verif.Derive.C62_round_trip"
   ],
   "note": "All macro inputs; generated code is given meaning by elaboration in an arbitrary environment of named types."
  },
  {
   "property": "C63",
   "status": "partial",
   "theorems": [
    "Verif.Derive.C63_implemented_partial",
    "Verif.Derive.C63_necessary",
    "Verif.Derive.C63_violated"
   ],
   "note": "The code violates the property: a field called buffer that is not the last makes the generated code fail to compile (C63_violated). Proved: everything else compiles and the condition is necessary."
  },
  {
   "property": "C64",
   "status": "proved",
   "theorems": [
    "Verif.Derive.C64_named",
    "Verif.Derive.C64_unnamed",
    "Verif.Derive.C64_enum",
    "Verif.Derive.C64_union",
    "Verif.Derive.C64_no_panic"
   ],
   "note": ""
  },
  {
   "property": "C65",
   "status": "partial",
   "theorems": [
    "Verif.Derive.C65_sized_partial",
    "Verif.Derive.C65_no_impl",
    "Verif.Derive.C65_violated",
    "Verif.Derive.C65_ignored_partial"
   ],
   "note": "The code violates the property: followed by a comma the flag is silently ignored (C65_violated). Proved when the flag comes last in its attribute; in all other cases the attributes are ignored (C65_ignored_partial)."
  },
  {
   "property": "C66",
   "status": "proved",
   "theorems": [
    "Verif.Derive.C66_struct_accepts",
    "Verif.Derive.C66_no_panic"
   ],
   "note": "Acceptance and the type referred to; the generated conversions themselves are C14 and C15."
  },
  {
   "property": "C67",
   "status": "proved",
   "theorems": [
    "Verif.Derive.C67_table",
    "Verif.Derive.C67_derived",
    "Verif.Derive.C67_structs",
    "Verif.Derive.C67_array"
   ],
   "note": "Declarations transcribed from the source; C67_table is evaluated by the kernel, C67_derived uses the general theorem on the macro."
  },
  {
   "property": "C68",
   "status": "partial",
   "theorems": [
    "Verif.C68_errors_partial",
    "Verif.C68_exactly_one",
    "Verif.C68_violated"
   ],
   "note": "The code violates the property: a sized buffer announcing more than its capacity is reported as an unexpected end of the buffer though all bytes are there (C68_violated). Proved: the other two errors are reported exactly for their faults, and a fault is reported as an end of buffer only if it is one of the two."
  },
  {
   "property": "C69",
   "status": "partial",
   "theorems": [
    "Verif.Tcp.C69_started_partial",
    "Verif.Tcp.C69_error",
    "Verif.Tcp.C69_violated"
   ],
   "note": "The code violates the property: a port file that exists but is still empty ends the attempts at once (C69_violated). Proved: success and every error characterized exactly, with the first readable contents in place of the first port number."
  },
  {
   "property": "C70",
   "status": "partial",
   "theorems": [
    "Verif.Tcp.C70_drop_partial",
    "Verif.Tcp.C70_lifecycle_partial",
    "Verif.Tcp.C70_stop",
    "Verif.Tcp.C70_violated"
   ],
   "note": "The code violates the property: if new fails after the process was started, the process is left running, on every system (C70_violated). Proved for drop of every simulator that was started, and for an explicit stop."
  },
  {
   "property": "C71",
   "status": "proved",
   "theorems": [
    "Verif.Server.Gen.C71_separate",
    "Verif.Server.Gen.C71_in_place",
    "Verif.Server.Gen.C71_slices",
    "Verif.Server.Gen.C71_no_panic"
   ],
   "note": "Refinement to the model with byte slices, so C46-C52 carry over."
  },
  {
   "property": "C72",
   "status": "proved",
   "theorems": [
    "Verif.Tcg.C72_values",
    "Verif.Tcg.C72_complete",
    "Verif.Tcg.C72_distinct",
    "Verif.Tcg.C72_interfaces",
    "Verif.Tcg.C72_interfaces_complete",
    "Verif.Tcg.C72_tpm2"
   ],
   "note": "The tables of the standard are written down in Tcg/Constants; reserved and vendor-specific values are left out.  The schemes for RSA and for elliptic curves list further values (wider)."
  },
  {
   "property": "C73",
   "status": "partial",
   "theorems": [
    "Verif.Tcg.C73_standard_partial",
    "Verif.Tcg.C73_crate",
    "Verif.Tcg.C73_marshal",
    "Verif.Tcg.C73_wrapped",
    "Verif.Tcg.C73_names",
    "Verif.Tcg.C73_generated",
    "Verif.Tcg.C73_generated_partial",
    "Verif.Tcg.C73_violated",
    "Verif.Tcg.C73_violated_null"
   ],
   "note": "The code violates the property: fourteen structures differ from the standard, each shown with bytes on which they differ (C73_violated), in six ways, which C73_crate describes exactly. Proved for the other 129. Ranges of interface types are not part of the tables."
  },
  {
   "property": "C74",
   "status": "partial",
   "theorems": [
    "Verif.Tcg.C74_sent",
    "Verif.Tcg.C74_every",
    "Verif.Tcg.C74_answer_partial",
    "Verif.Tcg.C74_answer_crate",
    "Verif.Tcg.C74_violated",
    "Verif.Tcg.C74_codes"
   ],
   "note": "The code violates the property: the client can ask for the countdown timers but does not read the answer (C74_violated). Proved for the other commands, and for GetCapability with the capability data of the crate."
  },
  {
   "property": "C75",
   "status": "partial",
   "theorems": [
    "Verif.Tcg.C75_values_partial",
    "Verif.Tcg.C75_complete_partial",
    "Verif.Tcg.C75_warnings",
    "Verif.Tcg.C75_annotated",
    "Verif.Tcg.C75_violated",
    "Verif.Tcg.C75_names"
   ],
   "note": "The code violates the property: in the crate tpm2 the code Sequence is 0x102 instead of 0x103, and the base crate has no BAD_TAG (C75_violated). Proved for all other codes."
  },
  {
   "property": "C76",
   "status": "proved",
   "theorems": [
    "Verif.Tcg.C76_flags",
    "Verif.Tcg.C76_fields",
    "Verif.Tcg.C76_set"
   ],
   "note": "The tables of bits are written down from the standard in Tcg/Codes."
  },
  {
   "property": "C77",
   "status": "partial",
   "theorems": [
    "Verif.Tcg.C77_returned_partial",
    "Verif.Tcg.C77_exact",
    "Verif.Tcg.C77_violated"
   ],
   "note": "The code violates the property: tag and parameter size are not checked (C77_violated, four responses). Proved: everything else; C77_exact says exactly which responses are taken."
  },
  {
   "property": "C78",
   "status": "proved",
   "theorems": [
    "Verif.Tcg.C78_sizes",
    "Verif.Tcg.C78_capability",
    "Verif.Tcg.C78_commands",
    "Verif.Tcg.C78_responses",
    "Verif.Tcg.C78_every"
   ],
   "note": "The table of sizes is evaluated by the kernel; the bounds are proved by induction over types."
  },
  {
   "property": "C79",
   "status": "partial",
   "theorems": [
    "Verif.Tcg.C79_answered",
    "Verif.Tcg.C79_response_partial",
    "Verif.Tcg.C79_violated",
    "Verif.Tcg.C79_violated_sessions",
    "Verif.Tcg.C79_unsupported_partial",
    "Verif.Tcg.C79_in_place"
   ],
   "note": "The code violates the property: random bytes are sent without their size, authorizations are taken for the number of bytes, and errors leave tag and size of the response unwritten. Proved: exactly which requests are answered with success, and exactly when the answers happen to be responses of the standard."
  },
  {
   "property": "C80",
   "status": "proved",
   "theorems": [
    "Verif.Client.C80_success_iff",
    "Verif.Client.C80_order",
    "Verif.Client.C80_watched",
    "Verif.Client.C80_constant",
    "Verif.Client.C80_frozen",
    "Verif.Client.C80_no_session"
   ],
   "note": "Sessions and connection are arbitrary functions on a common state that may panic. The authorization area gives the same sessions at each call."
  },
  {
   "property": "C81",
   "status": "proved",
   "theorems": [
    "Verif.Client.C81_success_iff",
    "Verif.Client.C81_sent_iff",
    "Verif.Client.C81_framed_iff",
    "Verif.Client.C81_steady",
    "Verif.Client.C81_provided",
    "Verif.Client.C81_crate",
    "Verif.Client.C81_plus",
    "Verif.Client.C81_provided_asks",
    "Verif.Client.C81_panics"
   ],
   "note": "The area is an arbitrary pair of functions on a common state that may panic."
  },
  {
   "property": "C82",
   "status": "proved",
   "theorems": [
    "Verif.Base.C82_made",
    "Verif.Base.C82_round_trip_iff",
    "Verif.Base.C82_round_trip",
    "Verif.Base.C82_equal_iff",
    "Verif.Base.C82_default",
    "Verif.Base.C82_literal"
   ],
   "note": "Ways of making values are an inductive definition (Made). A literal of a structure with a counted array must have default values in its unused slots; C82_literal shows that this is needed."
  },
  {
   "property": "C83",
   "status": "partial",
   "theorems": [
    "Verif.EndToEnd.C83_observes_device_partial",
    "Verif.EndToEnd.C83_completes_partial",
    "Verif.EndToEnd.C83_violated"
   ],
   "note": "The code violates the property for H-CRTM data of 4 GiB or more, whose length field is truncated (C83_violated); needs an operating system that accepts so much in one write. Proved for programs without such data. The simulator is a specification written from the reference implementation, which is not in the repository; ending the session and stopping the simulator are C88."
  },
  {
   "property": "C84",
   "status": "proved",
   "theorems": [
    "Verif.C84_marshal",
    "Verif.C84_parts",
    "Verif.C84_panics",
    "Verif.C84_errors",
    "Verif.C84_succeeds"
   ],
   "note": "For every value of every derivable type, well-formed or not, and every buffer."
  },
  {
   "property": "C85",
   "status": "proved",
   "theorems": [
    "Verif.Tcp.C85_operations",
    "Verif.Tcp.C85_commands",
    "Verif.Tcp.C85_bounded",
    "Verif.Tcp.C85_stops",
    "Verif.Tcp.C85_command_stops"
   ],
   "note": "The operating system is wrapped in one that writes down every call and its result; write_all and read_exact of the standard library are modelled."
  },
  {
   "property": "C86",
   "status": "proved",
   "theorems": [
    "Verif.Tpm2.C86_unambiguous",
    "Verif.Tpm2.C86_marshal",
    "Verif.Tpm2.C86_unmarshal",
    "Verif.Tpm2.C86_signed_agree"
   ],
   "note": "Byte arrays can only be marshalled; integers of any number of bytes."
  },
  {
   "property": "C87",
   "status": "proved",
   "theorems": [
    "Verif.Tpm2.C87_marshal",
    "Verif.Tpm2.C87_unmarshal",
    "Verif.Tpm2.C87_max",
    "Verif.Tpm2.C87_exact",
    "Verif.Tpm2.C87_steady",
    "Verif.Tpm2.C87_max_asks",
    "Verif.Tpm2.C87_order"
   ],
   "note": "Implementations that change their answers may report a maximum below the size of a digest they let pass; this is shown by an example and is not part of the property."
  },
  {
   "property": "C88",
   "status": "proved",
   "theorems": [
    "Verif.EndToEnd.C88_ends",
    "Verif.EndToEnd.C88_settles",
    "Verif.EndToEnd.C88_nothing_after",
    "Verif.EndToEnd.C88_succeeds"
   ],
   "note": "Against the specification of the reference simulator of C83; that a stopped simulator may be gone before the second port is told is not modelled."
  },
  {
   "property": "C89",
   "status": "proved",
   "theorems": [
    "Verif.Server.C89_stream",
    "Verif.Server.C89_yields",
    "Verif.Server.C89_no_trace",
    "Verif.Server.C89_contents"
   ],
   "note": "Generators whose output depends on the former contents of the destination are excluded in C89_stream and C89_contents."
  },
  {
   "property": "C90",
   "status": "partial",
   "theorems": [
    "Verif.Client.C90_exact_partial",
    "Verif.Client.C90_sources_partial",
    "Verif.Client.C90_password",
    "Verif.Client.C90_violated"
   ],
   "note": "The code violates the property: malformed responses and commands that do not fit are reported with TPM_RC_MEMORY, TPM_RC_SELECTOR or TPM_RC_SIZE (C90_violated). Proved is exactly when which code is returned."
  },
  {
   "property": "C91",
   "status": "partial",
   "theorems": [
    "Verif.Tcp.C91_own_process_partial",
    "Verif.Tcp.C91_violated"
   ],
   "note": "The code violates the property: port files left behind by an earlier simulator are read at once, and the new simulator is connected to the earlier process if that still listens (C91_violated). Proved for starts at which only the files of the started process are found."
  },
  {
   "property": "C92",
   "status": "proved",
   "theorems": [
    "Verif.Errors.C92_text",
    "Verif.Errors.C92_distinct",
    "Verif.Errors.C92_codec",
    "Verif.EndToEnd.C92_io"
   ],
   "note": ""
  },
  {
   "property": "C93",
   "status": "proved",
   "theorems": [
    "Verif.Client.C93_success_iff",
    "Verif.Client.C93_sent_iff",
    "Verif.Client.C93_header",
    "Verif.Client.C93_honest",
    "Verif.Client.C93_derived_honest",
    "Verif.Client.C93_overlong",
    "Verif.Client.C93_handles_err",
    "Verif.Client.C93_derived",
    "Verif.Client.C93_response_stops"
   ],
   "note": "The length of a slice is kept by its implementation; usize overflow of the count is a panic, as in builds with overflow checks."
  },
  {
   "property": "C94",
   "status": "proved",
   "theorems": [
    "Verif.Tpm2.C94_short",
    "Verif.Tpm2.C94_marshal",
    "Verif.Tpm2.C94_unmarshal",
    "Verif.Tpm2.C94_sizes",
    "Verif.Tpm2.C94_round_trip",
    "Verif.Tpm2.C94_fixed"
   ],
   "note": ""
  },
  {
   "property": "C95",
   "status": "partial",
   "theorems": [
    "Verif.Client.C95_equal",
    "Verif.Client.C95_default",
    "Verif.Client.C95_text_partial",
    "Verif.Client.C95_violated"
   ],
   "note": "The code violates the last part: the derived Debug prints the password (C95_violated); two sessions are printed alike only if the passwords are equal. The rest is proved."
  },
  {
   "property": "C96",
   "status": "partial",
   "theorems": [
    "Verif.EndToEnd.C96_exact_partial",
    "Verif.EndToEnd.C96_ends",
    "Verif.EndToEnd.C96_violated"
   ],
   "note": "The code violates the property as it violates C56: the program is shown what the generated bytes are misread as (C96_violated). Proved is the exact result of every program with that in place of the bytes."
  },
  {
   "property": "C97",
   "status": "proved",
   "theorems": [
    "Verif.Server.Gen.C97_separate",
    "Verif.Server.Gen.C97_in_place",
    "Verif.Server.Gen.C97_only",
    "Verif.Server.Gen.C97_only_in_place"
   ],
   "note": "What is left in the buffer when the generator fails, and the server panics, is not claimed."
  },
  {
   "property": "C98",
   "status": "proved",
   "theorems": [
    "Verif.C98_unmarshal",
    "Verif.C98_marshal",
    "Verif.C98_declared",
    "Verif.C98_lists",
    "Verif.Client.C98_client",
    "Verif.Server.C98_separate",
    "Verif.Server.C98_in_place",
    "Verif.Tcp.C98_transact",
    "Verif.Tcp.C98_hcrtm",
    "Verif.Tcp.C98_sizes"
   ],
   "note": "For types with longer length fields and for machines of 16 bits there are differences (shown beside the theorems)."
  },
  {
   "property": "C99",
   "status": "proved",
   "theorems": [
    "Verif.Derive.C99_marshalable",
    "Verif.Derive.C99_panics",
    "Verif.Derive.C99_sized"
   ],
   "note": "The places (spans) the errors point to and their texts are not modelled."
  },
  {
   "property": "C100",
   "status": "partial",
   "theorems": [
    "Verif.Derive.C100_names_partial",
    "Verif.Derive.C100_violated"
   ],
   "note": "The code violates the property: the error names what is given as length, not the field using it (C100_violated). Proved is that it names the length of a field that has no such field before it."
  },
  {
   "property": "C101",
   "status": "proved",
   "theorems": [
    "Verif.EndToEnd.C101_same",
    "Verif.EndToEnd.C101_completes",
    "Verif.EndToEnd.C101_generator"
   ],
   "note": "The simulator gives the server a fresh buffer of 4096 zero bytes for each command; what it does when the server panics is left open."
  },
  {
   "property": "C102",
   "status": "partial",
   "theorems": [
    "Verif.Derive.C102_same_partial",
    "Verif.Derive.C102_violated",
    "Verif.Derive.C102_attest_partial"
   ],
   "note": "The code violates the property for one type: Tpm2bAttest has 2304 bytes on 64-bit targets and 2292 on 32-bit x86, so that contents in between are accepted by the one and rejected by the other (C102_violated). All other types and all constants are the same, and contents of up to 2292 bytes, which every attestation has, are accepted by all."
  },
  {
   "property": "C103",
   "status": "proved",
   "theorems": [
    "Verif.C103_read",
    "Verif.C103_write",
    "Verif.C103_round_trip",
    "Verif.C103_count_read",
    "Verif.C103_count_write"
   ],
   "note": "For structures consisting of the length and the array, with a usize at least as wide as the length."
  },
  {
   "property": "C104",
   "status": "proved",
   "theorems": [
    "Verif.Client.C104_sent",
    "Verif.Client.C104_prefix",
    "Verif.Client.C104_stream",
    "Verif.Tcg.C104_base"
   ],
   "note": ""
  },
  {
   "property": "C105",
   "status": "proved",
   "theorems": [
    "Verif.Server.C105_separate",
    "Verif.Server.C105_in_place",
    "Verif.Server.C105_short",
    "Verif.Server.C105_crate"
   ],
   "note": "For byte slices as buffers. Handlers are trees of reads, writes and results; a buffer too short for a header is C105_short."
  },
  {
   "property": "C106",
   "status": "proved",
   "theorems": [
    "Verif.Client.C106_responses",
    "Verif.Client.C106_stream",
    "Verif.Client.C106_returned",
    "Verif.Client.C106_answers"
   ],
   "note": "With the tag for sessions the client accepts several encodings of one answer, since it does not look at the parameter size (shown beside the theorems; C77)."
  },
  {
   "property": "C107",
   "status": "proved",
   "theorems": [
    "Verif.EndToEnd.C107_refused",
    "Verif.EndToEnd.C107_given",
    "Verif.EndToEnd.C107_error",
    "Verif.EndToEnd.C107_panic",
    "Verif.EndToEnd.C107_answer"
   ],
   "note": "The server is called directly, with separate buffers; a panic of a handler is a failure of the connection."
  },
  {
   "property": "C108",
   "status": "proved",
   "theorems": [
    "Verif.EndToEnd.C108_direct",
    "Verif.EndToEnd.C108_same",
    "Verif.EndToEnd.C108_completes",
    "Verif.EndToEnd.C108_handled",
    "Verif.EndToEnd.C108_crate"
   ],
   "note": "The device in the simulator is the server with any handlers; nothing is said about commands on which the server panics."
  },
  {
   "property": "C109",
   "status": "partial",
   "theorems": [
    "Verif.EndToEnd.C109_same_partial",
    "Verif.EndToEnd.C109_unseen_partial",
    "Verif.EndToEnd.C109_unsent_partial",
    "Verif.EndToEnd.C109_repeated_partial",
    "Verif.EndToEnd.C109_hcrtm_partial",
    "Verif.EndToEnd.C109_program_partial",
    "Verif.EndToEnd.C109_device_partial",
    "Verif.EndToEnd.C109_violated"
   ],
   "note": "Violated: write_vectored is one system call that is not repeated, so calls that send in one piece (transact, commands, handshake, ...) return the interruption (C109_violated). Proved: calls that send in pieces never do; the others have sent nothing then and can be repeated; the hashing sequence is abandoned after its start."
  },
  {
   "property": "C110",
   "status": "proved",
   "theorems": [
    "Verif.Server.Gen.C110_answered",
    "Verif.Server.Gen.C110_same",
    "Verif.Server.Gen.C110_in_place",
    "Verif.Server.Gen.C110_history",
    "Verif.Server.Gen.C110_no_panic",
    "Verif.Server.Gen.C110_crate"
   ],
   "note": "Handlers are trees of reads, writes and results; after a callback they also see whether it was called and what was there."
  },
  {
   "property": "C111",
   "status": "proved",
   "theorems": [
    "Verif.EndToEnd.C111_completes",
    "Verif.EndToEnd.C111_same",
    "Verif.Tests.C111_tests",
    "Verif.Tests.C111_requests"
   ],
   "note": "Over connections that are open already; calls other than commands are those of C83. Answers that do not fit into the buffer of the client or are not of the types of the command are not covered here (C32 to C34, C77)."
  },
  {
   "property": "C112",
   "status": "proved",
   "theorems": [
    "Verif.Own.C112_derived",
    "Verif.Own.C112_calm",
    "Verif.Own.C112_round_trip",
    "Verif.Own.C112_reads",
    "Verif.Own.C112_stops",
    "Verif.Own.C112_std",
    "Verif.Own.C112_variant",
    "Verif.Own.C112_slots"
   ],
   "note": "Types that are only cast to usize as length fields are the parts of the caller and those of the crate; a derived enum as length field is not modelled."
  },
  {
   "property": "C113",
   "status": "proved",
   "theorems": [
    "Verif.Client.C113_sent",
    "Verif.Client.C113_success",
    "Verif.Client.C113_result",
    "Verif.Client.C113_same",
    "Verif.Client.C113_panics"
   ],
   "note": "Panics with sessions are those of C93, since sessions are code of the caller too."
  },
  {
   "property": "C114",
   "status": "partial",
   "theorems": [
    "Verif.Client.C114_same_partial",
    "Verif.Client.C114_declares_partial",
    "Verif.Client.C114_lawful",
    "Verif.Client.C114_violated"
   ],
   "note": "Violated: written += n wraps around in builds without overflow checks, so handles that report 2^64 - 10 bytes make the client send an empty command (C114_violated). Proved: it holds with overflow checks, and without them if no report is within 4096 of the largest usize, in particular for implementations that do what they should."
  },
  {
   "property": "C115",
   "status": "proved",
   "theorems": [
    "Verif.Client.C115_ends",
    "Verif.Client.C115_all",
    "Verif.Client.C115_unsent",
    "Verif.Client.C115_unread",
    "Verif.Client.C115_machines"
   ],
   "note": "The list includes panics, which the client has for lengths reported wrongly, for a declared size below ten and for no room before the authorization area."
  },
  {
   "property": "C116",
   "status": "partial",
   "theorems": [
    "Verif.Own.C116_puts",
    "Verif.Own.C116_reads",
    "Verif.Own.C116_same_partial",
    "Verif.Own.C116_checked",
    "Verif.Own.C116_lawful",
    "Verif.Own.C116_violated"
   ],
   "note": "Violated without overflow checks by parts that report more than they were given (C116_violated); shown for parts that do not, and with overflow checks for all."
  },
  {
   "property": "C117",
   "status": "proved",
   "theorems": [
    "Verif.EndToEnd.C117_observes",
    "Verif.EndToEnd.C117_completes",
    "Verif.EndToEnd.C117_handled"
   ],
   "note": "H-CRTM data of 4 GiB or more, which C83 shows to be sent wrongly, are outside of the statement."
  },
  {
   "property": "C118",
   "status": "partial",
   "theorems": [
    "Verif.Server.C118_slices",
    "Verif.Server.C118_request",
    "Verif.Server.C118_same_partial",
    "Verif.Server.C118_checked",
    "Verif.Server.C118_crate",
    "Verif.Server.C118_violated"
   ],
   "note": "Violated with overflow checks by sizes whose sum with the position does not fit into a usize (C118_violated); C118_checked says exactly when. Shown without overflow checks for all handlers, and with them for handlers that ask for no more than a slice can have."
  },
  {
   "property": "C119",
   "status": "proved",
   "theorems": [
    "Verif.Own.Derive.C119_compiles",
    "Verif.Own.Derive.C119_generated",
    "Verif.Own.Derive.C119_unambiguous",
    "Verif.Own.Derive.C119_lawful"
   ],
   "note": "Sized buffers (tpm2b attributes) are in C62-C66; they have no parts of the caller."
  },
  {
   "property": "C120",
   "status": "partial",
   "theorems": [
    "Verif.Own.Derive.Wide.C120_compiles",
    "Verif.Own.Derive.Wide.C120_generated",
    "Verif.Own.Derive.Wide.C120_same_partial",
    "Verif.Own.Derive.Wide.C120_checked",
    "Verif.Own.Derive.Wide.C120_lawful",
    "Verif.Own.Derive.Wide.C120_violated"
   ],
   "note": "Violated without overflow checks by implementations of the caller that report more than they were given (C120_violated); shown for those that do not, and with overflow checks for all."
  },
  {
   "property": "C121",
   "status": "proved",
   "theorems": [
    "Verif.Client.C121_made",
    "Verif.Client.C121_sent",
    "Verif.Client.C121_success",
    "Verif.Client.C121_result",
    "Verif.Client.C121_panics",
    "Verif.Client.C121_made_on",
    "Verif.Client.C121_machines"
   ],
   "note": "Types whose implementation by the caller keeps state are in C93."
  }
 ]
}