{
 "claims": [
  {
   "property": "C01",
   "status": "proved",
   "theorems": [
    "Nghttp3.Props.C01_varint_round_trip",
    "Nghttp3.Props.C01_varint_reader_exact"
   ],
   "note": ""
  },
  {
   "property": "C02",
   "status": "proved",
   "theorems": [
    "Nghttp3.Props.C02_read_varint_chunking",
    "Nghttp3.Props.C02_truncated_is_error"
   ],
   "note": ""
  },
  {
   "property": "C03",
   "status": "proved",
   "theorems": [
    "Nghttp3.Props.C03_frame_hd",
    "Nghttp3.Props.C03_settings",
    "Nghttp3.Props.C03_settings_list",
    "Nghttp3.Props.C03_goaway",
    "Nghttp3.Props.C03_priority_update",
    "Nghttp3.Props.C03_unambiguous"
   ],
   "note": ""
  },
  {
   "property": "C04",
   "status": "proved",
   "theorems": [
    "Nghttp3.Props.C04_gaptr_is_pushed",
    "Nghttp3.Props.C04_gaptr_first_gap",
    "Nghttp3.Props.C04_gaptr_first_gap_after",
    "Nghttp3.Props.C04_idtr",
    "Nghttp3.Props.C04_conn_idtr",
    "Nghttp3.Props.C04_full_range_forgets"
   ],
   "note": ""
  },
  {
   "property": "C05",
   "status": "proved",
   "theorems": [
    "Nghttp3.Props.C05_ringbuf_deque"
   ],
   "note": ""
  },
  {
   "property": "C06",
   "status": "proved",
   "theorems": [
    "Nghttp3.Props.C06_pq_minimum"
   ],
   "note": ""
  },
  {
   "property": "C07",
   "status": "proved",
   "theorems": [
    "Nghttp3.Props.C07_map_is_finite_map"
   ],
   "note": ""
  },
  {
   "property": "C08",
   "status": "proved",
   "theorems": [
    "Nghttp3.Props.C08_ksl_ordered_map",
    "Nghttp3.Props.C08_update_key_down_loses_element"
   ],
   "note": ""
  },
  {
   "property": "C09",
   "status": "proved",
   "theorems": [
    "Nghttp3.Props.C09_huffman_lossless",
    "Nghttp3.Props.C09_encoder_writes_the_code"
   ],
   "note": ""
  },
  {
   "property": "C10",
   "status": "proved",
   "theorems": [
    "Nghttp3.Props.C10_encode_count_exact",
    "Nghttp3.Props.C10_decode_output_bounded"
   ],
   "note": ""
  },
  {
   "property": "C11",
   "status": "proved",
   "theorems": [
    "Nghttp3.Props.C11_accepts_exactly_encodings",
    "Nghttp3.Props.C11_accepted_is_canonical",
    "Nghttp3.Props.C11_chunking",
    "Nghttp3.Props.C11_failure_state_iff_doomed"
   ],
   "note": ""
  },
  {
   "property": "C12",
   "status": "proved",
   "theorems": [
    "Nghttp3.Props.C12_round_trip",
    "Nghttp3.Props.C12_reads_exactly",
    "Nghttp3.Props.C12_written",
    "Nghttp3.Props.C12_chunking"
   ],
   "note": ""
  },
  {
   "property": "C13",
   "status": "proved",
   "theorems": [
    "Nghttp3.Props.C13_table_within_capacity",
    "Nghttp3.Props.C13_insert_evicts_oldest_only",
    "Nghttp3.Props.C13_set_capacity_evicts_oldest_only"
   ],
   "note": ""
  },
  {
   "property": "C14",
   "status": "proved",
   "theorems": [
    "Nghttp3.Props.C14_referenced_entries_stay",
    "Nghttp3.Props.C14_sections_keep_their_meaning",
    "Nghttp3.Props.C14_encoder_never_crashes"
   ],
   "note": ""
  },
  {
   "property": "C15",
   "status": "proved",
   "theorems": [
    "Nghttp3.Props.C15_reported_number_is_exact",
    "Nghttp3.Props.C15_limit_respected"
   ],
   "note": ""
  },
  {
   "property": "C16",
   "status": "proved",
   "theorems": [
    "Nghttp3.Props.C16_no_instruction_rejected",
    "Nghttp3.Props.C16_tables_agree",
    "Nghttp3.Props.C16_decoder_never_ahead"
   ],
   "note": "For every schedule; names/values within the decoder's own string limits, at most 128 KiB of encoder stream between two reads of a request stream."
  },
  {
   "property": "C17",
   "status": "proved",
   "theorems": [
    "Nghttp3.Props.C17_closed_loop",
    "Nghttp3.Props.C17_sections_decode_exactly",
    "Nghttp3.Props.C17_partial_sections_are_prefixes",
    "Nghttp3.Props.C17_outstanding_sections_are_decodable"
   ],
   "note": "For every schedule; equal MaxEntries on both sides, Required Insert Count at most MaxEntries ahead of the decoder (C18_fails_if_encoder_runs_ahead shows the library's encoder can violate this)."
  },
  {
   "property": "C18",
   "status": "proved",
   "theorems": [
    "Nghttp3.Props.C18_required_insert_count_recovered",
    "Nghttp3.Props.C18_fails_if_limits_differ",
    "Nghttp3.Props.C18_wrong_if_limits_differ",
    "Nghttp3.Props.C18_fails_if_encoder_runs_ahead"
   ],
   "note": "Exactness with equal limits proved; failure with differing limits and with an encoder running ahead proved as counterexamples."
  },
  {
   "property": "C19",
   "status": "proved",
   "theorems": [
    "Nghttp3.Props.C19_known_never_ahead",
    "Nghttp3.Props.C19_known_monotone",
    "Nghttp3.Props.C19_refused_iff",
    "Nghttp3.Props.C19_bytes_never_crash",
    "Nghttp3.Props.C19_bytes_known",
    "Nghttp3.Props.C19_bytes_cut_anywhere",
    "Nghttp3.Props.C19_bytes_are_instructions",
    "Nghttp3.Props.C19_honest_feedback_accepted",
    "Nghttp3.Props.C19_feedback_bytes",
    "Nghttp3.Props.C19_known_never_ahead_of_decoder"
   ],
   "note": ""
  },
  {
   "property": "C20",
   "status": "proved",
   "theorems": [
    "Nghttp3.Props.C20_decoder_never_crashes",
    "Nghttp3.Props.C20_request_outcomes"
   ],
   "note": ""
  },
  {
   "property": "C21",
   "status": "proved",
   "theorems": [
    "Nghttp3.Props.C21_encoder_stream_chunking",
    "Nghttp3.Props.C21_encoder_stream_over_limit",
    "Nghttp3.Props.C21_field_section_chunking"
   ],
   "note": ""
  },
  {
   "property": "C22",
   "status": "proved",
   "theorems": [
    "Nghttp3.Props.C22_never_literal",
    "Nghttp3.Props.C22_never_literal_in_sections",
    "Nghttp3.Props.C22_table_from_indexable",
    "Nghttp3.Props.C22_credentials_not_indexed"
   ],
   "note": ""
  },
  {
   "property": "C23",
   "status": "proved",
   "theorems": [
    "Nghttp3.Props.C23_request",
    "Nghttp3.Props.C23_response",
    "Nghttp3.Props.C23_trailers",
    "Nghttp3.Props.C23_delivered_request"
   ],
   "note": ""
  },
  {
   "property": "C24",
   "status": "proved",
   "theorems": [
    "Nghttp3.Props.C24_request",
    "Nghttp3.Props.C24_excess_refused",
    "Nghttp3.Props.C24_delivered_le",
    "Nghttp3.Props.C24_parse",
    "Nghttp3.Props.C24_response"
   ],
   "note": ""
  },
  {
   "property": "C25",
   "status": "proved",
   "theorems": [
    "Nghttp3.Props.C25_value",
    "Nghttp3.Props.C25_value_avx2",
    "Nghttp3.Props.C25_received_name",
    "Nghttp3.Props.C25_name",
    "Nghttp3.Props.C25_name_accepts_capitals"
   ],
   "note": ""
  },
  {
   "property": "C26",
   "status": "proved",
   "theorems": [
    "Nghttp3.Props.C26_request",
    "Nghttp3.Props.C26_response",
    "Nghttp3.Props.C26_no_crash"
   ],
   "note": ""
  },
  {
   "property": "C27",
   "status": "proved",
   "theorems": [
    "Nghttp3.Props.C27_frames",
    "Nghttp3.Props.C27_calls_return",
    "Nghttp3.Props.C27_truncated_id",
    "Nghttp3.Props.C27_goaway_trailing_bytes"
   ],
   "note": ""
  },
  {
   "property": "C28",
   "status": "proved",
   "theorems": [
    "Nghttp3.Props.C28_settings",
    "Nghttp3.Props.C28_truncated"
   ],
   "note": ""
  },
  {
   "property": "C29",
   "status": "proved",
   "theorems": [
    "Nghttp3.Props.C29_received",
    "Nghttp3.Props.C29_sent_not_increasing",
    "Nghttp3.Props.C29_shutdown_covers",
    "Nghttp3.Props.C29_later_refused",
    "Nghttp3.Props.C29_no_request_after_goaway",
    "Nghttp3.Props.C29_first_shutdown_works"
   ],
   "note": ""
  },
  {
   "property": "C30",
   "status": "proved",
   "theorems": [
    "Nghttp3.Props.C30_client",
    "Nghttp3.Props.C30_server",
    "Nghttp3.Props.C30_fails_after_long_value"
   ],
   "note": ""
  },
  {
   "property": "C31",
   "status": "proved",
   "theorems": [
    "Nghttp3.Props.C31_two_calls",
    "Nghttp3.Props.C31_many_calls",
    "Nghttp3.Props.C31_any_cut",
    "Nghttp3.Props.C31_witness",
    "Nghttp3.Props.C31_witness_unblocked",
    "Nghttp3.Props.C31_witness_pieces",
    "Nghttp3.Props.C31_truncation_unnoticed_while_blocked"
   ],
   "note": "Allocation succeeds, callbacks return 0. C31_truncation_unnoticed_while_blocked: the end of a truncated stream is not noticed if it is blocked with nothing buffered."
  },
  {
   "property": "C32",
   "status": "proved",
   "theorems": [
    "Nghttp3.Props.C32_bytes",
    "Nghttp3.Props.C32_limit",
    "Nghttp3.Props.C32_overflow_only",
    "Nghttp3.Props.C32_offered",
    "Nghttp3.Props.C32_answers",
    "Nghttp3.Props.C32_empty_section_not_sent",
    "Nghttp3.Props.C32_empty_section_crash"
   ],
   "note": ""
  },
  {
   "property": "C33",
   "status": "proved",
   "theorems": [
    "Nghttp3.Props.C33_reports",
    "Nghttp3.Props.C33_release",
    "Nghttp3.Props.C33_backwards_refused",
    "Nghttp3.Props.C33_unsent_not_refused"
   ],
   "note": "C33_unsent_not_refused: acknowledging bytes never sent is not refused."
  },
  {
   "property": "C34",
   "status": "proved",
   "theorems": [
    "Nghttp3.Props.C34_most_urgent",
    "Nghttp3.Props.C34_critical_first",
    "Nghttp3.Props.C34_order_of_ids",
    "Nghttp3.Props.C34_not_offered_after_block",
    "Nghttp3.Props.C34_fails_for_blocked"
   ],
   "note": "The clause about blocked streams needs a condition; C34_fails_for_blocked is the counterexample."
  },
  {
   "property": "C35",
   "status": "proved",
   "theorems": [
    "Nghttp3.Props.C35_bounded_wait",
    "Nghttp3.Props.C35_gap_bounded",
    "Nghttp3.Props.C35_gap_after_turn",
    "Nghttp3.Props.C35_offered_is_fair",
    "Nghttp3.Props.C35_needs_no_arrivals"
   ],
   "note": "Bounded service among streams of one urgency; C35_needs_no_arrivals shows the bound needs no stream to re-enter at the smallest cycle."
  },
  {
   "property": "C36",
   "status": "proved",
   "theorems": [
    "Nghttp3.Props.C36_header",
    "Nghttp3.Props.C36_parse",
    "Nghttp3.Props.C36_parse_range",
    "Nghttp3.Props.C36_history",
    "Nghttp3.Props.C36_server_sticks",
    "Nghttp3.Props.C36_update_wins",
    "Nghttp3.Props.C36_default"
   ],
   "note": ""
  },
  {
   "property": "C37",
   "status": "proved",
   "theorems": [
    "Nghttp3.Props.C37_code_is_defined",
    "Nghttp3.Props.C37_named_errors",
    "Nghttp3.Props.C37_codes_distinguish",
    "Nghttp3.Props.C37_message_and_internal",
    "Nghttp3.Props.C37_fatal_range",
    "Nghttp3.Props.C37_strerror_distinguishes",
    "Nghttp3.Props.C37_table",
    "Nghttp3.Props.C37_numbers"
   ],
   "note": ""
  },
  {
   "property": "C38",
   "status": "proved",
   "theorems": [
    "Nghttp3.Props.C38_no_use_after_free",
    "Nghttp3.Props.C38_freed_when_last_owner_lets_go",
    "Nghttp3.Props.C38_static_never_freed",
    "Nghttp3.Props.C38_limit"
   ],
   "note": ""
  },
  {
   "property": "C39",
   "status": "proved",
   "theorems": [
    "Nghttp3.Props.C39_no_assertion_fails",
    "Nghttp3.Props.C39_objects_disjoint",
    "Nghttp3.Props.C39_memory_is_reused",
    "Nghttp3.Props.C39_needs_aligned_malloc"
   ],
   "note": ""
  },
  {
   "property": "C40",
   "status": "proved",
   "theorems": [
    "Nghttp3.Props.C40_one_of_each",
    "Nghttp3.Props.C40_routing",
    "Nghttp3.Props.C40_refused",
    "Nghttp3.Props.C40_unknown_type",
    "Nghttp3.Props.C40_critical_stays",
    "Nghttp3.Props.C40_ends_early",
    "Nghttp3.Props.C40_fails_for_short_streams",
    "Nghttp3.Props.C40_fails_for_unidentified_close"
   ],
   "note": "Two defects proved as negations: a critical stream whose FIN comes with exactly its type bytes is not reported (C40_fails_for_short_streams); closing a peer's stream whose type has not arrived is refused as critical (C40_fails_for_unidentified_close)."
  },
  {
   "property": "C41",
   "status": "proved",
   "theorems": [
    "Nghttp3.Props.C41_no_server_bidi",
    "Nghttp3.Props.C41_who_may_open",
    "Nghttp3.Props.C41_client_requests",
    "Nghttp3.Props.C41_priority_update_id",
    "Nghttp3.Props.C41_closed_stays_closed"
   ],
   "note": ""
  },
  {
   "property": "C42",
   "status": "proved",
   "theorems": [
    "Nghttp3.Props.C42_conservation",
    "Nghttp3.Props.C42_one_call",
    "Nghttp3.Props.C42_witness",
    "Nghttp3.Props.C42_witness_closed"
   ],
   "note": "For histories of one request stream with arbitrary use of the decoder by others; callbacks return 0."
  },
  {
   "property": "C43",
   "status": "proved",
   "theorems": [
    "Nghttp3.Props.C43_drained",
    "Nghttp3.Props.C43_count",
    "Nghttp3.Props.C43_stream_close"
   ],
   "note": ""
  },
  {
   "property": "C44",
   "status": "proved",
   "theorems": [
    "Nghttp3.Props.C44_vec_len_varint",
    "Nghttp3.Props.C44_vec_len_exact"
   ],
   "note": ""
  },
  {
   "property": "C45",
   "status": "proved",
   "theorems": [
    "Nghttp3.Props.C45_allocation_filled_exactly",
    "Nghttp3.Props.C45_fields_copied"
   ],
   "note": ""
  },
  {
   "property": "C46",
   "status": "partial",
   "theorems": [
    "Nghttp3.Props.C46_last_setting_wins_partial",
    "Nghttp3.Props.C46_fails"
   ],
   "note": "False in general (C46_fails: set 1000, 2000, 1000 leaves 2000 in force). Proved when the last value differs from the earlier unannounced ones and no section is outstanding."
  },
  {
   "property": "C47",
   "status": "partial",
   "theorems": [
    "Nghttp3.Props.C47_client",
    "Nghttp3.Props.C47_server_partial",
    "Nghttp3.Props.C47_buffer",
    "Nghttp3.Props.C47_fails_on_server"
   ],
   "note": "Proved for clients and for the buffer bound. False on servers (C47_fails_on_server: a call ending right after the element ID of a PRIORITY_UPDATE fails an assertion); C47_server_partial confines the failure to that packet boundary."
  },
  {
   "property": "C48",
   "status": "proved",
   "theorems": [
    "Nghttp3.Props.C48_static_table_is_rfc",
    "Nghttp3.Props.C48_tokens_identify_names",
    "Nghttp3.Props.C48_lookup_stable",
    "Nghttp3.Props.C48_hashes"
   ],
   "note": ""
  },
  {
   "property": "C49",
   "status": "proved",
   "theorems": [
    "Nghttp3.Props.C49_no_assertion_fails",
    "Nghttp3.Props.C49_history",
    "Nghttp3.Props.C49_fails_for_closed_streams",
    "Nghttp3.Props.C49_fails_for_second_shutdown"
   ],
   "note": "For all histories of the 28 modelled operations under the stated conditions; two conditions are shown necessary by counterexamples (C49_fails_for_closed_streams, C49_fails_for_second_shutdown)."
  },
  {
   "property": "C50",
   "status": "proved",
   "theorems": [
    "Nghttp3.Props.C50_nothing_offered",
    "Nghttp3.Props.C50_fails_when_data_is_not_ready"
   ],
   "note": ""
  },
  {
   "property": "C51",
   "status": "proved",
   "theorems": [
    "Nghttp3.Props.C51_never_fails_an_assertion"
   ],
   "note": ""
  },
  {
   "property": "C52",
   "status": "proved",
   "theorems": [
    "Nghttp3.Props.C52_message",
    "Nghttp3.Props.C52_complete",
    "Nghttp3.Props.C52_refused_type",
    "Nghttp3.Props.C52_unknown_type",
    "Nghttp3.Props.C52_decoded",
    "Nghttp3.Props.C52_delivered",
    "Nghttp3.Props.C52_witness",
    "Nghttp3.Props.C52_witness_bytes",
    "Nghttp3.Props.C52_witness_cut"
   ],
   "note": "The QPACK decoder is not used by others while the bytes of this stream arrive (it may be, arbitrarily, before). Allocation succeeds, callbacks return 0."
  },
  {
   "property": "C53",
   "status": "proved",
   "theorems": [
    "Nghttp3.Props.C53_table_is_what_the_instructions_say",
    "Nghttp3.Props.C53_valid_instructions_accepted",
    "Nghttp3.Props.C53_invalid_instructions_refused",
    "Nghttp3.Props.C53_encoder_stream_limit",
    "Nghttp3.Props.C53_section_means_what_it_says",
    "Nghttp3.Props.C53_only_valid_sections_are_final",
    "Nghttp3.Props.C53_blocked_section_resumes"
   ],
   "note": ""
  },
  {
   "property": "C54",
   "status": "proved",
   "theorems": [
    "Nghttp3.Props.C54_never_fails",
    "Nghttp3.Props.C54_only_what_was_sent",
    "Nghttp3.Props.C54_complete",
    "Nghttp3.Props.C54_unblocked",
    "Nghttp3.Props.C54_all_delivered",
    "Nghttp3.Props.C54_blocked_within_limit",
    "Nghttp3.Props.C54_settled",
    "Nghttp3.Props.C54_witness",
    "Nghttp3.Props.C54_witness_blocked",
    "Nghttp3.Props.C54_stop_of_blocked_stream_fails_connection",
    "Nghttp3.Props.C54_witness_meets_hypotheses"
   ],
   "note": ""
  },
  {
   "property": "C55",
   "status": "proved",
   "theorems": [
    "Nghttp3.Props.C55_writable_iff",
    "Nghttp3.Props.C55_after_resume",
    "Nghttp3.Props.C55_waits_until_resume",
    "Nghttp3.Props.C55_wouldblock_waits",
    "Nghttp3.Props.C55_witness"
   ],
   "note": ""
  },
  {
   "property": "C56",
   "status": "proved",
   "theorems": [
    "Nghttp3.Props.C56_sent",
    "Nghttp3.Props.C56_offered"
   ],
   "note": ""
  },
  {
   "property": "C57",
   "status": "proved",
   "theorems": [
    "Nghttp3.Props.C57_codes",
    "Nghttp3.Props.C57_bind_qpack_half",
    "Nghttp3.Props.C57_shutdown_read_other",
    "Nghttp3.Props.C57_shutdown_read_error"
   ],
   "note": ""
  },
  {
   "property": "C58",
   "status": "proved",
   "theorems": [
    "Nghttp3.Props.C58_control",
    "Nghttp3.Props.C58_drained"
   ],
   "note": ""
  },
  {
   "property": "C59",
   "status": "proved",
   "theorems": [
    "Nghttp3.Props.C59_end_to_end",
    "Nghttp3.Props.C59_whatever_read_data_answers",
    "Nghttp3.Props.C59_witness",
    "Nghttp3.Props.C59_witness_blocked",
    "Nghttp3.Props.C59_witness_meets_hypotheses"
   ],
   "note": ""
  },
  {
   "property": "C60",
   "status": "proved",
   "theorems": [
    "Nghttp3.Props.C60_safe",
    "Nghttp3.Props.C60_client_safe",
    "Nghttp3.Props.C60_blocked_streams",
    "Nghttp3.Props.C60_no_lost_wakeup",
    "Nghttp3.Props.C60_encoder",
    "Nghttp3.Props.C60_views_agree",
    "Nghttp3.Props.C60_example",
    "Nghttp3.Props.C60_reachable",
    "Nghttp3.Props.C60_fails_on_server"
   ],
   "note": ""
  },
  {
   "property": "C61",
   "status": "proved",
   "theorems": [
    "Nghttp3.Props.C61_two_calls",
    "Nghttp3.Props.C61_any_cut",
    "Nghttp3.Props.C61_permitted",
    "Nghttp3.Props.C61_example",
    "Nghttp3.Props.C61_reachable",
    "Nghttp3.Props.C61_encoder_stream_differs"
   ],
   "note": ""
  },
  {
   "property": "C62",
   "status": "proved",
   "theorems": [
    "Nghttp3.Props.C62_request_stream",
    "Nghttp3.Props.C62_unidirectional",
    "Nghttp3.Props.C62_example"
   ],
   "note": ""
  },
  {
   "property": "C63",
   "status": "proved",
   "theorems": [
    "Nghttp3.Props.C63_server",
    "Nghttp3.Props.C63_client",
    "Nghttp3.Props.C63_example"
   ],
   "note": ""
  },
  {
   "property": "C64",
   "status": "proved",
   "theorems": [
    "Nghttp3.Props.C64_goaway",
    "Nghttp3.Props.C64_not_increasing",
    "Nghttp3.Props.C64_shutdown_covers",
    "Nghttp3.Props.C64_refused",
    "Nghttp3.Props.C64_refused_only_then",
    "Nghttp3.Props.C64_drained",
    "Nghttp3.Props.C64_shutdown_stream_read",
    "Nghttp3.Props.C64_example"
   ],
   "note": ""
  },
  {
   "property": "C65",
   "status": "proved",
   "theorems": [
    "Nghttp3.Props.C65_reports",
    "Nghttp3.Props.C65_reports_client",
    "Nghttp3.Props.C65_order",
    "Nghttp3.Props.C65_source",
    "Nghttp3.Props.C65_one_each",
    "Nghttp3.Props.C65_no_request",
    "Nghttp3.Props.C65_client",
    "Nghttp3.Props.C65_example"
   ],
   "note": ""
  },
  {
   "property": "C66",
   "status": "proved",
   "theorems": [
    "Nghttp3.Props.C66_sent",
    "Nghttp3.Props.C66_offered",
    "Nghttp3.Props.C66_codes",
    "Nghttp3.Props.C66_control",
    "Nghttp3.Props.C66_drained",
    "Nghttp3.Props.C66_example"
   ],
   "note": ""
  },
  {
   "property": "C67",
   "status": "proved",
   "theorems": [
    "Nghttp3.Props.C67_offered",
    "Nghttp3.Props.C67_nothing_offered",
    "Nghttp3.Props.C67_blocked",
    "Nghttp3.Props.C67_writable",
    "Nghttp3.Props.C67_not_writable",
    "Nghttp3.Props.C67_stays",
    "Nghttp3.Props.C67_streams",
    "Nghttp3.Props.C67_example",
    "Nghttp3.Props.C67_example_writable"
   ],
   "note": ""
  },
  {
   "property": "C68",
   "status": "proved",
   "theorems": [
    "Nghttp3.Props.C68_read",
    "Nghttp3.Props.C68_code",
    "Nghttp3.Props.C68_close",
    "Nghttp3.Props.C68_history",
    "Nghttp3.Props.C68_safe",
    "Nghttp3.Props.C68_success",
    "Nghttp3.Props.C68_deferred_unreported",
    "Nghttp3.Props.C68_example"
   ],
   "note": ""
  },
  {
   "property": "C69",
   "status": "proved",
   "theorems": [
    "Nghttp3.Props.C69_said",
    "Nghttp3.Props.C69_table",
    "Nghttp3.Props.C69_table_none",
    "Nghttp3.Props.C69_flush",
    "Nghttp3.Props.C69_example",
    "Nghttp3.Props.C69_length"
   ],
   "note": ""
  },
  {
   "property": "C70",
   "status": "proved",
   "theorems": [
    "Nghttp3.Props.C70_alone",
    "Nghttp3.Props.C70_independent",
    "Nghttp3.Props.C70_example"
   ],
   "note": ""
  },
  {
   "property": "C71",
   "status": "proved",
   "theorems": [
    "Nghttp3.Props.C71_whole",
    "Nghttp3.Props.C71_example"
   ],
   "note": ""
  },
  {
   "property": "C72",
   "status": "proved",
   "theorems": [
    "Nghttp3.Props.C72_blame",
    "Nghttp3.Props.C72_push",
    "Nghttp3.Props.C72_second",
    "Nghttp3.Props.C72_ended",
    "Nghttp3.Props.C72_instructions",
    "Nghttp3.Props.C72_control",
    "Nghttp3.Props.C72_control_client",
    "Nghttp3.Props.C72_example"
   ],
   "note": ""
  },
  {
   "property": "C73",
   "status": "proved",
   "theorems": [
    "Nghttp3.Props.C73_dropped",
    "Nghttp3.Props.C73_no_error",
    "Nghttp3.Props.C73_example"
   ],
   "note": ""
  },
  {
   "property": "C74",
   "status": "proved",
   "theorems": [
    "Nghttp3.Props.C74_server_decides",
    "Nghttp3.Props.C74_order",
    "Nghttp3.Props.C74_example"
   ],
   "note": ""
  },
  {
   "property": "C75",
   "status": "proved",
   "theorems": [
    "Nghttp3.Props.C75_history",
    "Nghttp3.Props.C75_sections",
    "Nghttp3.Props.C75_blocked",
    "Nghttp3.Props.C75_capacity",
    "Nghttp3.Props.C75_entries",
    "Nghttp3.Props.C75_example"
   ],
   "note": ""
  },
  {
   "property": "C76",
   "status": "proved",
   "theorems": [
    "Nghttp3.Props.C76_tables",
    "Nghttp3.Props.C76_example"
   ],
   "note": ""
  },
  {
   "property": "C77",
   "status": "proved",
   "theorems": [
    "Nghttp3.Props.C77_unique",
    "Nghttp3.Props.C77_request_stream",
    "Nghttp3.Props.C77_other",
    "Nghttp3.Props.C77_unidirectional",
    "Nghttp3.Props.C77_control_between",
    "Nghttp3.Props.C77_control_inside",
    "Nghttp3.Props.C77_example",
    "Nghttp3.Props.C77_control_counterexample",
    "Nghttp3.Props.C77_control_example",
    "Nghttp3.Props.C77_priority_example"
   ],
   "note": ""
  }
 ]
}