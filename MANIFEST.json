{
 "claims": [
  {
   "property": "C01",
   "status": "proved",
   "theorems": [
    "Indigo.Props.C01_head_any_segmentation",
    "Indigo.Props.C01_outcome_independent_of_segmentation"
   ],
   "note": ""
  },
  {
   "property": "C02",
   "status": "partial",
   "theorems": [
    "Indigo.Props.C02_accepted_is_head_partial",
    "Indigo.Props.C02_accepted_is_head_segmented_partial",
    "Indigo.Props.C02_names_violation",
    "Indigo.Props.C02_unacceptable_rejected_partial"
   ],
   "note": "The full property is false of the code: C02_names_violation prove the negation on concrete witnesses. The other theorems prove the part that holds."
  },
  {
   "property": "C03",
   "status": "partial",
   "theorems": [
    "Indigo.Props.C03_crash_iff_partial",
    "Indigo.Props.C03_connection_crash_partial",
    "Indigo.Props.C03_no_panic_violation",
    "Indigo.Props.C03_no_panic_partial",
    "Indigo.Props.C03_no_panic_crlf_partial"
   ],
   "note": "The full property is false of the code: C03_no_panic_violation prove the negation on concrete witnesses. The other theorems prove the part that holds."
  },
  {
   "property": "C04",
   "status": "proved",
   "theorems": [
    "Indigo.Props.C04_header_count",
    "Indigo.Props.C04_too_many_headers"
   ],
   "note": ""
  },
  {
   "property": "C05",
   "status": "proved",
   "theorems": [
    "Indigo.Props.C05_long_line_refused",
    "Indigo.Props.C05_long_line_connection",
    "Indigo.Props.C05_memory_limits",
    "Indigo.Props.C05_stored_within_limits"
   ],
   "note": ""
  },
  {
   "property": "C06",
   "status": "partial",
   "theorems": [
    "Indigo.Props.C06_key_length_violation",
    "Indigo.Props.C06_key_space_partial",
    "Indigo.Props.C06_ignored_violation"
   ],
   "note": "The full property is false of the code: C06_key_length_violation, C06_ignored_violation prove the negation on concrete witnesses. The other theorems prove the part that holds."
  },
  {
   "property": "C07",
   "status": "partial",
   "theorems": [
    "Indigo.Props.C07_content_length_partial",
    "Indigo.Props.C07_no_content_length",
    "Indigo.Props.C07_content_length_violation"
   ],
   "note": "The full property is false of the code: C07_content_length_violation prove the negation on concrete witnesses. The other theorems prove the part that holds."
  },
  {
   "property": "C08",
   "status": "partial",
   "theorems": [
    "Indigo.Props.C08_special_names_partial",
    "Indigo.Props.C08_recognised_iff_partial",
    "Indigo.Props.C08_special_names_violation"
   ],
   "note": "The full property is false of the code: C08_special_names_violation prove the negation on concrete witnesses. The other theorems prove the part that holds."
  },
  {
   "property": "C09",
   "status": "proved",
   "theorems": [
    "Indigo.Props.C09_decode_inverts_encoding",
    "Indigo.Props.C09_roundtrip",
    "Indigo.Props.C09_unescaped",
    "Indigo.Props.C09_truncated"
   ],
   "note": ""
  },
  {
   "property": "C10",
   "status": "partial",
   "theorems": [
    "Indigo.Props.C10_bad_escape_accepted_violation",
    "Indigo.Props.C10_bad_escape_partial",
    "Indigo.Props.C10_exactly"
   ],
   "note": "The full property is false of the code: C10_bad_escape_accepted_violation prove the negation on concrete witnesses. The other theorems prove the part that holds."
  },
  {
   "property": "C11",
   "status": "proved",
   "theorems": [
    "Indigo.Props.C11_inplace_decoding_safe"
   ],
   "note": ""
  },
  {
   "property": "C12",
   "status": "partial",
   "theorems": [
    "Indigo.Props.C12_encoded_delimiters_violation",
    "Indigo.Props.C12_query_params_partial",
    "Indigo.Props.C12_empty_key_rejected",
    "Indigo.Props.C12_every_query",
    "Indigo.Props.C12_pieces_exist"
   ],
   "note": "The full property is false of the code: C12_encoded_delimiters_violation prove the negation on concrete witnesses. The other theorems prove the part that holds."
  },
  {
   "property": "C13",
   "status": "partial",
   "theorems": [
    "Indigo.Props.C13_malformed_query_forgotten_violation",
    "Indigo.Props.C13_first_access_partial",
    "Indigo.Props.C13_only_first",
    "Indigo.Props.C13_raw_partial",
    "Indigo.Props.C13_raw_after",
    "Indigo.Props.C13_raw_after_empty_key",
    "Indigo.Props.C13_empty_key_Get_partial",
    "Indigo.Props.C13_bad_escape_partial",
    "Indigo.Props.C13_wellformed_accepted",
    "Indigo.Props.C13_bad_digits_violation"
   ],
   "note": "The full property is false of the code: C13_malformed_query_forgotten_violation, C13_bad_digits_violation prove the negation on concrete witnesses. The other theorems prove the part that holds."
  },
  {
   "property": "C14",
   "status": "proved",
   "theorems": [
    "Indigo.Props.C14_storage_refines_multimap",
    "Indigo.Props.C14_case_insensitive",
    "Indigo.Props.C14_from_map"
   ],
   "note": ""
  },
  {
   "property": "C15",
   "status": "proved",
   "theorems": [
    "Indigo.Props.C15_method_recognised_iff",
    "Indigo.Props.C15_method_rendered",
    "Indigo.Props.C15_method_list"
   ],
   "note": ""
  },
  {
   "property": "C16",
   "status": "partial",
   "theorems": [
    "Indigo.Props.C16_no_panic",
    "Indigo.Props.C16_separator_not_checked_violation",
    "Indigo.Props.C16_proto_partial"
   ],
   "note": "The full property is false of the code: C16_separator_not_checked_violation prove the negation on concrete witnesses. The other theorems prove the part that holds."
  },
  {
   "property": "C17",
   "status": "partial",
   "theorems": [
    "Indigo.Props.C17_transfer_encoding_partial",
    "Indigo.Props.C17_request_transfer_partial",
    "Indigo.Props.C17_transfer_encoding_violation",
    "Indigo.Props.C17_unicode_space_violation"
   ],
   "note": "The full property is false of the code: C17_transfer_encoding_violation, C17_unicode_space_violation prove the negation on concrete witnesses. The other theorems prove the part that holds."
  },
  {
   "property": "C18",
   "status": "proved",
   "theorems": [
    "Indigo.Props.C18_sized_body",
    "Indigo.Props.C18_chunked_body",
    "Indigo.Props.C18_chunked_coding"
   ],
   "note": ""
  },
  {
   "property": "C19",
   "status": "proved",
   "theorems": [
    "Indigo.Props.C19_delivered_within_limit",
    "Indigo.Props.C19_sized_too_large",
    "Indigo.Props.C19_chunked_too_large"
   ],
   "note": ""
  },
  {
   "property": "C20",
   "status": "proved",
   "theorems": [
    "Indigo.Props.C20_accessors_agree",
    "Indigo.Props.C20_bytes_again",
    "Indigo.Props.C20_nothing_left"
   ],
   "note": ""
  },
  {
   "property": "C21",
   "status": "partial",
   "theorems": [
    "Indigo.Props.C21_stale_body_violation",
    "Indigo.Props.C21_own_body_partial",
    "Indigo.Props.C21_bytes_first_partial"
   ],
   "note": "The full property is false of the code: C21_stale_body_violation prove the negation on concrete witnesses. The other theorems prove the part that holds."
  },
  {
   "property": "C22",
   "status": "proved",
   "theorems": [
    "Indigo.Props.C22_pipelining",
    "Indigo.Props.C22_each_its_own",
    "Indigo.Props.C22_all_served"
   ],
   "note": ""
  },
  {
   "property": "C23",
   "status": "partial",
   "theorems": [
    "Indigo.Props.C23_stale_path_violation",
    "Indigo.Props.C23_no_leak_partial",
    "Indigo.Props.C23_encryption_violation",
    "Indigo.Props.C23_remote_violation"
   ],
   "note": "The full property is false of the code: C23_stale_path_violation, C23_encryption_violation, C23_remote_violation prove the negation on concrete witnesses. The other theorems prove the part that holds."
  },
  {
   "property": "C24",
   "status": "proved",
   "theorems": [
    "Indigo.Props.C24_no_byte_lost",
    "Indigo.Props.C24_read_after_unread"
   ],
   "note": ""
  },
  {
   "property": "C25",
   "status": "partial",
   "theorems": [
    "Indigo.Props.C25_every_head_partial",
    "Indigo.Props.C25_response_readable_partial",
    "Indigo.Props.C25_content_length",
    "Indigo.Props.C25_unknown_version_violation",
    "Indigo.Props.C25_attachment_cookies_violation",
    "Indigo.Props.C25_attachment_head_partial"
   ],
   "note": "The full property is false of the code: C25_unknown_version_violation, C25_attachment_cookies_violation prove the negation on concrete witnesses. The other theorems prove the part that holds."
  },
  {
   "property": "C26",
   "status": "partial",
   "theorems": [
    "Indigo.Props.C26_every_head_partial",
    "Indigo.Props.C26_header_injection_violation",
    "Indigo.Props.C26_response_splitting_violation",
    "Indigo.Props.C26_clean_values_partial"
   ],
   "note": "The full property is false of the code: C26_header_injection_violation, C26_response_splitting_violation prove the negation on concrete witnesses. The other theorems prove the part that holds."
  },
  {
   "property": "C27",
   "status": "partial",
   "theorems": [
    "Indigo.Props.C27_every_head_partial",
    "Indigo.Props.C27_default_header_lost_violation",
    "Indigo.Props.C27_history_partial",
    "Indigo.Props.C27_default_headers_partial"
   ],
   "note": "The full property is false of the code: C27_default_header_lost_violation prove the negation on concrete witnesses. The other theorems prove the part that holds."
  },
  {
   "property": "C28",
   "status": "proved",
   "theorems": [
    "Indigo.Props.C28_head_response",
    "Indigo.Props.C28_head_only"
   ],
   "note": ""
  },
  {
   "property": "C29",
   "status": "partial",
   "theorems": [
    "Indigo.Props.C29_chunked_attachment_partial",
    "Indigo.Props.C29_chunked_failures_partial",
    "Indigo.Props.C29_huge_buffer_violation"
   ],
   "note": "The full property is false of the code: C29_huge_buffer_violation prove the negation on concrete witnesses. The other theorems prove the part that holds."
  },
  {
   "property": "C30",
   "status": "partial",
   "theorems": [
    "Indigo.Props.C30_data_with_eof_violation",
    "Indigo.Props.C30_sized_attachment_partial"
   ],
   "note": "The full property is false of the code: C30_data_with_eof_violation prove the negation on concrete witnesses. The other theorems prove the part that holds."
  },
  {
   "property": "C31",
   "status": "partial",
   "theorems": [
    "Indigo.Props.C31_keep_alive_partial",
    "Indigo.Props.C31_kept_iff_partial",
    "Indigo.Props.C31_attachment_violation",
    "Indigo.Props.C31_upgrade_violation"
   ],
   "note": "The full property is false of the code: C31_attachment_violation, C31_upgrade_violation prove the negation on concrete witnesses. The other theorems prove the part that holds."
  },
  {
   "property": "C32",
   "status": "partial",
   "theorems": [
    "Indigo.Props.C32_reply_readable",
    "Indigo.Props.C32_stale_method_violation",
    "Indigo.Props.C32_no_version_violation",
    "Indigo.Props.C32_malformed_partial",
    "Indigo.Props.C32_not_handled_partial",
    "Indigo.Props.C32_version_violation"
   ],
   "note": "The full property is false of the code: C32_stale_method_violation, C32_no_version_violation, C32_version_violation prove the negation on concrete witnesses. The other theorems prove the part that holds."
  },
  {
   "property": "C33",
   "status": "proved",
   "theorems": [
    "Indigo.Props.C33_parse_of_rendering",
    "Indigo.Props.C33_parse_accepts_exactly",
    "Indigo.Props.C33_request_cookies",
    "Indigo.Props.C33_request_cookies_again"
   ],
   "note": ""
  },
  {
   "property": "C34",
   "status": "partial",
   "theorems": [
    "Indigo.Props.C34_every_cookie_partial",
    "Indigo.Props.C34_max_age_violation",
    "Indigo.Props.C34_set_cookie_partial"
   ],
   "note": "The full property is false of the code: C34_max_age_violation prove the negation on concrete witnesses. The other theorems prove the part that holds."
  },
  {
   "property": "C35",
   "status": "proved",
   "theorems": [
    "Indigo.Props.C35_registered",
    "Indigo.Props.C35_head",
    "Indigo.Props.C35_method_not_allowed",
    "Indigo.Props.C35_allow_header",
    "Indigo.Props.C35_history",
    "Indigo.Props.C35_no_panic"
   ],
   "note": ""
  },
  {
   "property": "C36",
   "status": "partial",
   "theorems": [
    "Indigo.Props.C36_parse_partial",
    "Indigo.Props.C36_registration",
    "Indigo.Props.C36_match_partial",
    "Indigo.Props.C36_precedence_violation",
    "Indigo.Props.C36_root_violation",
    "Indigo.Props.C36_leading_variable_violation",
    "Indigo.Props.C36_leftover_parameters_violation",
    "Indigo.Props.C36_double_slash_violation",
    "Indigo.Props.C36_accepted",
    "Indigo.Props.C36_meant",
    "Indigo.Props.C36_registration_exactly",
    "Indigo.Props.C36_match_exactly",
    "Indigo.Props.C36_left",
    "Indigo.Props.C36_slashes_unreachable_violation",
    "Indigo.Props.C36_routed_partial",
    "Indigo.Props.C36_not_allowed_partial",
    "Indigo.Props.C36_not_found_partial",
    "Indigo.Props.C36_accepted_partial",
    "Indigo.Props.C36_head_partial",
    "Indigo.Props.C36_history_partial"
   ],
   "note": "The full property is false of the code: C36_precedence_violation, C36_root_violation, C36_leading_variable_violation, C36_leftover_parameters_violation, C36_double_slash_violation, C36_slashes_unreachable_violation prove the negation on concrete witnesses. The other theorems prove the part that holds."
  },
  {
   "property": "C37",
   "status": "partial",
   "theorems": [
    "Indigo.Props.C37_parse_partial",
    "Indigo.Props.C37_never_crosses_partial",
    "Indigo.Props.C37_never_overwritten_partial",
    "Indigo.Props.C37_one_letter_violation",
    "Indigo.Props.C37_overwritten_violation",
    "Indigo.Props.C37_unfinished_violation"
   ],
   "note": "The full property is false of the code: C37_one_letter_violation, C37_overwritten_violation, C37_unfinished_violation prove the negation on concrete witnesses. The other theorems prove the part that holds."
  },
  {
   "property": "C38",
   "status": "proved",
   "theorems": [
    "Indigo.Props.C38_routes",
    "Indigo.Props.C38_catchers",
    "Indigo.Props.C38_order"
   ],
   "note": ""
  },
  {
   "property": "C39",
   "status": "proved",
   "theorems": [
    "Indigo.Props.C39_catcher_path",
    "Indigo.Props.C39_not_registered"
   ],
   "note": ""
  },
  {
   "property": "C40",
   "status": "partial",
   "theorems": [
    "Indigo.C40_contained_partial",
    "Indigo.C40_clean_prefix_partial",
    "Indigo.C40_serves_partial",
    "Indigo.C40_concurrent_violation",
    "Indigo.C40_unclean_prefix_violation"
   ],
   "note": "The full property is false of the code: C40_concurrent_violation, C40_unclean_prefix_violation prove the negation on concrete witnesses. The other theorems prove the part that holds."
  },
  {
   "property": "C41",
   "status": "proved",
   "theorems": [
    "Indigo.Props.C41_always_one",
    "Indigo.Props.C41_chosen",
    "Indigo.Props.C41_last_counts",
    "Indigo.Props.C41_default_code",
    "Indigo.Props.C41_other_errors"
   ],
   "note": ""
  },
  {
   "property": "C42",
   "status": "partial",
   "theorems": [
    "Indigo.Props.C42_history",
    "Indigo.Props.C42_first_partial",
    "Indigo.Props.C42_trace_violation",
    "Indigo.Props.C42_variables_history",
    "Indigo.Props.C42_variables_first_partial",
    "Indigo.Props.C42_wire",
    "Indigo.Props.C42_wire_violation"
   ],
   "note": "The full property is false of the code: C42_trace_violation, C42_wire_violation prove the negation on concrete witnesses. The other theorems prove the part that holds."
  },
  {
   "property": "C43",
   "status": "partial",
   "theorems": [
    "Indigo.Props.C43_trailing_slashes_partial",
    "Indigo.Props.C43_short_paths_partial",
    "Indigo.Props.C43_idempotent",
    "Indigo.Props.C43_only_slashes_removed",
    "Indigo.Props.C43_one_letter_violation",
    "Indigo.Props.C43_root_violation"
   ],
   "note": "The full property is false of the code: C43_one_letter_violation, C43_root_violation prove the negation on concrete witnesses. The other theorems prove the part that holds."
  },
  {
   "property": "C44",
   "status": "partial",
   "theorems": [
    "Indigo.C44_selected_as_sent_partial",
    "Indigo.C44_selected_partial",
    "Indigo.C44_unknown_as_sent_partial",
    "Indigo.C44_unknown_partial",
    "Indigo.C44_missing",
    "Indigo.C44_repeated",
    "Indigo.C44_www_violation",
    "Indigo.C44_port_violation"
   ],
   "note": "The full property is false of the code: C44_www_violation, C44_port_violation prove the negation on concrete witnesses. The other theorems prove the part that holds."
  },
  {
   "property": "C45",
   "status": "partial",
   "theorems": [
    "Indigo.Props.C45_plain_listener_violation",
    "Indigo.C45_plain_partial",
    "Indigo.C45_encrypted_partial",
    "Indigo.C45_ipv6_violation",
    "Indigo.Props.C45_router_partial",
    "Indigo.Props.C45_second_request_violation"
   ],
   "note": "The full property is false of the code: C45_plain_listener_violation, C45_ipv6_violation, C45_second_request_violation prove the negation on concrete witnesses. The other theorems prove the part that holds."
  },
  {
   "property": "C46",
   "status": "partial",
   "theorems": [
    "Indigo.App.C46_at_most_one_partial",
    "Indigo.App.C46_all_gone_partial",
    "Indigo.App.C46_served_after_OnStop_violation"
   ],
   "note": "The full property is false of the code: C46_served_after_OnStop_violation prove the negation on concrete witnesses. The other theorems prove the part that holds."
  },
  {
   "property": "C47",
   "status": "partial",
   "theorems": [
    "Indigo.App.C47_call_returns_partial",
    "Indigo.App.C47_terminates_once",
    "Indigo.App.C47_bounded",
    "Indigo.App.C47_progress",
    "Indigo.App.C47_connections_end",
    "Indigo.App.C47_later_calls_block_violation",
    "Indigo.App.C47_restart_violation",
    "Indigo.App.C47_graceful_partial",
    "Indigo.App.C47_accepts_after_graceful_violation",
    "Indigo.App.C47_listener_failure",
    "Indigo.App.C47_one_report"
   ],
   "note": "The full property is false of the code: C47_later_calls_block_violation, C47_restart_violation, C47_accepts_after_graceful_violation prove the negation on concrete witnesses. The other theorems prove the part that holds."
  },
  {
   "property": "C48",
   "status": "partial",
   "theorems": [
    "Indigo.App.C48_last_handler_wins",
    "Indigo.App.C48_one_handler_partial",
    "Indigo.App.C48_wrong_handler_violation",
    "Indigo.App.C48_plain_taken_for_TLS_violation"
   ],
   "note": "The full property is false of the code: C48_wrong_handler_violation, C48_plain_taken_for_TLS_violation prove the negation on concrete witnesses. The other theorems prove the part that holds."
  },
  {
   "property": "C49",
   "status": "partial",
   "theorems": [
    "Indigo.Props.C49_fill_partial",
    "Indigo.Props.C49_fill_headers",
    "Indigo.Props.C49_cookies_violation",
    "Indigo.Props.C49_fill_idempotent",
    "Indigo.Props.C49_fill_nonzero_partial",
    "Indigo.Props.C49_default_consistent",
    "Indigo.Props.C49_empty_partial",
    "Indigo.Props.C49_documented_partial",
    "Indigo.Props.C49_default_limits",
    "Indigo.Props.C49_default_timeout"
   ],
   "note": "The full property is false of the code: C49_cookies_violation prove the negation on concrete witnesses. The other theorems prove the part that holds."
  },
  {
   "property": "C50",
   "status": "partial",
   "theorems": [
    "Indigo.Props.C50_left_alone",
    "Indigo.Props.C50_rest_readable",
    "Indigo.Props.C50_error_handler_violation"
   ],
   "note": "The full property is false of the code: C50_error_handler_violation prove the negation on concrete witnesses. The other theorems prove the part that holds."
  },
  {
   "property": "C51",
   "status": "partial",
   "theorems": [
    "Indigo.Props.C51_every_head_partial",
    "Indigo.Props.C51_status_line_partial",
    "Indigo.Props.C51_custom_phrase_violation",
    "Indigo.Props.C51_101_violation",
    "Indigo.Props.C51_names"
   ],
   "note": "The full property is false of the code: C51_custom_phrase_violation, C51_101_violation prove the negation on concrete witnesses. The other theorems prove the part that holds."
  },
  {
   "property": "C52",
   "status": "proved",
   "theorems": [
    "Indigo.Props.C52_calls",
    "Indigo.Props.C52_respond_blank",
    "Indigo.Props.C52_blank",
    "Indigo.Props.C52_error",
    "Indigo.Props.C52_shorthands"
   ],
   "note": ""
  },
  {
   "property": "C53",
   "status": "partial",
   "theorems": [
    "Indigo.Props.C53_printable_unchanged",
    "Indigo.Props.C53_multibyte_violation",
    "Indigo.Props.C53_ascii_partial",
    "Indigo.Props.C53_no_control_characters_partial",
    "Indigo.Props.C53_pieces",
    "Indigo.Props.C53_exact"
   ],
   "note": "The full property is false of the code: C53_multibyte_violation prove the negation on concrete witnesses. The other theorems prove the part that holds."
  },
  {
   "property": "C54",
   "status": "partial",
   "theorems": [
    "Indigo.Props.C54_strlenmap",
    "Indigo.Props.C54_arrmap_partial",
    "Indigo.Props.C54_arrmap_exact_partial",
    "Indigo.Props.C54_arrmap_repeated_violation"
   ],
   "note": "The full property is false of the code: C54_arrmap_repeated_violation prove the negation on concrete witnesses. The other theorems prove the part that holds."
  },
  {
   "property": "C55",
   "status": "partial",
   "theorems": [
    "Indigo.Props.C55_valueOf",
    "Indigo.Props.C55_paramOf",
    "Indigo.Props.C55_charsetOf",
    "Indigo.Props.C55_qualityOf",
    "Indigo.Props.C55_quality_signed",
    "Indigo.Props.C55_space_violation",
    "Indigo.Props.C55_quality_order_violation"
   ],
   "note": "The full property is false of the code: C55_space_violation, C55_quality_order_violation prove the negation on concrete witnesses. The other theorems prove the part that holds."
  },
  {
   "property": "C56",
   "status": "partial",
   "theorems": [
    "Indigo.Props.C56_names_old_protocol_violation",
    "Indigo.Props.C56_headers_pile_up_violation",
    "Indigo.Props.C56_first_supported_token",
    "Indigo.Props.C56_answers_partial"
   ],
   "note": "The full property is false of the code: C56_names_old_protocol_violation, C56_headers_pile_up_violation prove the negation on concrete witnesses. The other theorems prove the part that holds."
  },
  {
   "property": "C57",
   "status": "partial",
   "theorems": [
    "Indigo.Props.C57_alias_partial",
    "Indigo.Props.C57_in_order_partial",
    "Indigo.Props.C57_unclean_violation",
    "Indigo.Props.C57_chain_violation"
   ],
   "note": "The full property is false of the code: C57_unclean_violation, C57_chain_violation prove the negation on concrete witnesses. The other theorems prove the part that holds."
  },
  {
   "property": "C58",
   "status": "proved",
   "theorems": [
    "Indigo.Props.C58_normalize",
    "Indigo.Props.C58_idempotent",
    "Indigo.Props.C58_port_kept"
   ],
   "note": ""
  },
  {
   "property": "C59",
   "status": "proved",
   "theorems": [
    "Indigo.Props.C59_reachable",
    "Indigo.Props.C59_conflicts"
   ],
   "note": ""
  },
  {
   "property": "C60",
   "status": "partial",
   "theorems": [
    "Indigo.Props.C60_truncated_body_violation",
    "Indigo.Props.C60_interrupted_body_partial"
   ],
   "note": "The full property is false of the code: C60_truncated_body_violation prove the negation on concrete witnesses. The other theorems prove the part that holds."
  },
  {
   "property": "C61",
   "status": "partial",
   "theorems": [
    "Indigo.Props.C61_huge_length_violation",
    "Indigo.Props.C61_bytes_no_panic_partial"
   ],
   "note": "The full property is false of the code: C61_huge_length_violation prove the negation on concrete witnesses. The other theorems prove the part that holds."
  },
  {
   "property": "C62",
   "status": "partial",
   "theorems": [
    "Indigo.Props.C62_rejected_body_violation",
    "Indigo.Props.C62_rejected_sized_body_partial"
   ],
   "note": "The full property is false of the code: C62_rejected_body_violation prove the negation on concrete witnesses. The other theorems prove the part that holds."
  },
  {
   "property": "C63",
   "status": "partial",
   "theorems": [
    "Indigo.Props.C63_every_response_partial",
    "Indigo.Props.C63_one_framing_partial",
    "Indigo.Props.C63_one_framing_attachment_partial",
    "Indigo.Props.C63_both_headers_violation",
    "Indigo.Props.C63_two_lengths_violation",
    "Indigo.Props.C63_longer_attachment_violation",
    "Indigo.Props.C63_shorter_attachment_violation"
   ],
   "note": "The full property is false of the code: C63_both_headers_violation, C63_two_lengths_violation, C63_longer_attachment_violation, C63_shorter_attachment_violation prove the negation on concrete witnesses. The other theorems prove the part that holds."
  },
  {
   "property": "C64",
   "status": "partial",
   "theorems": [
    "Indigo.Props.C64_attachment_closed_partial",
    "Indigo.Props.C64_head_not_closed_violation",
    "Indigo.Props.C64_failed_head_not_closed_violation"
   ],
   "note": "The full property is false of the code: C64_head_not_closed_violation, C64_failed_head_not_closed_violation prove the negation on concrete witnesses. The other theorems prove the part that holds."
  },
  {
   "property": "C65",
   "status": "partial",
   "theorems": [
    "Indigo.Props.C65_every_response_partial",
    "Indigo.Props.C65_chunked_to_http10_violation",
    "Indigo.Props.C65_no_coding_partial"
   ],
   "note": "The full property is false of the code: C65_chunked_to_http10_violation prove the negation on concrete witnesses. The other theorems prove the part that holds."
  },
  {
   "property": "C66",
   "status": "partial",
   "theorems": [
    "Indigo.Props.C66_zero_body_limit_violation",
    "Indigo.Props.C66_body_limit_partial"
   ],
   "note": "The full property is false of the code: C66_zero_body_limit_violation prove the negation on concrete witnesses. The other theorems prove the part that holds."
  },
  {
   "property": "C67",
   "status": "proved",
   "theorems": [
    "Indigo.Props.C67_identity",
    "Indigo.Props.C67_dispatch",
    "Indigo.Props.C67_round_trip"
   ],
   "note": ""
  },
  {
   "property": "C68",
   "status": "proved",
   "theorems": [
    "Indigo.C68_redirect",
    "Indigo.C68_server_header",
    "Indigo.C68_custom_context"
   ],
   "note": ""
  },
  {
   "property": "C69",
   "status": "proved",
   "theorems": [
    "Indigo.Props.C69_every_stream",
    "Indigo.Props.C69_one_fault",
    "Indigo.Props.C69_fault_reported",
    "Indigo.Props.C69_acceptable_or_fault"
   ],
   "note": ""
  },
  {
   "property": "C70",
   "status": "proved",
   "theorems": [
    "Indigo.Props.C70_open_head",
    "Indigo.Props.C70_unfinished_head"
   ],
   "note": ""
  },
  {
   "property": "C71",
   "status": "partial",
   "theorems": [
    "Indigo.Props.C71_replies_readable_for",
    "Indigo.Props.C71_replies_readable",
    "Indigo.Props.C71_no_content_violation"
   ],
   "note": "The full property is false of the code: C71_no_content_violation prove the negation on concrete witnesses. The other theorems prove the part that holds."
  },
  {
   "property": "C72",
   "status": "partial",
   "theorems": [
    "Indigo.App.C72_all_bound",
    "Indigo.App.C72_listeners",
    "Indigo.App.C72_first_failure",
    "Indigo.App.C72_left_open_violation"
   ],
   "note": "The full property is false of the code: C72_left_open_violation prove the negation on concrete witnesses. The other theorems prove the part that holds."
  },
  {
   "property": "C73",
   "status": "partial",
   "theorems": [
    "Indigo.App.C73_autocert_partial",
    "Indigo.App.C73_selfSigned_partial",
    "Indigo.App.C73_domains_ignored_violation",
    "Indigo.App.C73_version_6_violation",
    "Indigo.App.C73_not_listening_violation"
   ],
   "note": "The full property is false of the code: C73_domains_ignored_violation, C73_version_6_violation, C73_not_listening_violation prove the negation on concrete witnesses. The other theorems prove the part that holds."
  },
  {
   "property": "C74",
   "status": "partial",
   "theorems": [
    "Indigo.Props.C74_requests_partial",
    "Indigo.Props.C74_errors",
    "Indigo.Props.C74_any_error",
    "Indigo.Props.C74_trace_bypasses_violation"
   ],
   "note": "The full property is false of the code: C74_trace_bypasses_violation prove the negation on concrete witnesses. The other theorems prove the part that holds."
  },
  {
   "property": "C75",
   "status": "proved",
   "theorems": [
    "Indigo.Props.C75_transparent",
    "Indigo.Props.C75_panic_is_500",
    "Indigo.Props.C75_connection"
   ],
   "note": ""
  },
  {
   "property": "C76",
   "status": "partial",
   "theorems": [
    "Indigo.Props.C76_one_line",
    "Indigo.Props.C76_no_forged_lines",
    "Indigo.Props.C76_mutator",
    "Indigo.Props.C76_stale_path_violation"
   ],
   "note": "The full property is false of the code: C76_stale_path_violation prove the negation on concrete witnesses. The other theorems prove the part that holds."
  },
  {
   "property": "C77",
   "status": "proved",
   "theorems": [
    "Indigo.Props.C77_shorthands",
    "Indigo.Props.C77_resource",
    "Indigo.Props.C77_resource_catcher"
   ],
   "note": ""
  },
  {
   "property": "C78",
   "status": "partial",
   "theorems": [
    "Indigo.Props.C78_total",
    "Indigo.Props.C78_connection_partial",
    "Indigo.Props.C78_empty_alias_violation"
   ],
   "note": "The full property is false of the code: C78_empty_alias_violation prove the negation on concrete witnesses. The other theorems prove the part that holds."
  },
  {
   "property": "C79",
   "status": "partial",
   "theorems": [
    "Indigo.Props.C79_guarantee",
    "Indigo.Props.C79_interference_partial",
    "Indigo.Props.C79_isolated_partial",
    "Indigo.Props.C79_trace_violation"
   ],
   "note": "The full property is false of the code: C79_trace_violation prove the negation on concrete witnesses. The other theorems prove the part that holds."
  },
  {
   "property": "C80",
   "status": "partial",
   "theorems": [
    "Indigo.Props.C80_data_unchanged_partial",
    "Indigo.Props.C80_as_values_partial",
    "Indigo.Props.C80_json_violation",
    "Indigo.Props.C80_write_violation"
   ],
   "note": "The full property is false of the code: C80_json_violation, C80_write_violation prove the negation on concrete witnesses. The other theorems prove the part that holds."
  },
  {
   "property": "C81",
   "status": "partial",
   "theorems": [
    "Indigo.Props.C81_bounded_partial",
    "Indigo.Props.C81_file_pieces_partial",
    "Indigo.Props.C81_file_buffer_violation"
   ],
   "note": "The full property is false of the code: C81_file_buffer_violation prove the negation on concrete witnesses. The other theorems prove the part that holds."
  },
  {
   "property": "C82",
   "status": "partial",
   "theorems": [
    "Indigo.Props.C82_decoded_partial",
    "Indigo.Props.C82_refused",
    "Indigo.Props.C82_body_error",
    "Indigo.Props.C82_media_type_violation"
   ],
   "note": "The full property is false of the code: C82_media_type_violation prove the negation on concrete witnesses. The other theorems prove the part that holds."
  },
  {
   "property": "C83",
   "status": "proved",
   "theorems": [
    "Indigo.Props.C83_site"
   ],
   "note": ""
  },
  {
   "property": "C84",
   "status": "partial",
   "theorems": [
    "Indigo.BodyMem.C84_not_overwritten_partial",
    "Indigo.BodyMem.C84_tidy_partial",
    "Indigo.BodyMem.C84_kept_partial",
    "Indigo.BodyMem.C84_mixing_violation",
    "Indigo.BodyMem.C84_string_violation"
   ],
   "note": "The full property is false of the code: C84_mixing_violation, C84_string_violation prove the negation on concrete witnesses. The other theorems prove the part that holds."
  },
  {
   "property": "C85",
   "status": "partial",
   "theorems": [
    "Indigo.Certs.C85_next_start_partial",
    "Indigo.Certs.C85_used_again",
    "Indigo.Certs.C85_crash_violation",
    "Indigo.Certs.C85_stat_violation",
    "Indigo.Certs.C85_race_violation"
   ],
   "note": "The full property is false of the code: C85_crash_violation, C85_stat_violation, C85_race_violation prove the negation on concrete witnesses. The other theorems prove the part that holds."
  },
  {
   "property": "C86",
   "status": "partial",
   "theorems": [
    "Indigo.Arena.C86_during_request_partial",
    "Indigo.Arena.C86_clone_violation"
   ],
   "note": "The full property is false of the code: C86_clone_violation prove the negation on concrete witnesses. The other theorems prove the part that holds."
  },
  {
   "property": "C87",
   "status": "proved",
   "theorems": [
    "Indigo.Props.C87_program",
    "Indigo.Props.C87_malformed",
    "Indigo.Props.C87_trace"
   ],
   "note": ""
  },
  {
   "property": "C88",
   "status": "partial",
   "theorems": [
    "Indigo.Props.C88_type",
    "Indigo.Props.C88_buffer",
    "Indigo.Props.C88_handler",
    "Indigo.Props.C88_handler_buffer",
    "Indigo.Props.C88_files_partial",
    "Indigo.Props.C88_empty_file_violation",
    "Indigo.Props.C88_sibling_violation",
    "Indigo.Props.C88_group_violation",
    "Indigo.Props.C88_method_violation"
   ],
   "note": "The full property is false of the code: C88_empty_file_violation, C88_sibling_violation, C88_group_violation, C88_method_violation prove the negation on concrete witnesses. The other theorems prove the part that holds."
  },
  {
   "property": "C89",
   "status": "proved",
   "theorems": [
    "Indigo.Props.C89_many_clients",
    "Indigo.Props.C89_whatever"
   ],
   "note": ""
  },
  {
   "property": "C90",
   "status": "partial",
   "theorems": [
    "Indigo.Props.C90_agrees_partial",
    "Indigo.Props.C90_smuggled_violation",
    "Indigo.Props.C90_swallowed_violation"
   ],
   "note": "The full property is false of the code: C90_smuggled_violation, C90_swallowed_violation prove the negation on concrete witnesses. The other theorems prove the part that holds."
  },
  {
   "property": "C91",
   "status": "proved",
   "theorems": [
    "Indigo.Props.C91_last_request",
    "Indigo.Props.C91_nothing_after"
   ],
   "note": ""
  },
  {
   "property": "C92",
   "status": "partial",
   "theorems": [
    "Indigo.Props.C92_first",
    "Indigo.Props.C92_groups_violation",
    "Indigo.Props.C92_no_groups",
    "Indigo.Props.C92_same_partial",
    "Indigo.Props.C92_hosts_partial",
    "Indigo.Props.C92_middlewares_violation",
    "Indigo.Props.C92_catchers_violation"
   ],
   "note": "The full property is false of the code: C92_groups_violation, C92_middlewares_violation, C92_catchers_violation prove the negation on concrete witnesses. The other theorems prove the part that holds."
  },
  {
   "property": "C93",
   "status": "proved",
   "theorems": [
    "Indigo.Props.C93_every_connection",
    "Indigo.Props.C93_one_reading"
   ],
   "note": ""
  },
  {
   "property": "C94",
   "status": "partial",
   "theorems": [
    "Indigo.Props.C94_left_open",
    "Indigo.Props.C94_closed_partial",
    "Indigo.Props.C94_directories_violation",
    "Indigo.Props.C94_replaced_violation",
    "Indigo.Props.C94_forgotten_violation"
   ],
   "note": "The full property is false of the code: C94_directories_violation, C94_replaced_violation, C94_forgotten_violation prove the negation on concrete witnesses. The other theorems prove the part that holds."
  },
  {
   "property": "C95",
   "status": "partial",
   "theorems": [
    "Indigo.Props.C95_nil_is_blank_partial",
    "Indigo.Props.C95_log_violation",
    "Indigo.Props.C95_server_header_violation"
   ],
   "note": "The full property is false of the code: C95_log_violation, C95_server_header_violation prove the negation on concrete witnesses. The other theorems prove the part that holds."
  },
  {
   "property": "C96",
   "status": "partial",
   "theorems": [
    "Indigo.Props.C96_last_request_partial",
    "Indigo.Props.C96_nothing_after_partial",
    "Indigo.Props.C96_unreadable_rest",
    "Indigo.Props.C96_smuggled_violation",
    "Indigo.Props.C96_malformed_violation"
   ],
   "note": "The full property is false of the code: C96_smuggled_violation, C96_malformed_violation prove the negation on concrete witnesses. The other theorems prove the part that holds."
  },
  {
   "property": "C97",
   "status": "partial",
   "theorems": [
    "Indigo.Props.C97_lost_request_violation",
    "Indigo.Props.C97_lost_body_violation",
    "Indigo.Props.C97_separately_partial"
   ],
   "note": "The full property is false of the code: C97_lost_request_violation, C97_lost_body_violation prove the negation on concrete witnesses. The other theorems prove the part that holds."
  },
  {
   "property": "C98",
   "status": "proved",
   "theorems": [
    "Indigo.Props.C98_deadline",
    "Indigo.Props.C98_lively_served",
    "Indigo.Props.C98_all_served",
    "Indigo.Props.C98_no_total_limit"
   ],
   "note": ""
  },
  {
   "property": "C99",
   "status": "partial",
   "theorems": [
    "Indigo.Props.C99_any_client_partial",
    "Indigo.Props.C99_hosts"
   ],
   "note": ""
  },
  {
   "property": "C100",
   "status": "proved",
   "theorems": [
    "Indigo.Props.C100_two_functions"
   ],
   "note": ""
  },
  {
   "property": "C101",
   "status": "partial",
   "theorems": [
    "Indigo.Props.C101_every_client_partial",
    "Indigo.Props.C101_program_partial",
    "Indigo.Props.C101_any_program_partial",
    "Indigo.Props.C101_long_method_violation",
    "Indigo.Props.C101_no_version_violation"
   ],
   "note": "The full property is false of the code: C101_long_method_violation, C101_no_version_violation prove the negation on concrete witnesses. The other theorems prove the part that holds."
  },
  {
   "property": "C102",
   "status": "partial",
   "theorems": [
    "Indigo.Props.C102_combined_partial",
    "Indigo.Props.C102_combined_violation",
    "Indigo.Props.C102_helloworld",
    "Indigo.Props.C102_dynroute",
    "Indigo.Props.C102_norouter",
    "Indigo.Props.C102_middlewares",
    "Indigo.Props.C102_connhijack"
   ],
   "note": "The full property is false of the code: C102_combined_violation prove the negation on concrete witnesses. The other theorems prove the part that holds."
  },
  {
   "property": "C103",
   "status": "proved",
   "theorems": [
    "Indigo.Props.C103_new",
    "Indigo.Props.C103_respond"
   ],
   "note": ""
  },
  {
   "property": "C104",
   "status": "partial",
   "theorems": [
    "Indigo.Props.C104_accepted",
    "Indigo.Props.C104_one_route",
    "Indigo.Props.C104_every_router",
    "Indigo.Props.C104_history",
    "Indigo.Props.C104_dead_route_violation",
    "Indigo.Props.C104_map_order_violation"
   ],
   "note": "The full property is false of the code: C104_dead_route_violation, C104_map_order_violation prove the negation on concrete witnesses. The other theorems prove the part that holds."
  },
  {
   "property": "C105",
   "status": "partial",
   "theorems": [
    "Indigo.Props.C105_parser_partial",
    "Indigo.Props.C105_request_line_parser",
    "Indigo.Props.C105_long_line_parser",
    "Indigo.Props.C105_error_handler_partial",
    "Indigo.Props.C105_long_line",
    "Indigo.Props.C105_segments_violation"
   ],
   "note": "The full property is false of the code: C105_segments_violation prove the negation on concrete witnesses. The other theorems prove the part that holds."
  },
  {
   "property": "C106",
   "status": "partial",
   "theorems": [
    "Indigo.Https.C106_names_partial",
    "Indigo.Https.C106_any_name_violation",
    "Indigo.Https.C106_no_certificate_violation",
    "Indigo.Https.C106_cache",
    "Indigo.Https.C106_ten_years",
    "Indigo.Https.C106_no_host_violation",
    "Indigo.Https.C106_expired_violation"
   ],
   "note": "The full property is false of the code: C106_any_name_violation, C106_no_certificate_violation, C106_no_host_violation, C106_expired_violation prove the negation on concrete witnesses. The other theorems prove the part that holds."
  },
  {
   "property": "C107",
   "status": "proved",
   "theorems": [
    "Indigo.Props.C107_calls",
    "Indigo.Props.C107_answers",
    "Indigo.Props.C107_hosts",
    "Indigo.Props.C107_program"
   ],
   "note": ""
  },
  {
   "property": "C108",
   "status": "partial",
   "theorems": [
    "Indigo.Props.C108_OnStart_violation",
    "Indigo.Props.C108_OnStop_violation",
    "Indigo.Props.C108_second_handler_violation",
    "Indigo.Props.C108_first_handler_partial",
    "Indigo.Props.C108_goes_on_partial"
   ],
   "note": "The full property is false of the code: C108_OnStart_violation, C108_OnStop_violation, C108_second_handler_violation prove the negation on concrete witnesses. The other theorems prove the part that holds."
  },
  {
   "property": "C109",
   "status": "proved",
   "theorems": [
    "Indigo.Props.C109_beginning",
    "Indigo.Props.C109_last_write",
    "Indigo.Props.C109_answers",
    "Indigo.Props.C109_program",
    "Indigo.Props.C109_hosts"
   ],
   "note": ""
  },
  {
   "property": "C110",
   "status": "proved",
   "theorems": [
    "Indigo.Props.C110_same_answers",
    "Indigo.Props.C110_two_functions",
    "Indigo.Props.C110_hosts",
    "Indigo.Props.C110_program"
   ],
   "note": ""
  },
  {
   "property": "C111",
   "status": "partial",
   "theorems": [
    "Indigo.Props.C111_reuse_partial",
    "Indigo.Props.C111_two_functions_partial",
    "Indigo.Props.C111_program_partial",
    "Indigo.Props.C111_defaults_violation",
    "Indigo.Props.C111_hosts_partial"
   ],
   "note": "The full property is false of the code: C111_defaults_violation prove the negation on concrete witnesses. The other theorems prove the part that holds."
  },
  {
   "property": "C112",
   "status": "proved",
   "theorems": [
    "Indigo.Props.C112_hosts",
    "Indigo.Props.C112_head_like_get",
    "Indigo.Props.C112_program",
    "Indigo.Props.C112_two_functions"
   ],
   "note": ""
  },
  {
   "property": "C113",
   "status": "proved",
   "theorems": [
    "Indigo.Props.C113_same_said",
    "Indigo.Props.C113_two_functions",
    "Indigo.Props.C113_program",
    "Indigo.Props.C113_hosts"
   ],
   "note": ""
  },
  {
   "property": "C114",
   "status": "proved",
   "theorems": [
    "Indigo.Props.C114_any_case",
    "Indigo.Props.C114_lookups",
    "Indigo.Props.C114_two_functions",
    "Indigo.Props.C114_program",
    "Indigo.Props.C114_hosts"
   ],
   "note": ""
  },
  {
   "property": "C115",
   "status": "partial",
   "theorems": [
    "Indigo.Props.C115_built",
    "Indigo.Props.C115_told_partial"
   ],
   "note": ""
  },
  {
   "property": "C116",
   "status": "proved",
   "theorems": [
    "Indigo.Props.C116_accepted",
    "Indigo.Props.C116_same",
    "Indigo.Props.C116_alike",
    "Indigo.Props.C116_wire"
   ],
   "note": ""
  },
  {
   "property": "C117",
   "status": "partial",
   "theorems": [
    "Indigo.Props.C117_static_partial",
    "Indigo.Props.C117_variables_partial",
    "Indigo.Props.C117_errors_partial",
    "Indigo.Props.C117_wire_partial",
    "Indigo.Props.C117_shadow_violation",
    "Indigo.Props.C117_root_violation"
   ],
   "note": "The full property is false of the code: C117_shadow_violation, C117_root_violation prove the negation on concrete witnesses. The other theorems prove the part that holds."
  },
  {
   "property": "C118",
   "status": "proved",
   "theorems": [
    "Indigo.Props.C118_catcher",
    "Indigo.Props.C118_catcher_errors",
    "Indigo.Props.C118_errorHandler",
    "Indigo.Props.C118_middlewares",
    "Indigo.Props.C118_middlewares_errors",
    "Indigo.Props.C118_host",
    "Indigo.Props.C118_host_wire"
   ],
   "note": ""
  }
 ]
}