# Axioms each theorem depends on

As printed by `#print axioms`, for all theorems of MANIFEST.json. No other axioms occur.

## Classical.choice, Quot.sound, propext

* `Indigo.Props.C01_head_any_segmentation`
* `Indigo.Props.C01_outcome_independent_of_segmentation`
* `Indigo.Props.C02_accepted_is_head_partial`
* `Indigo.Props.C02_accepted_is_head_segmented_partial`
* `Indigo.Props.C02_unacceptable_rejected_partial`
* `Indigo.Props.C03_connection_crash_partial`
* `Indigo.Props.C03_crash_iff_partial`
* `Indigo.Props.C04_too_many_headers`
* `Indigo.Props.C05_long_line_connection`
* `Indigo.Props.C05_long_line_refused`
* `Indigo.Props.C05_stored_within_limits`
* `Indigo.Props.C06_key_length_violation`
* `Indigo.Props.C06_key_space_partial`
* `Indigo.Props.C07_content_length_partial`
* `Indigo.Props.C07_no_content_length`
* `Indigo.Props.C100_two_functions`
* `Indigo.Props.C101_any_program_partial`
* `Indigo.Props.C101_every_client_partial`
* `Indigo.Props.C101_program_partial`
* `Indigo.Props.C102_combined_partial`
* `Indigo.Props.C102_combined_violation`
* `Indigo.Props.C102_connhijack`
* `Indigo.Props.C102_dynroute`
* `Indigo.Props.C102_helloworld`
* `Indigo.Props.C102_middlewares`
* `Indigo.Props.C102_norouter`
* `Indigo.Props.C103_new`
* `Indigo.Props.C103_respond`
* `Indigo.Props.C104_accepted`
* `Indigo.Props.C104_every_router`
* `Indigo.Props.C104_history`
* `Indigo.Props.C104_map_order_violation`
* `Indigo.Props.C104_one_route`
* `Indigo.Props.C105_error_handler_partial`
* `Indigo.Props.C105_long_line`
* `Indigo.Props.C105_long_line_parser`
* `Indigo.Props.C105_parser_partial`
* `Indigo.Props.C105_request_line_parser`
* `Indigo.Https.C106_any_name_violation`
* `Indigo.Https.C106_expired_violation`
* `Indigo.Https.C106_names_partial`
* `Indigo.Https.C106_no_certificate_violation`
* `Indigo.Https.C106_ten_years`
* `Indigo.Props.C107_answers`
* `Indigo.Props.C107_calls`
* `Indigo.Props.C107_hosts`
* `Indigo.Props.C107_program`
* `Indigo.Props.C108_goes_on_partial`
* `Indigo.Props.C108_second_handler_violation`
* `Indigo.Props.C109_answers`
* `Indigo.Props.C109_hosts`
* `Indigo.Props.C109_last_write`
* `Indigo.Props.C109_program`
* `Indigo.Props.C110_hosts`
* `Indigo.Props.C110_program`
* `Indigo.Props.C110_same_answers`
* `Indigo.Props.C110_two_functions`
* `Indigo.Props.C111_hosts_partial`
* `Indigo.Props.C111_program_partial`
* `Indigo.Props.C111_reuse_partial`
* `Indigo.Props.C111_two_functions_partial`
* `Indigo.Props.C112_head_like_get`
* `Indigo.Props.C112_hosts`
* `Indigo.Props.C112_program`
* `Indigo.Props.C112_two_functions`
* `Indigo.Props.C113_hosts`
* `Indigo.Props.C113_program`
* `Indigo.Props.C113_same_said`
* `Indigo.Props.C113_two_functions`
* `Indigo.Props.C114_any_case`
* `Indigo.Props.C114_hosts`
* `Indigo.Props.C114_program`
* `Indigo.Props.C114_two_functions`
* `Indigo.Props.C115_told_partial`
* `Indigo.Props.C116_accepted`
* `Indigo.Props.C116_alike`
* `Indigo.Props.C116_same`
* `Indigo.Props.C116_wire`
* `Indigo.Props.C117_errors_partial`
* `Indigo.Props.C117_static_partial`
* `Indigo.Props.C117_variables_partial`
* `Indigo.Props.C117_wire_partial`
* `Indigo.Props.C118_catcher`
* `Indigo.Props.C118_catcher_errors`
* `Indigo.Props.C118_errorHandler`
* `Indigo.Props.C118_middlewares`
* `Indigo.Props.C118_middlewares_errors`
* `Indigo.Props.C11_inplace_decoding_safe`
* `Indigo.Props.C13_raw_after`
* `Indigo.Props.C13_raw_after_empty_key`
* `Indigo.Props.C13_raw_partial`
* `Indigo.Props.C14_case_insensitive`
* `Indigo.Props.C14_from_map`
* `Indigo.Props.C14_storage_refines_multimap`
* `Indigo.Props.C17_request_transfer_partial`
* `Indigo.Props.C17_transfer_encoding_partial`
* `Indigo.Props.C18_chunked_body`
* `Indigo.Props.C18_chunked_coding`
* `Indigo.Props.C19_chunked_too_large`
* `Indigo.Props.C19_delivered_within_limit`
* `Indigo.Props.C22_all_served`
* `Indigo.Props.C22_each_its_own`
* `Indigo.Props.C22_pipelining`
* `Indigo.Props.C23_encryption_violation`
* `Indigo.Props.C23_no_leak_partial`
* `Indigo.Props.C25_attachment_head_partial`
* `Indigo.Props.C25_every_head_partial`
* `Indigo.Props.C25_response_readable_partial`
* `Indigo.Props.C26_clean_values_partial`
* `Indigo.Props.C26_every_head_partial`
* `Indigo.Props.C27_default_headers_partial`
* `Indigo.Props.C27_every_head_partial`
* `Indigo.Props.C27_history_partial`
* `Indigo.Props.C28_head_only`
* `Indigo.Props.C29_chunked_attachment_partial`
* `Indigo.Props.C29_chunked_failures_partial`
* `Indigo.Props.C30_sized_attachment_partial`
* `Indigo.Props.C32_malformed_partial`
* `Indigo.Props.C32_not_handled_partial`
* `Indigo.Props.C32_reply_readable`
* `Indigo.Props.C34_every_cookie_partial`
* `Indigo.Props.C34_set_cookie_partial`
* `Indigo.Props.C35_head`
* `Indigo.Props.C35_history`
* `Indigo.Props.C35_method_not_allowed`
* `Indigo.Props.C35_no_panic`
* `Indigo.Props.C35_registered`
* `Indigo.Props.C36_accepted_partial`
* `Indigo.Props.C36_head_partial`
* `Indigo.Props.C36_history_partial`
* `Indigo.Props.C36_left`
* `Indigo.Props.C36_match_exactly`
* `Indigo.Props.C36_meant`
* `Indigo.Props.C36_not_allowed_partial`
* `Indigo.Props.C36_not_found_partial`
* `Indigo.Props.C36_registration_exactly`
* `Indigo.Props.C36_routed_partial`
* `Indigo.Props.C36_slashes_unreachable_violation`
* `Indigo.Props.C38_catchers`
* `Indigo.Props.C38_routes`
* `Indigo.Props.C39_not_registered`
* `Indigo.Props.C41_chosen`
* `Indigo.Props.C41_other_errors`
* `Indigo.Props.C42_first_partial`
* `Indigo.Props.C42_history`
* `Indigo.Props.C42_variables_first_partial`
* `Indigo.Props.C42_variables_history`
* `Indigo.Props.C42_wire`
* `Indigo.C44_missing`
* `Indigo.C44_selected_as_sent_partial`
* `Indigo.C44_selected_partial`
* `Indigo.C44_unknown_as_sent_partial`
* `Indigo.C44_unknown_partial`
* `Indigo.Props.C45_router_partial`
* `Indigo.App.C46_all_gone_partial`
* `Indigo.App.C46_at_most_one_partial`
* `Indigo.App.C47_graceful_partial`
* `Indigo.App.C47_progress`
* `Indigo.Props.C51_every_head_partial`
* `Indigo.Props.C51_status_line_partial`
* `Indigo.Props.C52_calls`
* `Indigo.Props.C52_error`
* `Indigo.Props.C53_exact`
* `Indigo.Props.C53_pieces`
* `Indigo.Props.C54_strlenmap`
* `Indigo.Props.C55_charsetOf`
* `Indigo.Props.C55_paramOf`
* `Indigo.Props.C55_qualityOf`
* `Indigo.Props.C55_quality_signed`
* `Indigo.Props.C56_answers_partial`
* `Indigo.Props.C56_first_supported_token`
* `Indigo.Props.C57_alias_partial`
* `Indigo.Props.C57_in_order_partial`
* `Indigo.Props.C58_idempotent`
* `Indigo.Props.C59_conflicts`
* `Indigo.Props.C59_reachable`
* `Indigo.Props.C63_every_response_partial`
* `Indigo.Props.C63_one_framing_attachment_partial`
* `Indigo.Props.C63_one_framing_partial`
* `Indigo.Props.C64_attachment_closed_partial`
* `Indigo.Props.C65_every_response_partial`
* `Indigo.Props.C65_no_coding_partial`
* `Indigo.Props.C69_acceptable_or_fault`
* `Indigo.Props.C69_every_stream`
* `Indigo.Props.C69_fault_reported`
* `Indigo.Props.C69_one_fault`
* `Indigo.Props.C70_open_head`
* `Indigo.Props.C70_unfinished_head`
* `Indigo.Props.C71_replies_readable`
* `Indigo.Props.C71_replies_readable_for`
* `Indigo.App.C73_autocert_partial`
* `Indigo.App.C73_domains_ignored_violation`
* `Indigo.App.C73_not_listening_violation`
* `Indigo.App.C73_selfSigned_partial`
* `Indigo.App.C73_version_6_violation`
* `Indigo.Props.C74_any_error`
* `Indigo.Props.C74_errors`
* `Indigo.Props.C74_requests_partial`
* `Indigo.Props.C75_connection`
* `Indigo.Props.C76_no_forged_lines`
* `Indigo.Props.C77_resource`
* `Indigo.Props.C77_resource_catcher`
* `Indigo.Props.C77_shorthands`
* `Indigo.Props.C78_connection_partial`
* `Indigo.Props.C78_total`
* `Indigo.Props.C79_guarantee`
* `Indigo.Props.C79_interference_partial`
* `Indigo.Props.C79_isolated_partial`
* `Indigo.Props.C80_as_values_partial`
* `Indigo.Props.C80_data_unchanged_partial`
* `Indigo.Props.C83_site`
* `Indigo.BodyMem.C84_not_overwritten_partial`
* `Indigo.BodyMem.C84_tidy_partial`
* `Indigo.Arena.C86_clone_violation`
* `Indigo.Arena.C86_during_request_partial`
* `Indigo.Props.C87_malformed`
* `Indigo.Props.C87_program`
* `Indigo.Props.C87_trace`
* `Indigo.Props.C88_files_partial`
* `Indigo.Props.C88_handler`
* `Indigo.Props.C88_handler_buffer`
* `Indigo.Props.C89_many_clients`
* `Indigo.Props.C89_whatever`
* `Indigo.Props.C90_agrees_partial`
* `Indigo.Props.C91_last_request`
* `Indigo.Props.C91_nothing_after`
* `Indigo.Props.C92_first`
* `Indigo.Props.C92_groups_violation`
* `Indigo.Props.C92_hosts_partial`
* `Indigo.Props.C92_no_groups`
* `Indigo.Props.C92_same_partial`
* `Indigo.Props.C93_every_connection`
* `Indigo.Props.C93_one_reading`
* `Indigo.Props.C94_closed_partial`
* `Indigo.Props.C94_left_open`
* `Indigo.Props.C96_last_request_partial`
* `Indigo.Props.C96_malformed_violation`
* `Indigo.Props.C96_nothing_after_partial`
* `Indigo.Props.C96_smuggled_violation`
* `Indigo.Props.C96_unreadable_rest`
* `Indigo.Props.C97_lost_request_violation`
* `Indigo.Props.C97_separately_partial`
* `Indigo.Props.C98_all_served`
* `Indigo.Props.C98_lively_served`
* `Indigo.Props.C99_any_client_partial`
* `Indigo.Props.C99_hosts`

## Quot.sound, propext

* `Indigo.Props.C02_names_violation`
* `Indigo.Props.C03_no_panic_crlf_partial`
* `Indigo.Props.C03_no_panic_partial`
* `Indigo.Props.C03_no_panic_violation`
* `Indigo.Props.C04_header_count`
* `Indigo.Props.C05_memory_limits`
* `Indigo.Props.C06_ignored_violation`
* `Indigo.Props.C07_content_length_violation`
* `Indigo.Props.C08_recognised_iff_partial`
* `Indigo.Props.C08_special_names_partial`
* `Indigo.Props.C08_special_names_violation`
* `Indigo.Props.C09_decode_inverts_encoding`
* `Indigo.Props.C09_roundtrip`
* `Indigo.Props.C09_truncated`
* `Indigo.Props.C09_unescaped`
* `Indigo.Props.C101_long_method_violation`
* `Indigo.Props.C101_no_version_violation`
* `Indigo.Props.C104_dead_route_violation`
* `Indigo.Props.C105_segments_violation`
* `Indigo.Props.C108_OnStart_violation`
* `Indigo.Props.C108_OnStop_violation`
* `Indigo.Props.C108_first_handler_partial`
* `Indigo.Props.C109_beginning`
* `Indigo.Props.C10_bad_escape_accepted_violation`
* `Indigo.Props.C10_bad_escape_partial`
* `Indigo.Props.C10_exactly`
* `Indigo.Props.C111_defaults_violation`
* `Indigo.Props.C114_lookups`
* `Indigo.Props.C115_built`
* `Indigo.Props.C117_root_violation`
* `Indigo.Props.C117_shadow_violation`
* `Indigo.Props.C118_host`
* `Indigo.Props.C118_host_wire`
* `Indigo.Props.C12_empty_key_rejected`
* `Indigo.Props.C12_encoded_delimiters_violation`
* `Indigo.Props.C12_every_query`
* `Indigo.Props.C12_pieces_exist`
* `Indigo.Props.C12_query_params_partial`
* `Indigo.Props.C13_bad_digits_violation`
* `Indigo.Props.C13_bad_escape_partial`
* `Indigo.Props.C13_empty_key_Get_partial`
* `Indigo.Props.C13_first_access_partial`
* `Indigo.Props.C13_malformed_query_forgotten_violation`
* `Indigo.Props.C13_only_first`
* `Indigo.Props.C13_wellformed_accepted`
* `Indigo.Props.C16_no_panic`
* `Indigo.Props.C16_proto_partial`
* `Indigo.Props.C17_transfer_encoding_violation`
* `Indigo.Props.C17_unicode_space_violation`
* `Indigo.Props.C18_sized_body`
* `Indigo.Props.C19_sized_too_large`
* `Indigo.Props.C20_accessors_agree`
* `Indigo.Props.C21_bytes_first_partial`
* `Indigo.Props.C21_own_body_partial`
* `Indigo.Props.C23_remote_violation`
* `Indigo.Props.C23_stale_path_violation`
* `Indigo.Props.C24_no_byte_lost`
* `Indigo.Props.C25_content_length`
* `Indigo.Props.C28_head_response`
* `Indigo.Props.C29_huge_buffer_violation`
* `Indigo.Props.C31_keep_alive_partial`
* `Indigo.Props.C31_kept_iff_partial`
* `Indigo.Props.C32_no_version_violation`
* `Indigo.Props.C32_stale_method_violation`
* `Indigo.Props.C32_version_violation`
* `Indigo.Props.C33_parse_accepts_exactly`
* `Indigo.Props.C33_parse_of_rendering`
* `Indigo.Props.C33_request_cookies`
* `Indigo.Props.C33_request_cookies_again`
* `Indigo.Props.C36_accepted`
* `Indigo.Props.C36_match_partial`
* `Indigo.Props.C36_parse_partial`
* `Indigo.Props.C36_registration`
* `Indigo.Props.C37_never_crosses_partial`
* `Indigo.Props.C37_never_overwritten_partial`
* `Indigo.Props.C37_one_letter_violation`
* `Indigo.Props.C37_parse_partial`
* `Indigo.Props.C37_unfinished_violation`
* `Indigo.Props.C39_catcher_path`
* `Indigo.C40_clean_prefix_partial`
* `Indigo.C40_contained_partial`
* `Indigo.C40_serves_partial`
* `Indigo.C40_unclean_prefix_violation`
* `Indigo.Props.C41_always_one`
* `Indigo.Props.C41_last_counts`
* `Indigo.Props.C42_trace_violation`
* `Indigo.Props.C42_wire_violation`
* `Indigo.Props.C43_idempotent`
* `Indigo.Props.C43_only_slashes_removed`
* `Indigo.Props.C43_short_paths_partial`
* `Indigo.Props.C43_trailing_slashes_partial`
* `Indigo.C44_port_violation`
* `Indigo.C44_repeated`
* `Indigo.C44_www_violation`
* `Indigo.C45_ipv6_violation`
* `Indigo.Props.C45_plain_listener_violation`
* `Indigo.C45_plain_partial`
* `Indigo.Props.C45_second_request_violation`
* `Indigo.App.C47_bounded`
* `Indigo.App.C47_connections_end`
* `Indigo.App.C47_later_calls_block_violation`
* `Indigo.App.C47_listener_failure`
* `Indigo.App.C47_one_report`
* `Indigo.App.C47_terminates_once`
* `Indigo.App.C48_last_handler_wins`
* `Indigo.App.C48_one_handler_partial`
* `Indigo.App.C48_wrong_handler_violation`
* `Indigo.Props.C49_default_limits`
* `Indigo.Props.C50_error_handler_violation`
* `Indigo.Props.C50_left_alone`
* `Indigo.Props.C50_rest_readable`
* `Indigo.Props.C53_ascii_partial`
* `Indigo.Props.C53_no_control_characters_partial`
* `Indigo.Props.C54_arrmap_exact_partial`
* `Indigo.Props.C54_arrmap_partial`
* `Indigo.Props.C55_valueOf`
* `Indigo.Props.C56_headers_pile_up_violation`
* `Indigo.Props.C56_names_old_protocol_violation`
* `Indigo.Props.C57_chain_violation`
* `Indigo.Props.C57_unclean_violation`
* `Indigo.Props.C60_interrupted_body_partial`
* `Indigo.Props.C61_bytes_no_panic_partial`
* `Indigo.Props.C61_huge_length_violation`
* `Indigo.Props.C62_rejected_sized_body_partial`
* `Indigo.Props.C66_body_limit_partial`
* `Indigo.Props.C67_dispatch`
* `Indigo.Props.C67_round_trip`
* `Indigo.C68_redirect`
* `Indigo.C68_server_header`
* `Indigo.Props.C71_no_content_violation`
* `Indigo.App.C72_all_bound`
* `Indigo.App.C72_first_failure`
* `Indigo.App.C72_left_open_violation`
* `Indigo.App.C72_listeners`
* `Indigo.Props.C74_trace_bypasses_violation`
* `Indigo.Props.C76_stale_path_violation`
* `Indigo.Props.C78_empty_alias_violation`
* `Indigo.Props.C79_trace_violation`
* `Indigo.Props.C80_json_violation`
* `Indigo.Props.C81_bounded_partial`
* `Indigo.Props.C81_file_buffer_violation`
* `Indigo.Props.C81_file_pieces_partial`
* `Indigo.Props.C82_decoded_partial`
* `Indigo.Certs.C85_crash_violation`
* `Indigo.Certs.C85_next_start_partial`
* `Indigo.Certs.C85_race_violation`
* `Indigo.Certs.C85_stat_violation`
* `Indigo.Certs.C85_used_again`
* `Indigo.Props.C88_buffer`
* `Indigo.Props.C88_empty_file_violation`
* `Indigo.Props.C88_group_violation`
* `Indigo.Props.C88_method_violation`
* `Indigo.Props.C88_sibling_violation`
* `Indigo.Props.C88_type`
* `Indigo.Props.C90_smuggled_violation`
* `Indigo.Props.C90_swallowed_violation`
* `Indigo.Props.C92_catchers_violation`
* `Indigo.Props.C92_middlewares_violation`
* `Indigo.Props.C94_directories_violation`
* `Indigo.Props.C95_log_violation`
* `Indigo.Props.C95_nil_is_blank_partial`
* `Indigo.Props.C95_server_header_violation`
* `Indigo.Props.C97_lost_body_violation`
* `Indigo.Props.C98_deadline`
* `Indigo.Props.C98_no_total_limit`

## none

* `Indigo.Https.C106_no_host_violation`
* `Indigo.Props.C15_method_recognised_iff`
* `Indigo.Props.C36_double_slash_violation`
* `Indigo.Props.C36_leftover_parameters_violation`
* `Indigo.Props.C36_precedence_violation`
* `Indigo.Props.C36_root_violation`
* `Indigo.Props.C37_overwritten_violation`
* `Indigo.Props.C49_cookies_violation`
* `Indigo.Props.C49_default_consistent`
* `Indigo.Props.C49_default_timeout`
* `Indigo.Props.C52_blank`
* `Indigo.Props.C54_arrmap_repeated_violation`
* `Indigo.Props.C55_quality_order_violation`
* `Indigo.Props.C55_space_violation`
* `Indigo.Props.C67_identity`
* `Indigo.C68_custom_context`

## propext

* `Indigo.Https.C106_cache`
* `Indigo.Props.C15_method_list`
* `Indigo.Props.C15_method_rendered`
* `Indigo.Props.C16_separator_not_checked_violation`
* `Indigo.Props.C20_bytes_again`
* `Indigo.Props.C20_nothing_left`
* `Indigo.Props.C21_stale_body_violation`
* `Indigo.Props.C24_read_after_unread`
* `Indigo.Props.C25_attachment_cookies_violation`
* `Indigo.Props.C25_unknown_version_violation`
* `Indigo.Props.C26_header_injection_violation`
* `Indigo.Props.C26_response_splitting_violation`
* `Indigo.Props.C27_default_header_lost_violation`
* `Indigo.Props.C30_data_with_eof_violation`
* `Indigo.Props.C31_attachment_violation`
* `Indigo.Props.C31_upgrade_violation`
* `Indigo.Props.C34_max_age_violation`
* `Indigo.Props.C35_allow_header`
* `Indigo.Props.C36_leading_variable_violation`
* `Indigo.Props.C38_order`
* `Indigo.C40_concurrent_violation`
* `Indigo.Props.C41_default_code`
* `Indigo.Props.C43_one_letter_violation`
* `Indigo.Props.C43_root_violation`
* `Indigo.C45_encrypted_partial`
* `Indigo.App.C46_served_after_OnStop_violation`
* `Indigo.App.C47_accepts_after_graceful_violation`
* `Indigo.App.C47_call_returns_partial`
* `Indigo.App.C47_restart_violation`
* `Indigo.App.C48_plain_taken_for_TLS_violation`
* `Indigo.Props.C49_documented_partial`
* `Indigo.Props.C49_empty_partial`
* `Indigo.Props.C49_fill_headers`
* `Indigo.Props.C49_fill_idempotent`
* `Indigo.Props.C49_fill_nonzero_partial`
* `Indigo.Props.C49_fill_partial`
* `Indigo.Props.C51_101_violation`
* `Indigo.Props.C51_custom_phrase_violation`
* `Indigo.Props.C51_names`
* `Indigo.Props.C52_respond_blank`
* `Indigo.Props.C52_shorthands`
* `Indigo.Props.C53_multibyte_violation`
* `Indigo.Props.C53_printable_unchanged`
* `Indigo.Props.C58_normalize`
* `Indigo.Props.C58_port_kept`
* `Indigo.Props.C60_truncated_body_violation`
* `Indigo.Props.C62_rejected_body_violation`
* `Indigo.Props.C63_both_headers_violation`
* `Indigo.Props.C63_longer_attachment_violation`
* `Indigo.Props.C63_shorter_attachment_violation`
* `Indigo.Props.C63_two_lengths_violation`
* `Indigo.Props.C64_failed_head_not_closed_violation`
* `Indigo.Props.C64_head_not_closed_violation`
* `Indigo.Props.C65_chunked_to_http10_violation`
* `Indigo.Props.C66_zero_body_limit_violation`
* `Indigo.Props.C75_panic_is_500`
* `Indigo.Props.C75_transparent`
* `Indigo.Props.C76_mutator`
* `Indigo.Props.C76_one_line`
* `Indigo.Props.C80_write_violation`
* `Indigo.Props.C82_body_error`
* `Indigo.Props.C82_media_type_violation`
* `Indigo.Props.C82_refused`
* `Indigo.BodyMem.C84_kept_partial`
* `Indigo.BodyMem.C84_mixing_violation`
* `Indigo.BodyMem.C84_string_violation`
* `Indigo.Props.C94_forgotten_violation`
* `Indigo.Props.C94_replaced_violation`
