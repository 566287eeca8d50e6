# Axioms of the theorems in MANIFEST.json

Output of `#print axioms`, written by `tools/axioms.py`.

| Property | Theorem | Axioms |
|---|---|---|
| C01 | `Radius.C01_decode_never_panics` | Classical.choice, Quot.sound, propext |
| C02 | `Radius.C02_decode_iff_wire` | Classical.choice, Quot.sound, propext |
| C02 | `Radius.C02_decode_accepts_iff` | Classical.choice, Quot.sound, propext |
| C03 | `Radius.C03_decode_error_iff` | Classical.choice, Quot.sound, propext |
| C04 | `Radius.C04_encode_decode` | Classical.choice, Quot.sound, propext |
| C05 | `Radius.C05_decode_encode` | Classical.choice, Quot.sound, propext |
| C06 | `Radius.C06_length_field_partial` | Classical.choice, Quot.sound, propext |
| C06 | `Radius.C06_length_field_mod` | Classical.choice, Quot.sound, propext |
| C06 | `Radius.C06_counterexample` | Classical.choice, Quot.sound, propext |
| C07 | `Radius.C07_encode_outcome` | Classical.choice, Quot.sound, propext |
| C07 | `Radius.C07_unsendable_codes` | none |
| C08 | `Radius.C08_authenticator_and_no_panic` | Classical.choice, Quot.sound, propext |
| C08 | `Radius.C08_panic_witness` | Classical.choice, Quot.sound, propext |
| C09 | `Radius.C09_wire_authenticator` | Classical.choice, Quot.sound, propext |
| C10 | `Radius.C10_own_requests_authentic` | Classical.choice, Quot.sound, propext |
| C11 | `Radius.C11_responses_authentic` | Classical.choice, Quot.sound, propext |
| C12 | `Radius.C12_request_check_exact` | Classical.choice, Quot.sound, propext |
| C13 | `Radius.C13_response_check_exact` | Classical.choice, Quot.sound, propext |
| C14 | `Radius.C14_request_forgery_gives_collision` | Classical.choice, Quot.sound, propext |
| C14 | `Radius.C14_response_forgery_gives_collision` | Classical.choice, Quot.sound, propext |
| C15 | `Radius.C15_attribute_history` | Classical.choice, Quot.sound, propext |
| C15 | `Radius.C15_since_last_delete` | Classical.choice, Quot.sound, propext |
| C15 | `Radius.C15_never_deleted` | Classical.choice, Quot.sound, propext |
| C16 | `Radius.C16_frame` | none |
| C16 | `Radius.C16_constructors` | none |
| C17 | `Radius.C17_u32_write` | Quot.sound, propext |
| C17 | `Radius.C17_u32_read` | Quot.sound, propext |
| C17 | `Radius.C17_u16_write` | Quot.sound, propext |
| C17 | `Radius.C17_u16_read` | Quot.sound, propext |
| C18 | `Radius.C18_ipv4` | propext |
| C18 | `Radius.C18_ipv6` | Quot.sound, propext |
| C19 | `Radius.C19_ipv4_prefix` | Classical.choice, Quot.sound, propext |
| C19 | `Radius.C19_ipv6_prefix` | Quot.sound, propext |
| C20 | `Radius.C20_text` | Classical.choice, Quot.sound, propext |
| C20 | `Radius.C20_text_validity` | Classical.choice, Quot.sound, propext |
| C21 | `Radius.C21_tagged_text_read` | Classical.choice, Quot.sound, propext |
| C21 | `Radius.C21_tagged_text` | Classical.choice, Quot.sound, propext |
| C22 | `Radius.C22_tagged_u32_read` | Classical.choice, Quot.sound, propext |
| C22 | `Radius.C22_tagged_u32` | Classical.choice, Quot.sound, propext |
| C23 | `Radius.C23_date` | Classical.choice, Quot.sound, propext |
| C23 | `Radius.C23_date_read` | Classical.choice, Quot.sound, propext |
| C24 | `Radius.C24_concat_split` | Classical.choice, Quot.sound, propext |
| C24 | `Radius.C24_concat_lookup` | Quot.sound, propext |
| C24 | `Radius.C24_concat_over_the_wire` | Classical.choice, Quot.sound, propext |
| C25 | `Radius.C25_fixed_length` | propext |
| C25 | `Radius.C25_add_outcome` | Classical.choice, Quot.sound, propext |
| C26 | `Radius.C26_user_password_hiding` | Classical.choice, Quot.sound, propext |
| C26 | `Radius.C26_hidden_unique` | Quot.sound, propext |
| C27 | `Radius.C27_user_password_reveal` | Classical.choice, Quot.sound, propext |
| C27 | `Radius.C27_user_password_reader` | Quot.sound, propext |
| C28 | `Radius.C28_password_over_the_wire` | Classical.choice, Quot.sound, propext |
| C29 | `Radius.C29_tunnel_password_hiding` | Classical.choice, Quot.sound, propext |
| C29 | `Radius.C29_tunnel_password_reveal` | Classical.choice, Quot.sound, propext |
| C29 | `Radius.C29_tunnel_password_reader` | Classical.choice, Quot.sound, propext |
| C30 | `Radius.C30_tunnel_password_partial` | Classical.choice, Quot.sound, propext |
| C30 | `Radius.C30_counterexample` | Classical.choice, Quot.sound, propext |
| C31 | `Radius.C31_frame` | Classical.choice, Quot.sound, propext |
| C31 | `Radius.C31_add_lookup` | Classical.choice, Quot.sound, propext |
| C31 | `Radius.C31_codes_distinct` | none |
| C31 | `Radius.C31_generated` | Classical.choice, Quot.sound, propext |
| C32 | `Radius.C32_lookup_first` | Classical.choice, Quot.sound, propext |
| C32 | `Radius.C32_lookup_all` | Classical.choice, Quot.sound, propext |
| C33 | `Radius.C33_message` | Classical.choice, Quot.sound, propext |
| C33 | `Radius.C33_wire` | Classical.choice, Quot.sound, propext |
| C33 | `Radius.C33_over_the_wire` | Classical.choice, Quot.sound, propext |
| C34 | `Radius.C34_passwords` | Quot.sound, propext |
| C34 | `Radius.C34_encode` | propext |
| C34 | `Radius.C34_checks` | propext |
| C34 | `Radius.C34_builds_equal` | Quot.sound, propext |
| C35 | `Radius.C35_debug_hides_secret` | propext |
| C36 | `Radius.C36_one_handler_per_key` | Classical.choice, Quot.sound, propext |
| C37 | `Radius.C37_handlers_see_validated_requests` | Classical.choice, Quot.sound, propext |
| C38 | `Radius.C38_duplicate_check` | Classical.choice, Quot.sound, propext |
| C38 | `Radius.C38_keys` | Classical.choice, Quot.sound, propext |
| C38 | `Radius.C38_valid_not_rejected` | Classical.choice, Quot.sound, propext |
| C38 | `Radius.C38_every_schedule` | Classical.choice, Quot.sound, propext |
| C38 | `Radius.C38_valid_handled_or_duplicate` | Classical.choice, Quot.sound, propext |
| C39 | `Radius.C39_every_schedule` | Classical.choice, Quot.sound, propext |
| C39 | `Radius.C39_released_after_return` | Classical.choice, Quot.sound, propext |
| C39 | `Radius.C39_next_request_admitted` | Classical.choice, Quot.sound, propext |
| C39 | `Radius.C39_identifier_reusable` | Classical.choice, Quot.sound, propext |
| C40 | `Radius.C40_released_partial` | Classical.choice, Quot.sound, propext |
| C40 | `Radius.C40_panic_blocks_key` | Classical.choice, Quot.sound, propext |
| C41 | `Radius.C41_no_deadlock` | Classical.choice, Quot.sound, propext |
| C41 | `Radius.C41_no_livelock` | Classical.choice, Quot.sound, propext |
| C42 | `Radius.C42_handled_at_most_once` | Classical.choice, Quot.sound, propext |
| C43 | `Radius.C43_buffer_size` | Classical.choice, Quot.sound, propext |
| C44 | `Radius.C44_sends_request_once` | Classical.choice, Quot.sound, propext |
| C44 | `Radius.C44_local_address` | Classical.choice, Quot.sound, propext |
| C45 | `Radius.C45_result_identifies_stage` | Classical.choice, Quot.sound, propext |
| C45 | `Radius.C45_no_panic` | Classical.choice, Quot.sound, propext |
| C46 | `Radius.C46_response_partial` | Classical.choice, Quot.sound, propext |
| C46 | `Radius.C46_counterexample` | Classical.choice, Quot.sound, propext |
| C47 | `Radius.C47_codes` | propext |
| C48 | `Radius.C48_tag_classes` | Classical.choice, Quot.sound, propext |
| C49 | `Radius.C49_parse` | Classical.choice, Quot.sound, propext |
| C49 | `Radius.C49_line_unambiguous` | Classical.choice, Quot.sound, propext |
| C49 | `Radius.C49_bad_line` | Classical.choice, Quot.sound, propext |
| C50 | `Radius.C50_contents` | Quot.sound, propext |
| C50 | `Radius.C50_modules` | Quot.sound, propext |
| C50 | `Radius.C50_only_addition` | propext |
| C51 | `Radius.C51_supported` | Quot.sound, propext |
| C51 | `Radius.C51_attributes` | Classical.choice, Quot.sound, propext |
| C51 | `Radius.C51_family` | Quot.sound, propext |
| C52 | `Radius.C52_client_side` | Classical.choice, Quot.sound, propext |
| C52 | `Radius.C52_handler_answer` | Classical.choice, Quot.sound, propext |
| C52 | `Radius.C52_end_to_end_partial` | Classical.choice, Quot.sound, propext |
| C52 | `Radius.C52_counterexample_zero` | Classical.choice, Quot.sound, propext |
| C52 | `Radius.C52_counterexample_utf8` | Classical.choice, Quot.sound, propext |
| C53 | `Radius.C53_intake_only_while_running` | Classical.choice, Quot.sound, propext |
| C53 | `Radius.C53_run_result` | Classical.choice, Quot.sound, propext |
| C53 | `Radius.C53_tasks_go_on` | Classical.choice, Quot.sound, propext |
| C54 | `Radius.C54_address_text` | Classical.choice, Quot.sound, propext |
| C54 | `Radius.C54_duplicate_same_client` | Classical.choice, Quot.sound, propext |
| C54 | `Radius.C54_one_handler_per_endpoint` | Classical.choice, Quot.sound, propext |
| C55 | `Radius.C55_wire_order` | Classical.choice, Quot.sound, propext |
| C55 | `Radius.C55_received_order` | Classical.choice, Quot.sound, propext |
| C55 | `Radius.C55_forwarded_order` | Classical.choice, Quot.sound, propext |
| C56 | `Radius.C56_accessors_never_panic` | Classical.choice, Quot.sound, propext |
| C57 | `Radius.C57_encode_injective` | Classical.choice, Quot.sound, propext |
| C58 | `Radius.C58_padding_and_truncation` | Classical.choice, Quot.sound, propext |
| C59 | `Radius.C59_request_two_secrets` | Classical.choice, Quot.sound, propext |
| C59 | `Radius.C59_response_two_contexts` | Classical.choice, Quot.sound, propext |
| C59 | `Radius.C59_access_request_any_secret` | Classical.choice, Quot.sound, propext |
| C60 | `Radius.C60_typed_reads_survive_transport` | Classical.choice, Quot.sound, propext |
| C61 | `Radius.C61_handler_exact` | Classical.choice, Quot.sound, propext |
| C61 | `Radius.C61_stranger_blocks_client` | Classical.choice, Quot.sound, propext |
| C62 | `Radius.C62_add_appends` | Classical.choice, Quot.sound, propext |
| C62 | `Radius.C62_adds_accumulate` | Classical.choice, Quot.sound, propext |
| C62 | `Radius.C62_delete` | Classical.choice, Quot.sound, propext |
| C63 | `Radius.C63_first_bad_line` | Classical.choice, Quot.sound, propext |
| C63 | `Radius.C63_read_or_stopped` | Classical.choice, Quot.sound, propext |
| C64 | `Radius.C64_encode` | Quot.sound, propext |
| C64 | `Radius.C64_requests_independent` | Quot.sound, propext |
| C64 | `Radius.C64_checks` | Classical.choice, Quot.sound, propext |
| C64 | `Radius.C64_decode` | Classical.choice, Quot.sound, propext |
| C64 | `Radius.C64_add` | Classical.choice, Quot.sound, propext |
| C64 | `Radius.C64_lookup` | Classical.choice, Quot.sound, propext |
| C64 | `Radius.C64_conversation` | Classical.choice, Quot.sound, propext |
| C64 | `Radius.C64_from_the_start` | Classical.choice, Quot.sound, propext |
| C64 | `Radius.C64_no_secret_excluded` | Quot.sound, propext |
| C65 | `Radius.C65_written` | Classical.choice, Quot.sound, propext |
| C65 | `Radius.C65_refused` | Classical.choice, Quot.sound, propext |
| C65 | `Radius.C65_order` | Classical.choice, Quot.sound, propext |
| C65 | `Radius.C65_success` | Classical.choice, Quot.sound, propext |
| C66 | `Radius.C66_types_declared` | Quot.sound, propext |
| C66 | `Radius.C66_shipped` | Quot.sound, propext |
| C66 | `Radius.C66_values_added_later` | Quot.sound, propext |
| C66 | `Radius.C66_attribute_redefined` | Quot.sound, propext |
| C67 | `Radius.C67_shipped` | Classical.choice, Quot.sound, propext |
| C68 | `Radius.C68_answers_from_address` | Classical.choice, Quot.sound, propext |
| C68 | `Radius.C68_own_answer` | Classical.choice, Quot.sound, propext |
| C68 | `Radius.C68_example` | Classical.choice, Quot.sound, propext |
| C68 | `Radius.C68_late_answer` | Classical.choice, Quot.sound, propext |
| C69 | `Radius.C69_still_answers` | Classical.choice, Quot.sound, propext |
| C70 | `Radius.C70_same_packet` | Classical.choice, Quot.sound, propext |
| C70 | `Radius.C70_same_answer` | Classical.choice, Quot.sound, propext |
| C71 | `Radius.C71_client_errors` | Classical.choice, Quot.sound, propext |
| C71 | `Radius.C71_avp_errors` | Classical.choice, Quot.sound, propext |
| C71 | `Radius.C71_packet_errors` | Classical.choice, Quot.sound, propext |
| C71 | `Radius.C71_same_text` | Classical.choice, Quot.sound, propext |
| C72 | `Radius.C72_long_handler` | Classical.choice, Quot.sound, propext |
| C72 | `Radius.C72_caller` | Classical.choice, Quot.sound, propext |
| C72 | `Radius.C72_nothing_left` | Classical.choice, Quot.sound, propext |
| C72 | `Radius.C72_next_handled` | Classical.choice, Quot.sound, propext |
| C73 | `Radius.C73_replays` | Classical.choice, Quot.sound, propext |
| C73 | `Radius.C73_one_at_a_time` | Classical.choice, Quot.sound, propext |
