{
 "claims": [
  {
   "property": "C01",
   "status": "proved",
   "theorems": [
    "Radius.C01_decode_never_panics"
   ],
   "note": ""
  },
  {
   "property": "C02",
   "status": "proved",
   "theorems": [
    "Radius.C02_decode_iff_wire",
    "Radius.C02_decode_accepts_iff"
   ],
   "note": ""
  },
  {
   "property": "C03",
   "status": "proved",
   "theorems": [
    "Radius.C03_decode_error_iff"
   ],
   "note": ""
  },
  {
   "property": "C04",
   "status": "proved",
   "theorems": [
    "Radius.C04_encode_decode"
   ],
   "note": "For every digest function and both overflow-check modes."
  },
  {
   "property": "C05",
   "status": "proved",
   "theorems": [
    "Radius.C05_decode_encode"
   ],
   "note": ""
  },
  {
   "property": "C06",
   "status": "partial",
   "theorems": [
    "Radius.C06_length_field_partial",
    "Radius.C06_length_field_mod",
    "Radius.C06_counterexample"
   ],
   "note": "The full claim is false of the code: marshal_binary truncates the size to 16 bits, so attributes of 64 KiB or more are sent with a wrong length field (C06_counterexample). Proved for attributes below 65516 bytes, and modulo 65536 for all packets."
  },
  {
   "property": "C07",
   "status": "proved",
   "theorems": [
    "Radius.C07_encode_outcome",
    "Radius.C07_unsendable_codes"
   ],
   "note": ""
  },
  {
   "property": "C08",
   "status": "proved",
   "theorems": [
    "Radius.C08_authenticator_and_no_panic",
    "Radius.C08_panic_witness"
   ],
   "note": "The 65516 bound for builds with overflow checks is sharp (C08_panic_witness)."
  },
  {
   "property": "C09",
   "status": "proved",
   "theorems": [
    "Radius.C09_wire_authenticator"
   ],
   "note": ""
  },
  {
   "property": "C10",
   "status": "proved",
   "theorems": [
    "Radius.C10_own_requests_authentic"
   ],
   "note": ""
  },
  {
   "property": "C11",
   "status": "proved",
   "theorems": [
    "Radius.C11_responses_authentic"
   ],
   "note": ""
  },
  {
   "property": "C12",
   "status": "proved",
   "theorems": [
    "Radius.C12_request_check_exact"
   ],
   "note": ""
  },
  {
   "property": "C13",
   "status": "proved",
   "theorems": [
    "Radius.C13_response_check_exact"
   ],
   "note": ""
  },
  {
   "property": "C14",
   "status": "proved",
   "theorems": [
    "Radius.C14_request_forgery_gives_collision",
    "Radius.C14_response_forgery_gives_collision"
   ],
   "note": "Explicit reduction to a collision of the digest, requests and responses."
  },
  {
   "property": "C15",
   "status": "proved",
   "theorems": [
    "Radius.C15_attribute_history",
    "Radius.C15_since_last_delete",
    "Radius.C15_never_deleted"
   ],
   "note": ""
  },
  {
   "property": "C16",
   "status": "proved",
   "theorems": [
    "Radius.C16_frame",
    "Radius.C16_constructors"
   ],
   "note": ""
  },
  {
   "property": "C17",
   "status": "proved",
   "theorems": [
    "Radius.C17_u32_write",
    "Radius.C17_u32_read",
    "Radius.C17_u16_write",
    "Radius.C17_u16_read"
   ],
   "note": ""
  },
  {
   "property": "C18",
   "status": "proved",
   "theorems": [
    "Radius.C18_ipv4",
    "Radius.C18_ipv6"
   ],
   "note": ""
  },
  {
   "property": "C19",
   "status": "proved",
   "theorems": [
    "Radius.C19_ipv4_prefix",
    "Radius.C19_ipv6_prefix"
   ],
   "note": ""
  },
  {
   "property": "C20",
   "status": "proved",
   "theorems": [
    "Radius.C20_text",
    "Radius.C20_text_validity"
   ],
   "note": ""
  },
  {
   "property": "C21",
   "status": "proved",
   "theorems": [
    "Radius.C21_tagged_text_read",
    "Radius.C21_tagged_text"
   ],
   "note": ""
  },
  {
   "property": "C22",
   "status": "proved",
   "theorems": [
    "Radius.C22_tagged_u32_read",
    "Radius.C22_tagged_u32"
   ],
   "note": ""
  },
  {
   "property": "C23",
   "status": "proved",
   "theorems": [
    "Radius.C23_date",
    "Radius.C23_date_read"
   ],
   "note": ""
  },
  {
   "property": "C24",
   "status": "proved",
   "theorems": [
    "Radius.C24_concat_split",
    "Radius.C24_concat_lookup",
    "Radius.C24_concat_over_the_wire"
   ],
   "note": ""
  },
  {
   "property": "C25",
   "status": "proved",
   "theorems": [
    "Radius.C25_fixed_length",
    "Radius.C25_add_outcome"
   ],
   "note": ""
  },
  {
   "property": "C26",
   "status": "proved",
   "theorems": [
    "Radius.C26_user_password_hiding",
    "Radius.C26_hidden_unique"
   ],
   "note": ""
  },
  {
   "property": "C27",
   "status": "proved",
   "theorems": [
    "Radius.C27_user_password_reveal",
    "Radius.C27_user_password_reader"
   ],
   "note": ""
  },
  {
   "property": "C28",
   "status": "proved",
   "theorems": [
    "Radius.C28_password_over_the_wire"
   ],
   "note": ""
  },
  {
   "property": "C29",
   "status": "proved",
   "theorems": [
    "Radius.C29_tunnel_password_hiding",
    "Radius.C29_tunnel_password_reveal",
    "Radius.C29_tunnel_password_reader"
   ],
   "note": ""
  },
  {
   "property": "C30",
   "status": "partial",
   "theorems": [
    "Radius.C30_tunnel_password_partial",
    "Radius.C30_counterexample"
   ],
   "note": "The full claim is false of the code: lookup_tunnel_password on a decoded response uses the response authenticator, the server hid the password with the request authenticator (C30_counterexample, a concrete MD5 run). Proved: the attribute survives transport and reads correctly with the request authenticator."
  },
  {
   "property": "C31",
   "status": "proved",
   "theorems": [
    "Radius.C31_frame",
    "Radius.C31_add_lookup",
    "Radius.C31_codes_distinct",
    "Radius.C31_generated"
   ],
   "note": ""
  },
  {
   "property": "C32",
   "status": "proved",
   "theorems": [
    "Radius.C32_lookup_first",
    "Radius.C32_lookup_all"
   ],
   "note": ""
  },
  {
   "property": "C33",
   "status": "proved",
   "theorems": [
    "Radius.C33_message",
    "Radius.C33_wire",
    "Radius.C33_over_the_wire"
   ],
   "note": "The size hypothesis of C33_over_the_wire excludes the packets of 64 KiB of C06; C33_wire has no size hypothesis."
  },
  {
   "property": "C34",
   "status": "proved",
   "theorems": [
    "Radius.C34_passwords",
    "Radius.C34_encode",
    "Radius.C34_checks",
    "Radius.C34_builds_equal"
   ],
   "note": ""
  },
  {
   "property": "C35",
   "status": "proved",
   "theorems": [
    "Radius.C35_debug_hides_secret"
   ],
   "note": ""
  },
  {
   "property": "C36",
   "status": "proved",
   "theorems": [
    "Radius.C36_one_handler_per_key"
   ],
   "note": ""
  },
  {
   "property": "C37",
   "status": "proved",
   "theorems": [
    "Radius.C37_handlers_see_validated_requests"
   ],
   "note": ""
  },
  {
   "property": "C38",
   "status": "proved",
   "theorems": [
    "Radius.C38_duplicate_check",
    "Radius.C38_keys",
    "Radius.C38_valid_not_rejected",
    "Radius.C38_every_schedule",
    "Radius.C38_valid_handled_or_duplicate"
   ],
   "note": ""
  },
  {
   "property": "C39",
   "status": "proved",
   "theorems": [
    "Radius.C39_every_schedule",
    "Radius.C39_released_after_return",
    "Radius.C39_next_request_admitted",
    "Radius.C39_identifier_reusable"
   ],
   "note": ""
  },
  {
   "property": "C40",
   "status": "partial",
   "theorems": [
    "Radius.C40_released_partial",
    "Radius.C40_panic_blocks_key"
   ],
   "note": "The full claim is false of the code: a panicking handler never releases its key (C40_panic_blocks_key: every later request with that key is dropped forever). Proved for handlers that return Ok or Err."
  },
  {
   "property": "C41",
   "status": "proved",
   "theorems": [
    "Radius.C41_no_deadlock",
    "Radius.C41_no_livelock"
   ],
   "note": ""
  },
  {
   "property": "C42",
   "status": "proved",
   "theorems": [
    "Radius.C42_handled_at_most_once"
   ],
   "note": ""
  },
  {
   "property": "C43",
   "status": "proved",
   "theorems": [
    "Radius.C43_buffer_size"
   ],
   "note": ""
  },
  {
   "property": "C44",
   "status": "proved",
   "theorems": [
    "Radius.C44_sends_request_once",
    "Radius.C44_local_address"
   ],
   "note": ""
  },
  {
   "property": "C45",
   "status": "proved",
   "theorems": [
    "Radius.C45_result_identifies_stage",
    "Radius.C45_no_panic"
   ],
   "note": ""
  },
  {
   "property": "C46",
   "status": "partial",
   "theorems": [
    "Radius.C46_response_partial",
    "Radius.C46_counterexample"
   ],
   "note": "The full claim is false of the code: send_packet never calls is_authentic_response nor compares identifiers (C46_counterexample: for every digest and request, a forged datagram is returned). Proved: what is returned is exactly the content of the one datagram received."
  },
  {
   "property": "C47",
   "status": "proved",
   "theorems": [
    "Radius.C47_codes"
   ],
   "note": ""
  },
  {
   "property": "C48",
   "status": "proved",
   "theorems": [
    "Radius.C48_tag_classes"
   ],
   "note": ""
  },
  {
   "property": "C49",
   "status": "proved",
   "theorems": [
    "Radius.C49_parse",
    "Radius.C49_line_unambiguous",
    "Radius.C49_bad_line"
   ],
   "note": ""
  },
  {
   "property": "C50",
   "status": "proved",
   "theorems": [
    "Radius.C50_contents",
    "Radius.C50_modules",
    "Radius.C50_only_addition"
   ],
   "note": ""
  },
  {
   "property": "C51",
   "status": "proved",
   "theorems": [
    "Radius.C51_supported",
    "Radius.C51_attributes",
    "Radius.C51_family"
   ],
   "note": ""
  },
  {
   "property": "C52",
   "status": "partial",
   "theorems": [
    "Radius.C52_client_side",
    "Radius.C52_handler_answer",
    "Radius.C52_end_to_end_partial",
    "Radius.C52_counterexample_zero",
    "Radius.C52_counterexample_utf8"
   ],
   "note": "The full claim is false for passwords with a zero byte (C52_counterexample_zero: accepted) or not UTF-8 (C52_counterexample_utf8: handler panics). Proved for all other passwords, in every execution of the server."
  },
  {
   "property": "C53",
   "status": "proved",
   "theorems": [
    "Radius.C53_intake_only_while_running",
    "Radius.C53_run_result",
    "Radius.C53_tasks_go_on"
   ],
   "note": ""
  },
  {
   "property": "C54",
   "status": "proved",
   "theorems": [
    "Radius.C54_address_text",
    "Radius.C54_duplicate_same_client",
    "Radius.C54_one_handler_per_endpoint"
   ],
   "note": ""
  },
  {
   "property": "C55",
   "status": "proved",
   "theorems": [
    "Radius.C55_wire_order",
    "Radius.C55_received_order",
    "Radius.C55_forwarded_order"
   ],
   "note": ""
  },
  {
   "property": "C56",
   "status": "proved",
   "theorems": [
    "Radius.C56_accessors_never_panic"
   ],
   "note": ""
  },
  {
   "property": "C57",
   "status": "proved",
   "theorems": [
    "Radius.C57_encode_injective"
   ],
   "note": ""
  },
  {
   "property": "C58",
   "status": "proved",
   "theorems": [
    "Radius.C58_padding_and_truncation"
   ],
   "note": ""
  },
  {
   "property": "C59",
   "status": "proved",
   "theorems": [
    "Radius.C59_request_two_secrets",
    "Radius.C59_response_two_contexts",
    "Radius.C59_access_request_any_secret"
   ],
   "note": ""
  },
  {
   "property": "C60",
   "status": "proved",
   "theorems": [
    "Radius.C60_typed_reads_survive_transport"
   ],
   "note": ""
  },
  {
   "property": "C61",
   "status": "proved",
   "theorems": [
    "Radius.C61_handler_exact",
    "Radius.C61_stranger_blocks_client"
   ],
   "note": ""
  },
  {
   "property": "C62",
   "status": "proved",
   "theorems": [
    "Radius.C62_add_appends",
    "Radius.C62_adds_accumulate",
    "Radius.C62_delete"
   ],
   "note": ""
  },
  {
   "property": "C63",
   "status": "proved",
   "theorems": [
    "Radius.C63_first_bad_line",
    "Radius.C63_read_or_stopped"
   ],
   "note": ""
  },
  {
   "property": "C64",
   "status": "proved",
   "theorems": [
    "Radius.C64_encode",
    "Radius.C64_requests_independent",
    "Radius.C64_checks",
    "Radius.C64_decode",
    "Radius.C64_add",
    "Radius.C64_lookup",
    "Radius.C64_conversation",
    "Radius.C64_from_the_start",
    "Radius.C64_no_secret_excluded"
   ],
   "note": ""
  },
  {
   "property": "C65",
   "status": "proved",
   "theorems": [
    "Radius.C65_written",
    "Radius.C65_refused",
    "Radius.C65_order",
    "Radius.C65_success"
   ],
   "note": ""
  },
  {
   "property": "C66",
   "status": "proved",
   "theorems": [
    "Radius.C66_types_declared",
    "Radius.C66_shipped",
    "Radius.C66_values_added_later",
    "Radius.C66_attribute_redefined"
   ],
   "note": ""
  },
  {
   "property": "C67",
   "status": "proved",
   "theorems": [
    "Radius.C67_shipped"
   ],
   "note": ""
  },
  {
   "property": "C68",
   "status": "proved",
   "theorems": [
    "Radius.C68_answers_from_address",
    "Radius.C68_own_answer",
    "Radius.C68_example",
    "Radius.C68_late_answer"
   ],
   "note": ""
  },
  {
   "property": "C69",
   "status": "proved",
   "theorems": [
    "Radius.C69_still_answers"
   ],
   "note": ""
  },
  {
   "property": "C70",
   "status": "proved",
   "theorems": [
    "Radius.C70_same_packet",
    "Radius.C70_same_answer"
   ],
   "note": ""
  },
  {
   "property": "C71",
   "status": "proved",
   "theorems": [
    "Radius.C71_client_errors",
    "Radius.C71_avp_errors",
    "Radius.C71_packet_errors",
    "Radius.C71_same_text"
   ],
   "note": ""
  },
  {
   "property": "C72",
   "status": "proved",
   "theorems": [
    "Radius.C72_long_handler",
    "Radius.C72_caller",
    "Radius.C72_nothing_left",
    "Radius.C72_next_handled"
   ],
   "note": ""
  },
  {
   "property": "C73",
   "status": "proved",
   "theorems": [
    "Radius.C73_replays",
    "Radius.C73_one_at_a_time"
   ],
   "note": ""
  }
 ]
}