{
 "claims": [
  {
   "property": "C01",
   "status": "proved",
   "theorems": [
    "BT.C01_int_hex_round_trip",
    "BT.C01_int_to_hex_negative",
    "BT.C01_hex_int_hex"
   ],
   "note": ""
  },
  {
   "property": "C02",
   "status": "proved",
   "theorems": [
    "BT.C02_le_field"
   ],
   "note": ""
  },
  {
   "property": "C03",
   "status": "proved",
   "theorems": [
    "BT.C03_reverse",
    "BT.C03_reverse_rejects",
    "BT.C03_hex_bytes",
    "BT.C03_involution"
   ],
   "note": ""
  },
  {
   "property": "C04",
   "status": "proved",
   "theorems": [
    "BT.C04_var_int_encode",
    "BT.C04_var_int_decode",
    "BT.C04_var_int_canonical"
   ],
   "note": ""
  },
  {
   "property": "C05",
   "status": "proved",
   "theorems": [
    "BT.C05_pad_hex",
    "BT.C05_pad_hex_le",
    "BT.C05_pad_rejects"
   ],
   "note": ""
  },
  {
   "property": "C06",
   "status": "proved",
   "theorems": [
    "BT.C06_base58_round_trip",
    "BT.C06_base58_zero",
    "BT.C06_base58_to_int",
    "BT.C06_base58_injective"
   ],
   "note": ""
  },
  {
   "property": "C07",
   "status": "proved",
   "theorems": [
    "BT.C07_base58check_round_trip",
    "BT.C07_base58check_exception"
   ],
   "note": ""
  },
  {
   "property": "C08",
   "status": "proved",
   "theorems": [
    "BT.C08_base58check_canonical",
    "BT.C08_not_malleable"
   ],
   "note": ""
  },
  {
   "property": "C09",
   "status": "proved",
   "theorems": [
    "BT.C09_bad_character",
    "BT.C09_bad_checksum",
    "BT.C09_denotes",
    "BT.C09_error_kind",
    "BT.C09_good_checksum"
   ],
   "note": ""
  },
  {
   "property": "C10",
   "status": "proved",
   "theorems": [
    "BT.C10_address_round_trip",
    "BT.C10_standard_address",
    "BT.C10_public_key_address"
   ],
   "note": ""
  },
  {
   "property": "C11",
   "status": "proved",
   "theorems": [
    "BT.C11_accepted_address",
    "BT.C11_address_injective",
    "BT.C11_rejected_address",
    "BT.C11_other_payloads"
   ],
   "note": ""
  },
  {
   "property": "C12",
   "status": "proved",
   "theorems": [
    "BT.C12_wif_layout",
    "BT.C12_wif_round_trip"
   ],
   "note": ""
  },
  {
   "property": "C13",
   "status": "partial",
   "theorems": [
    "BT.C13_wif_partial",
    "BT.C13_violation"
   ],
   "note": "The property as a user expects it is FALSE of the code: C13_violation proves the network byte is not checked; C13_wif_partial is what holds."
  },
  {
   "property": "C14",
   "status": "proved",
   "theorems": [
    "BT.C14_script_round_trip",
    "BT.C14_script_rejects"
   ],
   "note": ""
  },
  {
   "property": "C15",
   "status": "partial",
   "theorems": [
    "BT.C15_p2pkh_partial",
    "BT.C15_violation"
   ],
   "note": "FALSE of the code: C15_violation proves every hex script is rendered as an address; C15_p2pkh_partial is what holds."
  },
  {
   "property": "C16",
   "status": "proved",
   "theorems": [
    "BT.C16_script_sig_round_trip",
    "BT.C16_script_sig_rejects"
   ],
   "note": ""
  },
  {
   "property": "C17",
   "status": "proved",
   "theorems": [
    "BT.C17_script_sig_decode",
    "BT.C17_script_sig_rejects",
    "BT.C17_other_hash_type",
    "BT.C17_other_key_type"
   ],
   "note": ""
  },
  {
   "property": "C18",
   "status": "partial",
   "theorems": [
    "BT.C18_round_trip_partial",
    "BT.C18_violation"
   ],
   "note": "FALSE for 0 satoshi (C18_violation); the round trip for 1..21e14 is C18_round_trip_partial."
  },
  {
   "property": "C19",
   "status": "proved",
   "theorems": [
    "BT.C19_satoshi_to_bitcoin",
    "BT.C19_satoshi_to_bitcoin_rejects"
   ],
   "note": ""
  },
  {
   "property": "C20",
   "status": "proved",
   "theorems": [
    "BT.C20_bitcoin_to_satoshi",
    "BT.C20_bitcoin_to_satoshi_ascii",
    "BT.C20_unique_and_rejects"
   ],
   "note": ""
  },
  {
   "property": "C21",
   "status": "proved",
   "theorems": [
    "BT.C21_validate_bitcoin_amount",
    "BT.C21_rejects"
   ],
   "note": ""
  },
  {
   "property": "C22",
   "status": "partial",
   "theorems": [
    "BT.C22_positive_amount_partial",
    "BT.C22_violation"
   ],
   "note": "FALSE for non-ASCII zeros (C22_violation); exact characterisation in C22_positive_amount_partial."
  },
  {
   "property": "C23",
   "status": "proved",
   "theorems": [
    "BT.C23_ensure_8",
    "BT.C23_same_value"
   ],
   "note": ""
  },
  {
   "property": "C24",
   "status": "proved",
   "theorems": [
    "BT.C24_create",
    "BT.C24_accepts",
    "BT.C24_rejects",
    "BT.C24_output"
   ],
   "note": ""
  },
  {
   "property": "C25",
   "status": "partial",
   "theorems": [
    "BT.C25_fields_agree_partial",
    "BT.C25_set_amount",
    "BT.C25_violation"
   ],
   "note": "FALSE after a refused amount in (21e14, 2^64) (C25_violation); everything else in C25_fields_agree_partial and C25_set_amount."
  },
  {
   "property": "C26",
   "status": "proved",
   "theorems": [
    "BT.C26_round_trip",
    "BT.C26_cross_checks"
   ],
   "note": ""
  },
  {
   "property": "C27",
   "status": "proved",
   "theorems": [
    "BT.C27_round_trip",
    "BT.C27_round_trip_signed",
    "BT.C27_cross_checks"
   ],
   "note": ""
  },
  {
   "property": "C28",
   "status": "partial",
   "theorems": [
    "BT.C28_script_of_address_partial",
    "BT.C28_violation"
   ],
   "note": "FALSE of the code (C28_violation: any script or null is accepted); C28_script_of_address_partial is what holds."
  },
  {
   "property": "C29",
   "status": "proved",
   "theorems": [
    "BT.C29_data_round_trip",
    "BT.C29_json_round_trip",
    "BT.C29_to_dict_succeeds",
    "BT.C29_signing_keeps_consistency"
   ],
   "note": ""
  },
  {
   "property": "C30",
   "status": "proved",
   "theorems": [
    "BT.C30_from_data",
    "BT.C30_from_json",
    "BT.C30_bytes"
   ],
   "note": ""
  },
  {
   "property": "C31",
   "status": "proved",
   "theorems": [
    "BT.C31_signatures_ignored",
    "BT.C31_sign_any_order"
   ],
   "note": ""
  },
  {
   "property": "C32",
   "status": "proved",
   "theorems": [
    "BT.C32_commits"
   ],
   "note": ""
  },
  {
   "property": "C33",
   "status": "proved",
   "theorems": [
    "BT.C33_signable_layout"
   ],
   "note": ""
  },
  {
   "property": "C34",
   "status": "proved",
   "theorems": [
    "BT.C34_signed_layout",
    "BT.C34_frame",
    "BT.C34_unsigned"
   ],
   "note": ""
  },
  {
   "property": "C35",
   "status": "proved",
   "theorems": [
    "BT.C35_signed_round_trip",
    "BT.C35_hex_round_trip"
   ],
   "note": ""
  },
  {
   "property": "C36",
   "status": "partial",
   "theorems": [
    "BT.C36_decode_partial",
    "BT.C36_decoded_fields",
    "BT.C36_not_hex",
    "BT.C36_violation"
   ],
   "note": "First half proved; second half FALSE (C36_violation: trailing bytes are accepted)."
  },
  {
   "property": "C37",
   "status": "proved",
   "theorems": [
    "BT.C37_sign_then_verify"
   ],
   "note": ""
  },
  {
   "property": "C38",
   "status": "proved",
   "theorems": [
    "BT.C38_right_key",
    "BT.C38_right_address",
    "BT.C38_missing_key"
   ],
   "note": ""
  },
  {
   "property": "C39",
   "status": "proved",
   "theorems": [
    "BT.C39_only_signatures",
    "BT.C39_failing_sign",
    "BT.C39_failing_input"
   ],
   "note": ""
  },
  {
   "property": "C40",
   "status": "proved",
   "theorems": [
    "BT.C40_bad_random_values",
    "BT.C40_own_random_value",
    "BT.C40_no_other_use"
   ],
   "note": ""
  },
  {
   "property": "C41",
   "status": "proved",
   "theorems": [
    "BT.C41_counts",
    "BT.C41_verdict_unique",
    "BT.C41_unsigned_raises"
   ],
   "note": ""
  },
  {
   "property": "C42",
   "status": "partial",
   "theorems": [
    "BT.C42_hex_key_matches_partial",
    "BT.C42_sign_key_matches_partial",
    "BT.C42_violation"
   ],
   "note": "FALSE for transactions loaded from JSON (C42_violation); what holds is in the _partial theorem."
  },
  {
   "property": "C43",
   "status": "proved",
   "theorems": [
    "BT.C43_txid",
    "BT.C43_txid_unsigned",
    "BT.C43_txid_congr"
   ],
   "note": ""
  },
  {
   "property": "C44",
   "status": "proved",
   "theorems": [
    "BT.C44_signed_size",
    "BT.C44_estimate",
    "BT.C44_actual_size"
   ],
   "note": ""
  },
  {
   "property": "C45",
   "status": "proved",
   "theorems": [
    "BT.C45_request_unique",
    "BT.C45_request",
    "BT.C45_conservation",
    "BT.C45_exact_fee",
    "BT.C45_offer_fields",
    "BT.C45_ask_fields"
   ],
   "note": ""
  },
  {
   "property": "C46",
   "status": "proved",
   "theorems": [
    "BT.C46_max_fee"
   ],
   "note": ""
  },
  {
   "property": "C47",
   "status": "proved",
   "theorems": [
    "BT.C47_rate",
    "BT.C47_whole",
    "BT.C47_monotone"
   ],
   "note": ""
  },
  {
   "property": "C48",
   "status": "partial",
   "theorems": [
    "BT.C48_rate_paid_partial",
    "BT.C48_violation_shortfall",
    "BT.C48_violation"
   ],
   "note": "FALSE (C48_violation); what holds is in the _partial theorem."
  },
  {
   "property": "C49",
   "status": "proved",
   "theorems": [
    "BT.C49_selection",
    "BT.C49_no_invention"
   ],
   "note": ""
  },
  {
   "property": "C50",
   "status": "proved",
   "theorems": [
    "BT.C50_fewest_inputs",
    "BT.C50_empty_covers_nothing"
   ],
   "note": ""
  },
  {
   "property": "C51",
   "status": "proved",
   "theorems": [
    "BT.C51_payments",
    "BT.C51_others_unchanged"
   ],
   "note": ""
  },
  {
   "property": "C52",
   "status": "proved",
   "theorems": [
    "BT.C52_outputs_not_covered",
    "BT.C52_fee_not_covered",
    "BT.C52_covered"
   ],
   "note": ""
  },
  {
   "property": "C53",
   "status": "proved",
   "theorems": [
    "BT.C53_no_duplicates",
    "BT.C53_duplicate_error"
   ],
   "note": ""
  },
  {
   "property": "C54",
   "status": "proved",
   "theorems": [
    "BT.C54_spending_limit",
    "BT.C54_zero_blocks",
    "BT.C54_documented_percentage",
    "BT.C54_full_never_blocks"
   ],
   "note": ""
  },
  {
   "property": "C55",
   "status": "partial",
   "theorems": [
    "BT.C55_zero_fee_never",
    "BT.C55_violation"
   ],
   "note": "FALSE (C55_violation: always TypeError)."
  },
  {
   "property": "C56",
   "status": "partial",
   "theorems": [
    "BT.C56_violation"
   ],
   "note": "FALSE (C56_violation: a second call always raises ValueError)."
  },
  {
   "property": "C57",
   "status": "partial",
   "theorems": [
    "BT.C57_only_seven_keys",
    "BT.C57_violation",
    "BT.C57_violation_occurs"
   ],
   "note": "FALSE (C57_violation: the documented key has no effect)."
  },
  {
   "property": "C58",
   "status": "proved",
   "theorems": [
    "BT.C58_amounts_positive",
    "BT.C58_json"
   ],
   "note": ""
  },
  {
   "property": "C59",
   "status": "proved",
   "theorems": [
    "BT.C59_silent_failure",
    "BT.C59_prints",
    "BT.C59_succeeds",
    "BT.C59_main",
    "BT.C59_main_files"
   ],
   "note": ""
  },
  {
   "property": "C60",
   "status": "partial",
   "theorems": [
    "BT.C60_violation",
    "BT.C60_violation_prints",
    "BT.C60_hex_partial",
    "BT.C60_violation_occurs"
   ],
   "note": "FALSE (C60_violation: always ends in NameError)."
  },
  {
   "property": "C61",
   "status": "partial",
   "theorems": [
    "BT.C61_idempotent",
    "BT.C61_handler_count",
    "BT.C61_at_most_one_partial",
    "BT.C61_first_success",
    "BT.C61_violation"
   ],
   "note": "FALSE if the log directory cannot be created (C61_violation); the exact handler count is C61_handler_count, the rest C61_idempotent and C61_first_success."
  },
  {
   "property": "C62",
   "status": "proved",
   "theorems": [
    "BT.C62_printable_ascii"
   ],
   "note": ""
  },
  {
   "property": "C63",
   "status": "proved",
   "theorems": [
    "BT.C63_validate_hex",
    "BT.C63_validate_hex_length",
    "BT.C63_validate_integer_domain",
    "BT.C63_validate_lists_are_identical",
    "BT.C63_validate_list_contains_items",
    "BT.C63_validate_item_in_list",
    "BT.C63_validate_whole_number",
    "BT.C63_types",
    "BT.C63_validate_positive_integer"
   ],
   "note": ""
  },
  {
   "property": "C64",
   "status": "proved",
   "theorems": [
    "BT.C64_totals"
   ],
   "note": ""
  },
  {
   "property": "C65",
   "status": "proved",
   "theorems": [
    "BT.C65_resign"
   ],
   "note": ""
  },
  {
   "property": "C66",
   "status": "proved",
   "theorems": [
    "BT.C66_estimated_rate",
    "BT.C66_actual_rate"
   ],
   "note": ""
  },
  {
   "property": "C67",
   "status": "partial",
   "theorems": [
    "BT.C67_date_partial",
    "BT.C67_violation"
   ],
   "note": "FALSE for a trailing newline / non-ASCII digits (C67_violation); exact characterisation in C67_date_partial."
  },
  {
   "property": "C68",
   "status": "partial",
   "theorems": [
    "BT.C68_positive_integer_string_partial",
    "BT.C68_ascii_numerals",
    "BT.C68_violation",
    "BT.C68_whole_number_string"
   ],
   "note": "FALSE for the empty string and other strings (C68_violation); exact characterisation in C68_positive_integer_string_partial."
  },
  {
   "property": "C69",
   "status": "proved",
   "theorems": [
    "BT.C69_decimal",
    "BT.C69_decimal_places",
    "BT.C69_whole_or_decimal"
   ],
   "note": ""
  },
  {
   "property": "C70",
   "status": "partial",
   "theorems": [
    "BT.C70_version_partial",
    "BT.C70_violation"
   ],
   "note": "FALSE of the code (C70_violation: the version entry is never read); C70_version_partial is what holds."
  },
  {
   "property": "C71",
   "status": "partial",
   "theorems": [
    "BT.C71_bitcoin_rate_partial",
    "BT.C71_violation"
   ],
   "note": "FALSE because of double rounding (C71_violation); C71_bitcoin_rate_partial says what is printed."
  },
  {
   "property": "C72",
   "status": "partial",
   "theorems": [
    "BT.C72_violation",
    "BT.C72_violation_occurs"
   ],
   "note": "FALSE (C72_violation, C72_violation_occurs: the same output can be offered and spent twice)."
  },
  {
   "property": "C73",
   "status": "proved",
   "theorems": [
    "BT.C73_outcome"
   ],
   "note": ""
  },
  {
   "property": "C74",
   "status": "proved",
   "theorems": [
    "BT.C74_end_to_end",
    "BT.C74_program"
   ],
   "note": ""
  },
  {
   "property": "C75",
   "status": "proved",
   "theorems": [
    "BT.C75_pipeline"
   ],
   "note": ""
  },
  {
   "property": "C76",
   "status": "proved",
   "theorems": [
    "BT.C76_different_texts",
    "BT.C76_verify_exact",
    "BT.C76_sign_succeeds",
    "BT.C76_sign_then_verify"
   ],
   "note": ""
  },
  {
   "property": "C77",
   "status": "proved",
   "theorems": [
    "BT.C77_key_tasks"
   ],
   "note": ""
  },
  {
   "property": "C78",
   "status": "partial",
   "theorems": [
    "BT.C78_set_level_partial",
    "BT.C78_violation"
   ],
   "note": "FALSE when the level is lowered (C78_violation); C78_set_level_partial says exactly what is written."
  },
  {
   "property": "C79",
   "status": "proved",
   "theorems": [
    "BT.C79_setup",
    "BT.C79_setup_succeeds",
    "BT.C79_failure"
   ],
   "note": ""
  },
  {
   "property": "C80",
   "status": "proved",
   "theorems": [
    "BT.C80_single_key",
    "BT.C80_single_key_runs"
   ],
   "note": ""
  },
  {
   "property": "C81",
   "status": "proved",
   "theorems": [
    "BT.C81_sign_iff",
    "BT.C81_missing_key",
    "BT.C81_one_shot"
   ],
   "note": ""
  },
  {
   "property": "C82",
   "status": "partial",
   "theorems": [
    "BT.C82_violation",
    "BT.C82_random_values_partial",
    "BT.C82_violation_occurs"
   ],
   "note": "FALSE with fewer keys than inputs (C82_violation, C82_violation_occurs); C82_random_values_partial is what holds."
  },
  {
   "property": "C83",
   "status": "proved",
   "theorems": [
    "BT.C83_key_files",
    "BT.C83_key_dir"
   ],
   "note": ""
  },
  {
   "property": "C84",
   "status": "proved",
   "theorems": [
    "BT.C84_listing_order",
    "BT.C84_key_order"
   ],
   "note": ""
  },
  {
   "property": "C85",
   "status": "proved",
   "theorems": [
    "BT.C85_data_file",
    "BT.C85_hex_padding"
   ],
   "note": ""
  },
  {
   "property": "C86",
   "status": "partial",
   "theorems": [
    "BT.C86_hex_partial",
    "BT.C86_sign_json_partial",
    "BT.C86_violation_json",
    "BT.C86_violation_data",
    "BT.C86_violation_occurs",
    "BT.C86_violation_data_occurs"
   ],
   "note": "FALSE for verify_signed_transaction_json and verify_data_signature (C86_violation_*); C86_hex_partial and C86_sign_json_partial (and C59 for the one-shot task) are what holds."
  },
  {
   "property": "C87",
   "status": "partial",
   "theorems": [
    "BT.C87_violation",
    "BT.C87_dispatch_partial",
    "BT.C87_violation_shell",
    "BT.C87_python_version",
    "BT.C87_violation_occurs",
    "BT.C87_violation_shell_occurs"
   ],
   "note": "FALSE for unknown tasks and for get_python_version with a failing shell (C87_violation*); C87_dispatch_partial: listed tasks run their function."
  },
  {
   "property": "C88",
   "status": "proved",
   "theorems": [
    "BT.C88_signable_json",
    "BT.C88_signed_json",
    "BT.C88_signable_inputs"
   ],
   "note": ""
  },
  {
   "property": "C89",
   "status": "proved",
   "theorems": [
    "BT.C89_transaction",
    "BT.C89_signed_word",
    "BT.C89_text",
    "BT.C89_input",
    "BT.C89_output"
   ],
   "note": ""
  },
  {
   "property": "C90",
   "status": "partial",
   "theorems": [
    "BT.C90_reload_partial",
    "BT.C90_stable",
    "BT.C90_violation",
    "BT.C90_violation_occurs"
   ],
   "note": "FALSE for the change address and the change amount (C90_violation: every created transaction) and for public keys of inputs; everything else is reported again (C90_reload_partial), and a second reload changes nothing (C90_stable)."
  },
  {
   "property": "C91",
   "status": "proved",
   "theorems": [
    "BT.C91_one_shot",
    "BT.C91_program"
   ],
   "note": ""
  },
  {
   "property": "C92",
   "status": "proved",
   "theorems": [
    "BT.C92_public_key",
    "BT.C92_injective",
    "BT.C92_address",
    "BT.C92_address_round_trip"
   ],
   "note": ""
  },
  {
   "property": "C93",
   "status": "proved",
   "theorems": [
    "BT.C93_verify_data"
   ],
   "note": ""
  },
  {
   "property": "C94",
   "status": "proved",
   "theorems": [
    "BT.C94_exclusive"
   ],
   "note": ""
  },
  {
   "property": "C95",
   "status": "proved",
   "theorems": [
    "BT.C95_settings",
    "BT.C95_clash",
    "BT.C95_order"
   ],
   "note": ""
  },
  {
   "property": "C96",
   "status": "proved",
   "theorems": [
    "BT.C96_accounted"
   ],
   "note": ""
  },
  {
   "property": "C97",
   "status": "proved",
   "theorems": [
    "BT.C97_status",
    "BT.C97_setup",
    "BT.C97_log_file",
    "BT.C97_log_directory",
    "BT.C97_get_address",
    "BT.C97_transaction"
   ],
   "note": ""
  },
  {
   "property": "C98",
   "status": "partial",
   "theorems": [
    "BT.C98_sign_verify_partial",
    "BT.C98_violation"
   ],
   "note": "FALSE for a text with a leading dash given as a separate word: usage error (C98_violation, a whole family). C98_sign_verify_partial: in the form --data=TEXT every printable text is signed as it is and accepted by the verifying command."
  },
  {
   "property": "C99",
   "status": "proved",
   "theorems": [
    "BT.C99_any_order",
    "BT.C99_same_transaction"
   ],
   "note": ""
  },
  {
   "property": "C100",
   "status": "partial",
   "theorems": [
    "BT.C100_unspent_coins_partial",
    "BT.C100_violation_rate",
    "BT.C100_violation_occurs"
   ],
   "note": "FALSE with a fee rate: the fee is computed from the number of all available coins (C100_violation_rate, C100_violation_occurs). C100_unspent_coins_partial: with an explicit fee the transaction is the same."
  },
  {
   "property": "C101",
   "status": "proved",
   "theorems": [
    "BT.C101_any_layout",
    "BT.C101_files",
    "BT.C101_data"
   ],
   "note": ""
  },
  {
   "property": "C102",
   "status": "proved",
   "theorems": [
    "BT.C102_exactly_json",
    "BT.C102_one_value",
    "BT.C102_files"
   ],
   "note": ""
  },
  {
   "property": "C103",
   "status": "proved",
   "theorems": [
    "BT.C103_to_json",
    "BT.C103_decoded",
    "BT.C103_forms"
   ],
   "note": ""
  },
  {
   "property": "C104",
   "status": "partial",
   "theorems": [
    "BT.C104_agrees_string",
    "BT.C104_agrees_types",
    "BT.C104_agrees_positive",
    "BT.C104_agrees_whole",
    "BT.C104_agrees_hex",
    "BT.C104_agrees_hexLength",
    "BT.C104_agrees_strPositive",
    "BT.C104_agrees_strWhole",
    "BT.C104_agrees_strDecimal",
    "BT.C104_agrees_strWholeOrDecimal",
    "BT.C104_agrees_date",
    "BT.C104_agrees_printable",
    "BT.C104_agrees_lists",
    "BT.C104_wrong_type",
    "BT.C104_integers",
    "BT.C104_hex",
    "BT.C104_hexLength",
    "BT.C104_strWhole",
    "BT.C104_decimal",
    "BT.C104_date",
    "BT.C104_printable",
    "BT.C104_zero_violation",
    "BT.C104_printable_violation",
    "BT.C104_bytes_violation",
    "BT.C104_domain"
   ],
   "note": "FALSE for the text '0' in validate_string_is_positive_integer (C104_zero_violation), for a non-string in validate_string_is_printable_ascii (C104_printable_violation) and for validate_bytes, which says that an int was wanted (C104_bytes_violation); every other text is explained exactly."
  },
  {
   "property": "C105",
   "status": "proved",
   "theorems": [
    "BT.C105_value",
    "BT.C105_refused",
    "BT.C105_hex",
    "BT.C105_numbers"
   ],
   "note": ""
  },
  {
   "property": "C106",
   "status": "proved",
   "theorems": [
    "BT.C106_hex",
    "BT.C106_digits",
    "BT.C106_printable",
    "BT.C106_missing"
   ],
   "note": ""
  },
  {
   "property": "C107",
   "status": "partial",
   "theorems": [
    "BT.C107_key_text",
    "BT.C107_partial",
    "BT.C107_sign_violation",
    "BT.C107_digits_violation",
    "BT.C107_wif_violation",
    "BT.C107_checksum_text"
   ],
   "note": "FALSE: a key with a missing or upper-case digit is repeated (C107_sign_violation, C107_digits_violation), and a WIF key with a wrong checksum is printed in hex (C107_wif_violation). C107_partial: no text is made for well-formed keys."
  },
  {
   "property": "C108",
   "status": "partial",
   "theorems": [
    "BT.C108_value",
    "BT.C108_hex_violation",
    "BT.C108_printable_violation",
    "BT.C108_partial"
   ],
   "note": "FALSE: validate_hex and validate_string_is_printable_ascii print the refused characters as they are (C108_hex_violation, C108_printable_violation). C108_value, C108_partial: the value itself is always shown with visible characters."
  },
  {
   "property": "C109",
   "status": "proved",
   "theorems": [
    "BT.C109_agrees",
    "BT.C109_fee",
    "BT.C109_totals",
    "BT.C109_counts",
    "BT.C109_change",
    "BT.C109_listing",
    "BT.C109_addresses"
   ],
   "note": ""
  },
  {
   "property": "C110",
   "status": "partial",
   "theorems": [
    "BT.C110_selected_partial",
    "BT.C110_selected_exact",
    "BT.C110_available",
    "BT.C110_new_totals",
    "BT.C110_new_output",
    "BT.C110_selected_violation",
    "BT.C110_available_violation"
   ],
   "note": "FALSE in two places: 'Selected inputs: 0' is logged when all offered inputs are needed exactly (C110_selected_exact for all such calls, C110_selected_violation), and 'Total available input value is less than or equal to total output value.' by every successful call (C110_available, C110_available_violation). Everything else is true."
  },
  {
   "property": "C111",
   "status": "proved",
   "theorems": [
    "BT.C111_max_fee",
    "BT.C111_max_spend",
    "BT.C111_percentages",
    "BT.C111_fee_rate"
   ],
   "note": ""
  },
  {
   "property": "C112",
   "status": "proved",
   "theorems": [
    "BT.C112_special",
    "BT.C112_texts"
   ],
   "note": ""
  },
  {
   "property": "C113",
   "status": "partial",
   "theorems": [
    "BT.C113_advice_partial",
    "BT.C113_beyond_violation",
    "BT.C113_argsHalf_violation"
   ],
   "note": "FALSE when the whole input value is to be spent: the advice is 101 percent, which is never accepted (C113_beyond_violation for all such calls, C113_argsHalf_violation). C113_advice_partial: otherwise the advised percentage succeeds (for at most 252 outputs), and 100 percent always does."
  },
  {
   "property": "C114",
   "status": "partial",
   "theorems": [
    "BT.C114_created_partial",
    "BT.C114_forged_violation"
   ],
   "note": "FALSE if input_selection_approaches is this text: it is logged by a failing call (C114_forged_violation). C114_created_partial: in all other cases."
  },
  {
   "property": "C115",
   "status": "proved",
   "theorems": [
    "BT.C115_agrees",
    "BT.C115_functions"
   ],
   "note": ""
  },
  {
   "property": "C116",
   "status": "partial",
   "theorems": [
    "BT.C116_exact",
    "BT.C116_errors_true",
    "BT.C116_reported",
    "BT.C116_summary_partial",
    "BT.C116_violation"
   ],
   "note": "FALSE of the final line: \"Transaction verified: n valid signatures\" states the number of inputs also if signatures are invalid (C116_violation, for every transaction with an invalid signature). All other lines are exact (C116_exact, C116_errors_true, C116_reported), and the final line is true if all signatures are valid (C116_summary_partial)."
  },
  {
   "property": "C117",
   "status": "partial",
   "theorems": [
    "BT.C117_exact",
    "BT.C117_secret",
    "BT.C117_any_run",
    "BT.C117_done_iff",
    "BT.C117_violation"
   ],
   "note": "FALSE of the word \"non-deterministic\" for an empty list of random values: it is logged although the signatures are deterministic (C117_violation). Everything else holds (C117_exact, C117_secret, C117_any_run, C117_done_iff)."
  },
  {
   "property": "C118",
   "status": "proved",
   "theorems": [
    "BT.C118_exact",
    "BT.C118_info",
    "BT.C118_json",
    "BT.C118_hex"
   ],
   "note": ""
  },
  {
   "property": "C119",
   "status": "proved",
   "theorems": [
    "BT.C119_quiet",
    "BT.C119_one_shot",
    "BT.C119_sign_json"
   ],
   "note": ""
  },
  {
   "property": "C120",
   "status": "proved",
   "theorems": [
    "BT.C120_errors",
    "BT.C120_success",
    "BT.C120_console",
    "BT.C120_default"
   ],
   "note": ""
  },
  {
   "property": "C121",
   "status": "proved",
   "theorems": [
    "BT.C121_verify_hex",
    "BT.C121_decode_hex",
    "BT.C121_one_shot",
    "BT.C121_sign_json"
   ],
   "note": ""
  },
  {
   "property": "C122",
   "status": "proved",
   "theorems": [
    "BT.C122_signing_history",
    "BT.C122_signed_iff",
    "BT.C122_one_call",
    "BT.C122_broadcast"
   ],
   "note": ""
  },
  {
   "property": "C123",
   "status": "proved",
   "theorems": [
    "BT.C123_confluent",
    "BT.C123_failure_harmless"
   ],
   "note": ""
  },
  {
   "property": "C124",
   "status": "partial",
   "theorems": [
    "BT.C124_sign_after_change",
    "BT.C124_last_amounts_partial",
    "BT.C124_violation"
   ],
   "note": "FALSE of the amounts: a refused amount above 21 million bitcoin and below 2^64 satoshi is stored and signed by the next sign() (C124_violation). Without such amounts the whole claim holds (C124_last_amounts_partial); that the signed transaction verifies holds for every history (C124_sign_after_change)."
  },
  {
   "property": "C125",
   "status": "partial",
   "theorems": [
    "BT.C125_outcome",
    "BT.C125_cases",
    "BT.C125_retry_partial",
    "BT.C125_repair",
    "BT.C125_violation",
    "BT.C125_counterexample_violation"
   ],
   "note": "FALSE of the code: after a refusal past the validation every input and output dict has a key satoshi_amount, and every later call on them is a ValueError (C125_violation, for every such refusal and every later design; C125_counterexample_violation). Exact: C125_cases (harmless or marked), C125_retry_partial, C125_repair."
  },
  {
   "property": "C126",
   "status": "partial",
   "theorems": [
    "BT.C126_agrees_amount",
    "BT.C126_agrees_positive",
    "BT.C126_agrees_satoshi",
    "BT.C126_agrees_bitcoin",
    "BT.C126_agrees_ensure8",
    "BT.C126_agrees_pad",
    "BT.C126_amount",
    "BT.C126_not_string",
    "BT.C126_positive_partial",
    "BT.C126_satoshi_partial",
    "BT.C126_never",
    "BT.C126_distinct",
    "BT.C126_empty_violation",
    "BT.C126_zero_violation",
    "BT.C126_convert_zero_violation",
    "BT.C126_bitcoin",
    "BT.C126_bool_violation",
    "BT.C126_ensure8",
    "BT.C126_pad",
    "BT.C126_occurs"
   ],
   "note": "FALSE for values without a digit (C126_empty_violation, C126_zero_violation), for the conversion of zero (C126_convert_zero_violation) and for True and False (C126_bool_violation). The texts are exactly characterised: C126_amount (which text, and exactly when), C126_positive_partial, C126_satoshi_partial, C126_bitcoin, C126_ensure8, C126_pad; C126_distinct: different amounts, different texts; C126_agrees_*: the same values are refused as in the model without texts."
  },
  {
   "property": "C127",
   "status": "partial",
   "theorems": [
    "BT.C127_limits_never_shape",
    "BT.C127_max_fee",
    "BT.C127_raise_max_fee",
    "BT.C127_duplicates",
    "BT.C127_raise_percentage_partial",
    "BT.C127_percentage_violation"
   ],
   "note": "FALSE only for percentages between 100 and 101 (accepted because only the whole part is checked): the limit can exceed 21 million bitcoin (C127_percentage_violation). Everything else holds: C127_limits_never_shape (all three settings), C127_max_fee (exact), C127_duplicates (exact), C127_raise_percentage_partial (up to 100)."
  },
  {
   "property": "C128",
   "status": "partial",
   "theorems": [
    "BT.C128_fee_as_number_partial",
    "BT.C128_zero_violation",
    "BT.C128_only_the_fee_counts"
   ],
   "note": "FALSE for a fee of 0: naming it is refused (C128_zero_violation, the defect of C55). C128_only_the_fee_counts holds for every fee, C128_fee_as_number_partial for every fee but 0."
  },
  {
   "property": "C129",
   "status": "proved",
   "theorems": [
    "BT.C129_signature_protects",
    "BT.C129_tamper"
   ],
   "note": ""
  },
  {
   "property": "C130",
   "status": "proved",
   "theorems": [
    "BT.C130_same_meaning",
    "BT.C130_success",
    "BT.C130_example"
   ],
   "note": ""
  },
  {
   "property": "C131",
   "status": "proved",
   "theorems": [
    "BT.C131_any_order",
    "BT.C131_example"
   ],
   "note": ""
  },
  {
   "property": "C132",
   "status": "proved",
   "theorems": [
    "BT.C132_more_spends_more"
   ],
   "note": ""
  },
  {
   "property": "C133",
   "status": "partial",
   "theorems": [
    "BT.C133_asking_less_partial",
    "BT.C133_example",
    "BT.C133_violation_occurs"
   ],
   "note": "FALSE if a payment goes to the change address (C133_violation_occurs: dropping a payment makes the request fail). C133_asking_less_partial is the full claim for requests without such a payment."
  },
  {
   "property": "C134",
   "status": "proved",
   "theorems": [
    "BT.C134_spare_keys",
    "BT.C134_more_keys",
    "BT.C134_cli"
   ],
   "note": ""
  },
  {
   "property": "C135",
   "status": "proved",
   "theorems": [
    "BT.C135_accepted",
    "BT.C135_real"
   ],
   "note": ""
  },
  {
   "property": "C136",
   "status": "proved",
   "theorems": [
    "BT.C136_history",
    "BT.C136_all_accepted"
   ],
   "note": ""
  },
  {
   "property": "C137",
   "status": "proved",
   "theorems": [
    "BT.C137_spendable"
   ],
   "note": ""
  },
  {
   "property": "C138",
   "status": "proved",
   "theorems": [
    "BT.C138_everybody",
    "BT.C138_untouched",
    "BT.C138_payee"
   ],
   "note": ""
  },
  {
   "property": "C139",
   "status": "proved",
   "theorems": [
    "BT.C139_bystander",
    "BT.C139_accounted"
   ],
   "note": ""
  },
  {
   "property": "C140",
   "status": "proved",
   "theorems": [
    "BT.C140_met",
    "BT.C140_refused",
    "BT.C140_exactly"
   ],
   "note": ""
  },
  {
   "property": "C141",
   "status": "proved",
   "theorems": [
    "BT.C141_sweep"
   ],
   "note": ""
  },
  {
   "property": "C142",
   "status": "partial",
   "theorems": [
    "BT.C142_read_back",
    "BT.C142_harmless_partial",
    "BT.C142_normal",
    "BT.C142_log_of_run",
    "BT.C142_forged_violation",
    "BT.C142_forged2_violation"
   ],
   "note": "FALSE of the code: two texts are logged before they are checked (transaction.py:582 'hex received' and the selection approaches, create_transaction.py:673-675), so data or a design file can contain arbitrary log records (C142_forged_violation, C142_forged2_violation). C142_harmless_partial: every other text of every run is harmless; C142_normal and C142_log_of_run: for runs that succeed the property holds as stated."
  },
  {
   "property": "C143",
   "status": "partial",
   "theorems": [
    "BT.C143_text",
    "BT.C143_decode_partial",
    "BT.C143_violation",
    "BT.C143_truncated",
    "BT.C143_tasks"
   ],
   "note": "FALSE for the decoder: a transaction that ends before the byte for a number of inputs or outputs or the length of a script raises IndexError (C143_violation), and nothing else does (C143_decode_partial, exact). C143_text: the functions on text; C143_truncated, C143_tasks: nothing cut off is accepted."
  },
  {
   "property": "C144",
   "status": "partial",
   "theorems": [
    "BT.C144_more_partial",
    "BT.C144_worth",
    "BT.C144_violation"
   ],
   "note": "FALSE with a fee rate (C144_violation: a further coin turns success into refusal). C144_more_partial: true where the design names the fee (also for smaller payments and fees, greater caps); C144_worth: with a rate, further coins worth at least 179 bytes each do no harm."
  },
  {
   "property": "C145",
   "status": "partial",
   "theorems": [
    "BT.C145_agrees",
    "BT.C145_named_partial",
    "BT.C145_true",
    "BT.C145_violation"
   ],
   "note": "FALSE for the tasks whose arguments are not checked at the start (C145_violation: AttributeError, TypeError, AssertionError). C145_named_partial: the texts that name the missing argument; C145_true: every such text is true; C145_agrees: the texts change nothing else."
  },
  {
   "property": "C146",
   "status": "proved",
   "theorems": [
    "BT.C146_one_form",
    "BT.C146_two_forms"
   ],
   "note": ""
  },
  {
   "property": "C147",
   "status": "partial",
   "theorems": [
    "BT.C147_one_text_partial",
    "BT.C147_two_texts_violation"
   ],
   "note": "FALSE: duplicate signatures exist for any two texts (C147_two_texts_violation). C147_one_text_partial: exactly when that can happen; then the private key can be computed from public values."
  },
  {
   "property": "C148",
   "status": "partial",
   "theorems": [
    "BT.C148_opposite_violation",
    "BT.C148_different_partial",
    "BT.C148_reveals_violation",
    "BT.C148_occurs_violation"
   ],
   "note": "FALSE: opposite random values are not refused and give equal first halves (C148_opposite_violation; C148_occurs_violation: a concrete transaction), from which the key follows (C148_reveals_violation). C148_different_partial: all other values give different first halves."
  },
  {
   "property": "C149",
   "status": "proved",
   "theorems": [
    "BT.C149_one_shot",
    "BT.C149_program"
   ],
   "note": ""
  },
  {
   "property": "C150",
   "status": "partial",
   "theorems": [
    "BT.C150_other_signer_violation",
    "BT.C150_two_signers_partial"
   ],
   "note": "FALSE: every accepted signature is accepted under a second key (C150_other_signer_violation). C150_two_signers_partial: no third one."
  },
  {
   "property": "C151",
   "status": "partial",
   "theorems": [
    "BT.C151_agrees",
    "BT.C151_true",
    "BT.C151_reported_partial",
    "BT.C151_no_text_violation"
   ],
   "note": "FALSE for script_pub_key (C151_no_text_violation: AssertionError without a text). C151_reported_partial: the text for script_sig; C151_true: every such text is true; C151_agrees: the texts change nothing else."
  },
  {
   "property": "C152",
   "status": "partial",
   "theorems": [
    "BT.C152_hexLength_partial",
    "BT.C152_decimal_partial",
    "BT.C152_no_digits_violation",
    "BT.C152_integers_partial",
    "BT.C152_date_partial",
    "BT.C152_item_partial"
   ],
   "note": "FALSE for decimals that begin or end with the point (C152_no_digits_violation: the text speaks of non-digit characters). The other theorems: the reasons and figures of each validator."
  },
  {
   "property": "C153",
   "status": "proved",
   "theorems": [
    "BT.C153_true",
    "BT.C153_reported"
   ],
   "note": ""
  }
 ]
}