#!/usr/bin/env python3
"""Regenerate MANIFEST.json from the theorem names in lean/Verif/Props and the notes below."""
import glob, json, re
NOTES = {
 "C13": "The property as a user expects it is FALSE of the code: C13_violation proves the network byte is not checked; C13_wif_partial is what holds.",
 "C15": "FALSE of the code: C15_violation proves every hex script is rendered as an address; C15_p2pkh_partial is what holds.",
 "C18": "FALSE for 0 satoshi (C18_violation); the round trip for 1..21e14 is C18_round_trip_partial.",
 "C22": "FALSE for non-ASCII zeros (C22_violation); exact characterisation in C22_positive_amount_partial.",
 "C25": "FALSE after a refused amount in (21e14, 2^64) (C25_violation); everything else in C25_fields_agree_partial and C25_set_amount.",
 "C28": "FALSE of the code (C28_violation: any script or null is accepted); C28_script_of_address_partial is what holds.",
 "C36": "First half proved; second half FALSE (C36_violation: trailing bytes are accepted).",
 "C42": "FALSE for transactions loaded from JSON (C42_violation); what holds is in the _partial theorem.",
 "C48": "FALSE (C48_violation); what holds is in the _partial theorem.",
 "C55": "FALSE (C55_violation: always TypeError).",
 "C56": "FALSE (C56_violation: a second call always raises ValueError).",
 "C57": "FALSE (C57_violation: the documented key has no effect).",
 "C72": "FALSE (C72_violation, C72_violation_occurs: the same output can be offered and spent twice).",
 "C60": "FALSE (C60_violation: always ends in NameError).",
 "C61": "FALSE if the log directory cannot be created (C61_violation); the exact handler count is C61_handler_count, the rest C61_idempotent and C61_first_success.",
 "C78": "FALSE when the level is lowered (C78_violation); C78_set_level_partial says exactly what is written.",
 "C82": "FALSE with fewer keys than inputs (C82_violation, C82_violation_occurs); C82_random_values_partial is what holds.",
 "C86": "FALSE for verify_signed_transaction_json and verify_data_signature (C86_violation_*); C86_hex_partial and C86_sign_json_partial (and C59 for the one-shot task) are what holds.",
 "C90": "FALSE for the change address and the change amount (C90_violation: every created transaction) and for public keys of inputs; everything else is reported again (C90_reload_partial), and a second reload changes nothing (C90_stable).",
 "C98": "FALSE for a text with a leading dash given as a separate word: usage error (C98_violation, a whole family). C98_sign_verify_partial: in the form --data=TEXT every printable text is signed as it is and accepted by the verifying command.",
 "C100": "FALSE with a fee rate: the fee is computed from the number of all available coins (C100_violation_rate, C100_violation_occurs). C100_unspent_coins_partial: with an explicit fee the transaction is the same.",
 "C104": "FALSE for the text '0' in validate_string_is_positive_integer (C104_zero_violation), for a non-string in validate_string_is_printable_ascii (C104_printable_violation) and for validate_bytes, which says that an int was wanted (C104_bytes_violation); every other text is explained exactly.",
 "C107": "FALSE: a key with a missing or upper-case digit is repeated (C107_sign_violation, C107_digits_violation), and a WIF key with a wrong checksum is printed in hex (C107_wif_violation). C107_partial: no text is made for well-formed keys.",
 "C108": "FALSE: validate_hex and validate_string_is_printable_ascii print the refused characters as they are (C108_hex_violation, C108_printable_violation). C108_value, C108_partial: the value itself is always shown with visible characters.",
 "C110": "FALSE in two places: 'Selected inputs: 0' is logged when all offered inputs are needed exactly (C110_selected_exact for all such calls, C110_selected_violation), and 'Total available input value is less than or equal to total output value.' by every successful call (C110_available, C110_available_violation). Everything else is true.",
 "C113": "FALSE when the whole input value is to be spent: the advice is 101 percent, which is never accepted (C113_beyond_violation for all such calls, C113_argsHalf_violation). C113_advice_partial: otherwise the advised percentage succeeds (for at most 252 outputs), and 100 percent always does.",
 "C114": "FALSE if input_selection_approaches is this text: it is logged by a failing call (C114_forged_violation). C114_created_partial: in all other cases.",
 "C116": "FALSE of the final line: \"Transaction verified: n valid signatures\" states the number of inputs also if signatures are invalid (C116_violation, for every transaction with an invalid signature). All other lines are exact (C116_exact, C116_errors_true, C116_reported), and the final line is true if all signatures are valid (C116_summary_partial).",
 "C117": "FALSE of the word \"non-deterministic\" for an empty list of random values: it is logged although the signatures are deterministic (C117_violation). Everything else holds (C117_exact, C117_secret, C117_any_run, C117_done_iff).",
 "C126": "FALSE for values without a digit (C126_empty_violation, C126_zero_violation), for the conversion of zero (C126_convert_zero_violation) and for True and False (C126_bool_violation). The texts are exactly characterised: C126_amount (which text, and exactly when), C126_positive_partial, C126_satoshi_partial, C126_bitcoin, C126_ensure8, C126_pad; C126_distinct: different amounts, different texts; C126_agrees_*: the same values are refused as in the model without texts.",
 "C133": "FALSE if a payment goes to the change address (C133_violation_occurs: dropping a payment makes the request fail). C133_asking_less_partial is the full claim for requests without such a payment.",
 "C127": "FALSE only for percentages between 100 and 101 (accepted because only the whole part is checked): the limit can exceed 21 million bitcoin (C127_percentage_violation). Everything else holds: C127_limits_never_shape (all three settings), C127_max_fee (exact), C127_duplicates (exact), C127_raise_percentage_partial (up to 100).",
 "C128": "FALSE for a fee of 0: naming it is refused (C128_zero_violation, the defect of C55). C128_only_the_fee_counts holds for every fee, C128_fee_as_number_partial for every fee but 0.",
 "C125": "FALSE of the code: after a refusal past the validation every input and output dict has a key satoshi_amount, and every later call on them is a ValueError (C125_violation, for every such refusal and every later design; C125_counterexample_violation). Exact: C125_cases (harmless or marked), C125_retry_partial, C125_repair.",
 "C124": "FALSE of the amounts: a refused amount above 21 million bitcoin and below 2^64 satoshi is stored and signed by the next sign() (C124_violation). Without such amounts the whole claim holds (C124_last_amounts_partial); that the signed transaction verifies holds for every history (C124_sign_after_change).",
 "C87": "FALSE for unknown tasks and for get_python_version with a failing shell (C87_violation*); C87_dispatch_partial: listed tasks run their function.",
 "C67": "FALSE for a trailing newline / non-ASCII digits (C67_violation); exact characterisation in C67_date_partial.",
 "C68": "FALSE for the empty string and other strings (C68_violation); exact characterisation in C68_positive_integer_string_partial.",
 "C70": "FALSE of the code (C70_violation: the version entry is never read); C70_version_partial is what holds.",
 "C142": "FALSE of the code: two texts are logged before they are checked (transaction.py:582 'hex received' and the selection approaches, create_transaction.py:673-675), so data or a design file can contain arbitrary log records (C142_forged_violation, C142_forged2_violation). C142_harmless_partial: every other text of every run is harmless; C142_normal and C142_log_of_run: for runs that succeed the property holds as stated.",
 "C144": "FALSE with a fee rate (C144_violation: a further coin turns success into refusal). C144_more_partial: true where the design names the fee (also for smaller payments and fees, greater caps); C144_worth: with a rate, further coins worth at least 179 bytes each do no harm.",
 "C145": "FALSE for the tasks whose arguments are not checked at the start (C145_violation: AttributeError, TypeError, AssertionError). C145_named_partial: the texts that name the missing argument; C145_true: every such text is true; C145_agrees: the texts change nothing else.",
 "C147": "FALSE: duplicate signatures exist for any two texts (C147_two_texts_violation). C147_one_text_partial: exactly when that can happen; then the private key can be computed from public values.",
 "C148": "FALSE: opposite random values are not refused and give equal first halves (C148_opposite_violation; C148_occurs_violation: a concrete transaction), from which the key follows (C148_reveals_violation). C148_different_partial: all other values give different first halves.",
 "C150": "FALSE: every accepted signature is accepted under a second key (C150_other_signer_violation). C150_two_signers_partial: no third one.",
 "C151": "FALSE for script_pub_key (C151_no_text_violation: AssertionError without a text). C151_reported_partial: the text for script_sig; C151_true: every such text is true; C151_agrees: the texts change nothing else.",
 "C152": "FALSE for decimals that begin or end with the point (C152_no_digits_violation: the text speaks of non-digit characters). The other theorems: the reasons and figures of each validator.",
 "C143": "FALSE for the decoder: a transaction that ends before the byte for a number of inputs or outputs or the length of a script raises IndexError (C143_violation), and nothing else does (C143_decode_partial, exact). C143_text: the functions on text; C143_truncated, C143_tasks: nothing cut off is accepted.",
 "C71": "FALSE because of double rounding (C71_violation); C71_bitcoin_rate_partial says what is printed.",
}
props = [json.loads(l)["id"] for l in open("properties.jsonl")]
th = {p: [] for p in props}
for f in sorted(glob.glob("lean/Verif/Props/*.lean")):
    for m in re.finditer(r"^theorem (C(\d\d+)_\w+)", open(f).read(), re.M):
        th.setdefault("C" + m.group(2), []).append("BT." + m.group(1))
claims = []
for p in props:
    t = th[p]
    if not t: st = "not_applicable"
    elif any(x.endswith("_partial") or x.endswith("_violation") for x in t): st = "partial"
    else: st = "proved"
    note = NOTES.get(p, "" if t else "Not proved yet.")
    if not t: note = "Not proved yet."
    claims.append({"property": p, "status": st, "theorems": t, "note": note})
json.dump({"claims": claims}, open("MANIFEST.json", "w"), indent=1)
print({s: sum(c["status"] == s for c in claims) for s in ("proved", "partial", "not_applicable")})
extra = set(th) - set(props)
assert not extra, extra
