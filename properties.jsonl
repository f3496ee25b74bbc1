{"id": "C01", "title": "Integer <-> hex round trip", "statement": "int_to_hex(n) for n >= 0 returns a non-empty, even-length, lower-case hex string without a redundant leading zero byte, and hex_to_int of it is n; int_to_hex(n) raises ValueError for every n < 0.", "quantifier": "every Python int n", "why_tests_cant": "the domain is infinite; a test fixes a handful of values", "anchors": ["bitcoin_toolset/code/basic.py:int_to_hex", "bitcoin_toolset/code/basic.py:hex_to_int"]}
{"id": "C02", "title": "Fixed-width little-endian fields", "statement": "Encoding n with int_to_hex_le and padding with pad_hex_le to k bytes succeeds exactly when 0 <= n < 256^k (k >= 1), gives exactly 2k hex characters, and hex_le_to_int of the result is n.", "quantifier": "every int n and every width k >= 1 (4 for the output index, 8 for the value)", "why_tests_cant": "the domain is infinite; a test fixes a handful of values", "anchors": ["bitcoin_toolset/code/basic.py:int_to_hex_le", "bitcoin_toolset/code/basic.py:pad_hex_le", "bitcoin_toolset/code/basic.py:hex_le_to_int", "bitcoin_toolset/code/basic.py:reverse_hex_order"]}
{"id": "C03", "title": "Byte reversal is a length-preserving involution", "statement": "reverse_hex_order succeeds on exactly the even-length lower-case hex strings, keeps the length, puts byte i at position n-1-i, and applied twice gives the original.", "quantifier": "every string", "why_tests_cant": "the domain is infinite; a test fixes a handful of values", "anchors": ["bitcoin_toolset/code/basic.py:reverse_hex_order"]}
{"id": "C04", "title": "One-byte var_int codec", "statement": "int_to_var_int(n) succeeds exactly for 0 <= n <= 252 and yields one byte; var_int_to_int accepts exactly the one-byte strings 00..fc; the two are inverse to each other.", "quantifier": "every int n and every string x", "why_tests_cant": "the domain is infinite; a test fixes a handful of values", "anchors": ["bitcoin_toolset/code/basic.py:int_to_var_int", "bitcoin_toolset/code/basic.py:var_int_to_int"]}
{"id": "C05", "title": "Padding keeps the number", "statement": "pad_hex(x, k) succeeds iff x is hex of at most k bytes, returns exactly k bytes and the same big-endian number; pad_hex_le does the same for the little-endian number.", "quantifier": "every string x and every width k", "why_tests_cant": "the domain is infinite; a test fixes a handful of values", "anchors": ["bitcoin_toolset/code/basic.py:pad_hex", "bitcoin_toolset/code/basic.py:pad_hex_le"]}
{"id": "C06", "title": "Base58 integer codec", "statement": "For every hex string x with value n > 0, base58_to_int(hex_to_base58(x)) = n; hex_to_base58 emits only alphabet characters and never a leading '1'; base58_to_int is injective on strings without leading '1'; for value 0 decoding raises ValueError.", "quantifier": "every hex string / base58 string", "why_tests_cant": "the domain is infinite; a test fixes a handful of values", "anchors": ["bitcoin_toolset/code/basic.py:hex_to_base58", "bitcoin_toolset/code/basic.py:base58_to_int"]}
{"id": "C07", "title": "Base58Check decode inverts encode", "statement": "base58check_to_hex(hex_to_base58check(x)) = x for every hex payload x, unless all bytes of x are zero and the first checksum byte is zero too, in which case decoding never returns x.", "quantifier": "every hex payload x and every hash function", "why_tests_cant": "the domain is infinite; a test fixes a handful of values", "anchors": ["bitcoin_toolset/code/basic.py:hex_to_base58check", "bitcoin_toolset/code/basic.py:base58check_to_hex", "bitcoin_toolset/code/basic.py:count_leading_zero_bytes", "bitcoin_toolset/code/basic.py:get_double_sha256_checksum"]}
{"id": "C08", "title": "Base58Check strings are canonical", "statement": "If base58check_to_hex(s) returns x then hex_to_base58check(x) = s; so two different accepted strings never denote the same payload (addresses and WIF keys are not malleable).", "quantifier": "every string s", "why_tests_cant": "requires ruling out every alternative spelling of every payload", "anchors": ["bitcoin_toolset/code/basic.py:base58check_to_hex", "bitcoin_toolset/code/basic.py:hex_to_base58check"]}
{"id": "C09", "title": "Base58Check rejects damaged strings", "statement": "base58check_to_hex(s) raises ValueError whenever s contains a character outside the base58 alphabet, decodes to fewer than 4 bytes, or the last 4 bytes are not the double-SHA256 checksum of the payload.", "quantifier": "every string s", "why_tests_cant": "the domain is infinite; a test fixes a handful of values", "anchors": ["bitcoin_toolset/code/basic.py:base58check_to_hex", "bitcoin_toolset/code/basic.py:base58_to_int"]}
{"id": "C10", "title": "Address <-> public key hash round trip", "statement": "For every 20-byte hex hash h (provided the checksum of 21 zero bytes does not start with 00 when h is zero), bitcoin_address_to_public_key_hash_hex(public_key_hash_hex_to_address(h)) = h.", "quantifier": "every 20-byte hash", "why_tests_cant": "the domain is infinite; a test fixes a handful of values", "anchors": ["bitcoin_toolset/code/basic.py:public_key_hash_hex_to_address", "bitcoin_toolset/code/basic.py:bitcoin_address_to_public_key_hash_hex"]}
{"id": "C11", "title": "Accepted addresses are exactly mainnet P2PKH", "statement": "validate_bitcoin_address(s) succeeds only if s is the address of some 20-byte hash (version byte 00), and that hash is unique; any other string raises ValueError.", "quantifier": "every string s", "why_tests_cant": "the domain is infinite; a test fixes a handful of values", "anchors": ["bitcoin_toolset/code/basic.py:validate_bitcoin_address", "bitcoin_toolset/code/basic.py:bitcoin_address_to_public_key_hash_hex"]}
{"id": "C12", "title": "WIF round trip", "statement": "private_key_wif_to_hex(private_key_hex_to_wif(k)) returns the 32-byte form of k for every private key k that is accepted.", "quantifier": "every private key", "why_tests_cant": "the domain is infinite; a test fixes a handful of values", "anchors": ["bitcoin_toolset/code/basic.py:private_key_hex_to_wif", "bitcoin_toolset/code/basic.py:private_key_wif_to_hex"]}
{"id": "C13", "title": "WIF decoder checks the network byte", "statement": "private_key_wif_to_hex(s) returns a key only if the payload starts with the mainnet byte 80 (VIOLATED by the code: the first byte is dropped unchecked).", "quantifier": "every Base58Check string s", "why_tests_cant": "a test only tries well-formed WIF strings", "anchors": ["bitcoin_toolset/code/basic.py:private_key_wif_to_hex"]}
{"id": "C14", "title": "Address <-> P2PKH script round trip", "statement": "address_to_script_pub_key(a) of an accepted address returns the 25-byte script 76a914<hash>88ac with length byte 19, and script_pub_key_to_address maps it back to exactly a.", "quantifier": "every accepted address", "why_tests_cant": "the domain is infinite; a test fixes a handful of values", "anchors": ["bitcoin_toolset/code/basic.py:address_to_script_pub_key", "bitcoin_toolset/code/basic.py:public_key_hash_hex_to_script_pub_key", "bitcoin_toolset/code/basic.py:script_pub_key_to_address"]}
{"id": "C15", "title": "Only P2PKH scripts are shown as addresses", "statement": "script_pub_key_to_address(script) returns an address only for a 25-byte P2PKH script (VIOLATED: any hex script is cut at fixed offsets and rendered as an address).", "quantifier": "every hex script", "why_tests_cant": "needs a script shape no test in the suite uses", "anchors": ["bitcoin_toolset/code/basic.py:script_pub_key_to_address", "bitcoin_toolset/code/transaction_output.py:TransactionOutput.create_from_signed_tx_data"]}
{"id": "C16", "title": "scriptSig round trip", "statement": "For a DER signature d (hex) and a 64-byte public key p, building the scriptSig from d+'01' and p succeeds whenever it fits in one-byte lengths, and decoding it returns exactly (d, p).", "quantifier": "every signature and public key", "why_tests_cant": "the domain is infinite; a test fixes a handful of values", "anchors": ["bitcoin_toolset/code/basic.py:signature_hex_and_public_key_hex_to_script_sig", "bitcoin_toolset/code/basic.py:script_sig_to_signature_hex_and_public_key_hex"]}
{"id": "C17", "title": "scriptSig decoding is strict about hash type and key type", "statement": "If decoding a scriptSig returns (d, p) then the scriptSig starts with the push of d+'01' followed by the push of '04'+p (possibly cut short or followed by extra bytes that are ignored); other hash types or compressed keys raise ValueError.", "quantifier": "every hex string", "why_tests_cant": "the domain is infinite; a test fixes a handful of values", "anchors": ["bitcoin_toolset/code/basic.py:script_sig_to_signature_hex_and_public_key_hex"]}
{"id": "C18", "title": "satoshi -> bitcoin -> satoshi", "statement": "bitcoin_to_satoshi(satoshi_to_bitcoin(n)) = n for every n in 0..21e14 (VIOLATED at n = 0, where it raises ValueError; holds for every n >= 1).", "quantifier": "every amount in satoshi", "why_tests_cant": "2.1e15 values; tests use a few", "anchors": ["bitcoin_toolset/code/basic.py:satoshi_to_bitcoin", "bitcoin_toolset/code/basic.py:bitcoin_to_satoshi"]}
{"id": "C19", "title": "satoshi_to_bitcoin prints the exact decimal", "statement": "satoshi_to_bitcoin(n) succeeds iff 0 <= n <= 21e14 and returns <integer part>.<exactly 8 digits> whose value is exactly n/10^8, with no redundant leading zeros.", "quantifier": "every int n", "why_tests_cant": "the domain is infinite; a test fixes a handful of values", "anchors": ["bitcoin_toolset/code/basic.py:satoshi_to_bitcoin"]}
{"id": "C20", "title": "bitcoin_to_satoshi is exact", "statement": "If bitcoin_to_satoshi(s) returns n then n is exactly the decimal value of s times 10^8 (no rounding), 0 <= n <= 21e14, and for ASCII s the call succeeds iff s is a decimal with at most 8 places, not zero and at most 21 million.", "quantifier": "every string s", "why_tests_cant": "the domain is infinite; a test fixes a handful of values", "anchors": ["bitcoin_toolset/code/basic.py:bitcoin_to_satoshi", "bitcoin_toolset/code/basic.py:validate_bitcoin_amount"]}
{"id": "C21", "title": "The 21 million cap is exact although checked in floating point", "statement": "validate_bitcoin_amount accepts a well-formed amount iff its exact decimal value is at most 21000000, despite comparing binary64 floats.", "quantifier": "every well-formed amount string (any number of leading zeros / up to 8 decimals)", "why_tests_cant": "rounding errors show up only at specific values", "anchors": ["bitcoin_toolset/code/basic.py:validate_bitcoin_amount"]}
{"id": "C22", "title": "Positive-amount validation rejects zero", "statement": "validate_positive_bitcoin_amount(s) accepts s only if its value is > 0 (holds for ASCII; VIOLATED for non-ASCII decimal digits such as U+0660).", "quantifier": "every string s", "why_tests_cant": "needs non-ASCII digit characters", "anchors": ["bitcoin_toolset/code/basic.py:validate_positive_bitcoin_amount"]}
{"id": "C23", "title": "ensure_8_decimal_places keeps the value", "statement": "For a string with at most one '.', ensure_8_decimal_places returns a string with exactly 8 digits after the point, the same integer part and the same value, and raises ValueError iff there are more than 8 decimals.", "quantifier": "every string", "why_tests_cant": "the domain is infinite; a test fixes a handful of values", "anchors": ["bitcoin_toolset/code/basic.py:ensure_8_decimal_places"]}
{"id": "C24", "title": "TransactionInput.create binds its arguments", "statement": "If TransactionInput.create(address, txid, index, amount) returns, the raw hash is the byte-reversed txid, the raw index is the 4-byte LE index, the stored script is the P2PKH script of the address, the amounts agree, and the input is unsigned; it fails for index outside 0..2^32-1, amount outside 0..21e14, bad txid or bad address.", "quantifier": "every argument tuple", "why_tests_cant": "the domain is infinite; a test fixes a handful of values", "anchors": ["bitcoin_toolset/code/transaction_input.py:TransactionInput.create"]}
{"id": "C25", "title": "Output fields always agree", "statement": "After TransactionOutput.create and any sequence of set_satoshi_amount calls, value, satoshi_amount and bitcoin_amount denote the same amount, also when some calls raised (VIOLATED after a failing call: value and satoshi_amount change before the cap check raises; holds if no call raises).", "quantifier": "every address, amount and sequence of updates", "why_tests_cant": "histories with failing calls in the middle", "anchors": ["bitcoin_toolset/code/transaction_output.py:TransactionOutput.create", "bitcoin_toolset/code/transaction_output.py:set_satoshi_amount"]}
{"id": "C26", "title": "Output dict round trip and cross-checks", "statement": "TransactionOutput.from_dict(o.to_dict()) = o for every created output with amount > 0; any accepted dict has value, satoshi_amount, bitcoin_amount, address, script and lengths mutually consistent.", "quantifier": "every output and every dict", "why_tests_cant": "the domain is infinite; a test fixes a handful of values", "anchors": ["bitcoin_toolset/code/transaction_output.py:from_dict", "bitcoin_toolset/code/transaction_output.py:to_dict"]}
{"id": "C27", "title": "Input dict round trip and cross-checks", "statement": "TransactionInput.from_dict(i.to_dict()) = i (public key aside) for every created or signed input with amount > 0; any accepted dict has txid/hash, index, amounts and lengths mutually consistent.", "quantifier": "every input and every dict", "why_tests_cant": "the domain is infinite; a test fixes a handful of values", "anchors": ["bitcoin_toolset/code/transaction_input.py:from_dict", "bitcoin_toolset/code/transaction_input.py:to_dict"]}
{"id": "C28", "title": "A loaded input's script belongs to its address", "statement": "TransactionInput.from_dict accepts a dict only if script_pub_key is the P2PKH script of address (VIOLATED: never cross-checked, may even be null).", "quantifier": "every dict", "why_tests_cant": "adversarial JSON", "anchors": ["bitcoin_toolset/code/transaction_input.py:from_dict"]}
{"id": "C29", "title": "Transaction JSON-data round trip", "statement": "Transaction.from_json applied to the data of t.to_json() returns a transaction equal to t up to change_address and the inputs' public_key_hex, for every consistent transaction with positive amounts.", "quantifier": "every consistent transaction, any number of inputs/outputs", "why_tests_cant": "the domain is infinite; a test fixes a handful of values", "anchors": ["bitcoin_toolset/code/transaction.py:to_dict", "bitcoin_toolset/code/transaction.py:from_json"]}
{"id": "C30", "title": "Loaded transactions never create money", "statement": "If from_json returns t then total output <= total input (fee >= 0), the counts match the lists, and if the data says signed then every input carries a scriptSig.", "quantifier": "every JSON value", "why_tests_cant": "the domain is infinite; a test fixes a handful of values", "anchors": ["bitcoin_toolset/code/transaction.py:from_json"]}
{"id": "C31", "title": "The signed message ignores signatures", "statement": "to_hex_signable_form(i) does not depend on script_sig, script_length or public_key_hex of any input, so signing inputs in any order does not invalidate other signatures.", "quantifier": "every transaction and index", "why_tests_cant": "the domain is infinite; a test fixes a handful of values", "anchors": ["bitcoin_toolset/code/transaction.py:to_hex_signable_form", "bitcoin_toolset/code/transaction.py:to_dict_signable_form", "bitcoin_toolset/code/transaction_input.py:to_dict_signable_form", "bitcoin_toolset/code/transaction_input.py:to_dict_signable_form_empty"]}
{"id": "C32", "title": "The signed message commits to the whole transaction", "statement": "If two well-formed transactions have the same signable form for indices i and j (inside range) then i = j and they agree on every spent outpoint, on every output's value and script, and on the script of the input being signed.", "quantifier": "every pair of transactions", "why_tests_cant": "collision freedom is a statement about all pairs", "anchors": ["bitcoin_toolset/code/transaction.py:to_hex_signable_form"]}
{"id": "C33", "title": "The signable form has the documented layout", "statement": "to_hex_signable_form(i) is version, input count, for each input outpoint + (length+script for input i, 00 for others) + ffffffff, output count, outputs, lock time, 01000000.", "quantifier": "every transaction and index", "why_tests_cant": "the domain is infinite; a test fixes a handful of values", "anchors": ["bitcoin_toolset/code/transaction.py:to_dict_signable_form"]}
{"id": "C34", "title": "The signed form has the documented layout and length", "statement": "to_hex_signed_form is the documented concatenation and its byte length is 10 + sum(41+|scriptSig|) + sum(9+|script|).", "quantifier": "every signed transaction", "why_tests_cant": "the domain is infinite; a test fixes a handful of values", "anchors": ["bitcoin_toolset/code/transaction.py:to_hex_signed_form"]}
{"id": "C35", "title": "Signed transaction hex round trip", "statement": "from_hex_signed(t.to_hex_signed_form()) succeeds for every signed well-formed t, with the same outpoints, scriptSigs, outputs, and re-serialises to the same hex.", "quantifier": "every signed transaction", "why_tests_cant": "the domain is infinite; a test fixes a handful of values", "anchors": ["bitcoin_toolset/code/transaction.py:from_hex_signed", "bitcoin_toolset/code/transaction.py:to_hex_signed_form"]}
{"id": "C36", "title": "Decoding never misreads bytes", "statement": "If from_hex_signed(h) returns t then h is t.to_hex_signed_form() followed by bytes that were ignored; trailing bytes are rejected (second half VIOLATED: trailing bytes are accepted).", "quantifier": "every hex string h", "why_tests_cant": "the domain is infinite; a test fixes a handful of values", "anchors": ["bitcoin_toolset/code/transaction.py:from_hex_signed"]}
{"id": "C37", "title": "sign then verify", "statement": "After t.sign(keys) returns, t.signed is true and t.verify() returns 0, given a correct ECDSA/DER library.", "quantifier": "every transaction, key list and nonce list", "why_tests_cant": "the domain is infinite; a test fixes a handful of values", "anchors": ["bitcoin_toolset/code/transaction.py:sign", "bitcoin_toolset/code/transaction.py:verify", "bitcoin_toolset/code/transaction.py:create_signature_for_one_input", "bitcoin_toolset/code/transaction.py:verify_signature_for_one_input"]}
{"id": "C38", "title": "sign needs the right key for every input", "statement": "t.sign(keys) returns only if for every input some supplied key has that input's address, and then each scriptSig contains the public key whose address is the input's address; otherwise it raises.", "quantifier": "every transaction and key list", "why_tests_cant": "the domain is infinite; a test fixes a handful of values", "anchors": ["bitcoin_toolset/code/transaction.py:sign"]}
{"id": "C39", "title": "A failing sign leaves amounts and earlier inputs intact", "statement": "If sign raises at input k, inputs before k are completely signed, inputs after k are unchanged, and in all cases outpoints, amounts, scripts, sequence and outputs are unchanged.", "quantifier": "every transaction, key list and failure point", "why_tests_cant": "every crash point", "anchors": ["bitcoin_toolset/code/transaction.py:sign"]}
{"id": "C40", "title": "No nonce reuse inside a transaction", "statement": "When explicit random values are used, sign never passes the same random value string to the signer for two inputs; duplicate lists or lists of the wrong length raise ValueError before anything is changed.", "quantifier": "every transaction and nonce list", "why_tests_cant": "the domain is infinite; a test fixes a handful of values", "anchors": ["bitcoin_toolset/code/transaction.py:sign"]}
{"id": "C41", "title": "verify counts exactly the invalid signatures", "statement": "When verify returns n, n is the number of inputs whose signature over their own signable form is rejected; an input without scriptSig makes it raise; verify does not change the transaction.", "quantifier": "every transaction", "why_tests_cant": "the domain is infinite; a test fixes a handful of values", "anchors": ["bitcoin_toolset/code/transaction.py:verify"]}
{"id": "C42", "title": "verify ties the key to the spent output", "statement": "verify() returns 0 only if each scriptSig's public key hashes to the script being spent (VIOLATED for transactions loaded from JSON: any key is accepted).", "quantifier": "every transaction", "why_tests_cant": "adversarial data", "anchors": ["bitcoin_toolset/code/transaction.py:verify", "bitcoin_toolset/code/transaction.py:verify_signature_for_one_input"]}
{"id": "C43", "title": "txid", "statement": "calculate_txid returns the byte-reversed double SHA-256 of the signed hex, 64 hex chars; raises ValueError when any input is unsigned; two signed transactions with the same signed hex have the same txid.", "quantifier": "every transaction", "why_tests_cant": "the domain is infinite; a test fixes a handful of values", "anchors": ["bitcoin_toolset/code/transaction.py:calculate_txid"]}
{"id": "C44", "title": "Size estimate", "statement": "estimate_transaction_size(n,m) = 10 + 179n + 34m for n,m <= 252 and raises beyond; a signed standard transaction has exactly estimate + sum(|scriptSig| - 138) bytes.", "quantifier": "all counts and all signed transactions", "why_tests_cant": "the domain is infinite; a test fixes a handful of values", "anchors": ["bitcoin_toolset/code/basic.py:estimate_transaction_size"]}
{"id": "C45", "title": "create_transaction conserves value", "statement": "If create_transaction returns t, total selected input = total output + fee; with 'fee' in the design the fee is exactly that.", "quantifier": "every argument object", "why_tests_cant": "the domain is infinite; a test fixes a handful of values", "anchors": ["bitcoin_toolset/code/create_transaction.py:create_transaction"]}
{"id": "C46", "title": "max_fee is never exceeded", "statement": "If create_transaction returns t then t.fee <= design max_fee.", "quantifier": "every argument object", "why_tests_cant": "the domain is infinite; a test fixes a handful of values", "anchors": ["bitcoin_toolset/code/create_transaction.py:create_transaction"]}
{"id": "C47", "title": "fee_rate arithmetic", "statement": "With fee_rate r the fee is ceil(size*r) up to one satoshi of floating-point error, exactly size*r when r is a whole number, and never decreases when r grows.", "quantifier": "every rate string and size", "why_tests_cant": "floating point rounding at specific values", "anchors": ["bitcoin_toolset/code/create_transaction.py:create_transaction"]}
{"id": "C48", "title": "The result pays at least the requested fee rate", "statement": "The returned transaction's estimated fee rate is at least the requested fee_rate (VIOLATED: the size is estimated before the change output is added).", "quantifier": "every argument object", "why_tests_cant": "depends on interplay of change and size", "anchors": ["bitcoin_toolset/code/create_transaction.py:create_transaction"]}
{"id": "C49", "title": "Input selection is a minimal prefix", "statement": "The selected inputs are the shortest prefix of the inputs sorted by the approach (largest_first, smallest_first; stable) whose total reaches outputs+fee; with 'all', every input; no input is used twice or invented.", "quantifier": "every argument object", "why_tests_cant": "the domain is infinite; a test fixes a handful of values", "anchors": ["bitcoin_toolset/code/create_transaction.py:create_transaction"]}
{"id": "C50", "title": "largest_first uses the fewest inputs", "statement": "With largest_first and positive amounts no set of fewer available inputs covers outputs + fee.", "quantifier": "every argument object and every subset of inputs", "why_tests_cant": "exponentially many subsets", "anchors": ["bitcoin_toolset/code/create_transaction.py:create_transaction"]}
{"id": "C51", "title": "Payments are preserved, only change is adjusted", "statement": "Every designed output appears in order with its address and amount, except that one output to the change address may be raised by exactly the surplus; otherwise a single new change output with exactly the surplus is placed first.", "quantifier": "every argument object", "why_tests_cant": "the domain is infinite; a test fixes a handful of values", "anchors": ["bitcoin_toolset/code/create_transaction.py:create_transaction"]}
{"id": "C52", "title": "Insufficient funds are reported exactly", "statement": "After validation, OutputValueNotCovered is raised iff total input < total output; OutputAndFeeValueNotCovered iff total output <= total input < total output + fee; no transaction is returned then.", "quantifier": "every argument object", "why_tests_cant": "the domain is infinite; a test fixes a handful of values", "anchors": ["bitcoin_toolset/code/create_transaction.py:create_transaction"]}
{"id": "C53", "title": "Duplicate outputs need permission", "statement": "If two designed outputs share an address and duplicates are not allowed, create_transaction never returns a transaction and raises DuplicateOutputAddressError when it gets that far.", "quantifier": "every argument object", "why_tests_cant": "the domain is infinite; a test fixes a handful of values", "anchors": ["bitcoin_toolset/code/create_transaction.py:create_transaction"]}
{"id": "C54", "title": "Spending limit", "statement": "If create_transaction returns t, the value not sent to the change output is at most ceil(max_spend_percentage/100 * available), computed in floats; with 100% the limit never blocks.", "quantifier": "every argument object", "why_tests_cant": "the domain is infinite; a test fixes a handful of values", "anchors": ["bitcoin_toolset/code/create_transaction.py:create_transaction"]}
{"id": "C55", "title": "A zero-satoshi fee is permitted", "statement": "A design with fee 0 is accepted as the comment 'Permit 0-satoshi fee' says (VIOLATED: fee 0 without fee_rate always raises TypeError).", "quantifier": "every argument object with fee 0", "why_tests_cant": "not covered by any test", "anchors": ["bitcoin_toolset/code/create_transaction.py:create_transaction", "bitcoin_toolset/code/create_transaction.py:validate_design"]}
{"id": "C56", "title": "create_transaction can be repeated", "statement": "Calling create_transaction twice with the same argument object gives the same result (VIOLATED: the arguments are mutated; the second call always raises ValueError).", "quantifier": "every successful first call", "why_tests_cant": "history of two calls", "anchors": ["bitcoin_toolset/code/create_transaction.py:create_transaction"]}
{"id": "C57", "title": "Documented input_selection_approach key", "statement": "The README key input_selection_approach selects the approach (VIOLATED: it is ignored; only input_selection_approaches is read).", "quantifier": "every argument object", "why_tests_cant": "needs two runs compared", "anchors": ["bitcoin_toolset/code/create_transaction.py:create_transaction", "README.md:Guidance for design.json"]}
{"id": "C58", "title": "A created transaction survives its own JSON check", "statement": "For every transaction returned by create_transaction from ASCII amounts, to_json succeeds and from_json of it succeeds.", "quantifier": "every argument object", "why_tests_cant": "the domain is infinite; a test fixes a handful of values", "anchors": ["bitcoin_toolset/code/create_transaction.py:create_transaction", "bitcoin_toolset/code/transaction.py:to_json", "bitcoin_toolset/code/transaction.py:from_json", "cli.py:create_unsigned_transaction_json"]}
{"id": "C59", "title": "CLI one-shot prints only verified transactions", "statement": "create_sign_and_verify_transaction_hex prints exactly one line, the hex of a transaction all of whose signatures verified both before and after re-decoding, or raises and prints nothing.", "quantifier": "every argument object and key list", "why_tests_cant": "the domain is infinite; a test fixes a handful of values", "anchors": ["cli.py:create_sign_and_verify_transaction_hex"]}
{"id": "C60", "title": "CLI create_signed_transaction_hex works", "statement": "The task prints the hex and exits normally for valid data, and rejects invalid signatures (VIOLATED: always ends in NameError, after printing the hex even if signatures are invalid).", "quantifier": "every data string", "why_tests_cant": "", "anchors": ["cli.py:create_signed_transaction_hex"]}
{"id": "C61", "title": "Logger configuration is idempotent", "statement": "After any sequence of configure_module_logger calls on one logger, at most one console handler and at most one file handler were added by it and the level is that of the first successful call.", "quantifier": "every sequence of calls with any arguments", "why_tests_cant": "histories", "anchors": ["bitcoin_toolset/util/module_logger.py:configure_module_logger"]}
{"id": "C62", "title": "Printable-ASCII validation", "statement": "validate_string_is_printable_ascii accepts exactly the strings over code points 0x20..0x7e, tab and newline.", "quantifier": "every string", "why_tests_cant": "the domain is infinite; a test fixes a handful of values", "anchors": ["bitcoin_toolset/util/validate.py:validate_string_is_printable_ascii"]}
{"id": "C63", "title": "Validators accept exactly what they say", "statement": "validate_hex accepts exactly even-length strings over 0-9a-f; validate_hex_length(s,n) additionally exactly 2n chars; validate_integer_domain exactly [min,max]; validate_lists_are_identical exactly permutations; validate_list_contains_items exactly supersets.", "quantifier": "every argument", "why_tests_cant": "the domain is infinite; a test fixes a handful of values", "anchors": ["bitcoin_toolset/util/validate.py:validate_hex", "bitcoin_toolset/util/validate.py:validate_hex_length", "bitcoin_toolset/util/validate.py:validate_integer_domain", "bitcoin_toolset/util/validate.py:validate_lists_are_identical", "bitcoin_toolset/util/validate.py:validate_list_contains_items", "bitcoin_toolset/util/validate.py:validate_whole_number", "bitcoin_toolset/util/validate.py:validate_positive_integer"]}
{"id": "C64", "title": "Reported totals are consistent", "statement": "In to_dict of any transaction, fee = total input - total output, change = sum of outputs to the change address, and values are null exactly when an input amount is unknown.", "quantifier": "every transaction", "why_tests_cant": "the domain is infinite; a test fixes a handful of values", "anchors": ["bitcoin_toolset/code/transaction.py:to_dict", "bitcoin_toolset/code/transaction.py:fee", "bitcoin_toolset/code/transaction.py:change", "bitcoin_toolset/code/transaction.py:total_input", "bitcoin_toolset/code/transaction.py:total_output"]}
{"id": "C65", "title": "Deterministic re-signing", "statement": "Signing an already signed transaction again with the same keys (deterministic mode) leaves it unchanged.", "quantifier": "every transaction and key list", "why_tests_cant": "the domain is infinite; a test fixes a handful of values", "anchors": ["bitcoin_toolset/code/transaction.py:sign"]}
{"id": "C66", "title": "Reported fee-rate strings are accurate", "statement": "The satoshi_per_byte strings are fee/size rounded half-even to exactly 4 decimals although computed with 28-digit Decimals and rounded twice.", "quantifier": "every fee and size reachable", "why_tests_cant": "rounding ties", "anchors": ["bitcoin_toolset/code/transaction.py:to_dict"]}
{"id": "C67", "title": "Date strings", "statement": "validate_string_is_date accepts exactly the strings of the form YYYY-MM-DD with decimal digits and raises ValueError for all others (VIOLATED: one trailing newline is accepted, because '$' matches before it).", "quantifier": "every string", "why_tests_cant": "infinitely many strings; the accepted trailing newline is invisible to example tests", "anchors": ["bitcoin_toolset/util/validate.py:validate_string_is_date"]}
{"id": "C68", "title": "Positive integers as strings", "statement": "validate_string_is_positive_integer accepts exactly decimal numerals of positive integers (VIOLATED: the empty string, '00' and strings such as superscript two are accepted).", "quantifier": "every string and every Unicode database", "why_tests_cant": "infinitely many strings, including all Unicode digits", "anchors": ["bitcoin_toolset/util/validate.py:validate_string_is_positive_integer"]}
{"id": "C69", "title": "Decimal strings", "statement": "validate_string_is_decimal accepts exactly <digits>.<digits> with non-empty parts, and with dp given exactly dp digits after the point, although the regular expression's '.' matches any character.", "quantifier": "every string and every number of places", "why_tests_cant": "infinitely many strings; the unescaped '.' in the pattern suggests false acceptances that tests cannot exclude", "anchors": ["bitcoin_toolset/util/validate.py:validate_string_is_decimal"]}
{"id": "C70", "title": "Loading checks the version", "statement": "from_json accepts only data whose version entry is 01000000 (VIOLATED: the entry must exist but its value is never looked at; the loaded transaction always has version 01000000).", "quantifier": "every JSON document", "why_tests_cant": "the value may be anything; only a statement about all documents shows that it is never read", "anchors": ["bitcoin_toolset/code/transaction.py:Transaction.from_json"]}
{"id": "C71", "title": "bitcoin_per_byte is correctly rounded", "statement": "The bitcoin_per_byte strings are fee/size/10^8 rounded half-even to 8 decimals (VIOLATED: the already rounded 4-decimal satoshi rate is rounded again; 15370 satoshi for 10247 bytes is reported as 0.00000002 instead of 0.00000001).", "quantifier": "every transaction with known input amounts", "why_tests_cant": "wrong only on rare ratios near a half; the rest needs an argument about two roundings", "anchors": ["bitcoin_toolset/code/transaction.py:Transaction.to_dict"]}
{"id": "C72", "title": "The same output cannot be spent twice", "statement": "create_transaction never returns a transaction two of whose inputs spend the same previous output (VIOLATED: inputs are not checked for duplicates; the double spend is only found by the network).", "quantifier": "every argument object", "why_tests_cant": "a missing check shows only on inputs nobody thought of; that no check exists is a statement about all argument objects", "anchors": ["bitcoin_toolset/code/create_transaction.py:create_transaction", "bitcoin_toolset/code/create_transaction.py:validate_inputs"]}
{"id": "C73", "title": "Well-formed requests have a predictable outcome", "statement": "For arguments in the documented form create_transaction returns a transaction exactly when duplicates are absent or allowed, the fee is within max_fee, inputs cover outputs and fee, the change can be allocated and the spending limit is kept; otherwise it raises the error belonging to the first condition that fails. At 100% the limit never blocks.", "quantifier": "every well-formed argument object", "why_tests_cant": "tests sample a few requests; that no other hidden condition (overflow, float rounding, an intermediate conversion) makes a good request fail needs all of them", "anchors": ["bitcoin_toolset/code/create_transaction.py:create_transaction"]}
{"id": "C74", "title": "End to end: the printed bytes do what the files ask", "statement": "When the create_transaction CLI task ends normally, the one line it prints is the hex of the serialisation of a transaction that spends a non-empty selection of the coins described in the input file (each at most as often as listed), pays every output of the design file its amount to its address, returns everything else except the fee to the change address (merged into the only output to it, or as a new first output), pays the fee the design asks for and never more than max_fee, and in which every input carries a public key hashing to the owner of its coin and a DER signature with hash type ALL that the ECDSA library accepts for the double SHA-256 of this very transaction's signing message.", "quantifier": "every input file, design file and key list for which the task succeeds", "why_tests_cant": "composes JSON-style parsing, amount arithmetic, selection, change, serialisation, signing and decoding; tests only compare a few fixed transactions", "anchors": ["cli.py:create_sign_and_verify_transaction_hex", "bitcoin_toolset/code/create_transaction.py:create_transaction", "bitcoin_toolset/code/transaction.py:Transaction.sign", "bitcoin_toolset/code/transaction.py:Transaction.to_hex_signed_form"]}
{"id": "C75", "title": "Step-by-step CLI tasks agree with the one-shot task", "statement": "If the one-shot task prints hex h, then the separate tasks run on the same files and keys give: create_unsigned_transaction_json prints a JSON text that validate_unsigned_transaction_json accepts; create_signed_transaction_json turns it into a JSON text that verify_signed_transaction_json calls valid; create_signed_transaction_hex prints exactly h for it; verify_signed_transaction_hex calls h valid and decode_signed_transaction_hex prints it.", "quantifier": "every run of the one-shot task with ASCII amounts", "why_tests_cant": "an equivalence between two program paths over all requests", "anchors": ["cli.py:create_unsigned_transaction_json", "cli.py:create_signed_transaction_json", "cli.py:verify_signed_transaction_json", "cli.py:create_signed_transaction_hex", "cli.py:verify_signed_transaction_hex", "cli.py:decode_signed_transaction_hex"]}
{"id": "C76", "title": "sign_data and verify_data_signature fit together", "statement": "For a valid 32-byte key and any printable ASCII text, sign_data prints exactly the signature the library makes for the bytes of the text and ends normally; verify_data_signature with that text, that signature and the public key printed by get_public_key prints 'Valid signature.'. verify_data_signature prints a verdict exactly for printable ASCII texts, 64-byte keys and 64-byte signatures, and the verdict is the library's. Different texts are different messages.", "quantifier": "every key, text and signature", "why_tests_cant": "tests use one message; encoding collisions or wrong validation show on other texts", "anchors": ["cli.py:sign_data", "cli.py:verify_data_signature", "bitcoin_toolset/code/basic.py:verify_signature", "bitcoin_toolset/code/basic.py:create_deterministic_signature"]}
{"id": "C77", "title": "The key tasks of the CLI agree with each other", "statement": "If get_private_key_wif prints w for a key, then get_public_key prints a 64-byte public key, get_address prints the mainnet P2PKH address of the hash of that (uncompressed) public key, private_key_wif_to_hex turns w into a 64-digit key, and all tasks print the same for that key.", "quantifier": "every private key", "why_tests_cant": "an agreement between five code paths for every key", "anchors": ["cli.py:get_private_key_wif", "cli.py:private_key_wif_to_hex", "cli.py:get_public_key", "cli.py:get_address"]}
{"id": "C78", "title": "setLevelStr changes what is logged", "statement": "After logger.setLevelStr(s) on a configured logger, exactly the messages of level s and above are written (VIOLATED when lowering the level: the handlers keep the level of the first configuration, so a logger configured at 'error' and switched to 'debug' writes nothing below error).", "quantifier": "every configuration, level and message level", "why_tests_cant": "the tests never lower a level; the claim ranges over all pairs of levels", "anchors": ["bitcoin_toolset/util/module_logger.py:configure_module_logger"]}
{"id": "C79", "title": "setup configures every logger of the package", "statement": "If setup returns, every logger of the package is configured; one configured before is unchanged, every other has the requested level and exactly the requested handlers. Valid settings without a log file never make it fail.", "quantifier": "every list of loggers in any state, every settings", "why_tests_cant": "quantifies over prior histories of all loggers", "anchors": ["bitcoin_toolset/__init__.py:setup", "bitcoin_toolset/code/__init__.py:setup", "bitcoin_toolset/submodules/__init__.py:setup", "cli.py:setup"]}
{"id": "C80", "title": "The CLI passes exactly the right key to single-key tasks", "statement": "get_private_key_wif, get_public_key, get_address and sign_data run on the one supplied key and refuse (AssertionError, nothing printed) when none or several are supplied; sign_data refuses missing or empty data with ValueError.", "quantifier": "every argument list", "why_tests_cant": "all argument combinations", "anchors": ["cli.py:main"]}
{"id": "C81", "title": "Signing succeeds exactly when the keys are there", "statement": "A created transaction can be signed exactly when every supplied key is a valid 32-byte key and every input has a supplied key of its address; with valid keys a missing one gives ValueError. The one-shot CLI task succeeds exactly when the transaction can be created and signed in this sense.", "quantifier": "every created transaction, every key list", "why_tests_cant": "absence of hidden failure conditions for all transactions and key lists", "anchors": ["bitcoin_toolset/code/transaction.py:Transaction.sign", "cli.py:create_sign_and_verify_transaction_hex"]}
{"id": "C82", "title": "Explicit random values can be used with any transaction", "statement": "If a transaction can be signed deterministically it can also be signed with suitable distinct random values (VIOLATED when there are fewer keys than inputs: sign demands one value per key but uses one per input, so it always raises).", "quantifier": "every transaction, key list and list of random values", "why_tests_cant": "the tests use as many keys as inputs; the claim ranges over all combinations", "anchors": ["bitcoin_toolset/code/transaction.py:Transaction.sign"]}
{"id": "C83", "title": "Keys from files and directories", "statement": "A private key stored in a file (--private-key-file) with any white space around it, or in a .txt file of a directory (--private-key-dir), has exactly the same effect on the run (standard output, exception, exit status) as the same key given with --private-key-hex; files of the directory without the extension .txt are not read.", "quantifier": "every task, file system, list of key files and surrounding white space", "why_tests_cant": "the equality must hold for every run of the program; a test fixes one file", "anchors": ["cli.py:main"]}
{"id": "C84", "title": "The order of the private keys does not matter", "statement": "If no two different given keys belong to one address, sign has the same effect for every order (and repetition) of the keys: the same signed transaction, or both calls raise and leave the transaction unchanged. In particular the order in which the operating system lists --private-key-dir changes neither standard output nor exit status.", "quantifier": "every transaction, key list, reordering, random values; every pair of directory listings", "why_tests_cant": "os.listdir returns entries in arbitrary order; a test sees one", "anchors": ["bitcoin_toolset/code/transaction.py:sign", "cli.py:main"]}
{"id": "C85", "title": "Data from a file", "statement": "--data-file has the same effect as the content of the file passed with --data; the tasks that take a transaction in hex also ignore white space around it.", "quantifier": "every task, file system and content", "why_tests_cant": "equality of all runs", "anchors": ["cli.py:main", "cli.py:decode_signed_transaction_hex", "cli.py:verify_signed_transaction_hex"]}
{"id": "C86", "title": "The exit status reports invalid signatures", "statement": "A task that verifies signatures ends with exit status 0 only if all of them are valid.", "quantifier": "every run of a verifying task", "why_tests_cant": "must hold for every transaction, file system and key; the code prints 'Invalid signature!' with exit status 0 in two tasks", "anchors": ["cli.py:verify_signed_transaction_json", "cli.py:verify_data_signature", "cli.py:verify_signed_transaction_hex", "cli.py:decode_signed_transaction_hex", "cli.py:create_signed_transaction_json"]}
{"id": "C87", "title": "Exit status 0 means that the requested task ran", "statement": "If the program ends with exit status 0, the task asked for exists and the function of that name ran on the loaded arguments.", "quantifier": "every task name and run", "why_tests_cant": "the set of names is infinite; the code leaves with sys.exit() for unknown tasks and failed shell commands", "anchors": ["cli.py:main", "cli.py:stop", "bitcoin_toolset/util/misc.py:run_local_cmd"]}
{"id": "C88", "title": "The JSON forms describe exactly the signed and broadcast bytes", "statement": "The texts of to_json_signable_form(i) and to_json_signed_form are JSON with the documented keys; joining their values in order gives exactly to_hex_signable_form(i) and to_hex_signed_form, and exactly the input asked for shows its script (none for an index outside the list).", "quantifier": "every transaction and every input index (any integer)", "why_tests_cant": "any number of inputs and outputs, signed or not, any index", "anchors": ["bitcoin_toolset/code/transaction.py:to_json_signable_form", "bitcoin_toolset/code/transaction.py:to_dict_signable_form", "bitcoin_toolset/code/transaction.py:to_hex_signable_form", "bitcoin_toolset/code/transaction.py:to_json_signed_form"]}
{"id": "C89", "title": "str() of a transaction, an input and an output", "statement": "str(tx) never raises and determines whether the transaction is signed and how many inputs and outputs it has; str(input) determines signing state, address, both ends of the txid, index and amount; str(output) determines address and amount.", "quantifier": "every pair of transactions, inputs or outputs", "why_tests_cant": "injectivity over all pairs of objects", "anchors": ["bitcoin_toolset/code/transaction.py:Transaction.__str__", "bitcoin_toolset/code/transaction_input.py:TransactionInput.__str__", "bitcoin_toolset/code/transaction_output.py:TransactionOutput.__str__"]}
{"id": "C90", "title": "A reloaded transaction reports the same", "statement": "Saving a transaction with to_json and loading it with from_json gives a transaction whose to_dict report is the same.", "quantifier": "every consistent transaction, signed or not", "why_tests_cant": "any number of inputs and outputs and any amounts; the loader does not read the change address back", "anchors": ["bitcoin_toolset/code/transaction.py:to_dict", "bitcoin_toolset/code/transaction.py:from_json", "bitcoin_toolset/code/transaction.py:change"]}
{"id": "C91", "title": "A printed transaction is valid under the network's rules", "statement": "If cli.py create_transaction (or the one-shot task) ends with exit status 0, each input of the transaction it prints refers to a coin of the input file and its script is a valid spend of that coin by the rules of Bitcoin: strict DER, low s, SIGHASH_ALL, an uncompressed public key on secp256k1 with the hash the coin is locked to, and a signature that satisfies the ECDSA equation for the double SHA-256 of the message of that input.", "quantifier": "every key set, input file, design and file system, with SHA-256, RIPEMD-160, RFC 6979 and secp256k1 as published", "why_tests_cant": "keys, coins and messages are unbounded; validity rests on the group law of the curve", "anchors": ["bitcoin_toolset/code/transaction.py:Transaction.sign", "bitcoin_toolset/code/transaction.py:verify", "cli.py:create_transaction", "cli.py:create_sign_and_verify_transaction_hex"]}
{"id": "C92", "title": "Keys, public keys and addresses of secp256k1", "statement": "A 32-byte private key is accepted exactly if it is a number k with 1 <= k < n; its public key is the point k*G; different private keys have different public keys; the address is the base58check form of RIPEMD-160(SHA-256(04 + public key)), and every 20-byte hash has an address that decodes to it.", "quantifier": "every 32-byte string and every 20-byte hash, with the published hash functions and curve", "why_tests_cant": "2^256 keys; injectivity is a statement about pairs and rests on the order of the curve's generator", "anchors": ["bitcoin_toolset/code/basic.py:private_key_hex_to_public_key_hex", "bitcoin_toolset/code/basic.py:private_key_hex_to_address", "bitcoin_toolset/code/basic.py:public_key_hex_to_address"]}
{"id": "C93", "title": "The verdict on a data signature", "statement": "verify_data_signature prints 'Valid signature.' exactly if the public key is a point of the curve and the signature is a low-s ECDSA signature by it of the SHA-256 of the text, and prints 'Invalid signature!' otherwise; it never ends in an error on well-formed arguments.", "quantifier": "every printable text, every 64-byte public key and every 64-byte signature", "why_tests_cant": "both directions range over all texts, keys and signatures", "anchors": ["cli.py:verify_data_signature"]}
{"id": "C94", "title": "Sources are exclusive on the command line", "statement": "Whatever words the program is called with, if it accepts the command line then at most one of the four sources of private keys (hex, file, directory, WIF) and at most one of the two sources of data (text, file) was given, and the log level is one of debug, info, warning, error.", "quantifier": "every list of words", "why_tests_cant": "abbreviations, bundled letters, '=' forms and repeated options give infinitely many command lines", "anchors": ["cli.py:main"]}
{"id": "C95", "title": "The meaning of a command line", "statement": "A command line that consists of options of the help text, each written as separate words, with '=', by an unambiguous abbreviation, by its letter, or glued to its letter, is understood as exactly these settings (the last one of each option counts, keys and key files accumulate) if no two of them clash, and is refused with a usage error if two clash; if no option is given twice the order of the options does not matter.", "quantifier": "every list of settings, every way to write each of them and every value (after '=' any text, as a separate word any text without a leading dash)", "why_tests_cant": "lists of any length, arbitrary values, all permutations", "anchors": ["cli.py:main"]}
{"id": "C96", "title": "Nothing on the command line is dropped or invented", "statement": "If a command line is accepted, it is a list of allowed settings that do not clash, with every word that has no leading dash being the value of one of them, every value being a word of the command line or the end of one, and no '--' word.", "quantifier": "every list of words", "why_tests_cant": "a statement about every accepted list of words", "anchors": ["cli.py:main"]}
{"id": "C97", "title": "From the command line to output and exit status", "statement": "The exit status is 0, 1 or 2; it is 2 exactly if the command line is refused, and then nothing is printed and no file is read. Called with a private key of the curve in any spelling of the options, get_address prints that key's address and ends with status 0. A transaction printed with status 0 spends coins of the given input file and is validly signed. Log set-up cannot fail unless a log file is asked for.", "quantifier": "every list of words, every file system, every private key", "why_tests_cant": "every command line, file content and key", "anchors": ["cli.py:main", "cli.py:setup", "cli.py:get_address", "cli.py:create_transaction"]}
{"id": "C98", "title": "Any printable text can be signed and verified on the command line", "statement": "For every printable text, sign_data --data TEXT prints a signature of exactly that text which verify_data_signature --data TEXT accepts.", "quantifier": "every printable non-empty text and every private key", "why_tests_cant": "all texts, including those that look like options", "anchors": ["cli.py:main", "cli.py:sign_data", "cli.py:verify_data_signature"]}
{"id": "C99", "title": "The order of the available inputs does not matter", "statement": "If create_transaction succeeds, it also succeeds with the same available inputs listed in any other order and the same settings: the transaction has the same outputs and its inputs have the same amounts in the same order. If no two available inputs have the same amount, it is the very same transaction.", "quantifier": "every list of inputs, every permutation of it, every design", "why_tests_cant": "all permutations of lists of any length", "anchors": ["bitcoin_toolset/code/create_transaction.py:create_transaction"]}
{"id": "C100", "title": "Available coins that are not spent have no influence", "statement": "Making further coins available that the selection approach does not reach (smaller coins for largest_first, larger ones for smallest_first) does not change the transaction.", "quantifier": "every successful call, every list of further coins", "why_tests_cant": "all lists of coins, before and after", "anchors": ["bitcoin_toolset/code/create_transaction.py:create_transaction", "bitcoin_toolset/code/basic.py:estimate_transaction_size"]}
{"id": "C101", "title": "The layout of JSON files does not matter", "statement": "Every JSON text (RFC 8259, any white space, any escapes, any spelling of numbers Python allows) is read as exactly the value it denotes; two inputs files or design files, or two transaction texts, that denote the same value give the same run of the program: same output, same exception, same exit status.", "quantifier": "every JSON text of any size and nesting, every command", "why_tests_cant": "infinitely many layouts of each value", "anchors": ["bitcoin_toolset/code/transaction.py:from_json", "cli.py:main"]}
{"id": "C102", "title": "Only JSON is accepted", "statement": "A transaction text, inputs file or design file is accepted only if it is a JSON text for the value it is read as; every other text gives ValueError, nothing is printed and the exit status is 1. No text has two values.", "quantifier": "every text", "why_tests_cant": "all malformed texts of any length", "anchors": ["bitcoin_toolset/code/transaction.py:from_json", "cli.py:main"]}
{"id": "C103", "title": "What is written is JSON in printable ASCII", "statement": "The texts written by to_json, to_json_signable_form and to_json_signed_form are JSON texts that denote the data of the transaction, and contain only printable ASCII characters and line breaks.", "quantifier": "every created, signed or decoded transaction, every input index", "why_tests_cant": "all transactions", "anchors": ["bitcoin_toolset/code/transaction.py:to_json", "bitcoin_toolset/code/transaction.py:to_json_signable_form", "bitcoin_toolset/code/transaction.py:to_json_signed_form"]}
{"id": "C104", "title": "Error messages explain the refusal", "statement": "When a validator refuses a value, the text of the exception says in which location and for which variable (the first word of the name in quotes), what was expected, which value was received and what is wrong with it, and begins with a capital letter; the texts never change which values are refused or the class of the exception.", "quantifier": "every value, name, location and kind, every validator", "why_tests_cant": "all values and names", "anchors": ["bitcoin_toolset/util/validate.py:build_error_msg", "bitcoin_toolset/util/validate.py:validate_hex", "bitcoin_toolset/util/validate.py:validate_string_is_printable_ascii", "bitcoin_toolset/util/validate.py:validate_string_is_positive_integer"]}
{"id": "C105", "title": "An error message identifies the refused value", "statement": "Two values (without floats) that are refused by the same validator with the same text are the same value: whatever quotes, commas or escapes the value contains, the text cannot be mistaken for that of another value.", "quantifier": "every pair of JSON values without floats, every validator", "why_tests_cant": "all pairs of values", "anchors": ["bitcoin_toolset/util/validate.py:build_error_msg"]}
{"id": "C106", "title": "Positions in error messages are right", "statement": "The text for a value that is not hex (or not digits) lists exactly the positions of the offending characters in increasing order, and these characters; the text for a value that is not printable ASCII gives the line (line breaks before it) and the place in the line (from 1) of the first offending character; the text for missing items lists exactly the missing ones.", "quantifier": "every string, every list of items", "why_tests_cant": "all strings", "anchors": ["bitcoin_toolset/util/validate.py:validate_hex", "bitcoin_toolset/util/validate.py:validate_string_is_printable_ascii", "bitcoin_toolset/util/validate.py:validate_list_contains_items"]}
{"id": "C107", "title": "Error messages do not repeat private keys", "statement": "No exception text contains a private key that was given to sign or to private_key_wif_to_hex.", "quantifier": "every list of keys, every WIF text", "why_tests_cant": "all keys", "anchors": ["bitcoin_toolset/code/transaction.py:sign", "bitcoin_toolset/code/basic.py:base58check_to_hex", "bitcoin_toolset/code/basic.py:private_key_wif_to_hex", "bitcoin_toolset/util/validate.py:validate_hex_length"]}
{"id": "C108", "title": "Error messages contain no control characters", "statement": "The text of a refusal consists of visible characters only, whatever control characters the value contains.", "quantifier": "every string value", "why_tests_cant": "all strings", "anchors": ["bitcoin_toolset/util/validate.py:build_error_msg", "bitcoin_toolset/util/validate.py:validate_hex", "bitcoin_toolset/util/validate.py:validate_string_is_printable_ascii"]}
{"id": "C109", "title": "The figures in the report are those of the transaction", "statement": "The lines that create_transaction logs do not change its outcome; each figure in the report of a successful call (fee, totals, counts, change, spend amount, listing of inputs and outputs, totals per address) is the figure of the returned transaction or of the request, printed once, in bitcoin and in satoshi.", "quantifier": "every successful call: all inputs, designs, selection approaches", "why_tests_cant": "all combinations of inputs and designs; the figures pass through float and decimal conversions", "anchors": ["bitcoin_toolset/code/create_transaction.py:create_transaction"]}
{"id": "C110", "title": "The statements in the report are true", "statement": "What the report of a successful call says about the comparison of totals, the number of selected inputs, the new output for the change and the new totals is true of the returned transaction.", "quantifier": "every successful call", "why_tests_cant": "the branches depend on equalities between totals", "anchors": ["bitcoin_toolset/code/create_transaction.py:create_transaction"]}
{"id": "C111", "title": "Limits, percentages and rates in the report", "statement": "The report gives the true maximum fee, the maximum spend amount (the given percentage of the available value, within one satoshi), the percentages (to 0.0051) and the fee rate (to 0.000051), and the fee and the spend amount are within the reported limits.", "quantifier": "every successful call, every percentage and fee", "why_tests_cant": "float rounding for all amounts", "anchors": ["bitcoin_toolset/code/create_transaction.py:create_transaction"]}
{"id": "C112", "title": "Refusals explain the true reason with the true figures", "statement": "Every text with which create_transaction refuses a request states a condition that holds of the request, with the true numbers (shortfall, fee and cap, number of outputs, percentages); the three special exceptions always carry a text.", "quantifier": "every failing call", "why_tests_cant": "all requests and figures", "anchors": ["bitcoin_toolset/code/create_transaction.py:create_transaction"]}
{"id": "C113", "title": "The advised percentage is sufficient", "statement": "When the spending limit refuses a request, the same request with the advised percentage succeeds.", "quantifier": "every request refused by the spending limit", "why_tests_cant": "all amounts, rounding of the percentage", "anchors": ["bitcoin_toolset/code/create_transaction.py:create_transaction"]}
{"id": "C114", "title": "\"Transaction created.\" is logged exactly on success", "statement": "create_transaction logs the line \"Transaction created.\" if and only if it returns a transaction.", "quantifier": "every call", "why_tests_cant": "all arguments, including those rejected by the validation", "anchors": ["bitcoin_toolset/code/create_transaction.py:create_transaction"]}
{"id": "C115", "title": "Logging does not change what the toolset does", "statement": "Every method of a transaction and every command-line task returns, raises and prints the same whether or not its log lines are considered: the model with the log agrees with the model without it, and methods of a transaction never print.", "quantifier": "every task, argument, key, transaction and shell", "why_tests_cant": "all arguments, histories and failures", "anchors": ["bitcoin_toolset/code/transaction.py:Transaction", "cli.py:main"]}
{"id": "C116", "title": "The log of verify() reports the true verdicts", "statement": "verify() logs, for every input in order, the signature and public key found in its scriptSig and the true verdict on its signature; an error line \"Signature j of n is invalid!\" appears exactly for invalid signatures; the final line states the number of valid signatures.", "quantifier": "every transaction, also when the check raises midway", "why_tests_cant": "all transactions and signature libraries", "anchors": ["bitcoin_toolset/code/transaction.py:Transaction.verify", "bitcoin_toolset/code/basic.py:signature_from_der"]}
{"id": "C117", "title": "The log of sign() is true and keeps the keys secret", "statement": "sign() logs, for every input in order, the source address and the public key, signature, DER form, scriptSig and length it stores in the input, and says whether the signature is deterministic; the last line \"Transaction signed\" appears exactly on success. Private keys and random values have no influence on the log except through the signatures themselves.", "quantifier": "every transaction, key list and random values, also when signing fails", "why_tests_cant": "relates two runs with different keys; all keys", "anchors": ["bitcoin_toolset/code/transaction.py:Transaction.sign", "bitcoin_toolset/code/basic.py:script_sig_encode"]}
{"id": "C118", "title": "The log of loading hex data shows the fields of the loaded transaction", "statement": "Transaction.from_hex_signed logs the fields of the transaction it returns, in the order of the bytes, with their values; at level INFO it logs one line when it starts and one exactly when it has succeeded.", "quantifier": "every hex text", "why_tests_cant": "all hex texts, including malformed ones", "anchors": ["bitcoin_toolset/code/transaction.py:Transaction.from_hex_signed"]}
{"id": "C119", "title": "Tasks on keys log nothing, and signing tasks do not reveal the keys", "statement": "The tasks on private keys, public keys and addresses log nothing. If two runs of a signing task with different private keys print the same, they log the same, in the same order.", "quantifier": "every task, key and input", "why_tests_cant": "relates two runs; all keys", "anchors": ["cli.py:main", "bitcoin_toolset/code/transaction.py:Transaction.sign"]}
{"id": "C120", "title": "The console shows what the log level asks for", "statement": "After the logging setup of the command line, a line is written to the console exactly once if its level is at least the one asked for, else not at all; lines above INFO are only true reports of invalid signatures; with the default settings a successful task writes nothing to the console (except verify_signed_transaction_json about invalid signatures).", "quantifier": "every task, argument, log option", "why_tests_cant": "all tasks and option values", "anchors": ["cli.py:setup", "bitcoin_toolset/util/module_logger.py:configure_module_logger"]}
{"id": "C121", "title": "Complaints about invalid signatures are true", "statement": "verify_signed_transaction_hex and decode_signed_transaction_hex raise \"Signed transaction: k invalid signatures detected! ...\" exactly when the data is a transaction with k > 0 invalid signatures; the tasks that create signatures themselves never raise such a text.", "quantifier": "every hex text, every request and key", "why_tests_cant": "all transactions, all keys", "anchors": ["cli.py:verify_signed_transaction_hex", "cli.py:decode_signed_transaction_hex", "cli.py:create_sign_and_verify_transaction_hex", "cli.py:create_signed_transaction_json"]}
{"id": "C122", "title": "Any history of signing attempts leaves only valid signatures", "statement": "Whatever calls of sign() are made on an unsigned transaction object, with whatever keys and random values and however many of them raise: nothing but signatures and public keys changes; exactly the first p inputs (for some p) are signed and each of these signatures verifies; the transaction counts as signed exactly if one of the calls returned, so the keys of all inputs must be given in one call; once a call has returned, verify() finds no invalid signature and the hex data decodes to a transaction that passes verify() too.", "quantifier": "every unsigned transaction, every finite sequence of sign() calls, successful or not", "why_tests_cant": "unboundedly many histories of failing and succeeding calls", "anchors": ["bitcoin_toolset/code/transaction.py:sign", "bitcoin_toolset/code/transaction.py:verify", "bitcoin_toolset/code/transaction.py:is_signed"]}
{"id": "C123", "title": "Deterministic signing does not depend on the history", "statement": "With deterministic signatures and no two keys of the same address, all histories of sign() calls in which some call returned end in the same object; in particular a later attempt that fails does not harm a signed transaction.", "quantifier": "every transaction, every pair of histories of sign() calls without random values", "why_tests_cant": "all pairs of histories", "anchors": ["bitcoin_toolset/code/transaction.py:sign"]}
{"id": "C124", "title": "Sign after changing an amount", "statement": "Whatever calls of sign() and of set_satoshi_amount() on the outputs are made in any order, after a call of sign() that returned, and as long as no amount is touched again, the transaction is signed, passes verify(), and its hex data pays to each of the original addresses the last amount that was accepted for it. (The part about amounts is FALSE of the code: a refused amount above 21 million bitcoin that fits into eight bytes is stored, and the next sign() signs it.)", "quantifier": "every created transaction, every finite sequence of sign() and set_satoshi_amount() calls", "why_tests_cant": "unboundedly many interleavings of changes and signing", "anchors": ["bitcoin_toolset/code/transaction.py:sign", "bitcoin_toolset/code/transaction_output.py:set_satoshi_amount"]}
{"id": "C125", "title": "A refused request can be corrected and tried again", "statement": "If create_transaction(a) raises, the caller may correct the same argument object (a setting, a field of an input or of an output, the options) and call again: the second call returns or raises exactly what it would with a fresh argument object that has the same corrections. (FALSE of the code: once the validation is passed, a key satoshi_amount has been added to every input and output dict, and such dicts are refused by every later call, whatever is corrected in the design. It is true of every call that was refused earlier, and after every call if the added keys are removed.)", "quantifier": "every argument object, every exception, every finite sequence of corrections", "why_tests_cant": "unboundedly many argument objects, points of failure and corrections", "anchors": ["bitcoin_toolset/code/create_transaction.py:create_transaction", "bitcoin_toolset/code/create_transaction.py:validate_design"]}
{"id": "C126", "title": "Texts about refused amounts are true", "statement": "If validate_bitcoin_amount, validate_positive_bitcoin_amount, bitcoin_to_satoshi, satoshi_to_bitcoin, ensure_8_decimal_places, pad_hex or pad_hex_le refuses a value, the text of the exception states a fault that this value has (the number of periods, other characters, the number of places, the value, the length), with the right numbers, shows the value, and different refused amounts get different texts. (FALSE of the code in four places: nothing at all and a lone period are told that only digits are allowed; texts of periods only are told that they cannot be 0; the conversion of every amount of zero fails with a text about int() that shows no amount; True and False are refused as an amount that nobody entered.)", "quantifier": "every value", "why_tests_cant": "unboundedly many values and texts", "anchors": ["bitcoin_toolset/code/basic.py:validate_bitcoin_amount", "bitcoin_toolset/code/basic.py:validate_positive_bitcoin_amount", "bitcoin_toolset/code/basic.py:bitcoin_to_satoshi", "bitcoin_toolset/code/basic.py:satoshi_to_bitcoin", "bitcoin_toolset/code/basic.py:ensure_8_decimal_places", "bitcoin_toolset/code/basic.py:pad_hex", "bitcoin_toolset/code/basic.py:pad_hex_le"]}
{"id": "C127", "title": "The limits decide, they do not shape", "statement": "max_fee, max_spend_percentage and allow_duplicate_output_address only decide whether create_transaction returns a transaction, never which one: if a request succeeds with two different choices of the three, both calls return the same transaction. In particular raising a limit never changes or loses a result: a successful request with another max_fee succeeds exactly if the fee that is paid does not exceed it; with duplicates allowed it succeeds, with duplicates forbidden exactly if the designed addresses differ; with a larger accepted percentage it succeeds. (The last part is FALSE of the code for percentages between 100 and 101, which are accepted: the limit can exceed 21 million bitcoin, and then the call raises. It holds up to 100.)", "quantifier": "every successful request, all other values of the three settings", "why_tests_cant": "all pairs of requests and settings", "anchors": ["bitcoin_toolset/code/create_transaction.py:create_transaction"]}
{"id": "C128", "title": "A fee as a number or as a rate", "statement": "Only the amount of the fee counts, not the way it is given: two requests that differ only in fee and fee_rate and pay the same fee give the same transaction, and a request that names the fee that was paid, and no rate, gives the same transaction as the request with the rate. (The second half is FALSE of the code for a fee of 0, see C55.)", "quantifier": "every successful request, all values of fee and fee_rate", "why_tests_cant": "all requests and rates", "anchors": ["bitcoin_toolset/code/create_transaction.py:create_transaction"]}
{"id": "C129", "title": "A signature protects the whole payment", "statement": "If two hex texts decode to transactions that pass verify() with no invalid signature and the same scriptSig occurs in both, it occurs at the same position, and both transactions spend the same outputs in the same order and pay the same amounts to the same addresses, unless this signature is valid under its public key for two different messages. A text that was changed and still passes the check with its original scriptSigs therefore decodes to the original transaction (apart from trailing data, C36), unless one of its signatures is valid for two messages.", "quantifier": "every pair of texts that decode and pass verify(), every pair of inputs", "why_tests_cant": "all modifications of all transactions", "anchors": ["bitcoin_toolset/code/transaction.py:from_hex_signed", "bitcoin_toolset/code/transaction.py:verify", "bitcoin_toolset/code/transaction.py:to_hex_signable"]}
{"id": "C130", "title": "Only the meaning of the arguments counts", "statement": "create_transaction depends on the meaning of its arguments, not on how they are written. Two argument objects that offer the same coins and ask for the same payments (all amounts positive, entries with exactly the documented keys in any order, amounts and positions in any accepted spelling) and whose settings mean the same (fee and max_fee as int or text, rates and percentages as int, float or text of the same value, defaults written out or left out, settings in any order) have the same outcome: the same transaction or the same exception.", "quantifier": "every pair of argument objects with the same meaning", "why_tests_cant": "all spellings of all requests", "anchors": ["bitcoin_toolset/code/create_transaction.py:create_transaction"]}
{"id": "C131", "title": "The order of the payments does not matter", "statement": "If a request succeeds, the request with the payments in another order (at most one of them to the change address) succeeds too, and its transaction spends the same coins in the same order and makes the same payments, in another order.", "quantifier": "every successful request, every permutation of its payments", "why_tests_cant": "all requests and all orders", "anchors": ["bitcoin_toolset/code/create_transaction.py:create_transaction"]}
{"id": "C132", "title": "Asking for more never spends fewer coins", "statement": "If two requests offer the same coins with the same approach and both succeed, the coins spent by the one that needs less (payments and fee together) are the first coins spent by the other.", "quantifier": "every pair of successful requests over the same coins", "why_tests_cant": "all pairs of requests", "anchors": ["bitcoin_toolset/code/create_transaction.py:create_transaction"]}
{"id": "C133", "title": "After a success, asking for less succeeds too", "statement": "If a request succeeds, a request with the same coins and settings, at most as many payments (at most 251) and at most the same total, duplicates only where they are allowed, succeeds too, with a fee that is not larger and the same coins or the first few of them. (FALSE of the code if a payment goes to the change address: when the coins are used up exactly there is no change, and a payment to the change address then counts as spent, so that max_spend_percentage refuses the smaller request. It holds if no payment goes to the change address.)", "quantifier": "every successful request, every smaller request", "why_tests_cant": "all pairs of requests", "anchors": ["bitcoin_toolset/code/create_transaction.py:create_transaction"]}
{"id": "C134", "title": "Spare keys have no influence on signing", "statement": "Private keys that belong to no input do not influence sign(): with deterministic signatures the call with additional keys has the same effect, or both fail and change nothing. A call that succeeds also succeeds with the same result when more valid keys are given (with one further random value per further key, if explicit values are used), and a command line run of a task that accepts several keys prints the same when further keys are added. (No two different keys of the same address, as in C84.)", "quantifier": "every transaction object, all lists of keys and random values, every command line run", "why_tests_cant": "all sets of keys", "anchors": ["bitcoin_toolset/code/transaction.py:sign", "cli.py:main"]}
{"id": "C135", "title": "A printed transaction is accepted by the ledger", "statement": "If the input file lists outputs that are unspent, each at most once, and create_transaction ends with exit status 0, then the printed transaction obeys the rules of the ledger: it has inputs, no two of them spend the same output, each spends an unspent output and carries a signature and key that unlock it, and no value is created. When it is put on the ledger the total of all unspent outputs falls exactly by the fee, which is at most max_fee.", "quantifier": "every ledger, all input and design files, all keys, every run", "why_tests_cant": "all ledgers and files", "anchors": ["cli.py:create_transaction", "bitcoin_toolset/code/create_transaction.py:create_transaction", "bitcoin_toolset/code/transaction.py"]}
{"id": "C136", "title": "Any history of transactions is free of double spends", "statement": "For every sequence of runs, each with an input file that lists outputs unspent at that time (among them outputs of earlier transactions of the sequence), when each printed transaction is put on the ledger: each transaction was acceptable at its time, no output is spent by two of them, and the total of all unspent outputs never grows and falls by at most the total of the max_fee settings. (No two different transactions with the same id, that is no collision of double SHA-256.)", "quantifier": "every initial ledger, every finite sequence of runs", "why_tests_cant": "all histories", "anchors": ["cli.py:create_transaction", "bitcoin_toolset/code/create_transaction.py:create_transaction"]}
{"id": "C137", "title": "What was paid can be spent", "statement": "For each output of a transaction that was signed, the dict with its address, its bitcoin amount, its position and the txid reported for the transaction describes this very output: as an entry of an input file it gives an input with the script and amount of the output and the outpoint under which the network knows it.", "quantifier": "every signed transaction, every output", "why_tests_cant": "all transactions and outputs", "anchors": ["bitcoin_toolset/code/transaction.py:txid", "bitcoin_toolset/code/transaction_input.py:create", "bitcoin_toolset/code/transaction_output.py:create"]}
{"id": "C138", "title": "Everybody's coins after a payment", "statement": "If the input file lists unspent outputs, create_transaction ends with exit status 0 and the printed transaction is put on the ledger, then: an output is spent only if the input file lists it and a private key of its owner was given to the run (on the command line, in a key file or in the key directory), every other output stays; for every public key hash, what it owns afterwards plus what was taken from it is what it owned before plus the payments to it in the design file, plus the change for the owner of the change address; together they lose exactly the fee. Someone who gave no key and does not own the change address is richer by exactly the payments to him.", "quantifier": "every ledger, every run (files, keys, options), every public key hash", "why_tests_cant": "all ledgers, files, keys and owners", "anchors": ["cli.py:create_transaction", "cli.py:main (loading of private keys)", "bitcoin_toolset/code/create_transaction.py:create_transaction", "bitcoin_toolset/code/transaction.py:sign"]}
{"id": "C139", "title": "Who gives no key loses nothing", "statement": "Whatever sequence of runs is made (each with an input file that lists outputs unspent at that time, each printed transaction put on the ledger): an owner whose private keys were given to none of the runs still has each of his outputs, and the total of his outputs never became smaller. An output that has disappeared is an input of a transaction of the history, printed by a run whose input file listed it and to which a private key of its owner was given. (No collision of double SHA-256, as in C136.)", "quantifier": "every ledger, every sequence of runs, every owner, every output", "why_tests_cant": "all histories of any length", "anchors": ["cli.py:create_transaction", "cli.py:main (loading of private keys)", "bitcoin_toolset/code/transaction.py:sign"]}
{"id": "C140", "title": "A request that can be met is met", "statement": "If the files can be read and are as documented, the given private keys are valid and include one for the owner of every coin of the input file, no two payments go to the same address, and whatever fee the settings ask for, payments and fee do not exceed the coins, the fee does not exceed max_fee and payments and fee stay within the spending percentage, then the program create_transaction ends with exit status 0 (unless the ECDSA library cannot sign with one of the keys). If instead two payments go to the same address, or payments and fee exceed the coins, or the fee exceeds max_fee, then the exit status is 1 and nothing is printed. Where the fee is certain, everything may be spent and every coin has its key, this is an equivalence.", "quantifier": "all files, key sources, command lines, coins, payments and settings in good order", "why_tests_cant": "Success must follow for every request that meets the stated conditions, not for the requests somebody thought of: all selections, amounts, fees, key layouts; a refusal of one solvable request is not found by sampling.", "anchors": ["/repo/cli.py: main, create_sign_and_verify_transaction_hex", "/repo/bitcoin_toolset/code/create_transaction.py: create_transaction", "/repo/bitcoin_toolset/code/transaction.py: Transaction.sign"]}
{"id": "C141", "title": "No coin gets stuck", "statement": "Whoever has valid keys for the owners of up to 252 coins of the ledger can move all of them at once: a request in good order that lists these coins and asks for one payment of their total less an allowed fee makes the program print a transaction that is accepted under the ledger's rules, and after it the listed coins are replaced by exactly one coin, of the payee and of that amount.", "quantifier": "all ledgers, lists of coins, payees, fees, files and key sources", "why_tests_cant": "The conclusion is about every ledger and every set of coins, through selection, signing, serialisation and the ledger's rules; a coin that can be received but never be spent is not found by sampling.", "anchors": ["/repo/cli.py: main, create_sign_and_verify_transaction_hex", "/repo/bitcoin_toolset/code/create_transaction.py: create_transaction", "/repo/bitcoin_toolset/code/transaction.py: Transaction.sign, Transaction.to_hex_signed_form"]}
{"id": "C142", "title": "The log cannot be forged", "statement": "The log of a run (the text on the screen or in the log file, with or without time stamps) determines the records that were logged: no argument, file content or setting can make one record look like several, so two runs with different records never have the same log. In particular, after a line break inside a record the text never goes on like the beginning of another record.", "quantifier": "all command lines, data, input and design files, log levels, time stamps and libraries", "why_tests_cant": "The forged line can be hidden in any of the texts that are logged, for every task; a test tries a few texts, and reading the log back has to be shown for all sequences of records.", "anchors": ["cli.py:main", "bitcoin_toolset/util/module_logger.py:configure_module_logger", "bitcoin_toolset/code/transaction.py:Transaction.from_hex_signed", "bitcoin_toolset/code/create_transaction.py:validate_tx_design", "bitcoin_toolset/code/create_transaction.py:create_transaction"]}
{"id": "C143", "title": "Text that is not what it should be is refused with a ValueError", "statement": "Whatever text is given as an amount, address, base58check text, script, public key, var_int or hexadecimal number, the function returns a value or raises a ValueError, never another exception. Whatever text is given as a signed transaction is decoded or refused with a ValueError; in particular a transaction that is cut off anywhere is refused, and the tasks that verify or show it print nothing and fail.", "quantifier": "all texts, all transactions and all their proper beginnings", "why_tests_cant": "There are infinitely many texts and every place of a transaction of any size can be the one where it ends; fuzzing samples them.", "anchors": ["bitcoin_toolset/code/transaction.py:Transaction.from_hex_signed", "bitcoin_toolset/code/basic.py:bitcoin_to_satoshi", "bitcoin_toolset/code/basic.py:base58check_to_hex", "bitcoin_toolset/code/basic.py:script_sig_to_signature_hex_and_public_key_hex", "bitcoin_toolset/code/basic.py:ensure_8_decimal_places", "cli.py:verify_signed_transaction_hex", "cli.py:decode_signed_transaction_hex"]}
{"id": "C144", "title": "More coins never hurt", "statement": "If the program meets a request, it also meets the same request with further coins available (whose keys are given), with smaller payments, with a smaller fee or with a greater max_fee. This is true where the design names the fee. With a fee rate it is false: the fee is estimated for all the available coins, so a further small coin can turn a request that was met into one that is refused; further coins that are each worth at least 179 bytes of fee do no harm.", "quantifier": "all requests in good order, all further coins, all amounts, fees and rates", "why_tests_cant": "All pairs of requests and all lists of further coins; the counterexample needs a particular ratio of coin, rate and payment.", "anchors": ["bitcoin_toolset/code/create_transaction.py:create_transaction", "bitcoin_toolset/code/basic.py:estimate_transaction_size", "cli.py:main"]}
{"id": "C145", "title": "A missing argument is named", "statement": "If a task is started without an argument it needs, the program prints nothing, ends with exit status 1 and the text of the exception names the missing argument; such a text appears only if that argument is missing (or empty), so it does not come back once the argument is given. True for the data of sign_data and validate_unsigned_transaction_json and for the files of the tasks that create transactions; false for the other tasks, which end with an AttributeError, TypeError or AssertionError that does not name the argument. The texts of get_python_version (tool not found, exit code) are true.", "quantifier": "all command lines, file systems and shells", "why_tests_cant": "All combinations of options and file contents; that a text never appears wrongly is a statement about all runs.", "anchors": ["cli.py:main", "cli.py:get_python_version", "bitcoin_toolset/util/misc.py:shell_tool_exists"]}
{"id": "C146", "title": "A signature has no second form", "statement": "If verify_data_signature prints \"Valid signature.\" for a text, the public key of a private key, and each of two signatures with the same first half r (32 bytes), then the signatures are equal: nobody can turn a valid signature into another valid one by changing its second half (for r >= p - n, which is all but one in 2^127 of the values; for the others at most two second halves are accepted).", "quantifier": "all private keys, printable texts and 64-byte signatures, with the real secp256k1 and SHA-256", "why_tests_cant": "It excludes every other signature; there are 2^256 candidates for each key and text.", "anchors": ["cli.py:verify_data_signature", "bitcoin_toolset/code/basic.py", "bitcoin_toolset/submodules/ecdsa_python3"]}
{"id": "C147", "title": "One signature, one text", "statement": "A signature that verify_data_signature accepts for one text is not accepted for another text under the same public key. False: for any two texts (whose SHA-256 numbers are neither equal nor opposite modulo n) there are a private key and one signature accepted for both under its public key. What holds: a signature accepted for two texts means that their numbers agree modulo n, or that 2*r*key = -(z + z') modulo n, so the signature and the texts give away the private key.", "quantifier": "all private keys, pairs of printable texts and signatures, with the real secp256k1 and SHA-256", "why_tests_cant": "A test would have to find the signature; the claim is about all keys and pairs of texts.", "anchors": ["cli.py:verify_data_signature"]}
{"id": "C148", "title": "Random values do not give away the key", "statement": "Transaction.sign with explicit random values never produces two signatures with the same first half, which would give away the private key. False: repeated texts are refused, but the values v and n - v are different texts and give the same first half; a transaction with two inputs of one key signed that way is accepted, and then the key is one of two numbers that everybody can compute from the transaction. What holds: values that are neither equal nor opposite modulo n give different first halves (first halves from p - n on).", "quantifier": "all transactions, keys and lists of random values, with the real secp256k1 and SHA-256", "why_tests_cant": "The bad pairs are 2^255 out of 2^512; a test only sees values it is given.", "anchors": ["bitcoin_toolset/code/transaction.py:Transaction.sign", "bitcoin_toolset/code/transaction.py:Transaction.create_signature_for_one_input"]}
{"id": "C149", "title": "Nobody can change the id of a printed transaction", "statement": "If a transaction with the same coins and payments as a printed one is acceptable to a node (strict DER, low s, the key has the hash the coin is locked to, valid ECDSA signature) and its signatures have the same first halves (from p - n on), then it is the printed transaction byte for byte, so it has the same txid; unless somebody has found another public key with the same hash as that of one of the given private keys. So no one without the private keys can produce a second form of the transaction by altering signatures.", "quantifier": "all runs of the program that print a transaction, and all other transactions", "why_tests_cant": "It excludes every other byte string; no finite set of altered transactions does.", "anchors": ["cli.py:create_sign_and_verify_transaction_hex", "bitcoin_toolset/code/transaction.py:Transaction.sign", "bitcoin_toolset/code/basic.py:signature_to_der"]}
{"id": "C150", "title": "A signature names its signer", "statement": "A signature that verify_data_signature accepts for a text under one public key is not accepted for this text under another public key. False: for every accepted signature (key not -2z/r) there is another private key whose public key it is accepted under. What holds: there is no third one among the keys of private keys: two different ones satisfy r*(k + k') = -2z modulo n (first halves from p - n on).", "quantifier": "all private keys, printable texts and signatures, with the real secp256k1 and SHA-256", "why_tests_cant": "The other key has to be found among 2^256, and the absence of a third one is a statement about all of them.", "anchors": ["cli.py:verify_data_signature"]}
{"id": "C151", "title": "A script of the wrong length is reported with its length", "statement": "If a stored input in a transaction file states a length that its script does not have, TransactionInput.from_dict refuses it with a ValueError whose text names the stated and the actual length; such a text appears only in that case, and its two numbers are these lengths. False for the second script of an input: if only script_pub_key has another length than script_pub_key_length states, the exception is an AssertionError without a text.", "quantifier": "all stored inputs that are accepted, and all ways to replace one script in them; all values passed to from_dict for the truth of the text", "why_tests_cant": "Every dict and every pair of lengths; a wrong order of checks shows only in some of them.", "anchors": ["bitcoin_toolset/code/transaction_input.py:TransactionInput.from_dict"]}
{"id": "C152", "title": "The reasons in error messages are true", "statement": "The reason that the text of a validator gives for a refusal is true, with the right figures: the length that a hex string has and the length it should have; the number of decimal points; the number of decimal places; an integer less than 1; a text that is not of the form YYYY-MM-DD; an item that is not in the list, with the list. False for numbers that begin or end with the point, such as '5.' and '.5': the text says that they have non-digit characters.", "quantifier": "every string, integer, byte string and list of items; every required length or number of decimal places; every name, location and kind", "why_tests_cant": "all values", "anchors": ["bitcoin_toolset/util/validate.py:validate_hex_length", "bitcoin_toolset/util/validate.py:validate_string_is_decimal", "bitcoin_toolset/util/validate.py:validate_positive_integer", "bitcoin_toolset/util/validate.py:validate_whole_number", "bitcoin_toolset/util/validate.py:validate_string_is_date", "bitcoin_toolset/util/validate.py:validate_item_in_list"]}
{"id": "C153", "title": "The report on a wrong checksum is true", "statement": "If base58check_to_hex refuses a text because of its checksum, the exception's text shows the bytes that the text denotes, the checksum it contains and the checksum these bytes have, and the two differ; every refused text in the base58 alphabet with a character other than '1' is reported in this way.", "quantifier": "every text (addresses, WIF keys and others), every SHA-256 function", "why_tests_cant": "all texts", "anchors": ["bitcoin_toolset/code/basic.py:base58check_to_hex"]}
