# Formal model of sj-piano/bitcoin_toolset_python3 in Lean 4

## Approach

The Python package is modelled function by function as total, computable Lean functions; every
definition of the model cites the file and lines it models.

* Exceptions are values: a modelled function that can raise returns `Except Err α`, where `Err` is
  the enumeration of the Python exception classes that occur.  The texts of the exceptions of `validate.py`
  and of `create_transaction`, those about amounts, and everything the package logs, are modelled separately (`Messages`, `AmountMsg`, `Report`, `TxLog`, `StartMsg`, `DictMsg`) and proved to go with the same outcomes.
* Mutation is modelled by returning the new object *together with* the outcome, also when the
  outcome is an exception (`Tx.sign`, `TxOut.setSatoshi`, `createTransaction`, loggers).
* A Python `str` is a `List Char` (`Str`), an `int` an `Int`, `bytes` a `List UInt8`; dynamically
  typed data (parsed JSON, the `design` and `inputs` arguments) is `PVal`.
* A `float` is modelled exactly: `PyFloat` is nan, ±inf or a rational, and every operation is the
  exact rational operation followed by round-to-nearest-even to binary64 (`rnd64`).
  `decimal.Decimal` arithmetic with the default 28-digit context is modelled in `PyDecimal`.
* Sets and regular expressions are replaced by what they decide; loops are structural recursion.

### Files

| part | file | models |
|---|---|---|
| Python basics | `Py`, `PyFloat`, `PyDecimal`, `PVal` | str, int(), float(), Decimal, dynamic values |
| `json` of the standard library | `Json` | `dumps(_, indent=2)` and `loads`, as text |
| external components | `Ext` | ECDSA, SHA-256, RIPEMD-160, Unicode data base, `float.__repr__` |
| `util/validate.py` | `Validate`, `Messages` (the texts of the exceptions) | all validators used by the package |
| `code/basic.py` | `Basic`, `AmountMsg` (the texts about amounts) | hex, base58, keys, addresses, scripts, amounts |
| `code/transaction_input.py` | `TxIn`, `DictMsg` (text of an exception) | whole class |
| `code/transaction_output.py` | `TxOut` | whole class |
| `code/transaction.py` | `Tx`, `Forms` (JSON forms, `str`), `TxLog` (the log, also of `basic.py` and of the tasks) | whole class |
| `code/create_transaction.py` | `Create`, `CreateState` (the arguments after a call, also one that raised), `Report` (logged lines and texts of the exceptions) | whole file |
| `cli.py` | `Cli` (tasks), `CliRun` (loading files, checks, exit status), `Argparse` (the command line), `StartMsg` (the texts of the refusals at the start) | everything; `argparse` is modelled as far as this parser uses it (Python 3.11.10, compared with the real one on ~8000 random command lines, 250 of them in `Conformance/Args`) |
| `util/misc.py` | `CliRun` | `run_local_cmd`, `shell_tool_exists` |
| `util/module_logger.py`, `setup` functions | `Logger`, `LogText` (the text of the log) | configuration state machine, what is written |
| specifications | `Spec`, `TxSpec`, `CreateSpec`, `EndSpec`, `RealSpec`, `ArgSpec`, `JsonSpec`, `MsgSpec`, `AmountMsgSpec`, `ReportSpec`, `TxLogSpec`, `HistSpec`, `RetrySpec`, `SameSpec`, `LedgerSpec`, `OrderSpec`, `LogTextSpec`, `DecodeSpec` | vocabulary of the theorem statements: bytes, base58, amounts, serialisation, requests; nothing of the model's control flow |
| lemmas | `Lemmas/*` | |
| theorems | `Props/*` | named `Cnn_...`, with concrete cases that meet their hypotheses beside them |
| concrete environments | `Concrete/*` | `Xreal`: SHA-256, RIPEMD-160, secp256k1 ECDSA with RFC 6979, DER, proved to satisfy `Ext.Laws` (`Prime`: p and n are prime; `Curve`: the arithmetic is Mathlib's group law; `RealLaws`); `Xtoy`: a fast environment, also proved to satisfy them |
| conformance | `Conformance/*` | the repository's own tests and the log in the README, evaluated by the kernel on the model with `Xreal` |

## Trusted base

* Lean 4.33 kernel.  Every theorem depends on at most the axioms `propext`, `Classical.choice`,
  `Quot.sound`.  No axiom is added; `native_decide` and `bv_decide` are not used.  Concrete
  cases and counterexamples use `decide +kernel`, which is checked by the kernel.
* The reading of the Python code by the author of the model (the code was not run).  Evidence:
  the conformance tests.  `tools/vectors.py` extracts inputs and expected results from the
  test files of /repo; all address and WIF tests, all transaction tests (signing, hex, txid, dict
  form) and all create_transaction tests hold of the model on `Xreal`, except four tests that
  use the key `input_selection_approach`, which the code ignores (C57); they fail of the code too
  and are recorded as failing as written and passing with the key the code reads.
  (Several tests of /repo are stale in another way: they treat the result of `verify()`, the number of
  *invalid* signatures, as a truth value meaning "valid".)
* The statements of the theorems and the specification files.

### Assumptions about code that is not in /repo

The git submodules (ECDSA, SHA-256, RIPEMD-160) are not part of the source tree.  They, the
Unicode data base and `float.__repr__` are the fields of the structure `Ext`, and all theorems
are quantified over every `Ext`.  (The `json` module is modelled, and that it reads back what it
wrote is proved, `Ext.json_round`.)  Theorems that need correctness of these components have the
explicit hypothesis `Ext.Laws` (or only one of its clauses):
digest lengths (`sha_len`, `rip_len`); accepted private keys are 64 hex digits and
formatting such a key does nothing (`key_shape`, `format_id`); shapes of public keys and signatures
(`pub_shape`, `sig_shape`, `sig_shape_rand`, `data_shape`); a signature made with a key verifies
under its public key (`sign_verify`, `sign_verify_rand`, `data_verify`); valid keys have a public key
(`pub_ok`); splitting a signature (`split_ok`); DER round trip for 256-bit numbers (`der_round`).
C76 and C81 also use `Ext.SignTotal`: signing with a valid key does not fail (for ECDSA true but for
a nonce that gives r = 0 or s = 0).  `Xtoy_laws` and `Xtoy_signTotal` prove that the assumptions are
consistent, and `Xreal_laws` proves `Ext.Laws` for the real primitives, so C91-C93 (and every theorem with that
hypothesis, instantiated with `Xreal`) assume nothing about them except that the submodules compute
the published functions.
The structure `UniDB` (Unicode data) contains one assumption as a field: a decimal digit is not white
space.

### Not modelled

* Other versions of `argparse` than 3.11.10 (the README's 3.6 differs in `-d=`, unknown bundled letters and `--data=--`), the text
  of `--help` and of usage errors, terminal encoding, the text of exceptions raised outside `validate.py`, the functions on amounts, `create_transaction`, `TransactionInput.from_dict`, the start of the program and the checks of signatures in the tasks (except wrong checksums), a log file that cannot be opened later than set-up,
  the values of time stamps, line numbers and function names in the log (they are parameters of a record), its colours on the screen, `print` failing.
* Identity of objects: dicts shared between two arguments, or mutated by somebody else during a call.
* Python's limit on the number of digits in int/str conversion, memory and recursion limits.
* -0.0 is identified with 0.0; lone surrogates in strings.
* A command-line option is "not given" as an empty list where Python has `None` (both falsy).

## Properties violated by the code

A property that the code violates keeps its full statement in `properties.jsonl`.  It gets a
`_violation` theorem (negation or exact defective behaviour, usually for a whole family of inputs, and
a concrete case) and a `_partial` theorem for what does hold, and is "partial" in the manifest:
C13 (network byte of WIF), C15 (non-P2PKH scripts rendered as addresses), C18 (amount 0), C22 (non-ASCII zero),
C25 (object after a refused amount), C28 (script not tied to address in JSON), C36 (trailing bytes), C42 (key not tied to
script in verify), C48 (fee rate), C55 (fee 0), C56 (second call), C57 (documented key ignored), C60 (NameError), C61 (log directory),
C67, C68 (date and integer strings), C70 (version), C71 (double rounding), C72 (double spend), C78 (log level), C82 (random values),
C86, C87 (exit status), C90 (change after reloading), C98 (texts with a leading dash), C100 (unspent coins and the fee),
C104 (three error texts), C107 (keys in error texts), C108 (control characters in error texts), C110 (two lines of the report),
C113 (the advice of 101 percent), C114 (a setting that is logged), C116 (the summary of a check), C117 (the word non-deterministic), C124 (a refused amount that is stored),
C125 (the arguments after a refused request), C126 (some texts about amounts), C127 (percentages above 100), C128 (fee 0, as in C55), C133 (payments to the change address), C142 (log records in data and design files), C143 (IndexError for some transactions that are cut off), C144 (fee rates: the fee is estimated for all available coins), C145 (tasks that do not name a missing argument), C147 (one signature for two texts), C148 (opposite random values), C150 (one signature for two keys), C151 (a script without a text), C152 (decimals with the point at an end).

## Plan per property

| id | property | code modelled | proof | status |
|---|---|---|---|---|
| C01 | Integer <-> hex round trip | basic.py:int_to_hex, basic.py:hex_to_int | `Nat.digits` in base 16/256; list induction | proved |
| C02 | Fixed-width little-endian fields | basic.py:int_to_hex_le, basic.py:pad_hex_le, basic.py:hex_le_to_int, basic.py:reverse_hex_order | digit lemmas; padding; exact success condition from `padHexLe` | proved |
| C03 | Byte reversal is a length-preserving involution | basic.py:reverse_hex_order | induction on byte pairs | proved |
| C04 | One-byte var_int codec | basic.py:int_to_var_int, basic.py:var_int_to_int | case split on the range check | proved |
| C05 | Padding keeps the number | basic.py:pad_hex, basic.py:pad_hex_le | value of a padded digit string | proved |
| C06 | Base58 integer codec | basic.py:hex_to_base58, basic.py:base58_to_int | digits in base 58 | proved |
| C07 | Base58Check decode inverts encode | basic.py:hex_to_base58check, basic.py:base58check_to_hex, basic.py:count_leading_zero_bytes, basic.py:get_double_sha256_checksum | base 58/256 digits plus leading-zero bookkeeping | proved |
| C08 | Base58Check strings are canonical | basic.py:base58check_to_hex, basic.py:hex_to_base58check | decode determines the bytes, hence the text (uniqueness of digits) | proved |
| C09 | Base58Check rejects damaged strings | basic.py:base58check_to_hex, basic.py:base58_to_int | independent relation `Denotes58` between text and bytes; uniqueness | proved |
| C10 | Address <-> public key hash round trip | basic.py:public_key_hash_hex_to_address, basic.py:bitcoin_address_to_public_key_hash_hex | C07 + explicit standard layout (`AddressOf`) | proved |
| C11 | Accepted addresses are exactly mainnet P2PKH | basic.py:validate_bitcoin_address, basic.py:bitcoin_address_to_public_key_hash_hex | characterisation of `addressToHash` | proved |
| C12 | WIF round trip | basic.py:private_key_hex_to_wif, basic.py:private_key_wif_to_hex | C07 + explicit WIF layout | proved |
| C13 | WIF decoder checks the network byte | basic.py:private_key_wif_to_hex | counterexample for every other network byte; partial: layout | partial |
| C14 | Address <-> P2PKH script round trip | basic.py:address_to_script_pub_key, basic.py:public_key_hash_hex_to_script_pub_key, basic.py:script_pub_key_to_address | slices of the 25-byte script | proved |
| C15 | Only P2PKH scripts are shown as addresses | basic.py:script_pub_key_to_address, transaction_output.py:TransactionOutput.create_from_signed_tx_data | counterexample; partial: exact on P2PKH | partial |
| C16 | scriptSig round trip | basic.py:signature_hex_and_public_key_hex_to_script_sig, basic.py:script_sig_to_signature_hex_and_public_key_hex | slices, one-byte lengths | proved |
| C17 | scriptSig decoding is strict about hash type and key type | basic.py:script_sig_to_signature_hex_and_public_key_hex | inversion of the decoder's checks | proved |
| C18 | satoshi -> bitcoin -> satoshi | basic.py:satoshi_to_bitcoin, basic.py:bitcoin_to_satoshi | C19 + C20; counterexample at 0 | partial |
| C19 | satoshi_to_bitcoin prints the exact decimal | basic.py:satoshi_to_bitcoin | digit string of n/10^8, float comparison exact below 2^53 | proved |
| C20 | bitcoin_to_satoshi is exact | basic.py:bitcoin_to_satoshi, basic.py:validate_bitcoin_amount | decimal parsing lemmas | proved |
| C21 | The 21 million cap is exact although checked in floating point | basic.py:validate_bitcoin_amount | monotonicity of `rnd64`, exactness below 2^53 | proved |
| C22 | Positive-amount validation rejects zero | basic.py:validate_positive_bitcoin_amount | exact characterisation; counterexample with non-ASCII zero | partial |
| C23 | ensure_8_decimal_places keeps the value | basic.py:ensure_8_decimal_places | split at the point | proved |
| C24 | TransactionInput.create binds its arguments | transaction_input.py:TransactionInput.create | unfolding of the checks to an iff | proved |
| C25 | Output fields always agree | transaction_output.py:TransactionOutput.create, transaction_output.py:set_satoshi_amount | invariant over a list of calls; counterexample on a failing call | partial |
| C26 | Output dict round trip and cross-checks | transaction_output.py:from_dict, transaction_output.py:to_dict | unfolding of all cross-checks | proved |
| C27 | Input dict round trip and cross-checks | transaction_input.py:from_dict, transaction_input.py:to_dict | unfolding of all cross-checks | proved |
| C28 | A loaded input's script belongs to its address | transaction_input.py:from_dict | counterexample family; partial | partial |
| C29 | Transaction JSON-data round trip | transaction.py:to_dict, transaction.py:from_json | per-object round trips, induction on inputs/outputs | proved |
| C30 | Loaded transactions never create money | transaction.py:from_json | unfolding of `from_json` checks | proved |
| C31 | The signed message ignores signatures | transaction.py:to_hex_signable_form, transaction.py:to_dict_signable_form, transaction_input.py:to_dict_signable_form, transaction_input.py:to_dict_signable_form_empty | serialisation depends on the unsigned part only | proved |
| C32 | The signed message commits to the whole transaction | transaction.py:to_hex_signable_form | prefix-freeness of the byte layout | proved |
| C33 | The signable form has the documented layout | transaction.py:to_dict_signable_form | unfolding to bytes | proved |
| C34 | The signed form has the documented layout and length | transaction.py:to_hex_signed_form | unfolding to bytes; length by induction | proved |
| C35 | Signed transaction hex round trip | transaction.py:from_hex_signed, transaction.py:to_hex_signed_form | parser inverts serialiser, induction on inputs and outputs | proved |
| C36 | Decoding never misreads bytes | transaction.py:from_hex_signed | inversion of the parser; counterexample with trailing bytes | partial |
| C37 | sign then verify | transaction.py:sign, transaction.py:verify, transaction.py:create_signature_for_one_input, transaction.py:verify_signature_for_one_input | loop invariant of sign, verify_step per input, laws of ECDSA/DER | proved |
| C38 | sign needs the right key for every input | transaction.py:sign | loop invariant; key map lookup | proved |
| C39 | A failing sign leaves amounts and earlier inputs intact | transaction.py:sign | loop invariant including failing iterations | proved |
| C40 | No nonce reuse inside a transaction | transaction.py:sign | loop invariant; Nodup | proved |
| C41 | verify counts exactly the invalid signatures | transaction.py:verify | induction on the verify loop | proved |
| C42 | verify ties the key to the spent output | transaction.py:verify, transaction.py:verify_signature_for_one_input | counterexample from JSON data; partial for hex-decoded and signed transactions | partial |
| C43 | txid | transaction.py:calculate_txid | unfolding | proved |
| C44 | Size estimate | basic.py:estimate_transaction_size | lengths by induction | proved |
| C45 | create_transaction conserves value | create_transaction.py:create_transaction | `create_ok`: exact description of a successful call; conservation by sums | proved |
| C46 | max_fee is never exceeded | create_transaction.py:create_transaction | `create_ok` | proved |
| C47 | fee_rate arithmetic | create_transaction.py:create_transaction | float lemmas (`rnd64` error bound, exactness, monotonicity) | proved |
| C48 | The result pays at least the requested fee rate | create_transaction.py:create_transaction | counterexample; partial bound | partial |
| C49 | Input selection is a minimal prefix | create_transaction.py:create_transaction | insertion-sort and prefix-sum lemmas | proved |
| C50 | largest_first uses the fewest inputs | create_transaction.py:create_transaction | exchange argument | proved |
| C51 | Payments are preserved, only change is adjusted | create_transaction.py:create_transaction | case analysis on the change | proved |
| C52 | Insufficient funds are reported exactly | create_transaction.py:create_transaction | exact error conditions | proved |
| C53 | Duplicate outputs need permission | create_transaction.py:create_transaction | exact error conditions | proved |
| C54 | Spending limit | create_transaction.py:create_transaction | float comparison lemmas | proved |
| C55 | A zero-satoshi fee is permitted | create_transaction.py:create_transaction, create_transaction.py:validate_design | case analysis | partial |
| C56 | create_transaction can be repeated | create_transaction.py:create_transaction | the argument object after the call (mutation is modelled); second call fails | partial |
| C57 | Documented input_selection_approach key | create_transaction.py:create_transaction, README.md:Guidance for design.json | the program reads seven keys only | partial |
| C58 | A created transaction survives its own JSON check | create_transaction.py:create_transaction, transaction.py:to_json, transaction.py:from_json, cli.py:create_unsigned_transaction_json | created objects satisfy the loader's cross-checks (C26, C27, C29) | proved |
| C59 | CLI one-shot prints only verified transactions | cli.py:create_sign_and_verify_transaction_hex | composition of C35, C37, C58 | proved |
| C60 | CLI create_signed_transaction_hex works | cli.py:create_signed_transaction_hex | composition | partial |
| C61 | Logger configuration is idempotent | module_logger.py:configure_module_logger | state machine, invariant over call sequences | partial |
| C62 | Printable-ASCII validation | validate.py:validate_string_is_printable_ascii | direct | proved |
| C63 | Validators accept exactly what they say | validate.py:validate_hex, validate.py:validate_hex_length, validate.py:validate_integer_domain, validate.py:validate_lists_are_identical, validate.py:validate_list_contains_items, validate.py:validate_whole_number, validate.py:validate_positive_integer | direct characterisation of each validator | proved |
| C64 | Reported totals are consistent | transaction.py:to_dict, transaction.py:fee, transaction.py:change, transaction.py:total_input, transaction.py:total_output | unfolding of `to_dict` | proved |
| C65 | Deterministic re-signing | transaction.py:sign | sign_eq + determinism of the signer | proved |
| C66 | Reported fee-rate strings are accurate | transaction.py:to_dict | decimal arithmetic with 28 digits: double rounding bound | proved |
| C67 | Date strings | validate.py:validate_string_is_date | regular expression as a predicate | partial |
| C68 | Positive integers as strings | validate.py:validate_string_is_positive_integer | exact characterisation | partial |
| C69 | Decimal strings | validate.py:validate_string_is_decimal | exact characterisation | proved |
| C70 | Loading checks the version | transaction.py:Transaction.from_json | the entry is never read | partial |
| C71 | bitcoin_per_byte is correctly rounded | transaction.py:Transaction.to_dict | double rounding; counterexample | partial |
| C72 | The same output cannot be spent twice | create_transaction.py:create_transaction, create_transaction.py:validate_inputs | concrete run | partial |
| C73 | Well-formed requests have a predictable outcome | create_transaction.py:create_transaction | `create_ok` and the error conditions combined | proved |
| C74 | End to end: the printed bytes do what the files ask | cli.py:create_sign_and_verify_transaction_hex, create_transaction.py:create_transaction, transaction.py:Transaction.sign, transaction.py:Transaction.to_hex_signed_form | composition of creation, signing, serialisation; byte-level specification in EndSpec.lean; `C74_program` from exit status and files | proved |
| C75 | Step-by-step CLI tasks agree with the one-shot task | cli.py:create_unsigned_transaction_json, cli.py:create_signed_transaction_json, cli.py:verify_signed_transaction_json, cli.py:create_signed_transaction_hex, cli.py:verify_signed_transaction_hex, cli.py:decode_signed_transaction_hex | composition of C29, C35, C37, C58, C59 | proved |
| C76 | sign_data and verify_data_signature fit together | cli.py:sign_data, cli.py:verify_data_signature, basic.py:verify_signature, basic.py:create_deterministic_signature | composition with the library laws | proved |
| C77 | The key tasks of the CLI agree with each other | cli.py:get_private_key_wif, cli.py:private_key_wif_to_hex, cli.py:get_public_key, cli.py:get_address | C12 + C10 | proved |
| C78 | setLevelStr changes what is logged | module_logger.py:configure_module_logger | state machine | partial |
| C79 | setup configures every logger of the package | bitcoin_toolset/__init__.py:setup, __init__.py:setup, bitcoin_toolset/submodules/__init__.py:setup, cli.py:setup | state machine, induction over loggers | proved |
| C80 | The CLI passes exactly the right key to single-key tasks | cli.py:main | case analysis of `main` | proved |
| C81 | Signing succeeds exactly when the keys are there | transaction.py:Transaction.sign, cli.py:create_sign_and_verify_transaction_hex | converse of the loop invariant | proved |
| C82 | Explicit random values can be used with any transaction | transaction.py:Transaction.sign | index error argument; partial by the C81 method | partial |
| C83 | Keys from files and directories | cli.py:main | equality of the loaded arguments | proved |
| C84 | The order of the private keys does not matter | transaction.py:sign, cli.py:main | key map depends on the set of keys; permutation lemmas | proved |
| C85 | Data from a file | cli.py:main, cli.py:decode_signed_transaction_hex, cli.py:verify_signed_transaction_hex | equality of the loaded arguments | proved |
| C86 | The exit status reports invalid signatures | cli.py:verify_signed_transaction_json, cli.py:verify_data_signature, cli.py:verify_signed_transaction_hex, cli.py:decode_signed_transaction_hex, cli.py:create_signed_transaction_json | inversion of a run with exit status 0; counterexample runs | partial |
| C87 | Exit status 0 means that the requested task ran | cli.py:main, cli.py:stop, misc.py:run_local_cmd | dispatch table; counterexample runs | partial |
| C88 | The JSON forms describe exactly the signed and broadcast bytes | transaction.py:to_json_signable_form, transaction.py:to_dict_signable_form, transaction.py:to_hex_signable_form, transaction.py:to_json_signed_form | induction over inputs and outputs; json round trip | proved |
| C89 | str() of a transaction, an input and an output | transaction.py:Transaction.__str__, transaction_input.py:TransactionInput.__str__, transaction_output.py:TransactionOutput.__str__ | separator lemma, injectivity of decimal printing | proved |
| C90 | A reloaded transaction reports the same | transaction.py:to_dict, transaction.py:from_json, transaction.py:change | equality of the two reports key by key; counterexample runs | partial |
| C91 | A printed transaction is valid under the network's rules | transaction.py:Transaction.sign, transaction.py:verify, cli.py:create_transaction, cli.py:create_sign_and_verify_transaction_hex | C74 plus `Xreal_laws`; Jacobian arithmetic = Mathlib's group law; primality of p and n by Pocklington | proved |
| C92 | Keys, public keys and addresses of secp256k1 | basic.py:private_key_hex_to_public_key_hex, basic.py:private_key_hex_to_address, basic.py:public_key_hex_to_address | order of G; base58 round trip | proved |
| C93 | The verdict on a data signature | cli.py:verify_data_signature | `ecVerify` = ECDSA equation | proved |
| C94 | Sources are exclusive on the command line | cli.py:main | from C96: induction over the words | proved |
| C95 | The meaning of a command line | cli.py:main | induction over the settings; abbreviations and names by evaluation over the finite table of options | proved |
| C96 | Nothing on the command line is dropped or invented | cli.py:main | induction over the words: every step of the parser consumes what it records | proved |
| C97 | From the command line to output and exit status | cli.py:main, cli.py:setup, cli.py:get_address, cli.py:create_transaction | C95 composed with C91, C92; exit status by cases | proved |
| C98 | Any printable text can be signed and verified on the command line | cli.py:main, cli.py:sign_data, cli.py:verify_data_signature | C95 composed with C76; the parser on a word with a dash | partial |
| C99 | The order of the available inputs does not matter | create_transaction.py:create_transaction | sorted lists with the same multiset of amounts; `create_ok` for the permuted request | proved |
| C100 | Available coins that are not spent have no influence | create_transaction.py:create_transaction, basic.py:estimate_transaction_size | uniqueness of stable sorting, prefix lemma of the selection loop, monotone float limit; counterexample | partial |
| C101 | The layout of JSON files does not matter | transaction.py:from_json, cli.py:main | induction over the grammar of JsonSpec (every text is read), with enough fuel | proved |
| C102 | Only JSON is accepted | transaction.py:from_json, cli.py:main | converse: induction over the scanner; both directions give an equivalence | proved |
| C103 | What is written is JSON in printable ASCII | transaction.py:to_json, transaction.py:to_json_signable_form, transaction.py:to_json_signed_form | structural induction over the value | proved |
| C104 | Error messages explain the refusal | validate.py:build_error_msg, validate.py:validate_hex, validate.py:validate_string_is_printable_ascii, validate.py:validate_string_is_positive_integer | the texts are modelled in Messages.lean; forgetting them gives Validate.lean; case analysis | partial |
| C105 | An error message identifies the refused value | validate.py:build_error_msg | repr is uniquely decodable (mutual induction over values) | proved |
| C106 | Positions in error messages are right | validate.py:validate_hex, validate.py:validate_string_is_printable_ascii, validate.py:validate_list_contains_items | induction over the string | proved |
| C107 | Error messages do not repeat private keys | transaction.py:sign, basic.py:base58check_to_hex, basic.py:private_key_wif_to_hex, validate.py:validate_hex_length | the text contains repr of the key; base58 decoding of a WIF key | partial |
| C108 | Error messages contain no control characters | validate.py:build_error_msg, validate.py:validate_hex, validate.py:validate_string_is_printable_ascii | every character of repr is visible; counterexamples for every control character | partial |
| C109 | The figures in the report are those of the transaction | create_transaction.py:create_transaction | `create_log`: the log of a successful call as a list of lines; filtering by label; exactness of money printing | proved |
| C110 | The statements in the report are true | create_transaction.py:create_transaction | the same; exact characterisation of the false lines; concrete runs | partial |
| C111 | Limits, percentages and rates in the report | create_transaction.py:create_transaction | error bounds of `rnd64` and of fixed-point formatting | proved |
| C112 | Refusals explain the true reason with the true figures | create_transaction.py:create_transaction | inversion of a failing run (`create_text`) against the inductive relation `Refusal` | proved |
| C113 | The advised percentage is sufficient | create_transaction.py:create_transaction | ceiling argument for the percentage, C112, success of the other request by `create_ok`; family of counterexamples | partial |
| C114 | "Transaction created." is logged exactly on success | create_transaction.py:create_transaction | `Ends`: the line is the last one written and no earlier step writes it; counterexample | partial |
| C115 | Logging does not change what the toolset does | transaction.py:Transaction, cli.py:main | the functions with log are a writer monad; erasing the log commutes with `bind` (`o_bind`), function by function | proved |
| C116 | The log of verify() reports the true verdicts | transaction.py:Transaction.verify, basic.py:signature_from_der | `Runs`: the log of a run that ends normally as a relation, induction over the inputs; prefix version for runs that raise; counterexample | partial |
| C117 | The log of sign() is true and keeps the keys secret | transaction.py:Transaction.sign, basic.py:script_sig_encode | the same for signing; two runs with equal scriptSigs have equal logs because the DER form is determined by the scriptSig (`signature_der`); invariant over all events (`Only`) for runs that fail | partial |
| C118 | The log of loading hex data shows the fields of the loaded transaction | transaction.py:Transaction.from_hex_signed | `read_log`: parsing as a relation between text, transaction and log | proved |
| C119 | Tasks on keys log nothing, and signing tasks do not reveal the keys | cli.py:main, transaction.py:Transaction.sign | C117_secret, C116_exact, C118_exact composed along the task; printed hex or JSON determines the signed transaction | proved |
| C120 | The console shows what the log level asks for | cli.py:setup, module_logger.py:configure_module_logger | invariant over all events of all tasks; C79_setup for the configured loggers | proved |
| C121 | Complaints about invalid signatures are true | cli.py:verify_signed_transaction_hex, cli.py:decode_signed_transaction_hex, cli.py:create_sign_and_verify_transaction_hex, cli.py:create_signed_transaction_json | `complaint_bind`: the text of a run that fails; C37 and C35 for the tasks that sign | proved |
| C122 | Any history of signing attempts leaves only valid signatures | transaction.py:sign, transaction.py:verify, transaction.py:is_signed | invariant over the history (`Inv`: the object differs from the original in signatures only, the first p inputs were made by a step of some `sign` call, the others have no scriptSig), preserved by every call (`sign_cases`); signatures made by a step verify (C35's lemma) | proved |
| C123 | Deterministic signing does not depend on the history | transaction.py:sign | under the invariant of C122 each signed input is determined by the unsigned transaction and the key of its address | proved |
| C124 | Sign after changing an amount | transaction.py:sign, transaction_output.py:set_satoshi_amount | induction over the history with the invariant that the object is still a created transaction apart from signatures (`after_made`); counterexample for amounts that are refused but stored | partial |
| C125 | A refused request can be corrected and tried again | create_transaction.py:create_transaction, create_transaction.py:validate_design | the function as a state transformer on the argument object that keeps its changes when it raises (`CreateState`), proved to have the outcome of `createTransaction`; the changes before the end of validation are a chain of harmless ones (`Tidy`), which commute with corrections and do not change the outcome | partial |
| C126 | Texts about refused amounts are true | basic.py:validate_bitcoin_amount, basic.py:validate_positive_bitcoin_amount, basic.py:bitcoin_to_satoshi, basic.py:satoshi_to_bitcoin, basic.py:ensure_8_decimal_places, basic.py:pad_hex, basic.py:pad_hex_le | one evaluation lemma per fault of the specification `AmountFault`, and every text either has a fault or is an amount within the cap; the cap by `cap_exact` (the float comparison is exact) | partial |
| C127 | The limits decide, they do not shape | create_transaction.py:create_transaction | the preparation with other limits has the same plan except for the limits (`prepare_limits`); the result of the rest does not depend on them (`built_same`: both results are the result without limits) | partial |
| C128 | A fee as a number or as a rate | create_transaction.py:create_transaction | the same with the fee: the plan with a number instead of a rate (`prepare_fee`) | partial |
| C129 | A signature protects the whole payment | transaction.py:from_hex_signed, transaction.py:verify, transaction.py:to_hex_signable | the signed message is injective (C32); both verdicts are about the key and signature in the same scriptSig; equal messages give equal outpoints and outputs, different ones are the exception in the statement | proved |
| C130 | Only the meaning of the arguments counts | create_transaction.py:create_transaction | on positive requests `create_transaction` equals a function `core` of the coins, the payments and the values of the settings (`create_core`); equal values give equal results | proved |
| C131 | The order of the payments does not matter | create_transaction.py:create_transaction | the preparation for permuted payments succeeds with a permuted plan (`prepare_lists`), and so does the rest (`built_outs`) | proved |
| C132 | Asking for more never spends fewer coins | create_transaction.py:create_transaction | the selection is the shortest prefix that reaches the need (C44's lemma), monotone in the need (`chosen_mono`) | proved |
| C133 | After a success, asking for less succeeds too | create_transaction.py:create_transaction | the selection, the size and the fee are monotone (`built_less`), the spending limit is met because less is spent; counterexample with a payment to the change address | partial |
| C134 | Spare keys have no influence on signing | transaction.py:sign, cli.py:main | the table of keys gives the same key for each input (`keyFor_sub`), as no two keys have the same address; the loop only looks at those keys (`signRest_local`); for the program by cases over the tasks (`more_task`) | proved |
| C135 | A printed transaction is accepted by the ledger | cli.py:create_transaction, create_transaction.py:create_transaction, transaction.py | C74 (bytes of the printed transaction), read against a ledger of coins; the file determines the coins (`described_list`), the text the inputs and outputs (`prints_unique`) | proved |
| C136 | Any history of transactions is free of double spends | cli.py:create_transaction, create_transaction.py:create_transaction | induction over the history with an invariant (`Inv`): spent outputs never come back because every id on the ledger is old and each new id is new (`inv_step`) | proved |
| C137 | What was paid can be spent | transaction.py:txid, transaction_input.py:create, transaction_output.py:create | the forms of created outputs and inputs (`TxOut_create_ok`, `TxIn_create_of`) and of the id (C43) | proved |
| C138 | Everybody's coins after a payment | cli.py:create_transaction, cli.py:main (loading of private keys), create_transaction.py:create_transaction, transaction.py:sign | C74 with the owner of each key that signs (C38) against the ledger of C135; sums over the coins of one owner (`changeTo_askedFor`, `worth_made`) | proved |
| C139 | Who gives no key loses nothing | cli.py:create_transaction, cli.py:main (loading of private keys), transaction.py:sign | induction over the history, with the invariant of C136 for the ledger being a list of different outputs | proved |
| C140 | A request that can be met is met | /repo/cli.py: main, create_sign_and_verify_transaction_hex, /repo/create_transaction.py: create_transaction, /repo/transaction.py: Transaction.sign | a request in good order (OrderSpec: files, documented keys, valid keys) is loaded, is `WellFormed` in the sense of C73 and reaches the one-shot task; C73 decides creation, C81 signing (with only the given keys assumed able to sign), C59 the rest; refusals from C74 by contraposition and from the duplicate check; the equivalence follows when the fee is determined. Witness: the sample with the fee as a parameter succeeds iff fee <= 80000 | proved |
| C141 | No coin gets stuck | /repo/cli.py: main, create_sign_and_verify_transaction_hex, /repo/create_transaction.py: create_transaction, /repo/transaction.py: Transaction.sign, Transaction.to_hex_signed_form | C140 gives success; the payments and the fee are the total of the listed coins, all positive, so the coins spent are all of them and the surplus is 0; then the ledger after the transaction is computed | proved |
| C142 | The log cannot be forged | cli.py:main, module_logger.py:configure_module_logger, transaction.py:Transaction.from_hex_signed, create_transaction.py:validate_tx_design, create_transaction.py:create_transaction | every logged text is a composition of harmless pieces (a logic of printed texts, by structural lemmas over the whole report and all tasks), except two texts that are logged before they are checked; the text of the log is read back by comparing records from the left | partial |
| C143 | Text that is not what it should be is refused with a ValueError | transaction.py:Transaction.from_hex_signed, basic.py:bitcoin_to_satoshi, basic.py:base58check_to_hex, basic.py:script_sig_to_signature_hex_and_public_key_hex, basic.py:ensure_8_decimal_places, cli.py:verify_signed_transaction_hex, cli.py:decode_signed_transaction_hex | every step of the functions raises only ValueError (closure lemmas); for the decoder the place of the exception is computed exactly (`parseMany_err`, `CutOff`); truncation: an accepted beginning would decode to the same transaction (C36) | partial |
| C144 | More coins never hurt | create_transaction.py:create_transaction, basic.py:estimate_transaction_size, cli.py:main | success gives the inequalities (contrapositive of C140_refused), which are monotone in coins, payments, fee and cap; C140 gives the success of the other request; the violation is a pair of concrete requests for which C140 decides both outcomes | partial |
| C145 | A missing argument is named | cli.py:main, cli.py:get_python_version, misc.py:shell_tool_exists | the start of the program with the texts of its exceptions (`Start.run`), proved to agree with `cliRun` when the texts are forgotten; exact conditions for each text by cases | partial |
| C146 | A signature has no second form | cli.py:verify_data_signature, basic.py, bitcoin_toolset/submodules/ecdsa_python3 | for the key of a private key the ECDSA equation is s*k = z + r*d with the nonce point k*G (`valid_iff`); points of the curve with the same x are equal or opposite, so s is known up to sign, and only one of them is low | proved |
| C147 | One signature, one text | cli.py:verify_data_signature | the same equation for two digests; for the violation the nonce 1 and its opposite, and the key that makes both equations true (`make_two`) | partial |
| C148 | Random values do not give away the key | transaction.py:Transaction.sign, transaction.py:Transaction.create_signature_for_one_input | the first half is the x of the random value times G (`made_with`); opposite points have the same x; two equations for one nonce up to sign are solved for the key; the concrete transaction is evaluated by the kernel | partial |
| C149 | Nobody can change the id of a printed transaction | cli.py:create_sign_and_verify_transaction_hex, transaction.py:Transaction.sign, basic.py:signature_to_der | DER forms are unique (`shortest`), low s is unique (C146), the signed message does not depend on the scripts | proved |
| C150 | A signature names its signer | cli.py:verify_data_signature | the equation of C146 for two keys; the other key belongs to the opposite nonce | partial |
| C151 | A script of the wrong length is reported with its length | transaction_input.py:TransactionInput.from_dict | second model of from_dict with the text of its own exception; forgetting the text gives the first model (bind by bind); the text by following the binds of both models up to the check | partial |
| C152 | The reasons in error messages are true | validate.py:validate_hex_length, validate.py:validate_string_is_decimal, validate.py:validate_positive_integer, validate.py:validate_whole_number, validate.py:validate_string_is_date, validate.py:validate_item_in_list | case analysis of each validator of `Messages` down to the point where it raises; the reason as a condition of the specification (byte length, number of points, shape of a date) | partial |
| C153 | The report on a wrong checksum is true | basic.py:base58check_to_hex | the text computed for any base58 text of positive value (minimal bytes), compared with the report written down in the specification; the outcome of the decoder is computed in the same way | proved |

## Testing the theorems against wrong programs

`seeded/LOG.jsonl` lists edits of the model of the kind a realistic bug would make, each applied to a
scratch copy and rebuilt, with the theorems whose proofs failed.  Where a property still proved although its
English claim had become false, the theorem was tightened (last field of the line).
