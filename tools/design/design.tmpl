# Formal model of sj-piano/bitcoin_toolset_python3 in Lean 4

## Approach

The Python package is modelled function by function as total, computable Lean functions; every
definition of the model cites the file and lines it models.

* Exceptions are values: a modelled function that can raise returns `Except Err α`, where `Err` is
  the enumeration of the Python exception classes that occur.  The texts of the exceptions of `validate.py`
  and of `create_transaction`, those about amounts, and everything the package logs, are modelled separately (`Messages`, `AmountMsg`, `Report`, `TxLog`, `StartMsg`, `DictMsg`) and proved to go with the same outcomes.
* Mutation is modelled by returning the new object *together with* the outcome, also when the
  outcome is an exception (`Tx.sign`, `TxOut.setSatoshi`, `createTransaction`, loggers).
* A Python `str` is a `List Char` (`Str`), an `int` an `Int`, `bytes` a `List UInt8`; dynamically
  typed data (parsed JSON, the `design` and `inputs` arguments) is `PVal`.
* A `float` is modelled exactly: `PyFloat` is nan, ±inf or a rational, and every operation is the
  exact rational operation followed by round-to-nearest-even to binary64 (`rnd64`).
  `decimal.Decimal` arithmetic with the default 28-digit context is modelled in `PyDecimal`.
* Sets and regular expressions are replaced by what they decide; loops are structural recursion.

### Files

| part | file | models |
|---|---|---|
| Python basics | `Py`, `PyFloat`, `PyDecimal`, `PVal` | str, int(), float(), Decimal, dynamic values |
| `json` of the standard library | `Json` | `dumps(_, indent=2)` and `loads`, as text |
| external components | `Ext` | ECDSA, SHA-256, RIPEMD-160, Unicode data base, `float.__repr__` |
| `util/validate.py` | `Validate`, `Messages` (the texts of the exceptions) | all validators used by the package |
| `code/basic.py` | `Basic`, `AmountMsg` (the texts about amounts) | hex, base58, keys, addresses, scripts, amounts |
| `code/transaction_input.py` | `TxIn`, `DictMsg` (text of an exception) | whole class |
| `code/transaction_output.py` | `TxOut` | whole class |
| `code/transaction.py` | `Tx`, `Forms` (JSON forms, `str`), `TxLog` (the log, also of `basic.py` and of the tasks) | whole class |
| `code/create_transaction.py` | `Create`, `CreateState` (the arguments after a call, also one that raised), `Report` (logged lines and texts of the exceptions) | whole file |
| `cli.py` | `Cli` (tasks), `CliRun` (loading files, checks, exit status), `Argparse` (the command line), `StartMsg` (the texts of the refusals at the start) | everything; `argparse` is modelled as far as this parser uses it (Python 3.11.10, compared with the real one on ~8000 random command lines, 250 of them in `Conformance/Args`) |
| `util/misc.py` | `CliRun` | `run_local_cmd`, `shell_tool_exists` |
| `util/module_logger.py`, `setup` functions | `Logger`, `LogText` (the text of the log) | configuration state machine, what is written |
| specifications | `Spec`, `TxSpec`, `CreateSpec`, `EndSpec`, `RealSpec`, `ArgSpec`, `JsonSpec`, `MsgSpec`, `AmountMsgSpec`, `ReportSpec`, `TxLogSpec`, `HistSpec`, `RetrySpec`, `SameSpec`, `LedgerSpec`, `OrderSpec`, `LogTextSpec`, `DecodeSpec` | vocabulary of the theorem statements: bytes, base58, amounts, serialisation, requests; nothing of the model's control flow |
| lemmas | `Lemmas/*` | |
| theorems | `Props/*` | named `Cnn_...`, with concrete cases that meet their hypotheses beside them |
| concrete environments | `Concrete/*` | `Xreal`: SHA-256, RIPEMD-160, secp256k1 ECDSA with RFC 6979, DER, proved to satisfy `Ext.Laws` (`Prime`: p and n are prime; `Curve`: the arithmetic is Mathlib's group law; `RealLaws`); `Xtoy`: a fast environment, also proved to satisfy them |
| conformance | `Conformance/*` | the repository's own tests and the log in the README, evaluated by the kernel on the model with `Xreal` |

## Trusted base

* Lean 4.33 kernel.  Every theorem depends on at most the axioms `propext`, `Classical.choice`,
  `Quot.sound`.  No axiom is added; `native_decide` and `bv_decide` are not used.  Concrete
  cases and counterexamples use `decide +kernel`, which is checked by the kernel.
* The reading of the Python code by the author of the model (the code was not run).  Evidence:
  the conformance tests.  `tools/vectors.py` extracts inputs and expected results from the
  test files of /repo; all address and WIF tests, all transaction tests (signing, hex, txid, dict
  form) and all create_transaction tests hold of the model on `Xreal`, except four tests that
  use the key `input_selection_approach`, which the code ignores (C57); they fail of the code too
  and are recorded as failing as written and passing with the key the code reads.
  (Several tests of /repo are stale in another way: they treat the result of `verify()`, the number of
  *invalid* signatures, as a truth value meaning "valid".)
* The statements of the theorems and the specification files.

### Assumptions about code that is not in /repo

The git submodules (ECDSA, SHA-256, RIPEMD-160) are not part of the source tree.  They, the
Unicode data base and `float.__repr__` are the fields of the structure `Ext`, and all theorems
are quantified over every `Ext`.  (The `json` module is modelled, and that it reads back what it
wrote is proved, `Ext.json_round`.)  Theorems that need correctness of these components have the
explicit hypothesis `Ext.Laws` (or only one of its clauses):
digest lengths (`sha_len`, `rip_len`); accepted private keys are 64 hex digits and
formatting such a key does nothing (`key_shape`, `format_id`); shapes of public keys and signatures
(`pub_shape`, `sig_shape`, `sig_shape_rand`, `data_shape`); a signature made with a key verifies
under its public key (`sign_verify`, `sign_verify_rand`, `data_verify`); valid keys have a public key
(`pub_ok`); splitting a signature (`split_ok`); DER round trip for 256-bit numbers (`der_round`).
C76 and C81 also use `Ext.SignTotal`: signing with a valid key does not fail (for ECDSA true but for
a nonce that gives r = 0 or s = 0).  `Xtoy_laws` and `Xtoy_signTotal` prove that the assumptions are
consistent, and `Xreal_laws` proves `Ext.Laws` for the real primitives, so C91-C93 (and every theorem with that
hypothesis, instantiated with `Xreal`) assume nothing about them except that the submodules compute
the published functions.
The structure `UniDB` (Unicode data) contains one assumption as a field: a decimal digit is not white
space.

### Not modelled

* Other versions of `argparse` than 3.11.10 (the README's 3.6 differs in `-d=`, unknown bundled letters and `--data=--`), the text
  of `--help` and of usage errors, terminal encoding, the text of exceptions raised outside `validate.py`, the functions on amounts, `create_transaction`, `TransactionInput.from_dict`, the start of the program and the checks of signatures in the tasks (except wrong checksums), a log file that cannot be opened later than set-up,
  the values of time stamps, line numbers and function names in the log (they are parameters of a record), its colours on the screen, `print` failing.
* Identity of objects: dicts shared between two arguments, or mutated by somebody else during a call.
* Python's limit on the number of digits in int/str conversion, memory and recursion limits.
* -0.0 is identified with 0.0; lone surrogates in strings.
* A command-line option is "not given" as an empty list where Python has `None` (both falsy).

## Properties violated by the code

A property that the code violates keeps its full statement in `properties.jsonl`.  It gets a
`_violation` theorem (negation or exact defective behaviour, usually for a whole family of inputs, and
a concrete case) and a `_partial` theorem for what does hold, and is "partial" in the manifest:
C13 (network byte of WIF), C15 (non-P2PKH scripts rendered as addresses), C18 (amount 0), C22 (non-ASCII zero),
C25 (object after a refused amount), C28 (script not tied to address in JSON), C36 (trailing bytes), C42 (key not tied to
script in verify), C48 (fee rate), C55 (fee 0), C56 (second call), C57 (documented key ignored), C60 (NameError), C61 (log directory),
C67, C68 (date and integer strings), C70 (version), C71 (double rounding), C72 (double spend), C78 (log level), C82 (random values),
C86, C87 (exit status), C90 (change after reloading), C98 (texts with a leading dash), C100 (unspent coins and the fee),
C104 (three error texts), C107 (keys in error texts), C108 (control characters in error texts), C110 (two lines of the report),
C113 (the advice of 101 percent), C114 (a setting that is logged), C116 (the summary of a check), C117 (the word non-deterministic), C124 (a refused amount that is stored),
C125 (the arguments after a refused request), C126 (some texts about amounts), C127 (percentages above 100), C128 (fee 0, as in C55), C133 (payments to the change address), C142 (log records in data and design files), C143 (IndexError for some transactions that are cut off), C144 (fee rates: the fee is estimated for all available coins), C145 (tasks that do not name a missing argument), C147 (one signature for two texts), C148 (opposite random values), C150 (one signature for two keys), C151 (a script without a text), C152 (decimals with the point at an end).

## Plan per property

| id | property | code modelled | proof | status |
|---|---|---|---|---|
@@ROWS@@

## Testing the theorems against wrong programs

`seeded/LOG.jsonl` lists edits of the model of the kind a realistic bug would make, each applied to a
scratch copy and rebuilt, with the theorems whose proofs failed.  Where a property still proved although its
English claim had become false, the theorem was tightened (last field of the line).
