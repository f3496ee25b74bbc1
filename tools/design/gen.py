import json
P={
"C01":"`Nat.digits` in base 16/256; list induction",
"C02":"digit lemmas; padding; exact success condition from `padHexLe`",
"C03":"induction on byte pairs","C04":"case split on the range check","C05":"value of a padded digit string",
"C06":"digits in base 58","C07":"base 58/256 digits plus leading-zero bookkeeping","C08":"decode determines the bytes, hence the text (uniqueness of digits)",
"C09":"independent relation `Denotes58` between text and bytes; uniqueness","C10":"C07 + explicit standard layout (`AddressOf`)","C11":"characterisation of `addressToHash`",
"C12":"C07 + explicit WIF layout","C13":"counterexample for every other network byte; partial: layout","C14":"slices of the 25-byte script","C15":"counterexample; partial: exact on P2PKH",
"C16":"slices, one-byte lengths","C17":"inversion of the decoder's checks","C18":"C19 + C20; counterexample at 0","C19":"digit string of n/10^8, float comparison exact below 2^53",
"C20":"decimal parsing lemmas","C21":"monotonicity of `rnd64`, exactness below 2^53","C22":"exact characterisation; counterexample with non-ASCII zero","C23":"split at the point",
"C24":"unfolding of the checks to an iff","C25":"invariant over a list of calls; counterexample on a failing call","C26":"unfolding of all cross-checks","C27":"unfolding of all cross-checks","C28":"counterexample family; partial",
"C29":"per-object round trips, induction on inputs/outputs","C30":"unfolding of `from_json` checks","C31":"serialisation depends on the unsigned part only","C32":"prefix-freeness of the byte layout","C33":"unfolding to bytes","C34":"unfolding to bytes; length by induction",
"C35":"parser inverts serialiser, induction on inputs and outputs","C36":"inversion of the parser; counterexample with trailing bytes","C37":"loop invariant of sign, verify_step per input, laws of ECDSA/DER","C38":"loop invariant; key map lookup","C39":"loop invariant including failing iterations","C40":"loop invariant; Nodup","C41":"induction on the verify loop",
"C42":"counterexample from JSON data; partial for hex-decoded and signed transactions","C43":"unfolding","C44":"lengths by induction","C45":"`create_ok`: exact description of a successful call; conservation by sums","C46":"`create_ok`","C47":"float lemmas (`rnd64` error bound, exactness, monotonicity)","C48":"counterexample; partial bound","C49":"insertion-sort and prefix-sum lemmas","C50":"exchange argument","C51":"case analysis on the change",
"C52":"exact error conditions","C53":"exact error conditions","C54":"float comparison lemmas","C55":"case analysis","C56":"the argument object after the call (mutation is modelled); second call fails","C57":"the program reads seven keys only","C58":"created objects satisfy the loader's cross-checks (C26, C27, C29)","C59":"composition of C35, C37, C58","C60":"composition","C61":"state machine, invariant over call sequences","C62":"direct","C63":"direct characterisation of each validator",
"C64":"unfolding of `to_dict`","C65":"sign_eq + determinism of the signer","C66":"decimal arithmetic with 28 digits: double rounding bound","C67":"regular expression as a predicate","C68":"exact characterisation","C69":"exact characterisation","C70":"the entry is never read","C71":"double rounding; counterexample","C72":"concrete run","C73":"`create_ok` and the error conditions combined","C74":"composition of creation, signing, serialisation; byte-level specification in EndSpec.lean; `C74_program` from exit status and files",
"C75":"composition of C29, C35, C37, C58, C59","C76":"composition with the library laws","C77":"C12 + C10","C78":"state machine","C79":"state machine, induction over loggers","C80":"case analysis of `main`","C81":"converse of the loop invariant","C82":"index error argument; partial by the C81 method",
"C83":"equality of the loaded arguments","C84":"key map depends on the set of keys; permutation lemmas","C85":"equality of the loaded arguments","C86":"inversion of a run with exit status 0; counterexample runs","C87":"dispatch table; counterexample runs","C88":"induction over inputs and outputs; json round trip","C89":"separator lemma, injectivity of decimal printing","C91":"C74 plus `Xreal_laws`; Jacobian arithmetic = Mathlib's group law; primality of p and n by Pocklington","C92":"order of G; base58 round trip","C93":"`ecVerify` = ECDSA equation","C94":"from C96: induction over the words","C95":"induction over the settings; abbreviations and names by evaluation over the finite table of options","C96":"induction over the words: every step of the parser consumes what it records","C97":"C95 composed with C91, C92; exit status by cases","C101":"induction over the grammar of JsonSpec (every text is read), with enough fuel","C102":"converse: induction over the scanner; both directions give an equivalence","C103":"structural induction over the value","C104":"the texts are modelled in Messages.lean; forgetting them gives Validate.lean; case analysis","C105":"repr is uniquely decodable (mutual induction over values)","C106":"induction over the string","C107":"the text contains repr of the key; base58 decoding of a WIF key","C108":"every character of repr is visible; counterexamples for every control character",
"C98":"C95 composed with C76; the parser on a word with a dash","C99":"sorted lists with the same multiset of amounts; `create_ok` for the permuted request","C100":"uniqueness of stable sorting, prefix lemma of the selection loop, monotone float limit; counterexample","C90":"equality of the two reports key by key; counterexample runs",
"C109":"`create_log`: the log of a successful call as a list of lines; filtering by label; exactness of money printing","C110":"the same; exact characterisation of the false lines; concrete runs","C111":"error bounds of `rnd64` and of fixed-point formatting","C112":"inversion of a failing run (`create_text`) against the inductive relation `Refusal`","C113":"ceiling argument for the percentage, C112, success of the other request by `create_ok`; family of counterexamples","C114":"`Ends`: the line is the last one written and no earlier step writes it; counterexample",
"C126":"one evaluation lemma per fault of the specification `AmountFault`, and every text either has a fault or is an amount within the cap; the cap by `cap_exact` (the float comparison is exact)","C115":"the functions with log are a writer monad; erasing the log commutes with `bind` (`o_bind`), function by function","C116":"`Runs`: the log of a run that ends normally as a relation, induction over the inputs; prefix version for runs that raise; counterexample","C117":"the same for signing; two runs with equal scriptSigs have equal logs because the DER form is determined by the scriptSig (`signature_der`); invariant over all events (`Only`) for runs that fail","C118":"`read_log`: parsing as a relation between text, transaction and log","C119":"C117_secret, C116_exact, C118_exact composed along the task; printed hex or JSON determines the signed transaction","C120":"invariant over all events of all tasks; C79_setup for the configured loggers","C121":"`complaint_bind`: the text of a run that fails; C37 and C35 for the tasks that sign","C122":"invariant over the history (`Inv`: the object differs from the original in signatures only, the first p inputs were made by a step of some `sign` call, the others have no scriptSig), preserved by every call (`sign_cases`); signatures made by a step verify (C35's lemma)","C123":"under the invariant of C122 each signed input is determined by the unsigned transaction and the key of its address","C130":"on positive requests `create_transaction` equals a function `core` of the coins, the payments and the values of the settings (`create_core`); equal values give equal results","C131":"the preparation for permuted payments succeeds with a permuted plan (`prepare_lists`), and so does the rest (`built_outs`)","C132":"the selection is the shortest prefix that reaches the need (C44's lemma), monotone in the need (`chosen_mono`)","C133":"the selection, the size and the fee are monotone (`built_less`), the spending limit is met because less is spent; counterexample with a payment to the change address","C134":"the table of keys gives the same key for each input (`keyFor_sub`), as no two keys have the same address; the loop only looks at those keys (`signRest_local`); for the program by cases over the tasks (`more_task`)","C135":"C74 (bytes of the printed transaction), read against a ledger of coins; the file determines the coins (`described_list`), the text the inputs and outputs (`prints_unique`)","C136":"induction over the history with an invariant (`Inv`): spent outputs never come back because every id on the ledger is old and each new id is new (`inv_step`)","C137":"the forms of created outputs and inputs (`TxOut_create_ok`, `TxIn_create_of`) and of the id (C43)","C138":"C74 with the owner of each key that signs (C38) against the ledger of C135; sums over the coins of one owner (`changeTo_askedFor`, `worth_made`)","C139":"induction over the history, with the invariant of C136 for the ledger being a list of different outputs","C140":"a request in good order (OrderSpec: files, documented keys, valid keys) is loaded, is `WellFormed` in the sense of C73 and reaches the one-shot task; C73 decides creation, C81 signing (with only the given keys assumed able to sign), C59 the rest; refusals from C74 by contraposition and from the duplicate check; the equivalence follows when the fee is determined. Witness: the sample with the fee as a parameter succeeds iff fee <= 80000",
"C141":"C140 gives success; the payments and the fee are the total of the listed coins, all positive, so the coins spent are all of them and the surplus is 0; then the ledger after the transaction is computed",
"C142":"every logged text is a composition of harmless pieces (a logic of printed texts, by structural lemmas over the whole report and all tasks), except two texts that are logged before they are checked; the text of the log is read back by comparing records from the left","C143":"every step of the functions raises only ValueError (closure lemmas); for the decoder the place of the exception is computed exactly (`parseMany_err`, `CutOff`); truncation: an accepted beginning would decode to the same transaction (C36)","C144":"success gives the inequalities (contrapositive of C140_refused), which are monotone in coins, payments, fee and cap; C140 gives the success of the other request; the violation is a pair of concrete requests for which C140 decides both outcomes","C145":"the start of the program with the texts of its exceptions (`Start.run`), proved to agree with `cliRun` when the texts are forgotten; exact conditions for each text by cases","C146":"for the key of a private key the ECDSA equation is s*k = z + r*d with the nonce point k*G (`valid_iff`); points of the curve with the same x are equal or opposite, so s is known up to sign, and only one of them is low","C147":"the same equation for two digests; for the violation the nonce 1 and its opposite, and the key that makes both equations true (`make_two`)","C148":"the first half is the x of the random value times G (`made_with`); opposite points have the same x; two equations for one nonce up to sign are solved for the key; the concrete transaction is evaluated by the kernel","C149":"DER forms are unique (`shortest`), low s is unique (C146), the signed message does not depend on the scripts","C150":"the equation of C146 for two keys; the other key belongs to the opposite nonce","C151":"second model of from_dict with the text of its own exception; forgetting the text gives the first model (bind by bind); the text by following the binds of both models up to the check","C152":"case analysis of each validator of `Messages` down to the point where it raises; the reason as a condition of the specification (byte length, number of points, shape of a date)","C153":"the text computed for any base58 text of positive value (minimal bytes), compared with the report written down in the specification; the outcome of the decoder is computed in the same way","C127":"the preparation with other limits has the same plan except for the limits (`prepare_limits`); the result of the rest does not depend on them (`built_same`: both results are the result without limits)","C128":"the same with the fee: the plan with a number instead of a rate (`prepare_fee`)","C129":"the signed message is injective (C32); both verdicts are about the key and signature in the same scriptSig; equal messages give equal outpoints and outputs, different ones are the exception in the statement","C125":"the function as a state transformer on the argument object that keeps its changes when it raises (`CreateState`), proved to have the outcome of `createTransaction`; the changes before the end of validation are a chain of harmless ones (`Tidy`), which commute with corrections and do not change the outcome","C124":"induction over the history with the invariant that the object is still a created transaction apart from signatures (`after_made`); counterexample for amounts that are refused but stored"
}
P.update(json.load(open('tools/design/extra.json')) if __import__('os').path.exists('tools/design/extra.json') else {})
m={c['property']:c for c in json.load(open('MANIFEST.json'))['claims']}
rows=[]
for l in open('properties.jsonl'):
    d=json.loads(l)
    an=", ".join(a.replace("bitcoin_toolset/code/","").replace("bitcoin_toolset/util/","") for a in d['anchors'])
    rows.append("| %s | %s | %s | %s | %s |"%(d['id'],d['title'],an,P.get(d['id'],''),m[d['id']]['status']))
t=open('tools/design/design.tmpl').read().replace("@@ROWS@@","\n".join(rows))
open('DESIGN.md','w').write(t)
