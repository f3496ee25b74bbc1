import Verif.Create

/-!
# `cli.py`: the task functions

A task is modelled as a function to (lines printed, outcome).  `CliArgs` holds the result of
argument parsing (`Argparse.lean`) and of reading files (`CliRun.lean`).  What the tasks log is
modelled in `TxLog.lean`.
-/

namespace BT

/-- The attributes of the parsed arguments used by the tasks (cli.py:183-252). -/
structure CliArgs where
  task : Str
  data : Option Str := none
  privateKeysHex : List Str := []
  privateKeyWif : Option Str := none
  publicKeyHex : Option Str := none
  signatureHex : Option Str := none
  /-- parsed content of `--input-file`, if given -/
  inputs : Option PVal := none
  /-- parsed content of `--design-file`, if given -/
  design : Option PVal := none

/-- Standard output (one entry per `print`) and outcome of a task. -/
abbrev CliOut := List Str × R Unit

/-- `f(x); print(...)`: nothing is printed when the computation raises. -/
def printR (r : R Str) : CliOut :=
  match r with
  | .ok s => ([s], .ok ())
  | .error e => ([], .error e)

/-- Continue after a computation, passing an exception on; `out` was printed before. -/
def bindOut {α : Type} (r : R α) (k : α → CliOut) : CliOut :=
  match r with
  | .ok a => k a
  | .error e => ([], .error e)

/-- `print(s)` followed by the rest of the task. -/
def printThen (s : Str) (k : CliOut) : CliOut := (s :: k.1, k.2)

/-- A required string argument; `None` ends in a TypeError in every modelled use. -/
def needStr (o : Option Str) : R Str :=
  match o with
  | some s => .ok s
  | none => .error .typeError

/-- `a.data.strip()`: AttributeError on `None`. -/
def dataStripped (X : Ext) (a : CliArgs) : R Str :=
  match a.data with
  | some s => .ok (pyStrip' X.uni.space s)
  | none => .error .attributeError

/-- `hexlify(data_ascii.encode()).decode('ascii')` for printable ASCII (cli.py:367,382). -/
def asciiHex (s : Str) : Str := bytesHex (s.map fun c => UInt8.ofNat c.toNat)

/-- `get_private_key_wif` (cli.py:336-338). -/
def cliGetWif (X : Ext) (key : Str) : CliOut := printR (privateKeyToWif X key)

/-- `private_key_wif_to_hex` (cli.py:343-345). -/
def cliWifToHex (X : Ext) (a : CliArgs) : CliOut :=
  bindOut (needStr a.privateKeyWif) fun w => printR (wifToPrivateKey X w)

/-- `get_public_key` (cli.py:350-352). -/
def cliGetPublicKey (X : Ext) (key : Str) : CliOut := printR (privateKeyToPublicKey X key)

/-- `get_address` (cli.py:357-359). -/
def cliGetAddress (X : Ext) (key : Str) : CliOut := printR (privateKeyToAddress X key)

/-- `sign_data` (cli.py:364-374): the signature is printed before it is checked. -/
def cliSignData (X : Ext) (key : Str) (a : CliArgs) : CliOut :=
  bindOut (needStr a.data) fun d =>
  bindOut (vPrintableAscii d) fun _ =>
  bindOut (X.signData key (asciiHex d)) fun sig =>
  printThen sig <|
  bindOut (privateKeyToPublicKey X key) fun pk =>
  bindOut (verifySignature X pk (asciiHex d) sig) fun ok =>
  if !ok then ([], .error .valueError) else ([], .ok ())

/-- `verify_data_signature` (cli.py:379-387). -/
def cliVerifyData (X : Ext) (a : CliArgs) : CliOut :=
  bindOut (needStr a.data) fun d =>
  bindOut (vPrintableAscii d) fun _ =>
  bindOut (needStr a.publicKeyHex) fun pk =>
  bindOut (vHexLength pk 64) fun _ =>
  bindOut (needStr a.signatureHex) fun sig =>
  bindOut (verifySignature X pk (asciiHex d) sig) fun ok =>
  if ok then ([py"Valid signature."], .ok ()) else ([py"Invalid signature!"], .ok ())

/-- The argument object handed to `create_transaction` by the CLI: the parser defines neither
`allow_duplicate_output_address` nor `change_output_index` (cli.py:80-172). -/
def cliTxArgs (a : CliArgs) : Args :=
  { inputs := some (a.inputs.getD .none), design := some (a.design.getD .none) }

/-- `create_unsigned_transaction_json` (cli.py:392-397). -/
def cliCreateUnsigned (X : Ext) (a : CliArgs) : CliOut :=
  bindOut (createTransaction X (cliTxArgs a)) fun r =>
  bindOut (r.1.toJson X) fun js =>
  printThen js <|
  bindOut (Tx.fromJson X js) fun _ => ([], .ok ())

/-- `validate_unsigned_transaction_json` (cli.py:402-405). -/
def cliValidateUnsigned (X : Ext) (a : CliArgs) : CliOut :=
  bindOut (needStr a.data) fun js =>
  bindOut (Tx.fromJson X js) fun _ => ([py"Unsigned transaction data validated."], .ok ())

/-- `create_signed_transaction_json` (cli.py:410-423): printed before it is verified. -/
def cliSignJson (X : Ext) (a : CliArgs) : CliOut :=
  bindOut (needStr a.data) fun js =>
  bindOut (Tx.fromJson X js) fun t =>
  let (ts, res) := t.sign X a.privateKeysHex none
  bindOut res fun _ =>
  bindOut (ts.toJson X) fun out =>
  printThen out <|
  bindOut (ts.verify X) fun bad =>
  if bad ≠ 0 then ([], .error .valueError) else ([], .ok ())

/-- `verify_signed_transaction_json` (cli.py:428-439). -/
def cliVerifyJson (X : Ext) (a : CliArgs) : CliOut :=
  bindOut (needStr a.data) fun js =>
  bindOut (Tx.fromJson X js) fun t =>
  bindOut (t.verify X) fun bad =>
  let plural : Str := if t.inputs.length > 1 then py"s" else []
  if bad = 0 then ([py"Valid signature" ++ plural ++ py"."], .ok ())
  else ([py"Invalid signature" ++ plural ++ py"!."], .ok ())

/-- `create_signed_transaction_hex` (cli.py:444-453): the result of `verify` is stored in
`valid_signatures`, the test reads the undefined name `invalid_signatures`. -/
def cliSignedHex (X : Ext) (a : CliArgs) : CliOut :=
  bindOut (needStr a.data) fun js =>
  bindOut (Tx.fromJson X js) fun t =>
  bindOut (t.verify X) fun _validSignatures =>
  bindOut t.toHexSigned fun h =>
  printThen h ([], .error .nameError)

/-- `decode_signed_transaction_hex` (cli.py:458-467). -/
def cliDecodeHex (X : Ext) (a : CliArgs) : CliOut :=
  bindOut (dataStripped X a) fun h =>
  bindOut (Tx.fromHexSigned X h) fun t =>
  bindOut (t.verify X) fun bad =>
  bindOut (t.toJson X) fun js =>
  printThen js (if bad ≠ 0 then ([], .error .valueError) else ([], .ok ()))

/-- `verify_signed_transaction_hex` (cli.py:472-482). -/
def cliVerifyHex (X : Ext) (a : CliArgs) : CliOut :=
  bindOut (dataStripped X a) fun h =>
  bindOut (Tx.fromHexSigned X h) fun t =>
  bindOut (t.verify X) fun bad =>
  let plural : Str := if t.inputs.length > 1 then py"s" else []
  if bad ≠ 0 then ([], .error .valueError)
  else ([py"Valid signature" ++ plural ++ py"."], .ok ())

/-- `create_sign_and_verify_transaction_hex` (cli.py:487-516). -/
def cliOneShot (X : Ext) (a : CliArgs) : CliOut :=
  bindOut (createTransaction X (cliTxArgs a)) fun r =>
  let t := r.1
  bindOut (t.toJson X) fun js =>
  bindOut (Tx.fromJson X js) fun _ =>
  let (ts, res) := t.sign X a.privateKeysHex none
  bindOut res fun _ =>
  bindOut (ts.verify X) fun bad =>
  if bad ≠ 0 then ([], .error .valueError) else
  bindOut ts.toHexSigned fun h =>
  bindOut (hexLen h) fun _ =>
  bindOut (Tx.fromHexSigned X h) fun t2 =>
  bindOut (t2.verify X) fun bad2 =>
  if bad2 ≠ 0 then ([], .error .valueError) else
  ([h], .ok ())

/-- Tasks that need exactly one private key (cli.py:207-215). -/
def tasksSingleKey : List Str :=
  [py"get_private_key_wif", py"get_public_key", py"get_address", py"sign_data"]

/-- Tasks that require `--data` (cli.py:217-226). -/
def tasksRequireData : List Str := [py"sign_data", py"validate_unsigned_transaction_json"]

/-- Tasks that require both files (cli.py:228-252). -/
def tasksRequireFiles : List Str :=
  [py"create_unsigned_transaction_json", py"create_sign_and_verify_transaction_hex",
   py"create_transaction"]

/-- The list of task names (cli.py:266-283). -/
def cliTasks : List Str := [
  py"hello", py"hello2", py"get_python_version", py"get_private_key_wif",
  py"private_key_wif_to_hex", py"get_public_key", py"get_address", py"sign_data",
  py"verify_data_signature", py"create_unsigned_transaction_json",
  py"validate_unsigned_transaction_json", py"create_signed_transaction_json",
  py"verify_signed_transaction_json", py"create_signed_transaction_hex",
  py"verify_signed_transaction_hex", py"decode_signed_transaction_hex",
  py"create_sign_and_verify_transaction_hex", py"create_transaction"]

/-- `str(l)` for a list of strings without quotes or backslashes (cli.py:286). -/
def listRepr (l : List Str) : Str :=
  py"[" ++ List.intercalate py", " (l.map fun s => py"'" ++ s ++ py"'") ++ py"]"

/-- The message for an unknown task (cli.py:284-286). -/
def unknownTask (task : Str) : Str :=
  py"Unrecognised task: " ++ task ++ '\n' :: py"Task list: " ++ listRepr cliTasks

/-- Dispatch (cli.py:284-293).  For an unknown task the message is printed and `stop` exits
normally (`sys.exit()`, cli.py:527-531).  `get_python_version` is in `CliRun.lean`. -/
def cliDispatch (X : Ext) (a : CliArgs) : CliOut :=
  let key := a.privateKeysHex.headD []
  if a.task = py"hello" ∨ a.task = py"hello2" then ([py"hello world"], .ok ())
  else if a.task = py"get_private_key_wif" then cliGetWif X key
  else if a.task = py"private_key_wif_to_hex" then cliWifToHex X a
  else if a.task = py"get_public_key" then cliGetPublicKey X key
  else if a.task = py"get_address" then cliGetAddress X key
  else if a.task = py"sign_data" then cliSignData X key a
  else if a.task = py"verify_data_signature" then cliVerifyData X a
  else if a.task = py"create_unsigned_transaction_json" then cliCreateUnsigned X a
  else if a.task = py"validate_unsigned_transaction_json" then cliValidateUnsigned X a
  else if a.task = py"create_signed_transaction_json" then cliSignJson X a
  else if a.task = py"verify_signed_transaction_json" then cliVerifyJson X a
  else if a.task = py"create_signed_transaction_hex" then cliSignedHex X a
  else if a.task = py"verify_signed_transaction_hex" then cliVerifyHex X a
  else if a.task = py"decode_signed_transaction_hex" then cliDecodeHex X a
  else if a.task = py"create_sign_and_verify_transaction_hex" then cliOneShot X a
  else if a.task = py"create_transaction" then cliOneShot X a
  else ([unknownTask a.task], .ok ())

/-- `main` after argument parsing (cli.py:207-293). -/
def cliMain (X : Ext) (a : CliArgs) : CliOut :=
  bindOut (if a.task ∈ tasksSingleKey then assertR (a.privateKeysHex.length == 1) else .ok ()) fun _ =>
  bindOut (if a.task ∈ tasksRequireData then
      (match a.data with
       | some (_ :: _) => .ok ()
       | _ => .error .valueError)
    else .ok ()) fun _ =>
  bindOut (if a.task ∈ tasksRequireFiles then
      check (a.inputs.isSome && a.design.isSome) .valueError
    else .ok ()) fun _ =>
  cliDispatch X a

end BT
