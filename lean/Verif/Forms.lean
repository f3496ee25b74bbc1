import Verif.Tx

/-!
# The dict, JSON and `str()` forms of a transaction

`to_dict_signable_form`, `to_dict_signed_form`, the JSON texts made from them and the `__str__`
methods (transaction.py:180-189, 454-493, 536-573; transaction_input.py:86-95, 259-292;
transaction_output.py:66-72, 176-187).  `Tx.lean` models the hex forms on the bare values; here
the dicts are modelled with their keys.
-/

namespace BT

/-- `to_dict_signable_form` (transaction_input.py:259-268). -/
def TxIn.signableDict (i : TxIn) : PVal := .dict [
  (py"previous_output_hash", .str i.prevHash),
  (py"previous_output_index", .str i.prevIndex),
  (py"script_pub_key_length", .ofOptStr i.spkLen),
  (py"script_pub_key", .ofOptStr i.spk),
  (py"sequence", .str i.sequence)]

/-- `to_dict_signable_form_empty` (transaction_input.py:271-280). -/
def TxIn.signableDictEmpty (i : TxIn) : PVal := .dict [
  (py"previous_output_hash", .str i.prevHash),
  (py"previous_output_index", .str i.prevIndex),
  (py"script_pub_key_length", .str py"00"),
  (py"sequence", .str i.sequence)]

/-- `to_dict_signed_form` (transaction_input.py:283-292). -/
def TxIn.signedDict (i : TxIn) : PVal := .dict [
  (py"previous_output_hash", .str i.prevHash),
  (py"previous_output_index", .str i.prevIndex),
  (py"script_length", .ofOptStr i.scriptLen),
  (py"script_sig", .ofOptStr i.scriptSig),
  (py"sequence", .str i.sequence)]

/-- `to_dict_signable_form`, also `to_dict_signed_form` (transaction_output.py:176-187). -/
def TxOut.signableDict (o : TxOut) : PVal := .dict [
  (py"value", .str o.value),
  (py"script_length", .str o.scriptLen),
  (py"script_pub_key", .str o.spk)]

/-- The inputs of `to_dict_signable_form(input_index)` (transaction.py:477-482).  `input_index`
is any Python int: no input is in the non-empty form if it is negative or too large. -/
def signableInputDicts (idx : Int) : Nat → List TxIn → List PVal
  | _, [] => []
  | i, x :: xs =>
    (if (i : Int) = idx then x.signableDict else x.signableDictEmpty) :: signableInputDicts idx (i + 1) xs

/-- `to_dict_signable_form(input_index)` (transaction.py:475-493). -/
def Tx.signableDict (t : Tx) (idx : Int) : List (Str × PVal) := [
  (py"version", .str t.version),
  (py"input_count", .str t.inputCount),
  (py"inputs", .list (signableInputDicts idx 0 t.inputs)),
  (py"output_count", .str t.outputCount),
  (py"outputs", .list (t.outputs.map TxOut.signableDict)),
  (py"block_lock_time", .str t.lockTime),
  (py"hash_type_4_byte", .str t.hashType4)]

/-- `to_dict_signed_form` (transaction.py:559-573). -/
def Tx.signedDict (t : Tx) : List (Str × PVal) := [
  (py"version", .str t.version),
  (py"input_count", .str t.inputCount),
  (py"inputs", .list (t.inputs.map TxIn.signedDict)),
  (py"output_count", .str t.outputCount),
  (py"outputs", .list (t.outputs.map TxOut.signableDict)),
  (py"block_lock_time", .str t.lockTime)]

/-- `s += v` for a string `s`: TypeError unless `v` is a string. -/
def addStr : PVal → R Str
  | .str s => .ok s
  | _ => .error .typeError

/-- `for k2, v2 in x.items(): s += v2` (transaction.py:460-461, 542-543). -/
def addItems : List (Str × PVal) → R Str
  | [] => .ok []
  | (_, v) :: r => do
    let a ← addStr v
    let b ← addItems r
    pure (a ++ b)

/-- `for x in v: ...` (transaction.py:459, 541). -/
def addDicts : List PVal → R Str
  | [] => .ok []
  | x :: xs => do
    let d ← x.asDict
    let a ← addItems d
    let b ← addDicts xs
    pure (a ++ b)

/-- `for x in v` of a value that must be a list. -/
def addList : PVal → R Str
  | .list l => addDicts l
  | _ => .error .typeError

/-- The loop of `to_hex_signable_form` and `to_hex_signed_form` (transaction.py:456-465,
538-547). -/
def hexOfDict : List (Str × PVal) → R Str
  | [] => .ok []
  | (k, v) :: r => do
    let a ← if k ∈ [py"inputs", py"outputs"] then addList v else addStr v
    let b ← hexOfDict r
    pure (a ++ b)

/-- `to_json_signable_form` (transaction.py:469-472). -/
def Tx.toJsonSignable (X : Ext) (t : Tx) (idx : Int) : Str := X.jsonDumps (.dict (t.signableDict idx))

/-- `to_json_signed_form` (transaction.py:553-556). -/
def Tx.toJsonSigned (X : Ext) (t : Tx) : Str := X.jsonDumps (.dict t.signedDict)

/-- `'s' if n > 1 else ''` (transaction.py:184-185). -/
def plural (n : Nat) : Str := if n > 1 then py"s" else []

/-- `' (unsigned)' if not self.signed else ' (signed)'` (transaction.py:186,
transaction_input.py:92). -/
def signedWord (b : Bool) : Str := if b then py" (signed)" else py" (unsigned)"

/-- `Transaction.__str__` (transaction.py:180-189). -/
def Tx.str (t : Tx) : Str :=
  py"Transaction" ++ signedWord t.signed ++ py": " ++ pyStr t.inputs.length ++ py" input" ++
  plural t.inputs.length ++ py", " ++ pyStr t.outputs.length ++ py" output" ++ plural t.outputs.length

/-- `'{}'.format(x)` for an int or None. -/
def fmtOptInt : Option Int → Str
  | none => py"None"
  | some n => pyStr n

/-- `TransactionInput.__str__` (transaction_input.py:86-95).  An instance that no constructor has
filled in (no txid: TypeError) does not exist in the model. -/
def TxIn.str (i : TxIn) : Str :=
  py"TransactionInput" ++ signedWord i.signed ++ py": address=" ++ i.address ++ py", txid=" ++
  (i.txid.take 4 ++ py"..." ++ lastK 4 i.txid) ++ py", index=" ++ pyStr i.prevIndexInt ++
  py", satoshi_amount=" ++ fmtOptInt i.satoshi

/-- `TransactionOutput.__str__` (transaction_output.py:66-72). -/
def TxOut.str (o : TxOut) : Str :=
  py"TransactionOutput: address=" ++ o.address ++ py", satoshi_amount=" ++ pyStr o.satoshi

end BT
