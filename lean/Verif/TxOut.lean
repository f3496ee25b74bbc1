import Verif.Basic

/-!
# `bitcoin_toolset/code/transaction_output.py`
-/

namespace BT

/-- The attributes of a `TransactionOutput` (transaction_output.py:54-63); all constructors
set all of them. -/
structure TxOut where
  value : Str
  scriptLen : Str
  scriptLenInt : Int
  spk : Str
  address : Str
  bitcoin : Str
  satoshi : Int
  deriving DecidableEq

/-- `TransactionOutput.create` (transaction_output.py:75-92). -/
def TxOut.create (X : Ext) (address : Str) (satoshi : Int) : R TxOut := do
  let value ← intToHexLe satoshi
  let value ← padHexLe value 8
  let (spk, scriptLen) ← addressToScriptPubKey X address
  let scriptLenInt ← varIntToInt X.uni scriptLen
  let bitcoin ← satoshiToBitcoin X.uni satoshi
  pure { value := value, spk := spk, scriptLen := scriptLen, scriptLenInt := scriptLenInt,
         address := address, bitcoin := bitcoin, satoshi := satoshi }

/-- `create_from_signed_tx_data` (transaction_output.py:95-112). -/
def TxOut.createFromSigned (X : Ext) (value scriptLen spk : Str) : R TxOut := do
  let scriptLenInt ← varIntToInt X.uni scriptLen
  let address ← scriptPubKeyToAddress X spk
  let satoshi ← hexLeToInt X.uni value
  let bitcoin ← satoshiToBitcoin X.uni satoshi
  pure { value := value, spk := spk, scriptLen := scriptLen, scriptLenInt := scriptLenInt,
         address := address, satoshi := satoshi, bitcoin := bitcoin }

/-- `to_dict` (transaction_output.py:115-126). -/
def TxOut.toDict (o : TxOut) : PVal := .dict [
  (py"value", .str o.value),
  (py"script_length", .str o.scriptLen),
  (py"script_length_int", .int o.scriptLenInt),
  (py"script_pub_key", .str o.spk),
  (py"address", .str o.address),
  (py"bitcoin_amount", .str o.bitcoin),
  (py"satoshi_amount", .int o.satoshi)]

/-- The expected keys of `from_dict` (transaction_output.py:131-135). -/
def TxOut.expectedKeys : List Str := [
  py"value", py"script_length", py"script_length_int", py"script_pub_key",
  py"address", py"satoshi_amount", py"bitcoin_amount"]

/-- `from_dict` (transaction_output.py:129-164).  A `bool` `script_length_int` is stored as
the equal `int`. -/
def TxOut.fromDict (X : Ext) (x : PVal) : R TxOut := do
  let d ← x.asDict
  vListContains (dictKeys d) TxOut.expectedKeys
  let valueD ← vHexP (← dictGet d py"value")
  let scriptLenD ← vHexP (← dictGet d py"script_length")
  let scriptLenInt ← vInteger (← dictGet d py"script_length_int")
  let spkD ← vHexP (← dictGet d py"script_pub_key")
  let address ← vBitcoinAddressP X (← dictGet d py"address")
  let btcD ← vPositiveBitcoinAmountP X.uni (← dictGet d py"bitcoin_amount")
  let n ← varIntToInt X.uni scriptLenD
  assertR (scriptLenInt == n)
  let satP ← dictGet d py"satoshi_amount"
  let btc ← satoshiToBitcoinP X.uni satP
  assertR (btc == btcD)
  let sat ← vInteger satP
  let value ← intToHexLe sat
  let value ← padHexLe value 8
  assertR (value == valueD)
  let h ← addressToHash X address
  let (spk, scriptLen) ← hashToScriptPubKey h
  assertR (spk == spkD)
  assertR (scriptLen == scriptLenD)
  pure { value := valueD, spk := spkD, scriptLen := scriptLenD, scriptLenInt := scriptLenInt,
         address := address, bitcoin := btcD, satoshi := sat }

/-- `set_satoshi_amount` (transaction_output.py:167-173).  The state is returned also when
the call raises: `value` and `satoshi_amount` are assigned before `satoshi_to_bitcoin`. -/
def TxOut.setSatoshi (u : UniDB) (o : TxOut) (n : Int) : TxOut × R Unit :=
  match (do let m ← vPositiveInteger (.int n)
            let value ← intToHexLe m
            padHexLe value 8 : R Str) with
  | .error e => (o, .error e)
  | .ok value =>
    let o := { o with value := value }
    let o := { o with satoshi := n }
    match satoshiToBitcoin u n with
    | .error e => (o, .error e)
    | .ok b => ({ o with bitcoin := b }, .ok ())

/-- The values of `to_dict_signable_form` in order (transaction_output.py:176-183). -/
def TxOut.signableForm (o : TxOut) : List (Option Str) := [some o.value, some o.scriptLen, some o.spk]

/-- The values of `to_dict_signed_form` in order (transaction_output.py:186-187). -/
def TxOut.signedForm (o : TxOut) : List (Option Str) := o.signableForm

end BT
