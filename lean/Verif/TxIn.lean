import Verif.Basic

/-!
# `bitcoin_toolset/code/transaction_input.py`
-/

namespace BT

/-- The attributes of a `TransactionInput` (transaction_input.py:60-83).  Every constructor
sets the outpoint, address and txid, so these are not optional here.  A `bool` given for
`previous_output_index_int` in JSON data is stored as the equal `int` (simplification). -/
structure TxIn where
  prevHash : Str
  prevIndex : Str
  prevIndexInt : Int
  sequence : Str := py"ffffffff"
  publicKey : Option Str := none
  spkLen : Option Str := none
  spkLenInt : PVal := .none
  spk : Option Str := none
  scriptLen : Option Str := none
  scriptLenInt : PVal := .none
  scriptSig : Option Str := none
  address : Str
  txid : Str
  satoshi : Option Int := none
  bitcoin : Option Str := none

/-- `TransactionInput.create` (transaction_input.py:103-129). -/
def TxIn.create (X : Ext) (address txid : Str) (indexInt satoshi : Int) : R TxIn := do
  vBitcoinAddress X address
  vHexLength txid 32
  let prevHash ← reverseHexOrder txid
  let prevIndex ← intToHexLe indexInt
  let prevIndex ← padHexLe prevIndex 4
  let (spk, spkLen) ← addressToScriptPubKey X address
  let spkLenInt ← varIntToInt X.uni spkLen
  let bitcoin ← satoshiToBitcoin X.uni satoshi
  pure { prevHash := prevHash, prevIndex := prevIndex, prevIndexInt := indexInt,
         spkLen := some spkLen, spk := some spk, spkLenInt := .int spkLenInt,
         address := address, txid := txid, satoshi := some satoshi, bitcoin := some bitcoin }

/-- `TransactionInput.create_from_signed_tx_data` (transaction_input.py:132-163). -/
def TxIn.createFromSigned (X : Ext) (publicKey prevHash prevIndex scriptLen scriptSig : Str) :
    R TxIn := do
  vHexLength publicKey 64
  vHexLength prevHash 32
  vHexLength prevIndex 4
  vHex scriptLen
  vHex scriptSig
  let scriptLenInt ← varIntToInt X.uni scriptLen
  let (spk, spkLen) ← publicKeyToScriptPubKey X publicKey
  let spkLenInt ← varIntToInt X.uni spkLen
  let address ← scriptPubKeyToAddress X spk
  let prevIndexInt ← hexLeToInt X.uni prevIndex
  let txid ← reverseHexOrder prevHash
  pure { prevHash := prevHash, prevIndex := prevIndex, prevIndexInt := prevIndexInt,
         publicKey := some publicKey, spkLen := some spkLen, spkLenInt := .int spkLenInt,
         spk := some spk, scriptLen := some scriptLen, scriptLenInt := .int scriptLenInt,
         scriptSig := some scriptSig, address := address, txid := txid }

/-- The `signed` property (transaction_input.py:166-169). -/
def TxIn.signed (i : TxIn) : Bool := i.scriptLen.isSome && i.scriptSig.isSome

/-- `to_dict` (transaction_input.py:172-191). -/
def TxIn.toDict (i : TxIn) : PVal := .dict [
  (py"previous_output_hash", .str i.prevHash),
  (py"previous_output_index", .str i.prevIndex),
  (py"previous_output_index_int", .int i.prevIndexInt),
  (py"script_length", .ofOptStr i.scriptLen),
  (py"script_length_int", i.scriptLenInt),
  (py"script_sig", .ofOptStr i.scriptSig),
  (py"sequence", .str i.sequence),
  (py"public_key_hex", .ofOptStr i.publicKey),
  (py"script_pub_key_length", .ofOptStr i.spkLen),
  (py"script_pub_key_length_int", i.spkLenInt),
  (py"script_pub_key", .ofOptStr i.spk),
  (py"address", .str i.address),
  (py"txid", .str i.txid),
  (py"satoshi_amount", .ofOptInt i.satoshi),
  (py"bitcoin_amount", .ofOptStr i.bitcoin)]

/-- The expected keys of `from_dict` (transaction_input.py:197-202). -/
def TxIn.expectedKeys : List Str := [
  py"previous_output_hash", py"previous_output_index", py"previous_output_index_int",
  py"script_length", py"script_length_int", py"script_sig", py"sequence",
  py"public_key_hex", py"script_pub_key_length", py"script_pub_key_length_int",
  py"script_pub_key", py"address", py"txid", py"satoshi_amount", py"bitcoin_amount"]

/-- `None` or a validated string: the pattern `if d[k] is not None: validate ...`
(transaction_input.py:213-233) applied to a value that passed validation. -/
def optStrR : PVal → R (Option Str)
  | .none => .ok none
  | .str s => .ok (some s)
  | _ => .error .typeError

/-- The check of a length field against its `_int` copy, skipped when the field is `None`
(transaction_input.py:213-216, 228-230). -/
def checkLenField (u : UniDB) (lenP lenIntP : PVal) : R Unit :=
  if lenP.isNone then .ok ()
  else do
    let sl ← vHexP lenP
    let n ← varIntToInt u sl
    assertR (lenIntP.eqInt n)

/-- The check of a script against its length field, skipped when the script is `None`
(transaction_input.py:217-222 with ValueError, 231-233 with an assertion). -/
def checkScriptField (u : UniDB) (lenP scriptP : PVal) (e : Err) : R Unit :=
  if scriptP.isNone then .ok ()
  else do
    let ss ← vHexP scriptP
    let n ← varIntToIntP u lenP
    let n2 ← hexLen ss
    check (n == (n2 : Int)) e

/-- The check of `public_key_hex`, skipped when it is `None` (transaction_input.py:225-226). -/
def checkKeyField (pkP : PVal) : R Unit :=
  if pkP.isNone then .ok ()
  else do
    let _ ← vHexLengthP pkP 64
    pure ()

/-- `from_dict` (transaction_input.py:195-256).  `public_key_hex` is validated but not
stored, exactly as in the code. -/
def TxIn.fromDict (X : Ext) (x : PVal) : R TxIn := do
  let d ← x.asDict
  vListContains (dictKeys d) TxIn.expectedKeys
  let prevHash ← vHexLengthP (← dictGet d py"previous_output_hash") 32
  let prevIndexD ← vHexP (← dictGet d py"previous_output_index")
  let prevIndexInt ← vInteger (← dictGet d py"previous_output_index_int")
  let prevIndex ← intToHexLe prevIndexInt
  let prevIndex ← padHexLe prevIndex 4
  assertR (prevIndex == prevIndexD)
  let scriptLenP ← dictGet d py"script_length"
  let scriptLenInt ← dictGet d py"script_length_int"
  checkLenField X.uni scriptLenP scriptLenInt
  let scriptSigP ← dictGet d py"script_sig"
  checkScriptField X.uni scriptLenP scriptSigP .valueError
  let seqP ← dictGet d py"sequence"
  assertR (seqP.eqStr py"ffffffff")
  let pkP ← dictGet d py"public_key_hex"
  checkKeyField pkP
  let spkLenP ← dictGet d py"script_pub_key_length"
  let spkLenInt ← dictGet d py"script_pub_key_length_int"
  checkLenField X.uni spkLenP spkLenInt
  let spkP ← dictGet d py"script_pub_key"
  checkScriptField X.uni spkLenP spkP .assertionError
  let address ← vBitcoinAddressP X (← dictGet d py"address")
  let txid ← vString (← dictGet d py"txid")
  let h ← reverseHexOrder txid
  assertR (h == prevHash)
  let satP ← dictGet d py"satoshi_amount"
  let sat ← vInteger satP
  let btcD ← vPositiveBitcoinAmountP X.uni (← dictGet d py"bitcoin_amount")
  let btc ← satoshiToBitcoinP X.uni satP
  assertR (btc == btcD)
  let scriptLen ← optStrR scriptLenP
  let scriptSig ← optStrR scriptSigP
  let spkLen ← optStrR spkLenP
  let spk ← optStrR spkP
  pure { prevHash := prevHash, prevIndex := prevIndexD, prevIndexInt := prevIndexInt,
         scriptLen := scriptLen, scriptLenInt := scriptLenInt, scriptSig := scriptSig,
         spkLen := spkLen, spkLenInt := spkLenInt, spk := spk,
         address := address, txid := txid, satoshi := some sat, bitcoin := some btcD }

/-- The values of `to_dict_signable_form` in order (transaction_input.py:259-268). -/
def TxIn.signableForm (i : TxIn) : List (Option Str) :=
  [some i.prevHash, some i.prevIndex, i.spkLen, i.spk, some i.sequence]

/-- The values of `to_dict_signable_form_empty` in order (transaction_input.py:271-280). -/
def TxIn.signableFormEmpty (i : TxIn) : List (Option Str) :=
  [some i.prevHash, some i.prevIndex, some py"00", some i.sequence]

/-- The values of `to_dict_signed_form` in order (transaction_input.py:283-292). -/
def TxIn.signedForm (i : TxIn) : List (Option Str) :=
  [some i.prevHash, some i.prevIndex, i.scriptLen, i.scriptSig, some i.sequence]

end BT
