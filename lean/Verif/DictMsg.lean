import Verif.StartMsg
import Verif.TxIn

/-!
# The text of the exception of `TransactionInput.from_dict`

`TxIn.lean` models which dicts are refused; here is the only text that `transaction_input.py` itself gives to an exception.  The text of an exception that comes from elsewhere
(a validator, an `assert`) is `none`.  `C151_agrees` proves that the two models agree.
-/

namespace BT.DictMsg
open Start (T other)

/-- transaction_input.py:221-222 -/
def lengthText (n : Int) (n2 : Nat) : Str :=
  py"Script length value (" ++ pyStr n ++ py") != calculated hex byte length of script_sig value (" ++ pyStr n2 ++ py")."

/-- The check of the script against its length (transaction_input.py:217-223). -/
def checkSig (u : UniDB) (lenP scriptP : PVal) : T Unit :=
  if scriptP.isNone then .ok ()
  else do
    let ss ← other (vHexP scriptP)
    let n ← other (varIntToIntP u lenP)
    let n2 ← other (hexLen ss)
    if n == (n2 : Int) then .ok () else .error (.valueError, some (lengthText n n2))

/-- `from_dict` (transaction_input.py:195-256), as `TxIn.fromDict`. -/
def fromDict (X : Ext) (x : PVal) : T TxIn := do
  let d ← other x.asDict
  other (vListContains (dictKeys d) TxIn.expectedKeys)
  let prevHash ← other (do vHexLengthP (← dictGet d py"previous_output_hash") 32)
  let prevIndexD ← other (do vHexP (← dictGet d py"previous_output_index"))
  let prevIndexInt ← other (do vInteger (← dictGet d py"previous_output_index_int"))
  let prevIndex ← other (intToHexLe prevIndexInt)
  let prevIndex ← other (padHexLe prevIndex 4)
  other (assertR (prevIndex == prevIndexD))
  let scriptLenP ← other (dictGet d py"script_length")
  let scriptLenInt ← other (dictGet d py"script_length_int")
  other (checkLenField X.uni scriptLenP scriptLenInt)
  let scriptSigP ← other (dictGet d py"script_sig")
  checkSig X.uni scriptLenP scriptSigP
  let seqP ← other (dictGet d py"sequence")
  other (assertR (seqP.eqStr py"ffffffff"))
  let pkP ← other (dictGet d py"public_key_hex")
  other (checkKeyField pkP)
  let spkLenP ← other (dictGet d py"script_pub_key_length")
  let spkLenInt ← other (dictGet d py"script_pub_key_length_int")
  other (checkLenField X.uni spkLenP spkLenInt)
  let spkP ← other (dictGet d py"script_pub_key")
  other (checkScriptField X.uni spkLenP spkP .assertionError)
  let address ← other (do vBitcoinAddressP X (← dictGet d py"address"))
  let txid ← other (do vString (← dictGet d py"txid"))
  let h ← other (reverseHexOrder txid)
  other (assertR (h == prevHash))
  let satP ← other (dictGet d py"satoshi_amount")
  let sat ← other (vInteger satP)
  let btcD ← other (do vPositiveBitcoinAmountP X.uni (← dictGet d py"bitcoin_amount"))
  let btc ← other (satoshiToBitcoinP X.uni satP)
  other (assertR (btc == btcD))
  let scriptLen ← other (optStrR scriptLenP)
  let scriptSig ← other (optStrR scriptSigP)
  let spkLen ← other (optStrR spkLenP)
  let spk ← other (optStrR spkP)
  pure { prevHash := prevHash, prevIndex := prevIndexD, prevIndexInt := prevIndexInt,
         scriptLen := scriptLen, scriptLenInt := scriptLenInt, scriptSig := scriptSig,
         spkLen := spkLen, spkLenInt := spkLenInt, spk := spk,
         address := address, txid := txid, satoshi := some sat, bitcoin := some btcD }

end BT.DictMsg
