import Verif.TxIn
import Verif.TxOut
import Verif.PyDecimal

/-!
# `bitcoin_toolset/code/transaction.py`

Objects are values: that two list entries could be the *same* Python object is not
modelled (no constructor in the package creates such lists).
-/

namespace BT

/-- The attributes of a `Transaction` (transaction.py:165-177). -/
structure Tx where
  version : Str := py"01000000"
  inputCount : Str
  inputs : List TxIn
  outputCount : Str
  outputs : List TxOut
  lockTime : Str := py"00000000"
  hashType4 : Str := py"01000000"
  hashType1 : Str := py"01"
  changeAddress : Option Str := none

/-- `Transaction.create` (transaction.py:193-199). -/
def Tx.create (inputs : List TxIn) (outputs : List TxOut) : R Tx := do
  let ic ← intToVarInt inputs.length
  let oc ← intToVarInt outputs.length
  pure { inputCount := ic, inputs := inputs, outputCount := oc, outputs := outputs }

/-- The `signed` property (transaction.py:203-205). -/
def Tx.signed (t : Tx) : Bool := t.inputs.all TxIn.signed

/-- `input_values_known` (transaction.py:209-210). -/
def Tx.inputValuesKnown (t : Tx) : Bool := t.inputs.all fun i => i.satoshi.isSome

/-- `total_input` (transaction.py:213-216); `None` when some value is unknown. -/
def Tx.totalInput (t : Tx) : Option Int :=
  if !t.inputValuesKnown then none else some ((t.inputs.map fun i => i.satoshi.getD 0).sum)

/-- `total_output` (transaction.py:220-221). -/
def Tx.totalOutput (t : Tx) : Int := (t.outputs.map TxOut.satoshi).sum

/-- `fee` (transaction.py:225-228). -/
def Tx.fee (t : Tx) : Option Int :=
  match t.totalInput with
  | none => none
  | some n => some (n - t.totalOutput)

/-- `if self.change_address` (transaction.py:233,305): set and not empty. -/
def Tx.hasChangeAddress (t : Tx) : Bool :=
  match t.changeAddress with
  | some (_ :: _) => true
  | _ => false

/-- `change` (transaction.py:232-236). -/
def Tx.change (t : Tx) : Option Int :=
  if !t.hasChangeAddress then none
  else some (((t.outputs.filter fun o => some o.address == t.changeAddress).map TxOut.satoshi).sum)

/-- Concatenation of the values of a dict (`s += v2`): TypeError on `None`
(transaction.py:457-465, 539-547). -/
def concatFields : List (Option Str) → R Str
  | [] => .ok []
  | none :: _ => .error .typeError
  | some s :: r => do
    let t ← concatFields r
    pure (s ++ t)

/-- The inputs of `to_dict_signable_form(input_index)` (transaction.py:477-482). -/
def signableInputs (idx : Nat) : Nat → List TxIn → List (Option Str)
  | _, [] => []
  | i, x :: xs =>
    (if i = idx then x.signableForm else x.signableFormEmpty) ++ signableInputs idx (i + 1) xs

/-- The values of `to_dict_signable_form(input_index)` in order (transaction.py:475-493). -/
def Tx.signableForm (t : Tx) (idx : Nat) : List (Option Str) :=
  [some t.version, some t.inputCount] ++ signableInputs idx 0 t.inputs ++
  [some t.outputCount] ++ t.outputs.flatMap TxOut.signableForm ++
  [some t.lockTime, some t.hashType4]

/-- `to_hex_signable_form` (transaction.py:454-466). -/
def Tx.toHexSignable (t : Tx) (idx : Nat) : R Str := concatFields (t.signableForm idx)

/-- The values of `to_dict_signed_form` in order (transaction.py:559-572). -/
def Tx.signedForm (t : Tx) : List (Option Str) :=
  [some t.version, some t.inputCount] ++ t.inputs.flatMap TxIn.signedForm ++
  [some t.outputCount] ++ t.outputs.flatMap TxOut.signedForm ++ [some t.lockTime]

/-- `to_hex_signed_form` (transaction.py:536-550). -/
def Tx.toHexSigned (t : Tx) : R Str := concatFields t.signedForm

/-- The inner function `fee_rate_satoshi_to_bitcoin` (transaction.py:245-250) applied to the
value of a decimal string. -/
def feeRateBitcoin (q : ℚ) : Str := fmtFixed 8 (dec28 (q / 10 ^ 8))

/-- Value of the string `'{:.4f}'.format(d)`, i.e. `Decimal(fee_rate_satoshi)`
(transaction.py:246,263-264): `d` rounded to 4 places. -/
def round4 (q : ℚ) : ℚ := (rhe (q * 10 ^ 4) : ℚ) / 10 ^ 4

/-- `Decimal(fee) / size` (transaction.py:262,314). -/
def decDiv (fee size : Int) : ℚ := dec28 ((fee : ℚ) / (size : ℚ))

/-- `satoshi_to_bitcoin(self.total_input)` etc. under `if self.input_values_known`
(transaction.py:259-264): the reported total, fee and estimated fee rate. -/
def Tx.knownPart (u : UniDB) (t : Tx) (size : Int) : R (PVal × PVal × PVal × PVal) :=
  match t.totalInput with
  | none => pure (.none, .none, .none, .none)
  | some ti => do
    let fee := ti - t.totalOutput
    let a ← satoshiToBitcoin u ti
    let b ← satoshiToBitcoin u fee
    let r := decDiv fee size
    pure (.str a, .str b, .str (fmtFixed 4 r), .str (feeRateBitcoin (round4 r)))

/-- The `change` entry (transaction.py:289-292, 305-309). -/
def Tx.changePart (u : UniDB) (t : Tx) : R PVal :=
  match t.change with
  | none => pure (.dict [(py"satoshi_amount", .none), (py"bitcoin_amount", .none)])
  | some c => do
    let b ← satoshiToBitcoin u c
    pure (.dict [(py"satoshi_amount", .int c), (py"bitcoin_amount", .str b)])

/-- The `size_bytes` and `fee_rate` entries (transaction.py:298-302, 310-320). -/
def Tx.sizePart (t : Tx) : R (PVal × PVal) :=
  if t.signed then do
    let h ← t.toHexSigned
    let n ← hexLen h
    match t.fee with
    | none => pure (.int n, .dict [(py"satoshi_amount", .none), (py"bitcoin_amount", .none)])
    | some f =>
      let r := decDiv f n
      pure (.int n, .dict [(py"satoshi_per_byte", .str (fmtFixed 4 r)),
        (py"bitcoin_per_byte", .str (feeRateBitcoin (round4 r)))])
  else pure (.none, .dict [(py"satoshi_amount", .none), (py"bitcoin_amount", .none)])

/-- `to_dict` (transaction.py:239-321).  `size_bytes` (at least 10) cannot be zero, so the
Decimal divisions do not raise. -/
def Tx.toDict (u : UniDB) (t : Tx) : R PVal := do
  let size ← estimateTransactionSize t.inputs.length t.outputs.length
  let (tiB, feeB, rateS, rateB) ← t.knownPart u size
  let toB ← satoshiToBitcoin u t.totalOutput
  let change ← t.changePart u
  let (sizeB, feeRate) ← t.sizePart
  pure (.dict [
    (py"version", .str t.version),
    (py"input_count", .str t.inputCount),
    (py"inputs", .list (t.inputs.map TxIn.toDict)),
    (py"output_count", .str t.outputCount),
    (py"outputs", .list (t.outputs.map TxOut.toDict)),
    (py"block_lock_time", .str t.lockTime),
    (py"hash_type_4_byte", .str t.hashType4),
    (py"hash_type_1_byte", .str t.hashType1),
    (py"signed", .bool t.signed),
    (py"total_input", .dict [(py"satoshi_amount", .ofOptInt t.totalInput),
      (py"bitcoin_amount", tiB)]),
    (py"total_output", .dict [(py"satoshi_amount", .int t.totalOutput),
      (py"bitcoin_amount", .str toB)]),
    (py"fee", .dict [(py"satoshi_amount", .ofOptInt t.fee), (py"bitcoin_amount", feeB)]),
    (py"change_address", .ofOptStr t.changeAddress),
    (py"change", change),
    (py"estimated_size_bytes", .int size),
    (py"estimated_fee_rate", .dict [(py"satoshi_per_byte", rateS),
      (py"bitcoin_per_byte", rateB)]),
    (py"size_bytes", sizeB),
    (py"fee_rate", feeRate)])

/-- `to_json` (transaction.py:324-327). -/
def Tx.toJson (X : Ext) (t : Tx) : R Str := do
  let d ← t.toDict X.uni
  pure (X.jsonDumps d)

/-- Apply a loader to each element, stopping at the first exception. -/
def mapR {α β : Type} (f : α → R β) : List α → R (List β)
  | [] => .ok []
  | x :: xs => do
    let y ← f x
    let ys ← mapR f xs
    pure (y :: ys)

/-- The expected keys of `from_json` (transaction.py:338-341). -/
def Tx.expectedKeys : List Str := [
  py"version", py"input_count", py"inputs", py"output_count", py"outputs",
  py"block_lock_time", py"hash_type_4_byte", py"hash_type_1_byte", py"signed"]

/-- `from_json` after `json.loads` (transaction.py:338-377). -/
def Tx.fromData (X : Ext) (x : PVal) : R Tx := do
  let d ← x.asDict
  vListContains (dictKeys d) Tx.expectedKeys
  let icD ← vHexP (← dictGet d py"input_count")
  let insD ← vList (← dictGet d py"inputs")
  let outsD ← vList (← dictGet d py"outputs")
  let ic ← varIntToInt X.uni icD
  assertR (ic == (insD.length : Int))
  let oc ← varIntToIntP X.uni (← dictGet d py"output_count")
  assertR (oc == (outsD.length : Int))
  let inputs ← mapR (TxIn.fromDict X) insD
  let outputs ← mapR (TxOut.fromDict X) outsD
  let lt ← dictGet d py"block_lock_time"
  assertR (lt.eqStr py"00000000")
  let h4 ← dictGet d py"hash_type_4_byte"
  assertR (h4.eqStr py"01000000")
  let h1 ← dictGet d py"hash_type_1_byte"
  assertR (h1.eqStr py"01")
  let signed ← vBoolean (← dictGet d py"signed")
  let totalInput := (inputs.map fun i => i.satoshi.getD 0).sum
  let totalOutput := (outputs.map TxOut.satoshi).sum
  assertR (totalOutput ≤ totalInput)
  let t ← Tx.create inputs outputs
  if signed then assertR t.signed
  pure t

/-- `from_json` (transaction.py:331-377). -/
def Tx.fromJson (X : Ext) (s : Str) : R Tx := do
  let d ← X.jsonLoads s
  Tx.fromData X d

/-! ## Signing -/

/-- The dict built from the private keys (transaction.py:392-396); later keys overwrite
earlier ones with the same address, so the association list is searched from the end. -/
def keyMap (X : Ext) : List Str → R (List (Str × Str))
  | [] => .ok []
  | k :: ks => do
    vHexLength k 32
    let a ← privateKeyToAddress X k
    let m ← keyMap X ks
    pure ((a, k) :: m)

/-- `map_address_to_private_key_hex[address]` (transaction.py:406-408). -/
def keyFor (m : List (Str × Str)) (a : Str) : Option Str :=
  (m.reverse.find? fun p => p.1 = a).map Prod.snd

/-- `create_signature_for_one_input` (transaction.py:437-451).  An empty random value is
falsy and selects the deterministic signature. -/
def Tx.createSignature (X : Ext) (t : Tx) (idx : Nat) (key : Str) (rv : Option Str) : R Str := do
  if t.inputs.length ≤ idx then raise .indexError
  let h ← t.toHexSignable idx
  let digest ← getDoubleSha256 X h
  vHexLength digest 32
  match rv with
  | some (c :: cs) => X.signRand key digest (c :: cs)
  | _ => X.signDet key digest

/-- `random_values_hex[i] if random_values_hex else None` (transaction.py:401). -/
def randomFor (rvs : Option (List Str)) (i : Nat) : R (Option Str) :=
  match rvs with
  | none => .ok none
  | some [] => .ok none
  | some l => match l[i]? with
    | some v => .ok (some v)
    | none => .error .indexError

/-- First part of one iteration of the signing loop (transaction.py:401-410): choose the key
and derive the public key. -/
def Tx.signPrepare (X : Ext) (m : List (Str × Str)) (rvs : Option (List Str)) (i : Nat)
    (inp : TxIn) : R (Option Str × Str × Str) := do
  let rv ← randomFor rvs i
  match keyFor m inp.address with
  | none => raise .valueError
  | some key => do
    let pk ← privateKeyToPublicKey X key
    pure (rv, key, pk)

/-- Second part of one iteration (transaction.py:412-426): create the scriptSig from the
transaction as it is now. -/
def Tx.signFinish (X : Ext) (t : Tx) (i : Nat) (rv : Option Str) (key pk : Str) :
    R (Str × Str × Int) := do
  let _ ← hexLen pk
  let sig ← t.createSignature X i key rv
  let _ ← hexLen sig
  let der ← signatureToDer X sig
  let _ ← hexLen der
  let der := der ++ t.hashType1
  let _ ← hexLen der
  let (scriptSig, scriptLen) ← scriptSigEncode der pk
  let n ← varIntToInt X.uni scriptLen
  pure (scriptSig, scriptLen, n)

/-- One iteration of the signing loop (transaction.py:399-430).  The public key is stored
before the signature is made, so it stays when the signature fails. -/
def Tx.signOne (X : Ext) (m : List (Str × Str)) (rvs : Option (List Str)) (i : Nat) (t : Tx) :
    Tx × R Unit :=
  match t.inputs[i]? with
  | none => (t, .error .indexError)
  | some inp =>
    match Tx.signPrepare X m rvs i inp with
    | .error e => (t, .error e)
    | .ok (rv, key, pk) =>
      let inp1 := { inp with publicKey := some pk }
      let t1 := { t with inputs := t.inputs.set i inp1 }
      match Tx.signFinish X t1 i rv key pk with
      | .error e => (t1, .error e)
      | .ok (scriptSig, scriptLen, n) =>
        let inp2 := { inp1 with scriptLen := some scriptLen, scriptLenInt := .int n,
                                scriptSig := some scriptSig }
        ({ t1 with inputs := t1.inputs.set i inp2 }, .ok ())

/-- The signing loop over the input indices (transaction.py:399). -/
def Tx.signLoop (X : Ext) (m : List (Str × Str)) (rvs : Option (List Str)) :
    List Nat → Tx → Tx × R Unit
  | [], t => (t, .ok ())
  | i :: is, t =>
    match Tx.signOne X m rvs i t with
    | (t', .ok _) => Tx.signLoop X m rvs is t'
    | (t', .error e) => (t', .error e)

/-- The checks before the loop (transaction.py:387-396). -/
def signChecks (X : Ext) (keys : List Str) (rvs : Option (List Str)) :
    R (List (Str × Str)) := do
  match rvs with
  | some (v :: vs) => do
    if ¬ (v :: vs).Nodup then raise .valueError
    if (v :: vs).length ≠ keys.length then raise .valueError
  | _ => pure ()
  keyMap X keys

/-- `sign` (transaction.py:380-434): the transaction object after the call, and the outcome. -/
def Tx.sign (X : Ext) (t : Tx) (keys : List Str) (rvs : Option (List Str)) : Tx × R Unit :=
  match signChecks X keys rvs with
  | .error e => (t, .error e)
  | .ok m => Tx.signLoop X m rvs (List.range t.inputs.length) t

/-! ## Verifying -/

/-- `verify_signature_for_one_input` (transaction.py:523-533). -/
def Tx.verifyOne (X : Ext) (t : Tx) (idx : Nat) (pk sig : Str) : R Bool := do
  if t.inputs.length ≤ idx then raise .indexError
  let h ← t.toHexSignable idx
  let digest ← getDoubleSha256 X h
  vHexLength digest 32
  verifySignatureDigest X pk digest sig

/-- One iteration of the loop of `verify` (transaction.py:503-509). -/
def Tx.verifyInput (X : Ext) (t : Tx) (idx : Nat) (inp : TxIn) : R Bool := do
  match inp.scriptSig with
  | none => raise .valueError
  | some scriptSig => do
    let (der, pk) ← scriptSigDecode X.uni scriptSig
    let sig ← signatureFromDer X der
    t.verifyOne X idx pk sig

/-- The loop of `verify` (transaction.py:499-516); `bad` is the counter. -/
def Tx.verifyLoop (X : Ext) (t : Tx) : Nat → List TxIn → Nat → R Nat
  | _, [], bad => .ok bad
  | i, inp :: r, bad => do
    let ok ← t.verifyInput X i inp
    Tx.verifyLoop X t (i + 1) r (if ok then bad else bad + 1)

/-- `verify` (transaction.py:496-520): the number of invalid signatures. -/
def Tx.verify (X : Ext) (t : Tx) : R Nat := Tx.verifyLoop X t 0 t.inputs 0

/-- `calculate_txid` (transaction.py:665-672). -/
def Tx.txid (X : Ext) (t : Tx) : R Str := do
  if !t.signed then raise .valueError
  let h ← t.toHexSigned
  let hash ← getDoubleSha256 X h
  reverseHexOrder hash

/-! ## Decoding -/

/-- `''.join(hex_bytes[i:i+n])` and `i += n`, where the argument is `hex_bytes[i:]`; a slice
past the end is silently shorter. -/
def takeBytes (n : Nat) (hb : List Str) : Str × List Str := ((hb.take n).flatten, hb.drop n)

/-- `hex_bytes[i]` and `i += 1`: IndexError past the end. -/
def takeByte : List Str → R (Str × List Str)
  | [] => .error .indexError
  | b :: r => .ok (b, r)

/-- One iteration of the input loop of `from_hex_signed` (transaction.py:600-623); the list
argument is `hex_bytes[i:]`. -/
def parseInput (X : Ext) (hb : List Str) : R (TxIn × List Str) := do
  let (prevHash, hb) := takeBytes 32 hb
  let (prevIndex, hb) := takeBytes 4 hb
  let (scriptLen, hb) ← takeByte hb
  let n ← varIntToInt X.uni scriptLen
  let (scriptSig, hb) := takeBytes n.toNat hb
  let (sig, pk) ← scriptSigDecode X.uni scriptSig
  let _ ← hexLen sig
  let _ ← hexLen pk
  let (sequence, hb) := takeBytes 4 hb
  if sequence ≠ py"ffffffff" then raise .valueError
  let inp ← TxIn.createFromSigned X pk prevHash prevIndex scriptLen scriptSig
  pure (inp, hb)

/-- One iteration of the output loop (transaction.py:633-647). -/
def parseOutput (X : Ext) (hb : List Str) : R (TxOut × List Str) := do
  let (value, hb) := takeBytes 8 hb
  let satoshi ← hexLeToInt X.uni value
  let _ ← satoshiToBitcoin X.uni satoshi
  let (scriptLen, hb) ← takeByte hb
  let n ← varIntToInt X.uni scriptLen
  let (spk, hb) := takeBytes n.toNat hb
  let out ← TxOut.createFromSigned X value scriptLen spk
  pure (out, hb)

/-- A `for x in range(n)` loop of `from_hex_signed` (transaction.py:598,631). -/
def parseMany {α : Type} (f : List Str → R (α × List Str)) : Nat → List Str → R (List α × List Str)
  | 0, hb => .ok ([], hb)
  | n + 1, hb => do
    let (x, hb) ← f hb
    let (xs, hb) ← parseMany f n hb
    pure (x :: xs, hb)

/-- `from_hex_signed` (transaction.py:576-662).  Whatever follows the lock time is ignored,
as in the code. -/
def Tx.fromHexSigned (X : Ext) (s : Str) : R Tx := do
  let _ ← hexLen s
  let hb := chunks2 s
  let (version, hb) := takeBytes 4 hb
  if version ≠ py"01000000" then raise .valueError
  let (ic, hb) ← takeByte hb
  let icInt ← varIntToInt X.uni ic
  let (inputs, hb) ← parseMany (parseInput X) icInt.toNat hb
  let (oc, hb) ← takeByte hb
  let ocInt ← varIntToInt X.uni oc
  let (outputs, hb) ← parseMany (parseOutput X) ocInt.toNat hb
  let (lockTime, _) := takeBytes 4 hb
  if lockTime ≠ py"00000000" then raise .valueError
  Tx.create inputs outputs

end BT
