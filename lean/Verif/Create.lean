import Verif.Tx

/-!
# `bitcoin_toolset/code/create_transaction.py`

`create_transaction(a)` on dynamically typed arguments.  On success the model returns the
transaction together with the argument object as the call leaves it (the code mutates its
arguments).  The arguments after a *failed* call are modelled in `CreateState`.
-/

namespace BT

/-- The attributes of the `argparse.Namespace` argument that are read
(create_transaction.py:96-108); `none` = attribute absent. -/
structure Args where
  inputs : Option PVal
  design : Option PVal
  allowDup : Option PVal := none
  changeIdx : Option PVal := none

/-- `vars(a).keys()` restricted to the attributes read (create_transaction.py:102). -/
def Args.keys (a : Args) : List Str :=
  (if a.inputs.isSome then [py"inputs"] else []) ++
  (if a.design.isSome then [py"design"] else []) ++
  (if a.allowDup.isSome then [py"allow_duplicate_output_address"] else []) ++
  (if a.changeIdx.isSome then [py"change_output_index"] else [])

/-- `design['fee'] = int(fee)` if it is a string (create_transaction.py:112-115). -/
def adjustFee (u : UniDB) (d : List (Str × PVal)) : R (List (Str × PVal)) :=
  match dictFind d py"fee" with
  | some (.str s) => do
    let n ← pyInt u 10 s
    pure (dictSet d py"fee" (.int n))
  | _ => pure d

/-- `str(x)` for an instance of `int` (`bool` included). -/
def strOfInt : PVal → Option Str
  | .int n => some (pyStr n)
  | .bool true => some py"True"
  | .bool false => some py"False"
  | _ => none

/-- `design['fee_rate'] = str(fee_rate)` if it is an `int` (create_transaction.py:116-119). -/
def adjustFeeRate (d : List (Str × PVal)) : List (Str × PVal) :=
  match dictFind d py"fee_rate" with
  | some v => match strOfInt v with
    | some s => dictSet d py"fee_rate" (.str s)
    | none => d
  | none => d

/-- `design['max_fee'] = int(max_fee)` if it is a string (create_transaction.py:120-123). -/
def adjustMaxFee (u : UniDB) (d : List (Str × PVal)) : R (List (Str × PVal)) :=
  match dictFind d py"max_fee" with
  | some (.str s) => do
    let n ← pyInt u 10 s
    pure (dictSet d py"max_fee" (.int n))
  | _ => pure d

/-- One iteration of `input_['previous_output_index'] = int(...)`
(create_transaction.py:124-125). -/
def adjustInput (u : UniDB) (x : PVal) : R PVal :=
  match x with
  | .dict d => do
    let v ← dictGet d py"previous_output_index"
    let n ← v.toInt u
    pure (.dict (dictSet d py"previous_output_index" (.int n)))
  | _ => raise .typeError

/-- The loop over `a.inputs` (create_transaction.py:124-125).  A non-empty dict or str would
iterate over strings and an empty one fails in `validate_inputs`; all non-lists end in
TypeError. -/
def adjustInputs (u : UniDB) (x : PVal) : R (List PVal) :=
  match x with
  | .list l => mapR (adjustInput u) l
  | _ => raise .typeError

/-- Body of the loop of `validate_inputs` (create_transaction.py:580-589). -/
def validateInput (X : Ext) (x : PVal) : R Unit := do
  let d ← x.asDict
  vListsIdentical (dictKeys d)
    [py"address", py"transaction_id", py"previous_output_index", py"bitcoin_amount"]
  let _ ← vBitcoinAddressP X (← dictGet d py"address")
  let _ ← vHexLengthP (← dictGet d py"transaction_id") 32
  vWholeNumber (← dictGet d py"previous_output_index")
  let _ ← vPositiveBitcoinAmountP X.uni (← dictGet d py"bitcoin_amount")
  pure ()

/-- `validate_inputs` (create_transaction.py:566-589). -/
def validateInputs (X : Ext) (l : List PVal) : R Unit := do
  let _ ← mapR (validateInput X) l
  pure ()

/-- Body of the output loop of `validate_design` (create_transaction.py:639-648); returns
the output dict with the padded amount. -/
def validateOutput (X : Ext) (x : PVal) : R PVal := do
  let d ← x.asDict
  vListsIdentical (dictKeys d) [py"address", py"bitcoin_amount"]
  let _ ← vBitcoinAddressP X (← dictGet d py"address")
  let s ← vPositiveBitcoinAmountP X.uni (← dictGet d py"bitcoin_amount")
  let s8 ← ensure8 s
  pure (.dict (dictSet d py"bitcoin_amount" (.str s8)))

/-- `x in l` for a string `x`. -/
def plistHas (l : List PVal) (s : Str) : Bool := l.any fun x => x.eqStr s

/-- `available_approaches` (create_transaction.py:677-682). -/
def availableApproaches : List Str := [
  py"all", py"largest_first", py"smallest_first", py"any_address", py"one_address_at_a_time",
  py"largest_address_first", py"smallest_address_first"]

/-- The checks of `input_selection_approaches` (create_transaction.py:673-701). -/
def validateApproaches (v : PVal) : R Unit := do
  if v.truthy then do
    let l ← vList v
    if !(l.all fun x => availableApproaches.any fun s => x.eqStr s) then raise .valueError
    if plistHas l py"all" && 1 < l.length then raise .valueError
    if plistHas l py"largest_first" && plistHas l py"smallest_first" then raise .valueError
    if plistHas l py"any_address" && plistHas l py"one_address_at_a_time" then raise .valueError
    if plistHas l py"largest_address_first" && plistHas l py"smallest_address_first" then
      raise .valueError

/-- `design[k] if k in received else None`. -/
def dictOpt (d : List (Str × PVal)) (k : Str) : PVal := (dictFind d k).getD .none

/-- The fee checks (create_transaction.py:651-669). -/
def validateFees (u : UniDB) (fee feeRate : PVal) : R Unit := do
  if (fee.truthy && feeRate.truthy) || (fee.isNone && feeRate.isNone) then raise .valueError
  if fee.truthy then vWholeNumber fee
  if feeRate.truthy then do
    let s ← vString feeRate
    vStrWholeOrDecimal u none s

/-- `validate_design` (create_transaction.py:594-701); returns the design with padded output
amounts. -/
def validateDesign (X : Ext) (d : List (Str × PVal)) : R (List (Str × PVal)) := do
  vListContains (dictKeys d)
    [py"change_address", py"max_fee", py"max_spend_percentage", py"outputs"]
  let changeAddress ← dictGet d py"change_address"
  let fee := dictOpt d py"fee"
  let feeRate := dictOpt d py"fee_rate"
  let maxFee ← dictGet d py"max_fee"
  let msp ← dictGet d py"max_spend_percentage"
  let approaches := dictOpt d py"input_selection_approaches"
  let outputs ← dictGet d py"outputs"
  let _ ← vBitcoinAddressP X changeAddress
  vWholeNumber maxFee
  let f ← msp.toFloat X.uni
  let n ← f.trunc
  vIntegerDomain n 0 100
  let outs ← vList outputs
  let outs ← mapR (validateOutput X) outs
  validateFees X.uni fee feeRate
  validateApproaches approaches
  pure (dictSet d py"outputs" (.list outs))

/-- `x['satoshi_amount'] = bitcoin_to_satoshi(x['bitcoin_amount'])`
(create_transaction.py:159-162). -/
def addSatoshi (u : UniDB) (x : PVal) : R PVal := do
  let d ← x.asDict
  let s ← vString (← dictGet d py"bitcoin_amount")
  let n ← bitcoinToSatoshi u s
  pure (.dict (dictSet d py"satoshi_amount" (.int n)))

/-- `TransactionInput.create(...)` for an input dict (create_transaction.py:199-206). -/
def mkInput (X : Ext) (x : PVal) : R TxIn := do
  let d ← x.asDict
  let a ← vString (← dictGet d py"address")
  let t ← vString (← dictGet d py"transaction_id")
  let i ← vInteger (← dictGet d py"previous_output_index")
  let s ← vInteger (← dictGet d py"satoshi_amount")
  TxIn.create X a t i s

/-- `TransactionOutput.create(...)` for an output dict (create_transaction.py:210-215). -/
def mkOutput (X : Ext) (x : PVal) : R TxOut := do
  let d ← x.asDict
  let a ← vString (← dictGet d py"address")
  let s ← vInteger (← dictGet d py"satoshi_amount")
  TxOut.create X a s

/-- Amount of an input created by `TransactionInput.create`. -/
def TxIn.amount (i : TxIn) : Int := i.satoshi.getD 0

/-- `inputs.sort(key=amount, reverse=True)`: stable, descending
(create_transaction.py:227,232). -/
def sortLargest (l : List TxIn) : List TxIn := l.insertionSort (fun a b => a.amount ≥ b.amount)

/-- `inputs.sort(key=amount)`: stable, ascending (create_transaction.py:229). -/
def sortSmallest (l : List TxIn) : List TxIn := l.insertionSort (fun a b => a.amount ≤ b.amount)

/-- `len(x)` and `x[0]` of `input_selection_approaches` (create_transaction.py:223-225):
TypeError for values without a length, KeyError / IndexError when there is no element. -/
def firstApproach : PVal → R PVal
  | .list l => if l.length > 1 then .error .notImplementedError else
      match l with
      | [] => .error .indexError
      | x :: _ => .ok x
  | .str s => if s.length > 1 then .error .notImplementedError else
      match s with
      | [] => .error .indexError
      | c :: _ => .ok (.str [c])
  | .dict d => if d.length > 1 then .error .notImplementedError else .error .keyError
  | _ => .error .typeError

/-- The sorting section (create_transaction.py:223-235). -/
def sortInputs (approach : PVal) (l : List TxIn) : R (List TxIn) :=
  if approach.eqStr py"largest_first" then .ok (sortLargest l)
  else if approach.eqStr py"smallest_first" then .ok (sortSmallest l)
  else if approach.eqStr py"all" then .ok (sortLargest l)
  else .error .notImplementedError

/-- Totals per address (`defaultdict(int)`), in order of first occurrence
(create_transaction.py:275-279, 290-294). -/
def addrTotals : List (Str × Int) → List (Str × Int)
  | [] => []
  | (a, n) :: r =>
    (a, n + ((r.filter fun p => p.1 = a).map Prod.snd).sum) ::
      (addrTotals r).filter fun p => p.1 ≠ a

/-- The address report (create_transaction.py:275-308): every per-address total is converted
to bitcoin (which raises above 21 million), then duplicates are refused. -/
def reportAddresses (u : UniDB) (ins : List TxIn) (outs : List TxOut) (allowDup : Bool) :
    R Unit := do
  let _ ← mapR (fun p : Str × Int => satoshiToBitcoin u p.2)
    (addrTotals (ins.map fun i => (i.address, i.amount)))
  let _ ← mapR (fun p : Str × Int => satoshiToBitcoin u p.2)
    (addrTotals (outs.map fun o => (o.address, o.satoshi)))
  if !((outs.map TxOut.address).all fun a => !(1 < (outs.map TxOut.address).count a)) then
    if !allowDup then raise .duplicateOutputAddress

/-- The fee when a fee rate is used (create_transaction.py:332-334). -/
def feeFromRate (size : Int) (rate : PyFloat) : R Int := do
  let sizeF ← PyFloat.ofInt size
  (sizeF.mul rate).ceil

/-- `'fee' if fee else 'fee_rate'` and the conversion of the rate
(create_transaction.py:154-156): `inl` = explicit fee. -/
def feeKind (u : UniDB) (fee feeRate : PVal) : R (PVal ⊕ PyFloat) :=
  if fee.truthy then .ok (.inl fee)
  else do
    let r ← feeRate.toFloat u
    pure (.inr r)

/-- The fee section (create_transaction.py:316-347): computes `final_fee` and checks it.
`fee` has passed `validate_whole_number`, so it is an `int` or `bool`; a `bool` fails in
`satoshi_to_bitcoin`. -/
def finalFee (u : UniDB) (kind : PVal ⊕ PyFloat) (size : Int) (maxFee : PVal) : R Int := do
  let feeP ← match kind with
    | .inl p => pure p
    | .inr r => do
      let n ← feeFromRate size r
      pure (PVal.int n)
  let fee ← vInteger feeP
  let feeF ← PyFloat.ofInt fee
  let sizeF ← PyFloat.ofInt size
  let _ ← feeF.div sizeF
  let _ ← satoshiToBitcoinP u feeP
  let over := match maxFee with
    | .float (.fin q) => decide (q < (fee : ℚ))
    | p => decide ((p.asInt).getD 0 < fee)
  if over then raise .valueError
  pure fee

/-- The selection loop (create_transaction.py:410-418); `tot` is `total_selected_input`. -/
def selectLoop (target : Int) (all : Bool) : Int → List TxIn → List TxIn
  | _, [] => []
  | tot, x :: xs =>
    let tot := tot + x.amount
    if tot ≥ target ∧ all = false then [x] else x :: selectLoop target all tot xs

/-- Input selection (create_transaction.py:359-426): the selected inputs. -/
def selectInputs (u : UniDB) (ins : List TxIn) (outs : List TxOut) (fee : Int) (all : Bool) :
    R (List TxIn) := do
  let totalInput := (ins.map TxIn.amount).sum
  let _ ← satoshiToBitcoin u totalInput
  let totalOutput := (outs.map TxOut.satoshi).sum
  let _ ← satoshiToBitcoin u totalOutput
  if totalInput < totalOutput then do
    let _ ← satoshiToBitcoin u (totalOutput - totalInput)
    raise .outputValueNotCovered
  let target := totalOutput + fee
  let _ ← satoshiToBitcoin u target
  let selected ←
    if totalInput < target then do
      let _ ← satoshiToBitcoin u (target - totalInput)
      raise .outputAndFeeValueNotCovered
    else if totalInput = target then pure ins
    else do
      let _ ← satoshiToBitcoin u (totalInput - target)
      pure (selectLoop target all 0 ins)
  let _ ← satoshiToBitcoin u ((selected.map TxIn.amount).sum)
  pure selected

/-- `change_outputs[change_output_index]`: TypeError for a float index
(create_transaction.py:453-461). -/
def chooseChange (idx : PVal) (n : Nat) : R Nat :=
  match idx with
  | .none => .error .valueError
  | .float _ => .error .typeError
  | p => match p.asInt with
    | none => .error .typeError
    | some i => if ¬ (i < n) then .error .valueError else .ok i.toNat

/-- Add `surplus` to the `k`-th output that pays `addr` (create_transaction.py:461-465,
473-477); returns the new list and the changed output. -/
def bumpOutput (u : UniDB) (addr : Str) (surplus : Int) : Nat → List TxOut → R (List TxOut × TxOut)
  | _, [] => .error .indexError
  | k, o :: r =>
    if o.address = addr then
      match k with
      | 0 =>
        let (o', res) := o.setSatoshi u (o.satoshi + surplus)
        match res with
        | .error e => .error e
        | .ok _ => do
          let _ ← satoshiToBitcoin u o.satoshi
          pure (o' :: r, o')
      | k + 1 => do
        let (r', c) ← bumpOutput u addr surplus k r
        pure (o :: r', c)
    else do
      let (r', c) ← bumpOutput u addr surplus k r
      pure (o :: r', c)

/-- Give the surplus to the change address (create_transaction.py:449-490): to the chosen one
of several outputs that pay it, to the only one, or to a new first output. -/
def changeStep (X : Ext) (outs : List TxOut) (changeAddress : Str) (changeIdx : PVal)
    (surplus : Int) : R (List TxOut × TxOut) :=
  let nChange := (outs.filter fun o => o.address = changeAddress).length
  if nChange > 1 then do
    let k ← chooseChange changeIdx nChange
    bumpOutput X.uni changeAddress surplus k outs
  else if nChange = 1 then bumpOutput X.uni changeAddress surplus 0 outs
  else do
    let c ← TxOut.create X changeAddress surplus
    pure (c :: outs, c)

/-- The section that disposes of the surplus (create_transaction.py:436-503): the outputs and
the value of the change output (0 if there is none). -/
def spendSurplus (X : Ext) (totalSelected : Int) (outs : List TxOut) (fee : Int)
    (changeAddress : Str) (changeIdx : PVal) : R (List TxOut × Int) :=
  let target := (outs.map TxOut.satoshi).sum + fee
  if totalSelected = target then pure (outs, 0)
  else do
    let _ ← satoshiToBitcoin X.uni (totalSelected - target)
    let r ← changeStep X outs changeAddress changeIdx (totalSelected - target)
    let _ ← satoshiToBitcoin X.uni ((r.1.map TxOut.satoshi).sum)
    let _ ← satoshiToBitcoin X.uni ((r.1.map TxOut.satoshi).sum + fee)
    pure (r.1, r.2.satoshi)

/-- The change section (create_transaction.py:431-515): outputs after adding the change, and
the value of `change`. -/
def handleChange (X : Ext) (selected : List TxIn) (outs : List TxOut) (fee : Int)
    (changeAddress : Str) (changeIdx : PVal) : R (List TxOut × Int) := do
  let totalSelected := (selected.map TxIn.amount).sum
  let _ ← satoshiToBitcoin X.uni 0
  let r ← spendSurplus X totalSelected outs fee changeAddress changeIdx
  if totalSelected ≠ (r.1.map TxOut.satoshi).sum + fee then raise .valueError
  let _ ← satoshiToBitcoin X.uni r.2
  pure r

/-- `int(math.ceil(max_spend_percentage / 100 * total_input))`
(create_transaction.py:527-529). -/
def maxSpend (pct : PyFloat) (totalInput : Int) : R Int := do
  let p ← pct.div (.fin 100)
  let ti ← PyFloat.ofInt totalInput
  (p.mul ti).ceil

/-- The spending limit (create_transaction.py:524-552). -/
def checkSpend (u : UniDB) (pct : PyFloat) (totalInput totalSelected change : Int) : R Unit := do
  let ms ← maxSpend pct totalInput
  let _ ← satoshiToBitcoin u ms
  let spend := totalSelected - change
  let _ ← satoshiToBitcoin u spend
  let spendF ← PyFloat.ofInt spend
  let tiF ← PyFloat.ofInt totalInput
  let _ ← spendF.div tiF
  if spend ≤ ms then do
    let msF ← PyFloat.ofInt ms
    let _ ← spendF.div msF
    pure ()
  else raise .valueError

/-- Everything after the arguments have been validated and converted to objects
(create_transaction.py:222-561). -/
def buildTx (X : Ext) (ins : List TxIn) (outs : List TxOut) (approaches : PVal)
    (kind : PVal ⊕ PyFloat) (maxFee : PVal) (pct : PyFloat) (changeAddress : Str)
    (allowDup : Bool) (changeIdx : PVal) : R Tx := do
  let approach ← firstApproach approaches
  let ins ← sortInputs approach ins
  reportAddresses X.uni ins outs allowDup
  let size ← estimateTransactionSize ins.length outs.length
  let fee ← finalFee X.uni kind size maxFee
  let selected ← selectInputs X.uni ins outs fee (approach.eqStr py"all")
  let (outs, change) ← handleChange X selected outs fee changeAddress changeIdx
  checkSpend X.uni pct ((ins.map TxIn.amount).sum) ((selected.map TxIn.amount).sum) change
  let t ← Tx.create selected outs
  pure { t with changeAddress := some changeAddress }

/-- What `create_transaction` has computed when it starts to work (line 222): the input and
output objects, the converted settings, and the arguments as they are left behind. -/
structure Plan where
  ins : List TxIn
  outs : List TxOut
  approaches : PVal
  kind : PVal ⊕ PyFloat
  maxFee : PVal
  pct : PyFloat
  changeAddress : Str
  allowDup : Bool
  changeIdx : PVal
  after : Args

/-- Validation of the two optional attributes (create_transaction.py:130-133). -/
def validateOptions (allowDup changeIdx : PVal) : R Unit := do
  if !allowDup.isNone then do
    let _ ← vBoolean allowDup
  if !changeIdx.isNone then vWholeNumber changeIdx

/-- Type adjustments and validation of the design (create_transaction.py:110-123, 129). -/
def adjustDesign (u : UniDB) (d : List (Str × PVal)) : R (List (Str × PVal)) := do
  let d ← adjustFee u d
  adjustMaxFee u (adjustFeeRate d)

/-- The first half of `create_transaction`: adjust, validate and convert the arguments
(create_transaction.py:89-219). -/
def prepare (X : Ext) (a : Args) : R Plan := do
  vListContains a.keys [py"inputs", py"design"]
  let allowDup := a.allowDup.getD .none
  let changeIdx := a.changeIdx.getD .none
  let design ← (a.design.getD .none).asDict
  let design ← adjustDesign X.uni design
  let ins ← adjustInputs X.uni (a.inputs.getD .none)
  validateInputs X ins
  let design ← validateDesign X design
  validateOptions allowDup changeIdx
  let outsP ← dictGet design py"outputs"
  let outs ← vList outsP
  let fee := dictOpt design py"fee"
  let feeRate := dictOpt design py"fee_rate"
  let changeAddress ← vString (← dictGet design py"change_address")
  let maxFee ← dictGet design py"max_fee"
  let msp ← dictGet design py"max_spend_percentage"
  let approaches := (dictFind design py"input_selection_approaches").getD
    (.list [.str py"largest_first"])
  let pct ← msp.toFloat X.uni
  let kind ← feeKind X.uni fee feeRate
  let ins ← mapR (addSatoshi X.uni) ins
  let outs ← mapR (addSatoshi X.uni) outs
  let txIns ← mapR (mkInput X) ins
  let txOuts ← mapR (mkOutput X) outs
  let design := dictSet design py"outputs" (.list outs)
  pure { ins := txIns, outs := txOuts, approaches, kind, maxFee, pct, changeAddress,
         allowDup := allowDup.truthy, changeIdx,
         after := { a with inputs := some (.list ins), design := some (.dict design) } }

/-- `create_transaction` (create_transaction.py:89-561). -/
def createTransaction (X : Ext) (a : Args) : R (Tx × Args) := do
  let p ← prepare X a
  let t ← buildTx X p.ins p.outs p.approaches p.kind p.maxFee p.pct p.changeAddress p.allowDup
    p.changeIdx
  pure (t, p.after)

end BT
