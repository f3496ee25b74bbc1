import Verif.Create
import Verif.Messages
import Verif.PyDecimal

/-!
# The report of `create_transaction`

`Create.lean` models what `create_transaction` returns and which exception it raises.  Here is the same
function with the lines it logs (at level INFO) and the texts of the exceptions it raises itself.
`C109_agrees` in Props/Report.lean proves that without lines and texts the two are the same function.

Parameters as in Messages.lean: `float.__repr__` (a fee rate is logged with it).
-/

namespace BT.Report

/-- An exception: its class and, where it is modelled, its text. -/
abbrev Exc := Err × Option Str

/-- A run of a function: the lines logged until it ends, in order, and its result. -/
structure L (α : Type) where
  log : List Str
  res : Except Exc α

/-- Sequential composition. -/
def L.bind {α β : Type} (m : L α) (f : α → L β) : L β :=
  match m.res with
  | .error e => ⟨m.log, .error e⟩
  | .ok a => ⟨m.log ++ (f a).log, (f a).res⟩

instance : Monad L where
  pure a := ⟨[], .ok a⟩
  bind := L.bind

/-- `log(s)` -/
def say (s : Str) : L Unit := ⟨[s], .ok ()⟩

/-- A computation that logs nothing; the text of its exception is not modelled. -/
def run {α : Type} (r : R α) : L α :=
  match r with
  | .ok a => ⟨[], .ok a⟩
  | .error e => ⟨[], .error (e, none)⟩

/-- `raise E(text)` -/
def refuse {α : Type} (e : Err) (text : Str) : L α := ⟨[], .error (e, some text)⟩

/-- `raise E(text)` if the condition holds. -/
def refuseIf (c : Prop) [Decidable c] (e : Err) (text : Str) : L Unit := if c then refuse e text else pure ()

/-- `str(x)` -/
def str (E : Msg.Env) : PVal → Str
  | .str s => s
  | x => Msg.repr E x

/-- `'{:.kf}'.format(x)` for a float: the exact value rounded to `k` places, half to even.  A float has no
negative zero in the model. -/
def fmtFloat (k : Nat) : PyFloat → Str
  | .nan => py"nan"
  | .inf true => py"-inf"
  | .inf false => py"inf"
  | .fin q =>
    let digits (r : ℚ) : Str := if k = 0 then natDigits 10 (rhe r).toNat else fmtFixed k r
    if q < 0 then '-' :: digits (-q) else digits q

/-- "B bitcoin (N satoshi)" -/
def both (b : Str) (n : Int) : Str := b ++ py" bitcoin (" ++ pyStr n ++ py" satoshi)"

/-- "Input {i}: ..." (create_transaction.py:175-181, 251-257). -/
def inputLine (i : Nat) (address txid index ba sa : Str) : Str :=
  py"Input " ++ pyStr i ++ py":\n- address: " ++ address ++ py"\n- txid: " ++ txid ++
    py"\n- previous_output_index: " ++ index ++ py"\n- bitcoin_amount: " ++ ba ++ py" (" ++ sa ++ py" satoshi)"

/-- "Output {i}: ..." (create_transaction.py:187-191, 263-267). -/
def outputLine (i : Nat) (address ba sa : Str) : Str :=
  py"Output " ++ pyStr i ++ py":\n- address: " ++ address ++ py"\n- bitcoin_amount: " ++ ba ++ py" (" ++ sa ++ py" satoshi)"

/-- `log(f(i, x))` for `i, x in enumerate(l)`, counting from `n`. -/
def sayEach {α : Type} (f : Nat → α → Str) : Nat → List α → L Unit
  | _, [] => pure ()
  | n, x :: xs => do
    say (f n x)
    sayEach f (n + 1) xs

/-- `x[k]` of a dict that was validated, as the code prints it. -/
def shown (E : Msg.Env) (x : PVal) (k : Str) : Str :=
  match x with
  | .dict d => str E ((dictFind d k).getD .none)
  | _ => []

/-- The line for a supplied input (create_transaction.py:169-182). -/
def suppliedInput (E : Msg.Env) (i : Nat) (x : PVal) : Str :=
  inputLine i (shown E x py"address") (shown E x py"transaction_id") (shown E x py"previous_output_index")
    (shown E x py"bitcoin_amount") (shown E x py"satoshi_amount")

/-- The line for a supplied output (create_transaction.py:183-192). -/
def suppliedOutput (E : Msg.Env) (i : Nat) (x : PVal) : Str :=
  outputLine i (shown E x py"address") (shown E x py"bitcoin_amount") (shown E x py"satoshi_amount")

/-- The line for an input object (create_transaction.py:245-258). -/
def sortedInput (i : Nat) (x : TxIn) : Str :=
  inputLine i x.address x.txid (pyStr x.prevIndexInt) (x.bitcoin.getD py"None") (pyStr x.amount)

/-- The line for an output object (create_transaction.py:259-268). -/
def sortedOutput (i : Nat) (x : TxOut) : Str := outputLine i x.address x.bitcoin (pyStr x.satoshi)

/-! ## Validation -/

/-- `validate_design` with its log line (create_transaction.py:673-675), see `validateDesign`. -/
def validateDesign (E : Msg.Env) (X : Ext) (d : List (Str × PVal)) : L (List (Str × PVal)) := do
  run (vListContains (dictKeys d) [py"change_address", py"max_fee", py"max_spend_percentage", py"outputs"])
  let changeAddress ← run (dictGet d py"change_address")
  let fee := dictOpt d py"fee"
  let feeRate := dictOpt d py"fee_rate"
  let maxFee ← run (dictGet d py"max_fee")
  let msp ← run (dictGet d py"max_spend_percentage")
  let approaches := dictOpt d py"input_selection_approaches"
  let outputs ← run (dictGet d py"outputs")
  let _ ← run (vBitcoinAddressP X changeAddress)
  run (vWholeNumber maxFee)
  let f ← run (msp.toFloat X.uni)
  let n ← run f.trunc
  run (vIntegerDomain n 0 100)
  let outs ← run (vList outputs)
  let outs ← run (mapR (validateOutput X) outs)
  run (validateFees X.uni fee feeRate)
  if approaches.truthy then say (str E approaches)
  run (validateApproaches approaches)
  pure (dictSet d py"outputs" (.list outs))

/-- The first half of `create_transaction` with its report (create_transaction.py:89-217), see `prepare`. -/
def prepare (E : Msg.Env) (X : Ext) (a : Args) : L Plan := do
  run (vListContains a.keys [py"inputs", py"design"])
  let allowDup := a.allowDup.getD .none
  let changeIdx := a.changeIdx.getD .none
  let design ← run (a.design.getD .none).asDict
  let design ← run (adjustDesign X.uni design)
  let ins ← run (adjustInputs X.uni (a.inputs.getD .none))
  run (validateInputs X ins)
  let design ← validateDesign E X design
  run (validateOptions allowDup changeIdx)
  say py"All arguments validated. No problems found."
  let outsP ← run (dictGet design py"outputs")
  let outs ← run (vList outsP)
  let fee := dictOpt design py"fee"
  let feeRate := dictOpt design py"fee_rate"
  let changeAddress ← run (do vString (← dictGet design py"change_address"))
  let maxFee ← run (dictGet design py"max_fee")
  let msp ← run (dictGet design py"max_spend_percentage")
  let approaches := (dictFind design py"input_selection_approaches").getD (.list [.str py"largest_first"])
  let pct ← run (msp.toFloat X.uni)
  let kind ← run (feeKind X.uni fee feeRate)
  let ins ← run (mapR (addSatoshi X.uni) ins)
  let outs ← run (mapR (addSatoshi X.uni) outs)
  say py"Report supplied data for inputs and outputs."
  sayEach (suppliedInput E) 0 ins
  sayEach (suppliedOutput E) 0 outs
  let txIns ← run (mapR (mkInput X) ins)
  say (py"Number of inputs: " ++ pyStr txIns.length)
  let txOuts ← run (mapR (mkOutput X) outs)
  say (py"Number of outputs: " ++ pyStr txOuts.length)
  let design := dictSet design py"outputs" (.list outs)
  pure { ins := txIns, outs := txOuts, approaches, kind, maxFee, pct, changeAddress,
         allowDup := allowDup.truthy, changeIdx,
         after := { a with inputs := some (.list ins), design := some (.dict design) } }

/-! ## The sections of the second half -/

/-- The sorting section (create_transaction.py:222-239), see `firstApproach` and `sortInputs`. -/
def sorting (E : Msg.Env) (approaches : PVal) (ins : List TxIn) : L (PVal × List TxIn) := do
  let approach ← run (firstApproach approaches)
  let sorted ←
    match sortInputs approach ins with
    | .ok l => pure l
    | .error e => refuse e (py"Unrecognised input_selection_approach: " ++ str E approach)
  say (pyStr sorted.length ++ py" inputs sorted according to the input selection approach: " ++ str E approaches)
  pure (approach, sorted)

/-- "- {address}: {bitcoin} bitcoin ({satoshi} satoshi), {count} input{s}." (create_transaction.py:285-287) -/
def inputAddressLine (ins : List TxIn) (p : (Str × Int) × Str) : Str :=
  let count := (ins.map TxIn.address).count p.1.1
  py"\n- " ++ p.1.1 ++ py": " ++ both p.2 p.1.2 ++ py", " ++ pyStr count ++ py" input" ++
    (if count > 1 then py"s" else []) ++ py"."

/-- "- {address}: {bitcoin} bitcoin ({satoshi} satoshi)" (create_transaction.py:299-300) -/
def outputAddressLine (p : (Str × Int) × Str) : Str := py"\n- " ++ p.1.1 ++ py": " ++ both p.2 p.1.2

/-- The address report and the duplicate check (create_transaction.py:273-308), see `reportAddresses`. -/
def addresses (u : UniDB) (ins : List TxIn) (outs : List TxOut) (allowDup : Bool) : L Unit := do
  let inT := addrTotals (ins.map fun i => (i.address, i.amount))
  let inB ← run (mapR (fun p : Str × Int => satoshiToBitcoin u p.2) inT)
  say (py"Input addresses and the value that they each contain:" ++ (inT.zip inB).flatMap (inputAddressLine ins))
  let outT := addrTotals (outs.map fun o => (o.address, o.satoshi))
  let outB ← run (mapR (fun p : Str × Int => satoshiToBitcoin u p.2) outT)
  say (py"Output addresses, with total value to be sent to each:" ++ (outT.zip outB).flatMap outputAddressLine)
  match (outs.map TxOut.address).find? fun a => 1 < (outs.map TxOut.address).count a with
  | none => pure ()
  | some a =>
    refuseIf (allowDup = false) .duplicateOutputAddress (py"Multiple outputs (" ++ pyStr ((outs.map TxOut.address).count a) ++
      py") send to this address: " ++ a)

/-- The fee section (create_transaction.py:316-347), see `finalFee`. -/
def fees (E : Msg.Env) (u : UniDB) (kind : PVal ⊕ PyFloat) (size : Int) (maxFee : PVal) : L Int := do
  say (py"Estimated transaction size: " ++ pyStr size ++ py" bytes")
  say (py"Fee type: " ++ (match kind with
    | .inl _ => py"fee"
    | .inr _ => py"fee_rate"))
  say (match kind with
    | .inl p => py"Fee: " ++ str E p ++ py" (satoshi)"
    | .inr r => py"Fee rate: " ++ E.floatRepr r ++ py" (satoshi/byte)")
  let feeP ← run (match kind with
    | .inl p => pure p
    | .inr r => do
      let n ← feeFromRate size r
      pure (PVal.int n))
  let fee ← run (vInteger feeP)
  say (py"Transaction fee: " ++ str E feeP ++ py" satoshi")
  let feeF ← run (PyFloat.ofInt fee)
  let sizeF ← run (PyFloat.ofInt size)
  let rate ← run (feeF.div sizeF)
  (match kind with
    | .inl _ => say (py"Estimated fee rate: " ++ fmtFloat 4 rate ++ py" satoshi/byte")
    | .inr _ => pure ())
  say (py"Maximum fee: " ++ str E maxFee ++ py" satoshi")
  let _ ← run (satoshiToBitcoinP u feeP)
  let over := match maxFee with
    | .float (.fin q) => decide (q < (fee : ℚ))
    | p => decide ((p.asInt).getD 0 < fee)
  refuseIf (over = true) .valueError (py"The fee (" ++ str E feeP ++ py" satoshi) is greater than the specified maximum fee (" ++
    str E maxFee ++ py" satoshi).")
  pure fee

/-- Input selection (create_transaction.py:359-426), see `selectInputs`; `all` is set by the approach, which the
code prints as the whole list `approaches`. -/
def selection (E : Msg.Env) (u : UniDB) (ins : List TxIn) (outs : List TxOut) (fee : Int) (approaches : PVal) (all : Bool) :
    L (List TxIn) := do
  let totalInput := (ins.map TxIn.amount).sum
  let totalInputB ← run (satoshiToBitcoin u totalInput)
  let totalOutput := (outs.map TxOut.satoshi).sum
  let totalOutputB ← run (satoshiToBitcoin u totalOutput)
  say (py"Total available input value: " ++ both totalInputB totalInput)
  say (py"Total output value: " ++ both totalOutputB totalOutput)
  if totalInput < totalOutput then do
    let b ← run (satoshiToBitcoin u (totalOutput - totalInput))
    refuse .outputValueNotCovered (py"Total available input value is less than total output value.\n- Shortfall: " ++
      both b (totalOutput - totalInput))
  say py"Total available input value is less than or equal to total output value."
  let target := totalOutput + fee
  let targetB ← run (satoshiToBitcoin u target)
  say (py"Total output + fee value: " ++ both targetB target)
  let selected ←
    if totalInput < target then do
      let b ← run (satoshiToBitcoin u (target - totalInput))
      refuse .outputAndFeeValueNotCovered (py"Total available input value is less than total output + fee value.\n- Shortfall: " ++
        both b (target - totalInput))
    else if totalInput = target then do
      say py"Total available input value exactly matches total output + fee value."
      pure (0, ins)
    else do
      let b ← run (satoshiToBitcoin u (totalInput - target))
      say (py"Total available input value is greater than total output + fee value.\n- Surplus value: " ++
        both b (totalInput - target))
      say (py"Selecting inputs according to input selection approaches " ++ str E approaches ++
        py" until [total selected input value] exceeds [total output + fee value].")
      pure ((selectLoop target all 0 ins).length, selectLoop target all 0 ins)
  say (py"Selected inputs: " ++ pyStr selected.1)
  let b ← run (satoshiToBitcoin u ((selected.2.map TxIn.amount).sum))
  say (py"Total selected input value: " ++ both b ((selected.2.map TxIn.amount).sum))
  pure selected.2

/-- The text of an amount in bitcoin. -/
def inBitcoin (u : UniDB) (n : Int) : Str :=
  match satoshiToBitcoin u n with
  | .ok s => s
  | .error _ => []

/-- Amount of the `k`-th output that pays `addr`. -/
def oldAmount (addr : Str) (k : Nat) (outs : List TxOut) : Int :=
  (((outs.filter fun o => o.address = addr)[k]?).map TxOut.satoshi).getD 0

/-- Choice among several outputs (create_transaction.py:453-460), see `chooseChange`. -/
def choosing (E : Msg.Env) (idx : PVal) (n : Nat) (changeAddress : Str) : L Nat :=
  match chooseChange idx n with
  | .ok k => pure k
  | .error .valueError =>
    refuse .valueError (match idx with
      | .none => py"Multiple outputs (" ++ pyStr n ++ py") send to the change address: " ++ changeAddress
      | _ => py"change_output_index (" ++ str E idx ++ py") must be less than the number of change outputs (" ++ pyStr n ++ py").")
  | .error e => run (.error e)

/-- Give the surplus to the change address (create_transaction.py:449-495), see `changeStep`. -/
def change (E : Msg.Env) (X : Ext) (outs : List TxOut) (changeAddress : Str) (changeIdx : PVal) (surplus : Int) :
    L (List TxOut × TxOut) := do
  let nChange := (outs.filter fun o => o.address = changeAddress).length
  if nChange > 1 then do
    let k ← choosing E changeIdx nChange changeAddress
    let r ← run (bumpOutput X.uni changeAddress surplus k outs)
    let old := oldAmount changeAddress k outs
    say (pyStr nChange ++ py" outputs send to the same address. Out of this group, output " ++ str E changeIdx ++
      py" has been selected to receive change.\n- Old change amount: " ++ both (inBitcoin X.uni old) old)
    pure r
  else if nChange = 1 then do
    let r ← run (bumpOutput X.uni changeAddress surplus 0 outs)
    let old := oldAmount changeAddress 0 outs
    say (py"Change address found within outputs.\n- Old change amount: " ++ both (inBitcoin X.uni old) old)
    pure r
  else do
    let c ← run (TxOut.create X changeAddress surplus)
    say py"New output created to send change to change address."
    say (py"New number of outputs: " ++ pyStr (outs.length + 1))
    pure (c :: outs, c)

/-- The section that disposes of the surplus (create_transaction.py:438-506), see `spendSurplus`. -/
def surplus (E : Msg.Env) (X : Ext) (totalSelected : Int) (outs : List TxOut) (fee : Int) (changeAddress : Str)
    (changeIdx : PVal) : L (List TxOut × Int) := do
  let target := (outs.map TxOut.satoshi).sum + fee
  if totalSelected = target then do
    say py"Total selected input value exactly matches total output + fee value."
    pure (outs, 0)
  else do
    let b ← run (satoshiToBitcoin X.uni (totalSelected - target))
    say (py"Total selected input value is greater than total output + fee value.\n- Surplus value: " ++
      both b (totalSelected - target) ++ py"\n- This extra value will be sent to the change address.\n- Change address: " ++
      changeAddress)
    let r ← change E X outs changeAddress changeIdx (totalSelected - target)
    let b1 ← run (satoshiToBitcoin X.uni ((r.1.map TxOut.satoshi).sum))
    say (py"New total output value: " ++ both b1 ((r.1.map TxOut.satoshi).sum))
    let b2 ← run (satoshiToBitcoin X.uni ((r.1.map TxOut.satoshi).sum + fee))
    say (py"New total output + fee value: " ++ both b2 ((r.1.map TxOut.satoshi).sum + fee))
    pure (r.1, r.2.satoshi)

/-- The change section (create_transaction.py:431-515), see `handleChange`. -/
def changeSection (E : Msg.Env) (X : Ext) (selected : List TxIn) (outs : List TxOut) (fee : Int) (changeAddress : Str)
    (changeIdx : PVal) : L (List TxOut × Int) := do
  let totalSelected := (selected.map TxIn.amount).sum
  let _ ← run (satoshiToBitcoin X.uni 0)
  let r ← surplus E X totalSelected outs fee changeAddress changeIdx
  refuseIf (totalSelected ≠ (r.1.map TxOut.satoshi).sum + fee) .valueError []
  let b ← run (satoshiToBitcoin X.uni r.2)
  say (py"Change amount: " ++ both b r.2)
  pure r

/-- The spending limit (create_transaction.py:524-552), see `checkSpend`.  `int(spend_percentage)` cannot fail: the
quotient of two finite floats of this size is finite. -/
def spending (u : UniDB) (pct : PyFloat) (totalInput totalSelected change : Int) : L Unit := do
  say (py"Maximum percentage of input value (prior to fee subtraction) that can be spent: " ++ fmtFloat 2 pct ++
    py"%\n- Note: \"spend\" == send bitcoin to any address that is not the change address.")
  let ms ← run (maxSpend pct totalInput)
  let msB ← run (satoshiToBitcoin u ms)
  say (py"Maximum spend amount: " ++ both msB ms)
  let spend := totalSelected - change
  let spendB ← run (satoshiToBitcoin u spend)
  say (py"Spend amount: " ++ both spendB spend)
  let spendF ← run (PyFloat.ofInt spend)
  let tiF ← run (PyFloat.ofInt totalInput)
  let ratio ← run (spendF.div tiF)
  let percentage := ratio.mul (.fin 100)
  say (py"The spend amount is " ++ fmtFloat 2 percentage ++ py"% of the available input value.")
  if spend ≤ ms then do
    let msF ← run (PyFloat.ofInt ms)
    let ratio2 ← run (spendF.div msF)
    say (py"The spend amount is " ++ fmtFloat 2 (ratio2.mul (.fin 100)) ++ py"% of the maximum permitted spend amount.")
  else
    refuse .valueError (py"Spend amount (" ++ spendB ++ py" bitcoin) is greater than the maximum permitted spend amount (" ++ msB ++
      py" bitcoin). To spend this amount, you will need to increase the --max-spend-percentage value from " ++ fmtFloat 0 pct ++
      py" to " ++ (match percentage.trunc with
        | .ok n => pyStr (n + 1)
        | .error _ => []) ++ py".")

/-- The second half (create_transaction.py:222-561), see `buildTx`. -/
def build (E : Msg.Env) (X : Ext) (p : Plan) : L Tx := do
  let (approach, ins) ← sorting E p.approaches p.ins
  say py"Report inputs (now sorted) and outputs."
  sayEach sortedInput 0 ins
  sayEach sortedOutput 0 p.outs
  addresses X.uni ins p.outs p.allowDup
  let size ← run (estimateTransactionSize ins.length p.outs.length)
  let fee ← fees E X.uni p.kind size p.maxFee
  let selected ← selection E X.uni ins p.outs fee p.approaches (approach.eqStr py"all")
  let (outs, change) ← changeSection E X selected p.outs fee p.changeAddress p.changeIdx
  spending X.uni p.pct ((ins.map TxIn.amount).sum) ((selected.map TxIn.amount).sum) change
  let t ← run (Tx.create selected outs)
  say py"Transaction created."
  pure { t with changeAddress := some p.changeAddress }

/-- `create_transaction` with its report (create_transaction.py:89-561), see `createTransaction`. -/
def create (E : Msg.Env) (X : Ext) (a : Args) : L (Tx × Args) := do
  let p ← prepare E X a
  let t ← build E X p
  pure (t, p.after)

end BT.Report
