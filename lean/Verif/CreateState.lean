import Verif.Create

/-!
# The arguments of `create_transaction` after a call, also one that raised

`create_transaction` changes the dicts it is given.  This is the same function as `createTransaction` in `Create.lean`, with
the argument object as a state that keeps its changes when an exception is raised.  (The code also sets the attribute
`a.outputs` to the list of outputs of the design, line 143; nothing reads it afterwards, and it is not modelled.)
-/

namespace BT.Retry

/-- A piece of code that reads and changes the argument object and returns or raises. -/
def Step (α : Type) : Type := Args → Args × R α

instance : Monad Step where
  pure x := fun a => (a, .ok x)
  bind m f := fun a => match m a with
    | (a', .ok x) => f x a'
    | (a', .error e) => (a', .error e)

/-- Code that does not change the arguments. -/
def check {α : Type} (r : R α) : Step α := fun a => (a, r)

/-- Read the argument object. -/
def args : Step Args := fun a => (a, .ok a)

/-- The entries of `a.inputs` are now `l`. -/
def putInputs (l : List PVal) : Step Unit := fun a => ({ a with inputs := some (.list l) }, .ok ())

/-- The entries of `a.design` are now `d`. -/
def putDesign (d : List (Str × PVal)) : Step Unit := fun a => ({ a with design := some (.dict d) }, .ok ())

/-- `for x in l: f(x)` where `f` changes `x` in its last step: what the list contains afterwards, and the outcome. -/
def walk (f : PVal → R PVal) : List PVal → List PVal × R (List PVal)
  | [] => ([], .ok [])
  | x :: xs =>
    match f x with
    | .error e => (x :: xs, .error e)
    | .ok y => (y :: (walk f xs).1, do let ys ← (walk f xs).2; pure (y :: ys))

/-- create_transaction.py:110-123 -/
def adjustDesignStep (u : UniDB) (d : List (Str × PVal)) : Step (List (Str × PVal)) := do
  let d1 ← check (adjustFee u d)
  putDesign d1
  let d2 := adjustFeeRate d1
  putDesign d2
  let d3 ← check (adjustMaxFee u d2)
  putDesign d3
  pure d3

/-- create_transaction.py:124-125 -/
def adjustInputsStep (u : UniDB) (x : PVal) : Step (List PVal) :=
  match x with
  | .list l => do
    putInputs (walk (adjustInput u) l).1
    check (walk (adjustInput u) l).2
  | _ => check (raise .typeError)

/-- `validate_design` up to line 638: the checks before the loop over the outputs; returns the outputs
(create_transaction.py:611-638). -/
def designHead (X : Ext) (d : List (Str × PVal)) : R (List PVal) := do
  vListContains (dictKeys d)
    [py"change_address", py"max_fee", py"max_spend_percentage", py"outputs"]
  let changeAddress ← dictGet d py"change_address"
  let maxFee ← dictGet d py"max_fee"
  let msp ← dictGet d py"max_spend_percentage"
  let outputs ← dictGet d py"outputs"
  let _ ← vBitcoinAddressP X changeAddress
  vWholeNumber maxFee
  let f ← msp.toFloat X.uni
  let n ← f.trunc
  vIntegerDomain n 0 100
  vList outputs

/-- `validate_design` (create_transaction.py:594-701); the amounts of the outputs are padded one by one. -/
def validateDesignStep (X : Ext) (d : List (Str × PVal)) : Step (List (Str × PVal)) := do
  let outs ← check (designHead X d)
  putDesign (dictSet d py"outputs" (.list (walk (validateOutput X) outs).1))
  let outs' ← check (walk (validateOutput X) outs).2
  check (validateFees X.uni (dictOpt d py"fee") (dictOpt d py"fee_rate"))
  check (validateApproaches (dictOpt d py"input_selection_approaches"))
  pure (dictSet d py"outputs" (.list outs'))

/-- create_transaction.py:159-160 -/
def markInputs (u : UniDB) (l : List PVal) : Step (List PVal) := do
  putInputs (walk (addSatoshi u) l).1
  check (walk (addSatoshi u) l).2

/-- create_transaction.py:161-162 -/
def markOutputs (u : UniDB) (d : List (Str × PVal)) (l : List PVal) : Step (List PVal) := do
  putDesign (dictSet d py"outputs" (.list (walk (addSatoshi u) l).1))
  check (walk (addSatoshi u) l).2

/-- `create_transaction` (create_transaction.py:89-561) as a change of the argument object and an outcome. -/
def create (X : Ext) : Step Tx := do
  let a ← args
  check (vListContains a.keys [py"inputs", py"design"])
  let allowDup := a.allowDup.getD .none
  let changeIdx := a.changeIdx.getD .none
  let design ← check ((a.design.getD .none).asDict)
  let design ← adjustDesignStep X.uni design
  let ins ← adjustInputsStep X.uni (a.inputs.getD .none)
  check (validateInputs X ins)
  let design ← validateDesignStep X design
  check (validateOptions allowDup changeIdx)
  let outsP ← check (dictGet design py"outputs")
  let outs ← check (vList outsP)
  let ca ← check (dictGet design py"change_address")
  let changeAddress ← check (vString ca)
  let maxFee ← check (dictGet design py"max_fee")
  let msp ← check (dictGet design py"max_spend_percentage")
  let pct ← check (msp.toFloat X.uni)
  let kind ← check (feeKind X.uni (dictOpt design py"fee") (dictOpt design py"fee_rate"))
  let ins ← markInputs X.uni ins
  let outs ← markOutputs X.uni design outs
  let txIns ← check (mapR (mkInput X) ins)
  let txOuts ← check (mapR (mkOutput X) outs)
  check (buildTx X txIns txOuts
    ((dictFind design py"input_selection_approaches").getD (.list [.str py"largest_first"])) kind maxFee pct changeAddress
    allowDup.truthy changeIdx)

end BT.Retry
