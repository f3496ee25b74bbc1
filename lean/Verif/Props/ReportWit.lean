import Verif.Lemmas.ReportDone
import Verif.Props.ReportAdvice
import Verif.Concrete.SampleCreate

/-!
# C110, C112-C114: concrete runs

The report for sample arguments in the toy environment, evaluated by the kernel: the hypotheses of the theorems
about the report are met, and the statements that the report does not keep.
-/

namespace BT
open Spec Report Concrete

variable {E : Msg.Env} {X : Ext}

/-- C114: `create_transaction` logs "Transaction created." exactly when it returns a transaction, unless
`input_selection_approaches` is this very text. -/
theorem C114_created_partial {a : Args} (h : ∀ v, setting a py"input_selection_approaches" = some v → str E v ≠ py"Transaction created.") :
    py"Transaction created." ∈ (Report.create E X a).log ↔ ∃ t a', (Report.create E X a).res = .ok (t, a') := by
  have := (create_done (E := E) (X := X) (a := a) fun v hv e => h v hv e.symm).iff
  refine this.trans ⟨?_, ?_⟩
  · rintro ⟨⟨t, a'⟩, h⟩; exact ⟨t, a', h⟩
  · rintro ⟨t, a', h⟩; exact ⟨_, h⟩

/-- a `float.__repr__` for the examples -/
def exE : Msg.Env := ⟨fun _ => py"1.5", fun _ => false⟩

/-- what is looked at in a run: the lines and the exception -/
def linesOf (m : L (Tx × Args)) : List Str × Option (Err × Option Str) :=
  (m.log, match m.res with
    | .ok _ => none
    | .error e => some e)

/-- one input of 0.0007, one output of 0.0005 bitcoin and a fee that leaves no surplus -/
def argsExact : Args :=
  argsOf [inD 1 'a' (.int 3) py"0.0007"] [outD 2 py"0.0005"] [(py"fee", .int 20000)]

/-- the same at 50 percent -/
def argsHalf : Args :=
  { inputs := some (.list [inD 1 'a' (.int 3) py"0.0007"])
    design := some (.dict [(py"change_address", .str (toyAddr 3)), (py"max_fee", .int 250000),
      (py"max_spend_percentage", .str py"50.00"), (py"outputs", .list [outD 2 py"0.0005"]), (py"fee", .int 20000)]) }

/-- what is looked at in a successful run with its lines -/
def seenTx (m : L (Tx × Args)) : Option (List Int × List Int) :=
  match m.res with
  | .ok (t, _) => some (t.inputs.map fun i => i.satoshi.getD 0, t.outputs.map fun o => o.satoshi)
  | .error _ => none

/-- C110, violated: the one offered input is an input of the returned transaction, and the report says that none was
selected. -/
theorem C110_selected_violation : seenTx (Report.create exE Xtoy argsExact) = some ([70000], [50000]) ∧
    about py"Selected inputs: " (Report.create exE Xtoy argsExact).log = [py"Selected inputs: 0"] := by
  decide +kernel

/-- C110, violated: 190000 satoshi are offered for outputs of 110000 satoshi, and the report says "less than or equal". -/
theorem C110_available_violation :
    py"Total available input value: 0.00190000 bitcoin (190000 satoshi)" ∈ (Report.create exE Xtoy argsFee).log ∧
    py"Total output value: 0.00110000 bitcoin (110000 satoshi)" ∈ (Report.create exE Xtoy argsFee).log ∧
    py"Total available input value is less than or equal to total output value." ∈ (Report.create exE Xtoy argsFee).log := by
  decide +kernel

/-- C109-C111: a run that meets the hypotheses, with its report. -/
example : seenTx (Report.create exE Xtoy argsFee) = some ([90000, 70000], [49000, 50000, 60000]) ∧
    (Report.create exE Xtoy argsFee).log.drop 18 = [
      py"Estimated transaction size: 615 bytes", py"Fee type: fee", py"Fee: 1000 (satoshi)", py"Transaction fee: 1000 satoshi",
      py"Estimated fee rate: 1.6260 satoshi/byte", py"Maximum fee: 250000 satoshi",
      py"Total available input value: 0.00190000 bitcoin (190000 satoshi)",
      py"Total output value: 0.00110000 bitcoin (110000 satoshi)",
      py"Total available input value is less than or equal to total output value.",
      py"Total output + fee value: 0.00111000 bitcoin (111000 satoshi)",
      py"Total available input value is greater than total output + fee value.\n- Surplus value: 0.00079000 bitcoin (79000 satoshi)",
      py"Selecting inputs according to input selection approaches ['largest_first'] until [total selected input value] exceeds [total output + fee value].",
      py"Selected inputs: 2", py"Total selected input value: 0.00160000 bitcoin (160000 satoshi)",
      py"Total selected input value is greater than total output + fee value.\n- Surplus value: 0.00049000 bitcoin (49000 satoshi)\n- This extra value will be sent to the change address.\n- Change address: " ++ toyAddr 3,
      py"New output created to send change to change address.", py"New number of outputs: 3",
      py"New total output value: 0.00159000 bitcoin (159000 satoshi)",
      py"New total output + fee value: 0.00160000 bitcoin (160000 satoshi)",
      py"Change amount: 0.00049000 bitcoin (49000 satoshi)",
      py"Maximum percentage of input value (prior to fee subtraction) that can be spent: 100.00%\n- Note: \"spend\" == send bitcoin to any address that is not the change address.",
      py"Maximum spend amount: 0.00190000 bitcoin (190000 satoshi)", py"Spend amount: 0.00111000 bitcoin (111000 satoshi)",
      py"The spend amount is 58.42% of the available input value.",
      py"The spend amount is 58.42% of the maximum permitted spend amount.", py"Transaction created."] := by
  decide +kernel

/-- the refusal of a call -/
def refusal (a : Args) : Option (Err × Option Str) := (linesOf (Report.create exE Xtoy a)).2

/-- C112: an approach that is not implemented. -/
example : refusal (argsOf [inD 1 'a' (.int 3) py"0.0007"] [outD 2 py"0.0005"]
        [(py"fee", .int 1000), (py"input_selection_approaches", .list [.str py"any_address"])]) =
      some (.notImplementedError, some py"Unrecognised input_selection_approach: any_address") := by decide +kernel

/-- C112: two outputs to one address. -/
example : refusal (argsOf [inD 1 'a' (.int 3) py"0.0007"] [outD 2 py"0.0001", outD 1 py"0.0001", outD 2 py"0.0001"] [(py"fee", .int 1000)]) =
      some (.duplicateOutputAddress, some (py"Multiple outputs (2) send to this address: " ++ toyAddr 2)) := by decide +kernel

/-- C112: the fee above the cap. -/
example : refusal (argsOf [inD 1 'a' (.int 3) py"0.07"] [outD 2 py"0.0005"] [(py"fee", .int 250001)]) =
      some (.valueError, some py"The fee (250001 satoshi) is greater than the specified maximum fee (250000 satoshi).") := by decide +kernel

/-- C112: inputs that do not cover the outputs. -/
example : refusal (argsOf [inD 1 'a' (.int 3) py"0.0007"] [outD 2 py"0.00070001"] [(py"fee", .int 1000)]) =
      some (.outputValueNotCovered, some
        py"Total available input value is less than total output value.\n- Shortfall: 0.00000001 bitcoin (1 satoshi)") := by decide +kernel

/-- C112: inputs that do not cover the fee. -/
example : refusal (argsOf [inD 1 'a' (.int 3) py"0.0007"] [outD 2 py"0.0007"] [(py"fee", .int 1000)]) =
      some (.outputAndFeeValueNotCovered, some
        py"Total available input value is less than total output + fee value.\n- Shortfall: 0.00001000 bitcoin (1000 satoshi)") := by decide +kernel

/-- C112: two outputs to the change address. -/
example : refusal { argsOf [inD 1 'a' (.int 3) py"0.0007"] [outD 3 py"0.0001", outD 3 py"0.0001"] [(py"fee", .int 1000)] with
        allowDup := some (.bool true) } =
      some (.valueError, some (py"Multiple outputs (2) send to the change address: " ++ toyAddr 3)) := by decide +kernel

/-- C112: an index of change outputs out of range. -/
example : refusal { argsOf [inD 1 'a' (.int 3) py"0.0007"] [outD 3 py"0.0001", outD 3 py"0.0001"] [(py"fee", .int 1000)] with
        allowDup := some (.bool true), changeIdx := some (.int 2) } =
      some (.valueError, some py"change_output_index (2) must be less than the number of change outputs (2).") := by decide +kernel

/-- C112: the percentage. -/
example : refusal argsHalf = some (.valueError, some
      py"Spend amount (0.00070000 bitcoin) is greater than the maximum permitted spend amount (0.00035000 bitcoin). To spend this amount, you will need to increase the --max-spend-percentage value from 50 to 101.") := by decide +kernel

/-- the percentage of `argsHalf` and the fee replaced -/
def argsPct (pct : PVal) (fee : Int) : Args :=
  { inputs := some (.list [inD 1 'a' (.int 3) py"0.0007"])
    design := some (.dict [(py"change_address", .str (toyAddr 3)), (py"max_fee", .int 250000),
      (py"max_spend_percentage", pct), (py"outputs", .list [outD 2 py"0.0005"]), (py"fee", .int fee)]) }

/-- C113: the advice is followed. -/
example : refusal (argsPct (.int 50) 1000) = some (.valueError, some
      py"Spend amount (0.00051000 bitcoin) is greater than the maximum permitted spend amount (0.00035000 bitcoin). To spend this amount, you will need to increase the --max-spend-percentage value from 50 to 73.") ∧
    view (createTransaction Xtoy (argsPct (.int 73) 1000)) = some (some 1000, [70000], [(toyAddr 3, 19000), (toyAddr 2, 50000)]) ∧
    OtherPercentage (argsPct (.int 50) 1000) (argsPct (.int 73) 1000) 73 := by
  refine ⟨by decide +kernel, by decide +kernel, rfl, rfl, rfl, _, _, rfl, rfl, ?_, rfl⟩
  intro key hk
  simp [dictFind, Ne.symm hk]

/-- C113, violated: with the advised 101 percent the call is refused as well. -/
theorem C113_argsHalf_violation : refusal argsHalf = some (.valueError, some
      py"Spend amount (0.00070000 bitcoin) is greater than the maximum permitted spend amount (0.00035000 bitcoin). To spend this amount, you will need to increase the --max-spend-percentage value from 50 to 101.") ∧
    view (createTransaction Xtoy (argsPct (.int 101) 20000)) = none ∧
    view (createTransaction Xtoy (argsPct (.int 100) 20000)) = some (some 20000, [70000], [(toyAddr 2, 50000)]) := by
  refine ⟨?_, ?_, ?_⟩ <;> decide +kernel

/-- C114, violated: this call fails, and it logs "Transaction created.". -/
theorem C114_forged_violation :
    linesOf (Report.create exE Xtoy (argsOf [inD 1 'a' (.int 3) py"0.0007"] [outD 2 py"0.0005"]
      [(py"fee", .int 20000), (py"input_selection_approaches", .str py"Transaction created.")])) =
    ([py"Transaction created."], some (.typeError, none)) := by
  decide +kernel

/-- C114: the hypothesis is met. -/
example : (∀ v, setting argsFee py"input_selection_approaches" = some v → str exE v ≠ py"Transaction created.") ∧
    py"Transaction created." ∈ (Report.create exE Xtoy argsFee).log := by
  refine ⟨?_, by decide +kernel⟩
  intro v hv
  simp [setting, argsFee, argsOf, entry, dictFind] at hv

end BT
