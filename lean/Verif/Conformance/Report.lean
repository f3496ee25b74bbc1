import Verif.Props.ReportWit
import Verif.Conformance.Base

/-!
# The log of README.md, lines 787-836

Generated by `tools/logvectors.py`: do not edit.  Tests, not proofs.  Two of the lines are as the present code prints
them, not as in the README, which was written for an earlier version: `previous_output_index` of the sorted inputs, and
the order of the two numbers in "Change amount".
-/

set_option linter.all false
set_option maxRecDepth 100000

namespace BT.Conformance

open BT.Concrete

/-- The arguments of README.md, lines 665-698. -/
def argsLog : Args :=
  { inputs := some (.list [.dict [(py"address", .str py"1CTumCMjzBfccCJBTkHoPQmAwEqU9Uj2sQ"), (py"transaction_id", .str
      py"8482e48391425d88fe30bd4066957000335f58e83f854f997146f41b9493b4ce"), (py"previous_output_index", .int 9),
      (py"bitcoin_amount", .str py"0.002")]])
    design := some (.dict [(py"change_address", .str py"1CTumCMjzBfccCJBTkHoPQmAwEqU9Uj2sQ"), (py"fee", .int 225),
      (py"max_fee", .int 250), (py"max_spend_percentage", .str py"100.00"), (py"outputs", .list [.dict
      [(py"address", .str py"12RbVkKwHcwHbMZmnSVAyR4g88ZChpQD6f"), (py"bitcoin_amount", .str py"0.00199775")]])]) }

/-- README.md, lines 787-836 -/
example : linesOf (Report.create exE Xreal argsLog) = ([
  py"All arguments validated. No problems found.",
  py"Report supplied data for inputs and outputs.",
  py"Input 0:\n- address: 1CTumCMjzBfccCJBTkHoPQmAwEqU9Uj2sQ\n- txid: 8482e48391425d88fe30bd4066957000335f58e83f854f997146f41b9493b4ce\n- previous_output_index: 9\n- bitcoin_amount: 0.002 (200000 satoshi)",
  py"Output 0:\n- address: 12RbVkKwHcwHbMZmnSVAyR4g88ZChpQD6f\n- bitcoin_amount: 0.00199775 (199775 satoshi)",
  py"Number of inputs: 1",
  py"Number of outputs: 1",
  py"1 inputs sorted according to the input selection approach: ['largest_first']",
  py"Report inputs (now sorted) and outputs.",
  py"Input 0:\n- address: 1CTumCMjzBfccCJBTkHoPQmAwEqU9Uj2sQ\n- txid: 8482e48391425d88fe30bd4066957000335f58e83f854f997146f41b9493b4ce\n- previous_output_index: 9\n- bitcoin_amount: 0.00200000 (200000 satoshi)",
  py"Output 0:\n- address: 12RbVkKwHcwHbMZmnSVAyR4g88ZChpQD6f\n- bitcoin_amount: 0.00199775 (199775 satoshi)",
  py"Input addresses and the value that they each contain:\n- 1CTumCMjzBfccCJBTkHoPQmAwEqU9Uj2sQ: 0.00200000 bitcoin (200000 satoshi), 1 input.",
  py"Output addresses, with total value to be sent to each:\n- 12RbVkKwHcwHbMZmnSVAyR4g88ZChpQD6f: 0.00199775 bitcoin (199775 satoshi)",
  py"Estimated transaction size: 223 bytes",
  py"Fee type: fee",
  py"Fee: 225 (satoshi)",
  py"Transaction fee: 225 satoshi",
  py"Estimated fee rate: 1.0090 satoshi/byte",
  py"Maximum fee: 250 satoshi",
  py"Total available input value: 0.00200000 bitcoin (200000 satoshi)",
  py"Total output value: 0.00199775 bitcoin (199775 satoshi)",
  py"Total available input value is less than or equal to total output value.",
  py"Total output + fee value: 0.00200000 bitcoin (200000 satoshi)",
  py"Total available input value exactly matches total output + fee value.",
  py"Selected inputs: 0",
  py"Total selected input value: 0.00200000 bitcoin (200000 satoshi)",
  py"Total selected input value exactly matches total output + fee value.",
  py"Change amount: 0.00000000 bitcoin (0 satoshi)",
  py"Maximum percentage of input value (prior to fee subtraction) that can be spent: 100.00%\n- Note: \"spend\" == send bitcoin to any address that is not the change address.",
  py"Maximum spend amount: 0.00200000 bitcoin (200000 satoshi)",
  py"Spend amount: 0.00200000 bitcoin (200000 satoshi)",
  py"The spend amount is 100.00% of the available input value.",
  py"The spend amount is 100.00% of the maximum permitted spend amount.",
  py"Transaction created."], none) := by decide +kernel

end BT.Conformance
