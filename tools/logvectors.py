#!/usr/bin/env python3
"""Generates lean/Verif/Conformance/Report.lean from the log that README.md shows (lines 787-836)."""
import re, os
src = open('/repo/README.md').read().split('\n')[787 - 1:840]
lines = []
for l in src:
    m = re.match(r'INFO     \[[^\]]*\] (.*)$', l)
    if m:
        lines.append(m.group(1))
    elif l.startswith('- '):
        lines[-1] += '\n' + l
    elif l == '{':
        break
# The README was written for an earlier version: the two lines that the current code prints differently
# (create_transaction.py:247 previous_output_index_int; create_transaction.py:512-513 order of the arguments).
old = {
    '- previous_output_index: 09000000': '- previous_output_index: 9',
    'Change amount: 0 bitcoin (0.00000000 satoshi)': 'Change amount: 0.00000000 bitcoin (0 satoshi)',
}
n = 0
for i, l in enumerate(lines):
    for o, w in old.items():
        if o in l:
            lines[i] = l = l.replace(o, w)
            n += 1
assert n == 2, n
assert len(lines) == 33, len(lines)
def q(s):
    return 'py"' + s.replace('\\', '\\\\').replace('"', '\\"').replace('\n', '\\n') + '"'
out = '''import Verif.Props.ReportWit
import Verif.Conformance.Base

/-!
# The log of README.md, lines 787-836

Generated by `tools/logvectors.py`: do not edit.  Tests, not proofs.  Two of the lines are as the present code prints
them, not as in the README, which was written for an earlier version: `previous_output_index` of the sorted inputs, and
the order of the two numbers in "Change amount".
-/

set_option linter.all false
set_option maxRecDepth 100000

namespace BT.Conformance

open BT.Concrete

/-- The arguments of README.md, lines 665-698. -/
def argsLog : Args :=
  { inputs := some (.list [.dict [(py"address", .str py"1CTumCMjzBfccCJBTkHoPQmAwEqU9Uj2sQ"), (py"transaction_id", .str
      py"8482e48391425d88fe30bd4066957000335f58e83f854f997146f41b9493b4ce"), (py"previous_output_index", .int 9),
      (py"bitcoin_amount", .str py"0.002")]])
    design := some (.dict [(py"change_address", .str py"1CTumCMjzBfccCJBTkHoPQmAwEqU9Uj2sQ"), (py"fee", .int 225),
      (py"max_fee", .int 250), (py"max_spend_percentage", .str py"100.00"), (py"outputs", .list [.dict
      [(py"address", .str py"12RbVkKwHcwHbMZmnSVAyR4g88ZChpQD6f"), (py"bitcoin_amount", .str py"0.00199775")]])]) }

/-- README.md, lines 787-836 -/
example : linesOf (Report.create exE Xreal argsLog) = ([
'''
out += ',\n'.join('  ' + q(l) for l in lines)
out += '''], none) := by decide +kernel

end BT.Conformance
'''
p = os.path.join(os.path.dirname(__file__), '../lean/Verif/Conformance/Report.lean')
open(p, 'w').write(out)
