import Verif.TxSpec

/-!
# Histories of calls on one transaction object

A program that holds a transaction object calls `sign` on it and `set_satoshi_amount` on its outputs, in any order and
number, and catches the exceptions.
-/

namespace BT.Hist

/-- A call on a transaction object `tx`: `tx.sign(keys, random)` or `tx.outputs[output].set_satoshi_amount(satoshi)`. -/
inductive Call
  | sign (keys : List Str) (random : Option (List Str))
  | setAmount (output : Nat) (satoshi : Int)

/-- The object after the call, also if it raises, and the outcome (transaction.py:380-434, transaction_output.py:167-174). -/
def Call.run (X : Ext) (t : Tx) : Call → Tx × R Unit
  | .sign keys random => t.sign X keys random
  | .setAmount j n =>
    match t.outputs[j]? with
    | none => (t, .error .indexError)
    | some o => ({ t with outputs := t.outputs.set j (o.setSatoshi X.uni n).1 }, (o.setSatoshi X.uni n).2)

/-- The object after a history of calls. -/
def after (X : Ext) (t : Tx) : List Call → Tx
  | [] => t
  | c :: cs => after X (c.run X t).1 cs

/-- a call of `sign` -/
def Call.isSign : Call → Prop
  | .sign _ _ => True
  | .setAmount _ _ => False

/-- Some call of `sign` in the history returned, and no amount was touched after it. -/
def Signs (X : Ext) (t : Tx) (cs : List Call) : Prop :=
  ∃ pre keys random post, cs = pre ++ .sign keys random :: post ∧ (∀ c ∈ post, c.isSign) ∧
    ((after X t pre).sign X keys random).2 = .ok ()

/-- The amount of output `j`, first `a`, after the history if refused amounts are not stored: the last one of 1 satoshi to
21 million bitcoin. -/
def amountAfter (j : Nat) (a : Int) : List Call → Int
  | [] => a
  | .sign _ _ :: cs => amountAfter j a cs
  | .setAmount k n :: cs => amountAfter j (if k = j ∧ 1 ≤ n ∧ n ≤ Spec.maxMoney then n else a) cs

/-- No call sets an amount of more than 21 million bitcoin that fits into eight bytes. -/
def NoExcess (cs : List Call) : Prop :=
  ∀ c ∈ cs, match c with
    | .sign _ _ => True
    | .setAmount _ n => n ≤ Spec.maxMoney ∨ 2 ^ 64 ≤ n

end BT.Hist
