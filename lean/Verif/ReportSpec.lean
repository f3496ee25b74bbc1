import Verif.Report
import Verif.CreateSpec

/-!
# Specification of the report

What a reader takes from the lines that `create_transaction` logs.
-/

namespace BT.Report
open BT.Spec

/-- The lines that begin with `p`. -/
def about (p : Str) (log : List Str) : List Str := log.filter fun l => p.isPrefixOf l

/-- `s` is the number `n` of satoshi written in bitcoin: digits without leading zeros, a point and
exactly 8 digits. -/
def InBitcoin (u : UniDB) (n : Int) (s : Str) : Prop :=
  ∃ ip fp : Str, s = ip ++ '.' :: fp ∧ fp.length = 8 ∧ ip ≠ [] ∧ (∀ c ∈ ip ++ fp, c ∈ digits10) ∧
    (numeral u (ip ++ fp) : Int) = n ∧ (ip = ['0'] ∨ ip.head? ≠ some '0')

/-- `s` gives the amount `n` twice, in bitcoin and in satoshi. -/
def Amount (u : UniDB) (n : Int) (s : Str) : Prop :=
  ∃ b, InBitcoin u n b ∧ s = b ++ py" bitcoin (" ++ pyStr n ++ py" satoshi)"

/-- The report has exactly one line that begins with `label`, and the rest of this line is the amount `n`. -/
def Reports (u : UniDB) (log : List Str) (label : Str) (n : Int) : Prop :=
  ∃ s, Amount u n s ∧ about label log = [label ++ s]

/-- The report has exactly one line that begins with `label`, and this is `label ++ rest`. -/
def Tells (log : List Str) (label rest : Str) : Prop := about label log = [label ++ rest]

/-- The outputs `outs'` of the transaction contain the change `c` sent to `ca`: nothing was added to the
designed outputs and `c` is 0, or an output of `c` to `ca` was put in front of them, or it replaces a designed
output to `ca` of a smaller amount. -/
def ChangeIs (ca : Str) (outs outs' : List TxOut) (c : Int) : Prop :=
  (outs' = outs ∧ c = 0) ∨
  ∃ pre o post, outs' = pre ++ o :: post ∧ o.address = ca ∧ o.satoshi = c ∧
    ((pre = [] ∧ outs = post) ∨ ∃ o0, outs = pre ++ o0 :: post ∧ o0.address = ca ∧ o0.satoshi < c)

/-- `s` is the line for the `i`-th input: address, txid, index and amount of `x`. -/
def InputShown (u : UniDB) (i : Nat) (x : TxIn) (s : Str) : Prop :=
  ∃ b, InBitcoin u (x.satoshi.getD 0) b ∧
    s = py"Input " ++ pyStr i ++ py":\n- address: " ++ x.address ++ py"\n- txid: " ++ x.txid ++ py"\n- previous_output_index: " ++
      pyStr x.prevIndexInt ++ py"\n- bitcoin_amount: " ++ b ++ py" (" ++ pyStr (x.satoshi.getD 0) ++ py" satoshi)"

/-- `s` is the line for the `i`-th output: address and amount of `x`. -/
def OutputShown (u : UniDB) (i : Nat) (x : TxOut) (s : Str) : Prop :=
  ∃ b, InBitcoin u x.satoshi b ∧
    s = py"Output " ++ pyStr i ++ py":\n- address: " ++ x.address ++ py"\n- bitcoin_amount: " ++ b ++ py" (" ++ pyStr x.satoshi ++
      py" satoshi)"

/-- `lines` are the lines for the elements of `l`, in order, numbered from `n`. -/
inductive Listed {α : Type} (P : Nat → α → Str → Prop) : Nat → List α → List Str → Prop
  | nil (n : Nat) : Listed P n [] []
  | cons (n : Nat) (x : α) (xs : List α) (s : Str) (ss : List Str) : P n x s → Listed P (n + 1) xs ss → Listed P n (x :: xs) (s :: ss)

/-- `T` gives the total of each key of `l` once. -/
def Totals (l T : List (Str × Int)) : Prop :=
  (T.map Prod.fst).Nodup ∧ (∀ k, k ∈ T.map Prod.fst ↔ k ∈ l.map Prod.fst) ∧
    ∀ k v, (k, v) ∈ T → v = ((l.filter fun p => p.1 = k).map Prod.snd).sum

/-- `s` is the concatenation of texts of the elements of `l`. -/
inductive Joined {α : Type} (P : α → Str → Prop) : List α → Str → Prop
  | nil : Joined P [] []
  | cons (x : α) (xs : List α) (s ss : Str) : P x s → Joined P xs ss → Joined P (x :: xs) (s ++ ss)

/-- `s` is a number with exactly `k` decimal places, and its value is `v`. -/
def Places (u : UniDB) (k : Nat) (s : Str) (v : ℚ) : Prop :=
  ∃ ip fp : Str, s = ip ++ '.' :: fp ∧ fp.length = k ∧ ip ≠ [] ∧ (∀ c ∈ ip ++ fp, c ∈ digits10) ∧
    v = (numeral u (ip ++ fp) : ℚ) / 10 ^ k

/-- The texts with which `create_transaction` refuses a request for `outs` from `ins`, with the change address `ca`, the
maximum fee `cap` and the percentage `pct`. -/
inductive Refusal (X : Ext) (a : Args) (ins : List TxIn) (outs : List TxOut) (ca : Str) (cap : Int) (pct : ℚ) : Err → Str → Prop
  /-- An approach that is declared but not implemented. -/
  | approach (m : Str) : setting a py"input_selection_approaches" = some (.list [.str m]) →
      m ∈ [py"any_address", py"one_address_at_a_time", py"largest_address_first", py"smallest_address_first"] →
      Refusal X a ins outs ca cap pct .notImplementedError (py"Unrecognised input_selection_approach: " ++ m)
  /-- `n > 1` outputs pay `ad`. -/
  | duplicate (ad : Str) (n : Nat) : a.allowDup ≠ some (.bool true) → n = (outs.filter fun o => o.address = ad).length → 1 < n →
      Refusal X a ins outs ca cap pct .duplicateOutputAddress (py"Multiple outputs (" ++ pyStr n ++ py") send to this address: " ++ ad)
  /-- The fee is above the cap. -/
  | cap (fee : Int) : FeeFor X a ins.length outs.length fee → cap < fee →
      Refusal X a ins outs ca cap pct .valueError
        (py"The fee (" ++ pyStr fee ++ py" satoshi) is greater than the specified maximum fee (" ++ pyStr cap ++ py" satoshi).")
  /-- The inputs do not cover the outputs: `d` is missing. -/
  | outputs (d : Int) (s : Str) : inTotal ins < outTotal outs → d = outTotal outs - inTotal ins → Amount X.uni d s →
      Refusal X a ins outs ca cap pct .outputValueNotCovered
        (py"Total available input value is less than total output value.\n- Shortfall: " ++ s)
  /-- The inputs cover the outputs, but not the fee: `d` is missing. -/
  | outputsFee (fee d : Int) (s : Str) : FeeFor X a ins.length outs.length fee → outTotal outs ≤ inTotal ins →
      inTotal ins < outTotal outs + fee → d = outTotal outs + fee - inTotal ins → Amount X.uni d s →
      Refusal X a ins outs ca cap pct .outputAndFeeValueNotCovered
        (py"Total available input value is less than total output + fee value.\n- Shortfall: " ++ s)
  /-- `n > 1` outputs pay the change address, and no index was given. -/
  | ambiguous (n : Nat) : a.changeIdx.getD .none = .none → n = (outs.filter fun o => o.address = ca).length → 1 < n →
      Refusal X a ins outs ca cap pct .valueError (py"Multiple outputs (" ++ pyStr n ++ py") send to the change address: " ++ ca)
  /-- `n > 1` outputs pay the change address, and the given index `k` does not choose one of them. -/
  | index (n : Nat) (k : Int) : a.changeIdx = some (.int k) → n = (outs.filter fun o => o.address = ca).length → 1 < n → n ≤ k →
      Refusal X a ins outs ca cap pct .valueError
        (py"change_output_index (" ++ pyStr k ++ py") must be less than the number of change outputs (" ++ pyStr n ++ py").")
  /-- The transaction spends more than the given percentage of the inputs; a larger percentage is advised. -/
  | limit (fee spend lim ch : Int) (outs' : List TxOut) (s1 s2 : Str) (p k : Int) : FeeFor X a ins.length outs.length fee →
      ChangeIs ca outs outs' ch → spend = outTotal outs' + fee - ch → lim < spend → |lim - ⌈pct / 100 * inTotal ins⌉| ≤ 1 →
      InBitcoin X.uni spend s1 → InBitcoin X.uni lim s2 → |(p : ℚ) - pct| ≤ 0.51 →
      (k : ℚ) - 1 ≤ 100 * ((spend : ℚ) / inTotal ins) + 1 / 10 ^ 7 → 100 * ((spend : ℚ) / inTotal ins) < k + 1 / 10 ^ 7 →
      Refusal X a ins outs ca cap pct .valueError
        (py"Spend amount (" ++ s1 ++ py" bitcoin) is greater than the maximum permitted spend amount (" ++ s2 ++
          py" bitcoin). To spend this amount, you will need to increase the --max-spend-percentage value from " ++ pyStr p ++ py" to " ++
          pyStr k ++ py".")

/-- The same call with another percentage. -/
def OtherPercentage (a b : Args) (k : Int) : Prop :=
  b.inputs = a.inputs ∧ b.allowDup = a.allowDup ∧ b.changeIdx = a.changeIdx ∧
    ∃ d d', a.design = some (.dict d) ∧ b.design = some (.dict d') ∧ (∀ key, key ≠ py"max_spend_percentage" → dictFind d' key = dictFind d key) ∧
      dictFind d' py"max_spend_percentage" = some (.int k)

end BT.Report
