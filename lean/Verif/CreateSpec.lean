import Verif.Create
import Verif.TxSpec

/-!
# Specification vocabulary for `create_transaction`

How the argument data are to be read: which spendable outputs are offered, which payments are
asked for, and what the settings of the design say.
-/

namespace BT.Spec

/-- `x[k]` if `x` is a dict that has the key `k`. -/
def entry (x : PVal) (k : Str) : Option PVal :=
  match x with
  | .dict d => dictFind d k
  | _ => none

/-- `p` is a dict with the address, transaction id, output index and bitcoin amount of a
spendable output, and `i` is the input object `TransactionInput.create` makes for it. -/
def Offers (X : Ext) (p : PVal) (i : TxIn) : Prop :=
  ∃ (a txid : Str) (v : PVal) (idx : Int) (s : Str) (sat : Nat),
    entry p py"address" = some (.str a) ∧ entry p py"transaction_id" = some (.str txid) ∧
    entry p py"previous_output_index" = some v ∧ v.toInt X.uni = .ok idx ∧
    entry p py"bitcoin_amount" = some (.str s) ∧ AmountOf X.uni s sat ∧
    TxIn.create X a txid idx sat = .ok i

/-- `p` is a dict with an address and a bitcoin amount to be paid, and `o` is the output object
`TransactionOutput.create` makes for it. -/
def Asks (X : Ext) (p : PVal) (o : TxOut) : Prop :=
  ∃ (a s : Str) (sat : Nat),
    entry p py"address" = some (.str a) ∧ entry p py"bitcoin_amount" = some (.str s) ∧
    AmountOf X.uni s sat ∧ TxOut.create X a sat = .ok o

/-- A setting of the design. -/
def setting (a : Args) (k : Str) : Option PVal := a.design.bind fun x => entry x k

/-- The arguments offer exactly the inputs `ins` and ask for exactly the outputs `outs`, in
this order. -/
def Request (X : Ext) (a : Args) (ins : List TxIn) (outs : List TxOut) : Prop :=
  ∃ insD outsD, a.inputs = some (.list insD) ∧ setting a py"outputs" = some (.list outsD) ∧
    List.Forall₂ (Offers X) insD ins ∧ List.Forall₂ (Asks X) outsD outs

/-- Total of a list of inputs in satoshi. -/
def inTotal (l : List TxIn) : Int := (l.map fun i => i.satoshi.getD 0).sum

/-- Total of a list of outputs in satoshi. -/
def outTotal (l : List TxOut) : Int := (l.map fun o => o.satoshi).sum

/-- A number given as an `int` or as a string of digits. -/
def NumberOf (u : UniDB) (v : PVal) (n : Int) : Prop :=
  v = .int n ∨ ∃ s, v = .str s ∧ pyInt u 10 s = .ok n

/-- `s` is written with decimal digits, optionally with a point, and denotes `q`. -/
def DecimalText (u : UniDB) (s : Str) (q : ℚ) : Prop :=
  ∃ ip fp : Str, (s = ip ++ '.' :: fp ∨ (s = ip ∧ fp = [])) ∧ ip ++ fp ≠ [] ∧
    (∀ c ∈ ip ++ fp, (decVal u c).isSome = true) ∧
    q = (numeral u (ip ++ fp) : ℚ) / 10 ^ fp.length

/-- The fee rate `q` (satoshi per byte) is given as an `int`, as a decimal string or as the
float 0.0 (other floats are refused). -/
def RateOf (u : UniDB) (v : PVal) (q : ℚ) : Prop :=
  (∃ n : Int, v = .int n ∧ q = n) ∨ (∃ s, v = .str s ∧ DecimalText u s q) ∨
    (v = .float (.fin 0) ∧ q = 0)

/-- A rate or percentage in one of the documented forms: a whole number, or a string of digits, or
digits, a point and digits. -/
def GoodRate (u : UniDB) (v : PVal) (q : ℚ) : Prop :=
  (∃ n : Nat, v = .int n ∧ q = n) ∨
  ∃ ip fp : Str, ip ≠ [] ∧ ((v = .str (ip ++ '.' :: fp) ∧ fp ≠ []) ∨ (v = .str ip ∧ fp = [])) ∧
    (∀ c ∈ ip ++ fp, (decVal u c).isSome = true) ∧ q = (numeral u (ip ++ fp) : ℚ) / 10 ^ fp.length

/-- The approach `m` is asked for; `largest_first` is the default. -/
def Mode (a : Args) (m : Str) : Prop :=
  setting a py"input_selection_approaches" = some (.list [.str m]) ∨
    (setting a py"input_selection_approaches" = none ∧ m = py"largest_first")

/-- `outs'` is the list of designed outputs `outs` after a surplus `s` was given to the change
address `ca`: nothing changes if there is no surplus; an output to `ca` with the surplus is put
in front if no designed output pays `ca`; otherwise one output to `ca` is raised by the surplus,
namely the only one or the one with index `idx` among them. -/
inductive WithChange (X : Ext) (ca : Str) (idx : Option PVal) (s : Int) : List TxOut → List TxOut → Prop
  | exact (outs : List TxOut) : s = 0 → WithChange X ca idx s outs outs
  | new (outs : List TxOut) (c : TxOut) : 0 < s → (∀ o ∈ outs, o.address ≠ ca) →
      TxOut.create X ca s = .ok c → WithChange X ca idx s outs (c :: outs)
  | raised (pre : List TxOut) (o : TxOut) (post : List TxOut) (c : TxOut) : 0 < s → o.address = ca →
      TxOut.create X ca (o.satoshi + s) = .ok c →
      ((∀ x ∈ pre ++ post, x.address ≠ ca) ∨
        ∃ k : Nat, (pre.filter fun x => x.address = ca).length = k ∧
          (idx = some (.int k) ∨ (idx = some (.bool true) ∧ k = 1) ∨
            (idx = some (.bool false) ∧ k = 0))) →
      WithChange X ca idx s (pre ++ o :: post) (pre ++ c :: post)

/-- The change can be allocated: at most one designed output pays the change address, or
`change_output_index` chooses one of those that do. -/
def CanAllocate (outs : List TxOut) (ca : Str) (idx : Option PVal) : Prop :=
  (outs.filter fun o => o.address = ca).length ≤ 1 ∨
    ∃ k : Nat, idx = some (.int k) ∧ k < (outs.filter fun o => o.address = ca).length

/-- Estimated size of a transaction with `n` inputs and `m` outputs (see C44). -/
def estSize (n m : Nat) : Int := 10 + 179 * n + 34 * m

/-- `fee` is the fee the design asks for, for `n` offered inputs and `m` designed outputs: a
non-zero `fee`, or (without one) the rate times the estimated size, rounded up, give or take one
satoshi for the float arithmetic; exactly the product for a whole-number rate. -/
def FeeFor (X : Ext) (a : Args) (n m : Nat) (fee : Int) : Prop :=
  (∃ v, setting a py"fee" = some v ∧ NumberOf X.uni v fee ∧ fee ≠ 0) ∨
  ((∀ w k, setting a py"fee" = some w → NumberOf X.uni w k → k = 0) ∧
    ∃ v q, setting a py"fee_rate" = some v ∧ RateOf X.uni v q ∧ 0 ≤ q ∧
      |fee - ⌈(estSize n m : ℚ) * q⌉| ≤ 1 ∧ (∀ r : Int, q = r → fee = estSize n m * r))

/-- Well-formed arguments, as the README describes them: a request for positive amounts with
exactly the documented keys, a change address, either a positive fee or a fee rate, a cap on the
fee, a percentage, an implemented approach, and valid options. -/
structure WellFormed (X : Ext) (a : Args) (ins : List TxIn) (outs : List TxOut) (ca m : Str)
    (cap : Nat) (pct : ℚ) : Prop where
  request : Request X a ins outs
  in_keys : ∀ l, a.inputs = some (.list l) → ∀ x ∈ l, ∃ d, x = .dict d ∧
    (dictKeys d).Perm [py"address", py"transaction_id", py"previous_output_index", py"bitcoin_amount"]
  out_keys : ∀ l, setting a py"outputs" = some (.list l) → ∀ x ∈ l, ∃ d, x = .dict d ∧
    (dictKeys d).Perm [py"address", py"bitcoin_amount"]
  ins_pos : ∀ i ∈ ins, 0 < i.satoshi.getD 0
  outs_pos : ∀ o ∈ outs, 0 < o.satoshi
  outs_ne : outs ≠ []
  change : setting a py"change_address" = some (.str ca)
  change_valid : ∃ h, AddressOf X.sha256 ca h ∧ ∃ x ∈ h, x ≠ 0
  cap_set : ∃ v, setting a py"max_fee" = some v ∧ NumberOf X.uni v cap
  pct_set : ∃ v, setting a py"max_spend_percentage" = some v ∧ GoodRate X.uni v pct
  pct_le : pct ≤ 100
  mode : Mode a m
  mode_impl : m = py"largest_first" ∨ m = py"smallest_first" ∨ m = py"all"
  fee_set : (∃ v n, setting a py"fee" = some v ∧ NumberOf X.uni v n ∧ 0 < n ∧ n ≤ 2100000000000000 ∧
      setting a py"fee_rate" = none) ∨
    (∃ v q, setting a py"fee" = none ∧ setting a py"fee_rate" = some v ∧ GoodRate X.uni v q ∧
      (estSize ins.length outs.length : ℚ) * q ≤ 2099999999999999)
  dup_set : a.allowDup = none ∨ ∃ b, a.allowDup = some (.bool b)
  idx_set : a.changeIdx = none ∨ ∃ k : Nat, a.changeIdx = some (.int k)
  n_in : ins.length ≤ 252
  n_out : outs.length ≤ 251
  in_money : inTotal ins ≤ 2100000000000000
  out_money : outTotal outs ≤ 2100000000000000

end BT.Spec
