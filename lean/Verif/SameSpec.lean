import Verif.CreateSpec

/-!
# Specification vocabulary: arguments of `create_transaction` that mean the same
-/

namespace BT.Spec

/-- Both settings are given with the same value, or both are absent, or both are whole numbers and the
numbers are equal (`1000`, `'1000'`, `' 1_000 '`). -/
def SameNumber (u : UniDB) (x y : Option PVal) : Prop :=
  x = y ∨ ∃ v w n, x = some v ∧ y = some w ∧ NumberOf u v n ∧ NumberOf u w n

/-- The same, for a rate or percentage (`2`, `'2'`, `'2.0'`, `'02.00'`). -/
def SameRate (u : UniDB) (x y : Option PVal) : Prop :=
  x = y ∨ ∃ v w q, x = some v ∧ y = some w ∧ GoodRate u v q ∧ GoodRate u w q

/-- The same approach, where the default may be written out or left out. -/
def SameMode (x y : Option PVal) : Prop :=
  x.getD (.list [.str py"largest_first"]) = y.getD (.list [.str py"largest_first"])

/-- The same option, where `None` may be written out or left out. -/
def SameOption (x y : Option PVal) : Prop := x.getD .none = y.getD .none

/-- The same flag, where `None` and `False` may be written out or left out. -/
def SameFlag (x y : Option PVal) : Prop :=
  SameOption x y ∨
    ((x.getD .none = .none ∨ x.getD .none = .bool false) ∧ (y.getD .none = .none ∨ y.getD .none = .bool false))

/-- Each entry has exactly the documented keys (in any order). -/
def KeysAre (keys : List Str) (x : PVal) : Prop := ∃ d, x = .dict d ∧ (dictKeys d).Perm keys

/-- The arguments offer the coins `ins` and ask for the payments `outs`, all of them with positive amounts and with
exactly the documented keys. -/
def PositiveRequest (X : Ext) (a : Args) (ins : List TxIn) (outs : List TxOut) : Prop :=
  ∃ insD outsD, a.inputs = some (.list insD) ∧ setting a py"outputs" = some (.list outsD) ∧
    List.Forall₂ (Offers X) insD ins ∧ List.Forall₂ (Asks X) outsD outs ∧
    (∀ x ∈ insD, KeysAre [py"address", py"transaction_id", py"previous_output_index", py"bitcoin_amount"] x) ∧
    (∀ x ∈ outsD, KeysAre [py"address", py"bitcoin_amount"] x) ∧
    (∀ i ∈ ins, 0 < i.satoshi.getD 0) ∧ (∀ o ∈ outs, 0 < o.satoshi)

/-- The settings of two argument objects mean the same. Nothing is said about the order of the settings, nor about settings
under other names. -/
structure SameSettings (u : UniDB) (a b : Args) : Prop where
  change : setting a py"change_address" = setting b py"change_address"
  fee : SameNumber u (setting a py"fee") (setting b py"fee")
  cap : SameNumber u (setting a py"max_fee") (setting b py"max_fee")
  rate : SameRate u (setting a py"fee_rate") (setting b py"fee_rate")
  pct : SameRate u (setting a py"max_spend_percentage") (setting b py"max_spend_percentage")
  mode : SameMode (setting a py"input_selection_approaches") (setting b py"input_selection_approaches")
  dup : SameFlag a.allowDup b.allowDup
  idx : SameOption a.changeIdx b.changeIdx

/-- What a call yields: the transaction, or the exception. -/
def outcome (r : R (Tx × Args)) : R Tx := r.map Prod.fst

end BT.Spec
