import Verif.LedgerSpec

/-!
# Specification vocabulary: requests in good order

What a user has to give to the program so that it can be asked whether the request is met (C140): readable files, data as
documented, valid keys.  Nothing is said about whether the coins suffice or whose keys are given.
-/

namespace BT.Spec

/-- An entry of the input file as documented: exactly the four documented keys, and the amount is written in ASCII. -/
def TidyInput (p : PVal) : Prop :=
  (∃ d, p = .dict d ∧ (dictKeys d).Perm [py"address", py"transaction_id", py"previous_output_index", py"bitcoin_amount"]) ∧
    ∀ s, entry p py"bitcoin_amount" = some (.str s) → ∀ c ∈ s, c.toNat < 128

/-- An entry of the outputs of the design as documented: exactly the two documented keys, and the amount is written in ASCII. -/
def TidyOutput (p : PVal) : Prop :=
  (∃ d, p = .dict d ∧ (dictKeys d).Perm [py"address", py"bitcoin_amount"]) ∧
    ∀ s, entry p py"bitcoin_amount" = some (.str s) → ∀ c ∈ s, c.toNat < 128

/-- The hash is not zero throughout (there is no address of the zero hash that is read back, see C10). -/
def NotZero (h : Bytes) : Prop := ∃ x ∈ h, x ≠ 0

/-- The fee the design asks for, for `n` coins and `m` payments. -/
def DesignFee (X : Ext) (design : PVal) (n m : Nat) (fee : Int) : Prop := FeeFor X { inputs := none, design := some design } n m fee

/-- The settings of a design: cap on the fee, percentage, approach, and either a fee or a fee rate. -/
structure Settings (X : Ext) (design : PVal) (cap : Nat) (pct : ℚ) (n m : Nat) : Prop where
  cap_set : ∃ v, entry design py"max_fee" = some v ∧ NumberOf X.uni v cap
  pct_set : ∃ v, entry design py"max_spend_percentage" = some v ∧ GoodRate X.uni v pct
  pct_le : pct ≤ 100
  approach : entry design py"input_selection_approaches" = none ∨
    ∃ w ∈ [py"largest_first", py"smallest_first", py"all"], entry design py"input_selection_approaches" = some (.list [.str w])
  fee_set : (∃ v k, entry design py"fee" = some v ∧ NumberOf X.uni v k ∧ 0 < k ∧ k ≤ 2100000000000000 ∧ entry design py"fee_rate" = none) ∨
    (∃ v q, entry design py"fee" = none ∧ entry design py"fee_rate" = some v ∧ GoodRate X.uni v q ∧ (estSize n m : ℚ) * q ≤ 2099999999999999)

/-- The files with the private keys can be read. -/
def KeysReadable (fs : FS) (r : RawArgs) : Prop :=
  (∀ l ∈ r.privateKeyFile, ∀ f ∈ l, ∃ s, fs.read f = .ok s) ∧
    ∀ d, r.privateKeyDir = some d → d ≠ [] → ∃ names, fs.listDir d = .ok names ∧ ∀ n ∈ names, isTxt n = true → ∃ s, fs.read (pathJoin d n) = .ok s

/-- The request of a use of the program is in good order: the input file describes the coins `coins`, the design file contains `design`,
which asks for the payments `asked`; everything is as documented, and the given keys are valid. -/
structure Order (X : Ext) (u : Use) (coins : List Coin) (asked : List Payment) (design : PVal) (cap : Nat) (pct : ℚ) : Prop where
  task : u.args.task = py"create_transaction" ∨ u.args.task = py"create_sign_and_verify_transaction_hex"
  setup : u.setup = .ok ()
  data : ∀ f, u.args.dataFile = some f → f ≠ [] → ∃ s, u.fs.read f = .ok s
  inputs : ∃ fi ti insD, u.args.inputFile = some fi ∧ fi ≠ [] ∧ u.fs.read fi = .ok ti ∧ X.jsonLoads ti = .ok (.list insD) ∧
    List.Forall₂ (Coin.Described X) insD coins ∧ ∀ p ∈ insD, TidyInput p
  outputs : ∃ fd td outsD, u.args.designFile = some fd ∧ fd ≠ [] ∧ u.fs.read fd = .ok td ∧ X.jsonLoads td = .ok design ∧
    entry design py"outputs" = some (.list outsD) ∧ List.Forall₂ (Payment.Described X) outsD asked ∧ ∀ p ∈ outsD, TidyOutput p
  change : ∃ ca owner, entry design py"change_address" = some (.str ca) ∧ AddressOf X.sha256 ca owner ∧ NotZero owner
  settings : Settings X design cap pct coins.length asked.length
  coin_ok : ∀ c ∈ coins, 0 < c.sat ∧ c.index < 2 ^ 32 ∧ NotZero c.owner
  pay_ok : ∀ d ∈ asked, 0 < d.sat ∧ NotZero d.owner
  some_pay : asked ≠ []
  few : coins.length ≤ 252 ∧ asked.length ≤ 251
  money : coinTotal coins ≤ 2100000000000000 ∧ payTotal asked ≤ 2100000000000000
  readable : KeysReadable u.fs u.args
  keys_ok : ∀ key, KeyGiven X u.fs u.args key → IsHex key ∧ key.length = 64 ∧ X.validateKey key = .ok ()

/-- The ECDSA library can sign every digest with the given keys (see `Ext.SignTotal` for why this is not certain). -/
def CanSign (X : Ext) (u : Use) : Prop :=
  ∀ key d, KeyGiven X u.fs u.args key → IsHex d → d.length = 64 → ∃ s, X.signDet key d = .ok s

end BT.Spec
