import Verif.EndSpec
import Verif.CliRun

/-!
# Specification vocabulary: the ledger

Which outputs exist unspent, which transactions the network accepts, and what a transaction does to the unspent
outputs; histories of runs of the program whose results are sent to the network.  All in terms of bytes.
-/

namespace BT.Spec

/-- What identifies a coin: transaction id (as displayed) and index. -/
def Coin.point (c : Coin) : Bytes × Nat := (c.txid, c.index)

/-- The coin an input refers to. -/
def RawIn.point (r : RawIn) : Bytes × Nat := (r.hash.reverse, leNat r.index)

/-- The id of a serialised transaction, as displayed: the bytes of its double SHA-256 in reverse order. -/
def idOf (X : Ext) (tx : Bytes) : Bytes := (X.sha256 (X.sha256 tx)).reverse

/-- The coins made by a transaction with this id that makes these payments. -/
def made (id : Bytes) (paid : List Payment) : List Coin := paid.mapIdx fun j d => ⟨id, j, d.sat, d.owner⟩

/-- A ledger lists the unspent coins; no two of them are the same output. -/
def Distinct (L : List Coin) : Prop := (L.map Coin.point).Nodup

/-- The coins of the ledger that the inputs spend. -/
def spentFrom (L : List Coin) (ins : List RawIn) : List Coin := L.filter fun c => c.point ∈ ins.map RawIn.point

/-- The rules by which a transaction is accepted: it has inputs, no two of them are the same, each spends a coin of
the ledger and unlocks it, and no value is created. -/
structure Valid (X : Ext) (L : List Coin) (ins : List RawIn) (outs : List RawOut) : Prop where
  some : ins ≠ []
  once : (ins.map RawIn.point).Nodup
  unlocked : ∀ (j : Nat) (r : RawIn), ins[j]? = .some r →
    ∃ c ∈ L, c.point = r.point ∧ Unlocks X c.owner (signedMessage ins outs j c.owner) r.script
  value : (outs.map fun o => leNat o.value).sum ≤ coinTotal (spentFrom L ins)

/-- `L'` is the ledger `L` after the transaction: without the coins it spends, with the coins it makes. -/
def Applied (X : Ext) (L : List Coin) (ins : List RawIn) (outs : List RawOut) (L' : List Coin) : Prop :=
  ∃ paid, List.Forall₂ Payment.MadeBy paid outs ∧
    L' = made (idOf X (txBytes ins outs)) paid ++ L.filter fun c => c.point ∉ ins.map RawIn.point

/-- The inputs and outputs have the sizes that the serialisation of the transactions considered here can express. -/
def Wire (ins : List RawIn) (outs : List RawOut) : Prop :=
  (∀ r ∈ ins, r.Ok) ∧ (∀ r ∈ outs, r.Ok) ∧ ins.length ≤ 252 ∧ outs.length ≤ 252

/-- The input file of the run lists coins of the ledger, each at most once. -/
def ListsCoins (X : Ext) (fs : FS) (r : RawArgs) (L : List Coin) : Prop :=
  ∀ fi ti insD, r.inputFile = some fi → fs.read fi = .ok ti → X.jsonLoads ti = .ok (.list insD) →
    ∃ coins, List.Forall₂ (Coin.Described X) insD coins ∧ coins.Subperm L

/-- `max_fee` in the design file of the run. -/
def CapIs (X : Ext) (fs : FS) (r : RawArgs) (cap : Nat) : Prop :=
  ∃ fd td design v, r.designFile = some fd ∧ fs.read fd = .ok td ∧ X.jsonLoads td = .ok design ∧
    entry design py"max_fee" = some v ∧ NumberOf X.uni v cap

/-- One use of the program: files, operating system, outcome of the setup of the loggers, command line. -/
structure Use where
  fs : FS
  sh : Shell
  setup : R Unit
  args : RawArgs

/-- The transaction with the inputs `ins` and the outputs `outs` is what this use of the program prints, ending with
exit status 0. -/
structure Prints (X : Ext) (u : Use) (ins : List RawIn) (outs : List RawOut) : Prop where
  task : u.args.task = py"create_transaction" ∨ u.args.task = py"create_sign_and_verify_transaction_hex"
  status : exitStatus (cliRun X u.fs u.sh u.setup u.args) = 0
  text : (cliRun X u.fs u.sh u.setup u.args).1 = [hex (txBytes ins outs)]
  wire : Wire ins outs

/-- `key` is one of the private keys given to the run: on the command line, as the content of a key file, or as the
content of a `.txt` file of the key directory (an empty name of a directory is ignored). -/
def KeyGiven (X : Ext) (fs : FS) (r : RawArgs) (key : Str) : Prop :=
  (∃ l ∈ r.privateKeyHex, key ∈ l) ∨
  (∃ l ∈ r.privateKeyFile, ∃ f ∈ l, ∃ s, fs.read f = .ok s ∧ key = pyStrip' X.uni.space s) ∨
  ∃ d names, r.privateKeyDir = some d ∧ d ≠ [] ∧ fs.listDir d = .ok names ∧
    ∃ n ∈ names, isTxt n = true ∧ ∃ s, fs.read (pathJoin d n) = .ok s ∧ key = pyStrip' X.uni.space s

/-- A private key of `owner` was given to the run. -/
def HoldsKey (X : Ext) (u : Use) (owner : Bytes) : Prop := ∃ key, KeyGiven X u.fs u.args key ∧ KeyOf X key owner

/-- The input file of the run lists the coin. -/
def Listed (X : Ext) (u : Use) (c : Coin) : Prop :=
  ∃ fi ti insD, u.args.inputFile = some fi ∧ u.fs.read fi = .ok ti ∧ X.jsonLoads ti = .ok (.list insD) ∧
    ∃ p ∈ insD, c.Described X p

/-- The design file of the run asks for the payments `asked` and names `owner` for the change. -/
def AsksFor (X : Ext) (u : Use) (asked : List Payment) (owner : Bytes) : Prop :=
  ∃ fd td design outsD ca, u.args.designFile = some fd ∧ u.fs.read fd = .ok td ∧ X.jsonLoads td = .ok design ∧
    entry design py"outputs" = some (.list outsD) ∧ List.Forall₂ (Payment.Described X) outsD asked ∧
    entry design py"change_address" = some (.str ca) ∧ AddressOf X.sha256 ca owner

/-- What an owner has: the total of his coins. -/
def worth (h : Bytes) (L : List Coin) : Nat := coinTotal (L.filter fun c => c.owner = h)

/-- The total of the payments to an owner. -/
def askedFor (h : Bytes) (l : List Payment) : Nat := payTotal (l.filter fun d => d.owner = h)

/-- A history: beginning with the ledger `L0`, the program was used again and again, each time with an input file that
lists coins that were unspent at that time, and each transaction it printed was put on the ledger. `L` is the ledger
now, `us` are the uses, `txs` are the transactions and `caps` is the total of the `max_fee` settings. -/
inductive History (X : Ext) (L0 : List Coin) : List Coin → List Use → List (List RawIn × List RawOut) → Nat → Prop
  | start : History X L0 L0 [] [] 0
  | step {L L' : List Coin} {us : List Use} {txs : List (List RawIn × List RawOut)} {caps cap : Nat} {u : Use}
      {ins : List RawIn} {outs : List RawOut} : History X L0 L us txs caps → ListsCoins X u.fs u.args L →
      CapIs X u.fs u.args cap → Prints X u ins outs → Applied X L ins outs L' →
      History X L0 L' (us ++ [u]) (txs ++ [(ins, outs)]) (caps + cap)

end BT.Spec
