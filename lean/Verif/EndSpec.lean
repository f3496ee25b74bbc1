import Verif.CreateSpec

/-!
# End-to-end specification vocabulary

What a finished transaction has to do with the request, in terms of bytes: which coins (unspent
outputs) it spends, which payments it makes, which message each signature signs.  Nothing here
refers to the input, output or transaction objects of the code.
-/

namespace BT.Spec

/-- An unspent output: transaction id (as displayed), index in that transaction, amount, and the
20-byte hash of the owner's public key. -/
structure Coin where
  txid : Bytes
  index : Nat
  sat : Nat
  owner : Bytes

/-- An amount to be paid to the owner of a 20-byte public key hash. -/
structure Payment where
  sat : Nat
  owner : Bytes

/-- The dict `p` of an input file describes the coin `c`. -/
def Coin.Described (X : Ext) (p : PVal) (c : Coin) : Prop :=
  c.txid.length = 32 ∧ entry p py"transaction_id" = some (.str (hex c.txid)) ∧
  (∃ v, entry p py"previous_output_index" = some v ∧ v.toInt X.uni = .ok (c.index : Int)) ∧
  (∃ s, entry p py"bitcoin_amount" = some (.str s) ∧ AmountOf X.uni s c.sat) ∧
  (∃ a, entry p py"address" = some (.str a) ∧ AddressOf X.sha256 a c.owner)

/-- The dict `p` of a design describes the payment `d`. -/
def Payment.Described (X : Ext) (p : PVal) (d : Payment) : Prop :=
  (∃ s, entry p py"bitcoin_amount" = some (.str s) ∧ AmountOf X.uni s d.sat) ∧
  (∃ a, entry p py"address" = some (.str a) ∧ AddressOf X.sha256 a d.owner)

/-- The serialised input `r` refers to the coin `c`. -/
def Coin.SpentBy (c : Coin) (r : RawIn) : Prop :=
  r.hash = c.txid.reverse ∧ r.index.length = 4 ∧ leNat r.index = c.index

/-- The serialised output `r` makes the payment `d`. -/
def Payment.MadeBy (d : Payment) (r : RawOut) : Prop :=
  r.value.length = 8 ∧ leNat r.value = d.sat ∧ r.script = p2pkh d.owner

/-- The message signed for input `j`, which spends a coin of `owner` (hash type ALL): the
transaction in which every input script is empty, except that of input `j`, which is the script
of the coin; followed by the hash type in four bytes. -/
def signedMessage (ins : List RawIn) (outs : List RawOut) (j : Nat) (owner : Bytes) : Bytes :=
  txBytes (ins.mapIdx fun k r => { r with script := if k = j then p2pkh owner else [] }) outs ++
    [1, 0, 0, 0]

/-- The script `script` unlocks a coin of `owner` in a transaction with the signed message `msg`:
it pushes the DER form of a signature with hash type 1 and an uncompressed public key with hash `owner`, and
the ECDSA library accepts the signature of the double SHA-256 of `msg` under that key. -/
def Unlocks (X : Ext) (owner msg script : Bytes) : Prop :=
  ∃ der pk r s : Bytes, script = [UInt8.ofNat (der.length + 1)] ++ der ++ [1] ++ [65, 4] ++ pk ∧
    der.length ≤ 72 ∧ pk.length = 64 ∧ X.ripemd160 (X.sha256 (4 :: pk)) = owner ∧
    r.length = 32 ∧ s.length = 32 ∧ X.derEncode (beNat r) (beNat s) = .ok der ∧
    X.derDecode der = .ok ((beNat r : Int), (beNat s : Int)) ∧
    X.verifyDigest (hex pk) (hex (X.sha256 (X.sha256 msg))) (hex (r ++ s)) = .ok true

/-- The private key `key` is a key of `owner`: `owner` is the hash of its public key (uncompressed). -/
def KeyOf (X : Ext) (key : Str) (owner : Bytes) : Prop :=
  ∃ pk : Bytes, X.pubKey key = .ok (hex pk) ∧ X.ripemd160 (X.sha256 (4 :: pk)) = owner

/-- `paid` is the list of payments `asked` with the surplus `s` given to `owner`: added to the
only payment to `owner`, or as a payment of its own in front. -/
inductive ChangeTo (owner : Bytes) (s : Nat) : List Payment → List Payment → Prop
  | exact (asked : List Payment) : s = 0 → ChangeTo owner s asked asked
  | new (asked : List Payment) : 0 < s → (∀ d ∈ asked, d.owner ≠ owner) →
      ChangeTo owner s asked (⟨s, owner⟩ :: asked)
  | raised (pre : List Payment) (n : Nat) (post : List Payment) : 0 < s →
      (∀ d ∈ pre ++ post, d.owner ≠ owner) →
      ChangeTo owner s (pre ++ ⟨n, owner⟩ :: post) (pre ++ ⟨n + s, owner⟩ :: post)

/-- Total of a list of coins. -/
def coinTotal (l : List Coin) : Nat := (l.map Coin.sat).sum

/-- Total of a list of payments. -/
def payTotal (l : List Payment) : Nat := (l.map Payment.sat).sum

end BT.Spec
