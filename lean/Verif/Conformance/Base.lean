import Verif.Concrete.Ecdsa
import Verif.Create

/-!
# Evaluating the model on the unit tests of `/repo`

Helpers for the generated modules `Conformance/*.lean` (see `tools/vectors.py`).  These are
tests of the model, not proofs of properties: the expected values are those written in
`bitcoin_toolset/test/*.py`, the external functions are `Xreal`.
-/

namespace BT.Conformance

open BT.Concrete

mutual
/-- Python `==` on JSON data (dict order does not matter); floats never compare equal here. -/
def same : PVal → PVal → Bool
  | .none, .none => true
  | .bool a, .bool b => a == b
  | .int a, .int b => a == b
  | .str a, .str b => a == b
  | .list a, .list b => sameL a b
  | .dict a, .dict b => a.length == b.length && sameD a b
  | _, _ => false
/-- the same for lists -/
def sameL : List PVal → List PVal → Bool
  | [], [] => true
  | x :: xs, y :: ys => same x y && sameL xs ys
  | _, _ => false
/-- every entry of the first dict is in the second -/
def sameD : List (Str × PVal) → List (Str × PVal) → Bool
  | [], _ => true
  | (k, v) :: r, d => (match dictFind d k with
    | some w => same v w
    | none => false) && sameD r d
end

/-- `TransactionInput.create` from test data (test_transaction.py:53-61). -/
def mkIn (x : Str × Str × Int × Str) : R TxIn := do
  let n ← bitcoinToSatoshi Xreal.uni x.2.2.2
  TxIn.create Xreal x.1 x.2.1 x.2.2.1 n

/-- `TransactionOutput.create` from test data (test_transaction.py:62-67). -/
def mkOut (x : Str × Str) : R TxOut := do
  let n ← bitcoinToSatoshi Xreal.uni x.2
  TxOut.create Xreal x.1 n

/-- `Transaction.create` from test data. -/
def mkTx (ins : List (Str × Str × Int × Str)) (outs : List (Str × Str)) : R Tx := do
  let i ← mapR mkIn ins
  let o ← mapR mkOut outs
  Tx.create i o

/-- Outcome of a comparison that may raise. -/
def holds (r : R Bool) : Bool :=
  match r with
  | .ok b => b
  | .error _ => false

/-- Signing a transaction and everything the tests look at afterwards: the signed dict (if
given), the signatures, the hex form, the txid; and decoding the hex form again. -/
def signTest (t : Tx) (keys : List Str) (rvs : Option (List Str)) (signed : Option PVal)
    (hex txid : Option Str) : Bool :=
  match t.sign Xreal keys rvs with
  | (_, .error _) => false
  | (ts, .ok _) => holds do
    let d ← ts.toDict Xreal.uni
    let bad ← ts.verify Xreal
    let h ← ts.toHexSigned
    let i ← ts.txid Xreal
    let t2 ← Tx.fromHexSigned Xreal h
    let h2 ← t2.toHexSigned
    pure ((match signed with
      | some e => same d e
      | none => true) && bad == 0 && (hex.all (· == h)) && (txid.all (· == i)) && h2 == h)

/-- A test of `test_transaction.py`. -/
def txTest (ins : List (Str × Str × Int × Str)) (outs : List (Str × Str)) (fee : Option Int)
    (unsigned : Option PVal) (keys : List Str) (rvs : Option (List Str)) (signed : Option PVal)
    (hex txid : Option Str) : Bool := holds do
  let t ← mkTx ins outs
  let d ← t.toDict Xreal.uni
  pure ((match unsigned with
    | some e => same d e
    | none => true) && (fee.all fun f => t.fee == some f) && signTest t keys rvs signed hex txid)

/-- A successful test of `test_create_transaction.py`. -/
def createTest (a : Args) (fee : Option Int) (nIns : Option Nat) (inAmts : Option (List Str))
    (outAmts : Option (List Int)) (unsigned : Option PVal) (sign : Bool) (keys : List Str)
    (rvs : Option (List Str)) (hex txid : Option Str) : Bool := holds do
  let (t, _) ← createTransaction Xreal a
  let d ← t.toDict Xreal.uni
  pure ((match unsigned with
    | some e => same d e
    | none => true) && (fee.all fun f => t.fee == some f) &&
    (nIns.all fun n => t.inputs.length == n) &&
    (inAmts.all fun l => t.inputs.map TxIn.bitcoin == l.map some) &&
    (outAmts.all fun l => t.outputs.map TxOut.satoshi == l) &&
    (!sign || signTest t keys rvs none hex txid))

/-- A test of `test_create_transaction.py` that expects an exception. -/
def createFails (a : Args) (e : Err) : Bool :=
  match createTransaction Xreal a with
  | .ok _ => false
  | .error e' => e == e'

end BT.Conformance
