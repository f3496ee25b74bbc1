import Verif.Props.LedgerWitA

/-!
# The second of the two runs of a history (witness for C135 - C139)
-/

namespace BT.LedgerWit
open BT BT.Spec BT.Concrete

/-- the ledger after the first run -/
def ledger1 : List Coin := made id1 (payments tx1.2) ++ ledger0.filter fun c => c.point ∉ tx1.1.map RawIn.point

/-- the change of the first transaction -/
def change1 : Coin := ⟨id1, 0, 49000, ownerOf 3⟩

def args2 : Args :=
  argsOf [inD 2 'b' (.str py"0") py"0.0003", .dict [(py"address", .str (toyAddr 3)), (py"transaction_id", .str (hex id1)), (py"previous_output_index", .int 0),
    (py"bitcoin_amount", .str py"0.00049")]] [outD 1 py"0.0006"] [(py"fee", .int 1000)]

def disk2 : FS where
  read f :=
    if f = py"inputs.json" then .ok (Xtoy.jsonDumps (asPVal args2.inputs))
    else if f = py"design.json" then .ok (Xtoy.jsonDumps (asPVal args2.design))
    else .error .osError
  listDir _ := .error .osError

def run2 : RawArgs :=
  { task := py"create_transaction", privateKeyHex := [[hex32 3, hex32 2]], inputFile := some py"inputs.json",
    designFile := some py"design.json" }

def use2 : Use := ⟨disk2, shell0, .ok (), run2⟩

/-- what the second use prints -/
def raw2 : Str := py"0100000002e734e4dce6a45499dd98971672f9844090eaa015c0925d6c5708e0d140ae08ad000000008c493046022100f21597eddeff6cd304fd1d13fb8739eb380dc70c588d629f44d3bb7672072df4022100f21597eddeff6cd304fd1d13fb8739eb380dc70c588d629f44d3bb7672072df401410400000000000000000000000000000000000000000000000000000000000000030000000000000000000000000000000000000000000000000000000000000003ffffffffbbbbbbbbbbbbbbbbbbbbbbbbbbbbbbbbbbbbbbbbbbbbbbbbbbbbbbbbbbbbbbbb000000008c493046022100f99fa8712cfcf2c50893ab688596af78f8f9d4aaf13e23754b490b121d9ba7f6022100f99fa8712cfcf2c50893ab688596af78f8f9d4aaf13e23754b490b121d9ba7f601410400000000000000000000000000000000000000000000000000000000000000020000000000000000000000000000000000000000000000000000000000000002ffffffff0250460000000000001976a914452b88cd44e52aa5194f48be65558920f5737fd988ac60ea0000000000001976a91432367e3976facf3f4f7c814ee65e4e29c994aecc88ac00000000"

def tx2 : List RawIn × List RawOut := cutTx (unhex raw2)
def id2 : Bytes := idOf Xtoy (txBytes tx2.1 tx2.2)

/-- the ledger after the second run -/
def ledger2 : List Coin := made id2 (payments tx2.2) ++ ledger1.filter fun c => c.point ∉ tx2.1.map RawIn.point

theorem run2_check : exitStatus (cliRun Xtoy use2.fs use2.sh use2.setup use2.args) = 0 ∧ (cliRun Xtoy use2.fs use2.sh use2.setup use2.args).1 = [raw2] := by decide +kernel

end BT.LedgerWit
