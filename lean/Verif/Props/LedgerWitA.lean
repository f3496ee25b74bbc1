import Verif.Props.Wealth
import Verif.Props.CreateWit
-- imported only so that two modules that need much memory are not built at the same time
import Verif.Props.TxLogWit

/-!
# The first of the two runs of a history (witness for C135 - C139)

The first run spends two of three coins; the second one spends the coin that was left and the change of the first.
-/

namespace BT.LedgerWit
open BT BT.Spec BT.Concrete

deriving instance DecidableEq for Coin, Payment

/-- the 20 bytes of the address of key `k` -/
def ownerOf (k : Nat) : Bytes :=
  match (do fromHex (← addressToHash Xtoy (toyAddr k)) : R Bytes) with
  | .ok b => b
  | .error _ => []

theorem owner_of (k : Nat) (h : (match addressToHash Xtoy (toyAddr k) with | .ok s => s == hex (ownerOf k) | _ => false) = true) :
    AddressOf Xtoy.sha256 (toyAddr k) (ownerOf k) := by
  split at h
  · rename_i s hs
    rw [beq_iff_eq] at h
    rw [h] at hs
    exact AddressOf_of_hash Xtoy toy_sha hs
  · simp at h

theorem owner1 : AddressOf Xtoy.sha256 (toyAddr 1) (ownerOf 1) := owner_of 1 (by decide +kernel)
theorem owner2 : AddressOf Xtoy.sha256 (toyAddr 2) (ownerOf 2) := owner_of 2 (by decide +kernel)
theorem owner3 : AddressOf Xtoy.sha256 (toyAddr 3) (ownerOf 3) := owner_of 3 (by decide +kernel)

def coinA : Coin := ⟨List.replicate 32 0xaa, 3, 70000, ownerOf 1⟩
def coinB : Coin := ⟨List.replicate 32 0xbb, 0, 30000, ownerOf 2⟩
def coinC : Coin := ⟨List.replicate 32 0xcc, 1, 90000, ownerOf 1⟩

/-- the ledger at the beginning -/
def ledger0 : List Coin := [coinA, coinB, coinC]

/-- splits the inputs off a serialised transaction -/
def cutIns : Nat → Bytes → List RawIn × Bytes
  | 0, b => ([], b)
  | n + 1, b =>
    let len := (b.getD 36 0).toNat
    let r := cutIns n (b.drop (41 + len))
    (⟨b.take 32, (b.drop 32).take 4, (b.drop 37).take len⟩ :: r.1, r.2)

/-- splits the outputs off a serialised transaction -/
def cutOuts : Nat → Bytes → List RawOut
  | 0, _ => []
  | n + 1, b =>
    let len := (b.getD 8 0).toNat
    ⟨b.take 8, (b.drop 9).take len⟩ :: cutOuts n (b.drop (9 + len))

def cutTx (b : Bytes) : List RawIn × List RawOut :=
  let r := cutIns (b.getD 4 0).toNat (b.drop 5)
  (r.1, cutOuts (r.2.getD 0 0).toNat (r.2.drop 1))

/-- the bytes of hex text -/
def unhex (s : Str) : Bytes :=
  match fromHex s with
  | .ok b => b
  | _ => []

/-- the payments of outputs -/
def payments (outs : List RawOut) : List Payment := outs.map fun o => ⟨leNat o.value, (o.script.drop 3).take 20⟩

instance (r : RawIn) : Decidable r.Ok := by unfold RawIn.Ok; infer_instance
instance (r : RawOut) : Decidable r.Ok := by unfold RawOut.Ok; infer_instance
instance (a : List RawIn) (b : List RawOut) : Decidable (Wire a b) := by unfold Wire; infer_instance
instance (d : Payment) (r : RawOut) : Decidable (d.MadeBy r) := by unfold Payment.MadeBy; infer_instance
instance (L : List Coin) : Decidable (Distinct L) := by unfold Distinct; infer_instance

def use1 : Use := ⟨disk order1, shell0, .ok (), runCreate⟩

/-- what the first use prints -/
def raw1 : Str := py"0100000002cccccccccccccccccccccccccccccccccccccccccccccccccccccccccccccccc010000008a473044022024f0ba95cf25c42d5f949e1fb623a005dc1069792d35a241f66c3e62e7ace99b022024f0ba95cf25c42d5f949e1fb623a005dc1069792d35a241f66c3e62e7ace99b01410400000000000000000000000000000000000000000000000000000000000000010000000000000000000000000000000000000000000000000000000000000001ffffffffaaaaaaaaaaaaaaaaaaaaaaaaaaaaaaaaaaaaaaaaaaaaaaaaaaaaaaaaaaaaaaaa030000008a47304402202b38d02cd8cd31390530e596572c694f0d911f016227e3ef63c8a8c71463f57c02202b38d02cd8cd31390530e596572c694f0d911f016227e3ef63c8a8c71463f57c01410400000000000000000000000000000000000000000000000000000000000000010000000000000000000000000000000000000000000000000000000000000001ffffffff0368bf0000000000001976a914452b88cd44e52aa5194f48be65558920f5737fd988ac50c30000000000001976a91466bfb65e38fdab8a0580af91f68c3192a854dd5b88ac60ea0000000000001976a91432367e3976facf3f4f7c814ee65e4e29c994aecc88ac00000000"

def tx1 : List RawIn × List RawOut := cutTx (unhex raw1)
def id1 : Bytes := idOf Xtoy (txBytes tx1.1 tx1.2)

theorem run1_check : exitStatus (cliRun Xtoy use1.fs use1.sh use1.setup use1.args) = 0 ∧ (cliRun Xtoy use1.fs use1.sh use1.setup use1.args).1 = [raw1] := by decide +kernel

end BT.LedgerWit
