import Verif.Concrete.Toy
import Verif.Tx

/-!
# A sample transaction

Two inputs and two outputs between the addresses of the private keys 1 and 2; used to show
that the hypotheses of theorems are met by non-trivial cases.
-/

namespace BT.Concrete
open BT

/-- two private keys -/
def keys12 : List Str := [hex32 1, hex32 2]

/-- a transaction with two inputs (100000 satoshi) and two outputs (99000 satoshi) -/
def sampleTx (X : Ext) : R Tx := do
  let a1 ← privateKeyToAddress X (hex32 1)
  let a2 ← privateKeyToAddress X (hex32 2)
  let i1 ← TxIn.create X a1 (List.replicate 64 'a') 3 70000
  let i2 ← TxIn.create X a2 (List.replicate 64 'b') 0 30000
  let o1 ← TxOut.create X a2 50000
  let o2 ← TxOut.create X a1 49000
  Tx.create [i1, i2] [o1, o2]

/-- the sample signed with deterministic signatures -/
def sampleSigned (X : Ext) : R Tx := do
  let t ← sampleTx X
  let r := t.sign X keys12 none
  r.2
  pure r.1

theorem isOk_exists {α : Type} {x : R α} (h : x.isOk = true) : ∃ a, x = .ok a := by
  cases x with
  | ok a => exact ⟨a, rfl⟩
  | error e => simp [Except.isOk, Except.toBool] at h

theorem sample_ok : ∃ t, sampleTx Xtoy = .ok t := isOk_exists (by decide +kernel)

theorem sample_signed_ok : ∃ t, sampleSigned Xtoy = .ok t := isOk_exists (by decide +kernel)

theorem sample_sign : ∃ t t', sampleTx Xtoy = .ok t ∧ t.sign Xtoy keys12 none = (t', .ok ()) := by
  obtain ⟨t', h⟩ := sample_signed_ok
  unfold sampleSigned at h
  cases ht : sampleTx Xtoy with
  | error e => rw [ht] at h; exact absurd h (by simp [bind, Except.bind])
  | ok t =>
    rw [ht] at h
    refine ⟨t, (t.sign Xtoy keys12 none).1, rfl, ?_⟩
    simp only [bind, Except.bind] at h
    split at h
    · simp at h
    · rename_i u hu
      rw [← hu]

end BT.Concrete
