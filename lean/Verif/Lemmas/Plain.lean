import Verif.Lemmas.Summary

/-! # Where the three special exceptions of `create_transaction` can come from -/

namespace BT
open Spec

/-- One of the exceptions that `create_transaction` declares itself. -/
def Special (e : Err) : Prop := e = .outputValueNotCovered ∨ e = .outputAndFeeValueNotCovered ∨ e = .duplicateOutputAddress

/-- The call raises none of the three special exceptions. -/
structure Plain {α : Type} (x : R α) : Prop where
  not_special : ∀ e, x = .error e → ¬ Special e

theorem Plain.bind {α β : Type} {x : R α} {f : α → R β} (h : Plain x) (g : ∀ a, Plain (f a)) : Plain (x >>= f) := by
  cases hx : x with
  | ok a => exact g a
  | error e => exact ⟨by intro e' he; simp at he; rw [← he]; exact h.not_special e hx⟩

theorem Plain.ok {α : Type} (a : α) : Plain (.ok a : R α) := ⟨by intro e h; simp at h⟩
theorem Plain.pure {α : Type} (a : α) : Plain (pure a : R α) := Plain.ok a
theorem Plain.err {α : Type} {e : Err} (h : ¬ Special e) : Plain (.error e : R α) := ⟨by intro e' he; simp at he; rw [← he]; exact h⟩
theorem Plain.raise {α : Type} {e : Err} (h : ¬ Special e) : Plain (raise e : R α) := Plain.err h
theorem Plain.of_VE {α : Type} {x : R α} (h : VE x) : Plain x := ⟨by intro e he; rw [h e he]; simp [Special]⟩
theorem Plain.mapR {α β : Type} {f : α → R β} (h : ∀ a, Plain (f a)) : ∀ l, Plain (mapR f l)
  | [] => Plain.ok _
  | a :: l => by
    unfold BT.mapR
    exact Plain.bind (h a) fun b => Plain.bind (Plain.mapR h l) fun c => Plain.ok _

theorem pyInt_VE (u : UniDB) (b : Nat) (s : Str) : VE (pyInt u b s) := by
  unfold pyInt
  split <;> split <;> first | exact VE.ok _ | exact VE.err

macro "plain" : tactic => `(tactic| repeat' (first
  | with_reducible assumption
  | with_reducible exact Plain.ok _
  | with_reducible exact Plain.pure _
  | with_reducible exact Plain.err (by simp [Special])
  | with_reducible exact Plain.raise (by simp [Special])
  | with_reducible exact Plain.of_VE (pyInt_VE _ _ _)
  | with_reducible exact Plain.of_VE (pyFloat_VE _ _)
  | with_reducible exact Plain.of_VE (vBitcoinAmount_VE _ _)
  | with_reducible exact Plain.of_VE (vPositive_VE _ _)
  | with_reducible exact Plain.of_VE (satoshiToBitcoin_VE _ _)
  | with_reducible exact Plain.of_VE (vHexLength_VE _ _)
  | with_reducible exact Plain.of_VE (vBitcoinAddress_VE _ _)
  | with_reducible exact Plain.of_VE (TxOut_create_VE _ _ _)
  | with_reducible exact Plain.of_VE (TxIn_create_VE _ _ _ _ _)
  | with_reducible refine Plain.bind ?_ ?_
  | with_reducible apply Plain.mapR
  | intro _
  | split))

theorem plain_trunc (f : PyFloat) : Plain f.trunc := by unfold PyFloat.trunc; plain
theorem plain_ceil (f : PyFloat) : Plain f.ceil := by unfold PyFloat.ceil; plain
theorem plain_ofInt (n : Int) : Plain (PyFloat.ofInt n) := by unfold PyFloat.ofInt; plain
theorem plain_div (f g : PyFloat) : Plain (f.div g) := by unfold PyFloat.div; plain
theorem plain_toInt (u : UniDB) (v : PVal) : Plain (v.toInt u) := by
  unfold PVal.toInt; have := plain_trunc; split <;> first | apply this | plain
theorem plain_toFloat (u : UniDB) (v : PVal) : Plain (v.toFloat u) := by
  unfold PVal.toFloat; have := plain_ofInt; split <;> first | apply this | plain
theorem plain_dictGet (d : List (Str × PVal)) (k : Str) : Plain (dictGet d k) := by unfold dictGet; plain
theorem plain_asDict (v : PVal) : Plain v.asDict := by unfold PVal.asDict; plain
theorem plain_vString (v : PVal) : Plain (vString v) := by unfold vString; plain
theorem plain_vInteger (v : PVal) : Plain (vInteger v) := by unfold vInteger; plain
theorem plain_vList (v : PVal) : Plain (vList v) := by unfold vList; plain
theorem plain_vBoolean (v : PVal) : Plain (vBoolean v) := by unfold vBoolean; plain
theorem plain_vWhole (v : PVal) : Plain (vWholeNumber v) := by
  unfold vWholeNumber vPositiveInteger
  have := plain_vInteger v
  plain
theorem plain_vLC (a b : List Str) : Plain (vListContains a b) := by unfold vListContains; simp only; plain
theorem plain_vLI (a b : List Str) : Plain (vListsIdentical a b) := by unfold vListsIdentical; plain
theorem plain_vDomain (n a b : Int) : Plain (vIntegerDomain n a b) := by unfold vIntegerDomain; plain
theorem plain_vStrWhole (u : UniDB) (s : Str) : Plain (vStrWholeNumber u s) := by unfold vStrWholeNumber vStrPositiveInteger; plain
theorem plain_vStrWD (u : UniDB) (dp : Option Nat) (s : Str) : Plain (vStrWholeOrDecimal u dp s) := by
  unfold vStrWholeOrDecimal
  have := plain_vStrWhole u s
  split
  · exact Plain.ok _
  · exact Plain.ok _
  · rename_i e _ h _
    rw [h] at this
    exact ⟨by intro e' he; simp at he; subst he; exact this.not_special e rfl⟩
theorem plain_ensure8 (s : Str) : Plain (ensure8 s) := by unfold ensure8; dsimp only; plain
theorem plain_b2s (u : UniDB) (s : Str) : Plain (bitcoinToSatoshi u s) := by
  unfold bitcoinToSatoshi
  plain
  all_goals apply plain_vWhole

theorem plain_adjustDesign (u : UniDB) (d : List (Str × PVal)) : Plain (adjustDesign u d) := by
  unfold adjustDesign adjustFee adjustMaxFee; plain
theorem plain_adjustInputs (u : UniDB) (x : PVal) : Plain (adjustInputs u x) := by
  unfold adjustInputs adjustInput
  have h1 := plain_dictGet
  have h2 := plain_toInt u
  plain
  all_goals first | apply h1 | apply h2
theorem plain_vAddrP (X : Ext) (x : PVal) : Plain (vBitcoinAddressP X x) := by
  unfold vBitcoinAddressP
  have h := plain_vString x
  plain
theorem plain_vHexLP (x : PVal) (n : Int) : Plain (vHexLengthP x n) := by
  unfold vHexLengthP
  have h := plain_vString x
  plain
theorem plain_vPosP (u : UniDB) (x : PVal) : Plain (vPositiveBitcoinAmountP u x) := by
  unfold vPositiveBitcoinAmountP
  have h := plain_vString x
  plain
theorem plain_validateInputs (X : Ext) (l : List PVal) : Plain (validateInputs X l) := by
  unfold validateInputs validateInput
  have h1 := plain_dictGet
  plain
  all_goals first | apply h1 | apply plain_asDict | apply plain_vLI | apply plain_vAddrP | apply plain_vHexLP | apply plain_vWhole | apply plain_vPosP
theorem plain_validateFees (u : UniDB) (a b : PVal) : Plain (validateFees u a b) := by
  unfold validateFees
  plain
  all_goals first | apply plain_vWhole | apply plain_vString | apply plain_vStrWD
theorem plain_validateApproaches (v : PVal) : Plain (validateApproaches v) := by
  unfold validateApproaches
  plain
  all_goals apply plain_vList
theorem plain_validateOutput (X : Ext) (x : PVal) : Plain (validateOutput X x) := by
  unfold validateOutput
  plain
  all_goals first | apply plain_dictGet | apply plain_asDict | apply plain_vLI | apply plain_vAddrP | apply plain_vPosP | apply plain_ensure8
theorem plain_validateDesign (X : Ext) (d : List (Str × PVal)) : Plain (validateDesign X d) := by
  unfold validateDesign
  plain
  all_goals first | apply plain_dictGet | apply plain_vLC | apply plain_vAddrP | apply plain_vWhole | apply plain_toFloat | apply plain_trunc | apply plain_vDomain | apply plain_vList | apply plain_validateOutput | apply plain_validateFees | apply plain_validateApproaches
theorem plain_validateOptions (a b : PVal) : Plain (validateOptions a b) := by
  unfold validateOptions
  plain
  all_goals first | apply plain_vBoolean | apply plain_vWhole
theorem plain_feeKind (u : UniDB) (a b : PVal) : Plain (feeKind u a b) := by
  unfold feeKind
  plain
  all_goals apply plain_toFloat
theorem plain_addSatoshi (u : UniDB) (x : PVal) : Plain (addSatoshi u x) := by
  unfold addSatoshi
  plain
  all_goals first | apply plain_asDict | apply plain_dictGet | apply plain_vString | apply plain_b2s
theorem plain_mkInput (X : Ext) (x : PVal) : Plain (mkInput X x) := by
  unfold mkInput
  plain
  all_goals first | apply plain_asDict | apply plain_dictGet | apply plain_vString | apply plain_vInteger
theorem plain_mkOutput (X : Ext) (x : PVal) : Plain (mkOutput X x) := by
  unfold mkOutput
  plain
  all_goals first | apply plain_asDict | apply plain_dictGet | apply plain_vString | apply plain_vInteger

/-- nothing that happens before line 222 raises a special exception -/
theorem plain_prepare (X : Ext) (a : Args) : Plain (prepare X a) := by
  unfold prepare
  plain
  all_goals first
    | apply plain_vLC | apply plain_asDict | apply plain_dictGet | apply plain_vString | apply plain_vList | apply plain_adjustDesign | apply plain_adjustInputs
    | apply plain_validateInputs | apply plain_validateDesign | apply plain_validateOptions | apply plain_toFloat | apply plain_feeKind | apply plain_addSatoshi
    | apply plain_mkInput | apply plain_mkOutput

end BT
