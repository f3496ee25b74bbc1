import Verif.Lemmas.Plain

/-! # The errors of `create_transaction` after its arguments were prepared -/

namespace BT
open Spec

instance (n : Int) : Decidable (Money n) := by unfold Money; infer_instance

theorem s2b_seq {α : Type} (u : UniDB) (n : Int) (f : R α) :
    (satoshiToBitcoin u n >>= fun _ => f) = if Money n then f else .error .valueError := by
  split
  · rename_i h
    obtain ⟨s, hs⟩ := (s2b_ok (u := u)).2 h
    rw [hs]; rfl
  · rename_i h
    rw [satoshiToBitcoin_out u (by unfold Money at h; unfold maxMoney; omega)]; rfl

/-- the whole decision of the selection section -/
theorem selectInputs_eq {u : UniDB} {ins : List TxIn} {outs : List TxOut} {fee : Int} {all : Bool} (hi : Money (inTotal ins))
    (ho : Money (outTotal outs)) (hf : Money (outTotal outs + fee)) (hn : ∀ i ∈ ins, 0 ≤ i.amount) :
    selectInputs u ins outs fee all =
      if inTotal ins < outTotal outs then .error .outputValueNotCovered
      else if inTotal ins < outTotal outs + fee then .error .outputAndFeeValueNotCovered
      else .ok (chosen (outTotal outs + fee) all ins) := by
  by_cases h1 : inTotal ins < outTotal outs
  · have h2 : Money (outTotal outs - inTotal ins) := by unfold Money at *; omega
    simp only [selectInputs, s2b_seq, inTotal_eq, outTotal_eq, raise_eq, R_pure, hi, ho, h1, h2, if_true, R_bind_err]
  · by_cases h3 : inTotal ins < outTotal outs + fee
    · have h2 : Money (outTotal outs + fee - inTotal ins) := by unfold Money at *; omega
      simp only [selectInputs, s2b_seq, inTotal_eq, outTotal_eq, raise_eq, R_pure, hi, ho, h1, h2, h3, hf, if_true, if_false, R_bind_err, R_bind_ok]
    · rw [if_neg h1, if_neg h3]
      rw [selectInputs_ok]
      refine ⟨hi, ho, by omega, hf, by omega, rfl, ?_⟩
      have := prefix_total (chosen_prefix (outTotal outs + fee) all ins) hn
      have := chosen_reach (target := outTotal outs + fee) (all := all) (l := ins) (by omega)
      unfold Money at *; omega

theorem selectInputs_err {u : UniDB} {ins : List TxIn} {outs : List TxOut} {fee : Int} {all : Bool} {e : Err}
    (h : selectInputs u ins outs fee all = .error e) :
    e = .valueError ∨ (e = .outputValueNotCovered ∧ inTotal ins < outTotal outs) ∨
      (e = .outputAndFeeValueNotCovered ∧ outTotal outs ≤ inTotal ins ∧ inTotal ins < outTotal outs + fee) := by
  simp only [selectInputs, s2b_seq, inTotal_eq, outTotal_eq, raise_eq, R_pure] at h
  split at h
  swap
  · left; simpa using h.symm
  split at h
  swap
  · left; simpa using h.symm
  split at h
  · rename_i h1
    split at h
    · right; left; simp at h; exact ⟨h.symm, h1⟩
    · left; simpa using h.symm
  · rename_i h1
    split at h
    swap
    · left; simpa using h.symm
    split at h
    · rename_i h2
      split at h
      · right; right; simp at h; exact ⟨h.symm, by omega, h2⟩
      · left; simpa using h.symm
    · split at h
      · simp only [R_bind_ok] at h
        split at h
        · simp at h
        · left; simpa using h.symm
      · split at h
        · simp only [R_bind_ok] at h
          split at h
          · simp at h
          · left; simpa using h.symm
        · left; simpa using h.symm

theorem plain_firstApproach (v : PVal) : Plain (firstApproach v) := by unfold firstApproach; plain
theorem plain_sortInputs (v : PVal) (l : List TxIn) : Plain (sortInputs v l) := by unfold sortInputs; plain
theorem plain_estimate (n m : Int) : Plain (estimateTransactionSize n m) := by
  unfold estimateTransactionSize
  plain
  all_goals first | exact Plain.of_VE (intToVarInt_VE _) | exact Plain.of_VE (hexLen_VE _)
theorem plain_TxCreate (a : List TxIn) (b : List TxOut) : Plain (Tx.create a b) := by
  unfold Tx.create
  plain
  all_goals exact Plain.of_VE (intToVarInt_VE _)
theorem plain_s2bP (u : UniDB) (v : PVal) : Plain (satoshiToBitcoinP u v) := by unfold satoshiToBitcoinP; plain
theorem plain_feeFromRate (n : Int) (r : PyFloat) : Plain (feeFromRate n r) := by
  unfold feeFromRate
  plain
  · apply plain_ofInt
  · apply plain_ceil
theorem plain_finalFee (u : UniDB) (k : PVal ⊕ PyFloat) (n : Int) (v : PVal) : Plain (finalFee u k n v) := by
  unfold finalFee
  dsimp only
  plain
  all_goals first | apply plain_vInteger | apply plain_ofInt | apply plain_div | apply plain_s2bP | apply plain_feeFromRate
theorem plain_chooseChange (v : PVal) (n : Nat) : Plain (chooseChange v n) := by unfold chooseChange; plain
theorem setSatoshi_VE {u : UniDB} {o : TxOut} {n : Int} : VE (o.setSatoshi u n).2 := by
  unfold TxOut.setSatoshi
  split
  · rename_i e h
    rw [show ((o, Except.error e) : TxOut × R Unit).2 = .error e from rfl]
    have : VE (do let m ← vPositiveInteger (.int n)
                  let value ← intToHexLe m
                  padHexLe value 8 : R Str) := by
      refine VE.bind ?_ fun _ _ => VE.bind (intToHexLe_VE _) fun _ _ => padHexLe_VE _ _
      unfold vPositiveInteger vInteger
      simp only [PVal.asInt, R_bind_ok, raise_eq, R_pure]
      split
      · exact VE.bind VE.err fun _ _ => VE.ok _
      · exact VE.ok _
    intro e' he; simp at he; subst he
    exact this e h
  · dsimp only
    split
    · rename_i e h
      have := satoshiToBitcoin_VE u n e h
      subst this
      exact VE.err
    · exact VE.ok _
theorem plain_bump (u : UniDB) (a : Str) (s : Int) : ∀ k l, Plain (bumpOutput u a s k l)
  | k, [] => by unfold bumpOutput; exact Plain.err (by simp [Special])
  | k, o :: r => by
    unfold bumpOutput
    have ih := fun k => plain_bump u a s k r
    split
    · split
      · dsimp only
        have := setSatoshi_VE (u := u) (o := o) (n := o.satoshi + s)
        split
        · rename_i e h
          refine ⟨fun e' he => ?_⟩
          simp at he; subst he
          rw [this e h]; simp [Special]
        · plain
      · exact Plain.bind (ih _) fun _ => Plain.ok _
    · exact Plain.bind (ih _) fun _ => Plain.ok _
theorem plain_changeStep (X : Ext) (l : List TxOut) (a : Str) (i : PVal) (s : Int) : Plain (changeStep X l a i s) := by
  unfold changeStep
  dsimp only
  plain
  all_goals first | apply plain_chooseChange | apply plain_bump
theorem plain_handleChange (X : Ext) (l : List TxIn) (o : List TxOut) (f : Int) (a : Str) (i : PVal) : Plain (handleChange X l o f a i) := by
  unfold handleChange spendSurplus
  dsimp only
  plain
  all_goals apply plain_changeStep
theorem plain_checkSpend (u : UniDB) (p : PyFloat) (a b c : Int) : Plain (checkSpend u p a b c) := by
  unfold checkSpend maxSpend
  dsimp only
  plain
  all_goals first | apply plain_ofInt | apply plain_div | apply plain_ceil

/-- What a special exception tells. -/
theorem buildTx_special {X : Ext} {p : Plan} (hp : PlanOk p) {e : Err} (hS : Special e)
    (h : buildTx X p.ins p.outs p.approaches p.kind p.maxFee p.pct p.changeAddress p.allowDup p.changeIdx = .error e) :
    ∃ m, p.approaches = .list [.str m] ∧ Implemented m ∧
    ((e = .duplicateOutputAddress ∧ p.allowDup = false ∧ ¬ (p.outs.map TxOut.address).Nodup) ∨
    ((p.allowDup = true ∨ (p.outs.map TxOut.address).Nodup) ∧ p.ins.length ≤ 252 ∧ p.outs.length ≤ 252 ∧
      ∃ fee, FeeP p.kind (10 + 179 * p.ins.length + 34 * p.outs.length) (.int fee) ∧ Money fee ∧ fee ≤ capOf p.maxFee ∧
      ((e = .outputValueNotCovered ∧ inTotal p.ins < outTotal p.outs) ∨
      (e = .outputAndFeeValueNotCovered ∧ outTotal p.outs ≤ inTotal p.ins ∧ inTotal p.ins < outTotal p.outs + fee)))) := by
  simp only [buildTx, R_bind_eq_err] at h
  have no : ∀ {α : Type} {x : R α}, Plain x → x = .error e → False := fun hp hx => hp.not_special e hx hS
  rcases h with h | ⟨x, hx, h | ⟨ins, hins, h⟩⟩
  · exact (no (plain_firstApproach _) h).elim
  · exact (no (plain_sortInputs _ _) h).elim
  obtain ⟨m, hap, rfl, hm, rfl⟩ := approach_ok.1 ⟨hx, hins⟩
  have htot := inTotal_perm (arranged_perm m p.ins)
  have hlen := (arranged_perm m p.ins).length_eq
  refine ⟨m, hap, hm, ?_⟩
  rcases h with h | ⟨_, hrep, h⟩
  · rcases reportAddresses_err h with rfl | h
    · simp [Special] at hS
    · exact .inl h
  right
  obtain ⟨_, _, hdup⟩ := reportAddresses_ok.1 hrep
  rcases h with h | ⟨size, hsize, h⟩
  · exact (no (plain_estimate _ _) h).elim
  obtain ⟨n1, n2, rfl⟩ := estimate_ok.1 hsize
  rcases h with h | ⟨fee, hfee, h⟩
  · exact (no (plain_finalFee _ _ _ _) h).elim
  obtain ⟨f1, f2, f3⟩ := (finalFee_ok hp.cap (by omega)).1 hfee
  refine ⟨hdup, by omega, n2, fee, by rw [← hlen]; exact f1, f2, f3, ?_⟩
  rcases h with h | ⟨sel, hsel, h⟩
  · rw [← htot]
    rcases selectInputs_err h with rfl | h | h
    · simp [Special] at hS
    · exact .inl h
    · exact .inr h
  exfalso
  rcases h with h | ⟨⟨o, c⟩, hc, h⟩
  · exact no (plain_handleChange ..) h
  simp only [R_bind_eq_err] at h
  rcases h with h | ⟨_, _, h | ⟨_, _, h⟩⟩
  · exact no (plain_checkSpend ..) h
  · exact no (plain_TxCreate ..) h
  · simp at h

theorem create_special {X : Ext} (hs : ∀ b, (X.sha256 b).length = 32) {a : Args} {e : Err} (hS : Special e) (h : createTransaction X a = .error e) :
    ∃ p, prepare X a = .ok p ∧ PlanOk p ∧ 
      buildTx X p.ins p.outs p.approaches p.kind p.maxFee p.pct p.changeAddress p.allowDup p.changeIdx = .error e := by
  simp only [createTransaction, R_bind_eq_err] at h
  rcases h with h | ⟨p, hp, h | ⟨_, _, h⟩⟩
  · exact ((plain_prepare X a).not_special e h hS).elim
  · exact ⟨p, hp, prepare_planOk hs hp, h⟩
  · simp at h

/-- the fee that was computed is the one the design asks for -/
theorem feeRule_of {X : Ext} {a : Args} {p : Plan} (hp : prepare X a = .ok p) (hn : p.ins.length ≤ 252) (hm : p.outs.length ≤ 252) {fee : Int}
    (h : FeeP p.kind (10 + 179 * p.ins.length + 34 * p.outs.length) (.int fee)) : FeeRule X a p.ins.length p.outs.length fee := by
  obtain ⟨_, _, _, _, _, s7, _, _⟩ := prepare_settings hp
  rcases s7 with ⟨v, v0, k1, k2, k3, k4, k5⟩ | ⟨v, q, k1, k2, k3, k4, k5⟩
  · left
    rw [k1] at h
    rcases h with h | ⟨r, n, h, _⟩
    · injection h with h; subst h
      exact ⟨v0, k4, adjusted_int k5, by simpa [PVal.truthy] using k2⟩
    · simp at h
  · right
    refine ⟨k5, v, q, k3, k4, k2, ?_⟩
    rw [k1] at h
    rcases h with h | ⟨r, n, h, hf, hn⟩
    · simp at h
    · injection h with h; subst h
      injection hn with hn; subst hn
      have e : (10 + 179 * (p.ins.length : ℤ) + 34 * (p.outs.length : ℤ)) = ((10 + 179 * p.ins.length + 34 * p.outs.length : Nat) : ℤ) := by push_cast; ring
      rw [e] at hf
      rw [feeFromRate_ok k2 (by omega) hf]
      congr 1

end BT
