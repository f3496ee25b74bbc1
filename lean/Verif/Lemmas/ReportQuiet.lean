import Verif.Lemmas.ReportErr

/-! # The three special exceptions of `create_transaction` always carry a text -/

namespace BT.Report
open BT.Spec

variable {α β : Type}

/-- A special exception is never raised without a text. -/
structure Quiet (m : L α) : Prop where
  not_special : ∀ e, m.res = .error (e, none) → ¬ Special e

theorem Quiet.bind {m : L α} {f : α → L β} (h : Quiet m) (g : ∀ a, Quiet (f a)) : Quiet (m >>= f) :=
  ⟨fun e he => by
    rw [res_bind] at he
    rcases he with he | ⟨a, _, he⟩
    · exact h.not_special e he
    · exact (g a).not_special e he⟩

theorem Quiet.run {r : R α} (h : Plain r) : Quiet (Report.run r) := ⟨fun e he => h.not_special e (res_run_none.1 he)⟩
theorem Quiet.say (s : Str) : Quiet (Report.say s) := ⟨fun e he => (res_say.1 he).elim⟩
theorem Quiet.pure (a : α) : Quiet (Pure.pure a : L α) := ⟨fun e he => (res_pure.1 he).elim⟩
theorem Quiet.refuse (e : Err) (t : Str) : Quiet (Report.refuse e t : L α) := ⟨fun e' he => by have := res_refuse.1 he; simp at this⟩
theorem Quiet.refuseIf (c : Prop) [Decidable c] (e : Err) (t : Str) : Quiet (Report.refuseIf c e t) :=
  ⟨fun e' he => by have := (res_refuseIf.1 he).2; simp at this⟩
theorem Quiet.each (f : Nat → α → Str) (n : Nat) (l : List α) : Quiet (sayEach f n l) := ⟨fun e he => (res_each.1 he).elim⟩
theorem Quiet.ite {c : Prop} [Decidable c] {m n : L α} (h : Quiet m) (g : Quiet n) : Quiet (if c then m else n) := by
  split
  · exact h
  · exact g

macro "quiet" : tactic => `(tactic| repeat' first
  | with_reducible apply Quiet.bind | with_reducible apply Quiet.run | with_reducible apply Quiet.say | with_reducible apply Quiet.pure | with_reducible apply Quiet.refuse | with_reducible apply Quiet.refuseIf | with_reducible apply Quiet.each
  | with_reducible apply Quiet.ite | intro _)

macro "plains" : tactic => `(tactic| repeat' first
  | with_reducible apply Plain.bind | with_reducible apply Plain.mapR | with_reducible apply Plain.ok | with_reducible apply Plain.pure | with_reducible apply plain_vLC | with_reducible apply plain_dictGet | with_reducible apply plain_asDict | with_reducible apply plain_adjustDesign
  | with_reducible apply plain_adjustInputs | with_reducible apply plain_validateInputs | with_reducible apply plain_vAddrP | with_reducible apply plain_vWhole | with_reducible apply plain_toFloat | with_reducible apply plain_trunc
  | with_reducible apply plain_vDomain | with_reducible apply plain_vList | with_reducible apply plain_validateOutput | with_reducible apply plain_validateFees | with_reducible apply plain_validateApproaches
  | with_reducible apply plain_validateOptions | with_reducible apply plain_vString | with_reducible apply plain_feeKind | with_reducible apply plain_addSatoshi | with_reducible apply plain_mkInput | with_reducible apply plain_mkOutput
  | with_reducible apply plain_firstApproach | with_reducible apply plain_estimate | with_reducible apply plain_ofInt | with_reducible apply plain_div | with_reducible apply plain_ceil | with_reducible apply plain_feeFromRate
  | with_reducible apply plain_vInteger | with_reducible apply plain_s2bP | with_reducible apply plain_TxCreate | with_reducible apply plain_bump
  | with_reducible exact Plain.of_VE (satoshiToBitcoin_VE _ _)
  | with_reducible exact Plain.of_VE (TxOut_create_VE _ _ _)
  | with_reducible exact Plain.err (by simp [Special]) | with_reducible exact Plain.raise (by simp [Special]) | intro _)

theorem quiet_validateDesign (E : Msg.Env) (X : Ext) (d : List (Str × PVal)) : Quiet (validateDesign E X d) := by
  unfold validateDesign
  quiet
  all_goals plains

theorem quiet_prepare (E : Msg.Env) (X : Ext) (a : Args) : Quiet (prepare E X a) := by
  unfold prepare
  quiet
  all_goals first | apply quiet_validateDesign | plains

theorem quiet_sorting (E : Msg.Env) (v : PVal) (l : List TxIn) : Quiet (sorting E v l) := by
  unfold sorting
  quiet
  · plains
  · split <;> quiet

theorem quiet_addresses (u : UniDB) (ins : List TxIn) (outs : List TxOut) (b : Bool) : Quiet (addresses u ins outs b) := by
  unfold addresses
  quiet
  · plains
  · plains
  · split <;> quiet

theorem quiet_fees (E : Msg.Env) (u : UniDB) (kind : PVal ⊕ PyFloat) (size : Int) (maxFee : PVal) : Quiet (fees E u kind size maxFee) := by
  unfold fees
  cases kind <;> quiet <;> plains

theorem quiet_selection (E : Msg.Env) (u : UniDB) (ins : List TxIn) (outs : List TxOut) (fee : Int) (ap : PVal) (all : Bool) :
    Quiet (selection E u ins outs fee ap all) := by
  unfold selection
  quiet <;> plains

theorem quiet_choosing (E : Msg.Env) (idx : PVal) (n : Nat) (ca : Str) : Quiet (choosing E idx n ca) := by
  unfold choosing
  have := plain_chooseChange idx n
  split
  · quiet
  · quiet
  · rename_i h
    apply Quiet.run
    rw [← h]
    exact this

theorem quiet_change (E : Msg.Env) (X : Ext) (outs : List TxOut) (ca : Str) (idx : PVal) (s : Int) : Quiet (change E X outs ca idx s) := by
  unfold change
  quiet
  all_goals first | apply quiet_choosing | plains

theorem quiet_surplus (E : Msg.Env) (X : Ext) (n : Int) (outs : List TxOut) (fee : Int) (ca : Str) (idx : PVal) :
    Quiet (surplus E X n outs fee ca idx) := by
  unfold surplus
  quiet
  all_goals first | apply quiet_change | plains

theorem quiet_changeSection (E : Msg.Env) (X : Ext) (sel : List TxIn) (outs : List TxOut) (fee : Int) (ca : Str) (idx : PVal) :
    Quiet (changeSection E X sel outs fee ca idx) := by
  unfold changeSection
  quiet
  all_goals first | apply quiet_surplus | plains

theorem quiet_spending (u : UniDB) (p : PyFloat) (a b c : Int) : Quiet (spending u p a b c) := by
  unfold spending maxSpend
  quiet
  all_goals plains

theorem quiet_build (E : Msg.Env) (X : Ext) (p : Plan) : Quiet (build E X p) := by
  unfold build
  quiet
  all_goals first | apply quiet_sorting | apply quiet_addresses | apply quiet_fees | apply quiet_selection | apply quiet_changeSection | apply quiet_spending | plains

theorem quiet_create (E : Msg.Env) (X : Ext) (a : Args) : Quiet (create E X a) := by
  unfold create
  quiet
  all_goals first | apply quiet_prepare | apply quiet_build

end BT.Report
