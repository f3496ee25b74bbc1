import Verif.Report

/-! # The report: it changes nothing, and what it contains -/

namespace BT.Report

/-- The result without the lines and the text of the exception. -/
def erase {α : Type} (m : L α) : R α :=
  match m.res with
  | .ok a => .ok a
  | .error e => .error e.1

theorem erase_bind {α β : Type} (m : L α) (f : α → L β) :
    erase (m >>= f) = (erase m >>= fun a => erase (f a)) := by
  show erase (L.bind m f) = _
  unfold L.bind erase
  cases m.res <;> rfl

theorem erase_pure {α : Type} (a : α) : erase (pure a : L α) = pure a := rfl

theorem erase_say (s : Str) : erase (say s) = pure () := rfl

theorem erase_run {α : Type} (r : R α) : erase (run r) = r := by
  unfold run erase
  cases r <;> rfl

theorem erase_refuse {α : Type} (e : Err) (t : Str) : erase (refuse e t : L α) = .error e := rfl

theorem erase_ite {α : Type} (c : Prop) [Decidable c] (m n : L α) :
    erase (if c then m else n) = if c then erase m else erase n := by
  split <;> rfl

theorem erase_refuseIf (c : Prop) [Decidable c] (e : Err) (t : Str) :
    erase (refuseIf c e t) = if c then .error e else pure () := by
  unfold refuseIf; rw [erase_ite]; rfl

theorem guard_bind {β : Type} (c : Prop) [Decidable c] (e : Err) (k : Unit → R β) :
    ((if c then (.error e : R Unit) else pure ()) >>= k) = if c then .error e else k () := by
  split <;> rfl

theorem error_bind {α β : Type} (e : Err) (k : α → R β) : ((.error e : R α) >>= k) = .error e := rfl

theorem raise_bind {α β : Type} (e : Err) (k : α → R β) : ((raise e : R α) >>= k) = .error e := rfl

theorem erase_sayEach {α : Type} (f : Nat → α → Str) (n : Nat) (l : List α) :
    erase (sayEach f n l) = pure () := by
  induction l generalizing n with
  | nil => rfl
  | cons x xs ih =>
    unfold sayEach
    rw [erase_bind, erase_say, pure_bind, ih]

theorem erase_validateDesign (E : Msg.Env) (X : Ext) (d : List (Str × PVal)) :
    erase (validateDesign E X d) = BT.validateDesign X d := by
  unfold validateDesign BT.validateDesign
  simp only [erase_bind, erase_run, erase_pure, erase_ite, erase_say, pure_bind, ite_self]

theorem erase_prepare (E : Msg.Env) (X : Ext) (a : Args) : erase (prepare E X a) = BT.prepare X a := by
  unfold prepare BT.prepare
  simp only [erase_bind, erase_run, erase_pure, erase_say, pure_bind, erase_validateDesign, erase_sayEach, bind_assoc]

theorem erase_sorting (E : Msg.Env) (approaches : PVal) (ins : List TxIn) :
    erase (sorting E approaches ins) = (do
      let a ← firstApproach approaches
      let l ← sortInputs a ins
      pure (a, l)) := by
  unfold sorting
  simp only [erase_bind, erase_run, erase_pure, erase_say, pure_bind]
  congr 1
  funext a
  cases sortInputs a ins <;> rfl

theorem erase_addresses (u : UniDB) (ins : List TxIn) (outs : List TxOut) (b : Bool) :
    erase (addresses u ins outs b) = reportAddresses u ins outs b := by
  unfold addresses reportAddresses
  simp only [erase_bind, erase_run, erase_say, pure_bind]
  congr 1
  funext _
  congr 1
  funext _
  generalize outs.map TxOut.address = l
  split
  · rename_i h
    have : (l.all fun a => !(decide (1 < l.count a))) = true := by
      rw [List.all_eq_true]
      intro a ha
      have := List.find?_eq_none.1 h a ha
      simpa using this
    simp only [this]
    rfl
  · rename_i a h
    have : (l.all fun a => !(decide (1 < l.count a))) = false := by
      rw [List.all_eq_false]
      exact ⟨a, List.mem_of_find?_eq_some h, by simpa using List.find?_some h⟩
    simp only [this]
    cases b <;> rfl

theorem erase_fees (E : Msg.Env) (u : UniDB) (kind : PVal ⊕ PyFloat) (size : Int) (maxFee : PVal) :
    erase (fees E u kind size maxFee) = finalFee u kind size maxFee := by
  unfold fees finalFee
  simp only [erase_bind, erase_run, erase_pure, erase_say, pure_bind, erase_refuseIf]
  cases kind <;>
    simp only [erase_say, erase_pure, pure_bind, guard_bind, raise_bind, bind_assoc] <;> rfl

theorem erase_selection (E : Msg.Env) (u : UniDB) (ins : List TxIn) (outs : List TxOut) (fee : Int)
    (approaches : PVal) (all : Bool) :
    erase (selection E u ins outs fee approaches all) = selectInputs u ins outs fee all := by
  unfold selection selectInputs
  simp only [erase_bind, erase_run, erase_pure, erase_say, pure_bind, erase_ite, erase_refuse]
  congr 1

theorem erase_choosing (E : Msg.Env) (idx : PVal) (n : Nat) (c : Str) :
    erase (choosing E idx n c) = chooseChange idx n := by
  unfold choosing
  split <;> rename_i h <;> rw [h]
  · rfl
  · rfl
  · rw [erase_run]

theorem erase_change (E : Msg.Env) (X : Ext) (outs : List TxOut) (c : Str) (idx : PVal) (s : Int) :
    erase (change E X outs c idx s) = changeStep X outs c idx s := by
  unfold change changeStep
  simp only [erase_bind, erase_run, erase_pure, erase_say, pure_bind, erase_ite, erase_choosing, bind_pure]

theorem erase_surplus (E : Msg.Env) (X : Ext) (n : Int) (outs : List TxOut) (fee : Int) (c : Str) (idx : PVal) :
    erase (surplus E X n outs fee c idx) = spendSurplus X n outs fee c idx := by
  unfold surplus spendSurplus
  simp only [erase_bind, erase_run, erase_pure, erase_say, pure_bind, erase_ite, erase_change]

theorem erase_changeSection (E : Msg.Env) (X : Ext) (sel : List TxIn) (outs : List TxOut) (fee : Int) (c : Str) (idx : PVal) :
    erase (changeSection E X sel outs fee c idx) = handleChange X sel outs fee c idx := by
  unfold changeSection handleChange
  simp only [erase_bind, erase_run, erase_pure, erase_say, pure_bind, erase_surplus, erase_refuseIf, guard_bind, raise_bind]

theorem erase_spending (u : UniDB) (pct : PyFloat) (a b c : Int) :
    erase (spending u pct a b c) = checkSpend u pct a b c := by
  unfold spending checkSpend
  simp only [erase_bind, erase_run, erase_say, pure_bind, erase_ite, erase_refuse]
  rfl

theorem erase_build (E : Msg.Env) (X : Ext) (p : Plan) :
    erase (build E X p) = buildTx X p.ins p.outs p.approaches p.kind p.maxFee p.pct p.changeAddress p.allowDup p.changeIdx := by
  unfold build buildTx
  simp only [erase_bind, erase_run, erase_pure, erase_say, pure_bind, erase_sorting, erase_addresses, erase_fees, erase_selection,
    erase_changeSection, erase_spending, erase_sayEach, bind_assoc]

theorem erase_create (E : Msg.Env) (X : Ext) (a : Args) : erase (create E X a) = createTransaction X a := by
  unfold create createTransaction
  simp only [erase_bind, erase_pure, erase_prepare, erase_build]

end BT.Report
