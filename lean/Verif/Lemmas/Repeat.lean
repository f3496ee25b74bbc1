import Verif.Lemmas.WellFormed

/-! # Failing a second time: repeated calls, a fee of zero, unread keys -/

namespace BT
open Spec

/-- `prepare` when everything but the conversion of the fee works -/
theorem prepare_feeKind_err {X : Ext} {a : Args} {insD : List PVal} {d d1 : List (Str × PVal)} {insZ outsD outsZ : List PVal} {ca : Str} {mf msp : PVal} {n : Int} {f : PyFloat} {e : Err}
    (hinsD : a.inputs = some (.list insD)) (hdes : a.design = some (.dict d)) (hadj : adjustDesign X.uni d = .ok d1)
    (hinZ : List.Forall₂ (InStep X) insD insZ)
    (h1 : dictFind d1 py"change_address" = some (.str ca)) (h2 : vBitcoinAddress X ca = .ok ())
    (h3 : dictFind d1 py"max_fee" = some mf) (h4 : vWholeNumber mf = .ok ())
    (h5 : dictFind d1 py"max_spend_percentage" = some msp) (h6 : msp.toFloat X.uni = .ok f) (h7 : f.trunc = .ok n) (h8 : 0 ≤ n) (h9 : n ≤ 100)
    (h10 : dictFind d1 py"outputs" = some (.list outsD)) (houtZ : List.Forall₂ (OutStep X) outsD outsZ)
    (h12 : validateFees X.uni (dictOpt d1 py"fee") (dictOpt d1 py"fee_rate") = .ok ())
    (h13 : validateApproaches (dictOpt d1 py"input_selection_approaches") = .ok ())
    (hopt : validateOptions (a.allowDup.getD .none) (a.changeIdx.getD .none) = .ok ())
    (hkind : feeKind X.uni (dictOpt d1 py"fee") (dictOpt d1 py"fee_rate") = .error e) :
    prepare X a = .error e := by
  have e1 : ∀ (d : List (Str × PVal)) v k, k ≠ py"outputs" → dictOpt (dictSet d py"outputs" v) k = dictOpt d k := by
    intro d v k hk; unfold dictOpt; rw [find_set_ne hk]
  have eg : ∀ (d : List (Str × PVal)) v k, k ≠ py"outputs" → dictGet (dictSet d py"outputs" v) k = dictGet d k := by
    intro d v k hk; unfold dictGet; rw [find_set_ne hk]
  obtain ⟨ins1, a1, a2⟩ := forall₂_comp.1 (hinZ.imp fun x z hxz => inStep_iff.2 hxz)
  obtain ⟨outs1, b1, b2⟩ := forall₂_comp.1 (houtZ.imp fun x z hxz => outStep_iff.2 hxz)
  have hval : validateInputs X ins1 = .ok () := by
    have : List.Forall₂ (fun y (_ : Unit) => validateInput X y = .ok ()) ins1 (ins1.map fun _ => ()) := by
      clear a1 hinZ
      induction a2 with
      | nil => exact .nil
      | cons h _ ih => exact .cons h.1 ih
    simp only [validateInputs, R_bind_eq_ok, mapR_ok]
    exact ⟨_, this.imp fun _ _ h => h, rfl⟩
  have hvd : validateDesign X d1 = .ok (dictSet d1 py"outputs" (.list outs1)) :=
    validateDesign_ok.2 ⟨ca, mf, msp, f, n, outsD, outs1, h1, h2, h3, h4, h5, h6, h7, h8, h9, h10, mapR_ok.2 b1, h12, h13, rfl⟩
  have hkeys : vListContains a.keys [py"inputs", py"design"] = .ok () := by
    rw [vListContains_ok]
    intro k hk
    simp only [List.mem_cons, List.not_mem_nil, or_false] at hk
    rcases hk with rfl | rfl <;> simp [Args.keys, hinsD, hdes]
  have hai : adjustInputs X.uni (a.inputs.getD .none) = .ok ins1 := by
    rw [hinsD]; simp only [Option.getD_some, adjustInputs, mapR_ok]; exact a1
  have hg1 : dictGet d1 py"change_address" = .ok (.str ca) := dictGet_ok.2 h1
  have hg2 : dictGet d1 py"max_fee" = .ok mf := dictGet_ok.2 h3
  have hg3 : dictGet d1 py"max_spend_percentage" = .ok msp := dictGet_ok.2 h5
  have hg4 : dictGet (dictSet d1 py"outputs" (.list outs1)) py"outputs" = .ok (.list outs1) := dictGet_ok.2 find_set_eq
  have hvl : vList (.list outs1) = .ok outs1 := vList_ok.2 rfl
  have hvs : vString (.str ca) = .ok ca := vString_ok.2 rfl
  have hd : ((some (PVal.dict d)).getD .none).asDict = .ok d := rfl
  simp only [prepare, hkeys, hdes, hd, hadj, hai, hval, hvd, hopt, hg4, hvl, R_bind_ok, eg _ _ _ (show py"change_address" ≠ py"outputs" by decide), hg1, hvs,
    eg _ _ _ (show py"max_fee" ≠ py"outputs" by decide), hg2, eg _ _ _ (show py"max_spend_percentage" ≠ py"outputs" by decide), hg3, h6,
    e1 _ _ _ (show py"fee" ≠ py"outputs" by decide), e1 _ _ _ (show py"fee_rate" ≠ py"outputs" by decide), hkind, R_bind_err]

theorem set_find_self {d : List (Str × PVal)} {k : Str} {v : PVal} (h : dictFind d k = some v) : dictSet d k v = d := by
  induction d with
  | nil => simp [dictFind] at h
  | cons p d ih =>
    obtain ⟨j, x⟩ := p
    unfold dictFind at h
    unfold dictSet
    by_cases e : j = k
    · rw [if_pos e] at h ⊢
      injection h with h; subst h; subst e; rfl
    · rw [if_neg e] at h ⊢
      rw [ih h]

theorem mem_keys_set {d : List (Str × PVal)} {k k' : Str} {v : PVal} : k' ∈ dictKeys (dictSet d k v) ↔ k' = k ∨ k' ∈ dictKeys d := by
  induction d with
  | nil => simp [dictSet, dictKeys]
  | cons p d ih =>
    obtain ⟨j, x⟩ := p
    unfold dictSet
    by_cases e : j = k
    · rw [if_pos e]; simp [dictKeys, e]
    · rw [if_neg e]
      simp only [dictKeys, List.map_cons, List.mem_cons] at ih ⊢
      rw [ih]; tauto

/-- the entries left behind by a call are refused by the next one -/
theorem inStep_again {X : Ext} {x z : PVal} (h : InStep X x z) :
    adjustInput X.uni z = .ok z ∧ validateInput X z = .error .valueError := by
  obtain ⟨d, a, txid, v, idx, s, sat, rfl, hk, h1, h2, h3, h4, h5, h6, h7, h8, h9, rfl⟩ := h
  have hf : dictFind (dictSet (dictSet d py"previous_output_index" (.int idx)) py"satoshi_amount" (.int sat)) py"previous_output_index" = some (.int idx) := by
    rw [find_set_ne (by decide), find_set_eq]
  constructor
  · unfold adjustInput
    simp only [dictGet, hf, R_bind_ok, PVal.toInt, R_pure]
    rw [set_find_self hf]
  · have : ¬ (dictKeys (dictSet (dictSet d py"previous_output_index" (.int idx)) py"satoshi_amount" (.int sat))).Perm
        [py"address", py"transaction_id", py"previous_output_index", py"bitcoin_amount"] := by
      intro hp
      have : py"satoshi_amount" ∈ [py"address", py"transaction_id", py"previous_output_index", py"bitcoin_amount"] :=
        hp.mem_iff.1 (mem_keys_set.2 (.inl rfl))
      revert this; decide
    simp only [validateInput, PVal.asDict, R_bind_ok, vListsIdentical_eq, if_neg this, R_bind_err]

theorem mapR_id {α : Type} {f : α → R α} {l : List α} (h : ∀ x ∈ l, f x = .ok x) : mapR f l = .ok l := by
  rw [mapR_ok]
  induction l with
  | nil => exact .nil
  | cons x l ih => exact .cons (h x (by simp)) (ih fun y hy => h y (by simp [hy]))

/-! ## Unread keys -/

/-- the keys of the design that are read -/
def readKeys : List Str := [py"outputs", py"fee", py"fee_rate", py"change_address", py"max_fee", py"max_spend_percentage", py"input_selection_approaches"]

/-- the two dicts agree on the keys that are read -/
def SameOn (d d' : List (Str × PVal)) : Prop := ∀ k ∈ readKeys, dictFind d k = dictFind d' k

/-- same error, or related results -/
def RelR {α β : Type} (P : α → β → Prop) : R α → R β → Prop
  | .ok a, .ok b => P a b
  | .error e, .error e' => e = e'
  | _, _ => False

theorem RelR.bind {α β γ δ : Type} {P : α → β → Prop} {Q : γ → δ → Prop} {x : R α} {y : R β} {f : α → R γ} {g : β → R δ}
    (h : RelR P x y) (hf : ∀ a b, P a b → RelR Q (f a) (g b)) : RelR Q (x >>= f) (y >>= g) := by
  cases x <;> cases y <;> simp only [RelR] at h
  · subst h; simp [RelR, bind, Except.bind]
  · exact hf _ _ h

theorem RelR.refl {α : Type} (x : R α) : RelR (· = ·) x x := by
  cases x <;> simp [RelR]

theorem RelR.same {α γ δ : Type} {Q : γ → δ → Prop} {x : R α} {f : α → R γ} {g : α → R δ}
    (hf : ∀ a, RelR Q (f a) (g a)) : RelR Q (x >>= f) (x >>= g) :=
  (RelR.refl x).bind fun a b hab => hab ▸ hf a

theorem SameOn.set {d d' : List (Str × PVal)} (h : SameOn d d') (k : Str) (v : PVal) : SameOn (dictSet d k v) (dictSet d' k v) := by
  intro k' hk'
  by_cases e : k' = k
  · subst e; rw [find_set_eq, find_set_eq]
  · rw [find_set_ne e, find_set_ne e]; exact h k' hk'

theorem sameOn_adjust {u : UniDB} {d d' : List (Str × PVal)} (h : SameOn d d') : RelR SameOn (adjustDesign u d) (adjustDesign u d') := by
  unfold adjustDesign
  refine RelR.bind (P := SameOn) ?_ ?_
  · unfold adjustFee
    rw [← h py"fee" (by decide)]
    split
    · exact RelR.same fun n => h.set _ _
    · exact h
  · intro d1 d1' h1
    have h2 : SameOn (adjustFeeRate d1) (adjustFeeRate d1') := by
      unfold adjustFeeRate
      rw [← h1 py"fee_rate" (by decide)]
      split
      · split
        · exact h1.set _ _
        · exact h1
      · exact h1
    unfold adjustMaxFee
    rw [← h2 py"max_fee" (by decide)]
    split
    · exact RelR.same fun n => h2.set _ _
    · exact h2

theorem SameOn.get {d d' : List (Str × PVal)} (h : SameOn d d') {k : Str} (hk : k ∈ readKeys) : dictGet d k = dictGet d' k := by
  unfold dictGet; rw [h k hk]

theorem SameOn.opt {d d' : List (Str × PVal)} (h : SameOn d d') {k : Str} (hk : k ∈ readKeys) : dictOpt d k = dictOpt d' k := by
  unfold dictOpt; rw [h k hk]

theorem mem_keys_iff {d : List (Str × PVal)} {k : Str} : k ∈ dictKeys d ↔ (dictFind d k).isSome = true := by
  induction d with
  | nil => simp [dictKeys, dictFind]
  | cons p d ih =>
    obtain ⟨j, x⟩ := p
    unfold dictFind
    by_cases e : j = k
    · rw [if_pos e]; simp [dictKeys, e]
    · rw [if_neg e, ← ih]
      simp only [dictKeys, List.map_cons, List.mem_cons]
      constructor
      · rintro (h | h)
        · exact absurd h.symm e
        · exact h
      · exact .inr

theorem sameOn_contains {d d' : List (Str × PVal)} (h : SameOn d d') {l : List Str} (hl : ∀ k ∈ l, k ∈ readKeys) :
    vListContains (dictKeys d) l = vListContains (dictKeys d') l := by
  have hiff : vListContains (dictKeys d) l = .ok () ↔ vListContains (dictKeys d') l = .ok () := by
    rw [vListContains_ok, vListContains_ok]
    refine forall₂_congr fun k hk => ?_
    rw [mem_keys_iff, mem_keys_iff, h k (hl k hk)]
  unfold vListContains at *
  simp only at hiff ⊢
  by_cases h1 : (l.filter fun x => !(dictKeys d).contains x).length = 0 <;> by_cases h2 : (l.filter fun x => !(dictKeys d').contains x).length = 0 <;>
    simp only [h1, h2, if_true, if_false] at hiff ⊢ <;> simp at hiff

theorem sameOn_validate {X : Ext} {d d' : List (Str × PVal)} (h : SameOn d d') : RelR SameOn (validateDesign X d) (validateDesign X d') := by
  unfold validateDesign
  rw [sameOn_contains h (by decide), h.get (k := py"change_address") (by decide), h.get (k := py"max_fee") (by decide),
    h.get (k := py"max_spend_percentage") (by decide), h.get (k := py"outputs") (by decide), h.opt (k := py"fee") (by decide), h.opt (k := py"fee_rate") (by decide),
    h.opt (k := py"input_selection_approaches") (by decide)]
  repeat refine RelR.same fun _ => ?_
  exact h.set _ _

/-- two plans that differ only in the arguments left behind -/
def SamePlan (p q : Plan) : Prop := p = { q with after := p.after }

theorem sameOn_prepare {X : Ext} {a b : Args} {d d' : List (Str × PVal)} (hi : a.inputs = b.inputs) (ha : a.design = some (.dict d)) (hb : b.design = some (.dict d'))
    (h1 : a.allowDup = b.allowDup) (h2 : a.changeIdx = b.changeIdx) (h : SameOn d d') : RelR SamePlan (prepare X a) (prepare X b) := by
  have hk : a.keys = b.keys := by unfold Args.keys; rw [hi, ha, hb, h1, h2]; rfl
  unfold prepare
  rw [hk, h1, h2, hi, ha, hb]
  refine RelR.same fun _ => ?_
  refine RelR.bind (P := SameOn) h fun d d' h => ?_
  refine RelR.bind (P := SameOn) (sameOn_adjust h) fun d d' h => ?_
  refine RelR.same fun _ => ?_
  refine RelR.same fun _ => ?_
  refine RelR.bind (P := SameOn) (sameOn_validate h) fun d d' h => ?_
  rw [h.get (k := py"change_address") (by decide), h.get (k := py"max_fee") (by decide),
    h.get (k := py"max_spend_percentage") (by decide), h.get (k := py"outputs") (by decide), h.opt (k := py"fee") (by decide), h.opt (k := py"fee_rate") (by decide),
    h _ (show py"input_selection_approaches" ∈ readKeys by decide)]
  repeat refine RelR.same fun _ => ?_
  rfl

end BT
