import Verif.Lemmas.Retry
import Verif.Lemmas.Repeat

/-! # What a call does to the arguments -/

namespace BT.Retry
open Spec

theorem same_design {a : Args} {x : PVal} (h : a.design = some x) : { a with design := some x } = a := by
  cases a; simp only at h; subst h; rfl
theorem same_inputs {a : Args} {x : PVal} (h : a.inputs = some x) : { a with inputs := some x } = a := by
  cases a; simp only at h; subst h; rfl

theorem Tidy.refl {u : UniDB} (a : Args) : Tidy u a a := Relation.ReflTransGen.refl
theorem Tidy.trans {u : UniDB} {a b c : Args} (h : Tidy u a b) (h' : Tidy u b c) : Tidy u a c := Relation.ReflTransGen.trans h h'
theorem Tidy.one {u : UniDB} {a b : Args} (h : Tidy1 u a b) : Tidy u a b := Relation.ReflTransGen.single h

/-! ## the settings -/

theorem adjustFee_tidy {u : UniDB} {a : Args} {d d' : List (Str × PVal)} (hd : a.design = some (.dict d)) (h : adjustFee u d = .ok d') :
    Tidy u a { a with design := some (.dict d') } := by
  unfold adjustFee at h
  split at h
  · rename_i s hs
    simp only [R_bind_eq_ok, R_pure, Except.ok.injEq] at h
    obtain ⟨n, hn, rfl⟩ := h
    exact .one (.fee hd hs hn)
  · simp only [R_pure, Except.ok.injEq] at h
    subst h
    rw [same_design hd]; exact .refl _

theorem adjustMaxFee_tidy {u : UniDB} {a : Args} {d d' : List (Str × PVal)} (hd : a.design = some (.dict d)) (h : adjustMaxFee u d = .ok d') :
    Tidy u a { a with design := some (.dict d') } := by
  unfold adjustMaxFee at h
  split at h
  · rename_i s hs
    simp only [R_bind_eq_ok, R_pure, Except.ok.injEq] at h
    obtain ⟨n, hn, rfl⟩ := h
    exact .one (.maxFee hd hs hn)
  · simp only [R_pure, Except.ok.injEq] at h
    subst h
    rw [same_design hd]; exact .refl _

theorem adjustFeeRate_tidy {u : UniDB} {a : Args} {d : List (Str × PVal)} (hd : a.design = some (.dict d)) :
    Tidy u a { a with design := some (.dict (adjustFeeRate d)) } := by
  unfold adjustFeeRate
  cases h : dictFind d py"fee_rate" with
  | none => simp only; rw [same_design hd]; exact .refl _
  | some v =>
    simp only
    cases hv : strOfInt v with
    | none => simp only; rw [same_design hd]; exact .refl _
    | some s => exact .one (.rate hd h hv)

theorem adjustDesignStep_tidy {u : UniDB} {a : Args} {d : List (Str × PVal)} (hd : a.design = some (.dict d)) :
    Tidy u a (adjustDesignStep u d a).1 := by
  unfold adjustDesignStep
  simp only [bind_apply, check_apply, putDesign, pure_apply]
  cases h1 : adjustFee u d with
  | error e => exact .refl _
  | ok d1 =>
    have t1 := adjustFee_tidy hd h1
    have t2 := adjustFeeRate_tidy (u := u) (a := { a with design := some (.dict d1) }) (d := d1) rfl
    simp only
    cases h3 : adjustMaxFee u (adjustFeeRate d1) with
    | error e => exact t1.trans t2
    | ok d3 => exact (t1.trans t2).trans (adjustMaxFee_tidy (a := { a with design := some (.dict (adjustFeeRate d1)) }) rfl h3)

theorem adjustDesignStep_ok {u : UniDB} {a : Args} {d d' : List (Str × PVal)} (h : adjustDesign u d = .ok d') :
    adjustDesignStep u d a = ({ a with design := some (.dict d') }, .ok d') := by
  simp only [adjustDesign, R_bind_eq_ok] at h
  obtain ⟨d1, h1, h2⟩ := h
  unfold adjustDesignStep
  simp only [bind_apply, check_apply, putDesign, pure_apply, h1, h2]

/-! ## the inputs -/

theorem walk_index {u : UniDB} (l : List PVal) : ∀ (pre : List PVal) (a : Args), a.inputs = some (.list (pre ++ l)) →
    Tidy u a { a with inputs := some (.list (pre ++ (walk (adjustInput u) l).1)) } := by
  induction l with
  | nil => intro pre a h; simp only [walk]; rw [same_inputs h]; exact .refl _
  | cons x xs ih =>
    intro pre a h
    unfold walk
    cases hx : adjustInput u x with
    | error e => simp only; rw [same_inputs h]; exact .refl _
    | ok y =>
      simp only
      cases x with
      | dict d =>
        simp only [adjustInput, R_bind_eq_ok, dictGet_ok, R_pure, Except.ok.injEq] at hx
        obtain ⟨v, hv, n, hn, rfl⟩ := hx
        have t := Tidy1.index (u := u) (j := pre.length) h (by simp) hv hn
        have e : (pre ++ PVal.dict d :: xs).set pre.length (PVal.dict (dictSet d py"previous_output_index" (.int n)))
            = (pre ++ [PVal.dict (dictSet d py"previous_output_index" (.int n))]) ++ xs := by
          rw [List.set_append_right _ _ (Nat.le_refl _)]; simp
        rw [e] at t
        have := ih _ { a with inputs := some (.list ((pre ++ [PVal.dict (dictSet d py"previous_output_index" (.int n))]) ++ xs)) } rfl
        simp only [List.append_assoc, List.singleton_append] at this t
        exact (Tidy.one t).trans this
      | _ => exact absurd hx (by simp [adjustInput])

theorem adjustInputsStep_tidy {u : UniDB} {a : Args} {x : PVal} (hx : a.inputs = some x) :
    Tidy u a (adjustInputsStep u x a).1 := by
  unfold adjustInputsStep
  cases x with
  | list l => exact walk_index l [] a hx
  | _ => exact .refl _

theorem adjustInputsStep_ok {u : UniDB} {a : Args} {x : PVal} {l' : List PVal} (h : adjustInputs u x = .ok l') :
    adjustInputsStep u x a = ({ a with inputs := some (.list l') }, .ok l') := by
  unfold adjustInputs at h
  cases x with
  | list l =>
    simp only at h
    simp only [adjustInputsStep, bind_apply, putInputs, check_apply, walk_snd, h, walk_ok h]
  | _ => simp at h

/-! ## the outputs -/

theorem walk_amount {X : Ext} (l : List PVal) : ∀ (pre : List PVal) (a : Args) (d : List (Str × PVal)), a.design = some (.dict d) →
    dictFind d py"outputs" = some (.list (pre ++ l)) →
    Tidy X.uni a { a with design := some (.dict (dictSet d py"outputs" (.list (pre ++ (walk (validateOutput X) l).1)))) } := by
  induction l with
  | nil =>
    intro pre a d h ho
    simp only [walk]
    rw [set_find_self ho, same_design h]; exact .refl _
  | cons x xs ih =>
    intro pre a d h ho
    unfold walk
    cases hx : validateOutput X x with
    | error e => simp only; rw [set_find_self ho, same_design h]; exact .refl _
    | ok y =>
      simp only
      simp only [validateOutput, R_bind_eq_ok, asDict_ok, vListsIdentical_ok, dictGet_ok, vBitcoinAddressP_ok,
        R_pure, Except.ok.injEq] at hx
      obtain ⟨o, rfl, _, _, _, _, _, _, p, hb, s, hs, s8, h8, rfl⟩ := hx
      obtain ⟨rfl, hs'⟩ : p = .str s ∧ vPositiveBitcoinAmount X.uni s = .ok () := by
        simp only [vPositiveBitcoinAmountP, R_bind_eq_ok, vString_ok, R_pure, Except.ok.injEq] at hs
        obtain ⟨s', rfl, ⟨⟩, h1, rfl⟩ := hs
        exact ⟨rfl, h1⟩
      have t := Tidy1.amount (u := X.uni) (j := pre.length) h ho (by simp) hb hs' h8
      have e : (pre ++ PVal.dict o :: xs).set pre.length (PVal.dict (dictSet o py"bitcoin_amount" (.str s8)))
          = (pre ++ [PVal.dict (dictSet o py"bitcoin_amount" (.str s8))]) ++ xs := by
        rw [List.set_append_right _ _ (Nat.le_refl _)]; simp
      rw [e] at t
      have := ih (pre ++ [PVal.dict (dictSet o py"bitcoin_amount" (.str s8))])
        { a with design := some (.dict (dictSet d py"outputs" (.list ((pre ++ [PVal.dict (dictSet o py"bitcoin_amount" (.str s8))]) ++ xs)))) }
        _ rfl find_set_eq
      simp only [set_set, List.append_assoc, List.singleton_append] at this t
      exact (Tidy.one t).trans this

theorem designHead_outs {X : Ext} {d : List (Str × PVal)} {l : List PVal} (h : designHead X d = .ok l) :
    dictFind d py"outputs" = some (.list l) := by
  simp only [designHead, R_bind_eq_ok, dictGet_ok, vList_ok] at h
  obtain ⟨_, _, _, _, _, _, _, _, o, ho, _, _, _, _, _, _, _, _, _, _, rfl⟩ := h
  exact ho

theorem validateDesignStep_tidy {X : Ext} {a : Args} {d : List (Str × PVal)} (hd : a.design = some (.dict d)) :
    Tidy X.uni a (validateDesignStep X d a).1 := by
  unfold validateDesignStep
  simp only [bind_apply, check_apply, putDesign, pure_apply]
  cases h1 : designHead X d with
  | error e => exact .refl _
  | ok l =>
    have t := walk_amount (X := X) l [] a d hd (designHead_outs h1)
    simp only [List.nil_append] at t
    simp only
    cases (walk (validateOutput X) l).2 with
    | error e => exact t
    | ok l' =>
      simp only
      cases validateFees X.uni (dictOpt d py"fee") (dictOpt d py"fee_rate") with
      | error e => exact t
      | ok _ =>
        simp only
        cases validateApproaches (dictOpt d py"input_selection_approaches") with
        | error e => exact t
        | ok _ => exact t

theorem validateDesignStep_ok {X : Ext} {a : Args} {d d' : List (Str × PVal)} (h : validateDesign X d = .ok d') :
    validateDesignStep X d a = ({ a with design := some (.dict d') }, .ok d') := by
  rw [validateDesign_eq] at h
  simp only [R_bind_eq_ok, R_pure, Except.ok.injEq] at h
  obtain ⟨l, h1, l', h2, _, h3, _, h4, rfl⟩ := h
  unfold validateDesignStep
  simp only [bind_apply, check_apply, putDesign, pure_apply, h1, walk_snd, h2, walk_ok h2, h3, h4]

end BT.Retry
