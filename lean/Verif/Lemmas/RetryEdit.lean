import Verif.Lemmas.RetrySame
import Verif.Lemmas.RetryAfter
import Verif.Lemmas.JsonText

/-! # Corrections and the removal of the added keys -/

namespace BT.Retry
open Spec

/-- the change of a setting that is harmless -/
def Rel (u : UniDB) (k : Str) (v v' : PVal) : Prop :=
  ((k = py"fee" ∨ k = py"max_fee") ∧ ∃ s n, v = .str s ∧ pyInt u 10 s = .ok n ∧ v' = .int n) ∨
  (k = py"fee_rate" ∧ ∃ s, strOfInt v = some s ∧ v' = .str s)

theorem Tidy1.setting {u : UniDB} {a : Args} {d : List (Str × PVal)} {k : Str} {v v' : PVal} (hd : a.design = some (.dict d))
    (hk : dictFind d k = some v) (h : Rel u k v v') : Tidy1 u a { a with design := some (.dict (dictSet d k v')) } := by
  rcases h with ⟨rfl | rfl, s, n, rfl, hn, rfl⟩ | ⟨rfl, s, hs, rfl⟩
  · exact .fee hd hk hn
  · exact .maxFee hd hk hn
  · exact .rate hd hk hs

theorem setField_comm {l : List PVal} {i j : Nat} {k : Str} {v y : PVal} (h : i ≠ j) : setField (l.set i y) j k v = (setField l j k v).set i y := by
  unfold setField
  rw [List.getElem?_set_ne h]
  cases hj : l[j]? with
  | none => rfl
  | some x =>
    cases x with
    | dict d => simp only; rw [List.set_comm _ _ h]
    | _ => rfl

theorem setField_ne {l : List PVal} {i j : Nat} {k : Str} {v : PVal} (h : i ≠ j) : (setField l j k v)[i]? = l[i]? := by
  unfold setField
  cases hj : l[j]? with
  | none => rfl
  | some x =>
    cases x with
    | dict d => simp only; rw [List.getElem?_set_ne (Ne.symm h)]
    | _ => rfl

theorem setField_same {l : List PVal} {j : Nat} {k : Str} {v : PVal} {d : List (Str × PVal)} (hj : l[j]? = some (.dict d)) :
    setField l j k v = l.set j (.dict (dictSet d k v)) := by
  unfold setField; rw [hj]

theorem setField_set {l : List PVal} {j : Nat} {k : Str} {v x : PVal} {d : List (Str × PVal)} (hj : l[j]? = some x) :
    setField (l.set j (.dict d)) j k v = l.set j (.dict (dictSet d k v)) := by
  have hl := (List.getElem?_eq_some_iff.1 hj).1
  rw [setField_same (d := d) (by simp [hl]), List.set_set]

/-- a setting was changed harmlessly; then a correction is made -/
theorem setting_apply {u : UniDB} {a : Args} {d : List (Str × PVal)} {K : Str} {w w' : PVal} (hd : a.design = some (.dict d))
    (hK : dictFind d K = some w) (h : Rel u K w w') (e : Edit) :
    e.apply a = e.apply { a with design := some (.dict (dictSet d K w')) } ∨
    Tidy1 u (e.apply a) (e.apply { a with design := some (.dict (dictSet d K w')) }) := by
  have hKo : K ≠ py"outputs" := by
    rcases h with ⟨rfl | rfl, _⟩ | ⟨rfl, _⟩ <;> decide
  cases e with
  | setting k v =>
    simp only [Edit.apply, hd]
    by_cases hk : k = K
    · subst hk; left; rw [set_set]
    · right
      have := Tidy1.setting (u := u) (a := { a with design := some (.dict (dictSet d k v)) }) (d := dictSet d k v) (k := K) rfl
        (by rw [find_set_ne (Ne.symm hk)]; exact hK) h
      rwa [← set_comm (Ne.symm hk) hK] at this
  | input j k v =>
    right
    simp only [Edit.apply]
    have g := Tidy1.setting (u := u) (a := a) hd hK h
    have g' := fun l => Tidy1.setting (u := u) (a := { a with inputs := some (.list l) }) hd hK h
    rcases a with ⟨ai, ad, aa, ac⟩
    cases ai with
    | none => exact g
    | some x =>
      cases x with
      | list l => exact g' (setField l j k v)
      | _ => exact g
  | output j k v =>
    right
    simp only [Edit.apply, hd, find_set_ne (Ne.symm hKo)]
    have g := Tidy1.setting (u := u) (a := a) hd hK h
    cases ho : dictFind d py"outputs" with
    | none => exact g
    | some x =>
      cases x with
      | list l =>
        have := Tidy1.setting (u := u) (a := { a with design := some (.dict (dictSet d py"outputs" (.list (setField l j k v)))) })
          (d := dictSet d py"outputs" (.list (setField l j k v))) (k := K) rfl (by rw [find_set_ne hKo]; exact hK) h
        rwa [← set_comm hKo hK] at this
      | _ => exact g
  | inputs v => right; exact Tidy1.setting (u := u) (a := { a with inputs := some v }) hd hK h
  | design v => left; rfl
  | allowDup v => right; exact Tidy1.setting (u := u) (a := { a with allowDup := some v }) hd hK h
  | changeIdx v => right; exact Tidy1.setting (u := u) (a := { a with changeIdx := some v }) hd hK h

/-- a harmless change stays harmless if both sides are corrected in the same way -/
theorem Tidy1.apply {u : UniDB} {a b : Args} (h : Tidy1 u a b) (e : Edit) : e.apply a = e.apply b ∨ Tidy1 u (e.apply a) (e.apply b) := by
  cases h with
  | @fee d s n hd hs hn => exact setting_apply hd hs (.inl ⟨.inl rfl, s, n, rfl, hn, rfl⟩) e
  | @maxFee d s n hd hs hn => exact setting_apply hd hs (.inl ⟨.inr rfl, s, n, rfl, hn, rfl⟩) e
  | @rate d v s hd hs hn => exact setting_apply hd hs (.inr ⟨rfl, s, hn, rfl⟩) e
  | @index l j d v n hi hj hv hn =>
    cases e with
    | setting k w =>
      right
      simp only [Edit.apply]
      have g := Tidy1.index (u := u) hi hj hv hn
      have g' := fun d => Tidy1.index (u := u) (a := { a with design := some (.dict d) }) hi hj hv hn
      rcases a with ⟨ai, ad, aa, ac⟩
      cases ad with
      | none => exact g
      | some x =>
        cases x with
        | dict d' => exact g' (dictSet d' k w)
        | _ => exact g
    | input i k w =>
      simp only [Edit.apply, hi]
      by_cases hij : j = i
      · subst hij
        rw [setField_set hj, setField_same hj]
        have hl := (List.getElem?_eq_some_iff.1 hj).1
        by_cases hk : k = py"previous_output_index"
        · subst hk; left; rw [set_set]
        · right
          have := Tidy1.index (u := u) (a := { a with inputs := some (.list (l.set j (.dict (dictSet d k w)))) }) (j := j)
            (d := dictSet d k w) (v := v) (n := n) rfl (by simp [hl]) (by rw [find_set_ne (Ne.symm hk)]; exact hv) hn
          rwa [List.set_set, ← set_comm (Ne.symm hk) hv] at this
      · right
        rw [setField_comm hij]
        exact Tidy1.index (u := u) (a := { a with inputs := some (.list (setField l i k w)) }) rfl (by rw [setField_ne hij]; exact hj) hv hn
    | output i k w =>
      right
      simp only [Edit.apply]
      have g := Tidy1.index (u := u) hi hj hv hn
      have g' := fun d => Tidy1.index (u := u) (a := { a with design := some (.dict d) }) hi hj hv hn
      rcases a with ⟨ai, ad, aa, ac⟩
      cases ad with
      | none => exact g
      | some x =>
        cases x with
        | dict d' =>
          simp only
          cases ho : dictFind d' py"outputs" with
          | none => exact g
          | some y =>
            cases y with
            | list lo => exact g' _
            | _ => exact g
        | _ => exact g
    | inputs v => left; rfl
    | design w => right; exact Tidy1.index (a := { a with design := some w }) hi hj hv hn
    | allowDup w => right; exact Tidy1.index (a := { a with allowDup := some w }) hi hj hv hn
    | changeIdx w => right; exact Tidy1.index (a := { a with changeIdx := some w }) hi hj hv hn
  | @amount d l j o s s8 hd ho hj hb hs h8 =>
    cases e with
    | setting k w =>
      simp only [Edit.apply, hd]
      by_cases hk : k = py"outputs"
      · subst hk; left; rw [set_set]
      · right
        have := Tidy1.amount (u := u) (a := { a with design := some (.dict (dictSet d k w)) }) (d := dictSet d k w) rfl
          (by rw [find_set_ne (Ne.symm hk)]; exact ho) hj hb hs h8
        rwa [← set_comm (Ne.symm hk) ho] at this
    | input i k w =>
      right
      simp only [Edit.apply]
      have g := Tidy1.amount (u := u) hd ho hj hb hs h8
      have g' := fun l => Tidy1.amount (u := u) (a := { a with inputs := some (.list l) }) hd ho hj hb hs h8
      rcases a with ⟨ai, ad, aa, ac⟩
      cases ai with
      | none => exact g
      | some x =>
        cases x with
        | list li => exact g' (setField li i k w)
        | _ => exact g
    | output i k w =>
      simp only [Edit.apply, hd, ho, find_set_eq, set_set]
      by_cases hij : j = i
      · subst hij
        rw [setField_set hj, setField_same hj]
        have hl := (List.getElem?_eq_some_iff.1 hj).1
        by_cases hk : k = py"bitcoin_amount"
        · subst hk; left; rw [set_set]
        · right
          have := Tidy1.amount (u := u) (a := { a with design := some (.dict (dictSet d py"outputs" (.list (l.set j (.dict (dictSet o k w)))))) })
            (j := j) (o := dictSet o k w) (s := s) (s8 := s8) rfl find_set_eq (by simp [hl]) (by rw [find_set_ne (Ne.symm hk)]; exact hb) hs h8
          rwa [List.set_set, ← set_comm (Ne.symm hk) hb, set_set] at this
      · right
        rw [setField_comm hij]
        have := Tidy1.amount (u := u) (a := { a with design := some (.dict (dictSet d py"outputs" (.list (setField l i k w)))) })
          rfl find_set_eq (by rw [setField_ne hij]; exact hj) hb hs h8
        rwa [set_set] at this
    | inputs w => right; exact Tidy1.amount (a := { a with inputs := some w }) hd ho hj hb hs h8
    | design w => left; rfl
    | allowDup w => right; exact Tidy1.amount (a := { a with allowDup := some w }) hd ho hj hb hs h8
    | changeIdx w => right; exact Tidy1.amount (a := { a with changeIdx := some w }) hd ho hj hb hs h8

theorem Tidy.apply {u : UniDB} {a b : Args} (h : Tidy u a b) (e : Edit) : Tidy u (e.apply a) (e.apply b) := by
  induction h with
  | refl => exact .refl _
  | tail _ h ih =>
    rcases h.apply e with h | h
    · rw [← h]; exact ih
    · exact ih.trans (.one h)

theorem Tidy.edited {u : UniDB} {a b : Args} (h : Tidy u a b) (es : List Edit) : Tidy u (edited a es) (edited b es) := by
  unfold Retry.edited
  induction es generalizing a b with
  | nil => exact h
  | cons e es ih => exact ih (h.apply e)

/-! ## the added keys -/

theorem unmark_marked {d : List (Str × PVal)} {v : PVal} (h : py"satoshi_amount" ∉ dictKeys d) :
    unmarkDict (.dict (dictSet d py"satoshi_amount" v)) = .dict d := by
  have hne : ∀ p ∈ d, p.1 ≠ py"satoshi_amount" := fun p hp e => h (by rw [← e]; exact List.mem_map_of_mem hp)
  have e1 := Json.dictSet_new v hne
  have e2 : d.filter (fun p => decide (p.1 ≠ py"satoshi_amount")) = d := by
    rw [List.filter_eq_self]; intro p hp; simpa using hne p hp
  unfold unmarkDict
  simp only [e1, List.filter_append, e2]
  simp

theorem unmark_plain {x : PVal} (h : ∀ d, x = .dict d → py"satoshi_amount" ∉ dictKeys d) : unmarkDict x = x := by
  cases x with
  | dict d =>
    have hne : ∀ p ∈ d, p.1 ≠ py"satoshi_amount" := fun p hp e => h d rfl (by rw [← e]; exact List.mem_map_of_mem hp)
    unfold unmarkDict
    simp only
    rw [List.filter_eq_self.2]
    intro p hp; simpa using hne p hp
  | _ => rfl

theorem addSatoshi_form {u : UniDB} {x z : PVal} (h : addSatoshi u x = .ok z) :
    ∃ d n, x = .dict d ∧ z = .dict (dictSet d py"satoshi_amount" (.int n)) := by
  simp only [addSatoshi, R_bind_eq_ok, asDict_ok, R_pure, Except.ok.injEq] at h
  obtain ⟨d, rfl, _, _, _, _, n, _, rfl⟩ := h
  exact ⟨d, n, rfl, rfl⟩

theorem map_unmark {u : UniDB} {l l' : List PVal} (h : mapR (addSatoshi u) l = .ok l')
    (hk : ∀ x ∈ l, ∀ d, x = .dict d → py"satoshi_amount" ∉ dictKeys d) : l'.map unmarkDict = l := by
  rw [mapR_ok] at h
  induction h with
  | nil => rfl
  | @cons x z l l' hx _ ih =>
    obtain ⟨d, n, rfl, rfl⟩ := addSatoshi_form hx
    rw [List.map_cons, unmark_marked (hk _ (by simp) d rfl), ih fun y hy => hk y (by simp [hy])]

theorem valid_in_keys {X : Ext} {x : PVal} (h : validateInput X x = .ok ()) : ∀ d, x = .dict d → py"satoshi_amount" ∉ dictKeys d := by
  rintro d rfl
  simp only [validateInput, R_bind_eq_ok, asDict_ok, vListsIdentical_ok] at h
  obtain ⟨d', hd, _, hp, _⟩ := h
  injection hd with hd; subst hd
  intro hm
  have := hp.mem_iff.1 hm
  revert this; decide

theorem valid_out_keys {X : Ext} {x y : PVal} (h : validateOutput X x = .ok y) : ∀ d, y = .dict d → py"satoshi_amount" ∉ dictKeys d := by
  rintro d rfl
  simp only [validateOutput, R_bind_eq_ok, asDict_ok, vListsIdentical_ok, dictGet_ok, R_pure, Except.ok.injEq] at h
  obtain ⟨d', rfl, _, hp, _, _, _, _, p, hb, s, _, s8, _, hd⟩ := h
  injection hd with hd; subst hd
  rw [dictKeys_set hb]
  intro hm
  have := hp.mem_iff.1 hm
  revert this; decide

/-- removing the added keys gives back the validated arguments -/
theorem Validated.unmark {X : Ext} {a b : Args} {ins outs insZ outsZ : List PVal} {d : List (Str × PVal)} (V : Validated X a b ins outs insZ outsZ d) :
    unmark { b with inputs := some (.list insZ), design := some (.dict (dictSet d py"outputs" (.list outsZ))) } = b := by
  have h1 := map_unmark V.markedIn fun x hx => valid_in_keys (V.validIn x hx)
  have h2 := map_unmark V.markedOut fun x hx => by
    obtain ⟨y, hy⟩ := V.validOut x hx
    exact valid_out_keys hy
  unfold Retry.unmark
  simp only [Option.map_some, find_set_eq, set_set, h1, h2]
  rw [set_find_self V.outputs]
  have := V.inputs; have := V.design
  cases b; simp_all

theorem setting_of {a : Args} {d : List (Str × PVal)} (h : a.design = some (.dict d)) (k : Str) : Spec.setting a k = dictFind d k := by
  unfold Spec.setting; rw [h]; rfl

theorem Tidy1.noMark {u : UniDB} {a b : Args} (h : Tidy1 u a b) (hn : NoMark a) : NoMark b := by
  cases h with
  | @fee d s n hd hs hp =>
    refine ⟨hn.1, ?_⟩
    rw [setting_of rfl, find_set_ne (by decide), ← setting_of hd]
    exact hn.2
  | @maxFee d s n hd hs hp =>
    refine ⟨hn.1, ?_⟩
    rw [setting_of rfl, find_set_ne (by decide), ← setting_of hd]
    exact hn.2
  | @rate d v s hd hs hp =>
    refine ⟨hn.1, ?_⟩
    rw [setting_of rfl, find_set_ne (by decide), ← setting_of hd]
    exact hn.2
  | @index l j d v n hi hj hv hp =>
    refine ⟨?_, hn.2⟩
    intro x hx l' hl' d' hd'
    injection hx with hx
    rw [← hx] at hl'
    injection hl' with hl'
    subst hl'
    rcases List.mem_or_eq_of_mem_set hd' with h | h
    · exact hn.1 _ hi _ rfl _ h
    · injection h with h
      rw [h, dictKeys_set hv]
      exact hn.1 _ hi _ rfl _ (List.mem_of_getElem? hj)
  | @amount d l j o s s8 hd ho hj hb hs h8 =>
    refine ⟨hn.1, ?_⟩
    rw [setting_of rfl, find_set_eq]
    intro x hx l' hl' d' hd'
    injection hx with hx
    rw [← hx] at hl'
    injection hl' with hl'
    subst hl'
    have hset : Spec.setting a py"outputs" = some (.list l) := by rw [setting_of hd]; exact ho
    rcases List.mem_or_eq_of_mem_set hd' with h | h
    · exact hn.2 _ hset _ rfl _ h
    · injection h with h
      rw [h, dictKeys_set hb]
      exact hn.2 _ hset _ rfl _ (List.mem_of_getElem? hj)

theorem Tidy.noMark {u : UniDB} {a b : Args} (h : Tidy u a b) (hn : NoMark a) : NoMark b := by
  induction h with
  | refl => exact hn
  | tail _ h ih => exact h.noMark ih

theorem unmark_of_noMark {a : Args} (h : NoMark a) : unmark a = a := by
  have e : ∀ l : List PVal, Plain (.list l) → l.map unmarkDict = l := by
    intro l hl
    conv_rhs => rw [← List.map_id l]
    apply List.map_congr_left
    intro x hx
    exact unmark_plain fun d hd => hl l rfl d (hd ▸ hx)
  have e1 : (unmark a).inputs = a.inputs := by
    unfold unmark
    cases hi : a.inputs with
    | none => rfl
    | some x =>
      cases x with
      | list l => simp only [Option.map_some]; rw [e l (h.1 _ hi)]
      | _ => rfl
  have e2 : (unmark a).design = a.design := by
    unfold unmark
    cases hd : a.design with
    | none => rfl
    | some x =>
      cases x with
      | dict d =>
        simp only [Option.map_some]
        cases ho : dictFind d py"outputs" with
        | none => rfl
        | some y =>
          cases y with
          | list l =>
            simp only
            rw [e l (h.2 _ (by rw [setting_of hd]; exact ho)), set_find_self ho]
          | _ => rfl
      | _ => rfl
  have e3 : unmark a = ⟨(unmark a).inputs, (unmark a).design, a.allowDup, a.changeIdx⟩ := rfl
  rw [e3, e1, e2]

end BT.Retry
