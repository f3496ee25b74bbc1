import Verif.Lemmas.RetryTidy

/-! # Harmless changes do not change the outcome, and stay harmless under corrections -/

namespace BT.Retry
open Spec

theorem set_comm {d : List (Str × PVal)} {k k' : Str} {v v' w : PVal} (h : k ≠ k') (hk : dictFind d k = some w) :
    dictSet (dictSet d k v) k' v' = dictSet (dictSet d k' v') k v := by
  induction d with
  | nil => simp [dictFind] at hk
  | cons p d ih =>
    obtain ⟨j, x⟩ := p
    unfold dictFind at hk
    by_cases e : j = k
    · subst e
      simp [dictSet, h]
    · rw [if_neg e] at hk
      by_cases e' : j = k'
      · subst e'
        simp [dictSet, e]
      · simp [dictSet, e, e', ih hk]

theorem adjustFee_set {u : UniDB} {d : List (Str × PVal)} {k : Str} {v w : PVal} (h : k ≠ py"fee") (hk : dictFind d k = some w) :
    adjustFee u (dictSet d k v) = (adjustFee u d >>= fun d' => pure (dictSet d' k v)) := by
  unfold adjustFee
  rw [find_set_ne (Ne.symm h)]
  cases hf : dictFind d py"fee" with
  | none => rfl
  | some x =>
    cases x with
    | str s =>
      simp only
      cases pyInt u 10 s with
      | error e => rfl
      | ok n => simp only [R_bind_ok, R_pure]; rw [set_comm h hk]
    | _ => rfl

theorem adjustMaxFee_set {u : UniDB} {d : List (Str × PVal)} {k : Str} {v w : PVal} (h : k ≠ py"max_fee") (hk : dictFind d k = some w) :
    adjustMaxFee u (dictSet d k v) = (adjustMaxFee u d >>= fun d' => pure (dictSet d' k v)) := by
  unfold adjustMaxFee
  rw [find_set_ne (Ne.symm h)]
  cases hf : dictFind d py"max_fee" with
  | none => rfl
  | some x =>
    cases x with
    | str s =>
      simp only
      cases pyInt u 10 s with
      | error e => rfl
      | ok n => simp only [R_bind_ok, R_pure]; rw [set_comm h hk]
    | _ => rfl

theorem adjustFeeRate_set {d : List (Str × PVal)} {k : Str} {v w : PVal} (h : k ≠ py"fee_rate") (hk : dictFind d k = some w) :
    adjustFeeRate (dictSet d k v) = dictSet (adjustFeeRate d) k v := by
  unfold adjustFeeRate
  rw [find_set_ne (Ne.symm h)]
  cases hf : dictFind d py"fee_rate" with
  | none => rfl
  | some x =>
    simp only
    cases strOfInt x with
    | none => rfl
    | some s => simp only; rw [set_comm h hk]

theorem adjustDesign_fee {u : UniDB} {d : List (Str × PVal)} {s : Str} {n : Int} (hs : dictFind d py"fee" = some (.str s))
    (hn : pyInt u 10 s = .ok n) : adjustDesign u (dictSet d py"fee" (.int n)) = adjustDesign u d := by
  unfold adjustDesign
  have e1 : adjustFee u (dictSet d py"fee" (.int n)) = .ok (dictSet d py"fee" (.int n)) := by
    unfold adjustFee; rw [find_set_eq]; rfl
  have e2 : adjustFee u d = .ok (dictSet d py"fee" (.int n)) := by
    unfold adjustFee; rw [hs]; simp only [hn]; rfl
  rw [e1, e2]

theorem adjustDesign_maxFee {u : UniDB} {d : List (Str × PVal)} {s : Str} {n : Int} (hs : dictFind d py"max_fee" = some (.str s))
    (hn : pyInt u 10 s = .ok n) : adjustDesign u (dictSet d py"max_fee" (.int n)) = adjustDesign u d := by
  unfold adjustDesign
  rw [adjustFee_set (by decide) hs]
  cases h1 : adjustFee u d with
  | error e => rfl
  | ok d1 =>
    have f1 : dictFind d1 py"max_fee" = some (.str s) := by rw [(adjustFee_ok h1).1 _ (by decide)]; exact hs
    simp only [R_bind_ok, R_pure]
    rw [adjustFeeRate_set (by decide) f1]
    have f2 : dictFind (adjustFeeRate d1) py"max_fee" = some (.str s) := by rw [(adjustFeeRate_find d1).1 _ (by decide)]; exact f1
    generalize adjustFeeRate d1 = d2 at f2
    unfold adjustMaxFee
    rw [find_set_eq, f2]
    simp only [hn, R_bind_ok]

theorem strOfInt_str (s : Str) : strOfInt (.str s) = none := rfl

theorem adjustDesign_rate {u : UniDB} {d : List (Str × PVal)} {v : PVal} {s : Str} (hv : dictFind d py"fee_rate" = some v)
    (hs : strOfInt v = some s) : adjustDesign u (dictSet d py"fee_rate" (.str s)) = adjustDesign u d := by
  unfold adjustDesign
  rw [adjustFee_set (by decide) hv]
  cases h1 : adjustFee u d with
  | error e => rfl
  | ok d1 =>
    have f1 : dictFind d1 py"fee_rate" = some v := by rw [(adjustFee_ok h1).1 _ (by decide)]; exact hv
    simp only [R_bind_ok, R_pure]
    congr 1
    unfold adjustFeeRate
    rw [find_set_eq, f1]
    simp only [strOfInt_str, hs]

theorem adjustDesign_set {u : UniDB} {d : List (Str × PVal)} {k : Str} {v w : PVal} (h1 : k ≠ py"fee") (h2 : k ≠ py"fee_rate")
    (h3 : k ≠ py"max_fee") (hk : dictFind d k = some w) :
    adjustDesign u (dictSet d k v) = (adjustDesign u d >>= fun d' => pure (dictSet d' k v)) := by
  unfold adjustDesign
  rw [adjustFee_set h1 hk]
  cases e1 : adjustFee u d with
  | error e => rfl
  | ok d1 =>
    have f1 : dictFind d1 k = some w := by rw [(adjustFee_ok e1).1 _ h1]; exact hk
    simp only [R_bind_ok, R_pure]
    rw [adjustFeeRate_set h2 f1]
    have f2 : dictFind (adjustFeeRate d1) k = some w := by rw [(adjustFeeRate_find d1).1 _ h2]; exact f1
    rw [adjustMaxFee_set h3 f2]
    rfl

theorem mapR_set {α β : Type} {f : α → R β} {l : List α} {j : Nat} {x x' : α} (hx : l[j]? = some x) (h : f x' = f x) :
    mapR f (l.set j x') = mapR f l := by
  induction l generalizing j with
  | nil => simp at hx
  | cons y l ih =>
    cases j with
    | zero =>
      simp only [List.getElem?_cons_zero, Option.some.injEq] at hx
      subst hx
      simp only [List.set_cons_zero, mapR, h]
    | succ j =>
      simp only [List.getElem?_cons_succ] at hx
      simp only [List.set_cons_succ, mapR, ih hx]

theorem adjustInput_again {u : UniDB} {d : List (Str × PVal)} {v : PVal} {n : Int}
    (hv : dictFind d py"previous_output_index" = some v) (hn : v.toInt u = .ok n) :
    adjustInput u (.dict (dictSet d py"previous_output_index" (.int n))) = adjustInput u (.dict d) := by
  have e : PVal.toInt u (.int n) = .ok n := rfl
  simp only [adjustInput, dictGet, hv, find_set_eq, R_bind_ok, hn, e, R_pure, set_set]

theorem ensure8_again {u : UniDB} {s s8 : Str} {sat : Nat} (h : GoodAmount u s sat) (h8 : ensure8 s = .ok s8) : ensure8 s8 = .ok s8 := by
  obtain ⟨ip, fp, hs, _, hl, hd, _⟩ := h.1
  have hi : '.' ∉ ip := dot_not_mem u fun c hc => hd c (by simp [hc])
  have hf : '.' ∉ fp := dot_not_mem u fun c hc => hd c (by simp [hc])
  rw [ensure8_form hi hf hs, if_pos hl] at h8
  injection h8 with h8
  subst h8
  have hf' : '.' ∉ fp ++ List.replicate (8 - fp.length) '0' := by
    simp only [List.mem_append, List.mem_replicate]
    rintro (h | ⟨_, h⟩)
    · exact hf h
    · revert h; decide
  rw [ensure8_form hi hf' (.inl rfl), if_pos (by simp; omega)]
  simp
  omega

theorem validateOutput_again {X : Ext} {o : List (Str × PVal)} {s s8 : Str} (hb : dictFind o py"bitcoin_amount" = some (.str s))
    (hs : vPositiveBitcoinAmount X.uni s = .ok ()) (h8 : ensure8 s = .ok s8) :
    validateOutput X (.dict (dictSet o py"bitcoin_amount" (.str s8))) = validateOutput X (.dict o) := by
  have hp : vPositiveBitcoinAmountP X.uni (.str s) = .ok s := by
    simp only [vPositiveBitcoinAmountP, vString, R_bind_ok, hs, R_pure]
  obtain ⟨_, sat, hg⟩ := vPositiveP_ok.1 hp
  have hp' : vPositiveBitcoinAmountP X.uni (.str s8) = .ok s8 := vPositiveP_ok.2 ⟨rfl, sat, goodAmount_ensure8 hg h8⟩
  unfold validateOutput
  simp only [PVal.asDict, R_bind_ok, dictKeys_set hb, dictGet, find_set_eq, hb, hp, hp', h8, ensure8_again hg h8,
    find_set_ne (show py"address" ≠ py"bitcoin_amount" by decide), R_pure, set_set]

theorem designHead_set {X : Ext} {d : List (Str × PVal)} {l l' : List PVal} (ho : dictFind d py"outputs" = some (.list l)) :
    designHead X (dictSet d py"outputs" (.list l')) = (designHead X d >>= fun _ => pure l') := by
  unfold designHead
  simp only [dictKeys_set ho, dictGet, find_set_eq, ho, find_set_ne (show py"change_address" ≠ py"outputs" by decide),
    find_set_ne (show py"max_fee" ≠ py"outputs" by decide), find_set_ne (show py"max_spend_percentage" ≠ py"outputs" by decide),
    bind_assoc, vList, R_bind_ok, R_pure]

theorem validateDesign_set {X : Ext} {d : List (Str × PVal)} {l l' : List PVal} (ho : dictFind d py"outputs" = some (.list l))
    (h : mapR (validateOutput X) l' = mapR (validateOutput X) l) :
    validateDesign X (dictSet d py"outputs" (.list l')) = validateDesign X d := by
  rw [validateDesign_eq, validateDesign_eq, designHead_set ho]
  cases hh : designHead X d with
  | error e => rfl
  | ok l0 =>
    have := designHead_outs hh
    rw [ho] at this
    injection this with this; injection this with this; subst this
    have e1 : ∀ k, k ≠ py"outputs" → dictOpt (dictSet d py"outputs" (.list l')) k = dictOpt d k := by
      intro k hk; unfold dictOpt; rw [find_set_ne hk]
    simp only [R_bind_ok, R_pure, h, set_set, e1 py"fee" (by decide), e1 py"fee_rate" (by decide),
      e1 py"input_selection_approaches" (by decide)]

/-! ## the outcome -/

/-- the first part of `prepare` -/
def front (X : Ext) (a : Args) : R (List PVal × List (Str × PVal)) := do
  let design ← (a.design.getD .none).asDict
  let design ← adjustDesign X.uni design
  let ins ← adjustInputs X.uni (a.inputs.getD .none)
  validateInputs X ins
  let design ← validateDesign X design
  pure (ins, design)

theorem prepare_congr {X : Ext} {a b : Args} (hk : a.keys = b.keys) (h1 : a.allowDup = b.allowDup) (h2 : a.changeIdx = b.changeIdx)
    (hf : front X a = front X b) : prepare X a = prepare X b := by
  have e : ∀ a : Args, prepare X a = (do
      vListContains a.keys [py"inputs", py"design"]
      let r ← front X a
      validateOptions (a.allowDup.getD .none) (a.changeIdx.getD .none)
      let outsP ← dictGet r.2 py"outputs"
      let outs ← vList outsP
      let changeAddress ← vString (← dictGet r.2 py"change_address")
      let maxFee ← dictGet r.2 py"max_fee"
      let msp ← dictGet r.2 py"max_spend_percentage"
      let pct ← msp.toFloat X.uni
      let kind ← feeKind X.uni (dictOpt r.2 py"fee") (dictOpt r.2 py"fee_rate")
      let ins ← mapR (addSatoshi X.uni) r.1
      let outs ← mapR (addSatoshi X.uni) outs
      let txIns ← mapR (mkInput X) ins
      let txOuts ← mapR (mkOutput X) outs
      pure { ins := txIns, outs := txOuts, approaches := (dictFind r.2 py"input_selection_approaches").getD (.list [.str py"largest_first"]),
             kind, maxFee, pct, changeAddress, allowDup := (a.allowDup.getD .none).truthy, changeIdx := a.changeIdx.getD .none,
             after := { inputs := some (.list ins), design := some (.dict (dictSet r.2 py"outputs" (.list outs))),
                        allowDup := a.allowDup, changeIdx := a.changeIdx } }) := by
    intro a
    unfold prepare front
    simp only [bind_assoc, pure_bind]
  rw [e a, e b, hk, h1, h2, hf]

theorem Tidy1.prepare {X : Ext} {a b : Args} (h : Tidy1 X.uni a b) : prepare X b = prepare X a := by
  cases h with
  | @fee d s n hd hs hn =>
    refine prepare_congr (by simp [Args.keys, hd]) rfl rfl ?_
    simp only [front, hd, Option.getD_some, PVal.asDict, R_bind_ok, adjustDesign_fee hs hn]
  | @maxFee d s n hd hs hn =>
    refine prepare_congr (by simp [Args.keys, hd]) rfl rfl ?_
    simp only [front, hd, Option.getD_some, PVal.asDict, R_bind_ok, adjustDesign_maxFee hs hn]
  | @rate d v s hd hs hn =>
    refine prepare_congr (by simp [Args.keys, hd]) rfl rfl ?_
    simp only [front, hd, Option.getD_some, PVal.asDict, R_bind_ok, adjustDesign_rate hs hn]
  | @index l j d v n hi hj hv hn =>
    refine prepare_congr (by simp [Args.keys, hi]) rfl rfl ?_
    simp only [front, hi, Option.getD_some, adjustInputs, mapR_set hj (adjustInput_again hv hn)]
  | @amount d l j o s s8 hd ho hj hb hs h8 =>
    refine prepare_congr (by simp [Args.keys, hd]) rfl rfl ?_
    simp only [front, hd, Option.getD_some, PVal.asDict, R_bind_ok,
      adjustDesign_set (show py"outputs" ≠ py"fee" by decide) (show py"outputs" ≠ py"fee_rate" by decide) (show py"outputs" ≠ py"max_fee" by decide) ho]
    cases h1 : adjustDesign X.uni d with
    | error e => rfl
    | ok d1 =>
      have f1 : dictFind d1 py"outputs" = some (.list l) := by
        rw [(adjustDesign_ok h1).1 _ (by decide) (by decide) (by decide)]; exact ho
      simp only [R_bind_ok, R_pure, validateDesign_set f1 (mapR_set hj (validateOutput_again hb hs h8))]

/-- harmless changes do not change the outcome -/
theorem Tidy.create {X : Ext} {a b : Args} (h : Tidy X.uni a b) : createTransaction X b = createTransaction X a := by
  induction h with
  | refl => rfl
  | tail _ h ih => rw [← ih]; unfold createTransaction; rw [h.prepare]

end BT.Retry
