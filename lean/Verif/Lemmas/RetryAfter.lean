import Verif.Lemmas.RetryTidy

/-! # The arguments after a call -/

namespace BT.Retry
open Spec

/-- `create_transaction` has got past its validation: `b` is the argument object then, and the outcome -/
structure Validated (X : Ext) (a b : Args) (ins outs insZ outsZ : List PVal) (d : List (Str × PVal)) : Prop where
  tidy : Tidy X.uni a b
  inputs : b.inputs = some (.list ins)
  design : b.design = some (.dict d)
  outputs : dictFind d py"outputs" = some (.list outs)
  index : ∀ x ∈ ins, adjustInput X.uni x = .ok x
  validIn : ∀ x ∈ ins, validateInput X x = .ok ()
  validOut : ∀ y ∈ outs, ∃ x, validateOutput X x = .ok y
  markedIn : mapR (addSatoshi X.uni) ins = .ok insZ
  markedOut : mapR (addSatoshi X.uni) outs = .ok outsZ

theorem mapR_total {α β : Type} {f : α → R β} {l : List α} (h : ∀ x ∈ l, ∃ y, f x = .ok y) : ∃ l', mapR f l = .ok l' := by
  induction l with
  | nil => exact ⟨[], rfl⟩
  | cons x xs ih =>
    obtain ⟨y, hy⟩ := h x (by simp)
    obtain ⟨l', hl⟩ := ih fun z hz => h z (by simp [hz])
    exact ⟨y :: l', by simp [mapR, hy, hl, R_bind_ok, R_pure]⟩

theorem memL {α β : Type} {P : α → Prop} {l : List α} {l' : List β} (h : List.Forall₂ (fun x _ => P x) l l') : ∀ x ∈ l, P x := by
  induction h with
  | nil => simp
  | cons h _ ih =>
    intro x hx
    rcases List.mem_cons.1 hx with rfl | hx
    · exact h
    · exact ih x hx

theorem adjustInput_fix {u : UniDB} {x y : PVal} (h : adjustInput u x = .ok y) : adjustInput u y = .ok y := by
  cases x with
  | dict d =>
    simp only [adjustInput, R_bind_eq_ok, dictGet_ok, R_pure, Except.ok.injEq] at h
    obtain ⟨v, hv, n, hn, rfl⟩ := h
    have e : PVal.toInt u (.int n) = .ok n := rfl
    simp only [adjustInput, dictGet, find_set_eq, R_bind_ok, e, R_pure, set_set]
  | _ => simp [adjustInput] at h

theorem addSatoshi_in {X : Ext} {x : PVal} (h : validateInput X x = .ok ()) : ∃ z, addSatoshi X.uni x = .ok z := by
  simp only [validateInput, R_bind_eq_ok, asDict_ok, vListsIdentical_ok, dictGet_ok, vPositiveP_ok] at h
  obtain ⟨d, rfl, _, _, _, _, _, _, _, _, _, _, _, _, _, _, _, hb, s, ⟨rfl, sat, hs⟩, _⟩ := h
  refine ⟨.dict (dictSet d py"satoshi_amount" (.int sat)), ?_⟩
  simp only [addSatoshi, PVal.asDict, R_bind_ok, R_bind_eq_ok, dictGet_ok, vString_ok, R_pure, Except.ok.injEq]
  exact ⟨_, hb, s, rfl, sat, (bitcoinToSatoshi_ok X.uni).2 ⟨sat, hs.1, hs.2.1, rfl, hs.2.2⟩, rfl⟩

theorem addSatoshi_out {X : Ext} {x y : PVal} (h : validateOutput X x = .ok y) : ∃ z, addSatoshi X.uni y = .ok z := by
  simp only [validateOutput, R_bind_eq_ok, asDict_ok, vListsIdentical_ok, dictGet_ok, vBitcoinAddressP_ok,
    vPositiveP_ok, R_pure, Except.ok.injEq] at h
  obtain ⟨d, rfl, _, hk, _, ha, a, ⟨rfl, hav⟩, _, hb, s, ⟨rfl, sat, hs⟩, s8, h8, rfl⟩ := h
  refine ⟨.dict (dictSet (dictSet d py"bitcoin_amount" (.str s8)) py"satoshi_amount" (.int sat)), ?_⟩
  simp only [addSatoshi, PVal.asDict, R_bind_ok, R_bind_eq_ok, dictGet_ok, vString_ok, find_set_eq, R_pure, Except.ok.injEq]
  have g := goodAmount_ensure8 hs h8
  exact ⟨_, rfl, s8, rfl, sat, (bitcoinToSatoshi_ok X.uni).2 ⟨sat, g.1, g.2.1, rfl, g.2.2⟩, rfl⟩

/-- After a call the arguments are either harmlessly changed, or the call got past the validation and all inputs and outputs
were given their `satoshi_amount`. -/
theorem create_after (X : Ext) (a : Args) :
    (Tidy X.uni a (create X a).1 ∧ ∃ e, (create X a).2 = .error e ∧ prepare X a = .error e) ∨
    ∃ b ins outs insZ outsZ d, Validated X a b ins outs insZ outsZ d ∧
      (create X a).1 = { b with inputs := some (.list insZ), design := some (.dict (dictSet d py"outputs" (.list outsZ))) } ∧
      ∀ p, prepare X a = .ok p → (create X a).1 = p.after := by
  have hagree := create_agree X a
  unfold Agree at hagree
  have left : ∀ b, Tidy X.uni a b → ∀ e, prepare X a = .error e → (create X a).1 = b →
      (Tidy X.uni a (create X a).1 ∧ ∃ e, (create X a).2 = .error e ∧ prepare X a = .error e) := by
    intro b hb e he h
    refine ⟨h ▸ hb, e, ?_, he⟩
    rw [hagree]
    simp [createTransaction, he, R_bind_err]
  cases h1 : vListContains a.keys [py"inputs", py"design"] with
  | error e =>
    exact .inl (left a (.refl _) e (by unfold prepare; rw [h1]; rfl)
      (by unfold create; simp only [bind_apply, args, check_apply, h1]))
  | ok x1 =>
    cases h2 : (a.design.getD .none).asDict with
    | error e =>
      exact .inl (left a (.refl _) e (by unfold prepare; rw [h1, R_bind_ok, h2]; rfl)
        (by unfold create; simp only [bind_apply, args, check_apply, h1, h2]))
    | ok d =>
      have hd : a.design = some (.dict d) := by
        cases hh : a.design with
        | none => rw [hh] at h2; simp [PVal.asDict] at h2
        | some v => rw [hh] at h2; simp only [Option.getD_some, asDict_ok] at h2; rw [h2]
      cases h3 : adjustDesign X.uni d with
      | error e =>
        have hA := adjustDesign_agree X.uni d a
        unfold Agree at hA; rw [h3] at hA
        refine .inl (left _ (adjustDesignStep_tidy hd) e (by unfold prepare; simp only [h1, R_bind_ok, h2, h3, R_bind_err]) ?_)
        unfold create
        simp only [bind_apply, args, check_apply, h1, h2]
        rcases hs : adjustDesignStep X.uni d a with ⟨b, r⟩
        rw [hs] at hA; simp only at hA; subst hA
        rfl
      | ok d1 =>
        have t1 := adjustDesignStep_tidy (u := X.uni) hd
        rw [adjustDesignStep_ok h3] at t1
        simp only at t1
        obtain ⟨xi, hxi⟩ : ∃ x, a.inputs = some x := by
          have := (vListContains_ok.1 h1) py"inputs" (by simp)
          cases hh : a.inputs with
          | none =>
            rw [Args.keys, hh] at this
            cases h4 : a.allowDup <;> cases h5 : a.changeIdx <;> simp [hd, h4, h5] at this
          | some x => exact ⟨x, rfl⟩
        have t2 := adjustInputsStep_tidy (u := X.uni) (a := { a with design := some (.dict d1) }) (x := a.inputs.getD .none)
          (by show a.inputs = some (a.inputs.getD .none); rw [hxi]; rfl)
        cases h4 : adjustInputs X.uni (a.inputs.getD .none) with
        | error e =>
          have hA := adjustInputs_agree X.uni (a.inputs.getD .none) { a with design := some (.dict d1) }
          unfold Agree at hA; rw [h4] at hA
          refine .inl (left _ (t1.trans t2) e (by unfold prepare; simp only [h1, R_bind_ok, h2, h3, h4, R_bind_err]) ?_)
          unfold create
          simp only [bind_apply, args, check_apply, h1, h2, adjustDesignStep_ok h3]
          rcases hs : adjustInputsStep X.uni (a.inputs.getD .none) { a with design := some (.dict d1) } with ⟨b, r⟩
          rw [hs] at hA; simp only at hA; subst hA
          rfl
        | ok ins =>
          have hI := adjustInputsStep_ok (a := { a with design := some (.dict d1) }) h4
          rw [hI] at t2
          simp only at t2
          have t12 := t1.trans t2
          have fail : ∀ e, (do
              validateInputs X ins
              let design ← validateDesign X d1
              validateOptions (a.allowDup.getD .none) (a.changeIdx.getD .none)
              pure design) = .error e → prepare X a = .error e := by
            intro e he
            unfold prepare
            simp only [h1, R_bind_ok, h2, h3, h4]
            revert he
            cases validateInputs X ins with
            | error e' => intro he; simp only [R_bind_ok, R_bind_err, Except.error.injEq] at he ⊢; exact he
            | ok _ =>
              cases validateDesign X d1 with
              | error e' => intro he; simp only [R_bind_ok, R_bind_err, Except.error.injEq] at he ⊢; exact he
              | ok d2 =>
                cases validateOptions (a.allowDup.getD .none) (a.changeIdx.getD .none) with
                | error e' => intro he; simp only [R_bind_ok, R_bind_err, Except.error.injEq] at he ⊢; exact he
                | ok _ => intro he; simp [R_bind_ok, R_pure] at he
          cases h5 : validateInputs X ins with
          | error e =>
            refine .inl (left _ t12 e (fail e (by simp only [h5, R_bind_err])) ?_)
            unfold create
            simp only [bind_apply, args, check_apply, h1, h2, adjustDesignStep_ok h3, hI, h5]
          | ok x5 =>
            have t3 := validateDesignStep_tidy (X := X) (a := { a with design := some (.dict d1), inputs := some (.list ins) }) (d := d1) rfl
            cases h6 : validateDesign X d1 with
            | error e =>
              have hA := validateDesign_agree X d1 { a with design := some (.dict d1), inputs := some (.list ins) }
              unfold Agree at hA; rw [h6] at hA
              refine .inl (left _ (t12.trans t3) e (fail e (by simp only [h5, h6, R_bind_ok, R_bind_err])) ?_)
              unfold create
              simp only [bind_apply, args, check_apply, h1, h2, adjustDesignStep_ok h3, hI, h5]
              rcases hs : validateDesignStep X d1 { a with design := some (.dict d1), inputs := some (.list ins) } with ⟨b, r⟩
              rw [hs] at hA; simp only at hA; subst hA
              rfl
            | ok d2 =>
              have hD := validateDesignStep_ok (a := { a with design := some (.dict d1), inputs := some (.list ins) }) h6
              rw [hD] at t3
              simp only at t3
              have t := t12.trans t3
              -- the part between validation and conversion
              have hmid := h6
              rw [validateDesign_ok] at hmid
              obtain ⟨ca, mf, msp, f, n, outsD, outs', k1, k2, k3, k4, k5, k6, k7, k8, k9, k10, k11, k12, k13, rfl⟩ := hmid
              have o1 : dictGet (dictSet d1 py"outputs" (.list outs')) py"outputs" = .ok (.list outs') := by rw [dictGet_ok, find_set_eq]
              have o2 : vList (.list outs') = .ok outs' := by rw [vList_ok]
              have o3 : dictGet (dictSet d1 py"outputs" (.list outs')) py"change_address" = .ok (.str ca) := by
                rw [dictGet_ok, find_set_ne (by decide)]; exact k1
              have o4 : vString (.str ca) = .ok ca := by rw [vString_ok]
              have o5 : dictGet (dictSet d1 py"outputs" (.list outs')) py"max_fee" = .ok mf := by
                rw [dictGet_ok, find_set_ne (by decide)]; exact k3
              have o6 : dictGet (dictSet d1 py"outputs" (.list outs')) py"max_spend_percentage" = .ok msp := by
                rw [dictGet_ok, find_set_ne (by decide)]; exact k5
              cases h7 : validateOptions (a.allowDup.getD .none) (a.changeIdx.getD .none) with
              | error e =>
                refine .inl (left _ t e (fail e (by simp only [h5, h6, h7, R_bind_ok, R_bind_err])) ?_)
                unfold create
                simp only [bind_apply, args, check_apply, h1, h2, adjustDesignStep_ok h3, hI, h5, hD, h7]
              | ok x7 =>
                cases h8 : feeKind X.uni (dictOpt (dictSet d1 py"outputs" (.list outs')) py"fee")
                    (dictOpt (dictSet d1 py"outputs" (.list outs')) py"fee_rate") with
                | error e =>
                  refine .inl (left _ t e ?_ ?_)
                  · unfold prepare
                    simp only [h1, R_bind_ok, h2, h3, h4, h5, h6, h7, o1, o2, o3, o4, o5, o6, k6, h8, R_bind_err]
                  · unfold create
                    simp only [bind_apply, args, check_apply, h1, h2, adjustDesignStep_ok h3, hI, h5, hD, h7, o1, o2, o3, o4, o5, o6, k6, h8]
                | ok kind =>
                  have vi : ∀ x ∈ ins, validateInput X x = .ok () := by
                    simp only [validateInputs, R_bind_eq_ok, mapR_ok] at h5
                    obtain ⟨vs, hvs, _⟩ := h5
                    intro x hx
                    exact memL (P := fun x => validateInput X x = .ok ()) (hvs.imp fun _ _ h => h) x hx
                  have ai : ∀ x ∈ ins, adjustInput X.uni x = .ok x := by
                    rw [hxi] at h4
                    cases xi with
                    | list l =>
                      simp only [Option.getD_some, adjustInputs, mapR_ok] at h4
                      intro y hy
                      obtain ⟨x, _, hx⟩ := forall₂_mem_right h4 y hy
                      exact adjustInput_fix hx
                    | _ => simp [adjustInputs] at h4
                  have vo : ∀ y ∈ outs', ∃ x, validateOutput X x = .ok y := by
                    rw [mapR_ok] at k11
                    intro y hy
                    obtain ⟨x, _, hx⟩ := forall₂_mem_right k11 y hy
                    exact ⟨x, hx⟩
                  obtain ⟨insZ, hz⟩ := mapR_total fun x hx => addSatoshi_in (vi x hx)
                  obtain ⟨outsZ, hz'⟩ := mapR_total fun y hy => by
                    obtain ⟨x, hx⟩ := vo y hy
                    exact addSatoshi_out hx
                  refine .inr ⟨_, ins, outs', insZ, outsZ, _, ⟨t, rfl, rfl, find_set_eq, ai, vi, vo, hz, hz'⟩, ?_⟩
                  have hst : (create X a).1 = { a with
                      inputs := some (.list insZ), design := some (.dict (dictSet d1 py"outputs" (.list outsZ))) } := by
                    unfold create
                    simp only [bind_apply, args, check_apply, h1, h2, adjustDesignStep_ok h3, hI, h5, hD, h7, o1, o2, o3, o4, o5, o6, k6, h8,
                      markInputs, markOutputs, putInputs, putDesign, walk_snd, hz, hz', walk_ok hz, walk_ok hz', set_set]
                    cases mapR (mkInput X) insZ with
                    | error e => rfl
                    | ok tis =>
                      simp only
                      cases mapR (mkOutput X) outsZ with
                      | error e => rfl
                      | ok tos => rfl
                  refine ⟨by rw [hst, set_set], fun p hp => ?_⟩
                  rw [hst]
                  unfold prepare at hp
                  simp only [h1, R_bind_ok, h2, h3, h4, h5, h6, h7, o1, o2, o3, o4, o5, o6, k6, h8, hz, hz', R_bind_eq_ok, R_pure,
                    Except.ok.injEq, set_set] at hp
                  obtain ⟨_, _, _, _, rfl⟩ := hp
                  rfl

end BT.Retry
