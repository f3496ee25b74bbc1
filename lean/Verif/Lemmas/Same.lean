import Verif.Lemmas.RetrySame
import Verif.Lemmas.Order

/-! # The outcome of `create_transaction` depends only on what the arguments mean -/

namespace BT.Same
open Spec

variable {X : Ext}

/-- everything between an entry of `outputs` and the output object -/
def OutEntryOk (X : Ext) (x : PVal) (o : TxOut) : Prop := ∃ z, OutStep X x z ∧ mkOutput X z = .ok o

theorem entryOk_of (hs : ∀ b, (X.sha256 b).length = 32) {x : PVal} {i : TxIn} (h : Offers X x i)
    (hk : ∃ d, x = .dict d ∧ (dictKeys d).Perm inKeys) (hp : 0 < i.satoshi.getD 0) : EntryOk X x i := by
  obtain ⟨ad, txid, v, idx, s, sat, e1, e2, e3, e4, e5, e6, e7⟩ := h
  obtain ⟨dd, rfl, hkk⟩ := hk
  obtain ⟨t, h, ix, n, g1, g2, g3, g4, g5, g6, g7, g8, g9⟩ := (TxIn_create_ok X hs).1 e7
  rw [g9] at hp
  have hsat : sat = n := by omega
  subst hsat
  have hst : InStep X (.dict dd) (.dict (dictSet (dictSet dd py"previous_output_index" (.int idx)) py"satoshi_amount" (.int sat))) :=
    ⟨dd, ad, txid, v, idx, s, sat, rfl, hkk, e1, addr_valid g2, e2, by rw [g3, vHexLength_hex, if_pos (by omega)], e3, e4, by omega, e5,
      amount_pos_good e6 g8 (by simpa [inOf] using hp), rfl⟩
  exact ⟨_, hst, (inStep_mk hst i).2 ⟨ad, txid, v, idx, s, sat, e1, e2, e3, e4, e5, e6, e7⟩⟩

theorem ensure8_total {u : UniDB} {s : Str} {sat : Nat} (h : AmountOf u s sat) : ∃ s8, ensure8 s = .ok s8 := by
  obtain ⟨t, g, _⟩ := ensure8_amount u h
  exact ⟨t, g⟩

theorem outEntryOk_of (hs : ∀ b, (X.sha256 b).length = 32) {x : PVal} {o : TxOut} (h : Asks X x o)
    (hk : ∃ d, x = .dict d ∧ (dictKeys d).Perm outKeys) (hp : 0 < o.satoshi) : OutEntryOk X x o := by
  obtain ⟨ad, s, sat, e1, e2, e3, e4⟩ := h
  obtain ⟨dd, rfl, hkk⟩ := hk
  obtain ⟨h, k, g1, g2, g3, g4, g5⟩ := (TxOut_create_ok X hs).1 e4
  rw [g5] at hp
  have hsat : sat = k := by omega
  subst hsat
  obtain ⟨s8, h8⟩ := ensure8_total e3
  have hst : OutStep X (.dict dd) (.dict (dictSet (dictSet dd py"bitcoin_amount" (.str s8)) py"satoshi_amount" (.int sat))) :=
    ⟨dd, ad, s, s8, sat, rfl, hkk, e1, addr_valid g2, e2, amount_pos_good e3 g4 (by simpa [outOf] using hp), h8, rfl⟩
  exact ⟨_, hst, (outStep_mk hst o).2 ⟨ad, s, sat, e1, e2, e3, e4⟩⟩

/-! ## `prepare` in terms of the settings -/

def adjNum (u : UniDB) : Option PVal → R (Option PVal)
  | some (.str s) => do
    let n ← pyInt u 10 s
    pure (some (.int n))
  | o => pure o

def pctOf (u : UniDB) (v : PVal) : R PyFloat := do
  let f ← v.toFloat u
  let n ← f.trunc
  vIntegerDomain n 0 100
  pure f

def noArgs : Args := ⟨none, none, none, none⟩

def blank (p : Plan) : Plan := { p with after := noArgs }

/-- the settings alone, when the entries are good -/
def core (X : Ext) (ca fee mf rate pct appr : Option PVal) (dup idx : PVal) (ins : List TxIn) (outs : List TxOut) : R Plan := do
  let fee ← adjNum X.uni fee
  let mf ← adjNum X.uni mf
  if ca.isNone || mf.isNone || pct.isNone then raise .valueError
  let s ← vBitcoinAddressP X (ca.getD .none)
  vWholeNumber (mf.getD .none)
  let f ← pctOf X.uni (pct.getD .none)
  validateFees X.uni (fee.getD .none) ((rate.map strIfInt).getD .none)
  validateApproaches (appr.getD .none)
  validateOptions dup idx
  let kind ← feeKind X.uni (fee.getD .none) ((rate.map strIfInt).getD .none)
  pure { ins, outs, approaches := appr.getD (.list [.str py"largest_first"]), kind, maxFee := mf.getD .none, pct := f,
         changeAddress := s, allowDup := dup.truthy, changeIdx := idx, after := noArgs }

theorem adjustFee_adj (u : UniDB) (d : List (Str × PVal)) :
    (∃ e, adjNum u (dictFind d py"fee") = .error e ∧ adjustFee u d = .error e) ∨
    (∃ o d', adjNum u (dictFind d py"fee") = .ok o ∧ adjustFee u d = .ok d' ∧ dictFind d' py"fee" = o) := by
  unfold adjustFee
  cases h : dictFind d py"fee" with
  | none => exact .inr ⟨none, d, rfl, rfl, h⟩
  | some v =>
    cases v with
    | str s =>
      simp only [adjNum]
      cases pyInt u 10 s with
      | error e => exact .inl ⟨e, rfl, rfl⟩
      | ok n => exact .inr ⟨_, _, rfl, rfl, find_set_eq⟩
    | _ => exact .inr ⟨_, d, rfl, rfl, h⟩

theorem adjustMaxFee_adj (u : UniDB) (d : List (Str × PVal)) :
    (∃ e, adjNum u (dictFind d py"max_fee") = .error e ∧ adjustMaxFee u d = .error e) ∨
    (∃ o d', adjNum u (dictFind d py"max_fee") = .ok o ∧ adjustMaxFee u d = .ok d' ∧ dictFind d' py"max_fee" = o) := by
  unfold adjustMaxFee
  cases h : dictFind d py"max_fee" with
  | none => exact .inr ⟨none, d, rfl, rfl, h⟩
  | some v =>
    cases v with
    | str s =>
      simp only [adjNum]
      cases pyInt u 10 s with
      | error e => exact .inl ⟨e, rfl, rfl⟩
      | ok n => exact .inr ⟨_, _, rfl, rfl, find_set_eq⟩
    | _ => exact .inr ⟨_, d, rfl, rfl, h⟩

theorem find_mem {d : List (Str × PVal)} {k : Str} : k ∈ dictKeys d ↔ (dictFind d k).isSome = true := by
  induction d with
  | nil => simp [dictKeys, dictFind]
  | cons p d ih =>
    obtain ⟨j, w⟩ := p
    unfold dictFind
    by_cases e : j = k
    · simp [dictKeys, e]
    · rw [if_neg e, ← ih]
      simp only [dictKeys, List.map_cons, List.mem_cons]
      constructor
      · rintro (h | h)
        · exact absurd h.symm e
        · exact h
      · exact .inr

theorem contains_err {l m : List Str} (h : ¬ ∀ k ∈ m, k ∈ l) : vListContains l m = .error .valueError := by
  cases hh : vListContains l m with
  | ok x => exact absurd (vListContains_ok.1 hh) h
  | error e =>
    unfold vListContains at hh
    simp only at hh
    split at hh
    · simp at hh
    · injection hh with hh; rw [hh]

theorem good_ins {insD : List PVal} {ins : List TxIn} (h : List.Forall₂ (EntryOk X) insD ins) :
    ∃ ins1 insZ, mapR (adjustInput X.uni) insD = .ok ins1 ∧ validateInputs X ins1 = .ok () ∧ mapR (addSatoshi X.uni) ins1 = .ok insZ ∧
      mapR (mkInput X) insZ = .ok ins := by
  obtain ⟨insZ, h1, h2⟩ := forall₂_split h
  obtain ⟨ins1, a1, a2⟩ := forall₂_comp.1 (h1.imp fun x z hxz => inStep_iff.2 hxz)
  have hval : validateInputs X ins1 = .ok () := by
    have : List.Forall₂ (fun y (_ : Unit) => validateInput X y = .ok ()) ins1 (ins1.map fun _ => ()) := by
      clear a1 h1 h2
      induction a2 with
      | nil => exact .nil
      | cons h _ ih => exact .cons h.1 ih
    simp only [validateInputs, R_bind_eq_ok, mapR_ok]
    exact ⟨_, this.imp fun _ _ h => h, rfl⟩
  exact ⟨ins1, insZ, mapR_ok.2 a1, hval, mapR_ok.2 (a2.imp fun _ _ h => h.2), mapR_ok.2 h2⟩

theorem good_outs {outsD : List PVal} {outs : List TxOut} (h : List.Forall₂ (OutEntryOk X) outsD outs) :
    ∃ outs1 outsZ, mapR (validateOutput X) outsD = .ok outs1 ∧ mapR (addSatoshi X.uni) outs1 = .ok outsZ ∧ mapR (mkOutput X) outsZ = .ok outs := by
  obtain ⟨outsZ, h1, h2⟩ := forall₂_split h
  obtain ⟨outs1, a1, a2⟩ := forall₂_comp.1 (h1.imp fun x z hxz => outStep_iff.2 hxz)
  exact ⟨outs1, outsZ, mapR_ok.2 a1, mapR_ok.2 a2, mapR_ok.2 h2⟩

theorem prepare_core {a : Args} {d : List (Str × PVal)} {insD outsD : List PVal} {ins : List TxIn} {outs : List TxOut}
    (hd : a.design = some (.dict d)) (hi : a.inputs = some (.list insD)) (ho : dictFind d py"outputs" = some (.list outsD))
    (hI : List.Forall₂ (EntryOk X) insD ins) (hO : List.Forall₂ (OutEntryOk X) outsD outs) :
    (prepare X a).map blank = core X (dictFind d py"change_address") (dictFind d py"fee") (dictFind d py"max_fee") (dictFind d py"fee_rate")
      (dictFind d py"max_spend_percentage") (dictFind d py"input_selection_approaches") (a.allowDup.getD .none) (a.changeIdx.getD .none) ins outs := by
  obtain ⟨ins1, insZ, i1, i2, i3, i4⟩ := good_ins hI
  obtain ⟨outs1, outsZ, o1, o2, o3⟩ := good_outs hO
  have hkeys : vListContains a.keys [py"inputs", py"design"] = .ok () := by
    rw [vListContains_ok]
    intro k hk
    simp only [List.mem_cons, List.not_mem_nil, or_false] at hk
    rcases hk with rfl | rfl <;> simp [Args.keys, hi, hd]
  unfold prepare core
  simp only [hkeys, R_bind_ok, hd, Option.getD_some, PVal.asDict, adjustDesign]
  rcases adjustFee_adj X.uni d with ⟨e, e1, e2⟩ | ⟨fee, d1, e1, e2, e3⟩
  · rw [e1, e2]; rfl
  obtain ⟨a1, _, a3⟩ := adjustFee_ok e2
  obtain ⟨b1, b2, b3⟩ := adjustFeeRate_find d1
  rw [e1, e2]
  simp only [R_bind_ok]
  have hmf : dictFind (adjustFeeRate d1) py"max_fee" = dictFind d py"max_fee" := by rw [b1 _ (by decide), a1 _ (by decide)]
  rcases adjustMaxFee_adj X.uni (adjustFeeRate d1) with ⟨e, f1, f2⟩ | ⟨mf, d2, f1, f2, f3⟩
  · rw [hmf] at f1
    rw [f1, f2]; rfl
  rw [hmf] at f1
  obtain ⟨c1, _, c3⟩ := adjustMaxFee_ok f2
  rw [f1, f2]
  have g : ∀ k, k ≠ py"fee" → k ≠ py"fee_rate" → k ≠ py"max_fee" → dictFind d2 k = dictFind d k := by
    intro k k1 k2 k3; rw [c1 k k3, b1 k k2, a1 k k1]
  have gfee : dictFind d2 py"fee" = fee := by rw [c1 _ (by decide), b1 _ (by decide), e3]
  have grate : dictFind d2 py"fee_rate" = (dictFind d py"fee_rate").map strIfInt := by rw [c1 _ (by decide), b2, a1 _ (by decide)]
  have gca := g py"change_address" (by decide) (by decide) (by decide)
  have gpct := g py"max_spend_percentage" (by decide) (by decide) (by decide)
  have gap := g py"input_selection_approaches" (by decide) (by decide) (by decide)
  have gout := (g py"outputs" (by decide) (by decide) (by decide)).trans ho
  rw [← gca, ← gpct, ← gap, ← gfee, ← grate, ← f3]
  clear gca gpct gap gfee grate f3 g c1 c3 f1 f2 hmf b1 b2 b3 a1 a3 e1 e2 e3
  simp only [R_bind_ok, hi, Option.getD_some, adjustInputs, i1, i2]
  rw [Retry.validateDesign_eq]
  unfold Retry.designHead
  by_cases hc : ((dictFind d2 py"change_address").isNone || (dictFind d2 py"max_fee").isNone || (dictFind d2 py"max_spend_percentage").isNone) = true
  · rw [contains_err]
    · simp only [hc]; rfl
    · intro hall
      have k1 := find_mem.1 (hall py"change_address" (by simp))
      have k2 := find_mem.1 (hall py"max_fee" (by simp))
      have k3 := find_mem.1 (hall py"max_spend_percentage" (by simp))
      revert hc k1 k2 k3
      cases dictFind d2 py"change_address" <;> cases dictFind d2 py"max_fee" <;> cases dictFind d2 py"max_spend_percentage" <;> simp
  · obtain ⟨ca, h1⟩ : ∃ ca, dictFind d2 py"change_address" = some ca := by
      cases h : dictFind d2 py"change_address" with
      | none => simp [h] at hc
      | some v => exact ⟨v, rfl⟩
    obtain ⟨mf, h2⟩ : ∃ ca, dictFind d2 py"max_fee" = some ca := by
      cases h : dictFind d2 py"max_fee" with
      | none => simp [h] at hc
      | some v => exact ⟨v, rfl⟩
    obtain ⟨msp, h3⟩ : ∃ ca, dictFind d2 py"max_spend_percentage" = some ca := by
      cases h : dictFind d2 py"max_spend_percentage" with
      | none => simp [h] at hc
      | some v => exact ⟨v, rfl⟩
    have hcont : vListContains (dictKeys d2) [py"change_address", py"max_fee", py"max_spend_percentage", py"outputs"] = .ok () := by
      rw [vListContains_ok]
      intro k hk
      rw [find_mem]
      simp only [List.mem_cons, List.not_mem_nil, or_false] at hk
      rcases hk with rfl | rfl | rfl | rfl
      · simp [h1]
      · simp [h2]
      · simp [h3]
      · simp [gout]
    simp only [hcont, h1, h2, h3, R_bind_ok, dictGet, gout, Option.isNone_some, Bool.or_self, Bool.false_eq_true, if_false, Option.getD_some, pctOf, bind_assoc, dictOpt, R_pure]
    cases k1 : vBitcoinAddressP X ca with
    | error e => rfl
    | ok s =>
    obtain ⟨rfl, _⟩ := vBitcoinAddressP_ok.1 k1
    simp only [R_bind_ok]
    cases k2 : vWholeNumber mf with
    | error e => rfl
    | ok _ =>
    simp only [R_bind_ok]
    cases k3 : msp.toFloat X.uni with
    | error e => rfl
    | ok f =>
    simp only [R_bind_ok]
    cases k4 : f.trunc with
    | error e => rfl
    | ok n =>
    simp only [R_bind_ok]
    cases k5 : vIntegerDomain n 0 100 with
    | error e => rfl
    | ok _ =>
    simp only [R_bind_ok, vList, o1]
    cases k6 : validateFees X.uni ((dictFind d2 py"fee").getD .none) ((dictFind d2 py"fee_rate").getD .none) with
    | error e => rfl
    | ok _ =>
    simp only [R_bind_ok]
    cases k7 : validateApproaches ((dictFind d2 py"input_selection_approaches").getD .none) with
    | error e => rfl
    | ok _ =>
    simp only [R_bind_ok]
    cases k8 : validateOptions (a.allowDup.getD .none) (a.changeIdx.getD .none) with
    | error e => rfl
    | ok _ =>
    simp only [R_bind_ok, find_set_eq, find_set_ne (show py"change_address" ≠ py"outputs" by decide), find_set_ne (show py"max_fee" ≠ py"outputs" by decide),
      find_set_ne (show py"max_spend_percentage" ≠ py"outputs" by decide), find_set_ne (show py"fee" ≠ py"outputs" by decide),
      find_set_ne (show py"fee_rate" ≠ py"outputs" by decide), find_set_ne (show py"input_selection_approaches" ≠ py"outputs" by decide), h1, h2, h3, k3, vString]
    cases k9 : feeKind X.uni ((dictFind d2 py"fee").getD .none) ((dictFind d2 py"fee_rate").getD .none) with
    | error e => rfl
    | ok kind =>
    simp only [R_bind_ok, i3, i4, o2, o3]
    rfl

/-- the outcome is determined by the settings -/
theorem create_core {a : Args} {r : R Plan} (h : (prepare X a).map blank = r) :
    (createTransaction X a).map Prod.fst = (r >>= fun p => buildTx X p.ins p.outs p.approaches p.kind p.maxFee p.pct p.changeAddress p.allowDup p.changeIdx) := by
  subst h
  unfold createTransaction
  cases prepare X a with
  | error e => rfl
  | ok p =>
    simp only [R_bind_ok, Except.map, blank]
    cases buildTx X p.ins p.outs p.approaches p.kind p.maxFee p.pct p.changeAddress p.allowDup p.changeIdx <;> rfl

end BT.Same
