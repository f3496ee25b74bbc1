import Verif.Lemmas.LogText

/-!
# Texts without stray line breaks: the report of `create_transaction`
-/

namespace BT.LT
open Spec Report

variable {E : Msg.Env} {X : Ext}

/-- every line satisfies `P` -/
structure LOnly (P : Str → Prop) {α : Type} (m : L α) : Prop where
  all : ∀ s ∈ m.log, P s

section
variable {P : Str → Prop} {α β : Type}

theorem LOnly.bind_ok {m : L α} {f : α → L β} (h : LOnly P m) (g : ∀ a, m.res = .ok a → LOnly P (f a)) : LOnly P (m >>= f) := by
  constructor
  show ∀ s ∈ (L.bind m f).log, P s
  unfold L.bind
  cases hm : m.res with
  | error e => exact h.all
  | ok a =>
    simp only [List.mem_append]
    rintro s (hs | hs)
    · exact h.all s hs
    · exact (g a hm).all s hs

theorem LOnly.bind {m : L α} {f : α → L β} (h : LOnly P m) (g : ∀ a, LOnly P (f a)) : LOnly P (m >>= f) :=
  h.bind_ok fun a _ => g a

theorem LOnly.run (r : R α) : LOnly P (Report.run r) := ⟨by unfold Report.run; cases r <;> simp⟩
theorem LOnly.run_bind {r : R α} {f : α → L β} (g : ∀ a, r = .ok a → LOnly P (f a)) : LOnly P (Report.run r >>= f) :=
  LOnly.bind_ok (LOnly.run r) fun a ha => g a (res_run_ok.1 ha)
theorem LOnly.say {s : Str} (h : P s) : LOnly P (Report.say s) := ⟨by unfold Report.say; simpa using h⟩
theorem LOnly.pure (a : α) : LOnly P (Pure.pure a : L α) := ⟨by show ∀ s ∈ ([] : List Str), P s; simp⟩
theorem LOnly.refuse (e : Err) (t : Str) : LOnly P (Report.refuse e t : L α) := ⟨by unfold Report.refuse; simp⟩
theorem LOnly.refuseIf (c : Prop) [Decidable c] (e : Err) (t : Str) : LOnly P (Report.refuseIf c e t) := by
  unfold Report.refuseIf
  split
  · exact LOnly.refuse e t
  · exact LOnly.pure ()
theorem LOnly.each {f : Nat → α → Str} (n : Nat) (l : List α) (h : ∀ n, ∀ x ∈ l, P (f n x)) : LOnly P (sayEach f n l) := by
  induction l generalizing n with
  | nil => exact LOnly.pure ()
  | cons x xs ih => exact LOnly.bind (LOnly.say (h n x (by simp))) fun _ => ih _ fun n y hy => h n y (by simp [hy])
theorem LOnly.ite {c : Prop} [Decidable c] {m n : L α} (h : LOnly P m) (g : LOnly P n) : LOnly P (if c then m else n) := by
  split
  · exact h
  · exact g
theorem LOnly.mono {Q : Str → Prop} {m : L α} (h : LOnly P m) (g : ∀ s, P s → Q s) : LOnly Q m := ⟨fun s hs => g s (h.all s hs)⟩
end

/-- structural steps -/
macro "lonly_" : tactic => `(tactic| repeat' with_reducible first
  | exact LOnly.run _
  | exact LOnly.pure _
  | exact LOnly.refuse _ _
  | exact LOnly.refuseIf _ _ _
  | apply LOnly.say
  | apply LOnly.ite
  | refine LOnly.run_bind (fun _ _ => ?_)
  | refine LOnly.bind ?_ (fun _ => ?_))

theorem nn_both {b : Str} (h : NoNl b) (n : Int) : NoNl (both b n) := by
  unfold both
  exact nn_app (nn_app (nn_app h (by unfold NoNl; decide)) (nn_pyStr _)) (by unfold NoNl; decide)

theorem hl_both {u : UniDB} {b : Str} {n m : Int} (h : satoshiToBitcoin u n = .ok b) : Harmless (both b m) := H.nn (nn_both (nn_btc h) _)

theorem hl_inBitcoin (u : UniDB) (n m : Int) : Harmless (both (inBitcoin u n) m) := by
  refine H.nn (nn_both ?_ _)
  unfold inBitcoin
  cases h : satoshiToBitcoin u n with
  | error e => simp [NoNl]
  | ok s => exact nn_btc h

theorem hl_inputLine (i : Nat) {a t x b s : Str} (h1 : NoNl a) (h2 : NoNl t) (h3 : NoNl x) (h4 : NoNl b) (h5 : NoNl s) :
    Harmless (inputLine i a t x b s) := by
  have := H.nn h1; have := H.nn h2; have := H.nn h3; have := H.nn h4; have := H.nn h5
  unfold inputLine
  harmless_

theorem hl_outputLine (i : Nat) {a b s : Str} (h1 : NoNl a) (h4 : NoNl b) (h5 : NoNl s) : Harmless (outputLine i a b s) := by
  have := H.nn h1; have := H.nn h4; have := H.nn h5
  unfold outputLine
  harmless_

/-- what is logged is harmless -/
abbrev LH {α : Type} (m : L α) : Prop := LOnly Harmless m

theorem lh_sorting {v : PVal} {l : List TxIn} (hv : Harmless (str E v)) : LH (sorting E v l) := by
  unfold sorting
  refine LOnly.bind (LOnly.run _) fun a => ?_
  cases sortInputs a l with
  | error e => exact LOnly.bind (LOnly.refuse _ _) fun _ => LOnly.bind (LOnly.say (by harmless_)) fun _ => LOnly.pure _
  | ok m => exact LOnly.bind (LOnly.pure _) fun _ => LOnly.bind (LOnly.say (by harmless_)) fun _ => LOnly.pure _

theorem mem_addrTotals {l : List (Str × Int)} : ∀ p ∈ addrTotals l, ∃ q ∈ l, q.1 = p.1 := by
  induction l with
  | nil => simp [addrTotals]
  | cons x r ih =>
    obtain ⟨a, n⟩ := x
    rw [addrTotals]
    intro p hp
    simp only [List.mem_cons, List.mem_filter] at hp
    rcases hp with rfl | ⟨hp, _⟩
    · exact ⟨(a, n), by simp, rfl⟩
    · obtain ⟨q, hq, e⟩ := ih p hp
      exact ⟨q, by simp [hq], e⟩

theorem nn_mapR {u : UniDB} {l : List (Str × Int)} {m : List Str} (h : mapR (fun p : Str × Int => satoshiToBitcoin u p.2) l = .ok m) :
    ∀ b ∈ m, NoNl b := by
  intro b hb
  obtain ⟨x, _, hx⟩ := forall₂_mem_right (mapR_ok.1 h) b hb
  exact nn_btc hx

theorem lh_addresses {u : UniDB} {ins : List TxIn} {outs : List TxOut} {d : Bool} (hi : ∀ i ∈ ins, NoNl i.address)
    (ho : ∀ o ∈ outs, NoNl o.address) : LH (addresses u ins outs d) := by
  have h1 : ∀ m, mapR (fun p : Str × Int => satoshiToBitcoin u p.2) (addrTotals (ins.map fun i => (i.address, i.amount))) = .ok m →
      Harmless (((addrTotals (ins.map fun i => (i.address, i.amount))).zip m).flatMap (inputAddressLine ins)) := by
    intro m hm
    refine H.flatMap fun p hp => ?_
    have hp' := List.of_mem_zip hp
    obtain ⟨q, hq, e⟩ := mem_addrTotals _ hp'.1
    obtain ⟨i, hi', rfl⟩ := List.mem_map.1 hq
    have a1 : Harmless p.1.1 := by rw [← e]; exact H.nn (hi i hi')
    have a2 : Harmless (both p.2 p.1.2) := H.nn (nn_both (nn_mapR hm _ hp'.2) _)
    unfold inputAddressLine
    simp only
    have a3 : Harmless (if (ins.map TxIn.address).count p.1.1 > 1 then py"s" else []) := by
      split <;> exact H.lit (by decide)
    harmless_
  have h2 : ∀ m, mapR (fun p : Str × Int => satoshiToBitcoin u p.2) (addrTotals (outs.map fun i => (i.address, i.satoshi))) = .ok m →
      Harmless (((addrTotals (outs.map fun i => (i.address, i.satoshi))).zip m).flatMap outputAddressLine) := by
    intro m hm
    refine H.flatMap fun p hp => ?_
    have hp' := List.of_mem_zip hp
    obtain ⟨q, hq, e⟩ := mem_addrTotals _ hp'.1
    obtain ⟨i, hi', rfl⟩ := List.mem_map.1 hq
    have a1 : Harmless p.1.1 := by rw [← e]; exact H.nn (ho i hi')
    have a2 : Harmless (both p.2 p.1.2) := H.nn (nn_both (nn_mapR hm _ hp'.2) _)
    unfold outputAddressLine
    harmless_
  unfold addresses
  refine LOnly.run_bind fun m hm => LOnly.bind (LOnly.say (H.app (H.lit (by decide)) (h1 m hm))) fun _ => ?_
  refine LOnly.run_bind fun m hm => LOnly.bind (LOnly.say (H.app (H.lit (by decide)) (h2 m hm))) fun _ => ?_
  cases (outs.map TxOut.address).find? fun a => 1 < (outs.map TxOut.address).count a with
  | none => exact LOnly.pure _
  | some a => exact LOnly.refuseIf _ _ _

section
variable (hE : ∀ f, '\n' ∉ E.floatRepr f)
include hE

theorem hl_whole {v : PVal} (h : vWholeNumber v = .ok ()) : Harmless (str E v) := by
  refine H.nn (nn_str hE ?_)
  rintro s rfl
  exact absurd h (by simp [vWholeNumber, vPositiveInteger, vInteger, PVal.eqInt, PVal.asInt, raise_eq, R_bind_eq_ok])

theorem lh_fees {u : UniDB} {kind : PVal ⊕ PyFloat} {size : Int} {maxFee : PVal} (hk : ∀ v, kind = .inl v → Harmless (str E v))
    (hm : Harmless (str E maxFee)) : LH (fees E u kind size maxFee) := by
  have hi : ∀ n : Int, Harmless (str E (.int n)) := fun n => H.nn (nn_pyStr n)
  have hf := fun f => H.nn (hE f)
  unfold fees
  cases kind with
  | inl v =>
    have := hk v rfl
    refine LOnly.bind (LOnly.say (by harmless_)) fun _ => LOnly.bind (LOnly.say (by simp only; harmless_)) fun _ =>
      LOnly.bind (LOnly.say (by simp only; harmless_)) fun _ => LOnly.run_bind fun p hp => ?_
    simp only [R_pure, Except.ok.injEq] at hp
    subst hp
    have hff := nn_fmtFloat
    lonly_
    · harmless_
    · have := H.nn (nn_fmtFloat 4 (by assumption)); harmless_
    · harmless_
  | inr r =>
    have := hf r
    refine LOnly.bind (LOnly.say (by harmless_)) fun _ => LOnly.bind (LOnly.say (by simp only; harmless_)) fun _ =>
      LOnly.bind (LOnly.say (by simp only; harmless_)) fun _ => LOnly.run_bind fun p hp => ?_
    simp only [R_pure, R_bind_eq_ok, Except.ok.injEq] at hp
    obtain ⟨n, _, rfl⟩ := hp
    have := hi n
    lonly_
    · harmless_
    · harmless_

omit hE in
theorem lh_selection {u : UniDB} {ins : List TxIn} {outs : List TxOut} {fee : Int} {ap : PVal} {all : Bool} (ha : Harmless (str E ap)) :
    LH (selection E u ins outs fee ap all) := by
  unfold selection
  lonly_
  all_goals
    harmless_
    try exact hl_both (by assumption)

theorem lh_choosing {idx : PVal} {n : Nat} {ca : Str} : LH (choosing E idx n ca) := by
  unfold choosing
  split
  · exact LOnly.pure _
  · exact LOnly.refuse _ _
  · exact LOnly.run _

theorem lh_change {outs : List TxOut} {ca : Str} {idx : PVal} {s : Int} (hi : Harmless (str E idx)) : LH (change E X outs ca idx s) := by
  unfold change
  refine LOnly.ite ?_ (LOnly.ite ?_ ?_)
  · refine LOnly.bind (lh_choosing hE) fun _ => LOnly.bind (LOnly.run _) fun _ => LOnly.bind (LOnly.say ?_) fun _ => LOnly.pure _
    have := hl_inBitcoin X.uni
    harmless_
    exact this _ _
  · refine LOnly.bind (LOnly.run _) fun _ => LOnly.bind (LOnly.say ?_) fun _ => LOnly.pure _
    harmless_
    exact hl_inBitcoin _ _ _
  · lonly_ <;> harmless_

theorem lh_surplus {n : Int} {outs : List TxOut} {fee : Int} {ca : Str} {idx : PVal} (hi : Harmless (str E idx)) (hc : Harmless ca) :
    LH (surplus E X n outs fee ca idx) := by
  have := fun s => lh_change (X := X) hE (outs := outs) (ca := ca) (s := s) hi
  unfold surplus
  lonly_
  all_goals first
    | exact this _
    | (harmless_
       try exact hl_both (by assumption))

theorem lh_changeSection {sel : List TxIn} {outs : List TxOut} {fee : Int} {ca : Str} {idx : PVal} (hi : Harmless (str E idx))
    (hc : Harmless ca) : LH (changeSection E X sel outs fee ca idx) := by
  have := fun n => lh_surplus (X := X) hE (n := n) (outs := outs) (fee := fee) hi hc
  unfold changeSection
  lonly_
  all_goals first
    | exact this _
    | (harmless_
       try exact hl_both (by assumption))

omit hE in
theorem lh_spending {u : UniDB} {p : PyFloat} {a b c : Int} : LH (spending u p a b c) := by
  have hf := fun k f => H.nn (nn_fmtFloat k f)
  unfold spending
  lonly_
  all_goals
    harmless_
    all_goals first | exact hl_both (by assumption) | exact hf _ _

theorem lh_build {p : Plan} (hi : ∀ i ∈ p.ins, NoNl i.address ∧ NoNl i.txid ∧ NoNl (i.bitcoin.getD py"None"))
    (ho : ∀ o ∈ p.outs, NoNl o.address ∧ NoNl o.bitcoin) (ha : Harmless (str E p.approaches))
    (hk : ∀ v, p.kind = .inl v → Harmless (str E v)) (hm : Harmless (str E p.maxFee)) (hx : Harmless (str E p.changeIdx))
    (hc : Harmless p.changeAddress) : LH (build E X p) := by
  unfold build
  refine LOnly.bind_ok (lh_sorting ha) fun q hq => ?_
  obtain ⟨approach, ins⟩ := q
  have hp : ∀ i ∈ ins, i ∈ p.ins := by
    have h1 := erase_sorting E p.approaches p.ins
    unfold erase at h1
    rw [hq] at h1
    simp only at h1
    have h2 := h1.symm
    simp only [R_bind_eq_ok, R_pure, Except.ok.injEq, Prod.mk.injEq] at h2
    obtain ⟨a, ha', l, hl, rfl, rfl⟩ := h2
    intro i hi'
    unfold sortInputs sortLargest sortSmallest at hl
    repeat' split at hl
    all_goals cases hl
    all_goals exact (List.perm_insertionSort _ _).mem_iff.1 hi'
  simp only
  have hins := fun i h => hi i (hp i h)
  refine LOnly.bind (LOnly.say (by harmless_)) fun _ => ?_
  refine LOnly.bind (LOnly.each _ _ fun n i h => ?_) fun _ => ?_
  · obtain ⟨h1, h2, h3⟩ := hins i h
    exact hl_inputLine n h1 h2 (nn_pyStr _) h3 (nn_pyStr _)
  refine LOnly.bind (LOnly.each _ _ fun n o h => ?_) fun _ => ?_
  · exact hl_outputLine n (ho o h).1 (ho o h).2 (nn_pyStr _)
  refine LOnly.bind (lh_addresses (fun i h => (hins i h).1) fun o h => (ho o h).1) fun _ => ?_
  refine LOnly.run_bind fun size _ => LOnly.bind (lh_fees hE hk hm) fun fee => ?_
  refine LOnly.bind (lh_selection ha) fun sel => LOnly.bind (lh_changeSection hE hx hc) fun r => ?_
  refine LOnly.bind lh_spending fun _ => LOnly.run_bind fun _ _ => LOnly.bind (LOnly.say (by harmless_)) fun _ => LOnly.pure _

end

/-- harmless, or the given text for the input selection approaches -/
def Said (a : Args) (s : Str) : Prop := Harmless s ∨ (setting a py"input_selection_approaches" = some (.str s) ∧ s ≠ [])

theorem adjusted_setting {u : UniDB} {a : Args} {d d1 : List (Str × PVal)} (hd : a.design = some (.dict d)) (h : adjustDesign u d = .ok d1) :
    dictFind d1 py"input_selection_approaches" = setting a py"input_selection_approaches" := by
  obtain ⟨a1, _⟩ := adjustDesign_ok h
  exact (a1 py"input_selection_approaches" (by decide) (by decide) (by decide)).trans (setting_eq hd _).symm

theorem inStep_shown {E : Msg.Env} (hE : ∀ f, '\n' ∉ E.floatRepr f) {x z : PVal} (h : InStep X x z) (n : Nat) : Harmless (suppliedInput E n z) := by
  obtain ⟨d, a, txid, v, idx, s, sat, rfl, hk, ha, hav, ht, htv, hv, hi, hw, hb, hs, rfl⟩ := h
  unfold suppliedInput shown
  simp only [find_set_eq,
    find_set_ne (show py"address" ≠ py"satoshi_amount" by decide),
    find_set_ne (show py"transaction_id" ≠ py"satoshi_amount" by decide),
    find_set_ne (show py"bitcoin_amount" ≠ py"satoshi_amount" by decide),
    find_set_ne (show py"previous_output_index" ≠ py"satoshi_amount" by decide),
    find_set_ne (show py"address" ≠ py"previous_output_index" by decide),
    find_set_ne (show py"bitcoin_amount" ≠ py"previous_output_index" by decide),
    find_set_ne (show py"transaction_id" ≠ py"previous_output_index" by decide), ha, ht, hb, Option.getD_some]
  exact hl_inputLine n (nn_vaddr hav) (nn_hex (vHexLength_ok.1 htv).1) (nn_pyStr _) (nn_amount hs.1) (nn_pyStr (sat : Int))

theorem outStep_shown {E : Msg.Env} {x z : PVal} (h : OutStep X x z) (n : Nat) : Harmless (suppliedOutput E n z) := by
  obtain ⟨d, a, s, s8, sat, rfl, hk, ha, hav, hb, hs, h8, rfl⟩ := h
  unfold suppliedOutput shown
  simp only [find_set_eq,
    find_set_ne (show py"address" ≠ py"satoshi_amount" by decide),
    find_set_ne (show py"bitcoin_amount" ≠ py"satoshi_amount" by decide),
    find_set_ne (show py"address" ≠ py"bitcoin_amount" by decide), ha, Option.getD_some]
  exact hl_outputLine n (nn_vaddr hav) (nn_amount (goodAmount_ensure8 hs h8).1) (nn_pyStr (sat : Int))

theorem erase_ok_iff {α : Type} {m : L α} {a : α} : erase m = .ok a ↔ m.res = .ok a := by
  unfold erase
  cases m.res <;> simp

theorem said_prepare (hE : ∀ f, '\n' ∉ E.floatRepr f) (a : Args) : LOnly (Said a) (Report.prepare E X a) := by
  unfold Report.prepare
  refine LOnly.run_bind fun _ _ => LOnly.run_bind fun d hd => LOnly.run_bind fun d1 hd1 => LOnly.run_bind fun ins1 hins1 =>
    LOnly.run_bind fun _ hval => LOnly.bind_ok ?_ fun d2 hd2 => ?_
  · have hdes : a.design = some (.dict d) := by
      cases hh : a.design with
      | none => rw [hh] at hd; simp [PVal.asDict] at hd
      | some v => rw [hh] at hd; have := asDict_ok.1 hd; simp only [Option.getD_some] at this; rw [this]
    have hsay : (dictOpt d1 py"input_selection_approaches").truthy = true →
        Said a (Report.str E (dictOpt d1 py"input_selection_approaches")) := by
      intro ht
      cases hv : dictOpt d1 py"input_selection_approaches" with
      | str s =>
        refine .inr ⟨?_, ?_⟩
        · rw [← adjusted_setting hdes hd1]
          unfold dictOpt at hv
          cases hf : dictFind d1 py"input_selection_approaches" with
          | none => rw [hf] at hv; cases hv
          | some w => rw [hf] at hv; simp only [Option.getD_some] at hv; rw [hv]; rfl
        · rintro hs
          have hs' : s = [] := hs
          rw [hv, hs'] at ht
          simp [PVal.truthy] at ht
      | _ => exact .inl (H.nn (nn_str hE (by rintro s ⟨⟩)))
    by_cases ht : (dictOpt d1 py"input_selection_approaches").truthy = true
    · unfold Report.validateDesign
      simp only [ht, if_true]
      lonly_
      exact hsay ht
    · rw [Bool.not_eq_true] at ht
      unfold Report.validateDesign
      simp only [ht, Bool.false_eq_true, if_false]
      lonly_
  have hv2 := erase_ok_iff.2 hd2
  rw [erase_validateDesign] at hv2
  obtain ⟨ca, mf, msp, f, n, outsD, outs', _, _, _, _, _, _, _, _, _, _, h11, _, _, rfl⟩ := validateDesign_ok.1 hv2
  refine LOnly.run_bind fun _ _ => LOnly.bind (LOnly.say (.inl (by harmless_))) fun _ => LOnly.run_bind fun outsP ho => LOnly.run_bind fun outsL hol => ?_
  rw [dictGet_ok, find_set_eq] at ho
  injection ho with ho
  subst ho
  rw [vList_ok] at hol
  injection hol with hol
  subst hol
  refine LOnly.run_bind fun _ _ => LOnly.run_bind fun _ _ => LOnly.run_bind fun _ _ => LOnly.run_bind fun _ _ => LOnly.run_bind fun _ _ =>
    LOnly.run_bind fun insZ hinsZ => LOnly.run_bind fun outsZ houtsZ => ?_
  have hi : ∀ z ∈ insZ, ∃ x, InStep X x z := by
    intro z hz
    obtain ⟨y, hy, hyz⟩ := forall₂_mem_right (mapR_ok.1 hinsZ) z hz
    have hl : ∃ l, mapR (adjustInput X.uni) l = .ok ins1 := by
      cases hin : a.inputs.getD .none with
      | list l => rw [hin] at hins1; exact ⟨l, hins1⟩
      | _ => rw [hin] at hins1; simp [adjustInputs] at hins1
    obtain ⟨l, hl⟩ := hl
    obtain ⟨x, _, hxy⟩ := forall₂_mem_right (mapR_ok.1 hl) y hy
    simp only [validateInputs, R_bind_eq_ok, mapR_ok] at hval
    obtain ⟨vs, hvs, _⟩ := hval
    have hvy : validateInput X y = .ok () := by
      clear hins1 hinsZ hl
      induction hvs with
      | nil => cases hy
      | cons h _ ih =>
        rcases List.mem_cons.1 hy with rfl | hy
        · exact h
        · exact ih hy
    exact ⟨x, inStep_iff.1 ⟨y, hxy, hvy, hyz⟩⟩
  have ho : ∀ z ∈ outsZ, ∃ x, OutStep X x z := by
    intro z hz
    obtain ⟨y, hy, hyz⟩ := forall₂_mem_right (mapR_ok.1 houtsZ) z hz
    obtain ⟨x, _, hxy⟩ := forall₂_mem_right (mapR_ok.1 h11) y hy
    exact ⟨x, outStep_iff.1 ⟨y, hxy, hyz⟩⟩
  refine LOnly.bind (LOnly.say (.inl (by harmless_))) fun _ => LOnly.bind (LOnly.each _ _ fun n z hz => .inl ?_) fun _ =>
    LOnly.bind (LOnly.each _ _ fun n z hz => .inl ?_) fun _ => LOnly.run_bind fun _ _ => LOnly.bind (LOnly.say (.inl (by harmless_))) fun _ =>
    LOnly.run_bind fun _ _ => LOnly.bind (LOnly.say (.inl (by harmless_))) fun _ => LOnly.pure _
  · obtain ⟨x, hx⟩ := hi z hz
    exact inStep_shown hE hx n
  · obtain ⟨x, hx⟩ := ho z hz
    exact outStep_shown hx n

/-- a text among the approaches of an accepted request is empty -/
theorem approaches_str {a : Args} {p : Plan} (hp : BT.prepare X a = .ok p) {s : Str} (h : setting a py"input_selection_approaches" = some (.str s)) :
    s = [] := by
  obtain ⟨insD, d, d1, insZ, outsD, outsZ, ca, mf, msp, n, h1, h2, h3, h4, h5, h6, h7, h8, h9, h10, h11, h12, h13, h14, h15, h16, h17, h18, h19,
    h20, h21, h22, h23, h24, h25, h26, h27⟩ := prepare_ok.1 hp
  unfold dictOpt at h17
  rw [adjusted_setting h2 h3, h] at h17
  simp only [Option.getD_some] at h17
  cases s with
  | nil => rfl
  | cons c s => simp [validateApproaches, PVal.truthy, vList, R_bind_eq_ok] at h17

theorem nn_txIn {x : PVal} {i : TxIn} (hs : ∀ b, (X.sha256 b).length = 32) (h : Offers X x i) :
    NoNl i.address ∧ NoNl i.txid ∧ NoNl (i.bitcoin.getD py"None") := by
  obtain ⟨a, t, b, ix, n, _, _, _, _, ha, rfl⟩ := offers_shape hs h
  exact ⟨nn_addr ha, nn_hex (isHex_hex _), nn_btcText _⟩

theorem nn_txOut {x : PVal} {o : TxOut} (hs : ∀ b, (X.sha256 b).length = 32) (h : Asks X x o) : NoNl o.address ∧ NoNl o.bitcoin := by
  obtain ⟨a, b, n, _, ha, _, rfl⟩ := asks_shape hs h
  exact ⟨nn_addr ha, nn_btcText _⟩

theorem plan_ins (hs : ∀ b, (X.sha256 b).length = 32) {a : Args} {p : Plan} (hp : BT.prepare X a = .ok p) :
    ∀ i ∈ p.ins, NoNl i.address ∧ NoNl i.txid ∧ NoNl (i.bitcoin.getD py"None") := by
  intro i hi
  obtain ⟨_, _, _, _, hI, hO⟩ := prepare_request hp
  obtain ⟨x, _, hx⟩ := forall₂_mem_right hI i hi
  exact nn_txIn hs hx

theorem lh_plan (hE : ∀ f, '\n' ∉ E.floatRepr f) (hs : ∀ b, (X.sha256 b).length = 32) {a : Args} {p : Plan} (hp : BT.prepare X a = .ok p) :
    LH (build E X p) := by
  have hok := prepare_planOk hs hp
  obtain ⟨s1, s2, ⟨mf, s3, s4⟩, s5, s6, s7, s8, s9⟩ := prepare_settings hp
  refine lh_build hE (plan_ins hs hp) ?_ ?_ ?_ (hl_whole hE hok.cap) ?_ (H.nn (nn_vaddr s2))
  · intro o ho
    obtain ⟨_, _, _, _, hI, hO⟩ := prepare_request hp
    obtain ⟨x, _, hx⟩ := forall₂_mem_right hO o ho
    exact nn_txOut hs hx
  · rw [s6]
    refine H.nn (nn_str hE fun s hs => ?_)
    cases hset : setting a py"input_selection_approaches" with
    | none => rw [hset] at hs; cases hs
    | some v =>
      rw [hset] at hs
      simp only [Option.getD_some] at hs
      subst hs
      rw [approaches_str hp hset]
      simp [NoNl]
  · intro v hv
    rcases s7 with ⟨v', _, h1, _, h2, _⟩ | ⟨_, _, h1, _⟩
    · rw [hv] at h1; cases h1; exact hl_whole hE h2
    · rw [hv] at h1; cases h1
  · rcases hok.idx with h | h
    · refine H.nn (nn_str hE fun s hs => ?_)
      rw [hs] at h
      cases h
    · exact hl_whole hE h

theorem said_create (hE : ∀ f, '\n' ∉ E.floatRepr f) (hs : ∀ b, (X.sha256 b).length = 32) (a : Args) : LOnly (Said a) (Report.create E X a) := by
  unfold Report.create
  refine LOnly.bind_ok (said_prepare hE a) fun p hp => LOnly.bind ?_ fun _ => LOnly.pure _
  have hp' := erase_ok_iff.2 hp
  rw [erase_prepare] at hp'
  exact (lh_plan hE hs hp').mono fun s h => .inl h

/-- the report of a successful call is harmless -/
theorem lh_create (hE : ∀ f, '\n' ∉ E.floatRepr f) (hs : ∀ b, (X.sha256 b).length = 32) {a a' : Args} {t : Tx}
    (h : createTransaction X a = .ok (t, a')) : LH (Report.create E X a) := by
  constructor
  intro s hm
  rcases (said_create hE hs a).all s hm with h1 | ⟨h1, h2⟩
  · exact h1
  · obtain ⟨p, m, fee, sel, outs', ch, q, hp, _⟩ := (create_ok hs).1 h
    exact absurd (approaches_str hp h1) h2

end BT.LT
