import Verif.Lemmas.FeeRate

/-! # What a successful `create_transaction` tells, in terms of the arguments -/

namespace BT
open Spec

theorem prepare_settings {X : Ext} {a : Args} {p : Plan} (h : prepare X a = .ok p) :
    setting a py"change_address" = some (.str p.changeAddress) ∧ vBitcoinAddress X p.changeAddress = .ok () ∧
    (∃ v, setting a py"max_fee" = some v ∧ Adjusted X.uni (some v) (some p.maxFee)) ∧
    (∃ v, setting a py"max_spend_percentage" = some v ∧ v.toFloat X.uni = .ok p.pct) ∧
    p.approaches = (setting a py"input_selection_approaches").getD (.list [.str py"largest_first"]) ∧
    ((∃ v v0, p.kind = .inl v ∧ v.truthy = true ∧ vWholeNumber v = .ok () ∧ setting a py"fee" = some v0 ∧
      Adjusted X.uni (some v0) (some v)) ∨
    (∃ v q, p.kind = .inr (rnd64 q) ∧ 0 ≤ q ∧ setting a py"fee_rate" = some v ∧ RateOf X.uni v q ∧
      ∀ w n, setting a py"fee" = some w → NumberOf X.uni w n → n = 0)) ∧
    (p.allowDup = true ↔ a.allowDup = some (.bool true)) ∧ p.changeIdx = a.changeIdx.getD .none := by
  obtain ⟨insD, d, d1, insZ, outsD, outsZ, ca, mf, msp, n, h1, h2, h3, h4, h5, h6, h7, h8, h9, h10, h11, h12, h13, h14, h15, h16, h17, h18, h19, h20, h21, h22, h23, h24, h25, h26, h27⟩ := prepare_ok.1 h
  obtain ⟨a1, a2, a3, a4, a5⟩ := adjustDesign_ok h3
  subst h23; subst h24
  simp only [setting_eq h2]
  refine ⟨by rw [← a1 _ (by decide) (by decide) (by decide)]; exact h5, h6, ?_, ⟨msp, by rw [← a1 _ (by decide) (by decide) (by decide)]; exact h9, h10⟩,
    by rw [h22, a1 _ (by decide) (by decide) (by decide)], ?_, ?_, h26⟩
  · cases h0 : dictFind d py"max_fee" with
    | none => rw [h0, h7] at a4; rcases a4 with ⟨s, n, h, _⟩ | ⟨_, h⟩ <;> simp at h
    | some v => rw [h0, h7] at a4; exact ⟨v, rfl, a4⟩
  · rcases kind_ok h3 h16 h19 with h | ⟨v, q, k1, k2, k3, k4, k5⟩
    · exact .inl h
    · refine .inr ⟨v, q, k1, k2, k3, k4, ?_⟩
      intro w n hw hn
      rw [hw] at a2
      unfold dictOpt at k5
      rcases hn with rfl | ⟨s, rfl, hs⟩
      · rcases a2 with ⟨s, n', h, _⟩ | ⟨_, h⟩
        · simp at h
        · rw [h] at k5; simpa [PVal.truthy] using k5
      · rcases a2 with ⟨s', n', h, hn', h'⟩ | ⟨h, _⟩
        · simp at h; subst h
          rw [hs] at hn'; injection hn' with hn'; subst hn'
          rw [h'] at k5; simpa [PVal.truthy] using k5
        · exact absurd rfl (h s)
  · rw [h25]
    have := (validateOptions_ok.1 h18).1
    cases hd : a.allowDup with
    | none => simp [PVal.truthy]
    | some v =>
      rw [hd] at this
      simp only [Option.getD_some] at this ⊢
      rcases this with h | ⟨b, rfl⟩
      · cases v <;> simp_all [PVal.isNone, PVal.truthy]
      · simp [PVal.truthy]

theorem adjusted_number {u : UniDB} {v v0 : PVal} {n : Int} (h : Adjusted u (some v0) (some v)) (hn : NumberOf u v0 n) : v = .int n := by
  rcases hn with rfl | ⟨s, rfl, hs⟩
  · rcases h with ⟨s, n', h, _⟩ | ⟨_, h⟩
    · simp at h
    · simpa using h
  · rcases h with ⟨s', n', h, hn', h'⟩ | ⟨h, _⟩
    · simp at h; subst h
      rw [hs] at hn'; injection hn' with hn'; subst hn'
      simpa using h'
    · exact absurd rfl (h s)

theorem adjusted_int {u : UniDB} {v0 : PVal} {n : Int} (h : Adjusted u (some v0) (some (.int n))) : NumberOf u v0 n := by
  rcases h with ⟨s', n', h, hn', h'⟩ | ⟨_, h⟩
  · simp at h h'; subst h; subst h'
    exact .inr ⟨s', rfl, hn'⟩
  · simp at h; exact .inl h.symm

theorem rateOf_unique {u : UniDB} {v : PVal} {q q' : ℚ} (h : RateOf u v q) (h' : RateOf u v q') : q = q' := by
  rcases h with ⟨n, rfl, rfl⟩ | ⟨s, rfl, h⟩ | ⟨rfl, rfl⟩ <;> rcases h' with ⟨n', h1, rfl⟩ | ⟨s', h1, h'⟩ | ⟨h1, rfl⟩ <;> simp at h1
  · rw [h1]
  · subst h1; exact decimalText_unique h h'
  · rfl

/-- how the fee follows from the design, for `n` offered inputs and `m` designed outputs -/
def FeeRule (X : Ext) (a : Args) (n m : Nat) (fee : Int) : Prop :=
  (∃ v, setting a py"fee" = some v ∧ NumberOf X.uni v fee ∧ fee ≠ 0) ∨
  ((∀ w k, setting a py"fee" = some w → NumberOf X.uni w k → k = 0) ∧
    ∃ v q, setting a py"fee_rate" = some v ∧ RateOf X.uni v q ∧ 0 ≤ q ∧ fee = feeOf (estSize n m) q)

theorem changed_withChange {X : Ext} (hs : ∀ b, (X.sha256 b).length = 32) {outs outs' : List TxOut} {ca : Str} {a : Option PVal} {s : Int} {c : TxOut}
    (hO : ∀ o ∈ outs, ∃ x, Asks X x o) (hs0 : 0 < s) (hw : (a.getD .none).isNone = true ∨ vWholeNumber (a.getD .none) = .ok ()) :
    Changed X outs ca (a.getD .none) s outs' c → WithChange X ca a s outs outs' := by
  rintro (⟨h1, h2, rfl⟩ | ⟨pre, o, post, k, rfl, h1, h2, h3, h4, rfl, h5⟩)
  · refine .new _ _ hs0 ?_ h2
    intro o ho he
    have : o ∈ outs.filter fun o => o.address = ca := by simp [ho, he]
    rw [h1] at this; simp at this
  · refine .raised _ _ _ _ hs0 h1 ?_ ?_
    · obtain ⟨x, hx⟩ := hO o (by simp)
      obtain ⟨ad, h, n, g1, g2, g3, rfl⟩ := asks_shape hs hx
      obtain ⟨k, hk, k1, k2, rfl⟩ := setSatoshi_iff.1 h4
      have : ad = ca := h1
      subst this
      exact (TxOut_create_ok X hs).2 ⟨h, k, g1, g2, hk, k2, rfl⟩
    · rcases h5 with h5 | ⟨h5, h6, h7⟩
      · left
        rw [List.filter_append, List.length_append, List.filter_cons_of_pos (by simpa using h1), List.length_cons] at h5
        intro x hx he
        rcases List.mem_append.1 hx with hx | hx
        · have : x ∈ pre.filter fun o => o.address = ca := by simp [hx, he]
          have := List.length_pos_of_mem this
          omega
        · have : x ∈ post.filter fun o => o.address = ca := by simp [hx, he]
          have := List.length_pos_of_mem this
          omega
      · right
        refine ⟨k, h2, ?_⟩
        cases a with
        | none => simp at h6
        | some v =>
          simp only [Option.getD_some] at h7 hw
          cases v with
          | int i => simp [PVal.asInt] at h7; subst h7; simp
          | bool b => cases b <;> simp [PVal.asInt] at h7 <;> simp <;> omega
          | float f => simp [PVal.asInt] at h7
          | _ => simp [PVal.asInt] at h7

/-- everything about a created transaction, in terms of the arguments -/
structure Created (X : Ext) (a : Args) (t : Tx) (ins : List TxIn) (outs : List TxOut) (ca m : Str) (fee ch : Int) (q : ℚ) : Prop where
  req : Request X a ins outs
  ca_set : setting a py"change_address" = some (.str ca)
  ca_addr : t.changeAddress = some ca
  mode : Mode a m
  impl : Implemented m
  ins_nn : ∀ i ∈ ins, 0 ≤ i.amount
  outs_nn : ∀ o ∈ outs, 0 ≤ o.satoshi
  nin : ins.length ≤ 252
  nout : outs.length ≤ 252
  fee_rule : FeeRule X a ins.length outs.length fee
  fee_money : Money fee
  in_money : Money (inTotal ins)
  in_pos : inTotal ins ≠ 0
  covered : outTotal outs + fee ≤ inTotal ins
  cap : ∃ v w, setting a py"max_fee" = some v ∧ Adjusted X.uni (some v) (some w) ∧ vWholeNumber w = .ok () ∧ fee ≤ capOf w
  sel : t.inputs = chosen (outTotal outs + fee) (decide (m = py"all")) (arranged m ins)
  fee_eq : inTotal t.inputs = outTotal t.outputs + fee
  change : WithChange X ca a.changeIdx (inTotal t.inputs - (outTotal outs + fee)) outs t.outputs
  change_is : (t.outputs = outs ∧ ch = 0 ∧ inTotal t.inputs = outTotal outs + fee) ∨
    ∃ pre c post, t.outputs = pre ++ c :: post ∧ c.address = ca ∧ ch = c.satoshi ∧
      ((pre = [] ∧ outs = post) ∨ ∃ o, outs = pre ++ o :: post ∧ o.address = ca ∧ o.satoshi < c.satoshi)
  pct : ∃ v, setting a py"max_spend_percentage" = some v ∧ v.toFloat X.uni = .ok (.fin q)
  q_lo : -1 < q
  q_hi : q < 101
  spend : inTotal t.inputs - ch ≤ limitOf q (inTotal ins)
  lim_money : Money (limitOf q (inTotal ins))
  lim_ne : limitOf q (inTotal ins) ≠ 0
  dup : a.allowDup = some (.bool true) ∨ (outs.map TxOut.address).Nodup
  count : t.inputCount = hex [UInt8.ofNat t.inputs.length] ∧ t.outputCount = hex [UInt8.ofNat t.outputs.length]
  nout' : t.outputs.length ≤ 252
  tx_eq : t = { inputCount := hex [UInt8.ofNat t.inputs.length], inputs := t.inputs, outputCount := hex [UInt8.ofNat t.outputs.length],
                outputs := t.outputs, changeAddress := some ca }

theorem created_of {X : Ext} (hs : ∀ b, (X.sha256 b).length = 32) {a a' : Args} {t : Tx} (h : createTransaction X a = .ok (t, a')) :
    ∃ ins outs ca m fee ch q, Created X a t ins outs ca m fee ch q := by
  obtain ⟨p, m, fee, sel, outs', ch, q, hp, B, rfl⟩ := (create_ok hs).1 h
  have hP := prepare_planOk hs hp
  have hR := prepare_request hp
  obtain ⟨s1, s2, ⟨mf, s3, s4⟩, s5, s6, s7, s8, s9⟩ := prepare_settings hp
  obtain ⟨q', hq', hq1, hq2⟩ := hP.pct
  obtain rfl : q' = q := by have := B.pct; rw [hq'] at this; injection this
  have htot := inTotal_perm (arranged_perm m p.ins)
  have ho0 := outTotal_nonneg hP.outs_nn
  have hreach : outTotal p.outs + fee ≤ inTotal sel := by
    rw [B.sel_eq]; exact chosen_reach (by rw [htot]; exact B.covered)
  have hOut : ∀ o ∈ p.outs, ∃ x, Asks X x o := by
    obtain ⟨_, _, _, _, _, hO⟩ := hR
    intro o ho
    obtain ⟨x, _, hx⟩ := forall₂_mem_right hO o ho
    exact ⟨x, hx⟩
  have ht := B.tx_eq
  have hin : t.inputs = sel := by rw [ht]
  have hout : t.outputs = outs' := by rw [ht]
  have hidx := hP.idx
  rw [s9] at hidx
  refine ⟨p.ins, p.outs, p.changeAddress, m, fee, ch, q', ⟨hR, s1, by rw [ht], ?_, B.impl, hP.ins_nn, hP.outs_nn, B.nin, B.nout, ?_, B.fee_money, B.in_money, B.in_ne,
    B.covered, ⟨mf, p.maxFee, s3, s4, hP.cap, B.fee_cap⟩, by rw [hin]; exact B.sel_eq, ?_, ?_, ?_, by rw [hq'] at s5; exact s5, hq1, hq2, by rw [hin]; exact B.spend_le,
    B.lim_money, B.lim_ne, ?_, ?_, by rw [hout]; exact B.nout', ?_⟩⟩
  · have := B.appr
    rw [s6] at this
    unfold Mode
    cases hset : setting a py"input_selection_approaches" with
    | none =>
      rw [hset] at this
      simp at this
      exact .inr ⟨rfl, this.symm⟩
    | some v => rw [hset] at this; simp at this; rw [this]; exact .inl rfl
  · rcases s7 with ⟨v, v0, k1, k2, k3, k4, k5⟩ | ⟨v, q, k1, k2, k3, k4, k5⟩
    · left
      have := B.fee_of
      rw [k1] at this
      rcases this with h | ⟨r, n, h, _⟩
      · injection h with h; subst h
        exact ⟨v0, k4, adjusted_int k5, by simpa [PVal.truthy] using k2⟩
      · simp at h
    · right
      refine ⟨k5, v, q, k3, k4, k2, ?_⟩
      have := B.fee_of
      rw [k1] at this
      rcases this with h | ⟨r, n, h, hf, hn⟩
      · simp at h
      · injection h with h; subst h
        injection hn with hn; subst hn
        have e : (10 + 179 * (p.ins.length : ℤ) + 34 * (p.outs.length : ℤ)) = ((10 + 179 * p.ins.length + 34 * p.outs.length : Nat) : ℤ) := by push_cast; ring
        have hb := B.nin; have hb' := B.nout
        rw [e] at hf
        rw [feeFromRate_ok k2 (by omega) hf]
        congr 1
  · rw [hin, hout]
    rcases B.outs_eq with ⟨h1, h2, _⟩ | ⟨h1, c, h2, _⟩
    · rw [h2, h1]
    · rw [h2.total hs]; omega
  · rw [hin, hout]
    rcases B.outs_eq with ⟨h1, h2, _⟩ | ⟨h1, c, h2, _⟩
    · rw [h2]; exact .exact _ (by omega)
    · rw [s9] at h2
      exact changed_withChange hs hOut (by omega) hidx h2
  · rw [hout, hin]
    rcases B.outs_eq with ⟨h1, h2, h3⟩ | ⟨h1, c, h2, h3⟩
    · exact .inl ⟨h2, h3, h1⟩
    · obtain ⟨g1, g2, _⟩ := h2.address hs
      right
      rcases h2 with ⟨_, k2, k3⟩ | ⟨pre, o, post, k, k1, k2, k3, k4, k5, k6, k7⟩
      · exact ⟨[], c, p.outs, by rw [k3]; rfl, g1, h3, .inl ⟨rfl, rfl⟩⟩
      · refine ⟨pre, c, post, k6, g1, h3, .inr ⟨o, k1, k2, ?_⟩⟩
        obtain ⟨j, j1, j2, j3, rfl⟩ := setSatoshi_iff.1 k5
        simp only
        omega
  · rcases B.dup with h | h
    · exact .inl (s8.1 h)
    · exact .inr h
  · rw [ht]; exact ⟨rfl, rfl⟩
  · rw [ht]

end BT
