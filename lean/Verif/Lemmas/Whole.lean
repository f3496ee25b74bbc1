import Verif.Lemmas.Change

/-! # `create_transaction` as a whole -/

namespace BT
open Spec

/-- what `prepare` guarantees about its result -/
structure PlanOk (p : Plan) : Prop where
  ins_nn : ∀ i ∈ p.ins, 0 ≤ i.amount
  outs_nn : ∀ o ∈ p.outs, 0 ≤ o.satoshi
  pct : ∃ q, p.pct = .fin q ∧ -1 < q ∧ q < 101
  cap : vWholeNumber p.maxFee = .ok ()
  idx : p.changeIdx.isNone = true ∨ vWholeNumber p.changeIdx = .ok ()

theorem offers_shape {X : Ext} (hs : ∀ b, (X.sha256 b).length = 32) {x : PVal} {i : TxIn} (h : Offers X x i) :
    ∃ (a : Str) (t h : Bytes) (ix n : Nat), h.length = 20 ∧ t.length = 32 ∧ ix < 2 ^ 32 ∧ n ≤ maxMoney ∧
      addressToHash X a = .ok (hex h) ∧ i = inOf a t h ix n := by
  obtain ⟨a, txid, v, idx, s, sat, _, _, _, _, _, _, hc⟩ := h
  obtain ⟨t, h, ix, n, h1, h2, h3, h4, h5, h6, h7, h8, h9⟩ := (TxIn_create_ok X hs).1 hc
  exact ⟨a, t, h, ix, n, h1, h4, h6, h8, h2, h9⟩

theorem asks_shape {X : Ext} (hs : ∀ b, (X.sha256 b).length = 32) {x : PVal} {o : TxOut} (h : Asks X x o) :
    ∃ (a : Str) (h : Bytes) (k : Nat), h.length = 20 ∧ addressToHash X a = .ok (hex h) ∧ k ≤ maxMoney ∧ o = outOf a h k := by
  obtain ⟨a, s, sat, _, _, _, hc⟩ := h
  obtain ⟨h, k, h1, h2, h3, h4, h5⟩ := (TxOut_create_ok X hs).1 hc
  exact ⟨a, h, k, h1, h2, h4, h5⟩

theorem forall₂_mem_right {α β : Type} {P : α → β → Prop} {l : List α} {m : List β} (h : List.Forall₂ P l m) :
    ∀ b ∈ m, ∃ a ∈ l, P a b := by
  induction h with
  | nil => simp
  | cons h _ ih =>
    intro b hb
    rcases List.mem_cons.1 hb with rfl | hb
    · exact ⟨_, by simp, h⟩
    · obtain ⟨a, ha, hp⟩ := ih b hb
      exact ⟨a, by simp [ha], hp⟩

theorem forall₂_swapmk {α β γ : Type} {P : α → β → Prop} {Q : β → γ → Prop} {T : α → γ → Prop} {l : List α} {m : List β} {n : List γ}
    (h1 : List.Forall₂ P l m) (h2 : List.Forall₂ Q m n) (h : ∀ a b c, P a b → Q b c → T a c) : List.Forall₂ T l n :=
  (forall₂_comp.2 ⟨m, h1, h2⟩).imp fun _ _ ⟨b, x, y⟩ => h _ b _ x y

theorem trunc_fin {f : PyFloat} {n : Int} (h : f.trunc = .ok n) : ∃ q, f = .fin q ∧ n = if q < 0 then ⌈q⌉ else ⌊q⌋ := by
  cases f with
  | fin q => exact ⟨q, rfl, by injection h with h; exact h.symm⟩
  | _ => simp [PyFloat.trunc] at h

theorem prepare_request {X : Ext} {a : Args} {p : Plan} (h : prepare X a = .ok p) : Request X a p.ins p.outs := by
  obtain ⟨insD, d, d1, insZ, outsD, outsZ, ca, mf, msp, n, h1, h2, h3, h4, h5, h6, h7, h8, h9, h10, h11, h12, h13, h14, h15, h16, h17, h18, h19, h20, h21, h22⟩ := prepare_ok.1 h
  refine ⟨insD, outsD, h1, ?_, ?_, ?_⟩
  · rw [setting, h2]
    have := (adjustDesign_ok h3).1 py"outputs" (by decide) (by decide) (by decide)
    show dictFind d _ = _
    rw [← this, h14]
  · exact forall₂_swapmk h4 h20 fun a b c x y => (inStep_mk x c).1 y
  · exact forall₂_swapmk h15 h21 fun a b c x y => (outStep_mk x c).1 y

theorem prepare_planOk {X : Ext} (hs : ∀ b, (X.sha256 b).length = 32) {a : Args} {p : Plan} (h : prepare X a = .ok p) : PlanOk p := by
  obtain ⟨insD', outsD', _, _, hI, hO⟩ := prepare_request h
  obtain ⟨insD, d, d1, insZ, outsD, outsZ, ca, mf, msp, n, h1, h2, h3, h4, h5, h6, h7, h8, h9, h10, h11, h12, h13, h14, h15, h16, h17, h18, h19, h20, h21, h22, h23, h24, h25, h26, h27⟩ := prepare_ok.1 h
  refine ⟨?_, ?_, ?_, by rw [h23]; exact h8, by rw [h26]; exact (validateOptions_ok.1 h18).2⟩
  · intro i hi
    obtain ⟨x, _, hx⟩ := forall₂_mem_right hI i hi
    obtain ⟨a, t, h, ix, n, _, _, _, _, _, rfl⟩ := offers_shape hs hx
    simp [TxIn.amount, inOf]
  · intro o ho
    obtain ⟨x, _, hx⟩ := forall₂_mem_right hO o ho
    obtain ⟨a, h, k, _, _, _, rfl⟩ := asks_shape hs hx
    simp [outOf]
  · obtain ⟨q, hq, rfl⟩ := trunc_fin h11
    refine ⟨q, hq, ?_⟩
    split at h12
    · rename_i hneg
      rw [if_pos hneg] at h13
      have := Int.ceil_lt_add_one q
      have h12' : ((0 : ℤ) : ℚ) ≤ ((⌈q⌉ : ℤ) : ℚ) := by exact_mod_cast h12
      push_cast at h12'
      constructor <;> linarith
    · rename_i hneg
      rw [if_neg hneg] at h13
      have := Int.lt_floor_add_one q
      have h13' : ((⌊q⌋ : ℤ) : ℚ) ≤ 100 := by exact_mod_cast h13
      push Not at hneg
      constructor <;> linarith

/-- everything that holds when a transaction is built -/
structure Built (X : Ext) (p : Plan) (t : Tx) (m : Str) (fee : Int) (sel : List TxIn) (outs' : List TxOut) (ch : Int) (q : ℚ) : Prop where
  appr : p.approaches = .list [.str m]
  impl : Implemented m
  dup : p.allowDup = true ∨ (p.outs.map TxOut.address).Nodup
  nin : p.ins.length ≤ 252
  nout : p.outs.length ≤ 252
  fee_of : FeeP p.kind (10 + 179 * p.ins.length + 34 * p.outs.length) (.int fee)
  fee_money : Money fee
  fee_cap : fee ≤ capOf p.maxFee
  in_money : Money (inTotal p.ins)
  covered : outTotal p.outs + fee ≤ inTotal p.ins
  sel_eq : sel = chosen (outTotal p.outs + fee) (decide (m = py"all")) (arranged m p.ins)
  outs_eq : (inTotal sel = outTotal p.outs + fee ∧ outs' = p.outs ∧ ch = 0) ∨
    (inTotal sel ≠ outTotal p.outs + fee ∧
      ∃ c, Changed X p.outs p.changeAddress p.changeIdx (inTotal sel - (outTotal p.outs + fee)) outs' c ∧ ch = c.satoshi)
  pct : p.pct = .fin q
  lim_money : Money (limitOf q (inTotal p.ins))
  spend_nn : 0 ≤ inTotal sel - ch
  in_ne : inTotal p.ins ≠ 0
  spend_le : inTotal sel - ch ≤ limitOf q (inTotal p.ins)
  lim_ne : limitOf q (inTotal p.ins) ≠ 0
  nout' : outs'.length ≤ 252
  tx_eq : t = { inputCount := hex [UInt8.ofNat sel.length], inputs := sel, outputCount := hex [UInt8.ofNat outs'.length],
                outputs := outs', changeAddress := some p.changeAddress }

theorem inTotal_perm {l l' : List TxIn} (h : l.Perm l') : inTotal l = inTotal l' := by
  unfold inTotal; exact (h.map _).sum_eq

theorem inTotal_nonneg {l : List TxIn} (h : ∀ i ∈ l, 0 ≤ i.amount) : 0 ≤ inTotal l := by
  apply List.sum_nonneg
  intro x hx
  simp only [List.mem_map] at hx
  obtain ⟨i, hi, rfl⟩ := hx
  exact h i hi

theorem outTotal_nonneg {l : List TxOut} (h : ∀ o ∈ l, 0 ≤ o.satoshi) : 0 ≤ outTotal l := by
  apply List.sum_nonneg
  intro x hx
  simp only [List.mem_map] at hx
  obtain ⟨i, hi, rfl⟩ := hx
  exact h i hi

theorem inTotal_append (a b : List TxIn) : inTotal (a ++ b) = inTotal a + inTotal b := by simp [inTotal]

theorem chosen_prefix (target : Int) (all : Bool) (l : List TxIn) : chosen target all l <+: l := by
  unfold chosen; split
  · exact List.prefix_rfl
  · exact selectLoop_prefix ..

theorem chosen_reach {target : Int} {all : Bool} {l : List TxIn} (h : target ≤ inTotal l) : target ≤ inTotal (chosen target all l) := by
  unfold chosen; split
  · exact h
  · cases all with
    | true => rw [selectLoop_all]; exact h
    | false => have := selectLoop_reach target 0 l (by omega); omega

theorem prefix_total {l m : List TxIn} (h : l <+: m) (hn : ∀ i ∈ m, 0 ≤ i.amount) : inTotal l ≤ inTotal m := by
  obtain ⟨r, rfl⟩ := h
  rw [inTotal_append]
  have := inTotal_nonneg (l := r) fun i hi => hn i (by simp [hi])
  omega

theorem addr_money_in {l : List TxIn} (hn : ∀ i ∈ l, 0 ≤ i.amount) (hm : Money (inTotal l)) :
    ∀ p ∈ addrTotals (l.map fun i => (i.address, i.amount)), Money p.2 := by
  intro p hp
  have := addrTotals_le (l := l.map fun i => (i.address, i.amount)) (by
    intro p hp
    simp only [List.mem_map] at hp
    obtain ⟨i, hi, rfl⟩ := hp
    exact hn i hi) p hp
  have e : ((l.map fun i => (i.address, i.amount)).map Prod.snd).sum = inTotal l := by
    rw [List.map_map]; rfl
  rw [e] at this
  unfold Money at *; omega

theorem addr_money_out {l : List TxOut} (hn : ∀ o ∈ l, 0 ≤ o.satoshi) (hm : Money (outTotal l)) :
    ∀ p ∈ addrTotals (l.map fun o => (o.address, o.satoshi)), Money p.2 := by
  intro p hp
  have := addrTotals_le (l := l.map fun o => (o.address, o.satoshi)) (by
    intro p hp
    simp only [List.mem_map] at hp
    obtain ⟨i, hi, rfl⟩ := hp
    exact hn i hi) p hp
  have e : ((l.map fun o => (o.address, o.satoshi)).map Prod.snd).sum = outTotal l := by
    rw [List.map_map]; rfl
  rw [e] at this
  unfold Money at *; omega

theorem buildTx_ok {X : Ext} (hs : ∀ b, (X.sha256 b).length = 32) {p : Plan} (hp : PlanOk p) {t : Tx} :
    buildTx X p.ins p.outs p.approaches p.kind p.maxFee p.pct p.changeAddress p.allowDup p.changeIdx = .ok t ↔
      ∃ m fee sel outs' ch q, Built X p t m fee sel outs' ch q := by
  obtain ⟨q, hq, hq1, hq2⟩ := hp.pct
  have hnn : ∀ m, ∀ i ∈ arranged m p.ins, 0 ≤ i.amount := fun m i hi => hp.ins_nn i ((arranged_perm m p.ins).mem_iff.1 hi)
  constructor
  · intro h
    simp only [buildTx, R_bind_eq_ok] at h
    obtain ⟨x, hx, ins, hins, _, hrep, size, hsize, fee, hfee, sel, hsel, ⟨outs', ch⟩, hch, _, hlim, t0, ht0, he⟩ := h
    obtain ⟨m, hap, rfl, hm, rfl⟩ := approach_ok.1 ⟨hx, hins⟩
    have htot := inTotal_perm (arranged_perm m p.ins)
    have hlen := (arranged_perm m p.ins).length_eq
    obtain ⟨_, _, hdup⟩ := reportAddresses_ok.1 hrep
    obtain ⟨n1, n2, rfl⟩ := estimate_ok.1 hsize
    obtain ⟨f1, f2, f3⟩ := (finalFee_ok hp.cap (by omega)).1 hfee
    obtain ⟨s1, s2, s3, s4, s5, s6, s7⟩ := selectInputs_ok.1 hsel
    have hC := (handleChange_ok hs hp.idx).1 hch
    rw [inTotal_eq, inTotal_eq, hq, htot] at hlim
    rw [htot] at s1 s3 s5
    obtain ⟨l1, l2, l3, l4, l5⟩ := (checkSpend_ok ⟨hq1, hq2⟩ s1).1 hlim
    obtain ⟨c1, c2, rfl⟩ := Tx_create_ok.1 ht0
    refine ⟨m, fee, sel, outs', ch, q, hap, hm, hdup, by rw [← hlen]; exact n1, n2, by rw [← hlen]; exact f1, f2, f3, s1, s5, ?_, ?_, hq, l1, l2.1, l3, l4, l5, c2, ?_⟩
    · rw [s6]; congr 1; exact Bool.eq_iff_iff.2 (by simp [eqStr_iff])
    · rcases hC with h | ⟨a1, a2, c, a3, a4, _⟩
      · exact .inl h
      · exact .inr ⟨a1, c, a3, a4⟩
    · simpa [eq_comm] using he
  · rintro ⟨m, fee, sel, outs', ch, q', B⟩
    obtain rfl : q = q' := by have := B.pct; rw [hq] at this; injection this
    have htot := inTotal_perm (arranged_perm m p.ins)
    have hlen := (arranged_perm m p.ins).length_eq
    have ho0 := outTotal_nonneg hp.outs_nn
    have hfm := B.fee_money
    have him := B.in_money
    have hcov := B.covered
    have hpre : sel <+: arranged m p.ins := by rw [B.sel_eq]; exact chosen_prefix ..
    have hselle : inTotal sel ≤ inTotal p.ins := by rw [← htot]; exact prefix_total hpre (hnn m)
    have hselge : outTotal p.outs + fee ≤ inTotal sel := by
      rw [B.sel_eq]; exact chosen_reach (by rw [htot]; exact B.covered)
    have hsell : sel.length ≤ 252 := by have := hpre.length_le; have := B.nin; omega
    have hsp := B.spend_nn
    have hch0 : 0 ≤ ch := by
      rcases B.outs_eq with ⟨_, _, h⟩ | ⟨_, c, hc, h⟩
      · omega
      · have := (hc.address hs).2.2; unfold Money at this; omega
    simp only [buildTx, R_bind_eq_ok]
    obtain ⟨hx, hins⟩ := (approach_ok (l := p.ins)).2 ⟨m, B.appr, rfl, B.impl, rfl⟩
    refine ⟨_, hx, _, hins, (), ?_, _, estimate_ok.2 ⟨by rw [hlen]; exact B.nin, B.nout, rfl⟩, fee, ?_, sel, ?_, (outs', ch), ?_, (), ?_, _, Tx_create_ok.2 ⟨hsell, B.nout', rfl⟩, ?_⟩
    · refine reportAddresses_ok.2 ⟨addr_money_in (hnn m) (by rw [htot]; exact B.in_money), addr_money_out hp.outs_nn ?_, B.dup⟩
      unfold Money at *; omega
    · refine (finalFee_ok hp.cap (by have := B.nin; have := B.nout; omega)).2 ⟨by rw [hlen]; exact B.fee_of, B.fee_money, B.fee_cap⟩
    · refine selectInputs_ok.2 ⟨by rw [htot]; exact B.in_money, ?_, by rw [htot]; unfold Money at *; omega, ?_, by rw [htot]; exact B.covered, ?_, ?_⟩
      · unfold Money at *; omega
      · unfold Money at *; omega
      · rw [B.sel_eq]; congr 1; exact Bool.eq_iff_iff.2 (by simp [eqStr_iff])
      · unfold Money at *; omega
    · refine (handleChange_ok hs hp.idx).2 ?_
      rcases B.outs_eq with h | ⟨a1, c, a3, a4⟩
      · exact .inl h
      · refine .inr ⟨a1, ?_, c, a3, a4, ?_, ?_⟩
        · unfold Money at *; omega
        · rw [a3.total hs]; unfold Money at *; omega
        · unfold Money at *; omega
    · rw [inTotal_eq, inTotal_eq, hq, htot]
      refine (checkSpend_ok ⟨hq1, hq2⟩ B.in_money).2 ⟨B.lim_money, ?_, B.in_ne, B.spend_le, B.lim_ne⟩
      unfold Money at *; omega
    · rw [B.tx_eq]; rfl

theorem create_ok {X : Ext} (hs : ∀ b, (X.sha256 b).length = 32) {a a' : Args} {t : Tx} :
    createTransaction X a = .ok (t, a') ↔
      ∃ p m fee sel outs' ch q, prepare X a = .ok p ∧ Built X p t m fee sel outs' ch q ∧ a' = p.after := by
  simp only [createTransaction, R_bind_eq_ok, R_pure, Except.ok.injEq, Prod.mk.injEq]
  constructor
  · rintro ⟨p, hp, t', ht, rfl, rfl⟩
    obtain ⟨m, fee, sel, outs', ch, q, B⟩ := (buildTx_ok hs (prepare_planOk hs hp)).1 ht
    exact ⟨p, m, fee, sel, outs', ch, q, hp, B, rfl⟩
  · rintro ⟨p, m, fee, sel, outs', ch, q, hp, B, rfl⟩
    exact ⟨p, hp, t, (buildTx_ok hs (prepare_planOk hs hp)).2 ⟨m, fee, sel, outs', ch, q, B⟩, rfl, rfl⟩

end BT
