import Verif.Lemmas.Decide
import Verif.Props.Create

/-!
# When `create_transaction` fails and when it succeeds (C52-C54, C73)
-/

namespace BT
open Spec

variable {X : Ext}

theorem feeRule_feeFor {a : Args} {n m : Nat} {fee : Int} (h : FeeRule X a n m fee) (hn : n ≤ 252) (hm : m ≤ 252) (hf : fee ≤ 2100000000000000) :
    FeeFor X a n m fee := by
  rcases h with h | ⟨h1, v, q, h2, h3, h4, rfl⟩
  · exact .inl h
  · refine .inr ⟨h1, v, q, h2, h3, h4, ?_, ?_⟩
    · rw [estSize_nat] at hf ⊢
      rw [Int.cast_natCast]
      exact feeOf_close h4 (by omega) hf
    · rintro r rfl
      obtain ⟨k, rfl⟩ : ∃ k : Nat, r = k := ⟨r.toNat, by have : (0 : ℤ) ≤ r := by exact_mod_cast h4
                                                         omega⟩
      rw [estSize_nat, Int.cast_natCast] at *
      exact feeOf_whole (by omega) hf

/-! ## C52 -/

/-- **C52**: OutputValueNotCovered is raised only if the offered inputs are worth less than the
designed outputs. -/
theorem C52_outputs_not_covered (hs : ∀ b, (X.sha256 b).length = 32) {a : Args} (h : createTransaction X a = .error .outputValueNotCovered) :
    ∃ ins outs, Request X a ins outs ∧ inTotal ins < outTotal outs := by
  obtain ⟨p, hp, hP, hb⟩ := create_special hs (.inl rfl) h
  obtain ⟨m, _, _, h | ⟨_, _, _, fee, _, _, _, h | h⟩⟩ := buildTx_special hP (.inl rfl) hb
  · simp at h
  · exact ⟨_, _, prepare_request hp, h.2⟩
  · simp at h

/-- **C52**: OutputAndFeeValueNotCovered is raised only if the offered inputs cover the designed
outputs but not the outputs and the fee. -/
theorem C52_fee_not_covered (hs : ∀ b, (X.sha256 b).length = 32) {a : Args} (h : createTransaction X a = .error .outputAndFeeValueNotCovered) :
    ∃ ins outs fee, Request X a ins outs ∧ FeeFor X a ins.length outs.length fee ∧
      outTotal outs ≤ inTotal ins ∧ inTotal ins < outTotal outs + fee := by
  obtain ⟨p, hp, hP, hb⟩ := create_special hs (.inr (.inl rfl)) h
  obtain ⟨m, _, _, h | ⟨_, h1, h2, fee, h3, h4, _, h | h⟩⟩ := buildTx_special hP (.inr (.inl rfl)) hb
  · simp at h
  · simp at h
  · exact ⟨_, _, fee, prepare_request hp, feeRule_feeFor (feeRule_of hp h1 h2 h3) h1 h2 h4.2, h.2⟩

/-- **C52**: a transaction is returned only if the offered inputs cover outputs and fee. -/
theorem C52_covered (hs : ∀ b, (X.sha256 b).length = 32) {a a' : Args} {t : Tx} (h : createTransaction X a = .ok (t, a'))
    {ins : List TxIn} {outs : List TxOut} (R : Request X a ins outs) :
    ∃ fee, t.fee = some fee ∧ FeeFor X a ins.length outs.length fee ∧ outTotal outs + fee ≤ inTotal ins := by
  obtain ⟨ins', outs', ca, m, fee, ch, q, C⟩ := created_of hs h
  obtain ⟨rfl, rfl⟩ := request_unique R C.req
  exact ⟨fee, created_fee hs C, feeRule_feeFor C.fee_rule C.nin C.nout C.fee_money.2, C.covered⟩

/-! ## C53 -/

/-- **C53**: DuplicateOutputAddressError is raised only if duplicates are not allowed and two
designed outputs share an address. -/
theorem C53_duplicate_error (hs : ∀ b, (X.sha256 b).length = 32) {a : Args} (h : createTransaction X a = .error .duplicateOutputAddress) :
    a.allowDup ≠ some (.bool true) ∧ ∃ ins outs, Request X a ins outs ∧ ¬ (outs.map TxOut.address).Nodup := by
  obtain ⟨p, hp, hP, hb⟩ := create_special hs (.inr (.inr rfl)) h
  obtain ⟨m, _, _, h | ⟨_, h1, h2, fee, h3, h4, _, h | h⟩⟩ := buildTx_special hP (.inr (.inr rfl)) hb
  · obtain ⟨_, _, _, _, _, _, s8, _⟩ := prepare_settings hp
    refine ⟨fun hc => ?_, _, _, prepare_request hp, h.2.2⟩
    rw [s8.2 hc] at h
    simp at h
  · simp at h
  · simp at h

/-! ## C73 -/

/-- **C73**: what `create_transaction` does with well-formed arguments, completely: the first
applicable line of the list of outcomes.  (The last two lines leave a gap of two satoshi around
the spending limit, which is computed in floats; at 100% there is no gap.) -/
theorem C73_outcome (hs : ∀ b, (X.sha256 b).length = 32) {a : Args} {ins : List TxIn} {outs : List TxOut} {ca m : Str} {cap : Nat} {pct : ℚ}
    (W : WellFormed X a ins outs ca m cap pct) :
    ∃ fee, FeeFor X a ins.length outs.length fee ∧ 0 ≤ fee ∧ (outTotal outs + fee ≤ 2100000000000000 →
      (a.allowDup ≠ some (.bool true) → ¬ (outs.map TxOut.address).Nodup → createTransaction X a = .error .duplicateOutputAddress) ∧
      ((a.allowDup = some (.bool true) ∨ (outs.map TxOut.address).Nodup) →
        (cap < fee → createTransaction X a = .error .valueError) ∧
        (fee ≤ cap →
          (inTotal ins < outTotal outs → createTransaction X a = .error .outputValueNotCovered) ∧
          (outTotal outs ≤ inTotal ins → inTotal ins < outTotal outs + fee →
            createTransaction X a = .error .outputAndFeeValueNotCovered) ∧
          (outTotal outs + fee ≤ inTotal ins → CanAllocate outs ca a.changeIdx →
            (pct = 100 ∨ outTotal outs + fee ≤ ⌈pct / 100 * inTotal ins⌉ - 1 →
              ∃ t a', createTransaction X a = .ok (t, a') ∧ t.fee = some fee) ∧
            (⌈pct / 100 * inTotal ins⌉ + 1 < outTotal outs + fee → (∀ o ∈ outs, o.address ≠ ca) →
              createTransaction X a = .error .valueError))))) := by
  obtain ⟨p, hp, p1, p2, p3, p4, p5, p6, p7, p8, p9⟩ := wf_prepare hs W
  have hP := prepare_planOk hs hp
  have hR := W.request
  have hn := W.n_in
  have hm : outs.length ≤ 252 := by have := W.n_out; omega
  have hes := estSize_nat ins.length outs.length
  -- the fee
  obtain ⟨fee, hfee, hmon⟩ : ∃ fee, FeeP p.kind (10 + 179 * p.ins.length + 34 * p.outs.length) (.int fee) ∧ Money fee := by
    rcases p9 with ⟨v, n, _, _, h3, h4, h5⟩ | ⟨v, q, _, _, h3, h4, h5⟩
    · exact ⟨n, .inl h5, by unfold Money; omega⟩
    · obtain ⟨_, hq⟩ := goodRate_rateOf h3
      rw [hes, Int.cast_natCast] at h4
      have hb := feeOf_bound hq (by omega) h4
      refine ⟨_, .inr ⟨_, _, h5, ?_, rfl⟩, feeOf_nonneg hq, hb⟩
      have := feeFromRate_total hq (by omega) hb
      rw [p1, p2, ← this]
      congr 1
  have hrule := feeRule_of hp (by rw [p1]; exact hn) (by rw [p2]; exact hm) hfee
  rw [p1, p2] at hrule
  refine ⟨fee, feeRule_feeFor hrule hn hm hmon.2, hmon.1, fun hroom => ?_⟩
  -- totals
  have hi0 := inTotal_nonneg hP.ins_nn
  have ho0 := outTotal_nonneg hP.outs_nn
  rw [p1] at hi0; rw [p2] at ho0
  have hout1 : 0 < outTotal outs := by
    obtain ⟨o, r, hor⟩ : ∃ o r, outs = o :: r := by
      cases h : outs with
      | nil => exact absurd h W.outs_ne
      | cons o r => exact ⟨o, r, rfl⟩
    have h1 := W.outs_pos o (by rw [hor]; simp)
    have h2 := outTotal_nonneg (l := r) fun x hx => (W.outs_pos x (by rw [hor]; simp [hx])).le
    rw [hor, outTotal_cons]; omega
  have hiM : Money (inTotal ins) := ⟨hi0, W.in_money⟩
  have hoM : Money (outTotal outs) := ⟨ho0, W.out_money⟩
  have htM : Money (outTotal outs + fee) := ⟨by have := hmon.1; omega, hroom⟩
  have hcap : vWholeNumber (.int cap) = .ok () := vWholeNumber_int.2 (by omega)
  have hperm := arranged_perm m ins
  have htot := inTotal_perm hperm
  have hlen := hperm.length_eq
  have hnn : ∀ i ∈ arranged m ins, 0 ≤ i.amount := fun i hi => by
    have := hP.ins_nn i (by rw [p1]; exact hperm.mem_iff.1 hi); exact this
  obtain ⟨hx, hins⟩ := (approach_ok (l := ins)).2 ⟨m, rfl, rfl, W.mode_impl, rfl⟩
  have hr1 := addr_money_in hnn (by rw [htot]; exact hiM)
  have hr2 := addr_money_out (l := outs) (fun o ho => (W.outs_pos o ho).le) hoM
  have hest := (estimate_ok (n := (arranged m ins).length) (m := outs.length)).2 ⟨by omega, hm, rfl⟩
  rw [p1, p2, ← hlen] at hfee
  have hsz : 0 < 10 + 179 * ((arranged m ins).length : Int) + 34 * (outs.length : Int) ∧ 10 + 179 * ((arranged m ins).length : Int) + 34 * (outs.length : Int) < 2 ^ 53 := by omega
  -- errors of the second half are errors of the call
  have hcreate : ∀ e, buildTx X p.ins p.outs p.approaches p.kind p.maxFee p.pct p.changeAddress p.allowDup p.changeIdx = .error e →
      createTransaction X a = .error e := by
    intro e he
    simp only [createTransaction, hp, R_bind_ok, he, R_bind_err]
  rw [p1, p2, p3, p4, p5, p6, p8] at hcreate
  have hfe : ∀ b, p.allowDup = b → (b = true ∨ (outs.map TxOut.address).Nodup) → (fee ≤ cap) → ∀ e,
      (do let selected ← selectInputs X.uni (arranged m ins) outs fee (PVal.eqStr (.str m) py"all")
          let (outs', change) ← handleChange X selected outs fee ca (a.changeIdx.getD .none)
          checkSpend X.uni (.fin (rndQ pct)) (((arranged m ins).map TxIn.amount).sum) ((selected.map TxIn.amount).sum) change
          let t ← Tx.create selected outs'
          pure { t with changeAddress := some ca } : R Tx) = .error e → createTransaction X a = .error e := by
    intro b hb hd hle e he
    apply hcreate
    rw [hb]
    have hrep : reportAddresses X.uni (arranged m ins) outs b = .ok () := reportAddresses_ok.2 ⟨hr1, hr2, hd⟩
    have hff := (finalFee_ok (u := X.uni) hcap hsz).2 ⟨hfee, hmon, hle⟩
    simp only [buildTx, hx, hins, R_bind_ok, hrep, hest, hff]
    exact he
  refine ⟨fun hd1 hd2 => hcreate _ ?_, fun hd => ⟨fun hc => hcreate _ ?_, fun hc => ?_⟩⟩
  · have : p.allowDup = false := by
      rw [← Bool.not_eq_true, p7]; exact hd1
    rw [this]
    simp only [buildTx, hx, hins, R_bind_ok, reportAddresses_dup hr1 hr2 hd2, R_bind_err]
  · have hd' : p.allowDup = true ∨ (outs.map TxOut.address).Nodup := by rw [p7]; exact hd
    have hrep : reportAddresses X.uni (arranged m ins) outs p.allowDup = .ok () := reportAddresses_ok.2 ⟨hr1, hr2, hd'⟩
    have hff := finalFee_over (u := X.uni) hcap hsz hfee hmon hc
    simp only [buildTx, hx, hins, R_bind_ok, hrep, hest, hff, R_bind_err]
  have hd' : p.allowDup = true ∨ (outs.map TxOut.address).Nodup := by rw [p7]; exact hd
  have hsel := selectInputs_eq (u := X.uni) (all := PVal.eqStr (.str m) py"all") (by rw [htot]; exact hiM) hoM htM hnn
  refine ⟨fun h1 => hfe _ rfl hd' hc _ ?_, fun h1 h2 => hfe _ rfl hd' hc _ ?_, fun hcov hal => ?_⟩
  · rw [hsel, htot, if_pos h1]; rfl
  · rw [hsel, htot, if_neg (by omega), if_pos h2]; rfl
  -- enough money
  have hm1 := hmon.1
  rw [htot, if_neg (by omega), if_neg (by omega)] at hsel
  have hva : vBitcoinAddress X ca = .ok () := by rw [← p6]; exact (prepare_settings hp).2.1
  set sel := chosen (outTotal outs + fee) (PVal.eqStr (.str m) py"all") (arranged m ins) with hseldef
  have hpre : sel <+: arranged m ins := chosen_prefix ..
  have hselle : inTotal sel ≤ inTotal ins := by rw [← htot]; exact prefix_total hpre hnn
  have hselge : outTotal outs + fee ≤ inTotal sel := chosen_reach (by rw [htot]; exact hcov)
  obtain ⟨pv, hpv, hgood⟩ := W.pct_set
  have hp0 := (goodRate_rateOf hgood).2
  have h100 : rndQ 100 = 100 := by exact_mod_cast rndQ_nat (n := 100) (by norm_num)
  have hq0 := rndQ_nonneg hp0
  have hq100 : rndQ pct ≤ 100 := by rw [← h100]; exact rndQ_mono W.pct_le
  have hl0 := limitOf_nonneg hq0 hi0
  have hl1 := limitOf_mono hi0 hq100
  rw [limitOf_full hiM] at hl1
  have hlM : Money (limitOf (rndQ pct) (inTotal ins)) := ⟨hl0, by have := hiM.2; omega⟩
  have hclose := limitOf_decimal hp0 W.pct_le hiM
  rw [abs_le] at hclose
  constructor
  · intro hlim
    have hlim' : outTotal outs + fee ≤ limitOf (rndQ pct) (inTotal ins) := by
      rcases hlim with rfl | h
      · rw [h100, limitOf_full hiM]; exact hcov
      · omega
    have hall : PVal.eqStr (.str m) py"all" = decide (m = py"all") := Bool.eq_iff_iff.2 (by simp [eqStr_iff])
    obtain ⟨outs', ch, ho, hch0, hch1, hlen'⟩ : ∃ outs' ch, ((inTotal sel = outTotal outs + fee ∧ outs' = outs ∧ ch = 0) ∨
        (inTotal sel ≠ outTotal outs + fee ∧ ∃ c, Changed X outs ca (a.changeIdx.getD .none) (inTotal sel - (outTotal outs + fee)) outs' c ∧ ch = c.satoshi)) ∧
        inTotal sel - (outTotal outs + fee) ≤ ch ∧ ch ≤ outTotal outs + (inTotal sel - (outTotal outs + fee)) ∧ outs'.length ≤ outs.length + 1 := by
      by_cases he : inTotal sel = outTotal outs + fee
      · exact ⟨outs, 0, .inl ⟨he, rfl, rfl⟩, by omega, by omega, by omega⟩
      · obtain ⟨outs', c, h1, h2, h3, h4⟩ := changed_exists hs (s := inTotal sel - (outTotal outs + fee)) hal hva (by omega) (fun o ho => (W.outs_pos o ho).le)
          (by have := hiM.2; omega)
        exact ⟨outs', c.satoshi, .inr ⟨he, c, h1, rfl⟩, h2, h3, h4⟩
    have hB : ∃ t, Built X p t m fee sel outs' ch (rndQ pct) := by
      refine ⟨_, p3, W.mode_impl, by rw [p2]; exact hd', by rw [p1]; exact hn, by rw [p2]; exact hm, ?_, hmon, by rw [p4]; exact hc, by rw [p1]; exact hiM,
        by rw [p1, p2]; exact hcov, by rw [p1, p2, hseldef, hall], by rw [p2, p6, p8]; exact ho, p5, by rw [p1]; exact hlM, by omega, by rw [p1]; omega, by rw [p1]; omega, by rw [p1]; omega, by have := W.n_out; omega, rfl⟩
      rw [p1, p2, ← hlen]; exact hfee
    obtain ⟨t, hB⟩ := hB
    have hok := (create_ok hs).2 ⟨p, m, fee, sel, outs', ch, rndQ pct, hp, hB, rfl⟩
    refine ⟨t, _, hok, ?_⟩
    obtain ⟨fee', g1, g2, g3⟩ := C52_covered hs hok W.request
    have hrow := C45_conservation hs hok
    obtain ⟨f2, _, k1, k2, _⟩ := hrow
    rw [k1]
    congr 1
    rw [hB.tx_eq] at k2
    simp only at k2
    rcases ho with ⟨e1, e2, _⟩ | ⟨_, c, e2, _⟩
    · rw [e2] at k2; omega
    · rw [e2.total hs] at k2; omega
  · intro hlim hno
    refine hfe _ rfl hd' hc _ ?_
    rw [hsel, R_bind_ok]
    have hfil : (outs.filter fun o => o.address = ca) = [] := by
      rw [List.filter_eq_nil_iff]
      intro o ho; simpa using hno o ho
    obtain ⟨outs', ch, hhc, hsp⟩ : ∃ outs' ch, handleChange X sel outs fee ca (a.changeIdx.getD .none) = .ok (outs', ch) ∧ inTotal sel - ch = outTotal outs + fee := by
      have hidx : (a.changeIdx.getD .none).isNone = true ∨ vWholeNumber (a.changeIdx.getD .none) = .ok () := by rw [← p8]; exact hP.idx
      by_cases he : inTotal sel = outTotal outs + fee
      · exact ⟨outs, 0, (handleChange_ok hs hidx).2 (.inl ⟨he, rfl, rfl⟩), by omega⟩
      · obtain ⟨b, hb, hbh⟩ := vBitcoinAddress_hash X hs hva
        have hiM2 := hiM.2
        obtain ⟨k, hk⟩ : ∃ k : Nat, inTotal sel - (outTotal outs + fee) = k := ⟨(inTotal sel - (outTotal outs + fee)).toNat, by omega⟩
        have hcr := (TxOut_create_ok X hs (a := ca) (n := inTotal sel - (outTotal outs + fee)) (o := outOf ca b k)).2 ⟨b, k, hb, hbh, hk, by unfold maxMoney; omega, rfl⟩
        have hCh : Changed X outs ca (a.changeIdx.getD .none) (inTotal sel - (outTotal outs + fee)) (outOf ca b k :: outs) (outOf ca b k) := .inl ⟨hfil, hcr, rfl⟩
        refine ⟨_, _, (handleChange_ok hs hidx).2 (.inr ⟨he, by unfold Money; omega, outOf ca b k, hCh, rfl, ?_, ?_⟩), ?_⟩
        · rw [hCh.total hs]; unfold Money at *; omega
        · unfold Money at *; omega
        · rw [(create_satoshi hs hcr).1]; omega
    rw [hhc, R_bind_ok]
    have hce : checkSpend X.uni (.fin (rndQ pct)) (((arranged m ins).map TxIn.amount).sum) ((sel.map TxIn.amount).sum) ch = .error .valueError := by
      rw [inTotal_eq, inTotal_eq, htot]
      unfold checkSpend
      rw [maxSpend_ok ⟨by linarith, by linarith⟩ hiM, R_bind_ok]
      simp only [s2b_seq, hsp]
      have hsM : Money (outTotal outs + fee) := htM
      have hne : ¬ ((inTotal ins : ℤ) : ℚ) = 0 := by exact_mod_cast (by omega : inTotal ins ≠ 0)
      rw [if_pos hlM, if_pos hsM, money_float hsM, R_bind_ok, money_float hiM, R_bind_ok]
      simp only [PyFloat.div, hne, if_false, R_bind_ok]
      rw [if_neg (by omega)]
      rfl
    show (do checkSpend X.uni (.fin (rndQ pct)) (((arranged m ins).map TxIn.amount).sum) ((sel.map TxIn.amount).sum) ch
             let t ← Tx.create sel outs'
             pure { t with changeAddress := some ca } : R Tx) = _
    rw [hce]; rfl

end BT
