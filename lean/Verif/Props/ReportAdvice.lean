import Verif.Props.ReportErr
import Verif.Lemmas.Repeat

/-!
# C113: the percentage that the spending limit advises
-/

namespace BT
open Spec Report

variable {E : Msg.Env} {X : Ext}

/-! ## float arithmetic -/

theorem rndQ_low {q : ℚ} (h : 0 ≤ q) : q * (1 - 1 / 2 ^ 53) - 1 / 2 ^ 60 ≤ rndQ q := by
  have := (abs_le.1 (rndQ_err_abs h)).1
  linarith

theorem advice_limit {n m : Int} (hn : Money n) (hm : Money m) (hpos : 0 < m) {k : Int}
    (hk : rndQ (rndQ ((n : ℚ) / m) * 100) < k) : n ≤ limitOf k m := by
  have hmq : (0 : ℚ) < m := by exact_mod_cast hpos
  have hnq : (0 : ℚ) ≤ n := by exact_mod_cast hn.1
  have hn1 : (n : ℚ) ≤ 2100000000000000 := by exact_mod_cast hn.2
  have hm1 : (m : ℚ) ≤ 2100000000000000 := by exact_mod_cast hm.2
  set q : ℚ := (n : ℚ) / m with hq
  have hqm : q * m = n := by rw [hq]; field_simp
  have q0 : 0 ≤ q := by positivity
  have a1 := rndQ_low q0
  have a0 := rndQ_nonneg q0
  have b1 := rndQ_low (q := rndQ q * 100) (by positivity)
  have b0 := rndQ_nonneg (q := rndQ q * 100) (by positivity)
  have k0 : (0 : ℚ) ≤ k := by linarith
  have c1 := rndQ_low (q := (k : ℚ) / 100) (by positivity)
  have c0 := rndQ_nonneg (q := (k : ℚ) / 100) (by positivity)
  have d1 := rndQ_low (q := rndQ ((k : ℚ) / 100) * m) (by positivity)
  have hA : (1 - 1 / 2 ^ 53) ^ 3 * q - 3 / 2 ^ 60 ≤ rndQ ((k : ℚ) / 100) := by
    norm_num at a1 b1 c1 ⊢
    linarith
  have hB : ((1 - 1 / 2 ^ 53) ^ 3 * q - 3 / 2 ^ 60) * m ≤ rndQ ((k : ℚ) / 100) * m := mul_le_mul_of_nonneg_right hA hmq.le
  have hC : ((1 - 1 / 2 ^ 53) ^ 3 * q - 3 / 2 ^ 60) * (m : ℚ) = (1 - 1 / 2 ^ 53) ^ 3 * n - 3 / 2 ^ 60 * m := by rw [← hqm]; ring
  rw [hC] at hB
  have hW : (n : ℚ) - 1 < rndQ (rndQ ((k : ℚ) / 100) * m) := by
    norm_num at hB d1 ⊢
    linarith
  unfold limitOf
  by_contra hc
  have : ⌈rndQ (rndQ ((k : ℚ) / 100) * m)⌉ ≤ n - 1 := by omega
  have := Int.ceil_le.1 this
  push_cast at this
  linarith

theorem advice_full {n m : Int} (hn : Money n) (hm : Money m) (hpos : 0 < m) (hle : n ≤ m) :
    ⌊rndQ (rndQ ((n : ℚ) / m) * 100)⌋ + 1 ≤ 101 ∧ (⌊rndQ (rndQ ((n : ℚ) / m) * 100)⌋ + 1 = 101 ↔ n = m) := by
  have hmq : (0 : ℚ) < m := by exact_mod_cast hpos
  have hm1 : (m : ℚ) ≤ 2100000000000000 := by exact_mod_cast hm.2
  have e1 : rndQ 1 = 1 := by exact_mod_cast rndQ_nat (n := 1) (by norm_num)
  have e100 : rndQ 100 = 100 := by exact_mod_cast rndQ_nat (n := 100) (by norm_num)
  rcases hle.lt_or_eq with hlt | rfl
  · have h1 : (n : ℚ) / m ≤ 1 - 1 / 2100000000000000 := by
      have : (n : ℚ) ≤ m - 1 := by exact_mod_cast (by omega : n ≤ m - 1)
      rw [div_le_iff₀ hmq]
      nlinarith
    have h2 := rndQ_mono h1
    have h3 : rndQ (rndQ ((n : ℚ) / m) * 100) ≤ rndQ (rndQ (1 - 1 / 2100000000000000) * 100) := rndQ_mono (by linarith)
    have h4 : rndQ (rndQ (1 - 1 / 2100000000000000) * 100) < 100 := by decide +kernel
    have h5 : ⌊rndQ (rndQ ((n : ℚ) / m) * 100)⌋ < 100 := Int.floor_lt.2 (by push_cast; linarith)
    exact ⟨by omega, fun h => by omega, fun h => by omega⟩
  · have : (n : ℚ) / n = 1 := div_self hmq.ne'
    rw [this, e1, one_mul, e100]
    norm_num

/-! ## the other call -/

/-- The two designs agree but for the percentage. -/
def Agree (d d' : List (Str × PVal)) : Prop := ∀ key, key ≠ py"max_spend_percentage" → dictFind d key = dictFind d' key

theorem Agree.set {d d' : List (Str × PVal)} (h : Agree d d') (k : Str) (v : PVal) : Agree (dictSet d k v) (dictSet d' k v) := by
  intro k' hk'
  by_cases e : k' = k
  · subst e; rw [find_set_eq, find_set_eq]
  · rw [find_set_ne e, find_set_ne e]; exact h k' hk'

theorem agree_rel {u : UniDB} {d d' : List (Str × PVal)} (h : Agree d d') : RelR Agree (adjustDesign u d) (adjustDesign u d') := by
  unfold adjustDesign
  refine RelR.bind (P := Agree) ?_ ?_
  · unfold adjustFee
    rw [← h py"fee" (by decide)]
    split
    · exact RelR.same fun n => h.set _ _
    · exact h
  · intro d1 d1' h1
    have h2 : Agree (adjustFeeRate d1) (adjustFeeRate d1') := by
      unfold adjustFeeRate
      rw [← h1 py"fee_rate" (by decide)]
      split
      · split
        · exact h1.set _ _
        · exact h1
      · exact h1
    unfold adjustMaxFee
    rw [← h2 py"max_fee" (by decide)]
    split
    · exact RelR.same fun n => h2.set _ _
    · exact h2

theorem agree_adjust {u : UniDB} {d d' d1 : List (Str × PVal)} (h : ∀ key, key ≠ py"max_spend_percentage" → dictFind d' key = dictFind d key)
    (hd : adjustDesign u d = .ok d1) :
    ∃ d1', adjustDesign u d' = .ok d1' ∧ ∀ key, key ≠ py"max_spend_percentage" → dictFind d1' key = dictFind d1 key := by
  have := agree_rel (u := u) (d := d) (d' := d') fun key hkey => (h key hkey).symm
  rw [hd] at this
  cases hd' : adjustDesign u d' with
  | error e => rw [hd'] at this; exact this.elim
  | ok d1' => rw [hd'] at this; exact ⟨d1', rfl, fun key hkey => (this key hkey).symm⟩

theorem prepare_percentage {a b : Args} {p : Plan} (hp : BT.prepare X a = .ok p) {k : Int} (hk : 0 ≤ k ∧ k ≤ 100) (h : OtherPercentage a b k) :
    ∃ b', BT.prepare X b = .ok { p with pct := .fin k, after := b' } := by
  obtain ⟨e1, e2, e3, d, d', e4, e5, e6, e7⟩ := h
  obtain ⟨insD, d0, d1, insZ, outsD, outsZ, ca, mf, msp, n, g1, g2, g3, g4, g5, g6, g7, g8, g9, g10, g11, g12, g13, g14, g15, g16, g17, g18, g19, g20, g21, g22, g23, g24, g25, g26, g27⟩ := prepare_ok.1 hp
  rw [e4] at g2; injection g2 with g2; injection g2 with g2; subst g2
  obtain ⟨d1', f1, f2⟩ := agree_adjust e6 g3
  obtain ⟨f3, _⟩ := adjustDesign_ok f1
  have f4 : dictFind d1' py"max_spend_percentage" = some (.int k) := by rw [f3 _ (by decide) (by decide) (by decide)]; exact e7
  have f5 : ∀ key, key ≠ py"max_spend_percentage" → dictOpt d1' key = dictOpt d1 key := fun key hkey => by unfold dictOpt; rw [f2 key hkey]
  have f6 : (PVal.int k).toFloat X.uni = .ok (.fin k) := ofInt_small (by rw [abs_of_nonneg hk.1]; omega)
  have f7 : (PyFloat.fin k).trunc = .ok k := by simp [PyFloat.trunc]
  refine ⟨{ b with inputs := some (.list insZ), design := some (.dict (dictSet d1' py"outputs" (.list outsZ))) }, prepare_ok.2 ?_⟩
  exact ⟨insD, d', d1', insZ, outsD, outsZ, ca, mf, .int k, k, by rw [e1]; exact g1, e5, f1, g4, by rw [f2 _ (by decide)]; exact g5, g6,
    by rw [f2 _ (by decide)]; exact g7, g8, f4, f6, f7, hk.1, hk.2, by rw [f2 _ (by decide)]; exact g14, g15,
    by rw [f5 _ (by decide), f5 _ (by decide)]; exact g16, by rw [f5 _ (by decide)]; exact g17, by rw [e2, e3]; exact g18,
    by rw [f5 _ (by decide), f5 _ (by decide)]; exact g19, g20, g21, by rw [f2 _ (by decide)]; exact g22, g23, g24, by rw [e2]; exact g25,
    by rw [e3]; exact g26, rfl⟩

/-- A refusal for the spending limit, with the number `k` that it advises and what that number does. -/
theorem advice (hs : ∀ b, (X.sha256 b).length = 32) {a : Args} {e : Err} {txt : Str}
    (h : (Report.create E X a).res = .error (e, some txt)) (ht : (py"Spend amount (").isPrefixOf txt = true) :
    ∃ (ins : List TxIn) (outs outs' : List TxOut) (fee ch : Int) (ca : Str) (k : Int) (s : Str), Request X a ins outs ∧ setting a py"change_address" = some (.str ca) ∧
      FeeFor X a ins.length outs.length fee ∧ ChangeIs ca outs outs' ch ∧
      txt = s ++ py" to " ++ pyStr k ++ py"." ∧ 1 ≤ k ∧ k ≤ 101 ∧ outTotal outs' + fee ≤ inTotal ins ∧
      (k = 101 ↔ outTotal outs' + fee - ch = inTotal ins) ∧
      ∀ j b, (j = 100 ∨ k = j) → j ≤ 100 → OtherPercentage a b j → outs'.length ≤ 252 → ∃ t b', createTransaction X b = .ok (t, b') ∧ t.outputs = outs' := by
  obtain ⟨p, hp, hP, hT⟩ := create_text hs h
  obtain ⟨s1, s2, ⟨v', s3, s3'⟩, ⟨v'', s4, s4'⟩, s5, s6, s7, s8⟩ := prepare_settings hp
  cases hT with
  | approach x h1 h2 => exact absurd ht (by rw [Bool.not_eq_true]; rfl)
  | duplicate ad h1 h2 => exact absurd ht (by rw [Bool.not_eq_true]; simp only [List.append_assoc]; rfl)
  | cap fee n1 n2 h1 h2 h3 => exact absurd ht (by rw [Bool.not_eq_true]; simp only [List.append_assoc]; rfl)
  | outputs h1 h2 => exact absurd ht (by rw [Bool.not_eq_true]; rfl)
  | outputsFee fee n1 n2 h1 h2 h3 h4 h5 => exact absurd ht (by rw [Bool.not_eq_true]; rfl)
  | change _ _ h1 h2 =>
    obtain ⟨rfl, ⟨h3, rfl⟩ | ⟨i, h3, h4, h5, rfl⟩⟩ := choosing_text h2
    · exact absurd ht (by rw [Bool.not_eq_true]; simp only [List.append_assoc]; rfl)
    · exact absurd ht (by rw [Bool.not_eq_true]; simp only [List.append_assoc]; rfl)
  | spend m fee sel outs' ch _ _ n1 n2 f1 f2 f3 hap hm hdup hsel hch hsp =>
    obtain ⟨rfl, ms, sF, tF, r, g1, g2, g3, g4, g5, g6, g7, rfl⟩ := spending_text hsp
    obtain ⟨s1', s2', s3', s4', s5', s6', s7'⟩ := selectInputs_ok.1 hsel
    have hperm := arranged_perm m p.ins
    have htot := inTotal_perm hperm
    have hnn : ∀ i ∈ arranged m p.ins, 0 ≤ i.amount := fun i hi => hP.ins_nn i (hperm.mem_iff.1 hi)
    have hpre : sel <+: arranged m p.ins := by rw [s6']; exact chosen_prefix _ _ _
    have hle : inTotal sel ≤ inTotal p.ins := by rw [← htot]; exact prefix_total hpre hnn
    rw [htot] at s1'
    have hreach : outTotal p.outs + fee ≤ inTotal sel := by rw [s6']; exact chosen_reach s5'
    obtain ⟨c1, c2, c3⟩ := changeIs_of hs hP.idx hreach hch
    obtain ⟨a0, v, a1, a2, a3⟩ := advised g3 s1' (by omega) g5 g6 g7
    obtain ⟨b1, b2⟩ := advice_full g3 s1' a0 (by omega)
    rw [← a2] at b1 b2
    have hv0 : 0 ≤ v := by
      rw [a2]
      apply rndQ_nonneg
      have : (0 : ℚ) ≤ ((inTotal sel - ch : Int) : ℚ) / inTotal p.ins :=
        div_nonneg (by exact_mod_cast g3.1) (by exact_mod_cast s1'.1)
      have := rndQ_nonneg this
      positivity
    have hf0 : 0 ≤ ⌊v⌋ := Int.floor_nonneg.2 hv0
    have hspend : outTotal outs' + fee - ch = inTotal sel - ch := by rw [c2]
    rw [a1]
    refine ⟨p.ins, p.outs, outs', fee, ch, p.changeAddress, ⌊v⌋ + 1, _, prepare_request hp, s1, feeRule_feeFor (feeRule_of hp n1 n2 f1) n1 n2 f2.2, c1, rfl,
      by omega, b1, by omega, by rw [hspend]; exact b2, ?_⟩
    intro j b hj hj100 hb hlen
    have hj0 : 0 ≤ j := by omega
    obtain ⟨b', hb'⟩ := prepare_percentage hp ⟨hj0, hj100⟩ hb
    have hlim : inTotal sel - ch ≤ limitOf j (inTotal p.ins) := by
      rcases hj with rfl | rfl
      · have : ((100 : Int) : ℚ) = 100 := by norm_num
        rw [this, limitOf_full s1']
        omega
      · apply advice_limit g3 s1' a0
        rw [← a2]
        exact_mod_cast Int.lt_floor_add_one v
    have hlim2 : limitOf j (inTotal p.ins) ≤ inTotal p.ins := by
      have := limitOf_mono (q := (j : ℚ)) (q' := 100) s1'.1 (by exact_mod_cast hj100)
      rw [limitOf_full s1'] at this
      exact this
    have hmon := s1'.2
    have hms := g2.1
    have eall : ((PVal.str m).eqStr py"all") = decide (m = py"all") := by
      rw [Bool.eq_iff_iff, eqStr_iff]; simp
    have k1 : outTotal p.outs + fee ≤ inTotal p.ins := by omega
    have k2 : Money (limitOf j (inTotal p.ins)) := ⟨by omega, by omega⟩
    have k3 : 0 ≤ inTotal sel - ch := g3.1
    have k4 : inTotal p.ins ≠ 0 := by omega
    have k5 : limitOf j (inTotal p.ins) ≠ 0 := by omega
    refine ⟨_, _, (create_ok hs).2 ⟨_, m, fee, sel, outs', ch, j, hb', ⟨hap, hm, hdup, n1, n2, f1, f2, f3, s1', k1, ?_, ?_, rfl, k2,
      k3, k4, hlim, k5, hlen, rfl⟩, rfl⟩, rfl⟩
    · rw [s6', eall]
    · rcases (handleChange_ok hs hP.idx).1 hch with h | ⟨h1, _, c, h2, h3, _⟩
      · exact .inl h
      · exact .inr ⟨h1, c, h2, h3⟩

/-- C113, what holds: the refusal advises a percentage from 1 to 101 and, unless it is 101, the same call with this
percentage returns a transaction (if this has at most 252 outputs); and the call with 100 percent returns it in any case. -/
theorem C113_advice_partial (hs : ∀ b, (X.sha256 b).length = 32) {a : Args} {e : Err} {txt : Str}
    (h : (Report.create E X a).res = .error (e, some txt)) (ht : (py"Spend amount (").isPrefixOf txt = true) :
    ∃ (k : Int) (s : Str) (outs' : List TxOut), txt = s ++ py" to " ++ pyStr k ++ py"." ∧ 1 ≤ k ∧ k ≤ 101 ∧
      (∃ ins outs fee ca ch, Request X a ins outs ∧ setting a py"change_address" = some (.str ca) ∧ FeeFor X a ins.length outs.length fee ∧
        ChangeIs ca outs outs' ch) ∧
      (outs'.length ≤ 252 →
        (∀ b, k ≠ 101 → OtherPercentage a b k → ∃ t b', createTransaction X b = .ok (t, b') ∧ t.outputs = outs') ∧
        ∀ b, OtherPercentage a b 100 → ∃ t b', createTransaction X b = .ok (t, b') ∧ t.outputs = outs') := by
  obtain ⟨ins, outs, outs', fee, ch, ca, k, s, h1, h2, h3, h4, h5, h6, h7, h8, h9, h10⟩ := advice hs h ht
  exact ⟨k, s, outs', h5, h6, h7, ⟨ins, outs, fee, ca, ch, h1, h2, h3, h4⟩, fun hl =>
    ⟨fun b hk hb => h10 k b (.inr rfl) (by omega) hb hl, fun b hb => h10 100 b (.inl rfl) le_rfl hb hl⟩⟩

/-- C113, violated: when the call would spend all of its inputs, the refusal advises 101 percent, and no call with 101 percent
returns a transaction. -/
theorem C113_beyond_violation (hs : ∀ b, (X.sha256 b).length = 32) {a : Args} {e : Err} {txt : Str}
    (h : (Report.create E X a).res = .error (e, some txt)) (ht : (py"Spend amount (").isPrefixOf txt = true)
    {ins : List TxIn} {outs : List TxOut} (hr : Request X a ins outs) {fee : Int} {v : PVal} (hv : setting a py"fee" = some v)
    (hf : NumberOf X.uni v fee) (h0 : fee ≠ 0) (hall : inTotal ins = outTotal outs + fee) :
    (∃ s, txt = s ++ py" to 101.") ∧ ∀ b, OtherPercentage a b 101 → ∀ r, createTransaction X b ≠ .ok r := by
  constructor
  · obtain ⟨ins', outs0, outs', fee', ch, ca, k, s, h1, h2, h3, h4, h5, h6, h7, h8, h9, h10⟩ := advice hs h ht
    obtain ⟨rfl, rfl⟩ := request_unique h1 hr
    have hfee : fee' = fee := by
      rcases h3 with ⟨w, w1, w2, _⟩ | ⟨w1, _⟩
      · rw [hv] at w1; injection w1 with w1; subst w1
        rcases hf with rfl | ⟨s, rfl, hf⟩
        · rcases w2 with w2 | ⟨s, w2, _⟩
          · injection w2 with w2; exact w2.symm
          · cases w2
        · rcases w2 with w2 | ⟨s', w2, w3⟩
          · cases w2
          · injection w2 with w2; subst w2
            rw [hf] at w3; injection w3 with w3; exact w3.symm
      · exact absurd (w1 v fee hv hf) h0
    subst hfee
    have hsp : outTotal outs' + fee' - ch = inTotal ins := by
      rcases h4 with ⟨rfl, rfl⟩ | ⟨pre, o, post, rfl, _, rfl, ⟨rfl, rfl⟩ | ⟨o0, rfl, _, ho⟩⟩
      · omega
      · rw [List.nil_append, outTotal_cons]; omega
      · rw [outTotal_append, outTotal_cons] at hall h8
        omega
    have hk := h9.2 hsp
    subst hk
    exact ⟨s, by rw [h5]; simp only [List.append_assoc]; rfl⟩
  · rintro b ⟨e1, e2, e3, d, d', e4, e5, e6, e7⟩ ⟨t, b'⟩ hb
    obtain ⟨p, m, fee, sel, outs', ch, q, hp, _⟩ := (create_ok hs).1 hb
    obtain ⟨insD, d0, d1, insZ, outsD, outsZ, ca, mf, msp, n, g1, g2, g3, g4, g5, g6, g7, g8, g9, g10, g11, g12, g13, _⟩ := prepare_ok.1 hp
    rw [e5] at g2; injection g2 with g2; injection g2 with g2; subst g2
    obtain ⟨f3, _⟩ := adjustDesign_ok g3
    rw [f3 _ (by decide) (by decide) (by decide), e7] at g9
    injection g9 with g9; subst g9
    have f6 : (PVal.int 101).toFloat X.uni = .ok (.fin ((101 : Int) : ℚ)) := ofInt_small (by norm_num)
    rw [f6] at g10
    injection g10 with g10
    rw [← g10] at g11
    simp [PyFloat.trunc] at g11
    have : ⌊(101 : ℚ)⌋ = 101 := by norm_num
    norm_num at g11
    omega

end BT
