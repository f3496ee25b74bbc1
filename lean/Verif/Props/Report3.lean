import Verif.Props.Report2
import Verif.Lemmas.FeeRate
import Verif.Lemmas.Decimal
import Verif.Lemmas.WellFormed

/-!
# C111: limits, percentages and rates in the report
-/

namespace BT
open Spec Report

variable {E : Msg.Env} {X : Ext}

/-! ## numbers with decimal places -/

theorem places_of {u : UniDB} {k : Nat} (hk : 0 < k) {v : ℚ} (hv : 0 ≤ v) :
    ∃ w, Places u k (fmtFloat k (.fin v)) w ∧ |w - v| ≤ 1 / 2 / 10 ^ k := by
  obtain ⟨ip, fp, h1, h2, h3, h4, h5, _⟩ := fmtFixed_form hk v
  have e : fmtFloat k (.fin v) = fmtFixed k v := by
    unfold fmtFloat
    simp only
    rw [if_neg (not_lt.2 hv), if_neg (by omega)]
  refine ⟨_, ⟨ip, fp, e.trans h1, h2, h3, fun c hc => isDig_iff.1 (h4 c hc), rfl⟩, ?_⟩
  rw [h5 u]
  have hp : (0 : ℚ) < 10 ^ k := by positivity
  have hn : 0 ≤ rhe (v * 10 ^ k) := by
    have h0 : (0 : ℚ) ≤ v * 10 ^ k := by positivity
    have := rhe_mono h0
    have e0 : rhe 0 = 0 := by exact_mod_cast rhe_int 0
    omega
  have hc : (((rhe (v * 10 ^ k)).toNat : ℕ) : ℚ) = (rhe (v * 10 ^ k) : ℚ) := by
    exact_mod_cast Int.toNat_of_nonneg hn
  rw [hc]
  have g1 := rhe_le (v * 10 ^ k)
  have g2 := rhe_ge (v * 10 ^ k)
  rw [show (rhe (v * 10 ^ k) : ℚ) / 10 ^ k - v = ((rhe (v * 10 ^ k) : ℚ) - v * 10 ^ k) / 10 ^ k by field_simp]
  rw [abs_div, abs_of_pos hp]
  apply div_le_div_of_nonneg_right _ hp.le
  rw [abs_le]
  constructor <;> linarith

theorem percent_of {q : ℚ} (h0 : 0 ≤ q) (h1 : q ≤ 1) :
    ∃ v, (rnd64 q).mul (.fin 100) = .fin v ∧ 0 ≤ v ∧ |v - 100 * q| ≤ 1 / 10 ^ 7 := by
  have e1 : rndQ 1 = 1 := by exact_mod_cast rndQ_nat (n := 1) (by norm_num)
  have e100 : rndQ 100 = 100 := by exact_mod_cast rndQ_nat (n := 100) (by norm_num)
  have a0 := rndQ_nonneg h0
  have a1 : rndQ q ≤ 1 := by rw [← e1]; exact rndQ_mono h1
  have b0 : 0 ≤ rndQ q * 100 := by positivity
  have b1 : rndQ (rndQ q * 100) ≤ 100 := (rndQ_mono (by linarith : rndQ q * 100 ≤ 100)).trans e100.le
  have f1 : rnd64 q = .fin (rndQ q) := rnd64_fin (lt_of_le_of_lt (abs_le.2 ⟨by linarith, a1⟩) (by decide +kernel))
  have f2 : rnd64 (rndQ q * 100) = .fin (rndQ (rndQ q * 100)) :=
    rnd64_fin (lt_of_le_of_lt (abs_le.2 ⟨by linarith [rndQ_nonneg b0], b1⟩) (by decide +kernel))
  refine ⟨rndQ (rndQ q * 100), ?_, rndQ_nonneg b0, ?_⟩
  · rw [f1]; exact f2
  · have g1 := rndQ_err_abs h0
    have g2 := rndQ_err_abs b0
    have k1 : q / 2 ^ 53 + 1 / 2 ^ 60 ≤ (1 : ℚ) / 10 ^ 15 := by
      have : q / 2 ^ 53 ≤ 1 / 2 ^ 53 := by gcongr
      have : (1 : ℚ) / 2 ^ 53 + 1 / 2 ^ 60 ≤ 1 / 10 ^ 15 := by norm_num
      linarith
    have k2 : rndQ q * 100 / 2 ^ 53 + 1 / 2 ^ 60 ≤ (1 : ℚ) / 10 ^ 13 := by
      have : rndQ q * 100 / 2 ^ 53 ≤ 100 / 2 ^ 53 := by gcongr; linarith
      have : (100 : ℚ) / 2 ^ 53 + 1 / 2 ^ 60 ≤ 1 / 10 ^ 13 := by norm_num
      linarith
    have g1' := abs_le.1 (g1.trans k1)
    have g2' := abs_le.1 (g2.trans k2)
    rw [abs_le]
    have n1 : (1 : ℚ) / 10 ^ 15 * 100 + 1 / 10 ^ 13 ≤ 1 / 10 ^ 7 := by norm_num
    constructor <;> linarith [g1'.1, g1'.2, g2'.1, g2'.2]

theorem ratio_of {n m : Int} (hn : Money n) (hm : Money m) (h : n ≤ m) {s t r : PyFloat} (h1 : PyFloat.ofInt n = .ok s)
    (h2 : PyFloat.ofInt m = .ok t) (h3 : s.div t = .ok r) {u : UniDB} :
    0 < m ∧ ∃ w, Places u 2 (fmtFloat 2 (r.mul (.fin 100))) w ∧ |w - 100 * ((n : ℚ) / m)| ≤ 0.0051 := by
  rw [money_float hn] at h1
  rw [money_float hm] at h2
  injection h1 with h1; subst h1
  injection h2 with h2; subst h2
  by_cases h0 : m = 0
  · subst h0; simp [PyFloat.div] at h3
  have hpos : 0 < m := lt_of_le_of_ne hm.1 (Ne.symm h0)
  have hq : ¬ (m : ℚ) = 0 := by exact_mod_cast h0
  simp only [PyFloat.div, hq, if_false, Except.ok.injEq] at h3
  subst h3
  have hmq : (0 : ℚ) < m := by exact_mod_cast hpos
  have hnq : (0 : ℚ) ≤ n := by exact_mod_cast hn.1
  have hle : (n : ℚ) ≤ m := by exact_mod_cast h
  obtain ⟨v, hv, hv0, he⟩ := percent_of (q := (n : ℚ) / m) (by positivity) (by rw [div_le_one hmq]; exact hle)
  rw [hv]
  obtain ⟨w, hw, hwe⟩ := places_of (u := u) (k := 2) (by omega) hv0
  refine ⟨hpos, w, hw, ?_⟩
  rw [abs_le] at *
  norm_num at *
  constructor <;> linarith [he.1, he.2, hwe.1, hwe.2]

section
variable {a a' : Args} {t : Tx} {log : List Str}

/-- C111: "Maximum fee: " is the maximum fee of the design, and the fee of the returned transaction is not above it. -/
theorem C111_max_fee (hs : ∀ b, (X.sha256 b).length = 32) (h : Report.create E X a = ⟨log, .ok (t, a')⟩) {v : PVal} {cap : Int}
    (hv : setting a py"max_fee" = some v) (hc : NumberOf X.uni v cap) :
    Tells log py"Maximum fee: " (pyStr cap ++ py" satoshi") ∧ inTotal t.inputs - outTotal t.outputs ≤ cap := by
  obtain ⟨p, x, ins', fee, ch, k, rate, ms, r1, r2, l2, F⟩ := facts hs h
  obtain ⟨_, _, ⟨v', hv', hA⟩, _⟩ := prepare_settings F.prep
  rw [hv] at hv'; injection hv' with hv'; subst hv'
  have hmax : p.maxFee = .int cap := by
    rcases hc with rfl | ⟨s, rfl, hs'⟩
    · rcases hA with ⟨s, n, h1, _⟩ | ⟨_, h1⟩
      · simp at h1
      · simpa using h1
    · rcases hA with ⟨s', n, h1, h2, h3⟩ | ⟨h1, _⟩
      · injection h1 with h1; injection h1 with h1; subst h1
        rw [hs'] at h2; injection h2 with h2; subst h2
        simpa using h3
      · exact absurd rfl (h1 s)
  constructor
  · unfold Tells
    have hq : Label py"Maximum fee: " := ⟨_, _, rfl, by decide, by decide⟩
    rw [F.lines _ hq (fun _ => rfl) (fun _ => rfl),
      about_surplus hq (fun _ => rfl) (fun _ => rfl) (fun _ => rfl) (fun _ => rfl) (fun _ => rfl)]
    unfold feeLog selectLog
    rw [hmax]
    cases p.kind <;> (repeat' split) <;> rfl
  · have e : inTotal t.inputs - outTotal t.outputs = fee := by rw [F.fee_eq]; omega
    have hsz := F.build.size
    rw [F.perm.length_eq] at hsz
    obtain ⟨g1, g2, g3⟩ := estimate_ok.1 hsz
    have := (finalFee_ok F.ok.cap (by rw [g3]; constructor <;> omega)).1 F.build.fee_ok
    rw [e]
    have h3 := this.2.2
    rw [hmax] at h3
    exact h3

/-- C111: "Maximum spend amount: " is the given percentage of the value of all offered inputs, rounded up, give or take one
satoshi, and the reported "Spend amount: " is not above it. -/
theorem C111_max_spend (hs : ∀ b, (X.sha256 b).length = 32) (h : Report.create E X a = ⟨log, .ok (t, a')⟩)
    {ins : List TxIn} {outs : List TxOut} (hr : Request X a ins outs) {v : PVal} {pct : ℚ}
    (hv : setting a py"max_spend_percentage" = some v) (hp : GoodRate X.uni v pct) (h100 : pct ≤ 100) :
    ∃ lim spend, Reports X.uni log py"Maximum spend amount: " lim ∧ Reports X.uni log py"Spend amount: " spend ∧ spend ≤ lim ∧
      |lim - ⌈pct / 100 * inTotal ins⌉| ≤ 1 ∧ (pct = 100 → lim = inTotal ins) := by
  obtain ⟨p, x, ins', fee, ch, k, rate, ms, r1, r2, l2, F⟩ := facts hs h
  obtain ⟨rfl, rfl⟩ := request_unique F.req hr
  obtain ⟨m1, m2, m3, m5, m4, m6, m7⟩ := spent_money F
  obtain ⟨_, _, _, ⟨v', hv', hA⟩, _⟩ := prepare_settings F.prep
  rw [hv] at hv'; injection hv' with hv'; subst hv'
  have hfl := goodRate_float hp h100
  rw [hfl] at hA
  injection hA with hA
  have hp0 := (goodRate_rateOf hp).2
  have e100 : rndQ 100 = 100 := by exact_mod_cast rndQ_nat (n := 100) (by norm_num)
  have hlim := F.build.lim
  have hb : rndQ pct ≤ 100 := by rw [← e100]; exact rndQ_mono h100
  have hb0 := rndQ_nonneg hp0
  rw [← hA, inTotal_perm F.perm, maxSpend_ok ⟨by linarith, by linarith⟩ m1] at hlim
  injection hlim with hlim
  refine ⟨ms, inTotal t.inputs - ch, ⟨_, amount_of F.build.money.1, ?_⟩, ⟨_, amount_of F.build.money.2.1, ?_⟩, F.build.money.2.2, ?_, ?_⟩
  · have hq : Label py"Maximum spend amount: " := ⟨_, _, rfl, by decide, by decide⟩
    rw [F.lines _ hq (fun _ => rfl) (fun _ => rfl),
      about_surplus hq (fun _ => rfl) (fun _ => rfl) (fun _ => rfl) (fun _ => rfl) (fun _ => rfl)]
    unfold feeLog selectLog
    cases p.kind <;> (repeat' split) <;> rfl
  · have hq : Label py"Spend amount: " := ⟨_, _, rfl, by decide, by decide⟩
    rw [F.lines _ hq (fun _ => rfl) (fun _ => rfl),
      about_surplus hq (fun _ => rfl) (fun _ => rfl) (fun _ => rfl) (fun _ => rfl) (fun _ => rfl)]
    unfold feeLog selectLog
    cases p.kind <;> (repeat' split) <;> rfl
  · rw [← hlim]
    exact limitOf_decimal hp0 h100 m1
  · rintro rfl
    rw [← hlim, e100]
    exact limitOf_full m1

/-- C111: the two lines "The spend amount is " give the spend amount in percent of the value of all offered inputs and in
percent of the reported maximum, with two places and an error of at most 0.0051. -/
theorem C111_percentages (hs : ∀ b, (X.sha256 b).length = 32) (h : Report.create E X a = ⟨log, .ok (t, a')⟩)
    {ins : List TxIn} {outs : List TxOut} (hr : Request X a ins outs) :
    ∃ (lim spend : Int) (s1 s2 : Str) (w1 w2 : ℚ), Reports X.uni log py"Maximum spend amount: " lim ∧ Reports X.uni log py"Spend amount: " spend ∧
      0 < inTotal ins ∧ 0 < lim ∧ Places X.uni 2 s1 w1 ∧ |w1 - 100 * ((spend : ℚ) / inTotal ins)| ≤ 0.0051 ∧
      Places X.uni 2 s2 w2 ∧ |w2 - 100 * ((spend : ℚ) / lim)| ≤ 0.0051 ∧
      about py"The spend amount is " log = [py"The spend amount is " ++ s1 ++ py"% of the available input value.",
        py"The spend amount is " ++ s2 ++ py"% of the maximum permitted spend amount."] := by
  obtain ⟨p, x, ins', fee, ch, k, rate, ms, r1, r2, l2, F⟩ := facts hs h
  obtain ⟨rfl, rfl⟩ := request_unique F.req hr
  obtain ⟨m1, m2, m3, m5, m4, m6, m7⟩ := spent_money F
  obtain ⟨s, t', m, c1, c2, c3, c4, c5⟩ := F.build.pct_ok
  have hch : 0 ≤ ch := by
    rcases (handleChange_ok hs F.ok.idx).1 F.build.chg with ⟨_, _, rfl⟩ | ⟨_, _, c, e2, rfl, _⟩
    · exact le_rfl
    · exact (e2.address hs).2.2.1
  rw [inTotal_perm F.perm] at c2
  obtain ⟨p1, w1, q1, q2⟩ := ratio_of (u := X.uni) F.build.money.2.1 m1 (by omega) c1 c2 c4
  obtain ⟨p2, w2, q3, q4⟩ := ratio_of (u := X.uni) F.build.money.2.1 F.build.money.1 F.build.money.2.2 c1 c3 c5
  refine ⟨ms, inTotal t.inputs - ch, _, _, w1, w2, ⟨_, amount_of F.build.money.1, ?_⟩, ⟨_, amount_of F.build.money.2.1, ?_⟩,
    p1, p2, q1, q2, q3, q4, ?_⟩
  · have hq : Label py"Maximum spend amount: " := ⟨_, _, rfl, by decide, by decide⟩
    rw [F.lines _ hq (fun _ => rfl) (fun _ => rfl),
      about_surplus hq (fun _ => rfl) (fun _ => rfl) (fun _ => rfl) (fun _ => rfl) (fun _ => rfl)]
    unfold feeLog selectLog
    cases p.kind <;> (repeat' split) <;> rfl
  · have hq : Label py"Spend amount: " := ⟨_, _, rfl, by decide, by decide⟩
    rw [F.lines _ hq (fun _ => rfl) (fun _ => rfl),
      about_surplus hq (fun _ => rfl) (fun _ => rfl) (fun _ => rfl) (fun _ => rfl) (fun _ => rfl)]
    unfold feeLog selectLog
    cases p.kind <;> (repeat' split) <;> rfl
  · have hq : Label py"The spend amount is " := ⟨_, _, rfl, by decide, by decide⟩
    rw [F.lines _ hq (fun _ => rfl) (fun _ => rfl),
      about_surplus hq (fun _ => rfl) (fun _ => rfl) (fun _ => rfl) (fun _ => rfl) (fun _ => rfl)]
    unfold feeLog selectLog
    cases p.kind <;> (repeat' split) <;> rfl

/-- C111: for a design with an explicit fee, "Estimated fee rate: " is the fee divided by the estimated size, with four places
and an error of at most 0.000051 (and one part in 2^53). -/
theorem C111_fee_rate (hs : ∀ b, (X.sha256 b).length = 32) (h : Report.create E X a = ⟨log, .ok (t, a')⟩)
    {ins : List TxIn} {outs : List TxOut} (hr : Request X a ins outs) {v : PVal} {fee : Int} (hv : setting a py"fee" = some v)
    (hn : NumberOf X.uni v fee) (h0 : fee ≠ 0) :
    ∃ (s : Str) (w : ℚ), Tells log py"Estimated fee rate: " (s ++ py" satoshi/byte") ∧ Places X.uni 4 s w ∧
      |w - (fee : ℚ) / estSize ins.length outs.length| ≤ 0.000051 + (fee : ℚ) / estSize ins.length outs.length / 2 ^ 53 := by
  obtain ⟨p, x, ins', fee', ch, k, rate, ms, r1, r2, l2, F⟩ := facts hs h
  obtain ⟨rfl, rfl⟩ := request_unique F.req hr
  obtain ⟨_, _, _, _, _, hk, _⟩ := prepare_settings F.prep
  have hkind : p.kind = .inl (.int fee) := by
    rcases hk with ⟨v1, v0, g1, _, _, g2, g3⟩ | ⟨_, _, _, _, _, _, g⟩
    · rw [hv] at g2; injection g2 with g2; subst g2
      rw [g1]
      rcases hn with rfl | ⟨s, rfl, hs'⟩
      · rcases g3 with ⟨s, n, h1, _⟩ | ⟨_, h1⟩
        · simp at h1
        · injection h1 with h1; rw [h1]
      · rcases g3 with ⟨s', n, h1, h2, h3⟩ | ⟨h1, _⟩
        · injection h1 with h1; injection h1 with h1; subst h1
          rw [hs'] at h2; injection h2 with h2; subst h2
          injection h3 with h3; rw [h3]
        · exact absurd rfl (h1 s)
    · exact absurd (g v fee hv hn) h0
  have hsz := F.build.size
  rw [F.perm.length_eq] at hsz
  obtain ⟨g1, g2, g3⟩ := estimate_ok.1 hsz
  obtain ⟨f1, f2, f3⟩ := (finalFee_ok F.ok.cap (by rw [g3]; constructor <;> omega)).1 F.build.fee_ok
  have hfee : fee' = fee := by
    rw [hkind] at f1
    rcases f1 with f1 | ⟨_, _, f1, _⟩
    · injection f1 with f1; injection f1 with f1; exact f1.symm
    · cases f1
  subst hfee
  obtain ⟨f, s, c1, c2, c3⟩ := F.build.rate_ok
  rw [money_float f2] at c1
  injection c1 with c1; subst c1
  have hs53 : |estSize p.ins.length p.outs.length| ≤ 2 ^ 53 := by
    rw [g3, abs_of_nonneg (by omega)]; omega
  rw [ofInt_small hs53] at c2
  injection c2 with c2; subst c2
  have hpos : (0 : ℚ) < estSize p.ins.length p.outs.length := by
    have : 0 < estSize p.ins.length p.outs.length := by rw [g3]; omega
    exact_mod_cast this
  simp only [PyFloat.div, hpos.ne', if_false, Except.ok.injEq] at c3
  have hfq : (0 : ℚ) ≤ fee' := by exact_mod_cast f2.1
  set q : ℚ := (fee' : ℚ) / estSize p.ins.length p.outs.length with hq
  have hq0 : 0 ≤ q := by positivity
  have hqb : q ≤ 2 ^ 53 := by
    rw [hq, div_le_iff₀ hpos]
    have b1 : (fee' : ℚ) ≤ 2100000000000000 := by exact_mod_cast f2.2
    have b2 : (1 : ℚ) ≤ estSize p.ins.length p.outs.length := by
      have : 1 ≤ estSize p.ins.length p.outs.length := by rw [g3]; omega
      exact_mod_cast this
    nlinarith
  have e53 : rndQ (2 ^ 53) = 2 ^ 53 := by exact_mod_cast rndQ_nat (n := 2 ^ 53) (by norm_num)
  have hr0 := rndQ_nonneg hq0
  have hr1 : rndQ q ≤ 2 ^ 53 := (rndQ_mono hqb).trans e53.le
  have f : rnd64 q = .fin (rndQ q) := rnd64_fin (lt_of_le_of_lt (abs_le.2 ⟨by linarith, hr1⟩) (by decide +kernel))
  rw [f] at c3
  subst c3
  obtain ⟨w, hw, hwe⟩ := places_of (u := X.uni) (k := 4) (by omega) hr0
  refine ⟨_, w, ?_, hw, ?_⟩
  · unfold Tells
    have hq : Label py"Estimated fee rate: " := ⟨_, _, rfl, by decide, by decide⟩
    rw [F.lines _ hq (fun _ => rfl) (fun _ => rfl),
      about_surplus hq (fun _ => rfl) (fun _ => rfl) (fun _ => rfl) (fun _ => rfl) (fun _ => rfl)]
    unfold feeLog selectLog
    rw [hkind]
    by_cases d1 : inTotal p.ins = outTotal p.outs + fee'
    · rw [if_pos d1]
      by_cases d2 : inTotal t.inputs = outTotal p.outs + fee'
      · rw [if_pos d2]; rfl
      · rw [if_neg d2]; rfl
    · rw [if_neg d1]
      by_cases d2 : inTotal t.inputs = outTotal p.outs + fee'
      · rw [if_pos d2]; rfl
      · rw [if_neg d2]; rfl
  · have := rndQ_err_abs hq0
    rw [abs_le] at *
    have n1 : (1 : ℚ) / 2 / 10 ^ 4 + 1 / 2 ^ 60 ≤ 0.000051 := by norm_num
    constructor <;> linarith [this.1, this.2, hwe.1, hwe.2]

end

end BT
