import Verif.Props.Report3
import Verif.Props.CreateErr
import Verif.Lemmas.ReportQuiet

/-!
# C112: the texts of the refusals of `create_transaction`
-/

namespace BT
open Spec Report

variable {E : Msg.Env} {X : Ext}

theorem adjusted_cap {u : UniDB} {v w : PVal} {cap : Int} (hA : Adjusted u (some v) (some w)) (hc : NumberOf u v cap) : w = .int cap := by
  rcases hc with rfl | ⟨s, rfl, hs'⟩
  · rcases hA with ⟨s, n, h1, _⟩ | ⟨_, h1⟩
    · simp at h1
    · simpa using h1
  · rcases hA with ⟨s', n, h1, h2, h3⟩ | ⟨h1, _⟩
    · injection h1 with h1; injection h1 with h1; subst h1
      rw [hs'] at h2; injection h2 with h2; subst h2
      simpa using h3
    · exact absurd rfl (h1 s)

theorem str_int (n : Int) : str E (.int n) = pyStr n := by
  unfold str; rfl

theorem count_filter (l : List TxOut) (ad : Str) : (l.map TxOut.address).count ad = (l.filter fun o => o.address = ad).length := by
  induction l with
  | nil => rfl
  | cons x xs ih =>
    rw [List.map_cons, List.count_cons, List.filter_cons, ih]
    by_cases h : x.address = ad <;> simp [h]

/-- the approach that is not implemented -/
theorem approach_text {a : Args} {p : Plan} (hp : BT.prepare X a = .ok p) {x : PVal} (h1 : firstApproach p.approaches = .ok x)
    (h2 : sortInputs x p.ins = .error .notImplementedError) :
    ∃ m, x = .str m ∧ setting a py"input_selection_approaches" = some (.list [.str m]) ∧
      m ∈ [py"any_address", py"one_address_at_a_time", py"largest_address_first", py"smallest_address_first"] := by
  obtain ⟨insD, d, d1, insZ, outsD, outsZ, ca, mf, msp, n, g1, g2, g3, g4, g5, g6, g7, g8, g9, g10, g11, g12, g13, g14, g15, g16, g17, g18, g19, g20, g21, g22, g23, g24, g25, g26, g27⟩ := prepare_ok.1 hp
  obtain ⟨a1, _⟩ := adjustDesign_ok g3
  rw [a1 _ (by decide) (by decide) (by decide)] at g22
  unfold dictOpt at g17
  rw [a1 _ (by decide) (by decide) (by decide)] at g17
  rw [← setting_eq g2] at g17 g22
  cases hset : setting a py"input_selection_approaches" with
  | none =>
    rw [hset] at g22
    rw [g22] at h1
    simp [firstApproach] at h1
    subst h1
    simp [sortInputs, PVal.eqStr] at h2
  | some v =>
    rw [hset] at g17 g22
    simp only [Option.getD_some] at g17 g22
    rw [g22] at h1
    have key : ∀ y, v = .list [y] → ∃ m, y = .str m ∧ m ∈ availableApproaches := by
      rintro y rfl
      simp only [validateApproaches, PVal.truthy, vList, R_bind_ok] at g17
      simp only [List.isEmpty_cons, Bool.not_false, if_true] at g17
      by_cases hav : (([y] : List PVal).all fun x => availableApproaches.any fun s => x.eqStr s) = true
      · simp only [List.all_cons, List.all_nil, Bool.and_true, List.any_eq_true] at hav
        obtain ⟨m, hm, hy⟩ := hav
        exact ⟨m, eqStr_iff.1 hy, hm⟩
      · rw [Bool.not_eq_true] at hav
        rw [hav] at g17
        simp at g17
    have fin : ∀ m, m ∈ availableApproaches → sortInputs (.str m) p.ins = .error .notImplementedError →
        m ∈ [py"any_address", py"one_address_at_a_time", py"largest_address_first", py"smallest_address_first"] := by
      intro m hm hsort
      simp only [availableApproaches, List.mem_cons, List.not_mem_nil, or_false] at hm
      rcases hm with rfl | rfl | rfl | rfl | rfl | rfl | rfl
      · simp [sortInputs, PVal.eqStr] at hsort
      · simp [sortInputs, PVal.eqStr] at hsort
      · simp [sortInputs, PVal.eqStr] at hsort
      all_goals simp
    cases v with
    | list l =>
      match l, h1, key with
      | [], h1, _ => simp [firstApproach] at h1
      | [y], h1, key =>
        simp only [firstApproach, List.length_cons, List.length_nil] at h1
        simp at h1
        subst h1
        obtain ⟨m, rfl, hm⟩ := key y rfl
        exact ⟨m, rfl, rfl, fin m hm h2⟩
      | _ :: _ :: _, h1, _ => simp [firstApproach] at h1
    | str s =>
      exfalso
      cases s with
      | nil => simp [firstApproach] at h1
      | cons c r => simp [validateApproaches, PVal.truthy, vList] at g17
    | dict d =>
      exfalso
      simp only [firstApproach] at h1
      split at h1 <;> simp at h1
    | _ => simp [firstApproach] at h1

theorem fmt0 {v : ℚ} (hv : 0 ≤ v) : ∃ n : Int, fmtFloat 0 (.fin v) = pyStr n ∧ |(n : ℚ) - v| ≤ 1 / 2 := by
  have hn : 0 ≤ rhe v := by
    have := rhe_mono hv
    have e0 : rhe 0 = 0 := by exact_mod_cast rhe_int 0
    omega
  refine ⟨rhe v, ?_, ?_⟩
  · unfold fmtFloat
    simp only
    rw [if_neg (not_lt.2 hv)]
    obtain ⟨k, hk⟩ : ∃ k : Nat, rhe v = k := ⟨(rhe v).toNat, by omega⟩
    rw [hk, pyStr_nat]
    simp
  · have g1 := rhe_le v
    have g2 := rhe_ge v
    rw [abs_le]
    constructor <;> linarith

theorem changeIs_of (hs : ∀ b, (X.sha256 b).length = 32) {sel : List TxIn} {outs outs' : List TxOut} {fee ch : Int} {ca : Str} {idx : PVal}
    (hw : idx.isNone = true ∨ vWholeNumber idx = .ok ()) (hreach : outTotal outs + fee ≤ inTotal sel)
    (h : handleChange X sel outs fee ca idx = .ok (outs', ch)) :
    ChangeIs ca outs outs' ch ∧ inTotal sel = outTotal outs' + fee ∧ 0 ≤ ch := by
  rcases (handleChange_ok hs hw).1 h with ⟨e1, e2, e3⟩ | ⟨e1, _, c, h2, h3, _⟩
  · exact ⟨.inl ⟨e2, e3⟩, by rw [e2]; exact e1, e3.ge⟩
  · obtain ⟨g1, g2, g3⟩ := h2.address hs
    refine ⟨?_, by rw [h2.total hs]; omega, by rw [h3]; exact g3.1⟩
    right
    rcases h2 with ⟨_, k2, k3⟩ | ⟨pre, o, post, k, k1, k2, k3, k4, k5, k6, k7⟩
    · exact ⟨[], c, outs, by rw [k3]; rfl, g1, h3.symm, .inl ⟨rfl, rfl⟩⟩
    · refine ⟨pre, c, post, k6, g1, h3.symm, .inr ⟨o, k1, k2, ?_⟩⟩
      obtain ⟨j, j1, j2, j3, rfl⟩ := setSatoshi_iff.1 k5
      rw [h3]
      simp only
      omega

/-- the percentage that is advised -/
theorem advised {n m : Int} (hn : Money n) (hm : Money m) (h : n ≤ m) {s t r : PyFloat} (h1 : PyFloat.ofInt n = .ok s)
    (h2 : PyFloat.ofInt m = .ok t) (h3 : s.div t = .ok r) :
    0 < m ∧ ∃ v, (r.mul (.fin 100)).trunc = .ok ⌊v⌋ ∧ v = rndQ (rndQ ((n : ℚ) / m) * 100) ∧ |v - 100 * ((n : ℚ) / m)| ≤ 1 / 10 ^ 7 := by
  rw [money_float hn] at h1
  rw [money_float hm] at h2
  injection h1 with h1; subst h1
  injection h2 with h2; subst h2
  by_cases h0 : m = 0
  · subst h0; simp [PyFloat.div] at h3
  have hpos : 0 < m := lt_of_le_of_ne hm.1 (Ne.symm h0)
  have hq : ¬ (m : ℚ) = 0 := by exact_mod_cast h0
  simp only [PyFloat.div, hq, if_false, Except.ok.injEq] at h3
  subst h3
  have hmq : (0 : ℚ) < m := by exact_mod_cast hpos
  have hnq : (0 : ℚ) ≤ n := by exact_mod_cast hn.1
  have hle : (n : ℚ) ≤ m := by exact_mod_cast h
  have q0 : (0 : ℚ) ≤ (n : ℚ) / m := by positivity
  have q1 : (n : ℚ) / m ≤ 1 := by rw [div_le_one hmq]; exact hle
  obtain ⟨v, hv, hv0, he⟩ := percent_of q0 q1
  refine ⟨hpos, v, ?_, ?_, he⟩
  · rw [hv]
    simp only [PyFloat.trunc]
    rw [if_neg (not_lt.2 hv0)]
  · have e1 : rndQ 1 = 1 := by exact_mod_cast rndQ_nat (n := 1) (by norm_num)
    have e100 : rndQ 100 = 100 := by exact_mod_cast rndQ_nat (n := 100) (by norm_num)
    have a0 := rndQ_nonneg q0
    have a1 : rndQ ((n : ℚ) / m) ≤ 1 := by rw [← e1]; exact rndQ_mono q1
    have b0 : 0 ≤ rndQ ((n : ℚ) / m) * 100 := by positivity
    have b1 : rndQ (rndQ ((n : ℚ) / m) * 100) ≤ 100 := (rndQ_mono (by linarith : rndQ ((n : ℚ) / m) * 100 ≤ 100)).trans e100.le
    have f1 : rnd64 ((n : ℚ) / m) = .fin (rndQ ((n : ℚ) / m)) := rnd64_fin (lt_of_le_of_lt (abs_le.2 ⟨by linarith, a1⟩) (by decide +kernel))
    have f2 : rnd64 (rndQ ((n : ℚ) / m) * 100) = .fin (rndQ (rndQ ((n : ℚ) / m) * 100)) :=
      rnd64_fin (lt_of_le_of_lt (abs_le.2 ⟨by linarith [rndQ_nonneg b0], b1⟩) (by decide +kernel))
    rw [f1] at hv
    have : (PyFloat.fin (rndQ ((n : ℚ) / m))).mul (.fin 100) = .fin (rndQ (rndQ ((n : ℚ) / m) * 100)) := f2
    rw [this] at hv
    injection hv with hv
    exact hv.symm

/-- C112: the three special exceptions always carry a text. -/
theorem C112_special {a : Args} {e : Err} {x : Option Str} (h : (Report.create E X a).res = .error (e, x))
    (he : e = .outputValueNotCovered ∨ e = .outputAndFeeValueNotCovered ∨ e = .duplicateOutputAddress) : ∃ s, x = some s := by
  cases x with
  | some s => exact ⟨s, rfl⟩
  | none => exact ((quiet_create E X a).not_special e h he).elim

/-- C112: every text with which `create_transaction` itself refuses is one of the eight of `Refusal`, with the true
numbers. -/
theorem C112_texts (hs : ∀ b, (X.sha256 b).length = 32) {a : Args} {e : Err} {txt : Str}
    (h : (Report.create E X a).res = .error (e, some txt)) {ins : List TxIn} {outs : List TxOut} (hr : Request X a ins outs)
    {ca : Str} (hca : setting a py"change_address" = some (.str ca)) {v1 : PVal} {cap : Int} (hv1 : setting a py"max_fee" = some v1)
    (hc : NumberOf X.uni v1 cap) {v2 : PVal} {pct : ℚ} (hv2 : setting a py"max_spend_percentage" = some v2)
    (hp2 : GoodRate X.uni v2 pct) (h100 : pct ≤ 100) :
    Refusal X a ins outs ca cap pct e txt := by
  obtain ⟨p, hp, hP, hT⟩ := create_text hs h
  obtain ⟨rfl, rfl⟩ := request_unique (prepare_request hp) hr
  obtain ⟨s1, s2, ⟨v', s3, s3'⟩, ⟨v'', s4, s4'⟩, s5, s6, s7, s8⟩ := prepare_settings hp
  rw [hca] at s1; injection s1 with s1; injection s1 with s1; subst s1
  rw [hv1] at s3; injection s3 with s3; subst s3
  rw [hv2] at s4; injection s4 with s4; subst s4
  have hcap := adjusted_cap s3' hc
  have hfl := goodRate_float hp2 h100
  rw [hfl] at s4'
  injection s4' with hpct
  cases hT with
  | approach x h1 h2 =>
    obtain ⟨m, rfl, h3, h4⟩ := approach_text hp h1 h2
    exact .approach m h3 h4
  | duplicate ad h1 h2 =>
    refine .duplicate ad _ (fun hx => ?_) (count_filter _ _) h2
    rw [s7.2 hx] at h1; cases h1
  | cap fee n1 n2 h1 h2 h3 =>
    rw [hcap, str_int]
    rw [hcap] at h3
    exact .cap fee (feeRule_feeFor (feeRule_of hp n1 n2 h1) n1 n2 h2.2) h3
  | outputs h1 h2 => exact .outputs _ _ h1 rfl (amount_of h2)
  | outputsFee fee n1 n2 h1 h2 h3 h4 h5 =>
    exact .outputsFee fee _ _ (feeRule_feeFor (feeRule_of hp n1 n2 h1) n1 n2 h2.2) h3 h4 rfl (amount_of h5)
  | change _ _ h1 h2 =>
    obtain ⟨rfl, ⟨h3, rfl⟩ | ⟨i, h3, h4, h5, rfl⟩⟩ := choosing_text h2
    · exact .ambiguous _ (by rw [← s8]; exact h3) rfl h1
    · have : p.changeIdx = .int i := by
        cases hx : p.changeIdx with
        | int j => rw [hx] at h3; simp only [PVal.asInt, Option.some.injEq] at h3; rw [h3]
        | bool b => rw [hx] at h3; cases b <;> simp [PVal.asInt] at h3 <;> omega
        | _ => rw [hx] at h3; simp [PVal.asInt] at h3
      rw [this, str_int]
      rw [this] at s8
      refine .index _ i ?_ rfl h1 h4
      cases hx : a.changeIdx with
      | none => rw [hx] at s8; simp at s8
      | some w => rw [hx] at s8; simp at s8; rw [s8]
  | spend m fee sel outs' ch _ _ n1 n2 f1 f2 f3 hap hm hdup hsel hch hsp =>
    obtain ⟨rfl, ms, sF, tF, r, g1, g2, g3, g4, g5, g6, g7, rfl⟩ := spending_text hsp
    obtain ⟨s1, s2, s3, s4, s5, s6, s7⟩ := selectInputs_ok.1 hsel
    have hperm := arranged_perm m p.ins
    have htot := inTotal_perm hperm
    have hnn : ∀ i ∈ arranged m p.ins, 0 ≤ i.amount := fun i hi => hP.ins_nn i (hperm.mem_iff.1 hi)
    have hpre : sel <+: arranged m p.ins := by rw [s6]; exact chosen_prefix _ _ _
    have hle : inTotal sel ≤ inTotal p.ins := by rw [← htot]; exact prefix_total hpre hnn
    rw [htot] at s1
    have hreach : outTotal p.outs + fee ≤ inTotal sel := by rw [s6]; exact chosen_reach s5
    obtain ⟨c1, c2, c3⟩ := changeIs_of hs hP.idx hreach hch
    have hp0 := (goodRate_rateOf hp2).2
    have e100 : rndQ 100 = 100 := by exact_mod_cast rndQ_nat (n := 100) (by norm_num)
    have hb : rndQ pct ≤ 100 := by rw [← e100]; exact rndQ_mono h100
    have hb0 := rndQ_nonneg hp0
    rw [← hpct, maxSpend_ok ⟨by linarith, by linarith⟩ s1] at g1
    injection g1 with g1
    obtain ⟨a0, v, a1, a2, a3⟩ := advised g3 s1 (by omega) g5 g6 g7
    obtain ⟨pi, b1, b2⟩ := fmt0 hb0
    rw [a1, ← hpct, b1]
    obtain ⟨t1, ht1⟩ := (s2b_ok (u := X.uni)).2 g3
    obtain ⟨t2, ht2⟩ := (s2b_ok (u := X.uni)).2 g2
    rw [inBitcoin_of ht1, inBitcoin_of ht2]
    refine .limit fee (inTotal sel - ch) ms ch outs' t1 t2 pi (⌊v⌋ + 1) (feeRule_feeFor (feeRule_of hp n1 n2 f1) n1 n2 f2.2) c1 (by rw [c2]) g4
      (by rw [← g1]; exact limitOf_decimal hp0 h100 s1) ((C19_satoshi_to_bitcoin _ _ _).1 ht1).2.2 ((C19_satoshi_to_bitcoin _ _ _).1 ht2).2.2 ?_ ?_ ?_
    · have := rndQ_err_abs hp0
      have k1 : pct / 2 ^ 53 + 1 / 2 ^ 60 ≤ (1 : ℚ) / 1000 := by
        have : pct / 2 ^ 53 ≤ 100 / 2 ^ 53 := by gcongr
        have : (100 : ℚ) / 2 ^ 53 + 1 / 2 ^ 60 ≤ 1 / 1000 := by norm_num
        linarith
      have g := abs_le.1 (this.trans k1)
      have b2' := abs_le.1 b2
      rw [abs_le]
      have n1 : (0.51 : ℚ) = 51 / 100 := by norm_num
      rw [n1]
      constructor <;> linarith [g.1, g.2, b2'.1, b2'.2]
    · have := Int.floor_le v
      simp only [Int.cast_add, Int.cast_one]
      linarith [(abs_le.1 a3).2]
    · have := Int.lt_floor_add_one v
      simp only [Int.cast_add, Int.cast_one]
      linarith [(abs_le.1 a3).1]

end BT
