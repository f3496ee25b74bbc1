import Verif.Lemmas.Relax

/-! # C127: the limits only decide, C128: a fee as a number or as a rate -/

namespace BT
open Spec Retry Relax

variable {X : Ext}

namespace Relax

theorem numberOf_unique {u : UniDB} {v : PVal} {n m : Int} (h : NumberOf u v n) (h' : NumberOf u v m) : n = m := by
  rcases h with rfl | ⟨s, rfl, hn⟩ <;> rcases h' with h' | ⟨s', h', hm⟩
  · injection h'
  · simp at h'
  · simp at h'
  · injection h' with h'; subst h'; rw [hn] at hm; injection hm

theorem adjusted_of {u : UniDB} {v : PVal} {n : Int} (h : NumberOf u v n) : Adjusted u (some v) (some (.int n)) := by
  rcases h with rfl | ⟨s, rfl, hn⟩
  · exact .inr ⟨by simp, rfl⟩
  · exact .inl ⟨s, n, rfl, hn, rfl⟩

theorem adjusted_unique {u : UniDB} {v : PVal} {n : Int} {m : PVal} (h : NumberOf u v n) (h' : Adjusted u (some v) (some m)) : m = .int n := by
  rcases h' with ⟨s, k, h1, h2, h3⟩ | ⟨h1, h2⟩
  · simp only [Option.some.injEq] at h1 h3
    subst h1; subst h3
    rcases h with h | ⟨s', h, hn⟩
    · simp at h
    · injection h with h; subst h; rw [h2] at hn; injection hn with hn; rw [hn]
  · simp only [Option.some.injEq] at h2
    subst h2
    rcases h with h | ⟨s', rfl, _⟩
    · exact h
    · exact absurd rfl (h1 s')

/-- a success, taken apart -/
theorem parts (hs : ∀ b, (X.sha256 b).length = 32) {a a' : Args} {t : Tx} (h : createTransaction X a = .ok (t, a')) :
    ∃ p d mf msp n v m fee sel outs' ch q, prepare X a = .ok p ∧ PlanOk p ∧ Built X p t m fee sel outs' ch q ∧ a.design = some (.dict d) ∧
      dictFind d py"max_fee" = some mf ∧ Adjusted X.uni (some mf) (some p.maxFee) ∧ vWholeNumber p.maxFee = .ok () ∧
      dictFind d py"max_spend_percentage" = some msp ∧ msp.toFloat X.uni = .ok p.pct ∧ p.pct.trunc = .ok n ∧ 0 ≤ n ∧ n ≤ 100 ∧
      v = a.allowDup.getD .none ∧ p.allowDup = v.truthy ∧ (v.isNone = true ∨ ∃ b, v = .bool b) ∧
      inTotal t.inputs = outTotal t.outputs + fee := by
  obtain ⟨p, m, fee, sel, outs', ch, q, hp, B, rfl⟩ := (create_ok hs).1 h
  obtain ⟨insD, d, d1, insZ, outsD, outsZ, ca, mf, msp, n, k1, k2, k3, k4, k5, k6, k7, k8, k9, k10, k11, k12, k13, k14, k15, k16, k17, k18, k19, k20, k21, k22, k23, k24, k25, k26, k27⟩ := prepare_ok.1 hp
  obtain ⟨a1, a2, a3, a4, a5⟩ := adjustDesign_ok k3
  rw [k7] at a4
  obtain ⟨v, hv⟩ : ∃ v, dictFind d py"max_fee" = some v := by
    rcases a4 with ⟨s, _, hs, _⟩ | ⟨_, hs⟩
    · exact ⟨_, hs⟩
    · exact ⟨_, hs.symm⟩
  rw [hv] at a4
  subst k23
  refine ⟨p, d, v, msp, n, _, m, fee, sel, outs', ch, q, hp, prepare_planOk hs hp, B, k2, hv, a4, k8, by rw [← a1 _ (by decide) (by decide) (by decide)]; exact k9,
    k10, k11, k12, k13, rfl, k25, (validateOptions_ok.1 k18).1, ?_⟩
  have ht := B.tx_eq
  have hin : t.inputs = sel := by rw [ht]
  have hout : t.outputs = outs' := by rw [ht]
  rw [hin, hout]
  rcases B.outs_eq with ⟨h1, h2, _⟩ | ⟨h1, c, h2, _⟩
  · rw [h2, h1]
  · rw [h2.total hs]; omega

end Relax

/-- C127. The limits decide whether there is a result, never what it is: if a request succeeds with some limits and again with
other values of `max_fee`, `max_spend_percentage` and `allow_duplicate_output_address`, both calls return the same transaction. -/
theorem C127_limits_never_shape (hs : ∀ b, (X.sha256 b).length = 32) {a a' b' : Args} {t t' : Tx} (w wp dup : PVal)
    (h : createTransaction X a = .ok (t, a'))
    (h' : createTransaction X (edited a [.setting py"max_fee" w, .setting py"max_spend_percentage" wp, .allowDup dup]) = .ok (t', b')) :
    t' = t := by
  obtain ⟨p, d, mf, msp, n, v, m, fee, sel, outs', ch, q, hp, hP, B, hd, k1, k2, k3, k4, k5, k6, k7, k8, _, k9, k10, _⟩ := parts hs h
  obtain ⟨p', d', mf', msp', n', v', m', fee', sel', outs'', ch', q', hp', hP', B', hd', j1, j2, j3, j4, j5, j6, j7, j8, hv', j9, j10, _⟩ := parts hs h'
  have e : edited a [.setting py"max_fee" w, .setting py"max_spend_percentage" wp, .allowDup dup] =
      { a with design := some (.dict (dictSet (dictSet d py"max_fee" w) py"max_spend_percentage" wp)), allowDup := some dup } := by
    simp only [edited, List.foldl, Edit.apply, hd]
  rw [hv', e] at j10
  rw [e] at hd' hp'
  injection hd' with hd'; injection hd' with hd'; subst hd'
  rw [find_set_ne (by decide), find_set_eq] at j1
  rw [find_set_eq] at j4
  injection j1 with j1; subst j1
  injection j4 with j4; subst j4
  obtain ⟨af, he⟩ := prepare_limits hp hd j2 j3 j5 j6 j7 j8 j10
  rw [he] at hp'
  injection hp' with hp'
  rw [← hp'] at B' hP'
  exact built_same hs hP B ⟨hP'.ins_nn, hP'.outs_nn, hP'.pct, hP'.cap, hP'.idx⟩ (built_after.1 B')

/-- C127. Exactly: a successful request with another `max_fee` succeeds if and only if the fee that is paid does not exceed it, and
gives the same transaction. -/
theorem C127_max_fee (hs : ∀ b, (X.sha256 b).length = 32) {a a' : Args} {t t' : Tx} (h : createTransaction X a = .ok (t, a'))
    {w : PVal} {m' : Int} (hw : NumberOf X.uni w m') :
    (∃ b', createTransaction X (edited a [.setting py"max_fee" w]) = .ok (t', b')) ↔
      t' = t ∧ inTotal t.inputs - outTotal t.outputs ≤ m' := by
  obtain ⟨p, d, mf, msp, n, v, m, fee, sel, outs', ch, q, hp, hP, B, hd, k1, k2, k3, k4, k5, k6, k7, k8, hv, k9, k10, hfee⟩ := parts hs h
  have e : edited a [.setting py"max_fee" w] =
      { a with design := some (.dict (dictSet (dictSet d py"max_fee" w) py"max_spend_percentage" msp)), allowDup := a.allowDup } := by
    have := set_find_self (show dictFind (dictSet d py"max_fee" w) py"max_spend_percentage" = some msp by
      rw [find_set_ne (by decide)]; exact k4)
    rw [this]
    simp only [edited, List.foldl, Edit.apply, hd]
  rw [hv] at k9 k10
  constructor
  · rintro ⟨b', h'⟩
    obtain ⟨p', d', mf', msp', n', v', m1, fee', sel', outs'', ch', q', hp', hP', B', hd', j1, j2, j3, j4, j5, j6, j7, j8, _, j9, j10, hfee'⟩ := parts hs h'
    rw [e] at hd' hp'
    injection hd' with hd'; injection hd' with hd'; subst hd'
    rw [find_set_ne (by decide), find_set_eq] at j1
    injection j1 with j1; subst j1
    have hm := adjusted_unique hw j2
    rw [hm] at j3 j2
    obtain ⟨af, he⟩ := prepare_limits hp hd j2 j3 k5 k6 k7 k8 k10
    rw [he] at hp'
    injection hp' with hp'
    have ht : t' = t := by
      rw [← hp'] at B' hP'
      exact built_same hs hP B ⟨hP'.ins_nn, hP'.outs_nn, hP'.pct, hP'.cap, hP'.idx⟩ (built_after.1 B')
    refine ⟨ht, ?_⟩
    have hc := B'.fee_cap
    rw [hm] at hc
    subst ht
    have hc' : fee' ≤ m' := hc
    omega
  · rintro ⟨rfl, hle⟩
    have hfm := B.fee_money
    unfold Money at hfm
    have hwn : vWholeNumber (.int m') = .ok () := by
      unfold vWholeNumber vPositiveInteger vInteger
      by_cases h0 : m' = 0
      · subst h0; rfl
      · have : ¬ m' < 1 := by omega
        simp [PVal.eqInt, PVal.asInt, h0, R_bind_ok, this]
    obtain ⟨af, he⟩ := prepare_limits hp hd (adjusted_of hw) hwn k5 k6 k7 k8 k10
    rw [e]
    refine ⟨af, (create_ok hs).2 ⟨_, m, fee, sel, outs', ch, q, he, ?_, rfl⟩⟩
    rw [built_after, ← k9, B.pct]
    refine built_limits B B.dup (show fee ≤ m' by omega) B.lim_money B.spend_le B.lim_ne

/-- C127. In particular: raising `max_fee` never changes or loses a result. -/
theorem C127_raise_max_fee (hs : ∀ b, (X.sha256 b).length = 32) {a a' : Args} {t : Tx} (h : createTransaction X a = .ok (t, a'))
    {v w : PVal} {m m' : Int} (hv : setting a py"max_fee" = some v) (hm : NumberOf X.uni v m) (hw : NumberOf X.uni w m') (hle : m ≤ m') :
    ∃ b', createTransaction X (edited a [.setting py"max_fee" w]) = .ok (t, b') := by
  refine (C127_max_fee hs h hw).2 ⟨rfl, ?_⟩
  obtain ⟨p, d, mf, msp, n, o, m1, fee, sel, outs', ch, q, hp, hP, B, hd, k1, k2, k3, k4, k5, k6, k7, k8, ho, k9, k10, hfee⟩ := parts hs h
  rw [setting_eq hd, k1] at hv
  injection hv with hv; subst hv
  have := B.fee_cap
  rw [adjusted_unique hm k2] at this
  have : fee ≤ m := this
  omega

/-- C127. The option about duplicate addresses: with `True` a successful request has the same result, with `False` exactly if the
designed outputs have different addresses. -/
theorem C127_duplicates (hs : ∀ b, (X.sha256 b).length = 32) {a a' : Args} {t t' : Tx} (h : createTransaction X a = .ok (t, a'))
    {ins : List TxIn} {outs : List TxOut} (R : Request X a ins outs) (b : Bool) :
    (∃ b', createTransaction X (edited a [.allowDup (.bool b)]) = .ok (t', b')) ↔
      t' = t ∧ (b = true ∨ (outs.map TxOut.address).Nodup) := by
  obtain ⟨p, d, mf, msp, n, v, m, fee, sel, outs', ch, q, hp, hP, B, hd, k1, k2, k3, k4, k5, k6, k7, k8, hv, k9, k10, hfee⟩ := parts hs h
  obtain ⟨_, rfl⟩ := request_unique R (prepare_request hp)
  have e : edited a [.allowDup (.bool b)] =
      { a with design := some (.dict (dictSet (dictSet d py"max_fee" mf) py"max_spend_percentage" msp)), allowDup := some (.bool b) } := by
    rw [set_find_self k1, set_find_self k4, ← hd]
    simp only [edited, List.foldl, Edit.apply]
  obtain ⟨af, he⟩ := prepare_limits (o := some (.bool b)) hp hd k2 k3 k5 k6 k7 k8 (.inr ⟨b, rfl⟩)
  rw [e]
  constructor
  · rintro ⟨b', h'⟩
    obtain ⟨p', m1, fee', sel', outs'', ch', q', hp', B', rfl⟩ := (create_ok hs).1 h'
    have hP' := prepare_planOk hs hp'
    rw [he] at hp'
    injection hp' with hp'
    rw [← hp'] at B' hP'
    refine ⟨built_same hs hP B ⟨hP'.ins_nn, hP'.outs_nn, hP'.pct, hP'.cap, hP'.idx⟩ (built_after.1 B'), ?_⟩
    rcases B'.dup with hx | hx
    · exact .inl hx
    · exact .inr hx
  · rintro ⟨rfl, hb⟩
    refine ⟨af, (create_ok hs).2 ⟨_, m, fee, sel, outs', ch, q, he, ?_, rfl⟩⟩
    rw [built_after, B.pct]
    exact built_limits B hb B.fee_cap B.lim_money B.spend_le B.lim_ne

/-- C127. Raising `max_spend_percentage`, up to 100, never changes or loses a result. -/
theorem C127_raise_percentage_partial (hs : ∀ b, (X.sha256 b).length = 32) {a a' : Args} {t : Tx} (h : createTransaction X a = .ok (t, a'))
    {v w : PVal} {q q' : ℚ} (hv : setting a py"max_spend_percentage" = some v) (hq : GoodRate X.uni v q) (hw : GoodRate X.uni w q')
    (hle : q ≤ q') (h100 : q' ≤ 100) :
    ∃ b', createTransaction X (edited a [.setting py"max_spend_percentage" w]) = .ok (t, b') := by
  obtain ⟨p, d, mf, msp, n, o, m, fee, sel, outs', ch, r, hp, hP, B, hd, k1, k2, k3, k4, k5, k6, k7, k8, ho, k9, k10, hfee⟩ := parts hs h
  rw [ho] at k9 k10
  rw [setting_eq hd, k4] at hv
  injection hv with hv; subst hv
  have e : edited a [.setting py"max_spend_percentage" w] =
      { a with design := some (.dict (dictSet (dictSet d py"max_fee" mf) py"max_spend_percentage" w)), allowDup := a.allowDup } := by
    rw [set_find_self k1]
    simp only [edited, List.foldl, Edit.apply, hd]
  have f1 := goodRate_float hq (hle.trans h100)
  have f2 := goodRate_float hw h100
  rw [k5] at f1
  injection f1 with f1
  have hr : rndQ q = r := by have := B.pct; rw [f1] at this; injection this
  have h100' : rndQ 100 = 100 := by exact_mod_cast rndQ_nat (n := 100) (by norm_num)
  have hr1 : rndQ q' ≤ 100 := by rw [← h100']; exact rndQ_mono h100
  have hr0 : 0 ≤ rndQ q' := rndQ_nonneg (goodRate_rateOf hw).2
  have hrr : r ≤ rndQ q' := by rw [← hr]; exact rndQ_mono hle
  have htr : (PyFloat.fin (rndQ q')).trunc = .ok ⌊rndQ q'⌋ := by
    simp only [PyFloat.trunc, if_neg (not_lt.2 hr0)]
  have hmono := limitOf_mono (q := r) (q' := rndQ q') B.in_money.1 hrr
  have htot := limitOf_le_total hr0 hr1 B.in_money
  obtain ⟨af, he⟩ := prepare_limits hp hd k2 k3 f2 htr (Int.floor_nonneg.2 hr0) (by
    have : ⌊rndQ q'⌋ ≤ ⌊(100 : ℚ)⌋ := Int.floor_mono hr1
    rw [show (100 : ℚ) = ((100 : ℤ) : ℚ) by norm_num, Int.floor_intCast] at this
    exact this) k10
  rw [e]
  refine ⟨af, (create_ok hs).2 ⟨_, m, fee, sel, outs', ch, rndQ q', he, ?_, rfl⟩⟩
  rw [built_after, ← k9]
  have hlm := B.lim_money
  have hln := B.lim_ne
  have him := B.in_money
  unfold Money at hlm him
  refine built_limits B B.dup B.fee_cap ?_ (B.spend_le.trans hmono) (by omega)
  unfold Money
  omega

namespace Relax

/-- the preparation with the fee as a number -/
theorem prepare_fee {a : Args} {p : Plan} {d : List (Str × PVal)} {f : Int} (h : prepare X a = .ok p) (hd : a.design = some (.dict d)) (hf : 1 ≤ f) :
    ∃ af, prepare X { a with design := some (.dict (dictSet (dictSet d py"fee" (.int f)) py"fee_rate" .none)) } =
      .ok { p with kind := .inl (.int f), after := af } := by
  obtain ⟨insD, d', d1, insZ, outsD, outsZ, ca, mf, msp, n', k1, k2, k3, k4, k5, k6, k7, k8, k9, k10, k11, k12, k13, k14, k15, k16, k17, k18, k19, k20, k21, k22, k23, k24, k25, k26, k27⟩ := prepare_ok.1 h
  rw [hd] at k2
  injection k2 with k2; injection k2 with k2; subst k2
  obtain ⟨a1, a2, a3, a4, a5⟩ := adjustDesign_ok k3
  have hmx : dictFind (dictSet (dictSet d py"fee" (.int f)) py"fee_rate" .none) py"max_fee" = dictFind d py"max_fee" := by
    rw [find_set_ne (by decide), find_set_ne (by decide)]
  have e1 : adjustFee X.uni (dictSet (dictSet d py"fee" (.int f)) py"fee_rate" .none) = .ok (dictSet (dictSet d py"fee" (.int f)) py"fee_rate" .none) := by
    unfold adjustFee
    rw [find_set_ne (by decide), find_set_eq]; rfl
  have e2 : adjustFeeRate (dictSet (dictSet d py"fee" (.int f)) py"fee_rate" .none) = dictSet (dictSet d py"fee" (.int f)) py"fee_rate" .none := by
    unfold adjustFeeRate
    rw [find_set_eq]; rfl
  obtain ⟨d2, hadj⟩ : ∃ d2, adjustDesign X.uni (dictSet (dictSet d py"fee" (.int f)) py"fee_rate" .none) = .ok d2 := by
    unfold adjustDesign
    rw [e1]
    simp only [R_bind_ok]
    rw [e2]
    unfold adjustMaxFee
    rw [hmx]
    rw [k7] at a4
    rcases a4 with ⟨s, n, hs, hn, _⟩ | ⟨hs, _⟩
    · rw [hs]; simp only [hn, R_bind_ok]; exact ⟨_, rfl⟩
    · cases hx : dictFind d py"max_fee" with
      | none => exact ⟨_, rfl⟩
      | some v =>
        cases v with
        | str s => exact absurd hx (hs s)
        | _ => exact ⟨_, rfl⟩
  obtain ⟨b1, b2, b3, b4, b5⟩ := adjustDesign_ok hadj
  have ne : ∀ k, k ≠ py"fee" → k ≠ py"fee_rate" → k ≠ py"max_fee" → dictFind d2 k = dictFind d1 k := by
    intro k h1 h2 h3
    rw [b1 k h1 h2 h3, a1 k h1 h2 h3, find_set_ne h2, find_set_ne h1]
  have hfee : dictFind d2 py"fee" = some (.int f) := by
    rw [find_set_ne (by decide), find_set_eq] at b2
    rcases b2 with ⟨s, n, hs, _⟩ | ⟨_, hs⟩
    · simp at hs
    · exact hs
  have hrate : dictFind d2 py"fee_rate" = some .none := by rw [b3, find_set_eq]; rfl
  have hmax : dictFind d2 py"max_fee" = some mf := by
    rw [hmx] at b4
    rw [k7] at a4
    rcases a4 with ⟨s, n, hs, hn, he⟩ | ⟨hs, he⟩
    · rw [hs] at b4
      rcases b4 with ⟨s', n', hs', hn', he'⟩ | ⟨hs', _⟩
      · injection hs' with hs'; injection hs' with hs'; subst hs'
        rw [hn] at hn'; injection hn' with hn'; subst hn'
        rw [he', he]
      · exact absurd rfl (hs' s)
    · rcases b4 with ⟨s', n', hs', hn', he'⟩ | ⟨hs', he'⟩
      · exact absurd hs' (hs s')
      · rw [he', he]
  have htr : (PVal.int f).truthy = true := by simp [PVal.truthy]; omega
  have hwn : vWholeNumber (.int f) = .ok () := by
    have h0 : f ≠ 0 := by omega
    have : ¬ f < 1 := by omega
    unfold vWholeNumber vPositiveInteger vInteger
    simp [PVal.eqInt, PVal.asInt, h0, R_bind_ok, this]
  have o1 : dictOpt d2 py"fee" = .int f := by unfold dictOpt; rw [hfee]; rfl
  have o2 : dictOpt d2 py"fee_rate" = .none := by unfold dictOpt; rw [hrate]; rfl
  refine ⟨_, prepare_ok.2 ⟨insD, _, d2, insZ, outsD, outsZ, ca, mf, msp, n', k1, rfl, hadj, k4, ?_, k6, hmax, k8, ?_, k10, k11, k12, k13, ?_, k15, ?_, ?_, k18, ?_, k20, k21, ?_, k23, k24, k25, k26, rfl⟩⟩
  · rw [ne _ (by decide) (by decide) (by decide)]; exact k5
  · rw [ne _ (by decide) (by decide) (by decide)]; exact k9
  · rw [ne _ (by decide) (by decide) (by decide)]; exact k14
  · rw [o1, o2]
    exact validateFees_ok.2 ⟨by simp [PVal.truthy], by simp [PVal.isNone], fun _ => hwn, by simp [PVal.truthy]⟩
  · unfold dictOpt; rw [ne _ (by decide) (by decide) (by decide)]; exact k17
  · rw [o1, o2]; unfold feeKind; rw [if_pos htr]
  · show p.approaches = _
    rw [ne _ (by decide) (by decide) (by decide)]; exact k22

end Relax

/-- C128. Whatever way the fee of a successful request was given, the request that names the fee that is paid (if it is not 0)
and no fee rate has the same result. -/
theorem C128_fee_as_number_partial (hs : ∀ b, (X.sha256 b).length = 32) {a a' : Args} {t : Tx} (h : createTransaction X a = .ok (t, a'))
    {f : Int} (hf : inTotal t.inputs = outTotal t.outputs + f) (h1 : f ≠ 0) :
    ∃ b', createTransaction X (edited a [.setting py"fee" (.int f), .setting py"fee_rate" .none]) = .ok (t, b') := by
  obtain ⟨p, d, mf, msp, n, o, m, fee, sel, outs', ch, r, hp, hP, B, hd, k1, k2, k3, k4, k5, k6, k7, k8, ho, k9, k10, hfee⟩ := parts hs h
  obtain rfl : fee = f := by omega
  have hm := B.fee_money
  unfold Money at hm
  obtain ⟨af, he⟩ := prepare_fee (f := fee) hp hd (by omega)
  have e : edited a [.setting py"fee" (.int fee), .setting py"fee_rate" .none] =
      { a with design := some (.dict (dictSet (dictSet d py"fee" (.int fee)) py"fee_rate" .none)) } := by
    simp only [edited, List.foldl, Edit.apply, hd]
  rw [e]
  exact ⟨af, (create_ok hs).2 ⟨_, m, fee, sel, outs', ch, r, he, ⟨B.appr, B.impl, B.dup, B.nin, B.nout, .inl rfl, B.fee_money, B.fee_cap, B.in_money,
    B.covered, B.sel_eq, B.outs_eq, B.pct, B.lim_money, B.spend_nn, B.in_ne, B.spend_le, B.lim_ne, B.nout', B.tx_eq⟩, rfl⟩⟩

/-- C128. The other case: if the fee that is paid is 0 (because the rate is 0), the request that names it is refused. -/
theorem C128_zero_violation (hs : ∀ b, (X.sha256 b).length = 32) {a a' : Args} {t : Tx} (h : createTransaction X a = .ok (t, a')) (r : Tx × Args) :
    createTransaction X (edited a [.setting py"fee" (.int 0), .setting py"fee_rate" .none]) ≠ .ok r := by
  intro h'
  obtain ⟨t', b'⟩ := r
  obtain ⟨p, d, mf, msp, n, o, m, fee, sel, outs', ch, q, hp, hP, B, hd, _⟩ := parts hs h
  obtain ⟨ins', outs', ca, m, fee, ch, q, C⟩ := created_of hs h'
  have e : edited a [.setting py"fee" (.int 0), .setting py"fee_rate" .none] =
      { a with design := some (.dict (dictSet (dictSet d py"fee" (.int 0)) py"fee_rate" .none)) } := by
    simp only [edited, List.foldl, Edit.apply, hd]
  rw [e] at C
  rcases C.fee_rule with ⟨w, h1, h2, h3⟩ | ⟨_, w, x, h1, h2, _⟩
  · rw [setting_eq rfl, find_set_ne (by decide), find_set_eq] at h1
    injection h1 with h1; subst h1
    exact h3 (numberOf_unique h2 (.inl rfl))
  · rw [setting_eq rfl, find_set_eq] at h1
    injection h1 with h1; subst h1
    rcases h2 with ⟨_, h, _⟩ | ⟨_, h, _⟩ | ⟨h, _⟩ <;> simp at h

/-- C128. Two requests that differ only in the way the fee is given, and pay the same fee, have the same result. -/
theorem C128_only_the_fee_counts (hs : ∀ b, (X.sha256 b).length = 32) {a a' b' : Args} {t t' : Tx} (v w v' w' : PVal)
    (h : createTransaction X (edited a [.setting py"fee" v, .setting py"fee_rate" w]) = .ok (t, a'))
    (h' : createTransaction X (edited a [.setting py"fee" v', .setting py"fee_rate" w']) = .ok (t', b'))
    (hf : inTotal t.inputs - outTotal t.outputs = inTotal t'.inputs - outTotal t'.outputs) : t = t' := by
  obtain ⟨p, d1, mf, msp, n, o, m, fee, sel, outs', ch, q, hp, hP, B, hd1, k1, k2, k3, k4, k5, k6, k7, k8, ho, k9, k10, hfee⟩ := parts hs h
  obtain ⟨p', d2, mf', msp', n', o', m', fee', sel', outs'', ch', q', hp', hP', B', hd2, j1, j2, j3, j4, j5, j6, j7, j8, jo, j9, j10, hfee'⟩ := parts hs h'
  have hff : fee' = fee := by omega
  subst hff
  have hd : ∃ d, a.design = some (.dict d) := by
    cases ha : a.design with
    | none => simp [edited, List.foldl, Edit.apply, ha] at hd1
    | some z =>
      cases z with
      | dict d0 => exact ⟨d0, rfl⟩
      | _ => simp [edited, List.foldl, Edit.apply, ha] at hd1
  obtain ⟨d, hd⟩ := hd
  obtain ⟨af, he⟩ := prepare_fee (f := 1) hp hd1 (by omega)
  obtain ⟨af', he'⟩ := prepare_fee (f := 1) hp' hd2 (by omega)
  have c : ∀ v w : PVal, dictSet (dictSet (dictSet (dictSet d py"fee" v) py"fee_rate" w) py"fee" (.int 1)) py"fee_rate" .none =
      dictSet (dictSet d py"fee" (.int 1)) py"fee_rate" .none := by
    intro v w
    rw [← set_comm (k := py"fee") (k' := py"fee_rate") (w := v) (by decide) find_set_eq]
    rw [set_set, set_set]
  have e1 : d1 = dictSet (dictSet d py"fee" v) py"fee_rate" w := by
    simp only [edited, List.foldl, Edit.apply, hd, Option.some.injEq, PVal.dict.injEq] at hd1
    exact hd1.symm
  have e2 : d2 = dictSet (dictSet d py"fee" v') py"fee_rate" w' := by
    simp only [edited, List.foldl, Edit.apply, hd, Option.some.injEq, PVal.dict.injEq] at hd2
    exact hd2.symm
  rw [e1, c] at he
  rw [e2, c] at he'
  have ea : ∀ v w : PVal, { edited a [.setting py"fee" v, .setting py"fee_rate" w] with
      design := some (.dict (dictSet (dictSet d py"fee" (.int 1)) py"fee_rate" .none)) } =
      { a with design := some (.dict (dictSet (dictSet d py"fee" (.int 1)) py"fee_rate" .none)) } := by
    intro v w
    simp only [edited, List.foldl, Edit.apply, hd]
  rw [ea] at he he'
  rw [he'] at he
  injection he with he
  injection he with i1 i2 i3 i4 i5 i6 i7 i8 i9 i10
  have hB : Built X { p with kind := .inl (.int fee') } t m fee' sel outs' ch q :=
    ⟨B.appr, B.impl, B.dup, B.nin, B.nout, .inl rfl, B.fee_money, B.fee_cap, B.in_money,
      B.covered, B.sel_eq, B.outs_eq, B.pct, B.lim_money, B.spend_nn, B.in_ne, B.spend_le, B.lim_ne, B.nout', B.tx_eq⟩
  have hB' : Built X { p' with kind := .inl (.int fee') } t' m' fee' sel' outs'' ch' q' :=
    ⟨B'.appr, B'.impl, B'.dup, B'.nin, B'.nout, .inl rfl, B'.fee_money, B'.fee_cap, B'.in_money,
      B'.covered, B'.sel_eq, B'.outs_eq, B'.pct, B'.lim_money, B'.spend_nn, B'.in_ne, B'.spend_le, B'.lim_ne, B'.nout', B'.tx_eq⟩
  have r1 := (buildTx_ok hs (p := { p with kind := .inl (.int fee') }) ⟨hP.ins_nn, hP.outs_nn, hP.pct, hP.cap, hP.idx⟩).2 ⟨_, _, _, _, _, _, hB⟩
  have r2 := (buildTx_ok hs (p := { p' with kind := .inl (.int fee') }) ⟨hP'.ins_nn, hP'.outs_nn, hP'.pct, hP'.cap, hP'.idx⟩).2 ⟨_, _, _, _, _, _, hB'⟩
  simp only at r1 r2
  rw [i1, i2, i3, i5, i6, i7, i8, i9, r1] at r2
  injection r2

end BT
