import Verif.Lemmas.Build

/-! # Lemmas about change handling, the spending limit and the whole of `buildTx` -/

namespace BT
open Spec

theorem setSatoshi_iff {u : UniDB} {o c : TxOut} {n : Int} : o.setSatoshi u n = (c, .ok ()) ↔
    ∃ k : Nat, n = k ∧ 1 ≤ k ∧ k ≤ maxMoney ∧
      c = { o with value := hex (leBytes 8 k), satoshi := k, bitcoin := btcText k } := by
  constructor
  · intro h
    by_cases h1 : n < 1 ∨ 256 ^ 8 ≤ n
    · rw [setSatoshi_bad u o h1] at h; simp at h
    · push Not at h1
      obtain ⟨k, rfl⟩ : ∃ k : Nat, n = k := ⟨n.toNat, by omega⟩
      by_cases h2 : k ≤ maxMoney
      · rw [setSatoshi_ok u o (by omega) h2] at h
        exact ⟨k, rfl, by omega, h2, by simpa using h.symm⟩
      · rw [setSatoshi_over u o (by omega) (by exact_mod_cast h1.2)] at h; simp at h
  · rintro ⟨k, rfl, h1, h2, rfl⟩; exact setSatoshi_ok u o h1 h2

theorem bumpOutput_ok {u : UniDB} {addr : Str} {s : Int} {k : Nat} {outs outs' : List TxOut} {c : TxOut} :
    bumpOutput u addr s k outs = .ok (outs', c) ↔ ∃ pre o post, outs = pre ++ o :: post ∧ o.address = addr ∧
      (pre.filter fun o => o.address = addr).length = k ∧ Money o.satoshi ∧
      o.setSatoshi u (o.satoshi + s) = (c, .ok ()) ∧ outs' = pre ++ c :: post := by
  induction outs generalizing k outs' with
  | nil => simp [bumpOutput]
  | cons x r ih =>
    unfold bumpOutput
    by_cases hx : x.address = addr
    · rw [if_pos hx]
      cases k with
      | zero =>
        simp only
        constructor
        · intro h
          cases hr : (x.setSatoshi u (x.satoshi + s)).2 with
          | error e => rw [hr] at h; simp at h
          | ok v =>
            rw [hr] at h
            simp only [s2b_bind, R_pure, Except.ok.injEq, Prod.mk.injEq] at h
            obtain ⟨hm, rfl, rfl⟩ := h
            exact ⟨[], x, r, rfl, hx, rfl, hm, by rw [← hr], rfl⟩
        · rintro ⟨pre, o, post, he, ho, hk, hm, hset, rfl⟩
          have hpre : pre = [] := by
            cases pre with
            | nil => rfl
            | cons y pre =>
              injection he with he _
              subst he
              simp [hx] at hk
          subst hpre
          injection he with he1 he2
          subst he1; subst he2
          rw [hset]
          simp only [s2b_bind, R_pure, List.nil_append]
          exact ⟨hm, trivial⟩
      | succ k =>
        simp only [R_bind_eq_ok, R_pure, Except.ok.injEq]
        constructor
        · rintro ⟨⟨r', c'⟩, h1, h2⟩
          simp only [Prod.mk.injEq] at h2
          obtain ⟨rfl, rfl⟩ := h2
          obtain ⟨pre, o, post, rfl, ho, hk, hm, hset, rfl⟩ := ih.1 h1
          exact ⟨x :: pre, o, post, rfl, ho, by simp [hx, hk], hm, hset, rfl⟩
        · rintro ⟨pre, o, post, he, ho, hk, hm, hset, rfl⟩
          cases pre with
          | nil => simp at hk
          | cons y pre =>
            injection he with he1 he2
            subst he1
            refine ⟨(pre ++ c :: post, c), ih.2 ⟨pre, o, post, he2, ho, ?_, hm, hset, rfl⟩, rfl⟩
            simpa [hx] using hk
    · rw [if_neg hx]
      simp only [R_bind_eq_ok, R_pure, Except.ok.injEq]
      constructor
      · rintro ⟨⟨r', c'⟩, h1, h2⟩
        simp only [Prod.mk.injEq] at h2
        obtain ⟨rfl, rfl⟩ := h2
        obtain ⟨pre, o, post, rfl, ho, hk, hm, hset, rfl⟩ := ih.1 h1
        exact ⟨x :: pre, o, post, rfl, ho, by simp [hx, hk], hm, hset, rfl⟩
      · rintro ⟨pre, o, post, he, ho, hk, hm, hset, rfl⟩
        cases pre with
        | nil =>
          injection he with he1 he2
          subst he1
          exact absurd ho hx
        | cons y pre =>
          injection he with he1 he2
          subst he1
          refine ⟨(pre ++ c :: post, c), ih.2 ⟨pre, o, post, he2, ho, ?_, hm, hset, rfl⟩, rfl⟩
          simpa [hx] using hk

/-- the outputs after the surplus `s` has been given to the change address -/
def Changed (X : Ext) (outs : List TxOut) (addr : Str) (idx : PVal) (s : Int) (outs' : List TxOut) (c : TxOut) : Prop :=
  ((outs.filter fun o => o.address = addr) = [] ∧ TxOut.create X addr s = .ok c ∧ outs' = c :: outs) ∨
  ∃ (pre : List TxOut) (o : TxOut) (post : List TxOut) (k : Nat), outs = pre ++ o :: post ∧ o.address = addr ∧
    (pre.filter fun o => o.address = addr).length = k ∧ Money o.satoshi ∧ o.setSatoshi X.uni (o.satoshi + s) = (c, .ok ()) ∧ outs' = pre ++ c :: post ∧
    ((outs.filter fun o => o.address = addr).length = 1 ∨
      1 < (outs.filter fun o => o.address = addr).length ∧ idx ≠ .none ∧ idx.asInt = some (k : Int))

theorem chooseChange_ok {idx : PVal} {n k : Nat} (hw : idx.isNone = true ∨ vWholeNumber idx = .ok ()) :
    chooseChange idx n = .ok k ↔ idx ≠ .none ∧ idx.asInt = some (k : Int) ∧ k < n := by
  have key : ∀ i : Int, 0 ≤ i → ((if ¬ (i < n) then (Except.error Err.valueError : R Nat) else .ok i.toNat) = .ok k ↔ i = k ∧ k < n) := by
    intro i hi
    simp only [ite_err_eq_ok, Except.ok.injEq, not_not]
    omega
  cases idx with
  | none => simp [chooseChange]
  | float f => simp [chooseChange, PVal.asInt]
  | int i =>
    have hi : 0 ≤ i := by
      rcases hw with h | h
      · simp [PVal.isNone] at h
      · exact vWholeNumber_int.1 h
    simpa [chooseChange, PVal.asInt] using key i hi
  | bool b =>
    simpa [chooseChange, PVal.asInt] using key (if b then 1 else 0) (by split <;> omega)
  | _ => simp [chooseChange, PVal.asInt]

theorem changeStep_ok {X : Ext} {outs outs' : List TxOut} {addr : Str} {idx : PVal} {s : Int} {c : TxOut}
    (hw : idx.isNone = true ∨ vWholeNumber idx = .ok ()) :
    changeStep X outs addr idx s = .ok (outs', c) ↔ Changed X outs addr idx s outs' c := by
  unfold changeStep Changed
  simp only
  by_cases h1 : (outs.filter fun o => o.address = addr).length > 1
  · rw [if_pos h1]
    simp only [R_bind_eq_ok, chooseChange_ok hw, bumpOutput_ok]
    constructor
    · rintro ⟨k, ⟨a1, a2, a3⟩, pre, o, post, e, ho, hk, hm, hset, rfl⟩
      exact .inr ⟨pre, o, post, k, e, ho, hk, hm, hset, rfl, .inr ⟨h1, a1, a2⟩⟩
    · rintro (⟨h, _⟩ | ⟨pre, o, post, k, e, ho, hk, hm, hset, rfl, h | ⟨_, a1, a2⟩⟩)
      · rw [h] at h1; simp at h1
      · omega
      · refine ⟨k, ⟨a1, a2, ?_⟩, pre, o, post, e, ho, hk, hm, hset, rfl⟩
        rw [e, List.filter_append, List.length_append, hk, List.filter_cons_of_pos (by simpa using ho), List.length_cons]
        omega
  · rw [if_neg h1]
    by_cases h2 : (outs.filter fun o => o.address = addr).length = 1
    · rw [if_pos h2, bumpOutput_ok]
      constructor
      · rintro ⟨pre, o, post, e, ho, hk, hm, hset, rfl⟩
        exact .inr ⟨pre, o, post, 0, e, ho, hk, hm, hset, rfl, .inl h2⟩
      · rintro (⟨h, _⟩ | ⟨pre, o, post, k, e, ho, hk, hm, hset, rfl, _⟩)
        · rw [h] at h2; simp at h2
        · refine ⟨pre, o, post, e, ho, ?_, hm, hset, rfl⟩
          rw [e, List.filter_append, List.length_append, List.filter_cons_of_pos (by simpa using ho), List.length_cons] at h2
          omega
    · rw [if_neg h2]
      simp only [R_bind_eq_ok, R_pure, Except.ok.injEq, Prod.mk.injEq]
      constructor
      · rintro ⟨c', hc, rfl, rfl⟩
        exact .inl ⟨List.length_eq_zero_iff.1 (by omega), hc, rfl⟩
      · rintro (⟨_, hc, rfl⟩ | ⟨pre, o, post, k, e, ho, hk, hm, hset, rfl, h | ⟨h, _⟩⟩)
        · exact ⟨c, hc, rfl, rfl⟩
        · omega
        · omega

theorem create_satoshi {X : Ext} (hs : ∀ b, (X.sha256 b).length = 32) {a : Str} {n : Int} {o : TxOut} (h : TxOut.create X a n = .ok o) :
    o.satoshi = n ∧ o.address = a ∧ Money n := by
  obtain ⟨h', k, _, _, rfl, hk, rfl⟩ := (TxOut_create_ok X hs).1 h
  exact ⟨rfl, rfl, by unfold Money; unfold maxMoney at hk; omega⟩

theorem outTotal_append (a b : List TxOut) : outTotal (a ++ b) = outTotal a + outTotal b := by simp [outTotal]
theorem outTotal_cons (x : TxOut) (l : List TxOut) : outTotal (x :: l) = x.satoshi + outTotal l := by simp [outTotal]

theorem Changed.total {X : Ext} (hs : ∀ b, (X.sha256 b).length = 32) {outs outs' : List TxOut} {addr : Str} {idx : PVal} {s : Int} {c : TxOut}
    (h : Changed X outs addr idx s outs' c) : outTotal outs' = outTotal outs + s := by
  rcases h with ⟨_, hc, rfl⟩ | ⟨pre, o, post, k, rfl, _, _, _, hset, rfl, _⟩
  · rw [outTotal_cons, (create_satoshi hs hc).1]; omega
  · obtain ⟨m, hm, _, _, rfl⟩ := setSatoshi_iff.1 hset
    rw [outTotal_append, outTotal_append, outTotal_cons, outTotal_cons, ← hm]
    simp only; omega

theorem Changed.address {X : Ext} (hs : ∀ b, (X.sha256 b).length = 32) {outs outs' : List TxOut} {addr : Str} {idx : PVal} {s : Int} {c : TxOut}
    (h : Changed X outs addr idx s outs' c) : c.address = addr ∧ c ∈ outs' ∧ Money c.satoshi := by
  rcases h with ⟨_, hc, rfl⟩ | ⟨pre, o, post, k, rfl, ho, _, _, hset, rfl, _⟩
  · obtain ⟨h1, h2, h3⟩ := create_satoshi hs hc
    exact ⟨h2, by simp, by rw [h1]; exact h3⟩
  · obtain ⟨m, hm, h1, h2, rfl⟩ := setSatoshi_iff.1 hset
    refine ⟨ho, by simp, ?_⟩
    unfold Money; unfold maxMoney at h2; simp only; omega

theorem handleChange_ok {X : Ext} (hs : ∀ b, (X.sha256 b).length = 32) {sel : List TxIn} {outs outs' : List TxOut} {fee ch : Int} {addr : Str} {idx : PVal}
    (hw : idx.isNone = true ∨ vWholeNumber idx = .ok ()) :
    handleChange X sel outs fee addr idx = .ok (outs', ch) ↔
      (inTotal sel = outTotal outs + fee ∧ outs' = outs ∧ ch = 0) ∨
      (inTotal sel ≠ outTotal outs + fee ∧ Money (inTotal sel - (outTotal outs + fee)) ∧
        ∃ c, Changed X outs addr idx (inTotal sel - (outTotal outs + fee)) outs' c ∧ ch = c.satoshi ∧
          Money (outTotal outs') ∧ Money (inTotal sel)) := by
  have m0 : Money 0 := by unfold Money; omega
  have eI : (sel.map TxIn.amount).sum = inTotal sel := rfl
  have eO : ∀ l : List TxOut, (l.map TxOut.satoshi).sum = outTotal l := fun _ => rfl
  unfold handleChange spendSurplus
  simp only [eI, eO]
  rw [s2b_bind]
  simp only [m0, true_and, raise_eq, R_pure]
  by_cases h1 : inTotal sel = outTotal outs + fee
  · simp only [h1, if_true, R_bind_ok, ne_eq, not_true, if_false, false_and, or_false]
    rw [s2b_bind]
    simp only [m0, true_and, Except.ok.injEq, Prod.mk.injEq]
    exact ⟨fun h => ⟨h.1.symm, h.2.symm⟩, fun h => ⟨h.1.symm, h.2.symm⟩⟩
  · simp only [h1, if_false, false_and, false_or, ne_eq, not_false_eq_true, true_and]
    constructor
    · intro h
      simp only [R_bind_eq_ok] at h
      obtain ⟨r, ⟨s1, hs1, ⟨o2, c2⟩, hstep, s2, hs2, s3, hs3, he⟩, h⟩ := h
      simp only [Except.ok.injEq] at he
      subst he
      have hC := (changeStep_ok hw).1 hstep
      have ht := hC.total hs
      have hms := s2b_ok.1 ⟨_, hs3⟩
      simp only at h
      rw [if_neg (by rw [ht]; omega)] at h
      simp only [R_bind_eq_ok, Except.ok.injEq, Prod.mk.injEq] at h
      obtain ⟨_, _, rfl, rfl⟩ := h
      refine ⟨s2b_ok.1 ⟨_, hs1⟩, c2, hC, rfl, s2b_ok.1 ⟨_, hs2⟩, ?_⟩
      simp only at hms
      rw [ht] at hms
      unfold Money at *; omega
    · rintro ⟨hm, c, hC, rfl, hm2, hm3⟩
      have ht := hC.total hs
      obtain ⟨_, _, hmc⟩ := hC.address hs
      obtain ⟨s1, hs1⟩ := (s2b_ok (u := X.uni)).2 hm
      obtain ⟨s2, hs2⟩ := (s2b_ok (u := X.uni)).2 hm2
      have hm4 : Money (outTotal outs' + fee) := by rw [ht]; unfold Money at *; omega
      obtain ⟨s3, hs3⟩ := (s2b_ok (u := X.uni)).2 hm4
      obtain ⟨s4, hs4⟩ := (s2b_ok (u := X.uni)).2 hmc
      simp only [R_bind_eq_ok]
      refine ⟨(outs', c.satoshi), ⟨s1, hs1, (outs', c), (changeStep_ok hw).2 hC, s2, hs2, s3, hs3, rfl⟩, ?_⟩
      simp only
      rw [if_neg (by rw [ht]; omega)]
      simp only [R_bind_eq_ok]
      exact ⟨s4, hs4, trivial⟩

/-! ## the spending limit -/

/-- the limit in satoshi for a percentage `q` and an available total `t` (binary64 arithmetic) -/
def limitOf (q : ℚ) (t : Int) : Int := ⌈rndQ (rndQ (q / 100) * t)⌉

theorem maxSpend_ok {q : ℚ} {t : Int} (hq : -1 < q ∧ q < 101) (ht : Money t) : maxSpend (.fin q) t = .ok (limitOf q t) := by
  have h2 : |rndQ (q / 100)| ≤ 2 := by
    have e : rndQ 2 = 2 := by exact_mod_cast rndQ_nat (n := 2) (by norm_num)
    rw [abs_le]
    constructor
    · have := rndQ_mono (p := -2) (q := q / 100) (by linarith [hq.1])
      rw [rndQ_neg, e] at this; exact this
    · have := rndQ_mono (p := q / 100) (q := 2) (by linarith [hq.2])
      rw [e] at this; exact this
  have htq : (0 : ℚ) ≤ t ∧ (t : ℚ) ≤ 2100000000000000 := by
    constructor
    · exact_mod_cast ht.1
    · exact_mod_cast ht.2
  have h3 : |rndQ (rndQ (q / 100) * t)| ≤ 2 ^ 53 := by
    have e : rndQ (2 ^ 53) = 2 ^ 53 := by exact_mod_cast rndQ_nat (n := 2 ^ 53) (by norm_num)
    rw [abs_le] at h2 ⊢
    have b : |rndQ (q / 100) * t| ≤ 2 ^ 53 := by
      rw [abs_mul, abs_of_nonneg htq.1]
      calc |rndQ (q / 100)| * (t : ℚ) ≤ 2 * 2100000000000000 := mul_le_mul (abs_le.2 h2) htq.2 htq.1 (by norm_num)
        _ ≤ 2 ^ 53 := by norm_num
    rw [abs_le] at b
    constructor
    · have := rndQ_mono b.1
      rw [rndQ_neg, e] at this; exact this
    · have := rndQ_mono b.2
      rw [e] at this; exact this
  unfold maxSpend
  have f1 : rnd64 (q / 100) = .fin (rndQ (q / 100)) := rnd64_fin (lt_of_le_of_lt h2 (by decide +kernel))
  have f2 : rnd64 (rndQ (q / 100) * t) = .fin (rndQ (rndQ (q / 100) * t)) := rnd64_fin (lt_of_le_of_lt h3 (by decide +kernel))
  have e1 : (PyFloat.fin q).div (.fin 100) = .ok (.fin (rndQ (q / 100))) := by
    simp [PyFloat.div, f1]
  rw [e1, R_bind_ok, money_float ht, R_bind_ok]
  show (rnd64 (rndQ (q / 100) * t)).ceil = _
  rw [f2]; rfl

theorem checkSpend_ok {u : UniDB} {q : ℚ} {t sel ch : Int} {x : Unit} (hq : -1 < q ∧ q < 101) (ht : Money t) :
    checkSpend u (.fin q) t sel ch = .ok x ↔
      Money (limitOf q t) ∧ Money (sel - ch) ∧ t ≠ 0 ∧ sel - ch ≤ limitOf q t ∧ limitOf q t ≠ 0 := by
  unfold checkSpend
  rw [maxSpend_ok hq ht, R_bind_ok]
  simp only [s2b_bind, money_float ht, R_bind_ok, R_pure, raise_eq]
  constructor
  · rintro ⟨h1, h2, h3⟩
    rw [money_float h2] at h3
    simp only [R_bind_ok] at h3
    by_cases ht0 : t = 0
    · subst ht0; simp [PyFloat.div] at h3
    · refine ⟨h1, h2, ht0, ?_⟩
      have hne : ¬ (t : ℚ) = 0 := by exact_mod_cast ht0
      simp only [PyFloat.div, hne, if_false, R_bind_ok] at h3
      by_cases hle : sel - ch ≤ limitOf q t
      · rw [if_pos hle, money_float h1] at h3
        simp only [R_bind_ok] at h3
        refine ⟨hle, ?_⟩
        intro h0
        rw [h0] at h3
        simp at h3
      · rw [if_neg hle] at h3; simp at h3
  · rintro ⟨h1, h2, h3, h4, h5⟩
    refine ⟨h1, h2, ?_⟩
    rw [money_float h2, R_bind_ok]
    have hne : ¬ (t : ℚ) = 0 := by exact_mod_cast h3
    have hne2 : ¬ ((limitOf q t : ℤ) : ℚ) = 0 := by exact_mod_cast h5
    simp only [PyFloat.div, hne, if_false, R_bind_ok, if_pos h4, money_float h1, hne2]

theorem estimate_eq (n m : Int) :
    estimateTransactionSize n m = if 0 ≤ n ∧ n ≤ 252 ∧ 0 ≤ m ∧ m ≤ 252 then .ok (10 + 179 * n + 34 * m)
      else .error .valueError := by
  unfold estimateTransactionSize
  by_cases hn : n < 0 ∨ 252 < n
  · rw [intToVarInt_out hn, if_neg (by omega)]; rfl
  · obtain ⟨a, rfl⟩ : ∃ a : Nat, n = a := ⟨n.toNat, by omega⟩
    rw [intToVarInt_nat (by omega)]
    by_cases hm : m < 0 ∨ 252 < m
    · rw [intToVarInt_out hm, if_neg (by omega)]; simp only [R_bind_ok, hexLen_hex, R_bind_err]
    · obtain ⟨b, rfl⟩ : ∃ a : Nat, m = a := ⟨m.toNat, by omega⟩
      rw [intToVarInt_nat (by omega), if_pos (by omega)]
      simp only [R_bind_ok, hexLen_hex, List.length_singleton, R_pure, Except.ok.injEq]
      push_cast; ring

theorem estimate_ok {n m : Nat} {s : Int} :
    estimateTransactionSize n m = .ok s ↔ n ≤ 252 ∧ m ≤ 252 ∧ s = 10 + 179 * n + 34 * m := by
  rw [estimate_eq]
  split
  · rw [Except.ok.injEq]; constructor
    · rintro rfl; exact ⟨by omega, by omega, rfl⟩
    · rintro ⟨_, _, rfl⟩; rfl
  · constructor
    · intro h; cases h
    · rintro ⟨_, _, rfl⟩; omega

end BT
