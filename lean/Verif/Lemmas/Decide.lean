import Verif.Lemmas.WellFormed

/-! # Deciding the outcome of `create_transaction` for well-formed arguments -/

namespace BT
open Spec

theorem feeOf_bound {size : Nat} {q : ℚ} (hq : 0 ≤ q) (hs : size ≤ 2 ^ 16) (h : (size : ℚ) * q ≤ 2099999999999999) :
    feeOf size q ≤ 2100000000000000 := by
  unfold feeOf
  rw [Int.ceil_le]
  have e : rndQ 2100000000000000 = 2100000000000000 := by
    have := rndQ_nat (n := 2100000000000000) (by norm_num)
    exact_mod_cast this
  push_cast
  rw [← e]
  apply rndQ_mono
  have h1 := rndQ_err_abs hq
  rw [abs_le] at h1
  have hs' : (size : ℚ) ≤ 2 ^ 16 := by exact_mod_cast hs
  have hs0 : (0 : ℚ) ≤ size := by positivity
  have h2 : rndQ q ≤ q + q / 2 ^ 53 + 1 / 2 ^ 60 := by linarith [h1.2]
  have h3 : (size : ℚ) * rndQ q ≤ size * q + size * q / 2 ^ 53 + size / 2 ^ 60 := by
    have := mul_le_mul_of_nonneg_left h2 hs0
    calc (size : ℚ) * rndQ q ≤ size * (q + q / 2 ^ 53 + 1 / 2 ^ 60) := this
      _ = _ := by ring
  have h4 : (size : ℚ) * q / 2 ^ 53 ≤ 2099999999999999 / 2 ^ 53 := by
    apply div_le_div_of_nonneg_right h; positivity
  have h5 : (size : ℚ) / 2 ^ 60 ≤ 2 ^ 16 / 2 ^ 60 := by
    apply div_le_div_of_nonneg_right hs'; positivity
  norm_num at h3 h4 h5 ⊢
  linarith

theorem limitOf_mono {q q' : ℚ} {t : Int} (ht : 0 ≤ t) (h : q ≤ q') : limitOf q t ≤ limitOf q' t := by
  unfold limitOf
  apply Int.ceil_mono
  apply rndQ_mono
  exact mul_le_mul_of_nonneg_right (rndQ_mono (by linarith)) (by exact_mod_cast ht)

theorem limitOf_nonneg {q : ℚ} {t : Int} (hq : 0 ≤ q) (ht : 0 ≤ t) : 0 ≤ limitOf q t := by
  unfold limitOf
  apply Int.ceil_nonneg
  exact rndQ_nonneg (mul_nonneg (rndQ_nonneg (by positivity)) (by exact_mod_cast ht))

theorem finalFee_over {u : UniDB} {kind : PVal ⊕ PyFloat} {size fee : Int} {maxFee : PVal} (hw : vWholeNumber maxFee = .ok ())
    (hs : 0 < size ∧ size < 2 ^ 53) (hk : FeeP kind size (.int fee)) (hm : Money fee) (ho : capOf maxFee < fee) :
    finalFee u kind size maxFee = .error .valueError := by
  have hsf : PyFloat.ofInt size = .ok (.fin size) := ofInt_small (by rw [abs_of_pos hs.1]; omega)
  obtain ⟨s, hs'⟩ := (s2b_ok (u := u)).2 hm
  have hne : ¬ ((size : ℤ) : ℚ) = 0 := by have := hs.1; exact_mod_cast (by omega : size ≠ 0)
  have hov : overFee maxFee fee = true := by
    by_contra hc
    rw [Bool.not_eq_true, overFee_false hw] at hc
    omega
  rw [finalFee_eq]
  rcases hk with rfl | ⟨r, n, rfl, hf, hn⟩
  · simp only [R_pure, R_bind_ok, vInteger, PVal.asInt, money_float hm, hsf, PyFloat.div, hne, if_false, satoshiToBitcoinP, hs', hov, if_true, raise_eq, R_bind_err]
  · injection hn with hn; subst hn
    simp only [R_pure, R_bind_ok, hf, vInteger, PVal.asInt, money_float hm, hsf, PyFloat.div, hne, if_false, satoshiToBitcoinP, hs', hov, if_true, raise_eq, R_bind_err]

theorem reportAddresses_dup {u : UniDB} {ins : List TxIn} {outs : List TxOut}
    (h1 : ∀ p ∈ addrTotals (ins.map fun i => (i.address, i.amount)), Money p.2)
    (h2 : ∀ p ∈ addrTotals (outs.map fun o => (o.address, o.satoshi)), Money p.2)
    (hd : ¬ (outs.map TxOut.address).Nodup) : reportAddresses u ins outs false = .error .duplicateOutputAddress := by
  have hA : ∀ l : List (Str × Int), (∀ p ∈ l, Money p.2) → ∃ l', mapR (fun p : Str × Int => satoshiToBitcoin u p.2) l = .ok l' := by
    intro l hl
    rw [mapR_all]
    exact fun p hp => s2b_ok.2 (hl p hp)
  obtain ⟨l1, e1⟩ := hA _ h1
  obtain ⟨l2, e2⟩ := hA _ h2
  have hc : ((outs.map TxOut.address).all fun a => !(1 < (outs.map TxOut.address).count a)) = false := by
    rw [← Bool.not_eq_true]
    exact fun hc => hd ((all_count _).1 hc)
  simp only [reportAddresses, e1, e2, R_bind_ok, hc]
  rfl

theorem split_kth (addr : Str) : ∀ (outs : List TxOut) (k : Nat), k < (outs.filter fun o => o.address = addr).length →
    ∃ pre o post, outs = pre ++ o :: post ∧ o.address = addr ∧ (pre.filter fun o => o.address = addr).length = k
  | [], k, h => by simp at h
  | x :: l, k, h => by
    by_cases hx : x.address = addr
    · cases k with
      | zero => exact ⟨[], x, l, rfl, hx, rfl⟩
      | succ k =>
        rw [List.filter_cons_of_pos (by simpa using hx)] at h
        obtain ⟨pre, o, post, h1, h2, h3⟩ := split_kth addr l k (by simpa using h)
        exact ⟨x :: pre, o, post, by rw [h1]; rfl, h2, by rw [List.filter_cons_of_pos (by simpa using hx)]; simp [h3]⟩
    · rw [List.filter_cons_of_neg (by simpa using hx)] at h
      obtain ⟨pre, o, post, h1, h2, h3⟩ := split_kth addr l k h
      exact ⟨x :: pre, o, post, by rw [h1]; rfl, h2, by rw [List.filter_cons_of_neg (by simpa using hx)]; exact h3⟩

theorem outTotal_split (pre : List TxOut) (o : TxOut) (post : List TxOut) : outTotal (pre ++ o :: post) = outTotal pre + o.satoshi + outTotal post := by
  simp [outTotal]; ring

/-- the surplus can be given to the change address; what is spent is at most outputs + fee -/
theorem changed_exists {X : Ext} (hs : ∀ b, (X.sha256 b).length = 32) {outs : List TxOut} {ca : Str} {idx : Option PVal} {s : Int}
    (hc : CanAllocate outs ca idx) (hv : vBitcoinAddress X ca = .ok ()) (h0 : 0 < s) (hn : ∀ o ∈ outs, 0 ≤ o.satoshi)
    (hm : outTotal outs + s ≤ 2100000000000000) :
    ∃ outs' c, Changed X outs ca (idx.getD .none) s outs' c ∧ s ≤ c.satoshi ∧ c.satoshi ≤ outTotal outs + s ∧ outs'.length ≤ outs.length + 1 := by
  have ho0 := outTotal_nonneg hn
  by_cases he : (outs.filter fun o => o.address = ca) = []
  · obtain ⟨b, hb, hbh⟩ := vBitcoinAddress_hash X hs hv
    have hcr := (TxOut_create_ok X hs (a := ca) (n := s) (o := outOf ca b s.toNat)).2 ⟨b, s.toNat, hb, hbh, by omega, by unfold maxMoney; omega, rfl⟩
    refine ⟨_, _, .inl ⟨he, hcr, rfl⟩, ?_, ?_, by simp⟩
    · rw [(create_satoshi hs hcr).1]
    · rw [(create_satoshi hs hcr).1]; omega
  · have hpos : 0 < (outs.filter fun o => o.address = ca).length := List.length_pos_iff.2 he
    have hk : ∃ k : Nat, k < (outs.filter fun o => o.address = ca).length ∧ ((outs.filter fun o => o.address = ca).length = 1 ∨
        1 < (outs.filter fun o => o.address = ca).length ∧ idx.getD .none ≠ .none ∧ (idx.getD .none).asInt = some (k : Int)) := by
      by_cases h1 : (outs.filter fun o => o.address = ca).length = 1
      · exact ⟨0, hpos, .inl h1⟩
      · rcases hc with hc | ⟨k, rfl, hk⟩
        · omega
        · exact ⟨k, hk, .inr ⟨by omega, by simp, rfl⟩⟩
    obtain ⟨k, hk1, hk2⟩ := hk
    obtain ⟨pre, o, post, g1, g2, g3⟩ := split_kth ca outs k hk1
    have hom : o ∈ outs := by rw [g1]; simp
    have hoo := hn o hom
    have hpre := outTotal_nonneg (l := pre) fun o ho => hn o (by rw [g1]; simp [ho])
    have hpost := outTotal_nonneg (l := post) fun o ho => hn o (by rw [g1]; simp [ho])
    have htot := outTotal_split pre o post
    rw [← g1] at htot
    obtain ⟨j, hj⟩ : ∃ j : Nat, o.satoshi + s = j := ⟨(o.satoshi + s).toNat, by omega⟩
    have hset := (setSatoshi_iff (u := X.uni) (o := o) (n := o.satoshi + s) (c := { o with value := hex (leBytes 8 j), satoshi := j, bitcoin := btcText j })).2
      ⟨j, hj, by omega, by unfold maxMoney; omega, rfl⟩
    refine ⟨_, _, .inr ⟨pre, o, post, k, g1, g2, g3, by unfold Money; omega, hset, rfl, hk2⟩, ?_, ?_, ?_⟩
    · show s ≤ (j : Int); omega
    · show (j : Int) ≤ _; omega
    · rw [g1]; simp

end BT
