import Verif.Tx
import Verif.Lemmas.Amount
import Verif.Lemmas.Float

namespace BT
open Spec

/-! # 28-digit decimals and `'{:.kf}'.format` -/

theorem natDigits_len_bounds {n : Nat} (h : n ≠ 0) :
    (10 : ℚ) ^ (((natDigits 10 n).length : ℤ) - 1) ≤ n ∧ (n : ℚ) < 10 ^ (((natDigits 10 n).length : ℤ)) := by
  have hne : (natDigits 10 n).length ≠ 0 := by
    have := natDigits_ne_nil n
    simpa using this
  set L := (natDigits 10 n).length with hL
  have h1 : n < 10 ^ L := (natDigits_length_lt (by omega)).1 le_rfl
  have h2 : 10 ^ (L - 1) ≤ n := by
    by_contra hc
    push Not at hc
    by_cases hl : L - 1 = 0
    · rw [hl] at hc; simp at hc; exact h hc
    · have := (natDigits_length_lt (n := n) (k := L - 1) (by omega)).2 hc
      omega
  constructor
  · have : ((L : ℤ) - 1) = ((L - 1 : ℕ) : ℤ) := by omega
    rw [this, zpow_natCast]; exact_mod_cast h2
  · rw [zpow_natCast]; exact_mod_cast h1

theorem decExp_bounds {q : ℚ} (h : 0 < q) : (10 : ℚ) ^ (decExp q - 1) ≤ q ∧ q < 10 ^ decExp q := by
  have hn : q.num.natAbs ≠ 0 := by
    have := Rat.num_pos.2 h; omega
  have hd := q.den_ne_zero
  obtain ⟨n1, n2⟩ := natDigits_len_bounds hn
  obtain ⟨d1, d2⟩ := natDigits_len_bounds hd
  have hq : q = (q.num.natAbs : ℚ) / q.den := by
    conv_lhs => rw [← Rat.num_div_den q]
    have : ((q.num.natAbs : ℤ) : ℚ) = q.num := by
      have := Rat.num_pos.2 h
      rw [Int.natAbs_of_nonneg this.le]
    rw [← this]; simp
  have hdpos : (0 : ℚ) < q.den := by exact_mod_cast Nat.pos_of_ne_zero hd
  unfold decExp
  simp only
  set a : ℤ := ((natDigits 10 q.num.natAbs).length : ℤ) with ha
  set b : ℤ := ((natDigits 10 q.den).length : ℤ) with hb
  have low : (10 : ℚ) ^ (a - b - 1) ≤ q := by
    conv_rhs => rw [hq]
    rw [le_div_iff₀ hdpos]
    calc (10 : ℚ) ^ (a - b - 1) * q.den ≤ 10 ^ (a - b - 1) * 10 ^ b := by
          apply mul_le_mul_of_nonneg_left d2.le; positivity
      _ = 10 ^ (a - 1) := by rw [← zpow_add₀ (by norm_num)]; congr 1; ring
      _ ≤ _ := n1
  have high : q < (10 : ℚ) ^ (a - b + 1) := by
    conv_lhs => rw [hq]
    rw [div_lt_iff₀ hdpos]
    calc (q.num.natAbs : ℚ) < 10 ^ a := n2
      _ = 10 ^ (a - b + 1) * 10 ^ (b - 1) := by rw [← zpow_add₀ (by norm_num)]; congr 1; ring
      _ ≤ _ := by apply mul_le_mul_of_nonneg_left d1; positivity
  split
  · exact ⟨low, by assumption⟩
  · rename_i hc
    exact ⟨by simpa using (not_lt.1 hc), high⟩

theorem decExp_le {q : ℚ} (h : 0 < q) {k : ℤ} (hk : q < 10 ^ k) : decExp q ≤ k := by
  have h1 := (decExp_bounds h).1
  have : (10 : ℚ) ^ (decExp q - 1) < 10 ^ k := lt_of_le_of_lt h1 hk
  rw [zpow_lt_zpow_iff_right₀ (by norm_num)] at this
  omega

theorem dec28_err {q : ℚ} (h : 0 < q) {k : ℤ} (hk : q < 10 ^ k) : |dec28 q - q| ≤ 10 ^ (k - 28) / 2 := by
  have he := decExp_le h hk
  unfold dec28
  rw [if_neg h.ne']
  simp only
  set s := decExp q - 28
  have hp : (0 : ℚ) < 10 ^ s := by positivity
  have hs : (10 : ℚ) ^ s ≤ 10 ^ (k - 28) := by
    rw [zpow_le_zpow_iff_right₀ (by norm_num)]; omega
  have h1 := rhe_le (q / 10 ^ s)
  have h2 := rhe_ge (q / 10 ^ s)
  have e : q / 10 ^ s * 10 ^ s = q := by field_simp
  have h3 := mul_le_mul_of_nonneg_right h1 hp.le
  have h4 := mul_le_mul_of_nonneg_right h2 hp.le
  rw [add_mul, e] at h3
  rw [sub_mul, e] at h4
  rw [abs_le]
  constructor <;> linarith

theorem dec28_exact {q : ℚ} (h : 0 < q) {k : ℤ} (hk : q < 10 ^ k) {m : ℤ} (hm : q * 10 ^ (28 - k) = m) : dec28 q = q := by
  have he := decExp_le h hk
  unfold dec28
  rw [if_neg h.ne']
  simp only
  set s := decExp q - 28 with hs
  have hp : (10 : ℚ) ^ s ≠ 0 := by positivity
  obtain ⟨j, hj⟩ : ∃ j : ℕ, -s = (28 - k) + (j : ℤ) := ⟨(-s - (28 - k)).toNat, by omega⟩
  have : q / 10 ^ s = ((m * 10 ^ j : ℤ) : ℚ) := by
    push_cast
    rw [← hm, div_eq_mul_inv, ← zpow_neg, hj, zpow_add₀ (by norm_num), zpow_natCast]
    ring
  rw [this, rhe_int, ← this]
  field_simp

theorem rhe_straddle {x y : ℚ} (h : x ≤ y) (hn : rhe x ≠ rhe y) : ∃ k : ℤ, x ≤ k + 1 / 2 ∧ (k : ℚ) + 1 / 2 ≤ y := by
  have hm := rhe_mono h
  have hlt : rhe x + 1 ≤ rhe y := by omega
  have hlt' : (rhe x : ℚ) + 1 ≤ rhe y := by exact_mod_cast hlt
  refine ⟨rhe x, ?_, ?_⟩
  · have := rhe_ge x; linarith
  · have := rhe_le y; linarith

/-- rounding `fee/size` first to 28 digits and then to `4` places is the same as rounding it
once, for all amounts below `10^16` and sizes up to a million -/
theorem decDiv_round4 {fee size : Nat} (hf : fee < 10 ^ 16) (h1 : 1 ≤ size) (h2 : size ≤ 10 ^ 6) :
    rhe (decDiv (fee : ℤ) (size : ℤ) * 10 ^ 4) = rhe ((fee : ℚ) / (size : ℚ) * 10 ^ 4) := by
  unfold decDiv
  push_cast
  have hs : (0 : ℚ) < size := by exact_mod_cast h1
  have hs2 : (size : ℚ) ≤ 10 ^ 6 := by exact_mod_cast h2
  have hs1 : (1 : ℚ) ≤ size := by exact_mod_cast h1
  rcases Nat.eq_zero_or_pos fee with rfl | hfp
  · simp [dec28]
  have hfq : (0 : ℚ) < fee := by exact_mod_cast hfp
  set q : ℚ := (fee : ℚ) / size with hq
  have hq0 : 0 < q := by positivity
  have hq16 : q < 10 ^ (16 : ℤ) := by
    have a : (fee : ℚ) < 10 ^ 16 := by exact_mod_cast hf
    calc q ≤ fee := div_le_self hfq.le hs1
      _ < 10 ^ (16 : ℤ) := by rw [show (16 : ℤ) = ((16 : ℕ) : ℤ) from rfl, zpow_natCast]; exact a
  have herr := dec28_err hq0 hq16
  rw [show ((16 : ℤ) - 28) = -12 from rfl] at herr
  by_contra hne
  have key : ∃ k : ℤ, |q * 10 ^ 4 - ((k : ℚ) + 1 / 2)| ≤ |dec28 q - q| * 10 ^ 4 := by
    rcases le_total (q * 10 ^ 4) (dec28 q * 10 ^ 4) with hle | hle
    · obtain ⟨k, k1, k2⟩ := rhe_straddle hle fun h => hne h.symm
      refine ⟨k, ?_⟩
      rw [abs_of_nonpos (by linarith), abs_of_nonneg (by linarith)]
      linarith
    · obtain ⟨k, k1, k2⟩ := rhe_straddle hle hne
      refine ⟨k, ?_⟩
      rw [abs_of_nonneg (by linarith), abs_of_nonpos (by linarith)]
      linarith
  obtain ⟨k, hk⟩ := key
  have hk2 : |q * 10 ^ 4 - ((k : ℚ) + 1 / 2)| ≤ 1 / (2 * 10 ^ 7) := by
    refine hk.trans ?_
    have : (10 : ℚ) ^ (-12 : ℤ) / 2 * 10 ^ 4 ≤ 1 / (2 * 10 ^ 7) := by norm_num
    nlinarith
  have hnum : q * 10 ^ 4 - ((k : ℚ) + 1 / 2) = ((2 * 10 ^ 4 * fee - (2 * k + 1) * size : ℤ) : ℚ) / (2 * size) := by
    rw [hq]; push_cast; field_simp; ring
  by_cases hz : (2 * 10 ^ 4 * (fee : ℤ) - (2 * k + 1) * size) = 0
  · apply hne
    rw [hz] at hnum
    have hq' : q = (2 * k + 1) / 20000 := by
      have : q * 10 ^ 4 = k + 1 / 2 := by
        have : q * 10 ^ 4 - ((k : ℚ) + 1 / 2) = 0 := by rw [hnum]; simp
        linarith
      linarith
    rw [dec28_exact hq0 hq16 (m := (2 * k + 1) * 5 * 10 ^ 7)]
    rw [hq', show ((28 : ℤ) - 16) = ((12 : ℕ) : ℤ) from rfl, zpow_natCast]
    push_cast; ring
  · have hone : (1 : ℚ) ≤ |((2 * 10 ^ 4 * fee - (2 * k + 1) * size : ℤ) : ℚ)| := by
      have := Int.one_le_abs hz
      exact_mod_cast this
    rw [hnum, abs_div, abs_of_pos (by positivity : (0 : ℚ) < 2 * size)] at hk2
    rw [div_le_iff₀ (by positivity)] at hk2
    have : (1 : ℚ) / (2 * 10 ^ 7) * (2 * size) ≤ 1 / 10 := by
      nlinarith
    exact absurd (hone.trans (hk2.trans this)) (by norm_num)

/-- shape of `'{:.kf}'.format` -/
theorem fmtFixed_form {k : Nat} (hk : 0 < k) (q : ℚ) : ∃ ip fp : Str, fmtFixed k q = ip ++ '.' :: fp ∧ fp.length = k ∧ ip ≠ [] ∧
    (∀ c ∈ ip ++ fp, IsDig c) ∧ (∀ u, numeral u (ip ++ fp) = (rhe (q * 10 ^ k)).toNat) ∧ (ip = ['0'] ∨ ip.head? ≠ some '0') := by
  set n := (rhe (q * 10 ^ k)).toNat with hn
  have hlen : (natDigits 10 (n % 10 ^ k)).length ≤ k :=
    (natDigits_length_lt hk).2 (Nat.mod_lt _ (by positivity))
  refine ⟨natDigits 10 (n / 10 ^ k), padDigits k (n % 10 ^ k), ?_, ?_, natDigits_ne_nil _, ?_, ?_, ?_⟩
  · simp [fmtFixed, ← hn]
  · simp only [padDigits, List.length_append, List.length_replicate]; omega
  · intro c hc
    simp only [padDigits, List.mem_append, List.mem_replicate] at hc
    rcases hc with hc | hc | hc
    · exact natDigits_dig _ c hc
    · rw [hc.2]; exact isDig_zero
    · exact natDigits_dig _ c hc
  · intro u
    have : (padDigits k (n % 10 ^ k)).length = k := by
      simp only [padDigits, List.length_append, List.length_replicate]; omega
    rw [numeral_append, this]
    unfold padDigits
    rw [numeral_append, numeral_zeros, natDigits_numeral, natDigits_numeral]
    have := Nat.div_add_mod n (10 ^ k)
    rw [mul_comm] at this
    simpa using this
  · by_cases h : n / 10 ^ k = 0
    · left; rw [h]; rfl
    · right; exact natDigits_head _ h

/-- `fee_rate_satoshi_to_bitcoin` divides the four-place value exactly -/
theorem feeRateBitcoin_round4 (r : ℚ) (h0 : 0 ≤ rhe (r * 10 ^ 4)) (h1 : rhe (r * 10 ^ 4) < 10 ^ 21) :
    feeRateBitcoin (round4 r) = fmtFixed 8 ((rhe (r * 10 ^ 4) : ℚ) / 10 ^ 12) := by
  unfold feeRateBitcoin round4
  set m := rhe (r * 10 ^ 4)
  have e : (m : ℚ) / 10 ^ 4 / 10 ^ 8 = m / 10 ^ 12 := by rw [div_div]; norm_num
  rw [e]
  congr 1
  rcases h0.eq_or_lt with h | h
  · rw [← h]; simp [dec28]
  · have hm : (0 : ℚ) < m := by exact_mod_cast h
    have hm2 : (m : ℚ) < 10 ^ 21 := by exact_mod_cast h1
    refine dec28_exact (k := 16) (by positivity) ?_ (m := m) ?_
    · rw [show (16 : ℤ) = ((16 : ℕ) : ℤ) from rfl, zpow_natCast, div_lt_iff₀ (by positivity)]
      refine hm2.trans_le ?_
      norm_num
    · rw [show ((28 : ℤ) - 16) = ((12 : ℕ) : ℤ) from rfl, zpow_natCast]
      field_simp

end BT
