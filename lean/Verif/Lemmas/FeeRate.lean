import Verif.Lemmas.Facts

/-! # The arithmetic of the fee rate and of the spending limit -/

namespace BT
open Spec

/-- the fee for a rate, in binary64 arithmetic -/
def feeOf (size : Int) (q : ℚ) : Int := ⌈rndQ (size * rndQ q)⌉

theorem rndQ_err_abs {q : ℚ} (h : 0 ≤ q) : |rndQ q - q| ≤ q / 2 ^ 53 + 1 / 2 ^ 60 := by
  rcases h.lt_or_eq with hpos | h0
  · by_cases hb : (2 : ℚ) ^ (-1022 : ℤ) ≤ q
    · have := rndQ_err hb
      have h2 : (0 : ℚ) ≤ 1 / 2 ^ 60 := by positivity
      linarith
    · push Not at hb
      have e : rndQ q = rndPos q := by unfold rndQ; rw [if_neg hpos.ne', if_neg (by linarith)]
      rw [e]
      have h1 := rndPos_err q
      have h2 : (2 : ℚ) ^ ulpExp q ≤ 2 ^ (-61 : ℤ) := by
        rw [two_zpow_le]
        have := two_zpow_lt.1 ((floorLog2_bounds hpos).1.trans_lt hb)
        unfold ulpExp; omega
      have h3 : (2 : ℚ) ^ (-61 : ℤ) = 1 / 2 ^ 61 := by
        rw [zpow_neg, one_div]; norm_cast
      have h4 : (0 : ℚ) ≤ q / 2 ^ 53 := by positivity
      rw [h3] at h2
      have h5 : (1 : ℚ) / 2 ^ 61 / 2 ≤ 1 / 2 ^ 60 := by norm_num
      linarith
  · subst h0
    simp

theorem ceil_close {y z : ℚ} (h : |y - z| < 1) : |⌈y⌉ - ⌈z⌉| ≤ 1 := by
  rw [abs_lt] at h
  have h1 : ⌈y⌉ ≤ ⌈z⌉ + 1 := by
    rw [← Int.ceil_add_one]; exact Int.ceil_mono (by linarith)
  have h2 : ⌈z⌉ ≤ ⌈y⌉ + 1 := by
    rw [← Int.ceil_add_one]; exact Int.ceil_mono (by linarith)
  rw [abs_le]; omega

/-- two roundings of a value below 21 million bitcoin move it by less than one satoshi -/
theorem two_roundings {c r z e : ℚ} (hc0 : 0 ≤ c) (hz : z = c * e) (he0 : 0 ≤ e) (hc : c ≤ 2 ^ 52) (hr : r = rndQ e)
    (hy : rndQ (c * r) ≤ 2100000000000000) : |rndQ (c * r) - z| < 1 := by
  have hr0 : 0 ≤ r := by rw [hr]; exact rndQ_nonneg he0
  have hx0 : 0 ≤ c * r := mul_nonneg hc0 hr0
  have e1 := rndQ_err_abs hx0
  have e2 := rndQ_err_abs he0
  rw [← hr] at e2
  rw [abs_le] at e1 e2
  have e3 : c * r - c * e ≤ c * (e / 2 ^ 53 + 1 / 2 ^ 60) := by
    have := mul_le_mul_of_nonneg_left e2.2 hc0
    linarith
  have e4 : -(c * (e / 2 ^ 53 + 1 / 2 ^ 60)) ≤ c * r - c * e := by
    have := mul_le_mul_of_nonneg_left e2.1 hc0
    linarith
  have e5 : c * (e / 2 ^ 53 + 1 / 2 ^ 60) = z / 2 ^ 53 + c / 2 ^ 60 := by rw [hz]; ring
  rw [e5] at e3 e4
  rw [← hz] at e3 e4
  have hc' : c / 2 ^ 60 ≤ 1 / 2 ^ 8 := by
    rw [div_le_div_iff₀ (by positivity) (by positivity)]; norm_num at hc ⊢; linarith
  rw [abs_lt]
  norm_num at *
  constructor <;> linarith

theorem feeOf_close {size : Nat} {q : ℚ} (hq : 0 ≤ q) (hs : size ≤ 2 ^ 52) (hf : feeOf size q ≤ 2100000000000000) :
    |feeOf size q - ⌈(size : ℚ) * q⌉| ≤ 1 := by
  unfold feeOf at *
  apply ceil_close
  have h1 := Int.le_ceil (rndQ (((size : ℤ) : ℚ) * rndQ q))
  have h2 : ((⌈rndQ (((size : ℤ) : ℚ) * rndQ q)⌉ : ℤ) : ℚ) ≤ 2100000000000000 := by exact_mod_cast hf
  have := two_roundings (c := size) (r := rndQ q) (z := size * q) (e := q) (by positivity) rfl hq (by exact_mod_cast hs) rfl
    (by simpa using h1.trans h2)
  simpa using this

theorem feeOf_whole {size n : Nat} (hs : 0 < size) (hf : feeOf size n ≤ 2100000000000000) : feeOf size n = size * n := by
  have e53 : rndQ (2 ^ 53) = 2 ^ 53 := by exact_mod_cast rndQ_nat (n := 2 ^ 53) (by norm_num)
  have h1 := Int.le_ceil (rndQ (((size : ℤ) : ℚ) * rndQ n))
  have h2 : ((feeOf size n : ℤ) : ℚ) ≤ 2100000000000000 := by exact_mod_cast hf
  have hs1 : (1 : ℚ) ≤ size := by exact_mod_cast hs
  have h3 := h1.trans h2
  rw [Int.cast_natCast] at h3
  have hn : n ≤ 2 ^ 53 := by
    by_contra hn
    push Not at hn
    have a1 : (2 : ℚ) ^ 53 ≤ rndQ n := by
      rw [← e53]; exact rndQ_mono (by exact_mod_cast hn.le)
    have a2 : (2 : ℚ) ^ 53 ≤ size * rndQ n := by nlinarith
    have := rndQ_mono a2
    rw [e53] at this
    norm_num at this h3
    linarith
  rw [rndQ_nat hn] at h3
  have hp : size * n ≤ 2 ^ 53 := by
    by_contra hp
    push Not at hp
    have : rndQ (2 ^ 53) ≤ rndQ (size * n) := rndQ_mono (by exact_mod_cast hp.le)
    rw [e53] at this
    norm_num at this h3
    linarith
  unfold feeOf
  rw [rndQ_nat hn, Int.cast_natCast, ← Nat.cast_mul, rndQ_nat hp]
  norm_cast
  exact Int.ceil_natCast _

theorem feeOf_mono {size size' : Nat} {q q' : ℚ} (hs : size ≤ size') (h : q ≤ q') (hq : 0 ≤ q) : feeOf size q ≤ feeOf size' q' := by
  unfold feeOf
  apply Int.ceil_mono
  apply rndQ_mono
  have h1 := rndQ_mono h
  have h0 := rndQ_nonneg hq
  have hs' : (((size : ℤ)) : ℚ) ≤ ((size' : ℤ) : ℚ) := by exact_mod_cast hs
  exact mul_le_mul hs' h1 h0 (by positivity)

theorem feeOf_nonneg {size : Nat} {q : ℚ} (hq : 0 ≤ q) : 0 ≤ feeOf size q := by
  unfold feeOf
  apply Int.ceil_nonneg
  exact rndQ_nonneg (mul_nonneg (by positivity) (rndQ_nonneg hq))

theorem feeFromRate_ok {size : Nat} {q : ℚ} {n : Int} (hq : 0 ≤ q) (hs : 0 < size ∧ size ≤ 2 ^ 53) (h : feeFromRate size (rnd64 q) = .ok n) :
    n = feeOf size q := by
  unfold feeFromRate at h
  rw [ofInt_small (by rw [abs_of_nonneg (by positivity)]; exact_mod_cast hs.2), R_bind_ok] at h
  have hs0 : ((size : ℤ) : ℚ) ≠ 0 := by
    have := hs.1; positivity
  have h0 := rndQ_nonneg hq
  unfold rnd64 at h
  simp only at h
  split at h
  · simp only [PyFloat.mul, hs0, if_false, PyFloat.ceil] at h; cases h
  · split at h
    · simp only [PyFloat.mul, hs0, if_false, PyFloat.ceil] at h; cases h
    · simp only [PyFloat.mul] at h
      unfold rnd64 at h
      simp only at h
      split at h
      · simp [PyFloat.ceil] at h
      · split at h
        · simp [PyFloat.ceil] at h
        · simp only [PyFloat.ceil, Except.ok.injEq] at h
          exact h.symm

theorem feeFromRate_total {size : Nat} {q : ℚ} (hq : 0 ≤ q) (hs : 0 < size ∧ size ≤ 2 ^ 53) (h : feeOf size q ≤ 2100000000000000) :
    feeFromRate size (rnd64 q) = .ok (feeOf size q) := by
  have h0 := rndQ_nonneg hq
  have hs1 : (1 : ℚ) ≤ size := by exact_mod_cast hs.1
  have e53 : rndQ (2 ^ 53) = 2 ^ 53 := by exact_mod_cast rndQ_nat (n := 2 ^ 53) (by norm_num)
  have h1 := Int.le_ceil (rndQ (((size : ℤ) : ℚ) * rndQ q))
  have h2 : ((feeOf size q : ℤ) : ℚ) ≤ 2100000000000000 := by exact_mod_cast h
  have h3 := h1.trans h2
  have hb : rndQ q ≤ 2 ^ 53 := by
    by_contra hn
    push Not at hn
    have a2 : (2 : ℚ) ^ 53 ≤ ((size : ℤ) : ℚ) * rndQ q := by rw [Int.cast_natCast]; nlinarith
    have := rndQ_mono a2
    rw [e53] at this
    norm_num at this h3
    linarith
  have big : (2 : ℚ) ^ 53 < 2 ^ 1024 := by decide +kernel
  have hx0 : 0 ≤ rndQ (((size : ℤ) : ℚ) * rndQ q) := rndQ_nonneg (mul_nonneg (by positivity) h0)
  unfold feeFromRate
  rw [ofInt_small (by rw [abs_of_nonneg (by positivity)]; exact_mod_cast hs.2), R_bind_ok,
    rnd64_fin (by rw [abs_of_nonneg h0]; exact hb.trans_lt big)]
  simp only [PyFloat.mul]
  rw [rnd64_fin (by
    rw [abs_of_nonneg hx0]
    have : (2100000000000000 : ℚ) < 2 ^ 53 := by norm_num
    exact h3.trans_lt (this.trans big))]
  rfl

/-! ## the limit -/

theorem limitOf_full {t : Int} (ht : Money t) : limitOf 100 t = t := by
  unfold limitOf
  have e1 : rndQ ((100 : ℚ) / 100) = 1 := by
    rw [show (100 : ℚ) / 100 = ((1 : Nat) : ℚ) by norm_num, rndQ_nat (by norm_num)]; norm_num
  rw [e1, one_mul, rndQ_int (by rw [abs_of_nonneg ht.1]; have := ht.2; norm_num; omega)]
  exact Int.ceil_intCast t

theorem limitOf_close {q : ℚ} {t : Int} (hq : 0 ≤ q) (ht : Money t) (hl : limitOf q t ≤ 2100000000000000) :
    |limitOf q t - ⌈q / 100 * t⌉| ≤ 1 := by
  unfold limitOf at *
  apply ceil_close
  have h1 := Int.le_ceil (rndQ (rndQ (q / 100) * t))
  have h2 : ((⌈rndQ (rndQ (q / 100) * t)⌉ : ℤ) : ℚ) ≤ 2100000000000000 := by exact_mod_cast hl
  rw [mul_comm] at h1 h2
  have ht0 : (0 : ℚ) ≤ t := by exact_mod_cast ht.1
  have := two_roundings (c := t) (r := rndQ (q / 100)) (z := q / 100 * t) (e := q / 100) ht0 (by ring) (by positivity)
    (by have : (t : ℚ) ≤ 2100000000000000 := by exact_mod_cast ht.2
        norm_num; linarith) rfl (h1.trans h2)
  rwa [mul_comm] at this

/-- the limit for a percentage given in decimal (three roundings) -/
theorem limitOf_decimal {p : ℚ} {t : Int} (hp : 0 ≤ p) (hp1 : p ≤ 100) (ht : Money t) :
    |limitOf (rndQ p) t - ⌈p / 100 * t⌉| ≤ 1 := by
  unfold limitOf
  apply ceil_close
  have ht0 : (0 : ℚ) ≤ t := by exact_mod_cast ht.1
  have ht1 : (t : ℚ) ≤ 2100000000000000 := by exact_mod_cast ht.2
  have h100 : rndQ 100 = 100 := by exact_mod_cast rndQ_nat (n := 100) (by norm_num)
  set q := rndQ p with hq
  have hq0 : 0 ≤ q := rndQ_nonneg hp
  have hq1 : q ≤ 100 := by rw [← h100]; exact rndQ_mono hp1
  have e1 := rndQ_err_abs hp
  rw [← hq] at e1
  set r := rndQ (q / 100) with hr
  have hr0 : 0 ≤ r := rndQ_nonneg (by positivity)
  have e2 := rndQ_err_abs (q := q / 100) (by positivity)
  rw [← hr] at e2
  have e3 := rndQ_err_abs (q := r * t) (by positivity)
  rw [abs_le] at e1 e2 e3
  rw [abs_lt]
  norm_num at e1 e2 e3
  have k1 : r - p / 100 ≤ 1 / 2 ^ 52 + 1 / 2 ^ 59 := by norm_num; linarith
  have k2 : -(1 / 2 ^ 52 + 1 / 2 ^ 59) ≤ r - p / 100 := by norm_num; linarith
  have k3 := mul_le_mul_of_nonneg_right k1 ht0
  have k4 := mul_le_mul_of_nonneg_right k2 ht0
  have k5 : r ≤ 2 := by norm_num at k1; linarith
  have k6 : r * t ≤ (1 + 1 / 2 ^ 40) * 2100000000000000 := by
    have : r ≤ 1 + 1 / 2 ^ 40 := by norm_num at k1 ⊢; linarith
    exact mul_le_mul this ht1 ht0 (by positivity)
  norm_num at k3 k4 k6
  constructor <;> linarith

end BT
