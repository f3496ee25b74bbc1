import Verif.PyFloat
import Verif.Lemmas.R
import Mathlib.Tactic.Linarith
import Mathlib.Tactic.Ring
import Mathlib.Tactic.Positivity
import Mathlib.Tactic.NormNum
import Mathlib.Tactic.Push
import Mathlib.Tactic.FieldSimp
import Mathlib.Algebra.Order.Field.Power

namespace BT

/-! # Round-half-even and binary64 rounding -/

theorem rhe_le (q : ℚ) : (rhe q : ℚ) ≤ q + 1 / 2 := by
  unfold rhe
  have h1 := Int.floor_le q
  have h2 := Int.lt_floor_add_one q
  simp only
  split
  · linarith
  · split
    · push_cast; linarith
    · split
      · linarith
      · push_cast; linarith

theorem rhe_ge (q : ℚ) : q - 1 / 2 ≤ (rhe q : ℚ) := by
  unfold rhe
  have h1 := Int.floor_le q
  have h2 := Int.lt_floor_add_one q
  simp only
  split
  · linarith
  · split
    · push_cast; linarith
    · split
      · linarith
      · push_cast; linarith

theorem rhe_floor (q : ℚ) : ⌊q⌋ ≤ rhe q ∧ rhe q ≤ ⌊q⌋ + 1 := by
  unfold rhe
  simp only
  split
  · omega
  · split
    · omega
    · split <;> omega

@[simp] theorem rhe_int (n : ℤ) : rhe (n : ℚ) = n := by
  simp [rhe]

theorem rhe_mono {p q : ℚ} (h : p ≤ q) : rhe p ≤ rhe q := by
  have hf := Int.floor_mono h
  rcases hf.lt_or_eq with hlt | heq
  · have := (rhe_floor p).2
    have := (rhe_floor q).1
    omega
  · unfold rhe
    simp only
    rw [← heq]
    split
    · split
      · exact le_rfl
      · split
        · omega
        · split <;> omega
    · split
      · rw [if_neg (by linarith), if_pos (by linarith)]
      · rename_i h1 h2
        have hq : ¬ q - (⌊p⌋ : ℚ) < 1 / 2 := by linarith
        rw [if_neg hq]
        split
        · split <;> omega
        · split <;> omega

theorem log2_bounds {n : Nat} (h : n ≠ 0) : (2 : ℚ) ^ (Nat.log2 n) ≤ n ∧ (n : ℚ) < 2 ^ (Nat.log2 n + 1) := by
  constructor
  · exact_mod_cast Nat.log2_self_le h
  · exact_mod_cast Nat.lt_log2_self

theorem floorLog2_bounds {q : ℚ} (h : 0 < q) :
    (2 : ℚ) ^ floorLog2 q ≤ q ∧ q < 2 ^ (floorLog2 q + 1) := by
  have hnum : q.num.natAbs ≠ 0 := by
    have := Rat.num_pos.2 h
    omega
  obtain ⟨a1, a2⟩ := log2_bounds hnum
  obtain ⟨b1, b2⟩ := log2_bounds q.den_nz
  have hnn : ((q.num.natAbs : ℕ) : ℚ) = (q.num : ℚ) := by
    have := Rat.num_pos.2 h
    rw [Nat.cast_natAbs, abs_of_pos this]
  have hq : q = (q.num.natAbs : ℚ) / (q.den : ℚ) := by
    rw [hnn]; exact (Rat.num_div_den q).symm
  have hd : (0 : ℚ) < q.den := by exact_mod_cast q.den_pos
  have hn : (0 : ℚ) < (q.num.natAbs : ℚ) := by exact_mod_cast Nat.pos_of_ne_zero hnum
  set a := Nat.log2 q.num.natAbs
  set b := Nat.log2 q.den
  have hb : (0 : ℚ) < 2 ^ b := by positivity
  have ha : (0 : ℚ) < 2 ^ a := by positivity
  have hup : q < 2 ^ (((a : ℤ) - (b : ℤ)) + 1) := by
    have e : (2 : ℚ) ^ (((a : ℤ) - (b : ℤ)) + 1) = 2 ^ (a + 1) / 2 ^ b := by
      rw [show ((a : ℤ) - (b : ℤ)) + 1 = ((a + 1 : ℕ) : ℤ) - ((b : ℕ) : ℤ) by push_cast; ring,
        zpow_sub₀ (by norm_num), zpow_natCast, zpow_natCast]
    rw [e, hq, div_lt_div_iff₀ hd hb]
    nlinarith
  have hlo : (2 : ℚ) ^ (((a : ℤ) - (b : ℤ)) - 1) < q := by
    have e : (2 : ℚ) ^ (((a : ℤ) - (b : ℤ)) - 1) = 2 ^ a / 2 ^ (b + 1) := by
      rw [show ((a : ℤ) - (b : ℤ)) - 1 = ((a : ℕ) : ℤ) - ((b + 1 : ℕ) : ℤ) by push_cast; ring,
        zpow_sub₀ (by norm_num), zpow_natCast, zpow_natCast]
    rw [e, hq, div_lt_div_iff₀ (by positivity) hd]
    nlinarith
  unfold floorLog2
  simp only
  split
  · rename_i hc
    exact ⟨hc, hup⟩
  · rename_i hc
    refine ⟨hlo.le, ?_⟩
    rw [sub_add_cancel]
    exact not_le.1 hc

theorem two_zpow_lt {a b : ℤ} : (2 : ℚ) ^ a < 2 ^ b ↔ a < b := zpow_lt_zpow_iff_right₀ (by norm_num)
theorem two_zpow_le {a b : ℤ} : (2 : ℚ) ^ a ≤ 2 ^ b ↔ a ≤ b := zpow_le_zpow_iff_right₀ (by norm_num)

theorem floorLog2_mono {p q : ℚ} (hp : 0 < p) (h : p ≤ q) : floorLog2 p ≤ floorLog2 q := by
  have h1 := (floorLog2_bounds hp).1
  have h2 := (floorLog2_bounds (hp.trans_le h)).2
  have := two_zpow_lt.1 (h1.trans_lt (h.trans_lt h2))
  omega

/-- a number `k * 2^e` divided by an ulp not above `e` is an integer -/
theorem grid_int {e f : ℤ} (h : f ≤ e) (k : ℤ) : ∃ m : ℤ, (k : ℚ) * 2 ^ e / 2 ^ f = (m : ℚ) := by
  refine ⟨k * 2 ^ (e - f).toNat, ?_⟩
  have h2 : (2 : ℚ) ^ e = 2 ^ (e - f).toNat * 2 ^ f := by
    rw [← zpow_natCast, ← zpow_add₀ (by norm_num)]; congr 1; omega
  rw [h2]
  have : (2 : ℚ) ^ f ≠ 0 := by positivity
  field_simp
  push_cast; ring

theorem rndPos_of_grid {q : ℚ} (h : ∃ m : ℤ, q / 2 ^ ulpExp q = (m : ℚ)) : rndPos q = q := by
  obtain ⟨m, hm⟩ := h
  unfold rndPos
  rw [hm, rhe_int, ← hm]
  have : (2 : ℚ) ^ ulpExp q ≠ 0 := by positivity
  field_simp

theorem rndPos_nonneg {q : ℚ} (h : 0 ≤ q) : 0 ≤ rndPos q := by
  unfold rndPos
  have h1 : (0 : ℤ) ≤ rhe (q / 2 ^ ulpExp q) := by
    have := rhe_mono (p := ((0 : ℤ) : ℚ)) (q := q / 2 ^ ulpExp q) (by push_cast; positivity)
    rwa [rhe_int] at this
  have : (0 : ℚ) ≤ (rhe (q / 2 ^ ulpExp q) : ℚ) := by exact_mod_cast h1
  positivity

theorem rndPos_mono {p q : ℚ} (hp : 0 < p) (h : p ≤ q) : rndPos p ≤ rndPos q := by
  have hq := hp.trans_le h
  have hm := floorLog2_mono hp h
  have hu : ulpExp p ≤ ulpExp q := by unfold ulpExp; omega
  have hup : (0 : ℚ) < 2 ^ ulpExp p := by positivity
  have huq : (0 : ℚ) < 2 ^ ulpExp q := by positivity
  rcases hu.lt_or_eq with hlt | heq
  · -- the power 2^E separates
    set E := floorLog2 q
    have hE : ulpExp q = E - 52 := by unfold ulpExp at *; omega
    have hlow : (2 : ℚ) ^ E ≤ q := (floorLog2_bounds hq).1
    have hpE : p ≤ 2 ^ E := by
      have h1 := (floorLog2_bounds hp).2
      have : floorLog2 p + 1 ≤ E := by unfold ulpExp at *; omega
      exact h1.le.trans (two_zpow_le.2 this)
    have key1 : rndPos p ≤ 2 ^ E := by
      obtain ⟨m, hm⟩ := grid_int (e := E) (f := ulpExp p) (by omega) 1
      unfold rndPos
      have : rhe (p / 2 ^ ulpExp p) ≤ m := by
        have := rhe_mono (p := p / 2 ^ ulpExp p) (q := (m : ℚ)) (by
          rw [← hm]; push_cast; rw [one_mul]; gcongr)
        rwa [rhe_int] at this
      have h2 : (rhe (p / 2 ^ ulpExp p) : ℚ) ≤ m := by exact_mod_cast this
      calc (rhe (p / 2 ^ ulpExp p) : ℚ) * 2 ^ ulpExp p ≤ m * 2 ^ ulpExp p := by gcongr
        _ = 2 ^ E := by rw [← hm]; push_cast; field_simp
    have key2 : (2 : ℚ) ^ E ≤ rndPos q := by
      obtain ⟨m, hm⟩ := grid_int (e := E) (f := ulpExp q) (by omega) 1
      unfold rndPos
      have : m ≤ rhe (q / 2 ^ ulpExp q) := by
        have := rhe_mono (p := (m : ℚ)) (q := q / 2 ^ ulpExp q) (by
          rw [← hm]; push_cast; rw [one_mul]; gcongr)
        rwa [rhe_int] at this
      have h2 : (m : ℚ) ≤ rhe (q / 2 ^ ulpExp q) := by exact_mod_cast this
      calc (2 : ℚ) ^ E = m * 2 ^ ulpExp q := by rw [← hm]; push_cast; field_simp
        _ ≤ _ := by gcongr
    exact key1.trans key2
  · unfold rndPos
    rw [heq]
    have : rhe (p / 2 ^ ulpExp q) ≤ rhe (q / 2 ^ ulpExp q) := rhe_mono (by gcongr)
    have : (rhe (p / 2 ^ ulpExp q) : ℚ) ≤ rhe (q / 2 ^ ulpExp q) := by exact_mod_cast this
    gcongr

theorem rndQ_nonneg {q : ℚ} (h : 0 ≤ q) : 0 ≤ rndQ q := by
  unfold rndQ
  split
  · exact le_rfl
  · rw [if_neg (by linarith)]; exact rndPos_nonneg h

theorem rndQ_mono {p q : ℚ} (h : p ≤ q) : rndQ p ≤ rndQ q := by
  unfold rndQ
  rcases lt_trichotomy p 0 with hp | hp | hp
  · rw [if_neg hp.ne, if_pos hp]
    rcases lt_trichotomy q 0 with hq | hq | hq
    · rw [if_neg hq.ne, if_pos hq]
      have := rndPos_mono (p := -q) (q := -p) (by linarith) (by linarith)
      linarith
    · rw [if_pos hq]
      have := rndPos_nonneg (q := -p) (by linarith)
      linarith
    · rw [if_neg hq.ne', if_neg (by linarith)]
      have := rndPos_nonneg (q := -p) (by linarith)
      have := rndPos_nonneg (q := q) hq.le
      linarith
  · subst hp
    rw [if_pos rfl]
    have := rndQ_nonneg h
    unfold rndQ at this; exact this
  · have hq := hp.trans_le h
    rw [if_neg hp.ne', if_neg (by linarith), if_neg hq.ne', if_neg (by linarith)]
    exact rndPos_mono hp h

theorem rndQ_neg (q : ℚ) : rndQ (-q) = - rndQ q := by
  unfold rndQ
  rcases lt_trichotomy q 0 with hq | hq | hq
  · rw [if_neg (by linarith : ¬ -q = 0), if_neg (by linarith : ¬ -q < 0), if_neg hq.ne, if_pos hq]; ring
  · subst hq; simp
  · rw [if_neg (by linarith : ¬ -q = 0), if_pos (by linarith : -q < 0), if_neg hq.ne',
      if_neg (by linarith : ¬ q < 0), neg_neg]

@[simp] theorem rndQ_zero : rndQ 0 = 0 := by simp [rndQ]

/-- integers up to 2^53 are exact -/
theorem rndQ_nat {n : Nat} (h : n ≤ 2 ^ 53) : rndQ (n : ℚ) = n := by
  by_cases h0 : n = 0
  · simp [h0]
  have hpos : (0 : ℚ) < n := by exact_mod_cast Nat.pos_of_ne_zero h0
  unfold rndQ
  rw [if_neg hpos.ne', if_neg (by linarith)]
  apply rndPos_of_grid
  obtain ⟨b1, b2⟩ := floorLog2_bounds hpos
  by_cases hf : floorLog2 (n : ℚ) ≤ 52
  · have hu : ulpExp (n : ℚ) ≤ 0 := by unfold ulpExp; omega
    have := grid_int (e := 0) hu (n : ℤ)
    simpa using this
  · have h53 : (2 : ℚ) ^ (53 : ℤ) ≤ n := (two_zpow_le.2 (by omega)).trans b1
    have hle : (n : ℚ) ≤ 2 ^ 53 := by exact_mod_cast h
    have e53 : (2 : ℚ) ^ (53 : ℤ) = 2 ^ 53 := by norm_cast
    have heq : (n : ℚ) = 2 ^ (53 : ℤ) := le_antisymm (by rw [e53]; exact hle) h53
    have hfl : floorLog2 (n : ℚ) ≤ 53 := by
      rw [heq] at b1 ⊢
      exact two_zpow_le.1 b1
    have hu : ulpExp (n : ℚ) ≤ 53 := by unfold ulpExp; omega
    have := grid_int (e := 53) hu 1
    rw [heq] at this ⊢
    simpa using this

theorem rndQ_int {n : ℤ} (h : |n| ≤ 2 ^ 53) : rndQ (n : ℚ) = n := by
  rcases abs_cases n with ⟨h1, h2⟩ | ⟨h1, h2⟩
  · obtain ⟨m, rfl⟩ : ∃ m : ℕ, n = m := ⟨n.toNat, by omega⟩
    have : m ≤ 2 ^ 53 := by rw [h1] at h; exact_mod_cast h
    exact_mod_cast rndQ_nat this
  · obtain ⟨m, hm⟩ : ∃ m : ℕ, n = -(m : ℤ) := ⟨(-n).toNat, by omega⟩
    have : m ≤ 2 ^ 53 := by
      rw [h1, hm] at h
      have : (m : ℤ) ≤ 2 ^ 53 := by linarith
      exact_mod_cast this
    rw [hm]; push_cast
    rw [rndQ_neg, rndQ_nat this]

/-- the rounding error -/
theorem rndPos_err (q : ℚ) : |rndPos q - q| ≤ 2 ^ ulpExp q / 2 := by
  have hu : (0 : ℚ) < 2 ^ ulpExp q := by positivity
  have h1 := rhe_le (q / 2 ^ ulpExp q)
  have h2 := rhe_ge (q / 2 ^ ulpExp q)
  have e : q = q / 2 ^ ulpExp q * 2 ^ ulpExp q := by field_simp
  rw [abs_le]
  unfold rndPos
  constructor
  · have := mul_le_mul_of_nonneg_right h2 hu.le
    rw [sub_mul, ← e] at this; linarith
  · have := mul_le_mul_of_nonneg_right h1 hu.le
    rw [add_mul, ← e] at this; linarith

/-- relative rounding error for normal numbers -/
theorem rndQ_err {q : ℚ} (h : (2 : ℚ) ^ (-1022 : ℤ) ≤ q) : |rndQ q - q| ≤ q / 2 ^ 53 := by
  have hpos : (0 : ℚ) < q := lt_of_lt_of_le (by positivity) h
  unfold rndQ
  rw [if_neg hpos.ne', if_neg (by linarith)]
  obtain ⟨b1, b2⟩ := floorLog2_bounds hpos
  have hf : -1022 ≤ floorLog2 q := by
    have := two_zpow_lt.1 (h.trans_lt b2); omega
  have hu : ulpExp q = floorLog2 q - 52 := by unfold ulpExp; omega
  refine (rndPos_err q).trans ?_
  rw [hu, zpow_sub₀ (by norm_num)]
  have : (2 : ℚ) ^ (52 : ℤ) = 2 ^ 52 := by norm_cast
  rw [this, div_div, div_le_div_iff₀ (by norm_num) (by norm_num)]
  nlinarith

theorem rnd64_fin {q : ℚ} (h : |rndQ q| < 2 ^ 1024) : rnd64 q = .fin (rndQ q) := by
  unfold rnd64
  simp only
  have h1 := abs_lt.1 h
  rw [if_neg (by linarith), if_neg (by linarith)]

theorem rnd64_zero : rnd64 0 = .fin 0 := by
  rw [rnd64_fin] <;> simp

theorem rnd64_int {n : ℤ} (h : |n| ≤ 2 ^ 53) : rnd64 (n : ℚ) = .fin n := by
  have e := rndQ_int h
  rw [rnd64_fin, e]
  rw [e]
  have h1 : |(n : ℚ)| ≤ 2 ^ 53 := by exact_mod_cast h
  calc |(n : ℚ)| ≤ 2 ^ 53 := h1
    _ < 2 ^ 1024 := by gcongr <;> norm_num

theorem ofInt_small {n : ℤ} (h : |n| ≤ 2 ^ 53) : PyFloat.ofInt n = .ok (.fin n) := by
  unfold PyFloat.ofInt
  rw [rnd64_int h]

/-- `float` comparison after rounding against an exact value -/
theorem rnd64_le_iff {q : ℚ} {c : ℤ} (h0 : 0 ≤ q) (hc : 0 ≤ c) (hc2 : c ≤ 2 ^ 53) :
    (PyFloat.fin (c : ℚ)).lt (rnd64 q) = true ↔ (c : ℚ) < rndQ q := by
  have hcq : (c : ℚ) < 2 ^ 1024 := by
    have : (c : ℚ) ≤ 2 ^ 53 := by exact_mod_cast hc2
    calc (c : ℚ) ≤ 2 ^ 53 := this
      _ < 2 ^ 1024 := by gcongr <;> norm_num
  unfold rnd64
  simp only
  have hnn := rndQ_nonneg h0
  split
  · rename_i hb
    simp only [PyFloat.lt, Bool.not_false, true_iff]
    linarith
  · rw [if_neg (not_le.2 (lt_of_lt_of_le (neg_lt_zero.2 (by positivity)) hnn))]
    simp [PyFloat.lt]

theorem rnd64_not_neg {q : ℚ} (h0 : 0 ≤ q) : (rnd64 q).lt (.fin 0) = false := by
  unfold rnd64
  simp only
  have hnn := rndQ_nonneg h0
  split
  · simp [PyFloat.lt]
  · rw [if_neg (not_le.2 (lt_of_lt_of_le (neg_lt_zero.2 (by positivity)) hnn))]
    simp [PyFloat.lt, hnn]

end BT
