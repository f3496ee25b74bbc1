import Verif.Concrete.Prime
import Mathlib.AlgebraicGeometry.EllipticCurve.Affine.Point
import Mathlib.Tactic.FieldSimp
import Mathlib.Tactic.LinearCombination

/-!
# The point arithmetic of `Concrete/Ecdsa.lean` is the group law of secp256k1

The group is Mathlib's `WeierstrassCurve.Affine.Point` of y² = x³ + 7 over the integers modulo
`pP`.  Nothing here models code of `/repo`.
-/

namespace BT.Concrete
open WeierstrassCurve

instance : Fact pP.Prime := ⟨prime_pP⟩
instance : Fact nP.Prime := ⟨prime_nP⟩

/-- The field of secp256k1. -/
abbrev Fp := ZMod pP

/-- The curve y² = x³ + 7. -/
def curve : Affine Fp := ⟨0, 0, 0, 0, 7⟩

theorem pP_gt : 7 < pP := by decide +kernel

theorem cast_ne {k : Nat} (h : 0 < k) (hk : k < pP) : (k : Fp) ≠ 0 := by
  rw [Ne, ZMod.natCast_eq_zero_iff]
  exact fun hd => absurd (Nat.le_of_dvd h hd) (by omega)

theorem two_ne : (2 : Fp) ≠ 0 := cast_ne (k := 2) (by norm_num) (by have := pP_gt; omega)
theorem three_ne : (3 : Fp) ≠ 0 := cast_ne (k := 3) (by norm_num) (by have := pP_gt; omega)

theorem curve_eq {x y : Fp} : curve.Equation x y ↔ y ^ 2 = x ^ 3 + 7 := by
  rw [Affine.equation_iff]
  simp [curve]

theorem seven_ne : (7 : Fp) ≠ 0 := cast_ne (k := 7) (by norm_num) (by have := pP_gt; omega)

theorem curve_ns {x y : Fp} (h : y ^ 2 = x ^ 3 + 7) : curve.Nonsingular x y := by
  rw [Affine.nonsingular_iff]
  refine ⟨curve_eq.2 h, ?_⟩
  simp only [curve, zero_mul, mul_zero, add_zero, sub_zero, zero_add]
  by_cases hy : y = 0
  · left
    intro h0
    have hx : x = 0 := by
      have : 3 * x ^ 2 = 0 := h0.symm
      rcases mul_eq_zero.1 this with h | h
      · exact absurd h three_ne
      · exact pow_eq_zero_iff (two_ne_zero) |>.1 h
    subst hx hy
    apply seven_ne
    linear_combination -h
  · right
    intro h0
    have : 2 * y = 0 := by linear_combination h0
    rcases mul_eq_zero.1 this with h | h
    · exact two_ne h
    · exact hy h

theorem curve_of_ns {x y : Fp} (h : curve.Nonsingular x y) : y ^ 2 = x ^ 3 + 7 := curve_eq.1 h.1

/-- a Jacobian triple with reduced coordinates stands for a point -/
def Rep (j : Jac) (P : curve.Point) : Prop :=
  j.1 < pP ∧ j.2.1 < pP ∧ j.2.2 < pP ∧
  (j.2.2 = 0 → P = 0) ∧
  (j.2.2 ≠ 0 → ∃ (x y : Fp) (h : curve.Nonsingular x y), P = .some x y h ∧ (j.1 : Fp) = x * (j.2.2 : Fp) ^ 2 ∧ (j.2.1 : Fp) = y * (j.2.2 : Fp) ^ 3)

theorem subP_cast {a b : Nat} (hb : b < pP) : ((subP a b : Nat) : Fp) = (a : Fp) - b := by
  unfold subP
  rw [ZMod.natCast_mod, Nat.cast_sub (by omega), Nat.cast_add]
  simp

theorem subP_lt (a b : Nat) : subP a b < pP := Nat.mod_lt _ (by have := pP_gt; omega)
theorem modP_lt (a : Nat) : a % pP < pP := Nat.mod_lt _ (by have := pP_gt; omega)

theorem natCast_eq_zero_of_lt {a : Nat} (h : a < pP) : ((a : Nat) : Fp) = 0 ↔ a = 0 := by
  rw [ZMod.natCast_eq_zero_iff]
  exact ⟨fun hd => Nat.eq_zero_of_dvd_of_lt hd h, fun h => h ▸ dvd_zero _⟩

theorem natCast_inj_of_lt {a b : Nat} (ha : a < pP) (hb : b < pP) : ((a : Nat) : Fp) = (b : Fp) ↔ a = b := by
  rw [ZMod.natCast_eq_natCast_iff', Nat.mod_eq_of_lt ha, Nat.mod_eq_of_lt hb]

theorem negY_eq (x y : Fp) : curve.negY x y = -y := by simp [Affine.negY, curve]

/-- the point with given coordinates, to compare points by coordinates -/
theorem some_congr {x y x' y' : Fp} (h : curve.Nonsingular x y) (h' : curve.Nonsingular x' y') (hx : x = x') (hy : y = y') :
    Affine.Point.some x y h = .some x' y' h' := by subst hx hy; rfl

/-- Doubling is correct. -/
theorem jDouble_rep {j : Jac} {P : curve.Point} (h : Rep j P) : Rep (jDouble j) (P + P) := by
  obtain ⟨x, y, z⟩ := j
  obtain ⟨hx, hy, hz, h0, h1⟩ := h
  simp only at hx hy hz h0 h1
  unfold jDouble
  simp only [forceN_eq]
  refine ⟨subP_lt _ _, subP_lt _ _, modP_lt _, ?_, ?_⟩
  · intro hz'
    simp only at hz'
    by_cases hzz : z = 0
    · rw [h0 hzz]; simp
    · obtain ⟨a, b, hab, rfl, e1, e2⟩ := h1 hzz
      have hzf : (z : Fp) ≠ 0 := fun hc => hzz ((natCast_eq_zero_of_lt hz).1 hc)
      have : (2 : Fp) * y * z = 0 := by
        have := (natCast_eq_zero_of_lt (modP_lt (2 * y * z))).2 hz'
        rw [ZMod.natCast_mod] at this
        push_cast at this
        exact this
      have hb : b = 0 := by
        rw [e2] at this
        simp only [mul_eq_zero, pow_eq_zero_iff, hzf, two_ne, or_false, false_or, ne_eq, OfNat.ofNat_ne_zero, not_false_iff] at this
        exact this
      exact Affine.Point.add_self_of_Y_eq (by rw [negY_eq, hb]; simp)
  · intro hz'
    simp only at hz'
    have hzz : z ≠ 0 := by rintro rfl; simp at hz'
    obtain ⟨a, b, hab, rfl, e1, e2⟩ := h1 hzz
    have hzf : (z : Fp) ≠ 0 := fun hc => hzz ((natCast_eq_zero_of_lt hz).1 hc)
    have hb : b ≠ 0 := by
      rintro rfl
      apply hz'
      rw [← natCast_eq_zero_of_lt (modP_lt _), ZMod.natCast_mod]
      push_cast
      rw [e2]; ring
    have hne : b ≠ curve.negY a b := by
      rw [negY_eq]
      intro hc
      have : 2 * b = 0 := by linear_combination hc
      rcases mul_eq_zero.1 this with h | h
      · exact two_ne h
      · exact hb h
    have hcv := curve_of_ns hab
    refine ⟨_, _, _, Affine.Point.add_self_of_Y_ne hne, ?_, ?_⟩
    · simp only [subP_cast (modP_lt _), ZMod.natCast_mod, Nat.cast_mul, Nat.cast_ofNat, e1, e2]
      rw [Affine.slope_of_Y_ne rfl hne, negY_eq]
      simp only [Affine.addX, curve]
      have h2b : b - -b = 2 * b := by ring
      rw [h2b]
      have h2 := two_ne
      field_simp
      ring
    · simp only [subP_cast (modP_lt _), subP_cast (subP_lt _ _), ZMod.natCast_mod, Nat.cast_mul, Nat.cast_ofNat, e1, e2]
      rw [Affine.slope_of_Y_ne rfl hne, negY_eq]
      simp only [Affine.addY, Affine.negAddY, Affine.negY, Affine.addX, curve]
      have h2b : b - -b = 2 * b := by ring
      rw [h2b]
      have h2 := two_ne
      field_simp
      ring

/-- Addition of an affine point is correct. -/
theorem jAdd_rep {j : Jac} {P : curve.Point} (h : Rep j P) {u v : Nat} (hu : u < pP) (hv : v < pP)
    (hQ : curve.Nonsingular (u : Fp) (v : Fp)) : Rep (jAddAffine j u v) (P + .some (u : Fp) (v : Fp) hQ) := by
  obtain ⟨x, y, z⟩ := j
  have hR := h
  obtain ⟨hx, hy, hz, h0, h1⟩ := h
  simp only at hx hy hz h0 h1
  unfold jAddAffine
  simp only [forceN_eq]
  have p1 : 1 < pP := by have := pP_gt; omega
  by_cases hzz : z = 0
  · rw [if_pos hzz, h0 hzz, zero_add]
    exact ⟨hu, hv, p1, fun hc => by simp at hc, fun _ => ⟨_, _, hQ, rfl, by simp, by simp⟩⟩
  rw [if_neg hzz]
  obtain ⟨a, b, hab, rfl, e1, e2⟩ := h1 hzz
  have hzf : (z : Fp) ≠ 0 := fun hc => hzz ((natCast_eq_zero_of_lt hz).1 hc)
  have eu : u * (z * z % pP) % pP = x ↔ (u : Fp) = a := by
    rw [← natCast_inj_of_lt (modP_lt _) hx, ZMod.natCast_mod, Nat.cast_mul, ZMod.natCast_mod, e1]
    push_cast
    rw [← pow_two]
    exact mul_left_inj' (pow_ne_zero 2 hzf)
  have ev : v * (z * z % pP) % pP * z % pP = y ↔ (v : Fp) = b := by
    rw [← natCast_inj_of_lt (modP_lt _) hy, ZMod.natCast_mod, Nat.cast_mul, ZMod.natCast_mod, Nat.cast_mul, ZMod.natCast_mod, e2]
    push_cast
    rw [show (v : Fp) * (z * z) * z = v * (z : Fp) ^ 3 by ring]
    exact mul_left_inj' (pow_ne_zero 3 hzf)
  have hcP := curve_of_ns hab
  have hcQ := curve_of_ns hQ
  by_cases hxe : (u : Fp) = a
  · rw [if_pos (eu.2 hxe)]
    by_cases hye : (v : Fp) = b
    · rw [if_pos (ev.2 hye)]
      have := jDouble_rep hR
      have e : Affine.Point.some (u : Fp) (v : Fp) hQ = .some a b hab := some_congr hQ hab hxe hye
      rw [e]
      exact this
    · rw [if_neg (fun hc => hye (ev.1 hc))]
      refine ⟨p1, p1, show 0 < pP by omega, fun _ => ?_, fun hc => by simp at hc⟩
      refine Affine.Point.add_of_Y_eq hxe.symm ?_
      rw [negY_eq]
      have : (b - v) * (b + v) = 0 := by
        subst hxe
        linear_combination hcP - hcQ
      rcases mul_eq_zero.1 this with h | h
      · exact absurd (by linear_combination -h) hye
      · linear_combination h
  · rw [if_neg (fun hc => hxe (eu.1 hc))]
    have hxne : a ≠ u := fun hc => hxe hc.symm
    have hd : (u : Fp) * z ^ 2 - a * z ^ 2 ≠ 0 := by
      intro hc
      have : (u - a) * (z : Fp) ^ 2 = 0 := by linear_combination hc
      rcases mul_eq_zero.1 this with h | h
      · exact hxe (by linear_combination h)
      · exact pow_ne_zero 2 hzf h
    refine ⟨subP_lt _ _, subP_lt _ _, modP_lt _, ?_, ?_⟩
    · intro hc
      simp only at hc
      exfalso
      have := (natCast_eq_zero_of_lt (modP_lt _)).2 hc
      simp only [ZMod.natCast_mod, Nat.cast_mul, subP_cast hx, e1] at this
      rcases mul_eq_zero.1 this with h | h
      · exact hzf h
      · exact hd (by linear_combination h)
    · intro _
      have hda : a - u ≠ 0 := sub_ne_zero.2 hxne
      have hsl : (b - v) / (a - u) = (v - b) / (u - a : Fp) := by
        have : (u : Fp) - a ≠ 0 := sub_ne_zero.2 hxe
        field_simp
        ring
      have hda' : (u : Fp) - a ≠ 0 := sub_ne_zero.2 hxe
      refine ⟨_, _, _, Affine.Point.add_of_X_ne hxne, ?_, ?_⟩
      · simp only [subP_cast (modP_lt _), subP_cast (subP_lt _ _), subP_cast hx, subP_cast hy, ZMod.natCast_mod, Nat.cast_mul, Nat.cast_ofNat, e1, e2]
        rw [Affine.slope_of_X_ne hxne, hsl]
        simp only [Affine.addX, curve]
        field_simp
        ring
      · simp only [subP_cast (modP_lt _), subP_cast (subP_lt _ _), subP_cast hx, subP_cast hy, ZMod.natCast_mod, Nat.cast_mul, Nat.cast_ofNat, e1, e2]
        rw [Affine.slope_of_X_ne hxne, hsl]
        simp only [Affine.addY, Affine.negAddY, Affine.negY, Affine.addX, curve]
        field_simp
        ring

/-- Double and add. -/
theorem mulLoop_rep {u v : Nat} (hu : u < pP) (hv : v < pP) (hQ : curve.Nonsingular (u : Fp) (v : Fp)) (l : List Bool) :
    ∀ (j : Jac) (k : Nat), Rep j (k • Affine.Point.some (u : Fp) (v : Fp) hQ) →
      Rep (mulLoop u v l j) ((k * 2 ^ l.length + bitsVal l) • Affine.Point.some (u : Fp) (v : Fp) hQ) := by
  induction l with
  | nil => intro j k h; simpa [mulLoop, bitsVal] using h
  | cons bit l ih =>
    intro j k h
    have hd := jDouble_rep h
    rw [← add_nsmul] at hd
    rw [mulLoop, bitsVal_cons, List.length_cons]
    rcases hj : jDouble j with ⟨a, b, c⟩
    rw [hj] at hd
    simp only
    cases bit with
    | false =>
      simp only [Bool.false_eq_true, if_false]
      have := ih _ _ hd
      rw [show k * 2 ^ (l.length + 1) + (false.toNat * 2 ^ l.length + bitsVal l) = (k + k) * 2 ^ l.length + bitsVal l by
        simp only [Bool.toNat_false]; ring]
      exact this
    | true =>
      simp only [if_true]
      have ha := jAdd_rep hd hu hv hQ
      rw [← succ_nsmul] at ha
      have := ih _ _ ha
      rw [show k * 2 ^ (l.length + 1) + (true.toNat * 2 ^ l.length + bitsVal l) = (k + k + 1) * 2 ^ l.length + bitsVal l by
        simp only [Bool.toNat_true]; ring]
      exact this

theorem invMod_cast (m : Nat) [Fact m.Prime] (hm : m < 2 ^ 256) {a : Nat} (ha : (a : ZMod m) ≠ 0) :
    ((invMod a m : Nat) : ZMod m) = (a : ZMod m)⁻¹ := by
  unfold invMod
  rw [powModLoop_cast _ _ _ (by omega), ZMod.natCast_mod]
  have h2 := (Fact.out : m.Prime).two_le
  apply eq_inv_of_mul_eq_one_left
  rw [← pow_succ, show m - 2 + 1 = m - 1 by omega]
  exact ZMod.pow_card_sub_one_eq_one ha

/-- an optional pair of reduced coordinates stands for a point -/
def RepA (o : Option (Nat × Nat)) (P : curve.Point) : Prop :=
  match o with
  | none => P = 0
  | some (x, y) => x < pP ∧ y < pP ∧ ∃ h : curve.Nonsingular (x : Fp) (y : Fp), P = .some (x : Fp) (y : Fp) h

theorem pP_lt : pP < 2 ^ 256 := by decide +kernel
theorem nP_lt : nP < 2 ^ 256 := by decide +kernel

theorem toAffine_rep {j : Jac} {P : curve.Point} (h : Rep j P) : RepA (toAffine j) P := by
  obtain ⟨x, y, z⟩ := j
  obtain ⟨hx, hy, hz, h0, h1⟩ := h
  simp only at hx hy hz h0 h1
  unfold toAffine
  simp only [forceN_eq]
  by_cases hzz : z = 0
  · rw [if_pos hzz]; exact h0 hzz
  · rw [if_neg hzz]
    obtain ⟨a, b, hab, rfl, e1, e2⟩ := h1 hzz
    have hzf : (z : Fp) ≠ 0 := fun hc => hzz ((natCast_eq_zero_of_lt hz).1 hc)
    have k1 : ((x * (invMod z pP * invMod z pP % pP) % pP : Nat) : Fp) = a := by
      simp only [ZMod.natCast_mod, Nat.cast_mul, invMod_cast pP pP_lt hzf, e1]
      field_simp
    have k2 : ((y * (invMod z pP * invMod z pP % pP) % pP * invMod z pP % pP : Nat) : Fp) = b := by
      simp only [ZMod.natCast_mod, Nat.cast_mul, invMod_cast pP pP_lt hzf, e2]
      field_simp
    refine ⟨modP_lt _, modP_lt _, by rw [k1, k2]; exact hab, ?_⟩
    exact some_congr _ _ k1.symm k2.symm

/-- Scalar multiplication is correct. -/
theorem ecMul_rep {u v : Nat} (hu : u < pP) (hv : v < pP) (hQ : curve.Nonsingular (u : Fp) (v : Fp)) {k : Nat} (hk : k < 2 ^ 256) :
    RepA (ecMul k u v) (k • Affine.Point.some (u : Fp) (v : Fp) hQ) := by
  unfold ecMul
  have p1 : 1 < pP := by have := pP_gt; omega
  have := mulLoop_rep hu hv hQ (bitsMSB 256 k) (1, 1, 0) 0
    ⟨p1, p1, show 0 < pP by omega, fun _ => by simp, fun hc => by simp at hc⟩
  rw [bitsVal_bitsMSB, Nat.mod_eq_of_lt hk, Nat.zero_mul, Nat.zero_add] at this
  exact toAffine_rep this

theorem ecAdd_rep {o o' : Option (Nat × Nat)} {P Q : curve.Point} (h : RepA o P) (h' : RepA o' Q) : RepA (ecAdd o o') (P + Q) := by
  have p1 : 1 < pP := by have := pP_gt; omega
  cases o with
  | none =>
    have e : P = 0 := h
    rw [e, zero_add]
    exact h'
  | some a =>
    cases o' with
    | none =>
      have e : Q = 0 := h'
      rw [e, add_zero]
      exact h
    | some b =>
      obtain ⟨x1, y1⟩ := a
      obtain ⟨x2, y2⟩ := b
      obtain ⟨a1, a2, hP, rfl⟩ := h
      obtain ⟨b1, b2, hQ, rfl⟩ := h'
      have e : ecAdd (some (x1, y1)) (some (x2, y2)) = toAffine (jAddAffine (x1, y1, 1) x2 y2) := by rw [ecAdd]
      rw [e]
      refine toAffine_rep (jAdd_rep (j := (x1, y1, 1)) ?_ b1 b2 hQ)
      exact ⟨a1, a2, p1, fun hc => by simp at hc, fun _ => ⟨_, _, hP, rfl, by simp, by simp⟩⟩

/-! ## The generator -/

theorem curve_of_nat {x y : Nat} (h : (y * y) % pP = (x * x * x + 7) % pP) : curve.Nonsingular (x : Fp) (y : Fp) := by
  apply curve_ns
  have := (ZMod.natCast_eq_natCast_iff' _ _ pP).2 h
  push_cast at this
  linear_combination this

theorem curve_to_nat {x y : Nat} (h : curve.Nonsingular (x : Fp) (y : Fp)) : (y * y) % pP = (x * x * x + 7) % pP := by
  rw [← ZMod.natCast_eq_natCast_iff']
  push_cast
  linear_combination curve_of_ns h

theorem g_curve : curve.Nonsingular (gX : Fp) (gY : Fp) := curve_of_nat (by decide +kernel)

theorem gX_lt : gX < pP := by decide +kernel
theorem gY_lt : gY < pP := by decide +kernel

/-- The generator. -/
def G : curve.Point := .some (gX : Fp) (gY : Fp) g_curve

theorem mulG_rep {k : Nat} (hk : k < 2 ^ 256) : RepA (ecMul k gX gY) (k • G) :=
  ecMul_rep gX_lt gY_lt g_curve hk

theorem mulG_none {k : Nat} (hk : k < 2 ^ 256) (e : ecMul k gX gY = none) : k • G = 0 := by
  have h := mulG_rep hk
  rw [e] at h
  exact h

theorem nG : nP • G = 0 := mulG_none nP_lt (by decide +kernel)

theorem G_order : addOrderOf G = nP :=
  addOrderOf_eq_prime nG (Affine.Point.some_ne_zero _)

theorem smul_eq_iff {a b : Nat} : a • G = b • G ↔ (a : ZMod nP) = b := by
  rw [nsmul_eq_nsmul_iff_modEq, G_order, ZMod.natCast_eq_natCast_iff]

end BT.Concrete
