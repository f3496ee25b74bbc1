import Verif.RealSpec
import Mathlib.Tactic.Ring

/-!
# The forms of ECDSA signatures (lemmas for C146, C147)

For the public key of a private key the ECDSA equation says that the signature belongs to a multiple of the generator; points with the same x are equal or opposite.
-/

namespace BT.EcdsaForm
open BT BT.Spec BT.Concrete WeierstrassCurve

attribute [local irreducible] pP nP gX gY

theorem nP_two : 2 < nP := by decide +kernel
theorem nP_odd : nP % 2 = 1 := by decide +kernel
theorem gX_range : 1 ≤ gX ∧ gX < nP := by decide +kernel

/-- the signature equation for the key of the private key `d`: there is a nonce `k` -/
theorem valid_iff {d z r s : Nat} : EcdsaValid (d • G) z r s ↔ 1 ≤ r ∧ r < nP ∧ 1 ≤ s ∧ s < nP ∧
    ∃ (k : Nat) (x y : Fp) (h : curve.Nonsingular x y), (s : ZMod nP) * k = z + r * d ∧ k • G = .some x y h ∧ x.val % nP = r := by
  unfold EcdsaValid
  refine and_congr_right fun _ => and_congr_right fun _ => and_congr_right fun h1 => and_congr_right fun h2 => ?_
  have pt : ∀ w : Nat, (z * w % nP) • G + (r * w % nP) • d • G = (z * w % nP + r * w % nP * d) • G := by
    intro w; rw [add_nsmul, mul_nsmul' G]
  have inv : ∀ w : Nat, w * s % nP = 1 ↔ (w : ZMod nP) * s = 1 := by
    intro w
    have : ((w : ZMod nP) * s = 1) ↔ ((w * s : Nat) : ZMod nP) = ((1 : Nat) : ZMod nP) := by push_cast; rfl
    rw [this, ZMod.natCast_eq_natCast_iff']
    rw [Nat.mod_eq_of_lt (show 1 < nP by have := nP_two; omega)]
  have cast : ∀ w : Nat, ((z * w % nP + r * w % nP * d : Nat) : ZMod nP) = z * w + r * w * d := by
    intro w; push_cast [ZMod.natCast_mod]; rfl
  constructor
  · rintro ⟨w, x, y, h, e1, e2, e3⟩
    rw [pt] at e2
    refine ⟨_, x, y, h, ?_, e2, e3⟩
    rw [cast]
    have := (inv w).1 e1
    linear_combination ((z : ZMod nP) + r * d) * this
  · rintro ⟨k, x, y, h, e1, e2, e3⟩
    have hs : (s : ZMod nP) ≠ 0 := by
      rw [Ne, ZMod.natCast_eq_zero_iff]
      exact fun hd => absurd (Nat.le_of_dvd (by omega) hd) (by omega)
    have hw : (((s : ZMod nP)⁻¹.val : Nat) : ZMod nP) = (s : ZMod nP)⁻¹ := ZMod.natCast_rightInverse _
    have hw1 : ((s : ZMod nP)⁻¹) * s = 1 := inv_mul_cancel₀ hs
    refine ⟨(s : ZMod nP)⁻¹.val, x, y, h, ?_, ?_, e3⟩
    · rw [inv, hw]; exact hw1
    · rw [pt, ← e2, smul_eq_iff, cast, hw]
      linear_combination (-(s : ZMod nP)⁻¹) * e1 + (k : ZMod nP) * hw1

/-- points with the same x -/
theorem same_x {k k' : Nat} {x y y' : Fp} {h : curve.Nonsingular x y} {h' : curve.Nonsingular x y'} (e : k • G = .some x y h) (e' : k' • G = .some x y' h') :
    (k : ZMod nP) = k' ∨ (k : ZMod nP) = -k' := by
  have c1 := curve_of_ns h
  have c2 := curve_of_ns h'
  have : (y - y') * (y + y') = 0 := by linear_combination c1 - c2
  rcases mul_eq_zero.1 this with e0 | e0
  · left
    have : y = y' := by linear_combination e0
    subst this
    rw [← smul_eq_iff, e, e']
  · right
    have hy : y = curve.negY x y' := by rw [negY_eq]; linear_combination e0
    have : k • G + k' • G = 0 := by
      rw [e, e', Affine.Point.add_of_Y_eq rfl hy]
    rw [← add_nsmul] at this
    have h0 : (k + k') • G = 0 • G := by rw [this, zero_nsmul]
    rw [smul_eq_iff] at h0
    push_cast at h0
    linear_combination h0

/-- the x of the nonce point is `r` itself, unless `r` is very small -/
theorem x_of_r {x : Fp} {r : Nat} (h : x.val % nP = r) (hr : pP - nP ≤ r) : x.val = r := by
  have h1 : x.val < pP := ZMod.val_lt x
  by_cases hx : x.val < nP
  · rw [Nat.mod_eq_of_lt hx] at h; exact h
  · exfalso
    have h2 := Nat.div_add_mod x.val nP
    have h3 : 1 ≤ x.val / nP := Nat.div_pos (by omega) (by have := nP_two; omega)
    have h4 : nP * 1 ≤ nP * (x.val / nP) := Nat.mul_le_mul_left _ h3
    omega

theorem nonce_cases {r : Nat} (hr : pP - nP ≤ r) {k k' : Nat} {x y x' y' : Fp} {h : curve.Nonsingular x y} {h' : curve.Nonsingular x' y'}
    (e : k • G = .some x y h) (e' : k' • G = .some x' y' h') (hx : x.val % nP = r) (hx' : x'.val % nP = r) : (k : ZMod nP) = k' ∨ (k : ZMod nP) = -k' := by
  have : x = x' := ZMod.val_injective _ ((x_of_r hx hr).trans (x_of_r hx' hr).symm)
  subst this
  exact same_x e e'

theorem nonce_ne {k : Nat} {x y : Fp} {h : curve.Nonsingular x y} (e : k • G = .some x y h) : (k : ZMod nP) ≠ 0 := by
  intro hk
  have : k • G = 0 • G := by rw [smul_eq_iff]; push_cast; exact hk
  rw [zero_nsmul, e] at this
  exact Affine.Point.some_ne_zero _ this

/-- for given key, digest and `r` there is only one low `s` -/
theorem low_unique {d z r s s' : Nat} (hr : pP - nP ≤ r) (h : EcdsaValid (d • G) z r s) (h' : EcdsaValid (d • G) z r s') (hl : 2 * s ≤ nP) (hl' : 2 * s' ≤ nP) : s = s' := by
  obtain ⟨_, _, s1, s2, k, x, y, hn, e1, e2, e3⟩ := valid_iff.1 h
  obtain ⟨_, _, t1, t2, k', x', y', hn', f1, f2, f3⟩ := valid_iff.1 h'
  have k0 := nonce_ne e2
  rcases nonce_cases hr e2 f2 e3 f3 with hk | hk
  · have : (s : ZMod nP) = s' := by
      apply mul_right_cancel₀ k0
      rw [e1, hk, f1]
    rw [ZMod.natCast_eq_natCast_iff', Nat.mod_eq_of_lt s2, Nat.mod_eq_of_lt t2] at this
    exact this
  · exfalso
    have : ((s + s' : Nat) : ZMod nP) = 0 := by
      push_cast
      apply mul_right_cancel₀ k0
      rw [hk] at e1 ⊢
      linear_combination e1 - f1
    rw [ZMod.natCast_eq_zero_iff] at this
    have := Nat.le_of_dvd (by omega) this
    have := nP_odd
    omega

/-- of three low `s` for given key, digest and `r`, two are equal, whatever `r` -/
theorem low_two {d z r s1 s2 s3 : Nat} (h1 : EcdsaValid (d • G) z r s1) (h2 : EcdsaValid (d • G) z r s2) (h3 : EcdsaValid (d • G) z r s3)
    (l1 : 2 * s1 ≤ nP) (l2 : 2 * s2 ≤ nP) (l3 : 2 * s3 ≤ nP) : s1 = s2 ∨ s1 = s3 ∨ s2 = s3 := by
  have core : ∀ {s s' k k' : Nat} {x x' y y' : Fp} {hn : curve.Nonsingular x y} {hn' : curve.Nonsingular x' y'}, x.val = x'.val →
      1 ≤ s → s < nP → s' < nP → 2 * s ≤ nP → 2 * s' ≤ nP → (s : ZMod nP) * k = z + r * d → (s' : ZMod nP) * k' = z + r * d →
      k • G = .some x y hn → k' • G = .some x' y' hn' → s = s' := by
    intro s s' k k' x x' y y' hn hn' hx p1 p2 p3 p4 p5 e1 f1 e2 f2
    have : x = x' := ZMod.val_injective _ hx
    subst this
    have k0 := nonce_ne e2
    rcases same_x e2 f2 with hk | hk
    · have : (s : ZMod nP) = s' := by
        apply mul_right_cancel₀ k0
        rw [e1, hk, f1]
      rw [ZMod.natCast_eq_natCast_iff', Nat.mod_eq_of_lt p2, Nat.mod_eq_of_lt p3] at this
      exact this
    · exfalso
      have : ((s + s' : Nat) : ZMod nP) = 0 := by
        push_cast
        apply mul_right_cancel₀ k0
        rw [hk] at e1 ⊢
        linear_combination e1 - f1
      rw [ZMod.natCast_eq_zero_iff] at this
      have := Nat.le_of_dvd (by omega) this
      have := nP_odd
      omega
  have two : ∀ {x : Fp}, x.val % nP = r → x.val = r ∨ x.val = r + nP := by
    intro x hx
    have a1 : x.val < pP := ZMod.val_lt x
    have a2 : pP < 2 * nP := by decide +kernel
    rcases Nat.lt_or_ge x.val nP with hl | hl
    · rw [Nat.mod_eq_of_lt hl] at hx; exact .inl hx
    · rw [Nat.mod_eq_sub_mod hl, Nat.mod_eq_of_lt (by omega)] at hx
      right; omega
  obtain ⟨_, _, p1, q1, _, _, _, _, e1, g1, x1⟩ := valid_iff.1 h1
  obtain ⟨_, _, p2, q2, _, _, _, _, e2, g2, x2⟩ := valid_iff.1 h2
  obtain ⟨_, _, p3, q3, _, _, _, _, e3, g3, x3⟩ := valid_iff.1 h3
  rcases two x1 with a | a <;> rcases two x2 with b | b <;> rcases two x3 with c | c
  · exact .inl (core (a.trans b.symm) p1 q1 q2 l1 l2 e1 e2 g1 g2)
  · exact .inl (core (a.trans b.symm) p1 q1 q2 l1 l2 e1 e2 g1 g2)
  · exact .inr (.inl (core (a.trans c.symm) p1 q1 q3 l1 l3 e1 e3 g1 g3))
  · exact .inr (.inr (core (b.trans c.symm) p2 q2 q3 l2 l3 e2 e3 g2 g3))
  · exact .inr (.inr (core (b.trans c.symm) p2 q2 q3 l2 l3 e2 e3 g2 g3))
  · exact .inr (.inl (core (a.trans c.symm) p1 q1 q3 l1 l3 e1 e3 g1 g3))
  · exact .inl (core (a.trans b.symm) p1 q1 q2 l1 l2 e1 e2 g1 g2)
  · exact .inl (core (a.trans b.symm) p1 q1 q2 l1 l2 e1 e2 g1 g2)

/-- a signature for two digests: they are congruent, or they determine the key -/
theorem two_digests {d z z' r s : Nat} (hr : pP - nP ≤ r) (h : EcdsaValid (d • G) z r s) (h' : EcdsaValid (d • G) z' r s) :
    (z : ZMod nP) = z' ∨ (2 * r * d : ZMod nP) = -(z + z') := by
  obtain ⟨_, _, s1, s2, k, x, y, hn, e1, e2, e3⟩ := valid_iff.1 h
  obtain ⟨_, _, t1, t2, k', x', y', hn', f1, f2, f3⟩ := valid_iff.1 h'
  rcases nonce_cases hr e2 f2 e3 f3 with hk | hk
  · left
    rw [hk, f1] at e1
    linear_combination -e1
  · right
    rw [hk] at e1
    linear_combination -e1 - f1

/-- and then there is such a key and a low signature, for any two digests that are neither congruent nor opposite -/
theorem make_two {z z' : Nat} (h1 : (z : ZMod nP) ≠ z') (h2 : (z : ZMod nP) + z' ≠ 0) :
    ∃ d r s : Nat, 1 ≤ d ∧ d < nP ∧ pP - nP ≤ r ∧ EcdsaValid (d • G) z r s ∧ EcdsaValid (d • G) z' r s ∧ 2 * s ≤ nP := by
  have two : (2 : ZMod nP) ≠ 0 := by
    have : ((2 : Nat) : ZMod nP) ≠ 0 := by
      rw [Ne, ZMod.natCast_eq_zero_iff]
      exact fun hd => absurd (Nat.le_of_dvd (by omega) hd) (by have := nP_two; omega)
    exact_mod_cast this
  have gx : (gX : ZMod nP) ≠ 0 := by
    rw [Ne, ZMod.natCast_eq_zero_iff]
    exact fun hd => absurd (Nat.le_of_dvd (by have := gX_range; omega) hd) (by have := gX_range; omega)
  obtain ⟨dz, hdz⟩ : ∃ dz : ZMod nP, 2 * gX * dz = -((z : ZMod nP) + z') := ⟨-((z : ZMod nP) + z') / (2 * gX), by field_simp⟩
  obtain ⟨sz, hsz⟩ : ∃ sz : ZMod nP, 2 * sz = (z : ZMod nP) - z' := ⟨((z : ZMod nP) - z') / 2, by field_simp⟩
  have d0 : dz ≠ 0 := by intro e; rw [e] at hdz; apply h2; linear_combination hdz
  have s0 : sz ≠ 0 := by intro e; rw [e] at hsz; apply h1; linear_combination -hsz
  have cd : ((dz.val : Nat) : ZMod nP) = dz := ZMod.natCast_rightInverse _
  have bound : ∀ a : ZMod nP, a ≠ 0 → 1 ≤ a.val ∧ a.val < nP := fun a ha => by
    refine ⟨?_, ZMod.val_lt a⟩
    rw [Nat.one_le_iff_ne_zero, Ne, ZMod.val_eq_zero]; exact ha
  have e1 : (1 : Nat) • G = .some (gX : Fp) (gY : Fp) g_curve := one_nsmul _
  have ns : curve.Nonsingular (gX : Fp) (curve.negY (gX : Fp) (gY : Fp)) := (Affine.nonsingular_neg _ _).2 g_curve
  have e2 : (nP - 1) • G = .some (gX : Fp) (curve.negY (gX : Fp) (gY : Fp)) ns := by
    have : (nP - 1) • G = -G := by
      rw [eq_neg_iff_add_eq_zero, ← succ_nsmul, Nat.sub_add_cancel (by have := nP_two; omega), nG]
    rw [this]; exact Affine.Point.neg_some _
  have c2 : (((nP - 1 : Nat)) : ZMod nP) = -1 := by
    rw [Nat.cast_sub (by have := nP_two; omega)]; simp
  have gm : ((gX : Fp)).val % nP = gX := by
    rw [ZMod.val_natCast_of_lt gX_lt, Nat.mod_eq_of_lt gX_range.2]
  have k1 : gX * dz + (z : ZMod nP) = sz := by
    apply mul_left_cancel₀ two; linear_combination hdz - hsz
  have k2 : gX * dz + (z' : ZMod nP) = -sz := by
    apply mul_left_cancel₀ two; linear_combination hdz + hsz
  have small : pP - nP ≤ gX := by decide +kernel
  by_cases hl : 2 * sz.val ≤ nP
  · have cs : ((sz.val : Nat) : ZMod nP) = sz := ZMod.natCast_rightInverse _
    refine ⟨dz.val, gX, sz.val, (bound _ d0).1, (bound _ d0).2, small, valid_iff.2 ⟨gX_range.1, gX_range.2, (bound _ s0).1, (bound _ s0).2, 1, _, _, _, ?_, e1, gm⟩,
      valid_iff.2 ⟨gX_range.1, gX_range.2, (bound _ s0).1, (bound _ s0).2, nP - 1, _, _, _, ?_, e2, gm⟩, hl⟩
    · rw [cs, cd]; push_cast; linear_combination -k1
    · rw [cs, cd, c2]; linear_combination -k2
  · have cs : (((-sz).val : Nat) : ZMod nP) = -sz := ZMod.natCast_rightInverse _
    have n0 : -sz ≠ 0 := neg_ne_zero.2 s0
    have hv : sz.val + (-sz).val = nP := by
      have : NeZero sz := ⟨s0⟩
      rw [ZMod.val_neg_of_ne_zero]
      have := ZMod.val_lt sz; omega
    refine ⟨dz.val, gX, (-sz).val, (bound _ d0).1, (bound _ d0).2, small, valid_iff.2 ⟨gX_range.1, gX_range.2, (bound _ n0).1, (bound _ n0).2, nP - 1, _, _, _, ?_, e2, gm⟩,
      valid_iff.2 ⟨gX_range.1, gX_range.2, (bound _ n0).1, (bound _ n0).2, 1, _, _, _, ?_, e1, gm⟩, by omega⟩
    · rw [cs, cd, c2]; linear_combination -k1
    · rw [cs, cd]; push_cast; linear_combination -k2

end BT.EcdsaForm
