import Verif.RealSpec
import Verif.Concrete.RealLaws

/-! # What the environment with real cryptography accepts -/

namespace BT.Concrete
open BT BT.Spec WeierstrassCurve

/-! ## DER -/

theorem beNat_map {l : List Nat} (h : ∀ x ∈ l, x < 256) : beNat (l.map UInt8.ofNat) = valBE 256 l := by
  induction l with
  | nil => rfl
  | cons d l ih =>
    rw [List.map_cons, beNat, ih fun x hx => h x (by simp [hx]), List.length_map]
    have e : valBE 256 (d :: l) = (0 * 256 + d) * 256 ^ l.length + valBE 256 l := valBE_foldl 256 l (0 * 256 + d)
    rw [e]
    have : (UInt8.ofNat d).toNat = d := by
      rw [UInt8.toNat_ofNat']; exact Nat.mod_eq_of_lt (h d (by simp))
    rw [this]; simp

theorem derBase_head {n : Nat} (h : n ≠ 0) : ∃ x c, derBase n = x :: c ∧ x ≠ 0 := by
  unfold derBase
  rw [if_neg h]
  have hne : (Nat.digits 256 n).reverse ≠ [] := by simpa using Nat.digits_ne_nil_iff_ne_zero (b := 256).2 h
  obtain ⟨x, c, e⟩ := List.exists_cons_of_ne_nil hne
  refine ⟨x, c, e, ?_⟩
  have hl := Nat.getLast_digit_ne_zero 256 h
  have : (Nat.digits 256 n).getLast (Nat.digits_ne_nil_iff_ne_zero.2 h) = x := by
    have h1 : (Nat.digits 256 n) = (x :: c).reverse := by rw [← e, List.reverse_reverse]
    simp only [h1, List.reverse_cons, List.getLast_append_singleton]
  rwa [this] at hl

theorem derInt_spec {n : Nat} (h : n < 2 ^ 256) : DerInteger n ((derInt n).map UInt8.ofNat) := by
  have hl := derBody_len h
  have hv := derBody_val n
  have hb := derBody_byte n
  rw [derInt_eq]
  have hcons : ∃ x c, derBody n = x :: c ∧ x < 128 ∧ (x = 0 → ∀ y ∈ c.head?, 128 ≤ y) := by
    by_cases h0 : n = 0
    · subst h0
      exact ⟨0, [], rfl, by norm_num, fun _ y hy => by simp at hy⟩
    · obtain ⟨x, c, e, hx⟩ := derBase_head h0
      unfold derBody
      rw [e]
      by_cases hx2 : 128 ≤ x
      · rw [if_pos (show 128 ≤ (x :: c).headD 0 from hx2)]
        exact ⟨0, x :: c, rfl, by norm_num, fun _ y hy => by simp at hy; omega⟩
      · rw [if_neg (show ¬ 128 ≤ (x :: c).headD 0 from hx2)]
        exact ⟨x, c, rfl, by omega, fun hc => absurd hc hx⟩
  obtain ⟨x, c, e, h1, h2⟩ := hcons
  rw [e] at hl hv hb ⊢
  have hx : (UInt8.ofNat x).toNat = x := by rw [UInt8.toNat_ofNat']; exact Nat.mod_eq_of_lt (hb x (by simp))
  refine ⟨UInt8.ofNat x, c.map UInt8.ofNat, ?_, by simp only [List.length_map]; have := hl.2; simp only [List.length_cons] at this; omega, ?_, by omega, ?_⟩
  · simp only [List.map_cons, List.length_cons, List.length_map]
    rfl
  · rw [← List.map_cons, beNat_map hb]; exact hv
  · intro hz y hy
    have hx0 : x = 0 := by rw [← hx, hz]; rfl
    rw [List.head?_map] at hy
    cases hh : c.head? with
    | none => rw [hh] at hy; simp at hy
    | some d =>
      rw [hh] at hy
      simp only [Option.map_some, Option.mem_some_iff] at hy
      subst hy
      have hd : d ∈ c := List.mem_of_head? hh
      rw [UInt8.toNat_ofNat', Nat.mod_eq_of_lt (hb d (by simp [hd]))]
      exact h2 hx0 d hh

theorem derEnc_spec {r s : Nat} (hr : r < 2 ^ 256) (hs : s < 2 ^ 256) {b : Bytes} (h : derEnc r s = .ok b) : DerSignature r s b := by
  unfold derEnc at h
  rw [if_neg (by push Not; refine ⟨by omega, by omega, ?_, ?_⟩ <;> exact_mod_cast by assumption)] at h
  simp only [Int.toNat_natCast, Except.ok.injEq] at h
  subst h
  have h1 := derBody_len hr
  have h2 := derBody_len hs
  refine ⟨_, _, derInt_spec hr, derInt_spec hs, ?_, ?_⟩
  · simp only [List.map_cons, List.map_append, List.length_append, List.length_map]
    rfl
  · simp only [derInt_eq, List.length_map, List.length_cons]; omega

/-! ## Verification -/

theorem Xreal_verify (p d s : Str) : Xreal.verifyDigest p d s = .ok (ecVerify p (ofHex d) s) := rfl
theorem Xreal_sha (b : Bytes) : Xreal.sha256 b = sha256 b := rfl
theorem Xreal_rip (b : Bytes) : Xreal.ripemd160 b = ripemd160 b := rfl
theorem Xreal_der (r s : Int) : Xreal.derEncode r s = derEnc r s := rfl

attribute [local irreducible] ecMul invMod pP nP gX gY rfcNonce ecVerify sha256 ripemd160 derEnc

/-- `ecVerify` decides ECDSA with low s. -/
theorem ecVerify_iff {pk r s : Bytes} (hp : pk.length = 64) (hr : r.length = 32) (z : Nat) :
    ecVerify (hex pk) z (hex (r ++ s)) = true ↔ ∃ Q, KeyBytes pk Q ∧ EcdsaValid Q z (beNat r) (beNat s) ∧ 2 * beNat s ≤ nP := by
  have e1 : ofHex ((hex pk).take 64) = beNat (pk.take 32) := by rw [hex_take pk 32, ofHex_hex]
  have e2 : ofHex ((hex pk).drop 64) = beNat (pk.drop 32) := by rw [hex_drop pk 32, ofHex_hex]
  have e3 : ofHex ((hex (r ++ s)).take 64) = beNat r := by rw [hex_take _ 32, List.take_left' hr, ofHex_hex]
  have e4 : ofHex ((hex (r ++ s)).drop 64) = beNat s := by rw [hex_drop _ 32, List.drop_left' hr, ofHex_hex]
  have n2 := nP_pos
  have nlt := nP_lt
  unfold ecVerify
  simp only [forceN_eq, e1, e2, e3, e4]
  by_cases hrange : beNat r = 0 ∨ beNat r ≥ nP ∨ beNat s = 0 ∨ beNat s > nP / 2
  · rw [if_pos hrange]
    simp only [Bool.false_eq_true, false_iff]
    rintro ⟨Q, _, ⟨h1, h2, h3, h4, _⟩, h5⟩
    omega
  rw [if_neg hrange]
  by_cases hpt : beNat (pk.take 32) ≥ pP ∨ beNat (pk.drop 32) ≥ pP ∨
      beNat (pk.drop 32) * beNat (pk.drop 32) % pP ≠ (beNat (pk.take 32) * beNat (pk.take 32) * beNat (pk.take 32) + 7) % pP
  · rw [if_pos hpt]
    simp only [Bool.false_eq_true, false_iff]
    rintro ⟨Q, ⟨_, h1, h2, h, _⟩, _⟩
    have := curve_to_nat h
    omega
  rw [if_neg hpt]
  push Not at hrange hpt
  obtain ⟨q1, q2, q3⟩ := hpt
  have qns := curve_of_nat q3
  have hsf : ((beNat s : Nat) : ZMod nP) ≠ 0 := by
    intro hc
    exact hrange.2.2.1 (Nat.eq_zero_of_dvd_of_lt ((ZMod.natCast_eq_zero_iff _ _).1 hc) (by omega))
  have hwcast := invMod_cast nP nlt hsf
  generalize hw : invMod (beNat s) nP = w at hwcast
  have hw1 : w * beNat s % nP = 1 := by
    have : ((w * beNat s : Nat) : ZMod nP) = ((1 : Nat) : ZMod nP) := by
      push_cast; rw [hwcast]; exact inv_mul_cancel₀ hsf
    rw [ZMod.natCast_eq_natCast_iff'] at this
    rw [this, Nat.mod_eq_of_lt (by omega)]
  have l1 : z * w % nP < 2 ^ 256 := lt_trans (Nat.mod_lt _ (by omega)) nlt
  have l2 : beNat r * w % nP < 2 ^ 256 := lt_trans (Nat.mod_lt _ (by omega)) nlt
  have hsum := ecAdd_rep (mulG_rep l1) (ecMul_rep q1 q2 qns l2)
  constructor
  · intro h
    cases ho : ecAdd (ecMul (z * w % nP) gX gY) (ecMul (beNat r * w % nP) (beNat (pk.take 32)) (beNat (pk.drop 32))) with
    | none => rw [ho] at h; simp at h
    | some q =>
      obtain ⟨qx, qy⟩ := q
      rw [ho] at h hsum
      simp only [beq_iff_eq] at h
      obtain ⟨a1, a2, hns, he⟩ := hsum
      refine ⟨_, ⟨hp, q1, q2, qns, rfl⟩, ⟨by omega, by omega, by omega, by omega, w, _, _, hns, hw1, he, ?_⟩, by omega⟩
      rw [ZMod.val_natCast, Nat.mod_eq_of_lt a1]
      exact h
  · rintro ⟨Q, ⟨_, _, _, hns, rfl⟩, ⟨_, _, _, _, w', x, y, hxy, hw', he, hx⟩, _⟩
    have hww : ∀ a, a * w' % nP = a * w % nP := by
      intro a
      have h1 : ((w' : Nat) : ZMod nP) = w := by
        rw [hwcast]
        apply eq_inv_of_mul_eq_one_left
        have : ((w' * beNat s : Nat) : ZMod nP) = ((1 : Nat) : ZMod nP) := by
          rw [ZMod.natCast_eq_natCast_iff', hw', Nat.mod_eq_of_lt (by omega)]
        push_cast at this
        exact this
      have : ((a * w' : Nat) : ZMod nP) = ((a * w : Nat) : ZMod nP) := by push_cast; rw [h1]
      rwa [ZMod.natCast_eq_natCast_iff'] at this
    rw [hww, hww] at he
    rw [he] at hsum
    cases ho : ecAdd (ecMul (z * w % nP) gX gY) (ecMul (beNat r * w % nP) (beNat (pk.take 32)) (beNat (pk.drop 32))) with
    | none => rw [ho] at hsum; exact absurd hsum (Affine.Point.some_ne_zero _)
    | some q =>
      obtain ⟨qx, qy⟩ := q
      rw [ho] at hsum
      obtain ⟨a1, _, _, he'⟩ := hsum
      simp only [Affine.Point.some.injEq] at he'
      rw [he'.1, ZMod.val_natCast, Nat.mod_eq_of_lt a1] at hx
      simp [hx]

/-- A script accepted by the real library is a valid spend. -/
theorem unlocks_real {owner msg script : Bytes} (h : Unlocks Xreal owner msg script) : ValidSpend owner msg script := by
  obtain ⟨der, pk, r, s, h1, h2, h3, h4, h5, h6, h7, _, h8⟩ := h
  rw [Xreal_der] at h7
  rw [Xreal_rip, Xreal_sha] at h4
  rw [Xreal_verify, Xreal_sha, Xreal_sha] at h8
  injection h8 with h8
  rw [ofHex_hex, ecVerify_iff h3 h5] at h8
  obtain ⟨Q, hQ, hE, hlow⟩ := h8
  refine ⟨der, pk, beNat r, beNat s, Q, h1, h2, derEnc_spec ?_ ?_ h7, hQ, h4, hE, hlow⟩
  · have := beNat_lt r; rw [h5] at this; simpa using this
  · have := beNat_lt s; rw [h6] at this; simpa using this

end BT.Concrete
