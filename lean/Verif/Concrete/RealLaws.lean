import Verif.Concrete.Curve
import Verif.Concrete.Toy

/-!
# The environment with real cryptography satisfies `Ext.Laws`

secp256k1 ECDSA with RFC 6979 nonces, SHA-256, RIPEMD-160 and DER, as defined in
`Concrete/Ecdsa.lean` and `Concrete/Hash.lean`.  So the hypotheses `Ext.Laws` of the theorems hold
of the cryptography the package is made for, not only of a toy.
-/

namespace BT.Concrete
open BT BT.Spec WeierstrassCurve

/-! ## Numbers in hex -/

theorem filterMap_hex (b : Bytes) : (hex b).filterMap hexVal = b.flatMap fun x => [x.toNat / 16, x.toNat % 16] := by
  have hv : ∀ n < 16, hexVal (hexDigits.getD n '?') = some n := by decide
  induction b with
  | nil => rfl
  | cons x b ih =>
    have h1 : x.toNat / 16 < 16 := by have := x.toNat_lt; omega
    rw [hex_cons, List.filterMap_append, ih, List.flatMap_cons]
    simp only [hexByte, List.filterMap_cons, hv _ h1, hv _ (Nat.mod_lt _ (by norm_num : 0 < 16)), List.filterMap_nil]

theorem valBE_foldl (B : Nat) (l : List Nat) (a : Nat) : l.foldl (fun a d => a * B + d) a = a * B ^ l.length + valBE B l := by
  induction l generalizing a with
  | nil => simp [valBE]
  | cons d l ih =>
    have h := ih d
    simp only [valBE, List.foldl_cons, Nat.zero_mul, Nat.zero_add, List.length_cons] at h ⊢
    rw [ih (a * B + d), h]
    simp only [valBE]
    ring

theorem ofHex_hex (b : Bytes) : ofHex (hex b) = beNat b := by
  unfold ofHex
  rw [filterMap_hex]
  induction b with
  | nil => rfl
  | cons x b ih =>
    rw [List.flatMap_cons, beNat, ← ih]
    simp only [List.cons_append, List.nil_append]
    have hl : (b.flatMap fun x : UInt8 => [x.toNat / 16, x.toNat % 16]).length = 2 * b.length := by
      simp [List.length_flatMap, Nat.mul_comm]
    conv_lhs => rw [valBE, List.foldl_cons, List.foldl_cons, valBE_foldl, hl]
    rw [pow_mul]
    norm_num
    omega

theorem beNat_beBytes (k n : Nat) : beNat ((beBytes k n).map UInt8.ofNat) = n % 256 ^ k := by
  induction k generalizing n with
  | zero => simp [beBytes, beNat, Nat.mod_one]
  | succ k ih =>
    rw [beBytes, List.map_append, beNat_append, ih]
    simp only [List.map_cons, List.map_nil, beNat, List.length_cons, List.length_nil, UInt8.toNat_ofNat', pow_zero, Nat.mul_one, Nat.add_zero]
    rw [show 256 ^ (k + 1) = 256 * 256 ^ k from pow_succ' 256 k, Nat.mod_mul]
    omega

theorem beBytes_length (k n : Nat) : (beBytes k n).length = k := by
  induction k generalizing n with
  | zero => rfl
  | succ k ih => simp [beBytes, ih]

theorem hex32_eq (n : Nat) : hex32 n = hex ((beBytes 32 n).map UInt8.ofNat) := by rw [hex32, bytesHex_eq]

theorem hex32_length (n : Nat) : (hex32 n).length = 64 := by rw [hex32_eq, hex_length, List.length_map, beBytes_length]

theorem ofHex_hex32 {n : Nat} (h : n < 2 ^ 256) : ofHex (hex32 n) = n := by
  rw [hex32_eq, ofHex_hex, beNat_beBytes, Nat.mod_eq_of_lt (by norm_num at h ⊢; exact h)]

theorem hex32_pair (a b : Nat) : isHexStr (hex32 a ++ hex32 b) = true ∧ (hex32 a ++ hex32 b).length = 128 := by
  refine ⟨?_, by rw [List.length_append, hex32_length, hex32_length]⟩
  rw [hex32_eq, hex32_eq, ← hex_append]
  exact isHexStr_iff.2 (isHex_hex _)

theorem pair_take {a b : Nat} (h : a < 2 ^ 256) : ofHex ((hex32 a ++ hex32 b).take 64) = a := by
  rw [List.take_left' (hex32_length a), ofHex_hex32 h]

theorem pair_drop {a b : Nat} (h : b < 2 ^ 256) : ofHex ((hex32 a ++ hex32 b).drop 64) = b := by
  rw [List.drop_left' (hex32_length a), ofHex_hex32 h]

/-! ## Signing and verifying -/

attribute [local irreducible] ecMul invMod hex32 pP nP gX gY rfcNonce ofHex

/-- what an accepted call of `ecSign` has computed -/
theorem ecSign_ok {d z k : Nat} {sig : Str} (h : ecSign d z k = .ok sig) :
    ∃ x y r s0 s, ecMul (k % nP) gX gY = some (x, y) ∧ r = x % nP ∧ s0 = invMod k nP * ((z + r * d) % nP) % nP ∧
      s = (if s0 > nP / 2 then nP - s0 else s0) ∧ r ≠ 0 ∧ s ≠ 0 ∧ sig = hex32 r ++ hex32 s := by
  unfold ecSign at h
  cases hm : ecMul (k % nP) gX gY with
  | none => rw [hm] at h; simp at h
  | some q =>
    obtain ⟨x, y⟩ := q
    rw [hm] at h
    simp only [forceN_eq] at h
    refine ⟨x, y, x % nP, invMod k nP * ((z + x % nP * d) % nP) % nP, _, rfl, rfl, rfl, rfl, ?_⟩
    generalize (if invMod k nP * ((z + x % nP * d) % nP) % nP > nP / 2 then nP - invMod k nP * ((z + x % nP * d) % nP) % nP
      else invMod k nP * ((z + x % nP * d) % nP) % nP) = s at h ⊢
    generalize x % nP = r at h ⊢
    by_cases hc : r = 0 ∨ s = 0
    · rw [if_pos hc] at h; simp at h
    · rw [if_neg hc] at h
      simp only [Except.ok.injEq] at h
      push Not at hc
      exact ⟨hc.1, hc.2, h.symm⟩

theorem nP_pos : 2 < nP := by decide +kernel

theorem point_x_eq {o : Option (Nat × Nat)} {x : Nat} {P : curve.Point} (ho : RepA o P) (hx : x < pP) (y' : Fp)
    (h : curve.Nonsingular (x : Fp) y') (hP : P = .some (x : Fp) y' h) : ∃ y2, o = some (x, y2) := by
  cases o with
  | none =>
    have : P = 0 := ho
    rw [hP] at this
    exact absurd this (Affine.Point.some_ne_zero _)
  | some q =>
    obtain ⟨a, b⟩ := q
    obtain ⟨ha, _, hn, e⟩ := ho
    rw [hP] at e
    simp only [Affine.Point.some.injEq] at e
    have := (natCast_inj_of_lt hx ha).1 e.1
    subst this
    exact ⟨b, rfl⟩

/-- A signature made with key `d` verifies under the public key of `d`. -/
theorem ecSign_verify {d z k qx qy : Nat} {sig : Str} (hd : d < nP) (hq : ecMul d gX gY = some (qx, qy))
    (h : ecSign d z k = .ok sig) : ecVerify (hex32 qx ++ hex32 qy) z sig = true := by
  obtain ⟨x, y, r, s0, s, hm, hr, hs0, hs, r0, s0', rfl⟩ := ecSign_ok h
  have n2 := nP_pos
  have nlt := nP_lt
  have plt := pP_lt
  have hQ := mulG_rep (k := d) (by omega)
  rw [hq] at hQ
  obtain ⟨q1, q2, qns, qe⟩ := hQ
  have hkl : k % nP < nP := Nat.mod_lt _ (by omega)
  have hR := mulG_rep (k := k % nP) (by omega)
  rw [hm] at hR
  obtain ⟨x1, y1, xns, xe⟩ := hR
  have hrn : r < nP := hr ▸ Nat.mod_lt _ (by omega)
  have hs0n : s0 < nP := hs0 ▸ Nat.mod_lt _ (by omega)
  have hsn : s < nP ∧ s ≤ nP / 2 := by
    rw [hs]
    split <;> omega
  -- the nonce is invertible
  have hk0 : (k : ZMod nP) ≠ 0 := by
    intro hc
    have : k % nP = 0 := Nat.mod_eq_zero_of_dvd ((ZMod.natCast_eq_zero_iff _ _).1 hc)
    rw [this, zero_nsmul] at xe
    exact Affine.Point.some_ne_zero _ xe.symm
  have hsf : (s : ZMod nP) ≠ 0 := by
    intro hc
    exact s0' (Nat.eq_zero_of_dvd_of_lt ((ZMod.natCast_eq_zero_iff _ _).1 hc) hsn.1)
  have es0 : (s0 : ZMod nP) = (k : ZMod nP)⁻¹ * (z + r * d) := by
    rw [hs0, ZMod.natCast_mod, Nat.cast_mul, ZMod.natCast_mod, invMod_cast nP nlt hk0]
    push_cast
    rfl
  have es : (s : ZMod nP) = s0 ∨ (s : ZMod nP) = -s0 := by
    rw [hs]
    split
    · right
      rw [Nat.cast_sub (by omega)]
      simp
    · left; rfl
  unfold ecVerify
  simp only [forceN_eq, pair_take (lt_trans q1 plt), pair_drop (lt_trans q2 plt), pair_take (lt_trans hrn nlt), pair_drop (lt_trans hsn.1 nlt)]
  rw [if_neg (by omega), if_neg (by have := curve_to_nat qns; omega)]
  generalize hu1 : z * invMod s nP % nP = u1
  generalize hu2 : r * invMod s nP % nP = u2
  have l1 : u1 < nP := hu1 ▸ Nat.mod_lt _ (by omega)
  have l2 : u2 < nP := hu2 ▸ Nat.mod_lt _ (by omega)
  have c1 : (u1 : ZMod nP) = z * (s : ZMod nP)⁻¹ := by
    rw [← hu1, ZMod.natCast_mod, Nat.cast_mul, invMod_cast nP nlt hsf]
  have c2 : (u2 : ZMod nP) = r * (s : ZMod nP)⁻¹ := by
    rw [← hu2, ZMod.natCast_mod, Nat.cast_mul, invMod_cast nP nlt hsf]
  have hsum := ecAdd_rep (mulG_rep (k := u1) (by omega)) (ecMul_rep q1 q2 qns (k := u2) (by omega))
  rw [← qe, smul_smul, ← add_nsmul] at hsum
  have hcoef : ((u1 + u2 * d : Nat) : ZMod nP) = (s : ZMod nP)⁻¹ * (k * s0) := by
    push_cast
    rw [c1, c2, es0]
    field_simp
  have key : ∃ y2, ecAdd (ecMul u1 gX gY) (ecMul u2 qx qy) = some (x, y2) := by
    rcases es with e | e
    · have : (u1 + u2 * d) • G = (k % nP) • G := by
        rw [smul_eq_iff, hcoef, ZMod.natCast_mod, ← e]
        field_simp
      rw [this, xe] at hsum
      exact point_x_eq hsum x1 _ xns rfl
    · have : (u1 + u2 * d) • G = -((k % nP) • G) := by
        apply eq_neg_of_add_eq_zero_left
        rw [← add_nsmul]
        have h0 : (u1 + u2 * d + k % nP) • G = 0 • G := by
          rw [smul_eq_iff, Nat.cast_add, hcoef, ZMod.natCast_mod]
          have e' : (s0 : ZMod nP) = -s := by rw [e]; ring
          rw [e']
          push_cast
          field_simp
          ring
        rw [h0, zero_nsmul]
      rw [this, xe, Affine.Point.neg_some] at hsum
      exact point_x_eq hsum x1 _ _ rfl
  obtain ⟨y2, hy2⟩ := key
  rw [hy2]
  simp [hr]

theorem valKey_bounds {k : Str} (h : valKey k = .ok ()) : 0 < ofHex k ∧ ofHex k < nP := by
  unfold valKey at h
  split at h
  · rename_i hc
    simp only [Bool.and_eq_true, decide_eq_true_eq] at hc
    exact ⟨hc.1.2, hc.2⟩
  · simp at h

theorem pubOf_ok {k p : Str} (h : pubOf k = .ok p) : ∃ x y, ecMul (ofHex k) gX gY = some (x, y) ∧ p = hex32 x ++ hex32 y := by
  unfold pubOf at h
  cases hm : ecMul (ofHex k) gX gY with
  | none => rw [hm] at h; simp at h
  | some q =>
    obtain ⟨x, y⟩ := q
    rw [hm] at h
    simp only [Except.ok.injEq] at h
    exact ⟨x, y, rfl, h.symm⟩

theorem ecSign_shape {d z k : Nat} {sig : Str} (h : ecSign d z k = .ok sig) : isHexStr sig = true ∧ sig.length = 128 := by
  obtain ⟨_, _, _, _, _, _, _, _, _, _, _, rfl⟩ := ecSign_ok h
  exact hex32_pair _ _

theorem sign_verify_real {k p sig : Str} {z n : Nat} (hk : valKey k = .ok ()) (hp : pubOf k = .ok p)
    (hs : ecSign (ofHex k) z n = .ok sig) : ecVerify p z sig = true := by
  obtain ⟨x, y, hm, rfl⟩ := pubOf_ok hp
  exact ecSign_verify (valKey_bounds hk).2 hm hs

/-- Real cryptography satisfies the assumptions. -/
theorem Xreal_laws : Xreal.Laws where
  sha_len := sha256_length
  rip_len := ripemd160_length
  key_shape := Xtoy_laws.key_shape
  format_id := Xtoy_laws.format_id
  pub_shape := by
    intro k p h
    obtain ⟨x, y, _, rfl⟩ := pubOf_ok h
    exact hex32_pair _ _
  sig_shape := fun _ _ _ h => ecSign_shape h
  sig_shape_rand := fun _ _ _ _ h => ecSign_shape h
  sign_verify := fun k p d s hk hp hs => congrArg Except.ok (sign_verify_real hk hp hs)
  sign_verify_rand := fun k p d n s hk hp hs => congrArg Except.ok (sign_verify_real hk hp hs)
  data_shape := by
    intro k d s h
    change (fromHex d >>= fun b => ecSign (ofHex k) (ofBE ((sha256 b).map UInt8.toNat)) (rfcNonce (ofHex k) ((sha256 b).map UInt8.toNat))) = .ok s at h
    cases hf : fromHex d with
    | error e => rw [hf] at h; simp [bind, Except.bind] at h
    | ok b => rw [hf] at h; exact ecSign_shape h
  data_verify := by
    intro k p d s hk hp h
    change (fromHex d >>= fun b => ecSign (ofHex k) (ofBE ((sha256 b).map UInt8.toNat)) (rfcNonce (ofHex k) ((sha256 b).map UInt8.toNat))) = .ok s at h
    change (fromHex d >>= fun b => pure (ecVerify p (ofBE ((sha256 b).map UInt8.toNat)) s)) = .ok true
    cases hf : fromHex d with
    | error e => rw [hf] at h; simp [bind, Except.bind] at h
    | ok b => rw [hf] at h; exact congrArg Except.ok (sign_verify_real hk hp h)
  pub_ok := by
    intro k hk
    obtain ⟨h0, h1⟩ := valKey_bounds hk
    have := nP_lt
    have hr := mulG_rep (k := ofHex k) (by omega)
    cases hm : ecMul (ofHex k) gX gY with
    | none =>
      rw [hm] at hr
      have e : ofHex k • G = 0 • G := by rw [zero_nsmul]; exact hr
      rw [smul_eq_iff, Nat.cast_zero, ZMod.natCast_eq_zero_iff] at e
      exact absurd (Nat.le_of_dvd h0 e) (by omega)
    | some q => exact ⟨_, show pubOf k = _ by rw [pubOf, hm]⟩
  split_ok := Xtoy_laws.split_ok
  der_round := der_round

end BT.Concrete
