import Verif.Props.EcdsaForm

/-!
# C150: which keys a signature belongs to
-/

namespace BT
open Spec Concrete WeierstrassCurve EcdsaForm

attribute [local irreducible] ecMul invMod hex32 pP nP gX gY rfcNonce ofHex ecVerify sha256 ripemd160 derEnc

namespace EcdsaForm

theorem r_ne {r : Nat} (h1 : 1 ≤ r) (h2 : r < nP) : (r : ZMod nP) ≠ 0 := by
  rw [Ne, ZMod.natCast_eq_zero_iff]
  exact fun hd => absurd (Nat.le_of_dvd (by omega) hd) (by omega)

/-- a signature of one digest under two keys -/
theorem two_keys {d d' z r s : Nat} (hr : pP - nP ≤ r) (h : EcdsaValid (d • G) z r s) (h' : EcdsaValid (d' • G) z r s) :
    (d : ZMod nP) = d' ∨ (r * (d + d') : ZMod nP) = -(2 * z) := by
  obtain ⟨r1, r2, _, _, k, x, y, hn, e1, e2, e3⟩ := valid_iff.1 h
  obtain ⟨_, _, _, _, k', x', y', hn', f1, f2, f3⟩ := valid_iff.1 h'
  rcases nonce_cases hr e2 f2 e3 f3 with hk | hk
  · left
    apply mul_left_cancel₀ (r_ne r1 r2)
    rw [hk] at e1
    linear_combination f1 - e1
  · right
    rw [hk] at e1
    linear_combination -e1 - f1

/-- the other key -/
theorem other_key {d z r s : Nat} (h : EcdsaValid (d • G) z r s) (hne : (r * d + 2 * z : ZMod nP) ≠ 0) :
    ∃ d', 1 ≤ d' ∧ d' < nP ∧ (d : ZMod nP) ≠ d' ∧ EcdsaValid (d' • G) z r s := by
  obtain ⟨r1, r2, s1, s2, k, x, y, hn, e1, e2, e3⟩ := valid_iff.1 h
  have R0 := r_ne r1 r2
  have S0 := r_ne s1 s2
  have K0 := nonce_ne e2
  obtain ⟨dz, hdz⟩ : ∃ dz : ZMod nP, r * dz = -(r * d + 2 * z) := ⟨-(r * d + 2 * z) / r, by field_simp⟩
  have cd : ((dz.val : Nat) : ZMod nP) = dz := ZMod.natCast_rightInverse _
  have d0 : dz ≠ 0 := by
    intro e; rw [e] at hdz; apply hne; linear_combination hdz
  have ns : curve.Nonsingular x (curve.negY x y) := (Affine.nonsingular_neg _ _).2 hn
  have hneg : (k * (nP - 1)) • G = .some x (curve.negY x y) ns := by
    have : (k * (nP - 1)) • G = -(k • G) := by
      rw [eq_neg_iff_add_eq_zero, ← add_nsmul, ← Nat.mul_succ, Nat.succ_eq_add_one, Nat.sub_add_cancel (by have := nP_two; omega), mul_nsmul', nG, nsmul_zero]
    rw [this, e2]; exact Affine.Point.neg_some _
  have c2 : (((k * (nP - 1) : Nat)) : ZMod nP) = -k := by
    push_cast
    rw [Nat.cast_sub (by have := nP_two; omega)]; simp
  refine ⟨dz.val, ?_, ZMod.val_lt dz, ?_, valid_iff.2 ⟨r1, r2, s1, s2, k * (nP - 1), x, _, ns, ?_, hneg, e3⟩⟩
  · rw [Nat.one_le_iff_ne_zero, Ne, ZMod.val_eq_zero]; exact d0
  · rw [cd]
    intro e
    rw [← e] at hdz
    have two : (2 : ZMod nP) ≠ 0 := by
      have : ((2 : Nat) : ZMod nP) ≠ 0 := by
        rw [Ne, ZMod.natCast_eq_zero_iff]
        exact fun hd => absurd (Nat.le_of_dvd (by omega) hd) (by have := nP_two; omega)
      exact_mod_cast this
    have : (2 : ZMod nP) * (s * k) = 0 := by linear_combination 2 * e1 + hdz
    exact mul_ne_zero two (mul_ne_zero S0 K0) this
  · rw [cd, c2]
    linear_combination -e1 - hdz

end EcdsaForm

/-- **C150** is false: whatever private key, text and signature, if verify_data_signature accepts the signature, then it accepts it under the public key of another
private key too (in one exceptional case not: if the key is -2z/r). -/
theorem C150_other_signer_violation {a : CliArgs} {d : Str} {pk r s : Bytes} {k : Nat} (hk : KeyBytes pk (k • G)) (h : Asks a d pk r s) (v : SaysValid a)
    (hne : ¬ nP ∣ beNat r * k + 2 * beNat (sha256 (asciiBytes d))) :
    ∃ key pk' : Bytes, key.length = 32 ∧ privateKeyToPublicKey Xreal (hex key) = .ok (hex pk') ∧ pk' ≠ pk ∧
      ∀ a' : CliArgs, a'.data = some d → a'.publicKeyHex = some (hex pk') → a'.signatureHex = a.signatureHex → SaysValid a' := by
  rw [says_iff h hk] at v
  obtain ⟨k', k1, k2, kne, v'⟩ := other_key v.1 (fun e => hne ((ZMod.natCast_eq_zero_iff _ _).1 (by push_cast; exact e)))
  obtain ⟨bk, _, lk, ek⟩ := hex32_bytes k'
  rw [Nat.mod_eq_of_lt (by have := nP_lt; omega)] at ek
  have hv : valKey (hex bk) = .ok () := valKey_iff.2 ⟨bk, rfl, lk, by omega, by omega⟩
  obtain ⟨p, hp⟩ := Xreal_laws.pub_ok _ hv
  obtain ⟨pk', rfl, hpk⟩ := pubOf_point hv hp
  rw [ofHex_hex, ek] at hpk
  refine ⟨bk, pk', lk, (C92_public_key bk lk _).2 ⟨by omega, by omega, pk', rfl, by rw [ek]; exact hpk⟩, ?_, ?_⟩
  · rintro rfl
    exact kne (smul_eq_iff.1 (keyBytes_unique hk hpk))
  · intro a' e1 e2 e3
    rw [says_iff ⟨e1, h.printable, e2, e3.trans h.signature, hpk.1, h.rLen, h.sLen⟩ hpk]
    exact ⟨v', v.2⟩

/-- **C150**, what holds: no third key. -/
theorem C150_two_signers_partial {a a' : CliArgs} {d : Str} {pk pk' r s : Bytes} {k k' : Nat} (hk : KeyBytes pk (k • G)) (hk' : KeyBytes pk' (k' • G))
    (h : Asks a d pk r s) (h' : Asks a' d pk' r s) (hr : pP - nP ≤ beNat r) (v : SaysValid a) (v' : SaysValid a') :
    pk = pk' ∨ nP ∣ beNat r * (k + k') + 2 * beNat (sha256 (asciiBytes d)) := by
  rw [says_iff h hk] at v
  rw [says_iff h' hk'] at v'
  rcases two_keys hr v.1 v'.1 with e | e
  · left
    obtain ⟨l1, a1, a2, ns, e1⟩ := hk
    obtain ⟨l2, b1, b2, ns', e2⟩ := hk'
    rw [smul_eq_iff.2 e] at e1
    rw [e1] at e2
    simp only [Affine.Point.some.injEq] at e2
    have y1 := beNat_inj (by simp [l1, l2]) ((natCast_inj_of_lt a1 b1).1 e2.1)
    have y2 := beNat_inj (by simp [l1, l2]) ((natCast_inj_of_lt a2 b2).1 e2.2)
    rw [← List.take_append_drop 32 pk, ← List.take_append_drop 32 pk', y1, y2]
  · right
    rw [← ZMod.natCast_eq_zero_iff]
    push_cast
    linear_combination e

/-- the hypotheses are met -/
example : ∃ (key pk r s : Bytes) (a : CliArgs), KeyBytes pk (beNat key • G) ∧ Asks a py"I owe you 1 coin" pk r s ∧ pP - nP ≤ beNat r ∧ SaysValid a ∧
    ¬ nP ∣ beNat r * beNat key + 2 * beNat (sha256 (asciiBytes py"I owe you 1 coin")) := by
  obtain ⟨p1, p2, p3, p4⟩ := two_texts
  obtain ⟨key, pk, r, s, lk, hp, l1, l2, l3, big, hv⟩ := C147_two_texts_violation p1 p2 p3 p4
  obtain ⟨_, _, pk', e, hpk⟩ := (C92_public_key key lk _).1 hp
  rw [hex_inj_iff] at e
  subst e
  let a : CliArgs := { task := py"verify_data_signature", data := some py"I owe you 1 coin", publicKeyHex := some (hex pk), signatureHex := some (hex (r ++ s)) }
  let a' : CliArgs := { task := py"verify_data_signature", data := some py"I owe you 2 coins", publicKeyHex := some (hex pk), signatureHex := some (hex (r ++ s)) }
  have A : Asks a py"I owe you 1 coin" pk r s := ⟨rfl, p1, rfl, rfl, l1, l2, l3⟩
  have A' : Asks a' py"I owe you 2 coins" pk r s := ⟨rfl, p2, rfl, rfl, l1, l2, l3⟩
  obtain ⟨v, v'⟩ := hv a a' rfl rfl rfl rfl rfl rfl
  refine ⟨key, pk, r, s, a, hpk, A, big, v, fun hdv => ?_⟩
  rcases C147_one_text_partial hpk A A' big v v' with h | h
  · exact p3 h
  · have h3 : ¬ nP ∣ 3 * beNat (sha256 (asciiBytes py"I owe you 1 coin")) + (nP - 1) * beNat (sha256 (asciiBytes py"I owe you 2 coins")) := by decide +kernel
    generalize beNat (sha256 (asciiBytes py"I owe you 1 coin")) = z at *
    generalize beNat (sha256 (asciiBytes py"I owe you 2 coins")) = z' at *
    rw [← ZMod.natCast_eq_zero_iff] at h hdv h3
    push_cast [Nat.cast_sub (show 1 ≤ nP by have := nP_two; omega)] at h hdv h3
    apply h3
    rw [ZMod.natCast_self]
    linear_combination 2 * hdv - h

end BT
