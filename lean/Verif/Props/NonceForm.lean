import Verif.Props.EcdsaForm
import Verif.Props.SignOk

/-!
# C148: random values and the secrecy of the keys

`sign` with explicit random values, with the real cryptography.
-/

namespace BT
open Spec Concrete WeierstrassCurve

attribute [local irreducible] ecMul invMod hex32 pP nP gX gY rfcNonce ofHex ecVerify ecSign sha256 ripemd160 derEnc

namespace EcdsaForm

/-- what everybody can read in input `j` of the transaction: the public key `pk`, the two halves of the signature (decoded with the toolset) and the message that is signed -/
structure InScript (t : Tx) (j : Nat) (pk r s msg : Bytes) : Prop where
  decoded : ∃ i ss der, t.inputs[j]? = some i ∧ i.scriptSig = some ss ∧ scriptSigDecode Xreal.uni ss = .ok (der, hex pk) ∧ signatureFromDer Xreal der = .ok (hex (r ++ s))
  message : t.toHexSignable j = .ok (hex msg)
  keyLen : pk.length = 64
  rLen : r.length = 32
  sLen : s.length = 32

/-- the number that is signed for a message -/
noncomputable def digest (msg : Bytes) : Nat := beNat (sha256 (sha256 msg))

/-- if `verify` has no complaint, the signature is a valid low signature -/
theorem inScript_valid {t : Tx} {j : Nat} {pk r s msg : Bytes} {d : Nat} (hv : t.verify Xreal = .ok 0) (h : InScript t j pk r s msg) (hd : KeyBytes pk (d • G)) :
    EcdsaValid (d • G) (digest msg) (beNat r) (beNat s) ∧ 2 * beNat s ≤ nP := by
  obtain ⟨bs, h1, h2, h3⟩ := C41_counts Xreal t 0 hv
  obtain ⟨i, ss, der, e1, e2, e3, e4⟩ := h.decoded
  have hj : j < bs.length := by rw [h1]; exact (List.getElem?_eq_some_iff.1 e1).1
  have hb : bs[j]? = some true := by
    rw [List.getElem?_eq_getElem hj]
    cases hx : bs[j] with
    | true => rfl
    | false =>
      exfalso
      have : false ∈ bs := by rw [← hx]; exact List.getElem_mem hj
      have := List.count_pos_iff.2 this
      omega
  obtain ⟨ss', der', pk', sig', hx', dg', f1, f2, f3, f4, f5, f6⟩ := h3 j i true e1 hb
  rw [e2] at f1; cases f1
  rw [e3] at f2; cases f2
  rw [e4] at f3; cases f3
  rw [h.message] at f4; cases f4
  rw [getDoubleSha256_hex] at f5; cases f5
  rw [Xreal_verify, Xreal_sha, Xreal_sha, ofHex_hex] at f6
  injection f6 with f6
  rw [ecVerify_iff h.keyLen h.rLen] at f6
  obtain ⟨Q, hQ, hE⟩ := f6
  rw [keyBytes_unique hQ hd] at hE
  exact hE

/-- the first half of a signature that was made with the random value `k` -/
theorem first_half {d z k : Nat} {r s : Bytes} (hr : r.length = 32) (h : ecSign d z k = .ok (hex (r ++ s))) :
    ∃ (x y : Fp) (hn : curve.Nonsingular x y), k • G = .some x y hn ∧ x.val % nP = beNat r := by
  obtain ⟨x, y, q, _, s1, e1, e2, _, _, _, _, e3⟩ := ecSign_ok h
  have n0 : 0 < nP := by have := nP_two; omega
  have hk : k % nP < 2 ^ 256 := lt_trans (Nat.mod_lt _ n0) nP_lt
  have rep := mulG_rep hk
  rw [e1] at rep
  obtain ⟨hx, hy, hn, e⟩ := rep
  have hkk : (k % nP) • G = k • G := smul_eq_iff.2 (by rw [ZMod.natCast_mod])
  refine ⟨_, _, hn, by rw [← hkk, e], ?_⟩
  rw [ZMod.val_natCast_of_lt hx, ← e2]
  obtain ⟨b1, f1, l1, v1⟩ := hex32_bytes q
  obtain ⟨b2, f2, l2, v2⟩ := hex32_bytes s1
  rw [f1, f2, ← hex_append, hex_inj_iff] at e3
  have := List.append_inj_left e3 (by rw [hr, l1])
  have hq : q < 2 ^ 256 := by rw [e2]; exact lt_trans (Nat.mod_lt _ n0) nP_lt
  rw [this, v1, Nat.mod_eq_of_lt hq]

/-- the signature in input `j` was made with the `j`-th random value -/
theorem made_with {t t' : Tx} (ht : t.hashType1 = py"01") {keys l : List Str} (h : t.sign Xreal keys (some l) = (t', .ok ())) {j : Nat} {v pk r s msg : Bytes}
    (hv : l[j]? = some (hex v)) (hl : v.length = 32) (hs : InScript t' j pk r s msg) :
    ∃ (x y : Fp) (hn : curve.Nonsingular x y), beNat v • G = .some x y hn ∧ x.val % nP = beNat r := by
  have hne : l ≠ [] := by rintro rfl; simp at hv
  obtain ⟨i, ss, der, e1, e2, e3, e4⟩ := hs.decoded
  obtain ⟨_, _, hall⟩ := C40_own_random_value Xreal Xreal_laws t t' ht keys l hne h
  obtain ⟨v', ss', der', pk', sig', hx', dg', key, f1, f2, f3, f4, _, _, _, f5, _⟩ := hall j i e1
  rw [hv] at f1; cases f1
  rw [e2] at f2; cases f2
  rw [e3] at f3; cases f3
  have hvne : hex v ≠ [] := by
    intro e
    have := congrArg List.length e
    rw [hex_length, hl] at this
    simp at this
  have hsig : ecSign (ofHex key) (ofHex dg') (ofHex (hex v)) = .ok sig' := f5 hvne
  rw [ofHex_hex] at hsig
  obtain ⟨s1, s2⟩ := ecSign_shape hsig
  obtain ⟨dd, g1, _, g2⟩ := signature_der Xreal Xreal_laws s1 s2
  rw [g1] at f4; cases f4
  rw [g2] at e4; cases e4
  exact first_half hs.rLen hsig

end EcdsaForm

open EcdsaForm

/-- **C148** is violated: `sign` refuses random values that are the same text, but not opposite ones; these give signatures with the same first half. -/
theorem C148_opposite_violation {t t' : Tx} (ht : t.hashType1 = py"01") {keys l : List Str} (h : t.sign Xreal keys (some l) = (t', .ok ())) {i j : Nat}
    {v v' pk pk' r r' s s' msg msg' : Bytes} (hv : l[i]? = some (hex v)) (hl : v.length = 32) (hv' : l[j]? = some (hex v')) (hl' : v'.length = 32)
    (opp : beNat v + beNat v' = nP) (hi : InScript t' i pk r s msg) (hj : InScript t' j pk' r' s' msg') : r = r' := by
  obtain ⟨x, y, hn, e1, e2⟩ := made_with ht h hv hl hi
  obtain ⟨x', y', hn', f1, f2⟩ := made_with ht h hv' hl' hj
  have hneg : beNat v' • G = -(beNat v • G) := by
    rw [eq_neg_iff_add_eq_zero, ← add_nsmul, Nat.add_comm, opp, nG]
  rw [e1, f1, Affine.Point.neg_some] at hneg
  simp only [Affine.Point.some.injEq] at hneg
  exact beNat_inj (by rw [hi.rLen, hj.rLen]) (by rw [← e2, ← f2, hneg.1])

/-- **C148**, what holds: random values that are neither equal nor opposite modulo n give different first halves (except values below p - n). -/
theorem C148_different_partial {t t' : Tx} (ht : t.hashType1 = py"01") {keys l : List Str} (h : t.sign Xreal keys (some l) = (t', .ok ())) {i j : Nat}
    {v v' pk pk' r s s' msg msg' : Bytes} (hv : l[i]? = some (hex v)) (hl : v.length = 32) (hv' : l[j]? = some (hex v')) (hl' : v'.length = 32)
    (hi : InScript t' i pk r s msg) (hj : InScript t' j pk' r s' msg') (big : pP - nP ≤ beNat r) : beNat v % nP = beNat v' % nP ∨ nP ∣ beNat v + beNat v' := by
  obtain ⟨x, y, hn, e1, e2⟩ := made_with ht h hv hl hi
  obtain ⟨x', y', hn', f1, f2⟩ := made_with ht h hv' hl' hj
  rcases nonce_cases big e1 f1 e2 f2 with e | e
  · exact .inl ((ZMod.natCast_eq_natCast_iff' _ _ _).1 e)
  · right
    rw [← ZMod.natCast_eq_zero_iff]
    push_cast
    linear_combination e

/-- **C148**, why it matters: two valid signatures by one key (in any transaction with valid signatures) with the same first half give away the key: it is one of two
numbers that everybody can compute from the transaction. -/
theorem C148_reveals_violation {t : Tx} (hv : t.verify Xreal = .ok 0) {i j : Nat} {pk r s s' msg msg' : Bytes} {d : Nat} (hd : KeyBytes pk (d • G))
    (hi : InScript t i pk r s msg) (hj : InScript t j pk r s' msg') (big : pP - nP ≤ beNat r) (hne : s ≠ s') :
    (d : ZMod nP) = ((beNat s * digest msg' - beNat s' * digest msg) / (beNat r * (beNat s' - beNat s)) : ZMod nP) ∨
      (d : ZMod nP) = (-(beNat s * digest msg' + beNat s' * digest msg) / (beNat r * (beNat s' + beNat s)) : ZMod nP) := by
  obtain ⟨v1, l1⟩ := inScript_valid hv hi hd
  obtain ⟨v2, l2⟩ := inScript_valid hv hj hd
  have hsne : beNat s ≠ beNat s' := fun e => hne (beNat_inj (by rw [hi.sLen, hj.sLen]) e)
  obtain ⟨r1, r2, p1, p2, k, x, y, hn, e1, e2, e3⟩ := valid_iff.1 v1
  obtain ⟨_, _, q1, q2, k', x', y', hn', f1, f2, f3⟩ := valid_iff.1 v2
  generalize beNat s = S at *
  generalize beNat s' = S' at *
  generalize beNat r = R at *
  generalize digest msg = z at *
  generalize digest msg' = z' at *
  have R0 : (R : ZMod nP) ≠ 0 := by
    rw [Ne, ZMod.natCast_eq_zero_iff]
    exact fun hd => absurd (Nat.le_of_dvd (by omega) hd) (by omega)
  have D0 : (S' : ZMod nP) - S ≠ 0 := by
    intro e
    have : (S' : ZMod nP) = S := by linear_combination e
    rw [ZMod.natCast_eq_natCast_iff', Nat.mod_eq_of_lt p2, Nat.mod_eq_of_lt q2] at this
    exact hsne this.symm
  have A0 : (S' : ZMod nP) + S ≠ 0 := by
    intro e
    have : ((S' + S : Nat) : ZMod nP) = 0 := by push_cast; exact e
    rw [ZMod.natCast_eq_zero_iff] at this
    have := Nat.le_of_dvd (by omega) this
    have := nP_odd
    omega
  rcases nonce_cases big e2 f2 e3 f3 with hk | hk
  · left
    rw [eq_div_iff (mul_ne_zero R0 D0)]
    rw [hk] at e1
    linear_combination (-(S' : ZMod nP)) * e1 + (S : ZMod nP) * f1
  · right
    rw [eq_div_iff (mul_ne_zero R0 A0)]
    rw [hk] at e1
    linear_combination (-(S' : ZMod nP)) * e1 - (S : ZMod nP) * f1

end BT
