import Verif.Props.NonceForm
import Verif.Props.TxidFixed
-- imported only so that two modules that need much memory are not built at the same time
import Verif.Props.RealWit

/-! # C148 occurs: a transaction that `sign` signs with opposite random values -/

namespace BT
open Spec Concrete WeierstrassCurve EcdsaForm

namespace EcdsaForm

/-- public key and signature in an input, read with the toolset -/
def readIn (t : Tx) (j : Nat) : R (Str × Str × Str) :=
  match t.inputs[j]? with
  | some i => match i.scriptSig with
    | some ss => do
      let (der, pk) ← scriptSigDecode Xreal.uni ss
      let sig ← signatureFromDer Xreal der
      let m ← t.toHexSignable j
      vHex m
      pure (pk, sig, m)
    | none => .error .valueError
  | none => .error .valueError

/-- two inputs of the address of private key 1, signed with the keys 1 and 2 and the random values 1 and n - 1 -/
def oppositeRun : R (Tx × Tx × (Str × Str × Str) × (Str × Str × Str)) := do
  let (i1, i2, o1) ← twoFromOne Xreal
  let t ← Tx.create [i1, i2] [o1]
  match t.sign Xreal [hex32 1, hex32 2] (some [hex32 1, hex32 (nP - 1)]) with
  | (t', .ok ()) => do
    let a ← readIn t' 0
    let b ← readIn t' 1
    let pk ← privateKeyToPublicKey Xreal (hex32 1)
    assertR (decide (a.1 = pk ∧ b.1 = pk ∧ isHexStr a.2.1 = true ∧ isHexStr b.2.1 = true ∧ a.2.1.length = 128 ∧ b.2.1.length = 128 ∧
      a.2.1.drop 64 ≠ b.2.1.drop 64 ∧ pP - nP ≤ ofHex (a.2.1.take 64)))
    pure (t, t', a, b)
  | (_, .error e) => .error e

theorem oppositeRun_ok : oppositeRun.isOk = true := by decide +kernel

attribute [local irreducible] ecMul invMod hex32 pP nP gX gY rfcNonce ofHex ecVerify ecSign sha256 ripemd160 derEnc

theorem readIn_script {t : Tx} {j : Nat} {pk : Bytes} {sig m : Str} (h : readIn t j = .ok (hex pk, sig, m)) (hl : pk.length = 64) (h1 : isHexStr sig = true) (h2 : sig.length = 128) :
    ∃ r s msg, InScript t j pk r s msg ∧ sig = hex (r ++ s) := by
  unfold readIn at h
  cases hi : t.inputs[j]? with
  | none => rw [hi] at h; simp at h
  | some i =>
    rw [hi] at h
    cases hss : i.scriptSig with
    | none => simp [hss] at h
    | some ss =>
      simp only [hss, R_bind_eq_ok] at h
      obtain ⟨⟨der, pk'⟩, e1, sig', e2, m', e3, _, e4, e5⟩ := h
      simp only [R_pure, Except.ok.injEq, Prod.mk.injEq] at e5
      obtain ⟨rfl, rfl, rfl⟩ := e5
      obtain ⟨g, rfl⟩ := isHex_exists (isHexStr_iff.1 h1)
      have hm : IsHex m' := by
        by_contra hn
        rw [vHex_not hn] at e4
        simp at e4
      obtain ⟨msg, rfl⟩ := isHex_exists hm
      have hg : g.length = 64 := by rw [hex_length] at h2; omega
      refine ⟨g.take 32, g.drop 32, msg, ⟨⟨i, ss, der, hi, hss, e1, ?_⟩, e3, hl, by simp [hg], by simp [hg]⟩, ?_⟩
      · rw [List.take_append_drop]; exact e2
      · rw [List.take_append_drop]

end EcdsaForm

/-- **C148** violated: there is a transaction with two inputs of one key that `sign` signs with two different random values so that the first halves are equal
(and the hypotheses of C148_reveals_violation are met, so that the key is given away). -/
theorem C148_occurs_violation : ∃ (t t' : Tx) (keys l : List Str) (pk r s s' msg msg' : Bytes) (d : Nat), t.hashType1 = py"01" ∧ l.Nodup ∧
    t.sign Xreal keys (some l) = (t', .ok ()) ∧ t'.verify Xreal = .ok 0 ∧ KeyBytes pk (d • G) ∧ InScript t' 0 pk r s msg ∧ InScript t' 1 pk r s' msg' ∧
    pP - nP ≤ beNat r ∧ s ≠ s' := by
  have hok := oppositeRun_ok
  obtain ⟨⟨t, t', ⟨p1, g1, m1⟩, ⟨p2, g2, m2⟩⟩, hu⟩ := isOk_exists hok
  unfold oppositeRun at hu
  simp only [R_bind_eq_ok] at hu
  obtain ⟨⟨i1, i2, o1⟩, _, t0, ht, hu⟩ := hu
  cases hs : t0.sign Xreal [hex32 1, hex32 2] (some [hex32 1, hex32 (nP - 1)]) with
  | mk t1 res =>
    rw [hs] at hu
    cases res with
    | error e => simp at hu
    | ok u =>
      simp only [R_bind_eq_ok] at hu
      obtain ⟨a, ha, b, hb, pk, hpk, _, hc, hr⟩ := hu
      simp only [R_pure, Except.ok.injEq, Prod.mk.injEq] at hr
      obtain ⟨rfl, rfl, rfl, rfl⟩ := hr
      have hc := of_decide_eq_true (assertR_ok.1 hc)
      obtain ⟨c1, c2, c3, c4, c5, c6, c7, c8⟩ := hc
      simp only at c1 c2 c3 c4 c5 c6 c7 c8
      obtain ⟨bk, fk, lk, vk⟩ := hex32_bytes 1
      rw [fk] at hpk
      obtain ⟨_, _, pkb, rfl, hKB⟩ := (C92_public_key bk lk _).1 hpk
      subst c1
      subst c2
      obtain ⟨r, s, msg, hi, rfl⟩ := readIn_script ha hKB.1 c3 c5
      obtain ⟨r', s', msg', hj, rfl⟩ := readIn_script hb hKB.1 c4 c6
      have ht1 : t0.hashType1 = py"01" := by
        obtain ⟨_, _, rfl⟩ := Tx_create_ok.1 ht
        rfl
      obtain ⟨v1, f1, l1, w1⟩ := hex32_bytes 1
      obtain ⟨v2, f2, l2, w2⟩ := hex32_bytes (nP - 1)
      have opp : beNat v1 + beNat v2 = nP := by
        have := nP_lt
        have := nP_two
        rw [w1, w2, Nat.mod_eq_of_lt (by omega), Nat.mod_eq_of_lt (by omega)]; omega
      have rr : r = r' := C148_opposite_violation (i := 0) (j := 1) ht1 hs (by rw [f1]; rfl) l1 (by rw [f2]; rfl) l2 opp hi hj
      subst rr
      refine ⟨t0, t1, _, _, pkb, r, s, s', msg, msg', beNat bk, ht1, ((C40_own_random_value Xreal Xreal_laws _ _ ht1 _ _ (by simp) hs).1), hs,
        (C37_sign_then_verify Xreal Xreal_laws _ _ ht1 _ _ hs).2, hKB, hi, hj, ?_, ?_⟩
      · rw [hex_take _ 32, List.take_left' hi.rLen, ofHex_hex] at c8; exact c8
      · rintro rfl; exact c7 rfl

/-- **C149**: a run of the whole program that it speaks about -/
example : ∃ (keys : List Str) (spent : List Coin) (ins : List RawIn) (outs : List RawOut), spent ≠ [] ∧ List.Forall₂ Coin.SpentBy spent ins ∧ Fixed keys spent ins outs := by
  obtain ⟨keys, spent, ins, outs, _, _, h1, h2, _, h3⟩ := C149_program _ _ _ _ (.inl rfl) real_run
  exact ⟨keys, spent, ins, outs, h1, h2, h3⟩

end BT
