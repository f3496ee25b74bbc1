import Verif.Concrete.Ecdsa
import Mathlib.FieldTheory.Finite.Basic
import Mathlib.Tactic.NormNum.Prime

/-!
# The field prime and the group order of secp256k1 are prime

Pocklington's criterion with certificates checked by the kernel.  Nothing here models code of
`/repo`.
-/

namespace BT.Concrete

/-! ## Modular exponentiation -/

theorem forceN_eq {α : Type} (n : Nat) (f : Nat → α) : forceN n f = f n := by
  cases n <;> rfl

/-- value of a list of bits, most significant first -/
def bitsVal (l : List Bool) : Nat := l.foldl (fun a b => 2 * a + b.toNat) 0

theorem bitsVal_foldl (l : List Bool) (a : Nat) : l.foldl (fun a b => 2 * a + b.toNat) a = a * 2 ^ l.length + bitsVal l := by
  induction l generalizing a with
  | nil => simp [bitsVal]
  | cons b l ih =>
    have h := ih b.toNat
    simp only [List.foldl_cons, bitsVal, Nat.mul_zero, Nat.zero_add, List.length_cons] at h ⊢
    rw [ih (2 * a + b.toNat), h]
    simp only [bitsVal]
    ring

theorem bitsVal_cons (b : Bool) (l : List Bool) : bitsVal (b :: l) = b.toNat * 2 ^ l.length + bitsVal l := by
  rw [bitsVal, List.foldl_cons, bitsVal_foldl]; simp

theorem bitsMSB_length (k n : Nat) : (bitsMSB k n).length = k := by
  induction k with
  | zero => rfl
  | succ k ih => simp [bitsMSB, ih]

theorem bitsVal_bitsMSB (k n : Nat) : bitsVal (bitsMSB k n) = n % 2 ^ k := by
  induction k with
  | zero => simp [bitsMSB, bitsVal, Nat.mod_one]
  | succ k ih =>
    rw [bitsMSB, bitsVal_cons, ih, bitsMSB_length, Nat.mod_pow_succ, Nat.testBit_eq_decide_div_mod_eq]
    have : n / 2 ^ k % 2 = 0 ∨ n / 2 ^ k % 2 = 1 := by omega
    rcases this with h | h <;> simp [h, Nat.add_comm]

theorem powModLoop_eq (b m : Nat) (l : List Bool) (acc : Nat) :
    ((powModLoop b m l acc : Nat) : ZMod m) = (acc : ZMod m) ^ 2 ^ l.length * (b : ZMod m) ^ bitsVal l := by
  induction l generalizing acc with
  | nil => simp [powModLoop, bitsVal]
  | cons bit l ih =>
    rw [powModLoop]
    simp only [forceN_eq]
    have e : (acc : ZMod m) ^ 2 ^ (l.length + 1) = ((acc : ZMod m) * acc) ^ 2 ^ l.length := by
      rw [← pow_two, ← pow_mul, pow_succ']
    cases bit with
    | false =>
      simp only [Bool.false_eq_true, if_false]
      rw [ih, bitsVal_cons, List.length_cons, e]
      simp
    | true =>
      simp only [if_true]
      rw [ih, bitsVal_cons, List.length_cons, e]
      simp only [ZMod.natCast_mod, Nat.cast_mul, Bool.toNat_true, one_mul]
      rw [mul_pow _ (b : ZMod m), pow_add]
      ring

theorem powModLoop_cast (b m e : Nat) (he : e < 2 ^ 256) :
    ((powModLoop b m (bitsMSB 256 e) 1 : Nat) : ZMod m) = (b : ZMod m) ^ e := by
  rw [powModLoop_eq, bitsVal_bitsMSB, Nat.mod_eq_of_lt he]
  simp

theorem powModLoop_lt (b m : Nat) (hm : 0 < m) (l : List Bool) (acc : Nat) (h : acc < m) : powModLoop b m l acc < m := by
  induction l generalizing acc with
  | nil => exact h
  | cons bit l ih =>
    rw [powModLoop]
    simp only [forceN_eq]
    cases bit with
    | false => exact ih _ (Nat.mod_lt _ hm)
    | true => exact ih _ (Nat.mod_lt _ hm)

/-! ## Pocklington -/

theorem prod_dvd : ∀ (l : List Nat), l.Nodup → (∀ q ∈ l, q.Prime) → ∀ m, (∀ q ∈ l, q ∣ m) → l.prod ∣ m
  | [], _, _, m, _ => by simp
  | q :: l, hn, hp, m, h => by
    rw [List.prod_cons]
    refine Nat.Coprime.mul_dvd_of_dvd_of_dvd ?_ (h q (by simp))
      (prod_dvd l (List.nodup_cons.1 hn).2 (fun x hx => hp x (by simp [hx])) m (fun x hx => h x (by simp [hx])))
    rw [Nat.coprime_list_prod_right_iff]
    intro x hx
    rw [Nat.coprime_primes (hp q (by simp)) (hp x (by simp [hx]))]
    rintro rfl
    exact (List.nodup_cons.1 hn).1 hx

/-- the checks of a certificate -/
def certOk (N a : Nat) (qs : List Nat) : Bool :=
  1 < N && N < 2 ^ 256 && powModLoop a N (bitsMSB 256 (N - 1)) 1 == 1 && N < qs.prod * qs.prod &&
  qs.all fun q => (N - 1) % q == 0 && Nat.gcd (powModLoop a N (bitsMSB 256 ((N - 1) / q)) 1 + (N - 1)) N == 1

theorem pocklington (N a : Nat) (qs : List Nat) (hn : qs.Nodup) (hq : ∀ q ∈ qs, q.Prime) (h : certOk N a qs = true) : N.Prime := by
  simp only [certOk, Bool.and_eq_true, decide_eq_true_eq, beq_iff_eq, List.all_eq_true] at h
  obtain ⟨⟨⟨⟨hN, hb⟩, h1⟩, hF⟩, h2⟩ := h
  by_contra hnp
  have hN1 : N ≠ 1 := by omega
  have hp := Nat.minFac_prime hN1
  have hsq := Nat.minFac_sq_le_self (by omega) hnp
  generalize hpe : N.minFac = p at hp hsq
  have hpN : p ∣ N := hpe ▸ N.minFac_dvd
  have : Fact p.Prime := ⟨hp⟩
  have cast : ∀ (e : Nat), e < 2 ^ 256 → ((powModLoop a N (bitsMSB 256 e) 1 : Nat) : ZMod p) = (a : ZMod p) ^ e := by
    intro e he
    have := congrArg (ZMod.castHom hpN (ZMod p)) (powModLoop_cast a N e he)
    rw [map_natCast, map_pow, map_natCast] at this
    exact this
  have one : (a : ZMod p) ^ (N - 1) = 1 := by rw [← cast _ (by omega), h1]; simp
  have ha : (a : ZMod p) ≠ 0 := by
    intro h0
    rw [h0, zero_pow (by omega)] at one
    exact zero_ne_one one
  have hdiv : qs.prod ∣ p - 1 := by
    apply prod_dvd qs hn hq
    intro q hqm
    obtain ⟨hd, hg⟩ := h2 q hqm
    have hd := Nat.dvd_of_mod_eq_zero hd
    have ne : (a : ZMod p) ^ ((N - 1) / q) ≠ 1 := by
      intro he
      rw [← cast _ (lt_of_le_of_lt (Nat.div_le_self _ _) (by omega))] at he
      have : p ∣ powModLoop a N (bitsMSB 256 ((N - 1) / q)) 1 + (N - 1) := by
        rw [← ZMod.natCast_eq_zero_iff, Nat.cast_add, he, Nat.cast_sub (by omega), (ZMod.natCast_eq_zero_iff N p).2 hpN]
        simp
      have := Nat.dvd_gcd this hpN
      rw [hg] at this
      exact hp.one_lt.ne' (Nat.dvd_one.1 this)
    have ho := orderOf_dvd_of_pow_eq_one one
    have hno : ¬ orderOf (a : ZMod p) ∣ (N - 1) / q := fun hh => ne (orderOf_dvd_iff_pow_eq_one.1 hh)
    have hqo : q ∣ orderOf (a : ZMod p) := by
      by_contra hc
      have hcop : Nat.Coprime (orderOf (a : ZMod p)) q := ((Nat.Prime.coprime_iff_not_dvd (hq q hqm)).2 hc).symm
      apply hno
      apply hcop.dvd_of_dvd_mul_right
      rwa [Nat.div_mul_cancel hd]
    exact hqo.trans (ZMod.orderOf_dvd_card_sub_one ha)
  have hp2 := hp.two_le
  have hle := Nat.le_of_dvd (by omega) hdiv
  have : qs.prod * qs.prod < p * p := Nat.mul_lt_mul'' (by omega) (by omega)
  have : p ^ 2 = p * p := by ring
  omega

/-! ## Certificates -/

theorem prime_1627771 : Nat.Prime 1627771 := by norm_num
theorem prime_545358713 : Nat.Prime 545358713 :=
  pocklington _ 2 [28181] (by decide) (by
    intro q hq
    simp only [List.mem_cons, List.not_mem_nil, or_false] at hq
    rcases hq with rfl <;> norm_num) (by decide +kernel)
theorem prime_44706919 : Nat.Prime 44706919 := by norm_num
theorem prime_120233 : Nat.Prime 120233 := by norm_num
theorem prime_107590001 : Nat.Prime 107590001 := by norm_num
theorem prime_7240687 : Nat.Prime 7240687 := by norm_num
theorem prime_96557 : Nat.Prime 96557 := by norm_num

theorem prime_297159362677 : Nat.Prime 297159362677 :=
  pocklington _ 2 [1627771] (by decide) (by
    intro q hq
    simp only [List.mem_cons, List.not_mem_nil, or_false] at hq
    rcases hq with rfl
    · exact prime_1627771) (by decide +kernel)

theorem prime_29047611873442575647497758179 : Nat.Prime 29047611873442575647497758179 :=
  pocklington _ 2 [297159362677, 545358713] (by decide) (by
    intro q hq
    simp only [List.mem_cons, List.not_mem_nil, or_false] at hq
    rcases hq with rfl | rfl
    · exact prime_297159362677
    · exact prime_545358713) (by decide +kernel)

theorem prime_341948486974166000522343609283189 : Nat.Prime 341948486974166000522343609283189 :=
  pocklington _ 2 [29047611873442575647497758179] (by decide) (by
    intro q hq
    simp only [List.mem_cons, List.not_mem_nil, or_false] at hq
    rcases hq with rfl
    · exact prime_29047611873442575647497758179) (by decide +kernel)

theorem prime_174723607534414371449 : Nat.Prime 174723607534414371449 :=
  pocklington _ 2 [44706919, 120233] (by decide) (by
    intro q hq
    simp only [List.mem_cons, List.not_mem_nil, or_false] at hq
    rcases hq with rfl | rfl
    · exact prime_44706919
    · exact prime_120233) (by decide +kernel)

theorem prime_nP : Nat.Prime nP :=
  pocklington _ 2 [341948486974166000522343609283189, 174723607534414371449] (by decide) (by
    intro q hq
    simp only [List.mem_cons, List.not_mem_nil, or_false] at hq
    rcases hq with rfl | rfl
    · exact prime_341948486974166000522343609283189
    · exact prime_174723607534414371449) (by decide +kernel)

theorem prime_255515944373312847190720520512484175977 : Nat.Prime 255515944373312847190720520512484175977 :=
  pocklington _ 2 [107590001, 7240687, 96557] (by decide) (by
    intro q hq
    simp only [List.mem_cons, List.not_mem_nil, or_false] at hq
    rcases hq with rfl | rfl | rfl
    · exact prime_107590001
    · exact prime_7240687
    · exact prime_96557) (by decide +kernel)

theorem prime_205115282021455665897114700593932402728804164701536103180137503955397371 : Nat.Prime 205115282021455665897114700593932402728804164701536103180137503955397371 :=
  pocklington _ 2 [255515944373312847190720520512484175977] (by decide) (by
    intro q hq
    simp only [List.mem_cons, List.not_mem_nil, or_false] at hq
    rcases hq with rfl
    · exact prime_255515944373312847190720520512484175977) (by decide +kernel)

theorem prime_pP : Nat.Prime pP :=
  pocklington _ 2 [205115282021455665897114700593932402728804164701536103180137503955397371] (by decide) (by
    intro q hq
    simp only [List.mem_cons, List.not_mem_nil, or_false] at hq
    rcases hq with rfl
    · exact prime_205115282021455665897114700593932402728804164701536103180137503955397371) (by decide +kernel)

end BT.Concrete
