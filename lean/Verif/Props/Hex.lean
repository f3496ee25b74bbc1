import Verif.Lemmas.Hex
import Verif.Concrete.Ecdsa
import Mathlib.Data.List.TakeWhile

/-! # C01-C05: hexadecimal codecs -/

namespace BT
open Spec

/-- **C01**, non-negative numbers: the result is the hex of a non-empty byte string without
redundant leading zero byte that denotes `n`, and `hex_to_int` gives `n` back. -/
theorem C01_int_hex_round_trip (u : UniDB) (n : Nat) :
    ∃ b : Bytes, intToHex (n : Int) = .ok (hex b) ∧ b ≠ [] ∧ beNat b = n ∧
      (b = [0] ∨ b.head? ≠ some 0) ∧ hexToInt u (hex b) = .ok (n : Int) := by
  refine ⟨minBytes n, intToHex_nat n, minBytes_ne_nil n, beNat_minBytes n, ?_, ?_⟩
  · by_cases h : n = 0
    · left; simp [minBytes, h]
    · right; exact minBytes_head n h
  · rw [hexToInt_hex u (minBytes_ne_nil n), beNat_minBytes]

/-- **C01**, negative numbers raise ValueError. -/
theorem C01_int_to_hex_negative (n : Int) (h : n < 0) : intToHex n = .error .valueError :=
  intToHex_neg h

/-- **C01**, other direction: `int_to_hex(hex_to_int(x))` drops exactly the redundant leading
zero bytes of a hex string `x`. -/
theorem C01_hex_int_hex (u : UniDB) (b : Bytes) (hb : b ≠ []) :
    (hexToInt u (hex b) >>= intToHex) =
      .ok (hex (if ∀ x ∈ b, x = 0 then [0] else b.dropWhile (· == 0))) := by
  rw [hexToInt_hex u hb, R_bind_ok, intToHex_nat]
  congr 2
  have hd : b = b.takeWhile (· == 0) ++ b.dropWhile (· == 0) := (List.takeWhile_append_dropWhile).symm
  have ht : b.takeWhile (· == 0) = List.replicate (b.takeWhile (· == 0)).length 0 := by
    apply List.eq_replicate_of_mem
    intro x hx
    have := List.mem_takeWhile_imp hx
    simpa using this
  have hv : beNat b = beNat (b.dropWhile (· == 0)) := by
    conv_lhs => rw [hd, ht]
    rw [beNat_append, beNat_replicate_zero]; simp
  rw [hv]
  by_cases hz : ∀ x ∈ b, x = 0
  · rw [if_pos hz]
    have : b.dropWhile (· == 0) = [] := by
      rw [List.dropWhile_eq_nil_iff]; intro x hx; simp [hz x hx]
    rw [this]; rfl
  · rw [if_neg hz]
    have hne : b.dropWhile (· == 0) ≠ [] := by
      intro h; apply hz; rw [List.dropWhile_eq_nil_iff] at h
      intro x hx; simpa using h x hx
    apply minBytes_beNat _ hne
    intro hc
    have := List.head?_dropWhile_not (fun x : UInt8 => x == 0) b
    rw [hc] at this; simp at this

/-- **C02**: the fixed-width little-endian field of `k` bytes exists exactly for
`0 ≤ n < 256^k`, has `2k` hex characters, denotes `n` and decodes to `n`; every other number
raises ValueError. -/
theorem C02_le_field (u : UniDB) (n : Int) (k : Nat) (hk : 0 < k) :
    (0 ≤ n ∧ n < 256 ^ k → ∃ b : Bytes,
      (intToHexLe n >>= fun x => padHexLe x k) = .ok (hex b) ∧ b.length = k ∧
      (leNat b : Int) = n ∧ hexLeToInt u (hex b) = .ok n) ∧
    (¬ (0 ≤ n ∧ n < 256 ^ k) →
      (intToHexLe n >>= fun x => padHexLe x k) = .error .valueError) := by
  constructor
  · rintro ⟨h0, h1⟩
    obtain ⟨m, rfl⟩ : ∃ m : Nat, n = m := ⟨n.toNat, by omega⟩
    have hm : m < 256 ^ k := by exact_mod_cast h1
    refine ⟨leBytes k m, leField_nat hk hm, by simp, by rw [leNat_leBytes hm], ?_⟩
    rw [hexLeToInt_hex u, leNat_leBytes hm]
    intro h; have := congrArg List.length h; simp at this; omega
  · intro h
    by_cases hneg : n < 0
    · rw [intToHexLe_neg hneg]; rfl
    · obtain ⟨m, rfl⟩ : ∃ m : Nat, n = m := ⟨n.toNat, by omega⟩
      apply leField_big
      by_contra hc
      apply h
      exact ⟨by omega, by exact_mod_cast (Nat.lt_of_not_le hc)⟩

/-- **C03**: `reverse_hex_order` succeeds on exactly the hex strings and reverses the bytes
(every hex string is `hex b` for exactly one byte string `b`, see `C03_hex_bytes`). -/
theorem C03_reverse (b : Bytes) : reverseHexOrder (hex b) = .ok (hex b.reverse) :=
  reverseHexOrder_hex b

/-- **C03**: anything that is not an even-length lower-case hex string is refused. -/
theorem C03_reverse_rejects (s : Str) (h : ¬ IsHex s) : reverseHexOrder s = .error .valueError :=
  reverseHexOrder_not h

/-- **C03**: hex strings and byte strings correspond one to one. -/
theorem C03_hex_bytes (s : Str) : IsHex s ↔ ∃! b : Bytes, s = hex b := by
  constructor
  · intro h
    obtain ⟨b, rfl⟩ := isHex_exists h
    exact ⟨b, rfl, fun c hc => (hex_inj hc).symm⟩
  · rintro ⟨b, rfl, _⟩; exact isHex_hex b

/-- **C03**: applied twice it gives the original, lengths are kept. -/
theorem C03_involution (s t : Str) (h : reverseHexOrder s = .ok t) :
    t.length = s.length ∧ reverseHexOrder t = .ok s := by
  obtain ⟨b, rfl, rfl⟩ := reverseHexOrder_ok.1 h
  simp [reverseHexOrder_hex]

/-- **C04**: `int_to_var_int` succeeds exactly for 0..252, yields the byte of that value, and
`var_int_to_int` inverts it. -/
theorem C04_var_int_encode (u : UniDB) (n : Int) :
    (0 ≤ n ∧ n ≤ 252 → ∃ x : UInt8, (x.toNat : Int) = n ∧ intToVarInt n = .ok (hex [x]) ∧
      varIntToInt u (hex [x]) = .ok n) ∧
    (¬ (0 ≤ n ∧ n ≤ 252) → intToVarInt n = .error .valueError) := by
  constructor
  · rintro ⟨h0, h1⟩
    obtain ⟨m, rfl⟩ : ∃ m : Nat, n = m := ⟨n.toNat, by omega⟩
    have : (UInt8.ofNat m).toNat = m := by
      rw [UInt8.toNat_ofNat', Nat.mod_eq_of_lt (by omega)]
    refine ⟨UInt8.ofNat m, by rw [this], intToVarInt_nat (by omega), ?_⟩
    rw [varIntToInt_hex, this, if_pos (by omega)]
  · intro h; exact intToVarInt_out (by omega)

/-- **C04**: `var_int_to_int` accepts exactly the one-byte strings `00`..`fc`, and encoding the
result gives the string back. -/
theorem C04_var_int_decode (u : UniDB) (s : Str) (n : Int) :
    varIntToInt u s = .ok n ↔ ∃ x : UInt8, s = hex [x] ∧ x.toNat ≤ 252 ∧ n = x.toNat :=
  varIntToInt_ok u

/-- **C04**: decoding then encoding is the identity. -/
theorem C04_var_int_canonical (u : UniDB) (s : Str) (n : Int) (h : varIntToInt u s = .ok n) :
    intToVarInt n = .ok s := by
  obtain ⟨x, rfl, hx, rfl⟩ := (varIntToInt_ok u).1 h
  rw [intToVarInt_nat hx]; simp

/-- **C05**: `pad_hex` on the hex of `b`: succeeds iff `b` has at most `k` bytes, prepends zero
bytes, and keeps the big-endian number. -/
theorem C05_pad_hex (s : Str) (k : Int) :
    (Ok (padHex s k) ↔ IsHex s ∧ (s.length : Int) ≤ 2 * k) ∧
    (∀ t, padHex s k = .ok t → ∃ b c : Bytes, s = hex b ∧ t = hex c ∧ (c.length : Int) = k ∧
      beNat c = beNat b) := by
  by_cases hs : IsHex s
  · obtain ⟨b, rfl⟩ := isHex_exists hs
    rw [padHex_hex]
    constructor
    · by_cases h : (b.length : Int) ≤ k
      · rw [if_pos h]; simp [Ok, isHex_hex]; exact h
      · rw [if_neg h]; simp [Ok, isHex_hex]; omega
    · intro t ht
      split at ht
      · simp only [Except.ok.injEq] at ht
        refine ⟨b, _, rfl, ht.symm, by simp; omega, ?_⟩
        rw [beNat_append, beNat_replicate_zero]; simp
      · simp at ht
  · rw [padHex_not hs]; simp [Ok, hs]

/-- **C05**: `pad_hex_le` appends zero bytes and keeps the little-endian number. -/
theorem C05_pad_hex_le (s : Str) (k : Int) :
    (Ok (padHexLe s k) ↔ IsHex s ∧ (s.length : Int) ≤ 2 * k) ∧
    (∀ t, padHexLe s k = .ok t → ∃ b c : Bytes, s = hex b ∧ t = hex c ∧ (c.length : Int) = k ∧
      leNat c = leNat b) := by
  by_cases hs : IsHex s
  · obtain ⟨b, rfl⟩ := isHex_exists hs
    rw [padHexLe_hex]
    constructor
    · by_cases h : (b.length : Int) ≤ k
      · rw [if_pos h]; simp [Ok, isHex_hex]; exact h
      · rw [if_neg h]; simp [Ok, isHex_hex]; omega
    · intro t ht
      split at ht
      · simp only [Except.ok.injEq] at ht
        refine ⟨b, _, rfl, ht.symm, by simp; omega, ?_⟩
        rw [leNat_append, leNat_replicate_zero]; simp
      · simp at ht
  · rw [padHexLe_not hs]; simp [Ok, hs]

/-- **C05**: a hex string that is too long, or not hex, raises ValueError. -/
theorem C05_pad_rejects (s : Str) (k : Int) (h : ¬ (IsHex s ∧ (s.length : Int) ≤ 2 * k)) :
    padHex s k = .error .valueError ∧ padHexLe s k = .error .valueError := by
  by_cases hs : IsHex s
  · obtain ⟨b, rfl⟩ := isHex_exists hs
    have : ¬ (b.length : Int) ≤ k := by
      intro hc; apply h; refine ⟨hs, ?_⟩; simp; exact hc
    rw [padHex_hex, padHexLe_hex, if_neg this, if_neg this]; simp
  · exact ⟨padHex_not hs k, padHexLe_not hs k⟩

/-! ## Witnesses -/

example : intToHex 65535 = .ok py"ffff" ∧ intToHex 256 = .ok py"0100" := by decide +kernel
example : (0 : Int) ≤ 65537 ∧ (65537 : Int) < 256 ^ 4 := by decide
example : (intToHexLe 65537 >>= fun x => padHexLe x 4) = .ok py"01000100" := by decide +kernel
example : reverseHexOrder py"0a1b2c" = .ok py"2c1b0a" := by decide +kernel
example : ¬ IsHex py"0a1" ∧ ¬ IsHex py"0A" ∧ IsHex py"0a" := by decide
example : varIntToInt Concrete.uniSample py"fc" = .ok 252 := by decide +kernel
example : padHex py"0102" 4 = .ok py"00000102" ∧ padHexLe py"0102" 4 = .ok py"01020000" := by
  decide +kernel

end BT
