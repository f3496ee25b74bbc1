import Verif.Lemmas.Amount
import Verif.Concrete.Ecdsa

/-!
# C18 - C23: amounts

The vocabulary (`AmountOf`, `numeral`, `maxMoney`, `Ascii`, `digits10`) is in
`Verif/Spec.lean`.
-/

namespace BT
open Spec

/-! ## C18 satoshi → bitcoin → satoshi -/

/-- C18 (partial: `n ≥ 1`; the full property also demands `n = 0`, see `C18_violation`). -/
theorem C18_round_trip_partial (u : UniDB) (n : Nat) (h1 : 1 ≤ n) (h2 : n ≤ maxMoney) :
    ∃ s, satoshiToBitcoin u n = .ok s ∧ bitcoinToSatoshi u s = .ok (n : Int) := by
  refine ⟨btcText n, satoshiToBitcoin_nat u h2, ?_⟩
  have ha := btcText_amount u n
  rw [bitcoinToSatoshi_amount u ha h2, if_neg]
  intro hz
  have := (ascii_zero ha (btcText_ascii n)).2 hz
  omega

/-- C18 is violated at zero: the printed amount `0.00000000` is not read back. -/
theorem C18_violation (u : UniDB) :
    satoshiToBitcoin u 0 = .ok py"0.00000000" ∧
    bitcoinToSatoshi u py"0.00000000" = .error .valueError := by
  have h0 : btcText 0 = py"0.00000000" := by decide +kernel
  refine ⟨by rw [← h0]; exact satoshiToBitcoin_nat u (n := 0) (by decide), ?_⟩
  rw [← h0, bitcoinToSatoshi_amount u (btcText_amount u 0) (by decide), if_pos]
  rw [h0]; decide

example : satoshiToBitcoin Concrete.uniSample 1234567890 = .ok py"12.34567890" := by decide +kernel

/-! ## C19 `satoshi_to_bitcoin` prints the exact decimal -/

/-- C19: exactly the numbers 0 … 21·10^14 are accepted, and the result is *the* decimal with 8
places, ASCII digits, no redundant leading zero, whose digits spell `n`. -/
theorem C19_satoshi_to_bitcoin (u : UniDB) (n : Int) (s : Str) :
    satoshiToBitcoin u n = .ok s ↔
      0 ≤ n ∧ n ≤ 2100000000000000 ∧
      ∃ ip fp : Str, s = ip ++ '.' :: fp ∧ fp.length = 8 ∧ ip ≠ [] ∧ (∀ c ∈ ip ++ fp, c ∈ digits10) ∧
        (numeral u (ip ++ fp) : Int) = n ∧ (ip = ['0'] ∨ ip.head? ≠ some '0') := by
  rw [satoshiToBitcoin_ok]
  constructor
  · rintro ⟨k, rfl, hk, rfl⟩
    obtain ⟨ip, fp, h1, h2, h3, h4, h5, h6⟩ := btcText_ip k
    unfold maxMoney at hk
    exact ⟨by omega, by omega, ip, fp, h1, h2, h3, fun c hc => isDig_iff.1 (h4 c hc), by rw [h5 u], h6⟩
  · rintro ⟨h0, hm, ip, fp, rfl, h8, hne, hd, hv, hh⟩
    refine ⟨numeral u (ip ++ fp), hv.symm, by unfold maxMoney; omega, ?_⟩
    exact btcText_unique u h8 hne (fun c hc => isDig_iff.2 (hd c hc)) hh

/-- C19: every other number raises ValueError. -/
theorem C19_satoshi_to_bitcoin_rejects (u : UniDB) (n : Int) (h : n < 0 ∨ 2100000000000000 < n) :
    satoshiToBitcoin u n = .error .valueError :=
  satoshiToBitcoin_out u (by unfold maxMoney; omega)

example : satoshiToBitcoin Concrete.uniSample 2100000000000000 = .ok py"21000000.00000000" ∧
    satoshiToBitcoin Concrete.uniSample 7 = .ok py"0.00000007" := by decide +kernel

/-! ## C20 `bitcoin_to_satoshi` is exact -/

/-- C20: the call returns `n` exactly when the string is a decimal amount of exactly `n`
satoshi, at most 21 million bitcoin, that is not written with '0' and '.' alone. -/
theorem C20_bitcoin_to_satoshi (u : UniDB) (s : Str) (n : Int) :
    bitcoinToSatoshi u s = .ok n ↔
      ∃ sat : Nat, AmountOf u s sat ∧ sat ≤ maxMoney ∧ n = sat ∧ ∃ c ∈ s, c ≠ '0' ∧ c ≠ '.' :=
  bitcoinToSatoshi_ok u

/-- C20 for ASCII strings: exactly the positive amounts. -/
theorem C20_bitcoin_to_satoshi_ascii (u : UniDB) (s : Str) (ha : Ascii s) (n : Int) :
    bitcoinToSatoshi u s = .ok n ↔
      ∃ sat : Nat, AmountOf u s sat ∧ 0 < sat ∧ sat ≤ maxMoney ∧ n = sat := by
  rw [bitcoinToSatoshi_ok]
  constructor
  · rintro ⟨sat, h1, h2, h3, c, hc, hc0, hcd⟩
    refine ⟨sat, h1, ?_, h2, h3⟩
    by_contra h0
    rcases (ascii_zero h1 ha).1 (by omega) c hc with h | h <;> contradiction
  · rintro ⟨sat, h1, h0, h2, h3⟩
    refine ⟨sat, h1, h2, h3, ?_⟩
    by_contra hc
    push Not at hc
    have := (ascii_zero h1 ha).2 fun c hm => by
      by_cases h : c = '0'
      · exact .inl h
      · exact .inr (hc c hm h)
    omega

/-- C20: the amount denoted by a string is unique, and every rejection is a ValueError. -/
theorem C20_unique_and_rejects (u : UniDB) (s : Str) :
    (∀ a b, AmountOf u s a → AmountOf u s b → a = b) ∧
    ((∀ n, bitcoinToSatoshi u s ≠ .ok n) → bitcoinToSatoshi u s = .error .valueError) :=
  ⟨fun _ _ => AmountOf_unique, bitcoinToSatoshi_err u⟩

example : AmountOf Concrete.uniSample py"1.5" 150000000 :=
  ⟨py"1", py"5", .inl rfl, by decide, by decide, by decide, by decide⟩
example : bitcoinToSatoshi Concrete.uniSample py"1.5" = .ok 150000000 := by decide +kernel
example : bitcoinToSatoshi Concrete.uniSample py"007." = .ok 700000000 := by decide +kernel

/-! ## C21 the cap is exact although checked in floating point -/

/-- C21: `validate_bitcoin_amount` accepts exactly the decimals of at most 21 million bitcoin,
although the code compares binary64 floats. -/
theorem C21_validate_bitcoin_amount (u : UniDB) (s : Str) :
    vBitcoinAmount u s = .ok () ↔ ∃ sat, AmountOf u s sat ∧ sat ≤ maxMoney := vBitcoinAmount_ok u

/-- C21: every other string raises ValueError. -/
theorem C21_rejects (u : UniDB) (s : Str) (h : ¬ ∃ sat, AmountOf u s sat ∧ sat ≤ maxMoney) :
    vBitcoinAmount u s = .error .valueError :=
  (vBitcoinAmount_VE u s).eq_of_not_ok fun _ hh => h ((vBitcoinAmount_ok u).1 hh)

example : vBitcoinAmount Concrete.uniSample py"21000000.00000000" = .ok () ∧
    vBitcoinAmount Concrete.uniSample py"21000000.00000001" = .error .valueError := by decide +kernel

/-! ## C22 positive amounts -/

/-- C22 (partial: ASCII strings only): accepted exactly if the amount is positive and at most
21 million.  The full property demands this of every string, see `C22_violation`. -/
theorem C22_positive_amount_partial (u : UniDB) (s : Str) (ha : Ascii s) :
    vPositiveBitcoinAmount u s = .ok () ↔ ∃ sat, AmountOf u s sat ∧ 0 < sat ∧ sat ≤ maxMoney := by
  rw [vPositive_ok]
  constructor
  · rintro ⟨sat, h1, h2, c, hc, hc0, hcd⟩
    refine ⟨sat, h1, ?_, h2⟩
    by_contra h0
    rcases (ascii_zero h1 ha).1 (by omega) c hc with h | h <;> contradiction
  · rintro ⟨sat, h1, h0, h2⟩
    refine ⟨sat, h1, h2, ?_⟩
    by_contra hc
    push Not at hc
    have := (ascii_zero h1 ha).2 fun c hm => by
      by_cases h : c = '0'
      · exact .inl h
      · exact .inr (hc c hm h)
    omega

/-- C22 is violated for every Unicode database with a non-ASCII zero digit: the string
consisting of that one character is worth 0 and accepted. -/
theorem C22_violation (u : UniDB) (z : Char) (hz : decVal u z = some 0) (hn : ¬ z.toNat < 128) :
    vPositiveBitcoinAmount u [z] = .ok () ∧ AmountOf u [z] 0 ∧ bitcoinToSatoshi u [z] = .ok 0 := by
  have ha : AmountOf u [z] 0 :=
    ⟨[z], [], .inr ⟨rfl, rfl⟩, by simp, by simp, by simp [hz], by simp [numeral, hz]⟩
  have hne : z ≠ '0' ∧ z ≠ '.' := by
    constructor <;> rintro rfl <;> exact hn (by decide)
  exact ⟨(vPositive_ok u).2 ⟨0, ha, by decide, z, by simp, hne⟩, ha,
    (bitcoinToSatoshi_ok u).2 ⟨0, ha, by decide, rfl, z, by simp, hne⟩⟩

example : decVal Concrete.uniSample (Char.ofNat 0x660) = some 0 ∧ ¬ (Char.ofNat 0x660).toNat < 128 := by
  decide +kernel
example : vPositiveBitcoinAmount Concrete.uniSample py"0.1" = .ok () := by decide +kernel

/-! ## C23 `ensure_8_decimal_places` -/

/-- C23: for a string with at most one point, the integer part and the given decimals are
kept and zeros are appended up to 8 decimals; more than 8 decimals raise ValueError. -/
theorem C23_ensure_8 (s ip fp : Str) (hi : '.' ∉ ip) (hf : '.' ∉ fp)
    (hs : s = ip ++ '.' :: fp ∨ (s = ip ∧ fp = [])) :
    (fp.length ≤ 8 → ensure8 s = .ok (ip ++ '.' :: (fp ++ List.replicate (8 - fp.length) '0'))) ∧
    (8 < fp.length → ensure8 s = .error .valueError) := by
  rw [ensure8_form hi hf hs]
  exact ⟨fun h => if_pos h, fun h => if_neg (by omega)⟩

/-- C23: the value does not change. -/
theorem C23_same_value (u : UniDB) (s : Str) (sat : Nat) (h : AmountOf u s sat) :
    ∃ t, ensure8 s = .ok t ∧ AmountOf u t sat := by
  obtain ⟨t, h1, h2, _⟩ := ensure8_amount u h
  exact ⟨t, h1, h2⟩

example : ensure8 py"1.5" = .ok py"1.50000000" ∧ ensure8 py"7" = .ok py"7.00000000" := by decide +kernel

end BT
