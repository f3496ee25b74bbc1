import Verif.Props.AmountMsg2
import Verif.Props.MessagesWit

/-! # Witnesses for C126: complete texts, one for each fault -/

namespace BT

open Msg Spec

/-- A Unicode database for examples: '²' is a digit without a decimal value, '٣' a decimal digit. -/
def exUni : UniDB where
  decimal c := if c.toNat = 0x663 then some 3 else none
  otherDigit c := c.toNat = 0xb2
  space _ := false
  digit_not_space _ _ := rfl

example : Msg.vBitcoinAmount exEnv exUni (.str py"1.2.3") = .error (.valueError,
    py"Amount contains 2 periods ('.'). It must contain either 1 or 0 periods. Amount: 1.2.3") := by decide +kernel
example : Msg.vBitcoinAmount exEnv exUni (.str py"-1") = .error (.valueError,
    py"Apart from an optional period ('.'), amount can contain only digits. Amount: -1") := by decide +kernel
example : Msg.vBitcoinAmount exEnv exUni (.str py"0.123456789") = .error (.valueError,
    py"Amount (0.123456789) has 9 decimal places. It can have at most 8 decimal places.") := by decide +kernel
example : Msg.vBitcoinAmount exEnv exUni (.str ['1', Char.ofNat 0xb2]) = .error (.valueError,
    py"could not convert string to float: '1\\xb2'") := by decide +kernel
example : Msg.vBitcoinAmount exEnv exUni (.str py"21000000.00000001") = .error (.valueError,
    py"The maximum possible amount is 21000000.00000000. Amount: 21000000.00000001") := by decide +kernel
example : Msg.vBitcoinAmount exEnv exUni (.str py"21000000.00000000") = .ok () := by decide +kernel
example : Msg.vBitcoinAmount exEnv exUni (.str [Char.ofNat 0x663]) = .ok () := by decide +kernel
example : Msg.vPositiveBitcoinAmount exEnv exUni (.str py"0.00") = .error (.valueError, py"Amount ('0.00') cannot be 0.") := by decide +kernel
example : Msg.vPositiveBitcoinAmount exEnv exUni (.str py"0.01") = .ok py"0.01" := by decide +kernel
example : Msg.bitcoinToSatoshi exEnv exUni (.str py"0.00242") = .ok 242000 := by decide +kernel
example : Msg.satoshiToBitcoin exEnv exUni (.int 242000) = .ok py"0.00242000" := by decide +kernel
example : Msg.satoshiToBitcoin exEnv exUni (.int (-5)) = .error (.valueError,
    py"\nInput is less than the minimum value.\n- Minimum value: 0\n- Input: -5\n") := by decide +kernel
example : Msg.ensure8 py"1.123456789" = .error (.valueError, py"String decimal (1.123456789) has 9 decimal places.") := by decide +kernel
example : Msg.ensure8 py"7" = .ok py"7.00000000" := by decide +kernel
example : Msg.padHex exEnv (.str py"aabb") (.int 1) = .error (.valueError,
    py"Hex value is already longer than desired padded length. Hex value: aabb") := by decide +kernel
example : Msg.padHex exEnv (.str py"aa") (.int 3) = .ok py"0000aa" := by decide +kernel
example : Msg.padHexLe exEnv (.str py"aa") (.int 3) = .ok py"aa0000" := by decide +kernel

/-- Each fault of the specification occurs. -/
theorem C126_occurs :
    (∃ s m, AmountFault exEnv exUni s m ∧ 2 ≤ s.count '.') ∧
    (∃ ip fp m, AmountFault exEnv exUni (ip ++ '.' :: fp) m ∧ 8 < fp.length) ∧
    (∃ s m, AmountFault exEnv exUni s m ∧ ∃ c ∈ s, isDigitChar exUni c = true ∧ decVal exUni c = none) ∧
    (∃ s m sat, AmountFault exEnv exUni s m ∧ AmountOf exUni s sat ∧ maxMoney < sat) := by
  refine ⟨⟨py"1..", _, .periods (by decide), by decide⟩,
    ⟨py"1", py"000000000", _, .places py"1" py"000000000" rfl (by decide +kernel) (by decide), by decide⟩,
    ⟨[Char.ofNat 0xb2], _, .float [Char.ofNat 0xb2] [] (.inr ⟨rfl, rfl⟩) (by decide +kernel) (by decide) ⟨_, by simp; rfl, by decide +kernel⟩, Char.ofNat 0xb2, by simp, by decide +kernel, by decide +kernel⟩, ?_⟩
  have h : AmountOf exUni py"21000001" 2100000100000000 :=
    ⟨py"21000001", [], .inr ⟨rfl, rfl⟩, by decide, by decide, by decide +kernel, by decide +kernel⟩
  exact ⟨py"21000001", _, _, .tooMuch _ h (by decide), h, by decide⟩

end BT
