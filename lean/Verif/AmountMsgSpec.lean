import Verif.AmountMsg
import Verif.Spec
import Verif.MsgSpec

/-! # Specification: what the text about a refused amount may say -/

namespace BT.Spec

open Msg

/-- The text `m` about the amount `s` names a fault that `s` has: more than one period; a character that is
neither a period nor a digit, or no digit at all; more than 8 places after the period; a digit that is not
a decimal digit (such as '²'); a value of more than 21 million. -/
inductive AmountFault (E : Env) (u : UniDB) (s : Str) : Str → Prop
  | periods (h : 2 ≤ s.count '.') :
      AmountFault E u s (py"Amount contains " ++ pyStr (s.count '.') ++
        py" periods ('.'). It must contain either 1 or 0 periods. Amount: " ++ s)
  | chars (h1 : s.count '.' ≤ 1)
      (h : (∀ c ∈ s, c = '.') ∨ ∃ c ∈ s, c ≠ '.' ∧ isDigitChar u c = false) :
      AmountFault E u s (py"Apart from an optional period ('.'), amount can contain only digits. Amount: " ++ s)
  | places (ip fp : Str) (hs : s = ip ++ '.' :: fp) (hd : ∀ c ∈ ip ++ fp, isDigitChar u c = true) (h : 8 < fp.length) :
      AmountFault E u s (py"Amount (" ++ s ++ py") has " ++ pyStr fp.length ++
        py" decimal places. It can have at most 8 decimal places.")
  | float (ip fp : Str) (hs : s = ip ++ '.' :: fp ∨ (s = ip ∧ fp = [])) (hd : ∀ c ∈ ip ++ fp, isDigitChar u c = true)
      (h8 : fp.length ≤ 8) (h : ∃ c ∈ ip ++ fp, decVal u c = none) :
      AmountFault E u s (py"could not convert string to float: " ++ reprStr E s)
  | tooMuch (sat : Nat) (hs : AmountOf u s sat) (h : maxMoney < sat) :
      AmountFault E u s (py"The maximum possible amount is 21000000.00000000. Amount: " ++ s)

end BT.Spec
