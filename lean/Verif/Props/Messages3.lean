import Verif.Props.Messages2
import Verif.Props.Validate
import Verif.Lemmas.AmountMsg

/-! # The reasons in error messages are true (C152) -/

namespace BT
open Msg Spec

/-- **C152**: a string of hexadecimal bytes is refused by `validate_hex_length` only because of its length, and the text gives the length it has and the length it should have. -/
theorem C152_hexLength_partial (E : Env) (b : Bytes) (n : Int) (name location kind : Option Str) (e : Err) (m : Str)
    (h : Msg.vHexLength E (.str (hex b)) n name location kind = .error (e, m)) :
    e = .valueError ∧ (b.length : Int) ≠ n ∧
      Explains E (.str (hex b)) name location (some (kind.getD (py"hex_length_" ++ pyStr n ++ py"_bytes")))
        (py"whose length is " ++ pyStr (2 * b.length : Nat) ++ py" chars, not " ++ pyStr (2 * n) ++ py" chars.") m := by
  unfold Msg.vHexLength at h
  have hv : ∀ k, Msg.vHex E (.str (hex b)) name location k = .ok (hex b) := by
    intro k
    have := C104_agrees_hex E (.str (hex b)) name location k
    rw [(vHexP_ok).2 ⟨rfl, isHex_hex b⟩] at this
    cases hc : Msg.vHex E (.str (hex b)) name location k with
    | error _ => rw [hc] at this; simp [forget] at this
    | ok s => rw [hc] at this; simp only [forget, Except.ok.injEq] at this; rw [this]
  simp only [hv, M_bind_ok] at h
  by_cases hl : ((hex b).length : Int) ≠ n * 2
  · rw [if_pos hl] at h
    simp only [M_throw, M_bind_err, Except.error.injEq, Prod.mk.injEq] at h
    rw [hex_length] at hl
    refine ⟨h.1.symm, by push_cast at hl; omega, ?_⟩
    rw [← h.2, hex_length, mul_comm n 2]
    exact explains E _ name location _ _
  · rw [if_neg hl] at h; simp at h

/-- **C152**: the texts of `validate_string_is_decimal`: the number of points; a part before or after the point that is empty or has a character that is not a digit;
the number of decimal places (or a digit such as '²'). -/
theorem C152_decimal_partial (E : Env) (u : UniDB) (dp : Option Nat) (s : Str) (name location kind : Option Str) (e : Err) (m : Str)
    (h : Msg.vStrDecimal E u dp (.str s) name location kind = .error (e, m)) :
    (s.count '.' ≠ 1 ∧ e = .typeError ∧ Explains E (.str s) name location none (py"which has " ++ pyStr (s.count '.') ++ py" decimal points, not 1.") m) ∨
    ∃ a b, s = a ++ '.' :: b ∧ '.' ∉ a ∧ '.' ∉ b ∧
      ((e = .typeError ∧ Explains E (.str s) name location none py"which has non-digit characters." m ∧ (a = [] ∨ b = [] ∨ ∃ c ∈ a ++ b, isDigitChar u c = false)) ∨
       ∃ k, dp = some k ∧ e = .valueError ∧ Explains E (.str s) name location kind (py"which is not a valid " ++ pyStr k ++ py"-decimal-place decimal value.") m ∧
         a ≠ [] ∧ b ≠ [] ∧ (b.length ≠ k ∨ ∃ c ∈ a ++ b, isDigitChar u c = true ∧ decVal u c = none)) := by
  unfold Msg.vStrDecimal at h
  simp only [Msg.vString, M_bind_ok] at h
  by_cases hc : s.count '.' ≠ 1
  · rw [if_pos hc] at h
    simp only [M_throw, M_bind_err, Except.error.injEq, Prod.mk.injEq] at h
    rw [← h.2]
    exact .inl ⟨hc, h.1.symm, explains E _ name location none _⟩
  · rw [if_neg hc] at h
    push Not at hc
    obtain ⟨a, b, hsp, ha, hb⟩ : ∃ a b, s = a ++ '.' :: b ∧ '.' ∉ a ∧ '.' ∉ b := by
      have hm : '.' ∈ s := List.count_pos_iff.mp (by omega)
      obtain ⟨a, b, e1⟩ := List.append_of_mem hm
      rw [e1, List.count_append, List.count_cons_self] at hc
      exact ⟨a, b, e1, List.count_eq_zero.mp (by omega), List.count_eq_zero.mp (by omega)⟩
    refine .inr ⟨a, b, hsp, ha, hb, ?_⟩
    rw [hsp, splitC_one ha hb, ← hsp] at h
    simp only [M_pure] at h
    by_cases hd : (!isDigitStr u a || !isDigitStr u b) = true
    · rw [if_pos hd] at h
      simp only [M_throw, M_bind_err, Except.error.injEq, Prod.mk.injEq] at h
      rw [← h.2]
      refine .inl ⟨h.1.symm, explains E _ name location none _, ?_⟩
      by_contra hn
      push Not at hn
      obtain ⟨h1, h2, h3⟩ := hn
      have ha' : isDigitStr u a = true := by
        simp only [isDigitStr, Bool.and_eq_true, Bool.not_eq_true', List.isEmpty_eq_false_iff, List.all_eq_true]
        exact ⟨h1, fun c hc => by simpa using h3 c (by simp [hc])⟩
      have hb' : isDigitStr u b = true := by
        simp only [isDigitStr, Bool.and_eq_true, Bool.not_eq_true', List.isEmpty_eq_false_iff, List.all_eq_true]
        exact ⟨h2, fun c hc => by simpa using h3 c (by simp [hc])⟩
      rw [ha', hb'] at hd
      simp at hd
    · rw [if_neg hd] at h
      have hab : isDigitStr u a = true ∧ isDigitStr u b = true := by
        cases h1 : isDigitStr u a <;> cases h2 : isDigitStr u b <;> simp [h1, h2] at hd ⊢
      simp only [isDigitStr, Bool.and_eq_true, Bool.not_eq_true', List.isEmpty_eq_false_iff, List.all_eq_true] at hab
      cases dp with
      | none => simp at h
      | some k =>
        simp only at h
        by_cases hr : (!reDecimal u k s) = true
        · rw [if_pos hr] at h
          simp only [M_throw, Except.error.injEq, Prod.mk.injEq] at h
          rw [← h.2]
          refine .inr ⟨k, rfl, h.1.symm, explains E _ name location kind _, hab.1.1, hab.2.1, ?_⟩
          by_contra hn
          push Not at hn
          rw [hsp] at hr
          have := (reDecimal_iff u k ha hb hab.2.1).2 ⟨hn.1, fun c hc => by
            have hdc : isDigitChar u c = true := by
              rcases List.mem_append.1 hc with hc | hc
              · exact hab.1.2 c hc
              · exact hab.2.2 c hc
            have := hn.2 c hc hdc
            exact Option.isSome_iff_ne_none.2 this⟩
          rw [this] at hr
          simp at hr
        · rw [if_neg hr] at h; simp at h

/-- **C152**, FALSE of numbers such as "5." and ".5": all characters besides the one permitted point are digits, but the text says that there are non-digit characters. -/
theorem C152_no_digits_violation (E : Env) (u : UniDB) (dp : Option Nat) (a : Str) (name location kind : Option Str) (ha : ∀ c ∈ a, isDigitChar u c = true)
    (s : Str) (hs : s = a ++ py"." ∨ s = py"." ++ a) :
    ∃ m, Msg.vStrDecimal E u dp (.str s) name location kind = .error (.typeError, m) ∧
      Explains E (.str s) name location none py"which has non-digit characters." m := by
  have hdot : isDigitChar u '.' = false := dot_isDigit u
  have hna : '.' ∉ a := fun h => by rw [ha _ h] at hdot; simp at hdot
  refine ⟨_, ?_, explains E _ name location none _⟩
  unfold Msg.vStrDecimal
  simp only [Msg.vString, M_bind_ok]
  have hcount : s.count '.' = 1 := by
    rcases hs with rfl | rfl <;> simp [List.count_append, List.count_eq_zero.2 hna]
  rw [if_neg (by simp [hcount])]
  rcases hs with rfl | rfl
  · rw [splitC_one hna (b := []) (by simp)]
    simp [isDigitStr]
  · rw [show py"." ++ a = [] ++ '.' :: a from rfl, splitC_one (by simp) hna]
    simp [isDigitStr]

/-- **C152**: an integer is refused by `validate_positive_integer` and `validate_whole_number` only if it is less than 1 (less than 0), and the text says the former. -/
theorem C152_integers_partial (E : Env) (n : Int) (name location kind : Option Str) (e : Err) (m : Str) :
    (Msg.vPositiveInteger E (.int n) name location kind = .error (e, m) →
      n < 1 ∧ e = .valueError ∧ Explains E (.int n) name location kind py"which is less than 1." m) ∧
    (Msg.vWholeNumber E (.int n) name location kind = .error (e, m) →
      n < 0 ∧ e = .valueError ∧ Explains E (.int n) name location kind py"which is less than 1." m) := by
  have hp : Msg.vPositiveInteger E (.int n) name location kind = .error (e, m) →
      n < 1 ∧ e = .valueError ∧ Explains E (.int n) name location kind py"which is less than 1." m := by
    intro h
    simp only [Msg.vPositiveInteger, Msg.vInteger, PVal.asInt, M_bind_ok] at h
    by_cases hn : n < 1
    · rw [if_pos hn] at h
      simp only [M_throw, M_bind_err, Except.error.injEq, Prod.mk.injEq] at h
      rw [← h.2]
      exact ⟨hn, h.1.symm, explains E _ name location kind _⟩
    · rw [if_neg hn] at h; simp at h
  refine ⟨hp, fun h => ?_⟩
  unfold Msg.vWholeNumber at h
  by_cases h0 : PVal.eqInt (.int n) 0 = true
  · rw [if_pos h0] at h; simp at h
  · rw [if_neg h0] at h
    cases hc : Msg.vPositiveInteger E (.int n) name location kind with
    | ok _ => rw [hc] at h; simp at h
    | error em =>
      rw [hc] at h
      simp only [M_bind_err, Except.error.injEq] at h
      obtain ⟨h1, h2, h3⟩ := hp (by rw [hc, h])
      refine ⟨?_, h2, h3⟩
      have : n ≠ 0 := by intro hz; rw [hz] at h0; simp [PVal.eqInt] at h0
      omega

/-- **C152**: a string is refused by `validate_string_is_date` only if it is not of the form YYYY-MM-DD. -/
theorem C152_date_partial (E : Env) (u : UniDB) (s : Str) (name location kind : Option Str) (e : Err) (m : Str)
    (h : Msg.vStrDate E u (.str s) name location kind = .error (e, m)) :
    ¬ IsDate u s ∧ e = .valueError ∧ Explains E (.str s) name location kind py"which is not a valid YYYY-MM-DD date string." m := by
  have hag := C104_agrees_date E u (.str s) name location kind
  refine ⟨fun hd => ?_, ?_⟩
  · rw [h] at hag
    have := (C67_date_partial u s).1 (.inl hd)
    simp only [vString, R_bind_ok, this] at hag
    exact absurd hag (by simp [forget])
  · simp only [Msg.vStrDate, Msg.vString, M_bind_ok] at h
    split at h
    · simp only [M_throw, Except.error.injEq, Prod.mk.injEq] at h
      rw [← h.2]
      exact ⟨h.1.symm, explains E _ name location kind _⟩
    · simp at h

/-- **C152**: `validate_item_in_list` refuses an item only if it is not in the list; the text shows the item and the list, one item per line. -/
theorem C152_item_partial (x : Str) (l : List Str) (e : Err) (m : Str) (h : Msg.vItemInList x l = .error (e, m)) :
    x ∉ l ∧ e = .valueError ∧ m = py"Item not in list. Item: " ++ x ++ py"\nList items:" ++ l.flatMap fun y => py"\n- " ++ y := by
  unfold Msg.vItemInList at h
  split at h
  · simp at h
  · rename_i hn
    simp only [Except.error.injEq, Prod.mk.injEq] at h
    exact ⟨by simpa using hn, h.1.symm, h.2.symm⟩

/-! Refused values of each kind. -/
example (E : Env) : ∃ m, Msg.vHexLength E (.str (hex [1, 2])) 3 (some py"key") none none = .error (.valueError, m) := ⟨_, rfl⟩
example (E : Env) (u : UniDB) : ∃ m, Msg.vStrDecimal E u (some 2) (.str py"1.2.3") none none none = .error (.typeError, m) := ⟨_, rfl⟩
example (E : Env) (u : UniDB) : ∃ m, Msg.vStrDecimal E u (some 2) (.str py"1.234") none none none = .error (.valueError, m) := ⟨_, rfl⟩
example (E : Env) (u : UniDB) : ∃ m, Msg.vStrDecimal E u none (.str py"5.") none none none = .error (.typeError, m) := ⟨_, rfl⟩
example (E : Env) : ∃ m, Msg.vWholeNumber E (.int (-3)) none none = .error (.valueError, m) := ⟨_, rfl⟩
example (E : Env) (u : UniDB) : ∃ m, Msg.vStrDate E u (.str py"2020-1-2") none none = .error (.valueError, m) := ⟨_, rfl⟩
example : ∃ m, Msg.vItemInList py"c" [py"a", py"b"] = .error (.valueError, m) := ⟨_, rfl⟩

end BT
