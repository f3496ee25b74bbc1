import Verif.AmountMsgSpec
import Verif.Lemmas.Messages
import Verif.Lemmas.Amount

/-! # Lemmas about the texts for refused amounts -/

namespace BT.Msg

open Spec

theorem dot_isDigit (u : UniDB) : isDigitChar u '.' = false := by
  unfold isDigitChar; rw [if_pos (by decide)]; rfl

theorem digit_of_dec {u : UniDB} {c : Char} (h : (decVal u c).isSome = true) : isDigitChar u c = true := by
  unfold decVal at h; unfold isDigitChar
  split <;> simp_all

theorem isDigitStr_iff {u : UniDB} {s : Str} : isDigitStr u s = true ↔ s ≠ [] ∧ ∀ c ∈ s, isDigitChar u c = true := by
  simp only [isDigitStr, Bool.and_eq_true, Bool.not_eq_true', List.all_eq_true]
  simp

theorem dot_not_mem' {u : UniDB} {s : Str} (h : ∀ c ∈ s, isDigitChar u c = true) : '.' ∉ s := by
  intro hm; have := h _ hm; rw [dot_isDigit] at this; simp at this

theorem amountText_periods (E : Env) (u : UniDB) {s : Str} (h : 2 ≤ s.count '.') :
    amountText E u s = .error (.valueError, py"Amount contains " ++ pyStr (s.count '.') ++
        py" periods ('.'). It must contain either 1 or 0 periods. Amount: " ++ s) := by
  unfold amountText
  rw [if_pos (by omega)]
  rfl

theorem amountText_chars (E : Env) (u : UniDB) {s : Str} (h1 : s.count '.' ≤ 1) (h : isDigitStr u (removeC '.' s) = false) :
    amountText E u s = .error (.valueError, py"Apart from an optional period ('.'), amount can contain only digits. Amount: " ++ s) := by
  unfold amountText
  rw [if_neg (by omega)]
  simp only [h]
  rfl

theorem amountText_places (E : Env) (u : UniDB) {s ip fp : Str} (hs : s = ip ++ '.' :: fp)
    (hd : ∀ c ∈ ip ++ fp, isDigitChar u c = true) (h : 8 < fp.length) :
    amountText E u s = .error (.valueError, py"Amount (" ++ s ++ py") has " ++ pyStr fp.length ++
        py" decimal places. It can have at most 8 decimal places.") := by
  have hi : '.' ∉ ip := dot_not_mem' (u := u) fun c hc => hd c (by simp [hc])
  have hf : '.' ∉ fp := dot_not_mem' (u := u) fun c hc => hd c (by simp [hc])
  have hc : s.count '.' = 1 := by rw [hs]; exact count_split hi hf
  have hdig : isDigitStr u (removeC '.' s) = true := by
    rw [hs, removeC_one hi hf, isDigitStr_iff]
    refine ⟨fun h0 => ?_, hd⟩
    obtain ⟨_, h1⟩ := List.append_eq_nil_iff.1 h0
    rw [h1] at h; simp at h
  have hp : secondPart s = .ok fp := by
    unfold secondPart; rw [hs, splitC_one hi hf]; rfl
  unfold amountText
  rw [if_neg (by omega)]
  simp only [hdig, hc, if_true, hp, M_bind_ok, gt_iff_lt, h]
  rfl

/-- What is left of the check once the characters and the places are in order. -/
theorem amountText_rest (E : Env) (u : UniDB) {s ip fp : Str} (hs : s = ip ++ '.' :: fp ∨ (s = ip ∧ fp = [])) (hne : ip ++ fp ≠ [])
    (hd : ∀ c ∈ ip ++ fp, isDigitChar u c = true) (h : fp.length ≤ 8) :
    amountText E u s = (do
      let f ← floatStr E u s
      if f.lt (.fin 0) then
        .error (.valueError, py"The minimum possible amount is 0.00000000. Amount: " ++ s)
      else if (PyFloat.fin ((21000000 : ℤ) : ℚ)).lt f then
        .error (.valueError, py"The maximum possible amount is 21000000.00000000. Amount: " ++ s)
      else .ok ()) := by
  have hi : '.' ∉ ip := dot_not_mem' (u := u) fun c hc => hd c (by simp [hc])
  have hf : '.' ∉ fp := dot_not_mem' (u := u) fun c hc => hd c (by simp [hc])
  rcases hs with hs | ⟨hs, h0⟩
  · have hc : s.count '.' = 1 := by rw [hs]; exact count_split hi hf
    have hdig : isDigitStr u (removeC '.' s) = true := by
      rw [hs, removeC_one hi hf, isDigitStr_iff]
      exact ⟨hne, hd⟩
    have hp : secondPart s = .ok fp := by
      unfold secondPart; rw [hs, splitC_one hi hf]; rfl
    unfold amountText
    rw [if_neg (by omega)]
    simp only [hdig, hc, if_true, hp, M_bind_ok, gt_iff_lt, Nat.not_lt.2 h, if_false]
    rfl
  · have hc : s.count '.' = 0 := by rw [hs]; exact List.count_eq_zero.2 hi
    have hdig : isDigitStr u (removeC '.' s) = true := by
      rw [hs, removeC_none hi, isDigitStr_iff]
      rw [h0, List.append_nil] at hne hd
      exact ⟨hne, hd⟩
    unfold amountText
    rw [if_neg (by omega)]
    simp only [hdig, hc]
    rfl

theorem amountText_float (E : Env) (u : UniDB) {s ip fp : Str} (hs : s = ip ++ '.' :: fp ∨ (s = ip ∧ fp = []))
    (hd : ∀ c ∈ ip ++ fp, isDigitChar u c = true) (h : fp.length ≤ 8) (hb : ∃ c ∈ ip ++ fp, decVal u c = none) :
    amountText E u s = .error (.valueError, py"could not convert string to float: " ++ reprStr E s) := by
  obtain ⟨c, hc, hn⟩ := hb
  rw [amountText_rest E u hs (fun h0 => by rw [h0] at hc; simp at hc) hd h]
  have hi : '.' ∉ ip := dot_not_mem' (u := u) fun c hc => hd c (by simp [hc])
  have hf : '.' ∉ fp := dot_not_mem' (u := u) fun c hc => hd c (by simp [hc])
  have hrem : removeC '.' s = ip ++ fp := by
    rcases hs with hs | ⟨hs, h0⟩
    · rw [hs, removeC_one hi hf]
    · rw [hs, removeC_none hi, h0, List.append_nil]
  have hfl : pyFloatStr u s = .error .valueError := by
    cases hx : pyFloatStr u s with
    | error e => rw [pyFloat_VE u s e hx]
    | ok f =>
      have := pyFloat_bad u (by rw [hrem]; exact hd) hx c (by rw [hrem]; exact hc)
      rw [hn] at this; simp at this
  simp only [floatStr, hfl, M_bind_err]

theorem amountText_value (E : Env) (u : UniDB) {s : Str} {sat : Nat} (h : AmountOf u s sat) :
    amountText E u s = if maxMoney < sat then .error (.valueError, py"The maximum possible amount is 21000000.00000000. Amount: " ++ s)
      else .ok () := by
  obtain ⟨ip, fp, hs, hne, h8, hd, rfl⟩ := h
  rw [amountText_rest E u hs hne (fun c hc => digit_of_dec (hd c hc)) h8]
  have hneg : (rnd64 ((numeral u (ip ++ fp) : ℚ) / 10 ^ fp.length)).lt (.fin 0) = false :=
    rnd64_not_neg (by positivity)
  simp only [floatStr, pyFloat_ok u hs hne hd, M_bind_ok, hneg]
  by_cases hm : maxMoney < numeral u (ip ++ fp) * 10 ^ (8 - fp.length)
  · rw [if_pos hm, (cap_exact h8).2 hm]; rfl
  · rw [if_neg hm]
    have : (PyFloat.fin ((21000000 : ℤ) : ℚ)).lt (rnd64 ((numeral u (ip ++ fp) : ℚ) / 10 ^ fp.length)) = false := by
      rw [Bool.eq_false_iff]; intro hh; exact hm ((cap_exact h8).1 hh)
    rw [this]; rfl

/-- The shape of a text with at most one period. -/
theorem parts (s : Str) (h : s.count '.' ≤ 1) : ∃ ip fp, (s = ip ++ '.' :: fp ∨ (s = ip ∧ fp = [])) ∧ removeC '.' s = ip ++ fp ∧ '.' ∉ ip ∧ '.' ∉ fp := by
  by_cases h1 : s.count '.' = 1
  · obtain ⟨ip, fp, hs, hi, hf⟩ := count_one_split h1
    exact ⟨ip, fp, .inl hs, by rw [hs, removeC_one hi hf], hi, hf⟩
  · have hn : '.' ∉ s := List.count_eq_zero.1 (by omega)
    exact ⟨s, [], .inr ⟨rfl, rfl⟩, by rw [removeC_none hn]; simp, hn, by simp⟩

theorem not_isDigitStr {u : UniDB} {s : Str} :
    isDigitStr u (removeC '.' s) = false ↔ ((∀ c ∈ s, c = '.') ∨ ∃ c ∈ s, c ≠ '.' ∧ isDigitChar u c = false) := by
  rw [Bool.eq_false_iff, Ne, isDigitStr_iff]
  have hnil : removeC '.' s = [] ↔ ∀ c ∈ s, c = '.' := by
    simp [removeC, List.filter_eq_nil_iff]
  have hall : (∀ c ∈ removeC '.' s, isDigitChar u c = true) ↔ ∀ c ∈ s, c ≠ '.' → isDigitChar u c = true := by
    simp only [removeC, List.mem_filter, bne_iff_ne, and_imp]
  rw [hall, Ne, hnil]
  by_cases ha : ∀ c ∈ s, c = '.'
  · exact ⟨fun _ => .inl ha, fun _ hh => hh.1 ha⟩
  · simp only [ha, not_false_eq_true, true_and, false_or]
    push Not
    simp

theorem fault_error (E : Env) (u : UniDB) {s m : Str} (h : AmountFault E u s m) : amountText E u s = .error (.valueError, m) := by
  cases h with
  | periods h => exact amountText_periods E u h
  | chars h1 h => exact amountText_chars E u h1 (not_isDigitStr.2 h)
  | places ip fp hs hd h => exact amountText_places E u hs hd h
  | float ip fp hs hd h8 h => exact amountText_float E u hs hd h8 h
  | tooMuch sat hs h => rw [amountText_value E u hs, if_pos h]

/-- Every text is either an amount within the cap, or has a fault. -/
theorem fault_or_amount (E : Env) (u : UniDB) (s : Str) : (∃ m, AmountFault E u s m) ∨ ∃ sat, AmountOf u s sat ∧ sat ≤ maxMoney := by
  by_cases h1 : s.count '.' ≤ 1
  · by_cases hd : isDigitStr u (removeC '.' s) = true
    · obtain ⟨ip, fp, hs, hrem, hi, hf⟩ := parts s h1
      rw [hrem, isDigitStr_iff] at hd
      by_cases h8 : fp.length ≤ 8
      · by_cases hb : ∃ c ∈ ip ++ fp, decVal u c = none
        · exact .inl ⟨_, .float ip fp hs hd.2 h8 hb⟩
        · have hA : AmountOf u s (numeral u (ip ++ fp) * 10 ^ (8 - fp.length)) := by
            refine ⟨ip, fp, hs, hd.1, h8, fun c hc => ?_, rfl⟩
            by_contra hn
            exact hb ⟨c, hc, by simpa using hn⟩
          by_cases hm : maxMoney < numeral u (ip ++ fp) * 10 ^ (8 - fp.length)
          · exact .inl ⟨_, .tooMuch _ hA hm⟩
          · exact .inr ⟨_, hA, by omega⟩
      · rcases hs with hs | ⟨_, h0⟩
        · exact .inl ⟨_, .places ip fp hs hd.2 (by omega)⟩
        · rw [h0] at h8; simp at h8
    · exact .inl ⟨_, .chars h1 (not_isDigitStr.1 (by simpa using hd))⟩
  · exact .inl ⟨_, .periods (by omega)⟩

/-- The text is exactly that of the fault. -/
theorem amountText_error (E : Env) (u : UniDB) {s m : Str} {e : Err} :
    amountText E u s = .error (e, m) ↔ e = .valueError ∧ AmountFault E u s m := by
  constructor
  · intro h
    rcases fault_or_amount E u s with ⟨m', hm⟩ | ⟨sat, hs, hm⟩
    · have := fault_error E u hm
      rw [h] at this
      simp only [Except.error.injEq, Prod.mk.injEq] at this
      rw [this.1, this.2]; exact ⟨rfl, hm⟩
    · rw [amountText_value E u hs, if_neg (by omega)] at h; simp at h
  · rintro ⟨rfl, h⟩; exact fault_error E u h

theorem amountText_agrees (E : Env) (u : UniDB) (s : Str) : forget (amountText E u s) = BT.vBitcoinAmount u s := by
  rcases fault_or_amount E u s with ⟨m, hm⟩ | ⟨sat, hs, hm⟩
  · rw [fault_error E u hm, forget_err]
    cases hv : BT.vBitcoinAmount u s with
    | error e => rw [vBitcoinAmount_VE u s e hv]
    | ok x =>
      obtain ⟨sat, hs, hle⟩ := (vBitcoinAmount_ok u).1 hv
      have := fault_error E u hm
      rw [amountText_value E u hs, if_neg (by omega)] at this
      simp at this
  · rw [amountText_value E u hs, if_neg (by omega)]
    exact ((vBitcoinAmount_ok u (x := ())).2 ⟨sat, hs, hm⟩).symm

end BT.Msg
