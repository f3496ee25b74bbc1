import Verif.Lemmas.Validate
import Verif.Concrete.Ecdsa

/-! # C62, C63, C67, C68, C69: the validators -/

namespace BT
open Spec

/-! ## C62 -/

/-- C62: accepted exactly if every character is in 0x20..0x7e, tab or newline; otherwise
ValueError. -/
theorem C62_printable_ascii (s : Str) :
    ((∀ c ∈ s, (0x20 ≤ c.toNat ∧ c.toNat ≤ 0x7e) ∨ c = '\t' ∨ c = '\n') → vPrintableAscii s = .ok ()) ∧
    ((∃ c ∈ s, ¬ ((0x20 ≤ c.toNat ∧ c.toNat ≤ 0x7e) ∨ c = '\t' ∨ c = '\n')) →
      vPrintableAscii s = .error .valueError) := by
  unfold vPrintableAscii
  have h : (s.all fun c => permittedChars.contains c) = true ↔
      ∀ c ∈ s, (0x20 ≤ c.toNat ∧ c.toNat ≤ 0x7e) ∨ c = '\t' ∨ c = '\n' := by
    simp only [List.all_eq_true, List.contains_iff_mem, permitted_iff]
  constructor
  · intro h'; rw [if_pos (h.2 h')]
  · rintro ⟨c, hc, hn⟩
    rw [if_neg]
    intro h'
    exact hn (h.1 h' c hc)

example : vPrintableAscii py"a\t\"~\n" = .ok () ∧
    vPrintableAscii [Char.ofNat 0x7f] = .error .valueError := by decide +kernel

/-! ## C63 -/

/-- C63: `validate_hex`. -/
theorem C63_validate_hex (s : Str) :
    (IsHex s → vHex s = .ok ()) ∧ (¬ IsHex s → vHex s = .error .valueError) :=
  ⟨vHex_ok.2, vHex_not⟩

/-- C63: `validate_hex_length`. -/
theorem C63_validate_hex_length (s : Str) (n : Int) :
    (IsHex s ∧ (s.length : Int) = 2 * n → vHexLength s n = .ok ()) ∧
    (¬ (IsHex s ∧ (s.length : Int) = 2 * n) → vHexLength s n = .error .valueError) := by
  have h : vHexLength s n = .ok () ↔ IsHex s ∧ (s.length : Int) = 2 * n := by
    rw [vHexLength_ok]
  exact ⟨h.2, fun hn => (vHexLength_VE s n).eq_of_not_ok fun _ hh => hn (h.1 hh)⟩

/-- C63: `validate_integer_domain`. -/
theorem C63_validate_integer_domain (n lo hi : Int) :
    (lo ≤ n ∧ n ≤ hi → vIntegerDomain n lo hi = .ok ()) ∧
    (¬ (lo ≤ n ∧ n ≤ hi) → vIntegerDomain n lo hi = .error .valueError) := by
  by_cases h : lo ≤ hi
  · rw [vIntegerDomain_eq h]
    exact ⟨fun h' => if_pos h', fun h' => if_neg h'⟩
  · constructor
    · rintro ⟨h1, h2⟩; omega
    · intro _
      unfold vIntegerDomain
      rw [if_pos (by omega)]
      rfl

/-- C63: `validate_lists_are_identical` (string lists): exactly the permutations. -/
theorem C63_validate_lists_are_identical (l1 l2 : List Str) :
    (l1.Perm l2 → vListsIdentical l1 l2 = .ok ()) ∧
    (¬ l1.Perm l2 → vListsIdentical l1 l2 = .error .valueError) := by
  rw [vListsIdentical_eq]
  exact ⟨fun h' => if_pos h', fun h' => if_neg h'⟩

/-- C63: `validate_list_contains_items` (string lists): exactly the supersets. -/
theorem C63_validate_list_contains_items (l items : List Str) :
    ((∀ x ∈ items, x ∈ l) → vListContains l items = .ok ()) ∧
    (¬ (∀ x ∈ items, x ∈ l) → vListContains l items = .error .valueError) := by
  rw [vListContains_eq]
  exact ⟨fun h' => if_pos h', fun h' => if_neg h'⟩

/-- C63: `validate_item_in_list` (strings). -/
theorem C63_validate_item_in_list (x : Str) (l : List Str) :
    (x ∈ l → vItemInList x l = .ok ()) ∧ (x ∉ l → vItemInList x l = .error .valueError) := by
  unfold vItemInList
  constructor <;> intro h <;> simp [h]

/-- C63: `validate_whole_number` on any JSON value: accepted exactly if it is an integer
(or bool) ≥ 1 or compares equal to 0. -/
theorem C63_validate_whole_number (x : PVal) :
    vWholeNumber x = .ok () ↔
      (x.eqInt 0 = true ∨ ∃ n : Int, (x = .int n ∨ (x = .bool true ∧ n = 1)) ∧ 1 ≤ n) := by
  unfold vWholeNumber vPositiveInteger vInteger
  cases x <;> simp [PVal.eqInt, PVal.asInt]
  · rename_i b; cases b <;> simp
  · rename_i n
    by_cases h0 : n = 0
    · simp [h0]
    · by_cases h1 : n < 1
      · simp [h0, h1]
      · simp [h0, h1]; omega
  · rename_i f
    cases f with
    | fin q => by_cases h : q = 0 <;> simp [h]
    | nan => simp
    | inf b => simp

/-- C63: the type validators accept exactly the values of their type (a `bool` is an `int`) and raise TypeError for
every other value. -/
theorem C63_types (x : PVal) :
    ((∃ s, x = .str s ∧ vString x = .ok s) ∨ (∀ s, x ≠ .str s) ∧ vString x = .error .typeError) ∧
    ((∃ b, x = .bool b ∧ vBoolean x = .ok b) ∨ (∀ b, x ≠ .bool b) ∧ vBoolean x = .error .typeError) ∧
    ((∃ l, x = .list l ∧ vList x = .ok l) ∨ (∀ l, x ≠ .list l) ∧ vList x = .error .typeError) ∧
    ((∃ d, x = .dict d ∧ vDict x = .ok d) ∨ (∀ d, x ≠ .dict d) ∧ vDict x = .error .typeError) ∧
    ((∃ n, (x = .int n ∨ (x = .bool true ∧ n = 1) ∨ (x = .bool false ∧ n = 0)) ∧ vInteger x = .ok n) ∨
      (∀ n, x ≠ .int n) ∧ (∀ b, x ≠ .bool b) ∧ vInteger x = .error .typeError) := by
  cases x <;> simp [vString, vBoolean, vList, vDict, vInteger, PVal.asInt]

/-- C63: `validate_positive_integer` accepts exactly the integers (and `True`) from 1 on; other integers raise
ValueError, other values TypeError. -/
theorem C63_validate_positive_integer (x : PVal) :
    (∀ n : Int, 1 ≤ n → vPositiveInteger (.int n) = .ok n) ∧ (∀ n : Int, n < 1 → vPositiveInteger (.int n) = .error .valueError) ∧
    vPositiveInteger (.bool true) = .ok 1 ∧ vPositiveInteger (.bool false) = .error .valueError ∧
    ((∀ n, x ≠ .int n) → (∀ b, x ≠ .bool b) → vPositiveInteger x = .error .typeError) := by
  refine ⟨fun n h => ?_, fun n h => ?_, rfl, rfl, fun h1 h2 => ?_⟩
  · have : ¬ n < 1 := by omega
    simp [vPositiveInteger, vInteger, PVal.asInt, this]
  · simp [vPositiveInteger, vInteger, PVal.asInt, h]
  · cases x with
    | int n => exact absurd rfl (h1 n)
    | bool b => exact absurd rfl (h2 b)
    | _ => rfl

example : vListsIdentical [py"b", py"a"] [py"a", py"b"] = .ok () ∧
    vListsIdentical [py"a", py"a"] [py"a"] = .error .valueError := by decide +kernel
example : vWholeNumber (.bool true) = .ok () ∧ vWholeNumber (.int (-1)) = .error .valueError := by
  decide +kernel

/-! ## C67 dates -/

/-- `s` has the shape YYYY-MM-DD. -/
def IsDate (u : UniDB) (s : Str) : Prop :=
  ∃ y1 y2 y3 y4 m1 m2 d1 d2 : Char, s = [y1, y2, y3, y4, '-', m1, m2, '-', d1, d2] ∧
    ∀ c ∈ [y1, y2, y3, y4, m1, m2, d1, d2], (decVal u c).isSome = true

/-- C67 (partial): exactly the strings YYYY-MM-DD (any Unicode decimal digits), *possibly
followed by one newline*; others raise ValueError.  The full property excludes the newline. -/
theorem C67_date_partial (u : UniDB) (s : Str) :
    (IsDate u s ∨ (∃ t, s = t ++ ['\n'] ∧ IsDate u t) → vStrDate u s = .ok ()) ∧
    (¬ (IsDate u s ∨ ∃ t, s = t ++ ['\n'] ∧ IsDate u t) → vStrDate u s = .error .valueError) := by
  have core : ∀ t : Str, dateCore u t = true ↔ IsDate u t := by
    unfold dateCore
    intro t
    constructor
    · intro h
      split at h
      · simp only [Bool.and_eq_true, beq_iff_eq] at h
        obtain ⟨⟨⟨⟨⟨⟨⟨⟨⟨h1, h2⟩, h3⟩, h4⟩, rfl⟩, h5⟩, h6⟩, rfl⟩, h7⟩, h8⟩ := h
        refine ⟨_, _, _, _, _, _, _, _, rfl, ?_⟩
        simp [h1, h2, h3, h4, h5, h6, h7, h8]
      · simp at h
    · rintro ⟨y1, y2, y3, y4, m1, m2, d1, d2, rfl, h⟩
      simp only [List.mem_cons, List.not_mem_nil, or_false, forall_eq_or_imp, forall_eq] at h
      simp [h]
  have key : vStrDate u s = .ok () ↔ (IsDate u s ∨ ∃ t, s = t ++ ['\n'] ∧ IsDate u t) := by
    unfold vStrDate
    simp only [ite_ok_err, and_true, Bool.or_eq_true, Bool.and_eq_true, core, beq_iff_eq]
    constructor
    · rintro (h | ⟨h1, h2⟩)
      · exact .inl h
      · refine .inr ⟨s.dropLast, ?_, h2⟩
        exact (List.dropLast_append_getLast? _ h1).symm
    · rintro (h | ⟨t, rfl, h⟩)
      · exact .inl h
      · refine .inr ⟨by simp, by simpa using h⟩
  refine ⟨key.2, fun hn => ?_⟩
  have : vStrDate u s ≠ .ok () := fun h => hn (key.1 h)
  unfold vStrDate at *
  split at this
  · exact absurd rfl this
  · rename_i h; rw [if_neg h]

/-- C67 is violated: an accepted string need not be a date, a trailing newline is let
through. -/
theorem C67_violation (u : UniDB) :
    vStrDate u py"2020-01-02\n" = .ok () ∧ ¬ IsDate u py"2020-01-02\n" := by
  have hd : ∀ c ∈ digits10, (decVal u c).isSome = true := fun c hc => (isDig_iff.2 hc).decVal
  refine ⟨(C67_date_partial u _).1 (.inr ⟨py"2020-01-02", rfl, _, _, _, _, _, _, _, _, rfl, ?_⟩), ?_⟩
  · intro c hc
    refine hd c ?_
    simp only [List.mem_cons, List.not_mem_nil, or_false] at hc
    rcases hc with rfl | rfl | rfl | rfl | rfl | rfl | rfl | rfl <;> decide
  · rintro ⟨_, _, _, _, _, _, _, _, h, _⟩
    simp at h

/-! ## C68 positive integers as strings -/

/-- C68 (partial): accepted exactly if the string is not "0" and all characters satisfy
`isdigit`.  The full property demands a numeral of a positive integer. -/
theorem C68_positive_integer_string_partial (u : UniDB) (s : Str) :
    (s ≠ py"0" ∧ (∀ c ∈ s, isDigitChar u c = true) → vStrPositiveInteger u s = .ok ()) ∧
    (¬ (s ≠ py"0" ∧ ∀ c ∈ s, isDigitChar u c = true) → vStrPositiveInteger u s = .error .valueError) := by
  unfold vStrPositiveInteger
  constructor
  · rintro ⟨h1, h2⟩
    rw [if_neg h1]
    have : (s.all (isDigitChar u)) = true := List.all_eq_true.2 h2
    simp [this]
  · intro h
    by_cases h0 : s = py"0"
    · rw [if_pos h0]; rfl
    · rw [if_neg h0]
      have : ¬ (s.all (isDigitChar u)) = true := fun ha => h ⟨h0, List.all_eq_true.1 ha⟩
      simp only [Bool.not_eq_true] at this
      rw [this]; rfl

/-- C68 for ASCII numerals that are not made of zeros alone: the code is right there. -/
theorem C68_ascii_numerals (u : UniDB) (s : Str) (hd : ∀ c ∈ s, c ∈ digits10) (h0 : 0 < numeral u s) :
    vStrPositiveInteger u s = .ok () ∧ pyInt u 10 s = .ok (numeral u s : Int) := by
  have hne : s ≠ [] := by rintro rfl; simp at h0
  have hdec : ∀ c ∈ s, (decVal u c).isSome = true := fun c hc => (isDig_iff.2 (hd c hc)).decVal
  refine ⟨(C68_positive_integer_string_partial u s).1 ⟨?_, fun c hc => ?_⟩, pyInt_digits u hne hdec⟩
  · rintro rfl; simp [numeral, decVal_zero] at h0
  · have h1 := (isDig_iff.2 (hd c hc)).ascii
    have h2 := hdec c hc
    rw [decVal_ascii u h1] at h2
    simp [isDigitChar, h1, h2]

/-- C68 is violated: the empty string and zero written "00" are accepted. -/
theorem C68_violation (u : UniDB) :
    vStrPositiveInteger u [] = .ok () ∧ pyInt u 10 [] = .error .valueError ∧
    vStrPositiveInteger u py"00" = .ok () ∧ pyInt u 10 py"00" = .ok 0 := by
  have h0 : isDigitChar u '0' = true := by
    have : '0'.toNat < 128 := by decide
    unfold isDigitChar; rw [if_pos this]; decide
  refine ⟨(C68_positive_integer_string_partial u _).1 ⟨by decide, by simp⟩, pyInt_nil u 10,
    (C68_positive_integer_string_partial u _).1 ⟨by decide, by simp [h0]⟩, ?_⟩
  have := pyInt_digits u (s := py"00") (by decide) (by simp [decVal_zero])
  simpa [numeral, decVal_zero] using this

/-- C68: `validate_string_is_whole_number` accepts in addition exactly "0". -/
theorem C68_whole_number_string (u : UniDB) (s : Str) :
    ((∀ c ∈ s, isDigitChar u c = true) → vStrWholeNumber u s = .ok ()) ∧
    (¬ (∀ c ∈ s, isDigitChar u c = true) → vStrWholeNumber u s = .error .valueError) := by
  have h0 : isDigitChar u '0' = true := by
    have : '0'.toNat < 128 := by decide
    unfold isDigitChar; rw [if_pos this]; decide
  obtain ⟨p1, p2⟩ := C68_positive_integer_string_partial u s
  unfold vStrWholeNumber
  constructor
  · intro h
    split
    · rfl
    · rename_i hs; exact p1 ⟨hs, h⟩
  · intro h
    rw [if_neg]
    · exact p2 fun hh => h hh.2
    · rintro rfl; exact h (by simp [h0])

/-! ## C69 decimals as strings -/

/-- C69: without a number of places, exactly `<digits>.<digits>`, both parts non-empty, are
accepted. -/
theorem C69_decimal (u : UniDB) (s : Str) :
    vStrDecimal u none s = .ok () ↔
      ∃ ip fp : Str, s = ip ++ '.' :: fp ∧ ip ≠ [] ∧ fp ≠ [] ∧ ∀ c ∈ ip ++ fp, isDigitChar u c = true := by
  have hdotd : isDigitChar u '.' = false := by
    have : '.'.toNat < 128 := by decide
    unfold isDigitChar; rw [if_pos this]; decide
  unfold vStrDecimal
  constructor
  · intro h
    by_cases hc : s.count '.' = 1
    · obtain ⟨a, b, rfl, ha, hb⟩ := count_one_split hc
      simp only [hc, splitC_one ha hb] at h
      by_cases hd : isDigitStr u a = true ∧ isDigitStr u b = true
      · simp only [isDigitStr, Bool.and_eq_true, Bool.not_eq_true', List.all_eq_true] at hd
        refine ⟨a, b, rfl, by simpa using hd.1.1, by simpa using hd.2.1, ?_⟩
        intro c hc
        rcases List.mem_append.1 hc with hc | hc
        · exact hd.1.2 c hc
        · exact hd.2.2 c hc
      · have : (!isDigitStr u a || !isDigitStr u b) = true := by
          cases h1 : isDigitStr u a <;> cases h2 : isDigitStr u b <;> simp_all
        simp [this] at h
    · simp [hc] at h
  · rintro ⟨a, b, rfl, ha, hb, hd⟩
    have h1 : '.' ∉ a := fun hm => by
      have := hd '.' (by simp [hm]); rw [hdotd] at this; simp at this
    have h2 : '.' ∉ b := fun hm => by
      have := hd '.' (by simp [hm]); rw [hdotd] at this; simp at this
    have d1 : isDigitStr u a = true := by
      simp only [isDigitStr, Bool.and_eq_true, Bool.not_eq_true', List.all_eq_true]
      exact ⟨by simpa using ha, fun c hc => hd c (by simp [hc])⟩
    have d2 : isDigitStr u b = true := by
      simp only [isDigitStr, Bool.and_eq_true, Bool.not_eq_true', List.all_eq_true]
      exact ⟨by simpa using hb, fun c hc => hd c (by simp [hc])⟩
    simp [count_split h1 h2, splitC_one h1 h2, d1, d2]

/-- C69: with `dp` places, exactly `<digits>.<dp digits>` is accepted (so never for
`dp = 0`), although the point of the regular expression matches any character. -/
theorem C69_decimal_places (u : UniDB) (dp : Nat) (s : Str) :
    vStrDecimal u (some dp) s = .ok () ↔
      ∃ ip fp : Str, s = ip ++ '.' :: fp ∧ ip ≠ [] ∧ fp.length = dp ∧ fp ≠ [] ∧
        ∀ c ∈ ip ++ fp, (decVal u c).isSome = true := by
  have hdig : ∀ t : Str, t ≠ [] → (∀ c ∈ t, (decVal u c).isSome = true) → isDigitStr u t = true := by
    intro t hne hd
    simp only [isDigitStr, Bool.and_eq_true, Bool.not_eq_true', List.all_eq_true]
    refine ⟨by simpa using hne, fun c hc => ?_⟩
    have := hd c hc
    unfold decVal at this; unfold isDigitChar
    split <;> simp_all
  unfold vStrDecimal
  constructor
  · intro h
    by_cases hc : s.count '.' = 1
    · obtain ⟨a, b, rfl, ha, hb⟩ := count_one_split hc
      simp only [hc, splitC_one ha hb] at h
      by_cases hd : isDigitStr u a = true ∧ isDigitStr u b = true
      · have ane : a ≠ [] := by rintro rfl; simp [isDigitStr] at hd
        have bne : b ≠ [] := by rintro rfl; simp [isDigitStr] at hd
        by_cases hr : reDecimal u dp (a ++ '.' :: b) = true
        · obtain ⟨h1, h2⟩ := (reDecimal_iff u dp ha hb bne).1 hr
          exact ⟨a, b, rfl, ane, h1, bne, h2⟩
        · simp [hd.1, hd.2, hr] at h
      · have : (!isDigitStr u a || !isDigitStr u b) = true := by
          cases h1 : isDigitStr u a <;> cases h2 : isDigitStr u b <;> simp_all
        simp [this] at h
    · simp [hc] at h
  · rintro ⟨a, b, rfl, ha, hl, hb, hd⟩
    have h1 : '.' ∉ a := dot_not_mem u fun c hc => hd c (by simp [hc])
    have h2 : '.' ∉ b := dot_not_mem u fun c hc => hd c (by simp [hc])
    have d1 := hdig a ha fun c hc => hd c (by simp [hc])
    have d2 := hdig b hb fun c hc => hd c (by simp [hc])
    have hr := (reDecimal_iff u dp h1 h2 hb).2 ⟨hl, hd⟩
    simp [count_split h1 h2, splitC_one h1 h2, d1, d2, hr]

/-- C69: `validate_string_is_whole_number_or_decimal` accepts exactly strings of digits (also the empty one, see C68) and
`<digits>.<digits>`; what it raises otherwise is always ValueError. -/
theorem C69_whole_or_decimal (u : UniDB) (s : Str) :
    (vStrWholeOrDecimal u none s = .ok () ↔ (∀ c ∈ s, isDigitChar u c = true) ∨
      ∃ ip fp : Str, s = ip ++ '.' :: fp ∧ ip ≠ [] ∧ fp ≠ [] ∧ ∀ c ∈ ip ++ fp, isDigitChar u c = true) ∧
    (vStrWholeOrDecimal u none s ≠ .ok () → vStrWholeOrDecimal u none s = .error .valueError) := by
  obtain ⟨w1, w2⟩ := C68_whole_number_string u s
  have hd := C69_decimal u s
  unfold vStrWholeOrDecimal
  by_cases h : ∀ c ∈ s, isDigitChar u c = true
  · rw [w1 h]
    refine ⟨⟨fun _ => .inl h, fun _ => ?_⟩, fun hne => absurd ?_ hne⟩ <;> rfl
  · rw [w2 h]
    cases hv : vStrDecimal u none s with
    | ok v => exact ⟨⟨fun _ => .inr (hd.1 hv), fun _ => rfl⟩, fun hne => absurd rfl hne⟩
    | error e =>
      refine ⟨⟨fun h' => by simp at h', fun h' => ?_⟩, fun _ => rfl⟩
      rcases h' with h' | h'
      · exact absurd h' h
      · rw [hd.2 h'] at hv; simp at hv

example : vStrDecimal Concrete.uniSample (some 2) py"12.50" = .ok () ∧
    vStrDecimal Concrete.uniSample (some 2) py"12.500" = .error .valueError ∧
    vStrDecimal Concrete.uniSample none py"1" = .error .typeError := by decide +kernel

end BT
