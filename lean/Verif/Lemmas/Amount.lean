import Verif.Spec
import Verif.Basic
import Verif.Lemmas.Hex
import Verif.Lemmas.Float
import Mathlib.Data.List.TakeWhile
import Mathlib.Data.Nat.Digits.Lemmas

namespace BT
open Spec

/-! # Decimal strings and amounts -/

/-! ## the digits -/

theorem asciiDigit_lt {c : Char} {d : Nat} (h : asciiDigit c = some d) : d < 10 := by
  unfold asciiDigit at h
  split at h
  · rename_i hc
    have e1 : '0'.toNat = 48 := rfl
    have e2 : '9'.toNat = 57 := rfl
    simp only [Option.some.injEq] at h
    omega
  · simp at h

theorem decVal_lt {u : UniDB} {c : Char} {d : Nat} (h : decVal u c = some d) : d < 10 := by
  unfold decVal at h
  split at h
  · exact asciiDigit_lt h
  · cases hd : u.decimal c with
    | none => rw [hd] at h; simp at h
    | some x => rw [hd] at h; simp at h; omega

theorem decVal_ascii (u : UniDB) {c : Char} (h : c.toNat < 128) : decVal u c = asciiDigit c := by
  simp [decVal, h]

/-- facts about the ten digit characters -/
theorem digitChar_props {d : Nat} (h : d < 10) :
    asciiDigit (digitChar d) = some d ∧ (digitChar d).toNat < 128 ∧
    isAsciiSpace (digitChar d) = false ∧ digitChar d ≠ '_' ∧ digitChar d ≠ 'x' ∧
    digitChar d ≠ 'X' ∧ digitChar d ≠ '-' ∧ digitChar d ≠ '+' ∧ digitChar d ≠ '.' ∧
    alnumVal (digitChar d) = some d ∧ lowerC (digitChar d) = digitChar d ∧
    digitChar d ≠ 'i' ∧ digitChar d ≠ 'n' ∧ (digitChar d = '0' ↔ d = 0) ∧ digitChar d ≠ '?' := by
  revert d; decide +kernel

theorem asciiDigit_char {c : Char} {d : Nat} (h : asciiDigit c = some d) : c = digitChar d := by
  have hd := asciiDigit_lt h
  unfold asciiDigit at h
  split at h
  · rename_i hc
    have e1 : '0'.toNat = 48 := rfl
    have e2 : '9'.toNat = 57 := rfl
    simp only [Option.some.injEq] at h
    have : c.toNat = (digitChar d).toNat := by
      have hh : ∀ d < 10, (digitChar d).toNat = 48 + d := by decide +kernel
      rw [hh d hd]; omega
    exact Char.ext (UInt32.toNat_inj.1 this)
  · simp at h

/-- the ASCII form of a decimal digit -/
def ascOf (u : UniDB) (c : Char) : Char := digitChar ((decVal u c).getD 0)

theorem ascOf_digit (u : UniDB) {c : Char} : asciiDigit (ascOf u c) = some ((decVal u c).getD 0) := by
  unfold ascOf
  apply (digitChar_props _).1
  cases h : decVal u c with
  | none => simp
  | some d => simpa using decVal_lt h

theorem getD_lt (u : UniDB) (c : Char) : (decVal u c).getD 0 < 10 := asciiDigit_lt (ascOf_digit u)

theorem ascOf_props (u : UniDB) (c : Char) :
    asciiDigit (ascOf u c) = some ((decVal u c).getD 0) ∧ (ascOf u c).toNat < 128 ∧
    isAsciiSpace (ascOf u c) = false ∧ ascOf u c ≠ '_' ∧ ascOf u c ≠ 'x' ∧
    ascOf u c ≠ 'X' ∧ ascOf u c ≠ '-' ∧ ascOf u c ≠ '+' ∧ ascOf u c ≠ '.' ∧
    alnumVal (ascOf u c) = some ((decVal u c).getD 0) ∧ lowerC (ascOf u c) = ascOf u c ∧
    ascOf u c ≠ 'i' ∧ ascOf u c ≠ 'n' ∧ (ascOf u c = '0' ↔ (decVal u c).getD 0 = 0) ∧ ascOf u c ≠ '?' :=
  digitChar_props (getD_lt u c)

theorem toAsciiNum_digit (u : UniDB) {c : Char} (h : (decVal u c).isSome = true) :
    asciiNumChar u c = ascOf u c := by
  unfold asciiNumChar
  by_cases hc : c.toNat < 128
  · rw [if_pos hc]
    obtain ⟨d, hd⟩ := Option.isSome_iff_exists.1 h
    unfold ascOf
    rw [hd, Option.getD_some]
    rw [decVal_ascii u hc] at hd
    exact asciiDigit_char hd
  · rw [if_neg hc]
    unfold ascOf decVal at *
    rw [if_neg hc] at h ⊢
    cases hd : u.decimal c with
    | none => rw [hd] at h; simp at h
    | some x => simp

theorem toAsciiNum_digits (u : UniDB) {s : Str} (h : ∀ c ∈ s, (decVal u c).isSome = true) :
    toAsciiNum u s = s.map (ascOf u) := by
  unfold toAsciiNum
  apply List.map_congr_left
  intro c hc
  exact toAsciiNum_digit u (h c hc)

theorem toAsciiNum_append (u : UniDB) (s t : Str) :
    toAsciiNum u (s ++ t) = toAsciiNum u s ++ toAsciiNum u t := by simp [toAsciiNum]

theorem toAsciiNum_dot (u : UniDB) (t : Str) : toAsciiNum u ('.' :: t) = '.' :: toAsciiNum u t := by
  have : '.'.toNat < 128 := by decide
  simp [toAsciiNum, asciiNumChar, this]

/-! ## numerals -/

@[simp] theorem numeral_nil (u : UniDB) : numeral u [] = 0 := rfl

theorem numeral_append (u : UniDB) (a b : Str) :
    numeral u (a ++ b) = numeral u a * 10 ^ b.length + numeral u b := by
  induction a with
  | nil => simp [numeral]
  | cons c r ih => simp only [List.cons_append, numeral, ih, List.length_append, pow_add]; ring

theorem numeral_lt (u : UniDB) (s : Str) : numeral u s < 10 ^ s.length := by
  induction s with
  | nil => simp
  | cons c r ih =>
    have := getD_lt u c
    simp only [numeral, List.length_cons, pow_succ]
    nlinarith [pow_pos (by norm_num : 0 < 10) r.length]

theorem numeral_asc (u : UniDB) (s : Str) : numeral u (s.map (ascOf u)) = numeral u s := by
  induction s with
  | nil => rfl
  | cons c r ih =>
    have h1 := (ascOf_props u c)
    have h2 : decVal u (ascOf u c) = some ((decVal u c).getD 0) := by
      rw [decVal_ascii u h1.2.1]; exact ascOf_digit u
    simp only [List.map_cons, numeral, List.length_map, ih, h2, Option.getD_some]

theorem decVal_zero (u : UniDB) : decVal u '0' = some 0 := by
  rw [decVal_ascii u (by decide)]; decide

theorem numeral_zeros (u : UniDB) (k : Nat) : numeral u (List.replicate k '0') = 0 := by
  induction k with
  | zero => rfl
  | succ k ih => simp [List.replicate_succ, numeral, ih, decVal_zero]

theorem numeral_eq_zero (u : UniDB) {s : Str} (h : ∀ c ∈ s, (decVal u c).isSome = true) :
    numeral u s = 0 ↔ ∀ c ∈ s, decVal u c = some 0 := by
  induction s with
  | nil => simp
  | cons c r ih =>
    have hc := h c (by simp)
    obtain ⟨d, hd⟩ := Option.isSome_iff_exists.1 hc
    have ih' := ih fun x hx => h x (by simp [hx])
    simp only [numeral, hd, Option.getD_some, List.mem_cons, forall_eq_or_imp]
    rw [← ih']
    simp

theorem valBE_foldl (b : Nat) (l : List Nat) (acc : Nat) :
    l.foldl (fun a d => a * b + d) acc = acc * b ^ l.length + valBE b l := by
  unfold valBE
  induction l generalizing acc with
  | nil => simp
  | cons x r ih =>
    simp only [List.foldl_cons, List.length_cons]
    rw [ih (acc * b + x), ih (0 * b + x)]
    ring

theorem digitsVal_asc (u : UniDB) (s : Str) : digitsVal (s.map (ascOf u)) = numeral u s := by
  induction s with
  | nil => rfl
  | cons c r ih =>
    unfold digitsVal at *
    simp only [List.map_cons, List.filterMap_cons, ascOf_digit, numeral]
    unfold valBE at ih ⊢
    rw [List.foldl_cons, valBE_foldl]
    unfold valBE
    rw [ih]
    have : (List.filterMap asciiDigit (List.map (ascOf u) r)).length = r.length := by
      clear ih
      induction r with
      | nil => rfl
      | cons a r ih => simp [ascOf_digit, ih]
    rw [this]; ring

/-! ## `int(s)` -/

theorem scanDigits_asc (u : UniDB) (s : Str) (acc : Nat) (f : Bool) (h : s ≠ []) :
    scanDigits 10 acc f (s.map (ascOf u)) = some (acc * 10 ^ s.length + numeral u s) := by
  induction s generalizing acc f with
  | nil => simp at h
  | cons c r ih =>
    have hp := ascOf_props u c
    have step : scanDigits 10 acc f ((c :: r).map (ascOf u)) =
        scanDigits 10 (acc * 10 + (decVal u c).getD 0) true (r.map (ascOf u)) := by
      simp only [List.map_cons, scanDigits]
      have e1 : ascOf u c ≠ '_' := hp.2.2.2.1
      have e2 := hp.2.2.2.2.2.2.2.2.2.1
      rw [if_neg e1, e2]
      simp [getD_lt u c]
    rw [step]
    by_cases hr : r = []
    · subst hr; simp [scanDigits, numeral]
    · rw [ih _ _ hr]; simp only [numeral, List.length_cons, pow_succ]; congr 1; ring

theorem pyInt_toAscii (u : UniDB) (b : Nat) {s : Str} (h : toAsciiNum u (toAsciiNum u s) = toAsciiNum u s) :
    pyInt u b s = pyInt u b (toAsciiNum u s) := by
  unfold pyInt; rw [h]

theorem pyInt_digits (u : UniDB) {s : Str} (h0 : s ≠ []) (h : ∀ c ∈ s, (decVal u c).isSome = true) :
    pyInt u 10 s = .ok (numeral u s : Int) := by
  have hasc : ∀ c ∈ s.map (ascOf u), c.toNat < 128 ∧ isAsciiSpace c = false ∧ c ≠ 'x' ∧ c ≠ 'X' ∧ c ≠ '-' ∧ c ≠ '+' := by
    intro c hc
    obtain ⟨a, _, rfl⟩ := List.mem_map.1 hc
    have hp := ascOf_props u a
    exact ⟨hp.2.1, hp.2.2.1, hp.2.2.2.2.1, hp.2.2.2.2.2.1, hp.2.2.2.2.2.2.1, hp.2.2.2.2.2.2.2.1⟩
  rw [pyInt_toAscii, toAsciiNum_digits u h, pyInt_plain u 10 hasc, scanDigits_asc u s 0 false h0]
  · simp
  · rw [toAsciiNum_digits u h, toAsciiNum_id u fun c hc => (hasc c hc).1]

/-! ## split and count -/

theorem splitC_none {c : Char} {s : Str} (h : c ∉ s) : splitC c s = [s] := by
  induction s with
  | nil => rfl
  | cons a r ih =>
    have : a ≠ c := fun e => h (by simp [e])
    simp [splitC, this, ih fun hr => h (by simp [hr])]

theorem splitC_one {c : Char} {a b : Str} (ha : c ∉ a) (hb : c ∉ b) : splitC c (a ++ c :: b) = [a, b] := by
  induction a with
  | nil => simp [splitC, splitC_none hb]
  | cons x r ih =>
    have : x ≠ c := fun e => ha (by simp [e])
    simp [splitC, this, ih fun hr => ha (by simp [hr])]

theorem removeC_none {c : Char} {s : Str} (h : c ∉ s) : removeC c s = s := by
  unfold removeC
  rw [List.filter_eq_self]
  intro a ha
  have : a ≠ c := fun e => h (e ▸ ha)
  simpa using this

theorem removeC_one {c : Char} {a b : Str} (ha : c ∉ a) (hb : c ∉ b) : removeC c (a ++ c :: b) = a ++ b := by
  have h1 := removeC_none ha
  have h2 := removeC_none hb
  unfold removeC at *
  rw [List.filter_append, List.filter_cons]
  simp [h1, h2]

theorem count_one_split {c : Char} {s : Str} (h : s.count c = 1) :
    ∃ a b, s = a ++ c :: b ∧ c ∉ a ∧ c ∉ b := by
  have hm : c ∈ s := List.count_pos_iff.1 (by omega)
  obtain ⟨a, b, rfl⟩ := List.append_of_mem hm
  rw [List.count_append, List.count_cons_self] at h
  exact ⟨a, b, rfl, List.count_eq_zero.1 (by omega), List.count_eq_zero.1 (by omega)⟩

theorem count_split {c : Char} {a b : Str} (ha : c ∉ a) (hb : c ∉ b) : (a ++ c :: b).count c = 1 := by
  rw [List.count_append, List.count_cons_self, List.count_eq_zero.2 ha, List.count_eq_zero.2 hb]

theorem dot_not_digit (u : UniDB) : (decVal u '.').isSome = false := by
  rw [decVal_ascii u (by decide)]; decide

theorem dot_not_mem (u : UniDB) {s : Str} (h : ∀ c ∈ s, (decVal u c).isSome = true) : '.' ∉ s := by
  intro hm
  have := h _ hm
  rw [dot_not_digit] at this; simp at this

/-! ## `float(s)` -/

theorem dropUnderscores_id {s : Str} (f : Bool) (h : ∀ c ∈ s, c ≠ '_') : dropUnderscores f s = some s := by
  induction s generalizing f with
  | nil => simp [dropUnderscores]
  | cons a r ih =>
    have := h a (by simp)
    simp [dropUnderscores, this, ih _ fun c hc => h c (by simp [hc])]

theorem takeWhile_all {α : Type} {p : α → Bool} {l : List α} (h : ∀ x ∈ l, p x = true) :
    l.takeWhile p = l ∧ l.dropWhile p = [] := by
  induction l with
  | nil => simp
  | cons a r ih =>
    have ha := h a (by simp)
    have := ih fun x hx => h x (by simp [hx])
    simp [ha, this.1, this.2]

theorem takeWhile_stop {α : Type} {p : α → Bool} {l : List α} {a : α} {r : List α} (h : ∀ x ∈ l, p x = true)
    (ha : p a = false) : (l ++ a :: r).takeWhile p = l ∧ (l ++ a :: r).dropWhile p = a :: r := by
  induction l with
  | nil => simp [ha]
  | cons b t ih =>
    have hb := h b (by simp)
    have := ih fun x hx => h x (by simp [hx])
    simp [hb, this.1, this.2]

theorem asc_all (u : UniDB) (s : Str) : ∀ c ∈ s.map (ascOf u), (asciiDigit c).isSome = true := by
  intro c hc
  obtain ⟨a, _, rfl⟩ := List.mem_map.1 hc
  rw [ascOf_digit]; rfl

theorem scanDecimal_int (u : UniDB) {s : Str} (h : s ≠ []) :
    scanDecimal (s.map (ascOf u)) = some (numeral u s : ℚ) := by
  unfold scanDecimal
  have := takeWhile_all (asc_all u s)
  simp only [this.1, this.2]
  have hne : (s.map (ascOf u)).isEmpty = false := by cases s <;> simp_all
  simp [hne, scanExp, digitsVal_asc]

theorem scanDecimal_frac (u : UniDB) {a b : Str} (h : a ++ b ≠ []) :
    scanDecimal (a.map (ascOf u) ++ '.' :: b.map (ascOf u)) =
      some ((numeral u (a ++ b) : ℚ) / 10 ^ b.length) := by
  unfold scanDecimal
  have h1 := takeWhile_stop (r := b.map (ascOf u)) (asc_all u a) (show (asciiDigit '.').isSome = false by decide)
  have h2 := takeWhile_all (asc_all u b)
  simp only [h1.1, h1.2, h2.1, h2.2]
  have hne : ((a.map (ascOf u)).isEmpty && (b.map (ascOf u)).isEmpty) = false := by
    cases a <;> cases b <;> simp_all
  rw [← List.map_append, digitsVal_asc]
  simp only [hne, scanExp, List.length_map]
  simp [zpow_neg, div_eq_mul_inv]

/-- characters that can appear in the ASCII form of an amount -/
def AmtChar (c : Char) : Prop := (asciiDigit c).isSome = true ∨ c = '.' ∨ c = '?'

theorem AmtChar.props {c : Char} (h : AmtChar c) :
    isAsciiSpace c = false ∧ c ≠ '_' ∧ c ≠ '-' ∧ c ≠ '+' ∧ lowerC c ≠ 'i' ∧ lowerC c ≠ 'n' ∧
    c ≠ 'e' ∧ c ≠ 'E' ∧ c.toNat < 128 := by
  rcases h with h | rfl | rfl
  · obtain ⟨d, hd⟩ := Option.isSome_iff_exists.1 h
    have hl := asciiDigit_lt hd
    rw [asciiDigit_char hd]
    revert hl; clear hd; revert d; decide +kernel
  · decide +kernel
  · decide +kernel

theorem pyFloat_amt (u : UniDB) {s t : Str} (ht : toAsciiNum u s = t) (h : ∀ c ∈ t, AmtChar c) :
    pyFloatStr u s = match scanDecimal t with
      | some q => .ok (rnd64 q)
      | none => .error .valueError := by
  unfold pyFloatStr
  rw [ht, stripWs_id fun c hc => (h c hc).props.1, dropUnderscores_id _ fun c hc => (h c hc).props.2.1]
  have hfl : scanFloat false t = match scanDecimal t with
      | some q => .ok (rnd64 q)
      | none => .error .valueError := by
    unfold scanFloat
    have h1 : ¬ (List.map lowerC t = py"inf" ∨ List.map lowerC t = py"infinity") := by
      intro hh
      cases t with
      | nil => simp at hh
      | cons c r =>
        have := (h c (by simp)).props
        rcases hh with hh | hh <;> simp at hh <;> exact this.2.2.2.2.1 hh.1
    have h2 : ¬ (List.map lowerC t = py"nan") := by
      intro hh
      cases t with
      | nil => simp at hh
      | cons c r =>
        have := (h c (by simp)).props
        simp at hh; exact this.2.2.2.2.2.1 hh.1
    simp only [h1, h2, if_false]
    rfl
  cases t with
  | nil => simpa using hfl
  | cons c r =>
    have := (h c (by simp)).props
    rw [← hfl]
    split
    · simp_all
    · rename_i hh; simp at hh; exact absurd hh.1 this.2.2.1
    · rename_i hh; simp at hh; exact absurd hh.1 this.2.2.2.1
    · rename_i hh; simp at hh; rw [hh]

theorem scanExp_nil {s : Str} {n : Int} (h : ∀ c ∈ s, c ≠ 'e' ∧ c ≠ 'E') (hs : scanExp s = some n) : s = [] := by
  cases s with
  | nil => rfl
  | cons c r =>
    have := h c (by simp)
    simp [scanExp, this.1, this.2] at hs

theorem dropWhile_nil {α : Type} {p : α → Bool} {l : List α} (h : l.dropWhile p = []) : ∀ x ∈ l, p x = true := by
  simpa using h

theorem scanDecimal_chars {t : Str} {q : ℚ} (h : ∀ c ∈ t, AmtChar c) (hs : scanDecimal t = some q) :
    ∀ c ∈ t, (asciiDigit c).isSome = true ∨ c = '.' := by
  have hsub : ∀ c ∈ t.dropWhile (fun c => (asciiDigit c).isSome), c ∈ t := fun c hc =>
    (List.dropWhile_sublist _).subset hc
  have hne : ∀ c ∈ t, c ≠ 'e' ∧ c ≠ 'E' := fun c hc => ⟨(h c hc).props.2.2.2.2.2.2.1, (h c hc).props.2.2.2.2.2.2.2.1⟩
  unfold scanDecimal at hs
  have hsplit := List.takeWhile_append_dropWhile (p := fun c => (asciiDigit c).isSome) (l := t)
  simp only at hs
  split at hs
  · rename_i r2 hr2
    split at hs
    · simp at hs
    · simp only [Option.map_eq_some_iff] at hs
      obtain ⟨n, hn, _⟩ := hs
      have hr2m : ∀ c ∈ r2, c ∈ t := fun c hc => hsub c (by rw [hr2]; simp [hc])
      have := scanExp_nil (fun c hc => hne c (hr2m c ((List.dropWhile_sublist _).subset hc))) hn
      have h3 := dropWhile_nil this
      intro c hc
      rw [← hsplit, hr2] at hc
      simp only [List.mem_append, List.mem_cons] at hc
      rcases hc with hc | hc | hc
      · left; exact List.mem_takeWhile_imp (p := fun c => (asciiDigit c).isSome) hc
      · right; exact hc
      · left; exact h3 c hc
  · split at hs
    · simp at hs
    · simp only [Option.map_eq_some_iff] at hs
      obtain ⟨n, hn, _⟩ := hs
      have := scanExp_nil (fun c hc => hne c (hsub c hc)) hn
      have h3 := dropWhile_nil this
      exact fun c hc => .inl (h3 c hc)

/-! ## the amount check -/

/-- the value in bitcoin of a well-formed amount -/
theorem pyFloat_ok (u : UniDB) {s ip fp : Str} (hs : s = ip ++ '.' :: fp ∨ (s = ip ∧ fp = []))
    (hne : ip ++ fp ≠ []) (hd : ∀ c ∈ ip ++ fp, (decVal u c).isSome = true) :
    pyFloatStr u s = .ok (rnd64 ((numeral u (ip ++ fp) : ℚ) / 10 ^ fp.length)) := by
  have hi : ∀ c ∈ ip, (decVal u c).isSome = true := fun c hc => hd c (by simp [hc])
  have hf : ∀ c ∈ fp, (decVal u c).isSome = true := fun c hc => hd c (by simp [hc])
  rcases hs with rfl | ⟨rfl, rfl⟩
  · have ht : toAsciiNum u (ip ++ '.' :: fp) = ip.map (ascOf u) ++ '.' :: fp.map (ascOf u) := by
      rw [toAsciiNum_append, toAsciiNum_dot, toAsciiNum_digits u hi, toAsciiNum_digits u hf]
    rw [pyFloat_amt u ht, scanDecimal_frac u hne]
    intro c hc
    simp only [List.mem_append, List.mem_cons] at hc
    rcases hc with hc | hc | hc
    · exact .inl (asc_all u _ c hc)
    · exact .inr (.inl hc)
    · exact .inl (asc_all u _ c hc)
  · simp only [List.append_nil] at hne hd ⊢
    rw [pyFloat_amt u (toAsciiNum_digits u hd), scanDecimal_int u hne]
    · simp
    · exact fun c hc => .inl (asc_all u _ c hc)

/-- `float(s)` fails if some character is a digit without decimal value -/
theorem pyFloat_bad (u : UniDB) {s : Str} {f : PyFloat} (h : ∀ c ∈ removeC '.' s, isDigitChar u c = true)
    (hf : pyFloatStr u s = .ok f) : ∀ c ∈ removeC '.' s, (decVal u c).isSome = true := by
  have hm : ∀ c ∈ s, c = '.' ∨ isDigitChar u c = true := by
    intro c hc
    by_cases h' : c = '.'
    · exact .inl h'
    · exact .inr (h c (by simp [removeC, hc, h']))
  have key : ∀ c ∈ s, c ≠ '.' → (decVal u c).isSome = false →
      asciiNumChar u c = '?' := by
    intro c hc hdot hn
    unfold asciiNumChar
    have hdig := (hm c hc).resolve_left hdot
    unfold isDigitChar at hdig
    unfold decVal at hn
    by_cases hc : c.toNat < 128
    · rw [if_pos hc] at hdig hn; simp_all
    · rw [if_neg hc] at hdig hn ⊢
      have hnone : u.decimal c = none := by
        cases hd : u.decimal c with
        | none => rfl
        | some d => rw [hd] at hn; simp at hn
      rw [hnone] at hdig ⊢
      simp only [Option.isSome_none, Bool.false_or] at hdig
      simp [u.digit_not_space c hdig]
  have hamt : ∀ c ∈ toAsciiNum u s, AmtChar c := by
    intro c hc
    obtain ⟨a, ha, rfl⟩ := List.mem_map.1 hc
    by_cases hdot : a = '.'
    · subst hdot
      have : '.'.toNat < 128 := by decide
      unfold asciiNumChar
      rw [if_pos this]; exact .inr (.inl rfl)
    · by_cases hn : (decVal u a).isSome = true
      · rw [toAsciiNum_digit u hn]
        left; rw [ascOf_digit]; rfl
      · right; right; exact key a ha hdot (by simpa using hn)
  rw [pyFloat_amt u rfl hamt] at hf
  cases hsc : scanDecimal (toAsciiNum u s) with
  | none => rw [hsc] at hf; simp at hf
  | some q =>
    have hchars := scanDecimal_chars hamt hsc
    intro c hc
    simp only [removeC, List.mem_filter, bne_iff_ne, ne_eq] at hc
    by_contra hn
    have h1 := key c hc.1 hc.2 (by simpa using hn)
    have h2 := hchars '?' (by rw [← h1]; exact List.mem_map.2 ⟨c, hc.1, rfl⟩)
    revert h2; decide

/-- the sharp comparison against 21 million in floats -/
theorem cap_exact {n k : Nat} (hk : k ≤ 8) :
    ((PyFloat.fin ((21000000 : ℤ) : ℚ)).lt (rnd64 ((n : ℚ) / 10 ^ k)) = true) ↔ 2100000000000000 < n * 10 ^ (8 - k) := by
  rw [rnd64_le_iff (by positivity) (by norm_num) (by norm_num)]
  have e : ((n : ℚ) / 10 ^ k) = ((n * 10 ^ (8 - k) : ℕ) : ℚ) / 10 ^ 8 := by
    push_cast
    rw [div_eq_div_iff (by positivity) (by positivity), mul_assoc, ← pow_add]
    congr 2; omega
  rw [e]
  set m := n * 10 ^ (8 - k)
  constructor
  · intro h
    by_contra hc
    have h1 : ((m : ℕ) : ℚ) / 10 ^ 8 ≤ ((21000000 : ℤ) : ℚ) := by
      rw [div_le_iff₀ (by positivity)]
      have : (m : ℚ) ≤ 2100000000000000 := by exact_mod_cast not_lt.1 hc
      push_cast; linarith
    have h2 := rndQ_mono h1
    rw [rndQ_int (by norm_num)] at h2
    linarith
  · intro h
    have h1 : ((2100000000000001 : ℚ) / 10 ^ 8) ≤ ((m : ℕ) : ℚ) / 10 ^ 8 := by
      have : (2100000000000001 : ℚ) ≤ m := by exact_mod_cast h
      gcongr
    have h2 := rndQ_mono h1
    have h3 : ((21000000 : ℤ) : ℚ) < rndQ ((2100000000000001 : ℚ) / 10 ^ 8) := by decide +kernel
    linarith

theorem ofInt_21e6 : PyFloat.ofInt (21 * 10 ^ 6) = .ok (.fin ((21000000 : ℤ) : ℚ)) := by
  have h := ofInt_small (n := 21000000) (by norm_num)
  norm_num at h ⊢; exact h

theorem vBitcoinAmount_ok (u : UniDB) {s : Str} {x : Unit} :
    vBitcoinAmount u s = .ok x ↔ ∃ sat, AmountOf u s sat ∧ sat ≤ maxMoney := by
  constructor
  · intro h
    unfold vBitcoinAmount at h
    simp only [ofInt_21e6] at h
    have hfloat : ∀ {f : PyFloat} {sat : Nat} {ip fp : Str}, (s = ip ++ '.' :: fp ∨ (s = ip ∧ fp = [])) →
        ip ++ fp = removeC '.' s → fp.length ≤ 8 → isDigitStr u (removeC '.' s) = true →
        pyFloatStr u s = .ok f →
        (PyFloat.fin ((21000000 : ℤ) : ℚ)).lt f = false → ∃ sat, AmountOf u s sat ∧ sat ≤ maxMoney := by
      intro f sat ip fp hs hrem h8 hdig hf hlt
      simp only [isDigitStr, Bool.and_eq_true, Bool.not_eq_true', List.all_eq_true] at hdig
      have hd := pyFloat_bad u hdig.2 hf
      rw [← hrem] at hd hdig
      have hne : ip ++ fp ≠ [] := by
        intro h0; rw [h0] at hdig; simp at hdig
      refine ⟨_, ⟨ip, fp, hs, hne, h8, hd, rfl⟩, ?_⟩
      rw [pyFloat_ok u hs hne hd] at hf
      simp only [Except.ok.injEq] at hf
      subst hf
      by_contra hc
      have := (cap_exact h8).2 (not_le.1 hc)
      rw [this] at hlt; simp at hlt
    by_cases hc0 : s.count '.' = 0
    · have hnd : '.' ∉ s := List.count_eq_zero.1 hc0
      simp only [hc0] at h
      simp only [true_or, not_true, if_false, zero_ne_one, R_pure, R_bind_ok, raise_eq] at h
      split at h
      · simp at h
      · rename_i hdig
        simp only [R_bind_eq_ok] at h
        obtain ⟨f, hf, h⟩ := h
        split at h
        · simp at h
        · split at h
          · simp at h
          · rename_i h21
            exact hfloat (sat := 0) (ip := s) (fp := []) (.inr ⟨rfl, rfl⟩) (by rw [removeC_none hnd]; simp) (by simp)
              (by simpa using hdig) hf (by simpa using h21)
    · by_cases hc1 : s.count '.' = 1
      · obtain ⟨ip, fp, rfl, hi, hf⟩ := count_one_split hc1
        simp only [hc1, splitC_one hi hf] at h
        simp only [or_true, not_true, if_false, if_true, R_pure, R_bind_ok, raise_eq, List.getElem?_cons_succ,
          List.getElem?_cons_zero] at h
        split at h
        · simp at h
        · rename_i hdig
          split at h
          · simp at h
          · rename_i h8
            simp only [R_bind_ok, R_bind_eq_ok] at h
            obtain ⟨f, hfl, h⟩ := h
            split at h
            · simp at h
            · split at h
              · simp at h
              · rename_i h21
                exact hfloat (sat := 0) (ip := ip) (fp := fp) (.inl rfl) (by rw [removeC_one hi hf]) (by omega)
                  (by simpa using hdig) hfl (by simpa using h21)
      · simp [hc0, hc1] at h
  · rintro ⟨sat, ⟨ip, fp, hs, hne, h8, hd, rfl⟩, hmax⟩
    have hfl := pyFloat_ok u hs hne hd
    have hi : '.' ∉ ip := dot_not_mem u fun c hc => hd c (by simp [hc])
    have hf : '.' ∉ fp := dot_not_mem u fun c hc => hd c (by simp [hc])
    have hcap : (PyFloat.fin ((21000000 : ℤ) : ℚ)).lt (rnd64 ((numeral u (ip ++ fp) : ℚ) / 10 ^ fp.length)) = false := by
      rw [Bool.eq_false_iff]
      intro hh
      have := (cap_exact h8).1 hh
      unfold maxMoney at hmax; omega
    have hneg : (rnd64 ((numeral u (ip ++ fp) : ℚ) / 10 ^ fp.length)).lt (.fin 0) = false :=
      rnd64_not_neg (by positivity)
    have hdig : isDigitStr u (ip ++ fp) = true := by
      simp only [isDigitStr, Bool.and_eq_true, Bool.not_eq_true', List.all_eq_true]
      refine ⟨by simpa using hne, fun c hc => ?_⟩
      have := hd c hc
      unfold decVal at this; unfold isDigitChar
      split <;> simp_all
    unfold vBitcoinAmount
    simp only [ofInt_21e6, hfl]
    rcases hs with rfl | ⟨rfl, rfl⟩
    · simp only [count_split hi hf, splitC_one hi hf, removeC_one hi hf, hdig, hcap, hneg]
      norm_num at hcap
      simp [not_lt.2 h8, hcap, hneg]
    · simp only [List.append_nil] at hdig hcap hneg ⊢
      simp only [List.count_eq_zero.2 hi, removeC_none hi, hdig]
      norm_num at hcap hneg
      simp [hcap, hneg]

theorem pyFloat_VE (u : UniDB) (s : Str) : VE (pyFloatStr u s) := by
  have h : ∀ neg r, VE (scanFloat neg r) := by
    intro neg r
    unfold scanFloat
    refine VE.ite (fun _ => VE.ok _) fun _ => VE.ite (fun _ => VE.ok _) fun _ => ?_
    split
    · exact VE.ok _
    · exact VE.err
  unfold pyFloatStr
  split
  · exact VE.err
  · exact h _ _
  · exact h _ _
  · exact h _ _

theorem vBitcoinAmount_VE (u : UniDB) (s : Str) : VE (vBitcoinAmount u s) := by
  unfold vBitcoinAmount
  simp only [ofInt_21e6, R_bind_ok, R_pure, raise_eq, R_bind_err]
  have hfin : VE (do
      let f ← pyFloatStr u s
      if f.lt (PyFloat.fin 0) = true then (Except.error Err.valueError : R Unit)
      else if (PyFloat.fin ((21000000 : ℤ) : ℚ)).lt f = true then Except.error Err.valueError else Except.ok ()) := by
    refine VE.bind (pyFloat_VE u s) fun f _ => ?_
    refine VE.ite (fun _ => VE.err) fun _ => VE.ite (fun _ => VE.err) fun _ => VE.ok _
  refine VE.ite (fun _ => VE.err) fun hc => VE.ite (fun _ => VE.err) fun _ => VE.ite (fun hc1 => ?_) fun _ => ?_
  · obtain ⟨a, b, rfl, ha, hb⟩ := count_one_split hc1
    simp only [splitC_one ha hb, List.getElem?_cons_succ, List.getElem?_cons_zero]
    refine VE.ite (fun _ => VE.err) fun _ => ?_
    exact hfin
  · exact hfin

theorem AmountOf_unique {u : UniDB} {s : Str} {a b : Nat} (ha : AmountOf u s a) (hb : AmountOf u s b) : a = b := by
  obtain ⟨ip, fp, hs, _, _, hd, rfl⟩ := ha
  obtain ⟨ip', fp', hs', _, _, hd', rfl⟩ := hb
  have h1 : '.' ∉ ip := dot_not_mem u fun c hc => hd c (by simp [hc])
  have h2 : '.' ∉ fp := dot_not_mem u fun c hc => hd c (by simp [hc])
  have h3 : '.' ∉ ip' := dot_not_mem u fun c hc => hd' c (by simp [hc])
  have h4 : '.' ∉ fp' := dot_not_mem u fun c hc => hd' c (by simp [hc])
  have key : ip = ip' ∧ fp = fp' := by
    rcases hs with hs | ⟨hs, rfl⟩ <;> rcases hs' with hs' | ⟨hs', rfl⟩
    · have e := congrArg (splitC '.') (hs.symm.trans hs')
      rw [splitC_one h1 h2, splitC_one h3 h4] at e
      simpa using e
    · rw [← hs', hs] at h3; simp at h3
    · rw [← hs, hs'] at h1; simp at h1
    · exact ⟨hs.symm.trans hs', rfl⟩
  rw [key.1, key.2]

/-- the digits of an amount with the point removed and zeros added -/
theorem bitcoinToSatoshi_digits (u : UniDB) {s ip fp : Str} (hs : s = ip ++ '.' :: fp ∨ (s = ip ∧ fp = []))
    (hne : ip ++ fp ≠ []) (h8 : fp.length ≤ 8) (hd : ∀ c ∈ ip ++ fp, (decVal u c).isSome = true)
    (hmax : numeral u (ip ++ fp) * 10 ^ (8 - fp.length) ≤ maxMoney) :
    bitcoinToSatoshi u s = (do
      let n ← pyInt u 10 (lstripC '0' (ip ++ fp ++ List.replicate (8 - fp.length) '0'))
      vWholeNumber (.int n)
      pure n) := by
  have hok : vBitcoinAmount u s = .ok () :=
    (vBitcoinAmount_ok u).2 ⟨_, ⟨ip, fp, hs, hne, h8, hd, rfl⟩, hmax⟩
  have hi : '.' ∉ ip := dot_not_mem u fun c hc => hd c (by simp [hc])
  have hf : '.' ∉ fp := dot_not_mem u fun c hc => hd c (by simp [hc])
  unfold bitcoinToSatoshi
  simp only [hok, R_bind_ok]
  rcases hs with rfl | ⟨rfl, rfl⟩
  · simp only [count_split hi hf, splitC_one hi hf, removeC_one hi hf]
    have : ((8 : ℤ) - (fp.length : ℤ)).toNat = 8 - fp.length := by omega
    simp only [this]
    rfl
  · simp only [List.count_eq_zero.2 hi]
    simp only [List.append_nil, List.length_nil]
    rfl

theorem numeral_lstrip (u : UniDB) (s : Str) : numeral u (lstripC '0' s) = numeral u s := by
  unfold lstripC
  induction s with
  | nil => rfl
  | cons c r ih =>
    by_cases hc : c = '0'
    · subst hc
      simp only [List.dropWhile_cons_of_pos, beq_self_eq_true, numeral, decVal_zero, Option.getD_some, zero_mul, zero_add]
      exact ih
    · rw [List.dropWhile_cons_of_neg (by simpa using hc)]

theorem lstrip_eq_nil {s : Str} : lstripC '0' s = [] ↔ ∀ c ∈ s, c = '0' := by
  unfold lstripC; simp

theorem vWholeNumber_nat (n : Nat) : vWholeNumber (.int (n : Int)) = .ok () := by
  unfold vWholeNumber vPositiveInteger vInteger
  simp only [PVal.eqInt, PVal.asInt]
  by_cases h : n = 0
  · simp [h]
  · have : ¬ ((n : Int) < 1) := by omega
    simp [h]

/-- `bitcoin_to_satoshi` on a well-formed amount within the cap -/
theorem bitcoinToSatoshi_amount (u : UniDB) {s : Str} {sat : Nat} (h : AmountOf u s sat) (hm : sat ≤ maxMoney) :
    bitcoinToSatoshi u s = if (∀ c ∈ s, c = '0' ∨ c = '.') then .error .valueError else .ok (sat : Int) := by
  obtain ⟨ip, fp, hs, hne, h8, hd, rfl⟩ := h
  rw [bitcoinToSatoshi_digits u hs hne h8 hd hm]
  have hi : '.' ∉ ip := dot_not_mem u fun c hc => hd c (by simp [hc])
  have hf : '.' ∉ fp := dot_not_mem u fun c hc => hd c (by simp [hc])
  have hall : (∀ c ∈ s, c = '0' ∨ c = '.') ↔ ∀ c ∈ ip ++ fp ++ List.replicate (8 - fp.length) '0', c = '0' := by
    have hmem : ∀ c, c ∈ s ↔ (c ∈ ip ∨ c ∈ fp ∨ (c = '.' ∧ s ≠ ip)) := by
      intro c
      rcases hs with rfl | ⟨rfl, rfl⟩
      · simp; tauto
      · simp
    constructor
    · intro h c hc
      simp only [List.mem_append, List.mem_replicate] at hc
      rcases hc with (hc | hc) | hc
      · exact (h c ((hmem c).2 (.inl hc))).resolve_right fun e => hi (e ▸ hc)
      · exact (h c ((hmem c).2 (.inr (.inl hc)))).resolve_right fun e => hf (e ▸ hc)
      · exact hc.2
    · intro h c hc
      rcases (hmem c).1 hc with hc | hc | hc
      · exact .inl (h c (by simp [hc]))
      · exact .inl (h c (by simp [hc]))
      · exact .inr hc.1
  have hdall : ∀ c ∈ ip ++ fp ++ List.replicate (8 - fp.length) '0', (decVal u c).isSome = true := by
    intro c hc
    rcases List.mem_append.1 hc with hc | hc
    · exact hd c hc
    · rw [List.eq_of_mem_replicate hc, decVal_zero]; rfl
  by_cases hz : ∀ c ∈ s, c = '0' ∨ c = '.'
  · rw [if_pos hz, lstrip_eq_nil.2 (hall.1 hz)]
    simp
  · rw [if_neg hz, pyInt_digits u (fun e => hz (hall.2 (lstrip_eq_nil.1 e)))
      (fun c hc => hdall c ((List.dropWhile_sublist _).subset hc)), numeral_lstrip,
      numeral_append, numeral_zeros]
    simp only [R_bind_ok, List.length_replicate, add_zero]
    rw [vWholeNumber_nat]
    rfl

theorem bitcoinToSatoshi_ok (u : UniDB) {s : Str} {n : Int} :
    bitcoinToSatoshi u s = .ok n ↔
      ∃ sat : Nat, AmountOf u s sat ∧ sat ≤ maxMoney ∧ n = sat ∧ ∃ c ∈ s, c ≠ '0' ∧ c ≠ '.' := by
  constructor
  · intro h
    have hv : vBitcoinAmount u s = .ok () := by
      unfold bitcoinToSatoshi at h
      rw [R_bind_eq_ok] at h
      obtain ⟨_, h, _⟩ := h
      exact h
    obtain ⟨sat, hs, hm⟩ := (vBitcoinAmount_ok u).1 hv
    rw [bitcoinToSatoshi_amount u hs hm] at h
    by_cases hz : ∀ c ∈ s, c = '0' ∨ c = '.'
    · rw [if_pos hz] at h; simp at h
    · rw [if_neg hz] at h
      simp only [Except.ok.injEq] at h
      push Not at hz
      exact ⟨sat, hs, hm, h.symm, hz⟩
  · rintro ⟨sat, hs, hm, rfl, c, hc, h0, hd⟩
    rw [bitcoinToSatoshi_amount u hs hm, if_neg]
    intro h
    rcases h c hc with h | h <;> contradiction

theorem bitcoinToSatoshi_err (u : UniDB) {s : Str} (h : ∀ n, bitcoinToSatoshi u s ≠ .ok n) :
    bitcoinToSatoshi u s = .error .valueError := by
  cases hv : vBitcoinAmount u s with
  | error e =>
    have := vBitcoinAmount_VE u s e hv
    unfold bitcoinToSatoshi; rw [hv, this]; rfl
  | ok x =>
    obtain ⟨sat, hs, hm⟩ := (vBitcoinAmount_ok u).1 hv
    have := bitcoinToSatoshi_amount u hs hm
    rw [this] at h ⊢
    split at h
    · rename_i hc; rw [if_pos hc]
    · exact absurd rfl (h _)

/-! ## positive amounts -/

theorem vPositive_ok (u : UniDB) {s : Str} {x : Unit} :
    vPositiveBitcoinAmount u s = .ok x ↔
      ∃ sat : Nat, AmountOf u s sat ∧ sat ≤ maxMoney ∧ ∃ c ∈ s, c ≠ '0' ∧ c ≠ '.' := by
  unfold vPositiveBitcoinAmount
  have hrem : removeC '0' (removeC '.' s) = [] ↔ ∀ c ∈ s, c = '0' ∨ c = '.' := by
    unfold removeC
    simp only [List.filter_eq_nil_iff, List.mem_filter, bne_iff_ne, ne_eq, not_not]
    constructor
    · intro h c hc
      by_cases hd : c = '.'
      · exact .inr hd
      · exact .inl (h c ⟨hc, hd⟩)
    · rintro h c ⟨hc, hd⟩
      exact (h c hc).resolve_right hd
  simp only [hrem, raise_eq, R_pure, R_bind_err, R_bind_ok, ite_err_eq_ok, vBitcoinAmount_ok]
  push Not
  constructor
  · rintro ⟨h1, sat, h2, h3⟩; exact ⟨sat, h2, h3, h1⟩
  · rintro ⟨sat, h2, h3, h1⟩; exact ⟨h1, sat, h2, h3⟩

theorem vPositive_VE (u : UniDB) (s : Str) : VE (vPositiveBitcoinAmount u s) := by
  unfold vPositiveBitcoinAmount
  exact VE.ite (fun _ => VE.err) fun _ => vBitcoinAmount_VE u s

/-- in ASCII the only zero digit is '0' -/
theorem ascii_zero {u : UniDB} {s : Str} {sat : Nat} (h : AmountOf u s sat) (ha : Ascii s) :
    sat = 0 ↔ ∀ c ∈ s, c = '0' ∨ c = '.' := by
  obtain ⟨ip, fp, hs, hne, h8, hd, rfl⟩ := h
  have hsub : ∀ c ∈ ip ++ fp, c ∈ s := by
    rcases hs with rfl | ⟨rfl, rfl⟩
    · intro c hc; simp at hc ⊢; tauto
    · simp
  have hsup : ∀ c ∈ s, c ∈ ip ++ fp ∨ c = '.' := by
    rcases hs with rfl | ⟨rfl, rfl⟩
    · intro c hc; simp at hc ⊢; tauto
    · simp; tauto
  have hz : ∀ c ∈ ip ++ fp, (decVal u c = some 0 ↔ c = '0') := by
    intro c hc
    constructor
    · intro h
      rw [decVal_ascii u (ha c (hsub c hc))] at h
      exact asciiDigit_char h
    · rintro rfl; exact decVal_zero u
  rw [mul_eq_zero, or_iff_left (by positivity), numeral_eq_zero u hd]
  constructor
  · intro h c hc
    rcases hsup c hc with hm | hm
    · exact .inl ((hz c hm).1 (h c hm))
    · exact .inr hm
  · intro h c hc
    refine (hz c hc).2 ((h c (hsub c hc)).resolve_right ?_)
    rintro rfl
    have := hd _ hc
    rw [dot_not_digit] at this; simp at this

/-! ## `satoshi_to_bitcoin` -/

theorem numeral_digits (u : UniDB) (l : List Nat) (h : ∀ d ∈ l, d < 10) :
    numeral u ((l.map digitChar).reverse) = Nat.ofDigits 10 l := by
  induction l with
  | nil => rfl
  | cons d r ih =>
    have hd := h d (by simp)
    have hp := digitChar_props hd
    simp only [List.map_cons, List.reverse_cons]
    rw [numeral_append, ih fun x hx => h x (by simp [hx]), Nat.ofDigits_cons]
    simp only [List.length_cons, List.length_nil, numeral]
    rw [decVal_ascii u hp.2.1, hp.1]
    simp; ring

theorem natDigits_numeral (u : UniDB) (n : Nat) : numeral u (natDigits 10 n) = n := by
  unfold natDigits
  split
  · rename_i h; subst h
    simp [numeral, decVal_zero]
  · rw [numeral_digits u _ fun d hd => Nat.digits_lt_base (by norm_num) hd, Nat.ofDigits_digits]

/-- an ASCII decimal digit -/
def IsDig (c : Char) : Prop := ∃ d < 10, c = digitChar d

theorem natDigits_dig (n : Nat) : ∀ c ∈ natDigits 10 n, IsDig c := by
  intro c hc
  unfold natDigits at hc
  split at hc
  · simp at hc; exact ⟨0, by norm_num, by rw [hc]; decide⟩
  · simp only [List.mem_reverse, List.mem_map] at hc
    obtain ⟨d, hd, rfl⟩ := hc
    exact ⟨d, Nat.digits_lt_base (by norm_num) hd, rfl⟩

theorem IsDig.decVal {u : UniDB} {c : Char} (h : IsDig c) : (decVal u c).isSome = true := by
  obtain ⟨d, hd, rfl⟩ := h
  have hp := digitChar_props hd
  rw [decVal_ascii u hp.2.1, hp.1]; rfl

theorem IsDig.ascii {c : Char} (h : IsDig c) : c.toNat < 128 := by
  obtain ⟨d, hd, rfl⟩ := h
  exact (digitChar_props hd).2.1

theorem natDigits_ne_nil (n : Nat) : natDigits 10 n ≠ [] := by
  unfold natDigits
  split
  · simp
  · rename_i h
    simp [Nat.digits_ne_nil_iff_ne_zero.2 h]

theorem natDigits_head (n : Nat) (h : n ≠ 0) : (natDigits 10 n).head? ≠ some '0' := by
  unfold natDigits
  rw [if_neg h, List.head?_reverse, List.getLast?_map]
  intro hh
  rw [Option.map_eq_some_iff] at hh
  obtain ⟨d, hd, h0⟩ := hh
  have hl := List.getLast?_eq_some_getLast (Nat.digits_ne_nil_iff_ne_zero.2 h) (l := Nat.digits 10 n)
  rw [hd] at hl
  have hne := Nat.getLast_digit_ne_zero 10 h
  have hlt : d < 10 := Nat.digits_lt_base (by norm_num : 1 < 10) (List.mem_of_getLast? hd)
  have : d = 0 := ((digitChar_props hlt).2.2.2.2.2.2.2.2.2.2.2.2.2.1).1 h0
  simp only [Option.some.injEq] at hl
  exact hne (hl ▸ this)

theorem natDigits_length_lt {n k : Nat} (hk : 0 < k) : (natDigits 10 n).length ≤ k ↔ n < 10 ^ k := by
  unfold natDigits
  split
  · rename_i h; subst h; simp; omega
  · simp only [List.length_reverse, List.length_map]
    exact Nat.digits_length_le_iff (by norm_num) n

/-- the text printed by `satoshi_to_bitcoin` -/
def btcText (n : Nat) : Str :=
  natDigits 10 (n / 10 ^ 8) ++ '.' ::
    (List.replicate (8 - (natDigits 10 (n % 10 ^ 8)).length) '0' ++ natDigits 10 (n % 10 ^ 8))

theorem numeral_inj (u : UniDB) {a b : Str} (hl : a.length = b.length) (ha : ∀ c ∈ a, IsDig c)
    (hb : ∀ c ∈ b, IsDig c) (h : numeral u a = numeral u b) : a = b := by
  induction a generalizing b with
  | nil => simp at hl; exact (List.length_eq_zero_iff.1 hl.symm).symm
  | cons x r ih =>
    cases b with
    | nil => simp at hl
    | cons y t =>
      simp only [List.length_cons, add_left_inj] at hl
      simp only [numeral] at h
      have h1 := numeral_lt u r
      have h2 := numeral_lt u t
      rw [← hl] at h2 h
      have e := getD_lt u x
      have e' := getD_lt u y
      have hdx : (decVal u x).getD 0 = (decVal u y).getD 0 := by
        have p := pow_pos (by norm_num : 0 < 10) r.length
        have a1 : ((decVal u x).getD 0 * 10 ^ r.length + numeral u r) / 10 ^ r.length = (decVal u x).getD 0 := by
          rw [add_comm, Nat.add_mul_div_right _ _ p, Nat.div_eq_of_lt h1, zero_add]
        have a2 : ((decVal u y).getD 0 * 10 ^ r.length + numeral u t) / 10 ^ r.length = (decVal u y).getD 0 := by
          rw [add_comm, Nat.add_mul_div_right _ _ p, Nat.div_eq_of_lt h2, zero_add]
        rw [← a1, h, a2]
      have hxy : x = y := by
        obtain ⟨d, hd, rfl⟩ := ha x (by simp)
        obtain ⟨d', hd', rfl⟩ := hb y (by simp)
        rw [decVal_ascii u (digitChar_props hd).2.1, decVal_ascii u (digitChar_props hd').2.1,
          (digitChar_props hd).1, (digitChar_props hd').1] at hdx
        simpa using congrArg digitChar hdx
      rw [hdx] at h
      rw [hxy, ih hl (fun c hc => ha c (by simp [hc])) (fun c hc => hb c (by simp [hc])) (by omega)]

theorem isDig_zero : IsDig '0' := ⟨0, by norm_num, by decide⟩

theorem btcText_ip (n : Nat) : ∃ ip fp : Str, btcText n = ip ++ '.' :: fp ∧ fp.length = 8 ∧ ip ≠ [] ∧
    (∀ c ∈ ip ++ fp, IsDig c) ∧ (∀ u, numeral u (ip ++ fp) = n) ∧ (ip = ['0'] ∨ ip.head? ≠ some '0') := by
  have hlen : (natDigits 10 (n % 10 ^ 8)).length ≤ 8 :=
    (natDigits_length_lt (by norm_num)).2 (Nat.mod_lt _ (by norm_num))
  refine ⟨_, _, rfl, ?_, natDigits_ne_nil _, ?_, ?_, ?_⟩
  · simp only [List.length_append, List.length_replicate]; omega
  · intro c hc
    simp only [List.mem_append, List.mem_replicate] at hc
    rcases hc with hc | hc | hc
    · exact natDigits_dig _ c hc
    · rw [hc.2]; exact isDig_zero
    · exact natDigits_dig _ c hc
  · intro u
    rw [numeral_append, numeral_append, numeral_zeros, natDigits_numeral, natDigits_numeral]
    have : (List.replicate (8 - (natDigits 10 (n % 10 ^ 8)).length) '0' ++ natDigits 10 (n % 10 ^ 8)).length = 8 := by
      simp only [List.length_append, List.length_replicate]; omega
    rw [this]
    omega
  · by_cases h : n / 10 ^ 8 = 0
    · left; rw [h]; rfl
    · right; exact natDigits_head _ h

theorem btcText_amount (u : UniDB) (n : Nat) : AmountOf u (btcText n) n := by
  obtain ⟨ip, fp, h1, h2, h3, h4, h5, _⟩ := btcText_ip n
  refine ⟨ip, fp, .inl h1, by simp [h3], by omega, fun c hc => (h4 c hc).decVal, ?_⟩
  rw [h5 u, h2]; simp

theorem btcText_ascii (n : Nat) : Ascii (btcText n) := by
  obtain ⟨ip, fp, h1, h2, h3, h4, h5, _⟩ := btcText_ip n
  intro c hc
  rw [h1] at hc
  simp only [List.mem_append, List.mem_cons] at hc
  rcases hc with hc | hc | hc
  · exact (h4 c (by simp [hc])).ascii
  · rw [hc]; decide
  · exact (h4 c (by simp [hc])).ascii

/-- what the code computes is that text -/
theorem satoshi_text (n : Nat) :
    (if (natDigits 10 n).length ≤ 8 then py"0." ++ (List.replicate (8 - (natDigits 10 n).length) '0' ++ natDigits 10 n)
      else dropLastK 8 (natDigits 10 n) ++ py"." ++ lastK 8 (natDigits 10 n)) = btcText n := by
  split
  · rename_i h
    have hlt := (natDigits_length_lt (by norm_num)).1 h
    unfold btcText
    rw [Nat.div_eq_of_lt hlt, Nat.mod_eq_of_lt hlt]
    rfl
  · rename_i h
    -- compare by value
    let u : UniDB := ⟨fun _ => none, fun _ => false, fun _ => false, fun _ _ => rfl⟩
    have hge : 10 ^ 8 ≤ n := by
      by_contra hc
      exact h ((natDigits_length_lt (by norm_num)).2 (not_le.1 hc))
    set s := natDigits 10 n with hs
    have hsplit : dropLastK 8 s ++ lastK 8 s = s := List.take_append_drop _ _
    have hlast : (lastK 8 s).length = 8 := by simp [lastK]; omega
    have hv : numeral u s = n := natDigits_numeral u n
    rw [← hsplit, numeral_append, hlast] at hv
    have hl2 := numeral_lt u (lastK 8 s)
    rw [hlast] at hl2
    have hq : n / 10 ^ 8 = numeral u (dropLastK 8 s) := by omega
    have hr : n % 10 ^ 8 = numeral u (lastK 8 s) := by omega
    have hdl : ∀ c ∈ lastK 8 s, IsDig c := fun c hc => natDigits_dig n c (List.mem_of_mem_drop hc)
    have hdd : ∀ c ∈ dropLastK 8 s, IsDig c := fun c hc => natDigits_dig n c (List.mem_of_mem_take hc)
    obtain ⟨fpl, hfp⟩ : ∃ k, k = 8 - (natDigits 10 (n % 10 ^ 8)).length := ⟨_, rfl⟩
    have hlen : (natDigits 10 (n % 10 ^ 8)).length ≤ 8 :=
      (natDigits_length_lt (by norm_num)).2 (Nat.mod_lt _ (by norm_num))
    have e1 : List.replicate (8 - (natDigits 10 (n % 10 ^ 8)).length) '0' ++ natDigits 10 (n % 10 ^ 8) = lastK 8 s := by
      apply numeral_inj u
      · simp only [List.length_append, List.length_replicate, hlast]; omega
      · intro c hc
        simp only [List.mem_append, List.mem_replicate] at hc
        rcases hc with hc | hc
        · rw [hc.2]; exact isDig_zero
        · exact natDigits_dig _ c hc
      · exact hdl
      · rw [numeral_append, numeral_zeros, natDigits_numeral, ← hr]; simp
    have e2 : natDigits 10 (n / 10 ^ 8) = dropLastK 8 s := by
      have hn0 : n / 10 ^ 8 ≠ 0 := by
        have : 1 ≤ n / 10 ^ 8 := (Nat.le_div_iff_mul_le (by norm_num)).2 (by omega)
        omega
      have hlen2 : (natDigits 10 (n / 10 ^ 8)).length = (dropLastK 8 s).length := by
        have hsl : s.length = (Nat.digits 10 n).length := by
          rw [hs]; unfold natDigits; rw [if_neg (by omega)]; simp
        have hql : (natDigits 10 (n / 10 ^ 8)).length = (Nat.digits 10 (n / 10 ^ 8)).length := by
          unfold natDigits; rw [if_neg hn0]; simp
        rw [hql]
        have : (dropLastK 8 s).length = s.length - 8 := by simp [dropLastK]
        rw [this, hsl, Nat.digits_len _ _ (by norm_num) hn0, Nat.digits_len _ _ (by norm_num) (by omega : n ≠ 0),
          Nat.log_div_base_pow]
        have : 8 ≤ Nat.log 10 n := (Nat.le_log_iff_pow_le (by norm_num) (by omega)).2 hge
        omega
      apply numeral_inj u hlen2 (natDigits_dig _) hdd
      rw [natDigits_numeral, hq]
    unfold btcText
    rw [e1, e2]
    simp

theorem satoshiToBitcoin_nat (u : UniDB) {n : Nat} (h : n ≤ maxMoney) :
    satoshiToBitcoin u (n : Int) = .ok (btcText n) := by
  unfold satoshiToBitcoin
  have hdom : vIntegerDomain (n : Int) 0 (21 * 10 ^ 6 * 10 ^ 8) = .ok () := by
    rw [vIntegerDomain_ok (by norm_num)]
    unfold maxMoney at h
    constructor <;> omega
  have hstr : pyStr (n : Int) = natDigits 10 n := by
    unfold pyStr; rw [if_neg (by omega)]; simp
  simp only [hdom, hstr, R_bind_ok]
  rw [satoshi_text n]
  have : vBitcoinAmount u (btcText n) = .ok () :=
    (vBitcoinAmount_ok u).2 ⟨n, btcText_amount u n, h⟩
  rw [this]; rfl

theorem satoshiToBitcoin_out (u : UniDB) {n : Int} (h : n < 0 ∨ (maxMoney : Int) < n) :
    satoshiToBitcoin u n = .error .valueError := by
  unfold satoshiToBitcoin
  rw [vIntegerDomain_eq (by norm_num), if_neg]
  · rfl
  · unfold maxMoney at h
    rintro ⟨h1, h2⟩
    omega

theorem satoshiToBitcoin_ok (u : UniDB) {n : Int} {s : Str} :
    satoshiToBitcoin u n = .ok s ↔ ∃ k : Nat, n = k ∧ k ≤ maxMoney ∧ s = btcText k := by
  constructor
  · intro h
    by_cases hb : n < 0 ∨ (maxMoney : Int) < n
    · rw [satoshiToBitcoin_out u hb] at h; simp at h
    · obtain ⟨k, rfl⟩ : ∃ k : Nat, n = k := ⟨n.toNat, by omega⟩
      have hk : k ≤ maxMoney := by omega
      rw [satoshiToBitcoin_nat u hk] at h
      simp only [Except.ok.injEq] at h
      exact ⟨k, rfl, hk, h.symm⟩
  · rintro ⟨k, rfl, hk, rfl⟩
    exact satoshiToBitcoin_nat u hk

theorem satoshiToBitcoin_VE (u : UniDB) (n : Int) : VE (satoshiToBitcoin u n) := by
  intro e h
  by_cases hb : n < 0 ∨ (maxMoney : Int) < n
  · rw [satoshiToBitcoin_out u hb] at h; simp at h; exact h.symm
  · obtain ⟨k, rfl⟩ : ∃ k : Nat, n = k := ⟨n.toNat, by omega⟩
    rw [satoshiToBitcoin_nat u (by omega)] at h; simp at h

theorem btcText_inj {m n : Nat} (h : btcText m = btcText n) : m = n := by
  let u : UniDB := ⟨fun _ => none, fun _ => false, fun _ => false, fun _ _ => rfl⟩
  have h1 := btcText_amount u m
  rw [h] at h1
  exact AmountOf_unique h1 (btcText_amount u n)

theorem isDig_iff {c : Char} : IsDig c ↔ c ∈ digits10 := by
  constructor
  · rintro ⟨d, hd, rfl⟩
    revert d; decide +kernel
  · intro h
    have hh : ∀ c ∈ digits10, c = digitChar (c.toNat - 48) ∧ c.toNat - 48 < 10 := by decide +kernel
    exact ⟨_, (hh c h).2, (hh c h).1⟩

/-- a numeral without redundant leading zero has the canonical length -/
theorem numeral_ge (u : UniDB) {s : Str} (hne : s ≠ []) (hd : ∀ c ∈ s, IsDig c) (hh : s.head? ≠ some '0') :
    10 ^ (s.length - 1) ≤ numeral u s := by
  cases s with
  | nil => simp at hne
  | cons c r =>
    simp only [List.head?_cons, ne_eq, Option.some.injEq] at hh
    obtain ⟨d, hd', rfl⟩ := hd c (by simp)
    have hp := digitChar_props hd'
    have hd0 : d ≠ 0 := fun h => hh (hp.2.2.2.2.2.2.2.2.2.2.2.2.2.1.2 h)
    simp only [numeral, List.length_cons, Nat.add_sub_cancel]
    rw [decVal_ascii u hp.2.1, hp.1, Option.getD_some]
    have : 1 * 10 ^ r.length ≤ d * 10 ^ r.length := Nat.mul_le_mul_right _ (by omega)
    omega

theorem numeral_canonical (u : UniDB) {s : Str} (hne : s ≠ []) (hd : ∀ c ∈ s, IsDig c)
    (hh : s = ['0'] ∨ s.head? ≠ some '0') : s = natDigits 10 (numeral u s) := by
  rcases hh with rfl | hh
  · simp [numeral, decVal_zero, natDigits]
  · apply numeral_inj u _ hd (natDigits_dig _) (natDigits_numeral u _).symm
    have h1 := numeral_ge u hne hd hh
    have h2 := numeral_lt u s
    have hl : 0 < s.length := List.length_pos_of_ne_nil hne
    have h3 := (natDigits_length_lt (n := numeral u s) hl).2 h2
    by_contra hc
    have h4 : (natDigits 10 (numeral u s)).length ≤ s.length - 1 := by omega
    have h5 : 0 < s.length - 1 := by
      by_contra h0
      have := List.length_pos_of_ne_nil (natDigits_ne_nil (numeral u s))
      omega
    have := (natDigits_length_lt h5).1 h4
    omega

theorem btcText_unique (u : UniDB) {ip fp : Str} (h8 : fp.length = 8) (hne : ip ≠ [])
    (hd : ∀ c ∈ ip ++ fp, IsDig c) (hh : ip = ['0'] ∨ ip.head? ≠ some '0') :
    ip ++ '.' :: fp = btcText (numeral u (ip ++ fp)) := by
  obtain ⟨ip', fp', e, h8', hne', hd', hv', hh'⟩ := btcText_ip (numeral u (ip ++ fp))
  have hv := hv' u
  rw [numeral_append, numeral_append, h8, h8'] at hv
  have l1 := numeral_lt u fp
  have l2 := numeral_lt u fp'
  rw [h8] at l1; rw [h8'] at l2
  have e1 : numeral u ip = numeral u ip' := by omega
  have e2 : numeral u fp = numeral u fp' := by omega
  have f1 : fp = fp' := numeral_inj u (by omega) (fun c hc => hd c (by simp [hc])) (fun c hc => hd' c (by simp [hc])) e2
  have f2 : ip = ip' := by
    rw [numeral_canonical u hne (fun c hc => hd c (by simp [hc])) hh,
      numeral_canonical u hne' (fun c hc => hd' c (by simp [hc])) hh', e1]
  rw [e, f1, f2]

/-! ## `ensure_8_decimal_places` -/

theorem ensure8_form {s ip fp : Str} (hi : '.' ∉ ip) (hf : '.' ∉ fp)
    (hs : s = ip ++ '.' :: fp ∨ (s = ip ∧ fp = [])) :
    ensure8 s = if fp.length ≤ 8 then .ok (ip ++ '.' :: (fp ++ List.replicate (8 - fp.length) '0'))
      else .error .valueError := by
  have key : ∀ t : Str, t = ip ++ '.' :: fp →
      (match (splitC '.' t)[1]? with
      | none => raise .indexError
      | some p => do
        let d : Int := p.length
        let m : Int := 8 - d
        if m < 0 then raise .valueError
        pure (t ++ List.replicate m.toNat '0') : R Str) =
      if fp.length ≤ 8 then .ok (ip ++ '.' :: (fp ++ List.replicate (8 - fp.length) '0'))
      else .error .valueError := by
    rintro t rfl
    simp only [splitC_one hi hf, List.getElem?_cons_succ, List.getElem?_cons_zero]
    by_cases h8 : fp.length ≤ 8
    · rw [if_pos h8, if_neg (by omega)]
      have : ((8 : ℤ) - (fp.length : ℤ)).toNat = 8 - fp.length := by omega
      simp [this]
    · rw [if_neg h8, if_pos (by omega)]
      rfl
  unfold ensure8
  apply key
  rcases hs with rfl | ⟨rfl, rfl⟩
  · rw [count_split hi hf]; simp
  · rw [List.count_eq_zero.2 hi]; simp

/-- padding keeps the amount -/
theorem ensure8_amount (u : UniDB) {s : Str} {sat : Nat} (h : AmountOf u s sat) :
    ∃ t, ensure8 s = .ok t ∧ AmountOf u t sat ∧ (Ascii s → Ascii t) ∧
      ((∃ c ∈ s, c ≠ '0' ∧ c ≠ '.') ↔ ∃ c ∈ t, c ≠ '0' ∧ c ≠ '.') := by
  obtain ⟨ip, fp, hs, hne, h8, hd, rfl⟩ := h
  have hi : '.' ∉ ip := dot_not_mem u fun c hc => hd c (by simp [hc])
  have hf : '.' ∉ fp := dot_not_mem u fun c hc => hd c (by simp [hc])
  refine ⟨_, by rw [ensure8_form hi hf hs, if_pos h8], ⟨ip, _, .inl rfl, by simp at hne ⊢; tauto, by simp; omega, ?_, ?_⟩, ?_, ?_⟩
  · intro c hc
    simp only [List.mem_append, List.mem_replicate] at hc
    rcases hc with hc | hc | hc
    · exact hd c (by simp [hc])
    · exact hd c (by simp [hc])
    · rw [hc.2, decVal_zero]; rfl
  · rw [← List.append_assoc, numeral_append u (ip ++ fp), numeral_zeros]
    have : 8 - (fp ++ List.replicate (8 - fp.length) '0').length = 0 := by simp; omega
    rw [this]; simp
  · intro ha c hc
    have hmem : c ∈ s ∨ c = '0' ∨ c = '.' := by
      rcases hs with rfl | ⟨rfl, rfl⟩ <;> simp at hc ⊢ <;> tauto
    rcases hmem with h | rfl | rfl
    · exact ha c h
    · decide
    · decide
  · constructor
    · rintro ⟨c, hc, h0, h1⟩
      refine ⟨c, ?_, h0, h1⟩
      rcases hs with rfl | ⟨rfl, rfl⟩ <;> simp at hc ⊢ <;> tauto
    · rintro ⟨c, hc, h0, h1⟩
      refine ⟨c, ?_, h0, h1⟩
      rcases hs with rfl | ⟨rfl, rfl⟩ <;> simp [h0, h1] at hc ⊢ <;> tauto

end BT
