import Verif.Props.AmountMsg

/-! # Texts about refused amounts, continued (C126) -/

namespace BT

open Msg Spec

theorem Msg.cut_unique {c : Char} {a b x y : Str} (ha : c ∉ a) (hb : c ∉ b) (h : a ++ c :: x = b ++ c :: y) : a = b ∧ x = y := by
  induction a generalizing b with
  | nil =>
    cases b with
    | nil => simpa using h
    | cons d b =>
      simp only [List.nil_append, List.cons_append, List.cons.injEq] at h
      exact absurd (by rw [h.1]; simp) hb
  | cons d a ih =>
    cases b with
    | nil =>
      simp only [List.nil_append, List.cons_append, List.cons.injEq] at h
      exact absurd (by rw [h.1]; simp) ha
    | cons d' b =>
      simp only [List.cons_append, List.cons.injEq] at h
      obtain ⟨rfl, h⟩ := h
      obtain ⟨rfl, e⟩ := ih (fun hm => ha (by simp [hm])) (fun hm => hb (by simp [hm])) h
      exact ⟨rfl, e⟩

theorem Msg.pyStr_nat_chars (n : Nat) : ∀ c ∈ pyStr (n : Int), IsDig c := by
  have : pyStr (n : Int) = natDigits 10 n := by
    unfold pyStr; rw [if_neg (by omega)]; simp
  rw [this]; exact natDigits_dig n

theorem Msg.not_mem_pyStr {c : Char} (h : c ∉ digits10) (n : Nat) : c ∉ pyStr (n : Int) :=
  fun hm => h (isDig_iff.1 (pyStr_nat_chars n c hm))

theorem Msg.digit_paren (u : UniDB) : isDigitChar u ')' = false := by
  unfold isDigitChar; rw [if_pos (by decide)]; rfl

/-- The text shows which amount was refused: different amounts get different texts. -/
theorem C126_distinct (E : Env) (u : UniDB) (s t : Str) (e e' : Err) (m : Str)
    (h1 : Msg.vBitcoinAmount E u (.str s) = .error (e, m)) (h2 : Msg.vBitcoinAmount E u (.str t) = .error (e', m)) : s = t := by
  rw [C126_amount] at h1 h2
  have f1 := h1.2
  have f2 := h2.2
  clear h1 h2
  have paren : ∀ {x ip fp : Str}, x = ip ++ '.' :: fp → (∀ c ∈ ip ++ fp, isDigitChar u c = true) → ')' ∉ x := by
    intro x ip fp hx hd hm
    rw [hx] at hm
    simp only [List.mem_append, List.mem_cons] at hm
    have : ')' ∈ ip ++ fp := by
      rcases hm with hm | hm | hm
      · simp [hm]
      · exact absurd hm (by decide)
      · simp [hm]
    have := hd _ this
    rw [digit_paren] at this; simp at this
  generalize hm : m = m' at f2
  cases f1 <;> cases f2
  case periods.periods =>
    simp only [List.append_assoc] at hm
    have := List.append_cancel_left hm
    obtain ⟨_, h⟩ := cut_unique (not_mem_pyStr (by decide) _) (not_mem_pyStr (by decide) _) this
    simpa using h
  case chars.chars => exact List.append_cancel_left hm
  case places.places ip fp hs hd h ip' fp' hs' hd' h' =>
    simp only [List.append_assoc] at hm
    have := List.append_cancel_left hm
    exact (cut_unique (paren hs hd) (paren hs' hd') this).1
  case float.float =>
    have := List.append_cancel_left hm
    exact (reprStr_inj (E := E) (u := []) (v := []) (by simpa using this)).1
  case tooMuch.tooMuch => exact List.append_cancel_left hm
  all_goals (simp at hm)

/-! ## Where the text is wrong -/

/-- No amount at all, or only a period, is refused with a text about characters other than digits. -/
theorem C126_empty_violation (E : Env) (u : UniDB) :
    Msg.vBitcoinAmount E u (.str []) = .error (.valueError, py"Apart from an optional period ('.'), amount can contain only digits. Amount: ") ∧
    Msg.vBitcoinAmount E u (.str py".") = .error (.valueError, py"Apart from an optional period ('.'), amount can contain only digits. Amount: .") :=
  ⟨(C126_amount E u _ _ _).2 ⟨rfl, .chars (by decide) (.inl (by simp))⟩,
   (C126_amount E u _ _ _).2 ⟨rfl, .chars (s := py".") (by decide) (.inl (by simp))⟩⟩

/-- The text "cannot be 0" also for texts that are not 0: nothing at all, or only periods. -/
theorem C126_zero_violation (E : Env) (u : UniDB) (k : Nat) :
    Msg.vPositiveBitcoinAmount E u (.str (List.replicate k '.')) =
      .error (.valueError, py"Amount ('" ++ List.replicate k '.' ++ py"') cannot be 0.") ∧
    ¬ ∃ sat, AmountOf u (List.replicate k '.') sat := by
  constructor
  · rw [C126_positive_partial]
    exact ⟨rfl, .inl ⟨fun c hc => .inr (List.eq_of_mem_replicate hc), rfl⟩⟩
  · rintro ⟨sat, ip, fp, hs, hne, _, hd, _⟩
    have hall : ∀ c ∈ ip ++ fp, c = '.' := by
      intro c hc
      refine List.eq_of_mem_replicate (n := k) ?_
      rcases hs with hs | ⟨hs, h0⟩
      · rw [hs]; rcases List.mem_append.1 hc with h | h <;> simp [h]
      · rw [hs]; rw [h0, List.append_nil] at hc; exact hc
    obtain ⟨c, r, hcr⟩ := List.exists_cons_of_ne_nil hne
    have hc : c ∈ ip ++ fp := by rw [hcr]; simp
    have := hd c hc
    rw [hall c hc, dot_not_digit] at this
    simp at this

/-- The amount zero is refused by the conversion with a text that shows no amount: the same text for every way of writing zero. -/
theorem C126_convert_zero_violation (E : Env) (u : UniDB) (k : Nat) :
    Msg.vBitcoinAmount E u (.str (List.replicate (k + 1) '0')) = .ok () ∧
    Msg.bitcoinToSatoshi E u (.str (List.replicate (k + 1) '0')) = .error (.valueError, py"invalid literal for int() with base 10: ''") := by
  have hA : AmountOf u (List.replicate (k + 1) '0') 0 := by
    refine ⟨List.replicate (k + 1) '0', [], .inr ⟨rfl, rfl⟩, by simp [List.replicate_succ], by simp, ?_, ?_⟩
    · intro c hc
      rw [List.append_nil] at hc
      rw [List.eq_of_mem_replicate hc, decVal_zero]; rfl
    · rw [List.append_nil, numeral_zeros]; simp
  refine ⟨?_, ?_⟩
  · show amountText E u _ = _
    rw [amountText_value E u hA]; rfl
  · rw [C126_satoshi_partial]
    exact ⟨rfl, .inr ⟨⟨0, hA, by decide⟩, fun c hc => .inl (List.eq_of_mem_replicate hc), rfl⟩⟩

/-! ## `satoshi_to_bitcoin` -/

/-- For an integer the text is that of the bound it breaks. -/
theorem C126_bitcoin (E : Env) (u : UniDB) (n : Int) (e : Err) (m : Str) :
    Msg.satoshiToBitcoin E u (.int n) = .error (e, m) ↔
      e = .valueError ∧
      ((n < 0 ∧ m = py"\nInput is less than the minimum value.\n- Minimum value: 0\n- Input: " ++ pyStr n ++ py"\n") ∨
       (2100000000000000 < n ∧ m = py"\nInput is greater than the maximum value.\n- Maximum value: 2100000000000000\n- Input: " ++ pyStr n ++ py"\n")) := by
  have hag := C126_agrees_bitcoin E u (.int n)
  have hmax : pyStr (21 * 10 ^ 6 * 10 ^ 8 : Int) = py"2100000000000000" := by decide +kernel
  have hmin : pyStr 0 = py"0" := by decide +kernel
  have hv : Msg.vInteger E (.int n) none none = .ok n := rfl
  by_cases h1 : n < 0
  · have hd : Msg.satoshiToBitcoin E u (.int n) = .error (.valueError, py"\nInput is less than the minimum value.\n- Minimum value: 0\n- Input: " ++ pyStr n ++ py"\n") := by
      unfold Msg.satoshiToBitcoin Msg.vIntegerDomain
      rw [hv, hmin]
      simp only [M_bind_ok]
      rw [if_neg (by norm_num), if_neg (by omega), if_pos h1]
      rfl
    have h2 : ¬ (2100000000000000 < n) := by omega
    rw [hd]
    simp only [Except.error.injEq, Prod.mk.injEq, h1, h2, true_and, false_and, or_false]
    exact ⟨fun h => ⟨h.1.symm, h.2.symm⟩, fun h => ⟨h.1.symm, h.2.symm⟩⟩
  · by_cases h2 : 2100000000000000 < n
    · have hd : Msg.satoshiToBitcoin E u (.int n) = .error (.valueError, py"\nInput is greater than the maximum value.\n- Maximum value: 2100000000000000\n- Input: " ++ pyStr n ++ py"\n") := by
        unfold Msg.satoshiToBitcoin Msg.vIntegerDomain
        rw [hv, hmax]
        simp only [M_bind_ok]
        rw [if_neg (by norm_num), if_neg (by omega), if_neg h1, if_pos (by omega)]
        rfl
      rw [hd]
      simp only [Except.error.injEq, Prod.mk.injEq, h1, h2, true_and, false_and, false_or]
      exact ⟨fun h => ⟨h.1.symm, h.2.symm⟩, fun h => ⟨h.1.symm, h.2.symm⟩⟩
    · obtain ⟨k, rfl⟩ : ∃ k : Nat, n = k := ⟨n.toNat, by omega⟩
      have hk : k ≤ maxMoney := by unfold maxMoney; omega
      simp only [satoshiToBitcoinP, satoshiToBitcoin_nat u hk] at hag
      simp only [h1, h2, false_and, or_self, and_false, iff_false]
      intro hx
      rw [hx] at hag; simp at hag

/-- `True` and `False` pass the check for an integer, and are then refused with a text about an amount that
nobody entered. -/
theorem C126_bool_violation (E : Env) (u : UniDB) :
    Msg.satoshiToBitcoin E u (.bool true) = .error (.valueError, py"Apart from an optional period ('.'), amount can contain only digits. Amount: 0.0000True") ∧
    Msg.satoshiToBitcoin E u (.bool false) = .error (.valueError, py"Apart from an optional period ('.'), amount can contain only digits. Amount: 0.000False") := by
  have hbad : ∀ t : Str, t.count '.' ≤ 1 → 'e' ∈ t → Msg.vBitcoinAmount E u (.str t) =
      .error (.valueError, py"Apart from an optional period ('.'), amount can contain only digits. Amount: " ++ t) := by
    intro t h1 h2
    refine amountText_chars E u h1 (not_isDigitStr.2 (.inr ⟨'e', h2, by decide, ?_⟩))
    unfold isDigitChar; rw [if_pos (by decide)]; rfl
  have hd1 : Msg.vIntegerDomain 1 0 (21 * 10 ^ 6 * 10 ^ 8) = .ok () := by decide
  have hd0 : Msg.vIntegerDomain 0 0 (21 * 10 ^ 6 * 10 ^ 8) = .ok () := by decide
  have hv1 : Msg.vInteger E (.bool true) none none = .ok 1 := rfl
  have hv0 : Msg.vInteger E (.bool false) none none = .ok 0 := rfl
  unfold Msg.satoshiToBitcoin
  simp only [hv1, hv0, hd1, hd0, M_bind_ok, strOfInt]
  constructor
  · rw [hbad _ (by decide) (by decide)]; rfl
  · rw [hbad _ (by decide) (by decide)]; rfl

/-! ## `ensure_8_decimal_places`, `pad_hex`, `pad_hex_le` -/

/-- The part after the first period, up to the next. -/
theorem Msg.splitC_second {s ip p rest : Str} (hs : s = ip ++ '.' :: (p ++ rest)) (hi : '.' ∉ ip) (hp : '.' ∉ p)
    (hr : rest = [] ∨ ∃ r, rest = '.' :: r) : (splitC '.' s)[1]? = some p := by
  have key : ∀ (a t : Str), '.' ∉ a → splitC '.' (a ++ '.' :: t) = a :: splitC '.' t := by
    intro a t ha
    induction a with
    | nil => simp [splitC]
    | cons c a ih =>
      have hc : c ≠ '.' := fun e => ha (by simp [e])
      simp only [List.cons_append, splitC]
      rw [ih (fun h => ha (by simp [h]))]
      simp [hc]
  rw [hs, key ip _ hi]
  rcases hr with rfl | ⟨r, rfl⟩
  · rw [List.append_nil, splitC_none hp]; rfl
  · rw [key p r hp]; rfl

theorem Msg.first_dot {s : Str} (h : '.' ∈ s) : ∃ a b, s = a ++ '.' :: b ∧ '.' ∉ a := by
  induction s with
  | nil => simp at h
  | cons c s ih =>
    by_cases hc : c = '.'
    · exact ⟨[], s, by simp [hc], by simp⟩
    · obtain ⟨a, b, hs, ha⟩ := ih (by simpa [Ne.symm hc] using h)
      refine ⟨c :: a, b, by rw [hs]; rfl, ?_⟩
      simp [Ne.symm hc, ha]

/-- `ensure_8_decimal_places`: the text names the amount as given and the number of places, more than 8. -/
theorem C126_ensure8 (s : Str) (e : Err) (m : Str) :
    Msg.ensure8 s = .error (e, m) ↔
      e = .valueError ∧ ∃ ip p rest, s = ip ++ '.' :: (p ++ rest) ∧ '.' ∉ ip ∧ '.' ∉ p ∧ (rest = [] ∨ ∃ r, rest = '.' :: r) ∧ 8 < p.length ∧
        m = py"String decimal (" ++ s ++ py") has " ++ pyStr p.length ++ py" decimal places." := by
  by_cases hd : '.' ∈ s
  · obtain ⟨ip, b, hs, hi⟩ := first_dot hd
    have hb : ∃ p rest, b = p ++ rest ∧ '.' ∉ p ∧ (rest = [] ∨ ∃ r, rest = '.' :: r) := by
      by_cases hb : '.' ∈ b
      · obtain ⟨p, r, rfl, hp⟩ := first_dot hb
        exact ⟨p, '.' :: r, rfl, hp, .inr ⟨r, rfl⟩⟩
      · exact ⟨b, [], by simp, hb, .inl rfl⟩
    obtain ⟨p, rest, hbb, hp, hr⟩ := hb
    rw [hbb] at hs
    have h2 := splitC_second hs hi hp hr
    have hc : ¬ s.count '.' = 0 := fun h => List.count_eq_zero.1 h hd
    have hx : Msg.ensure8 s = if (8 : Int) - (p.length : Int) < 0 then
          .error (.valueError, py"String decimal (" ++ s ++ py") has " ++ pyStr p.length ++ py" decimal places.")
        else .ok (s ++ List.replicate ((8 : Int) - (p.length : Int)).toNat '0') := by
      unfold Msg.ensure8 secondPart
      simp only [hc, if_false, h2, M_bind_ok]
      by_cases h8 : (8 : Int) - (p.length : Int) < 0
      · simp only [h8, if_true]; rfl
      · simp only [h8, if_false]; rfl
    rw [hx]
    by_cases h8 : (8 : Int) - (p.length : Int) < 0
    · rw [if_pos h8]
      simp only [Except.error.injEq, Prod.mk.injEq]
      constructor
      · rintro ⟨rfl, rfl⟩
        exact ⟨rfl, ip, p, rest, hs, hi, hp, hr, by omega, rfl⟩
      · rintro ⟨rfl, ip', p', rest', hs', hi', hp', hr', _, rfl⟩
        have := splitC_second hs' hi' hp' hr'
        rw [h2] at this
        simp only [Option.some.injEq] at this
        rw [this]; exact ⟨rfl, rfl⟩
    · rw [if_neg h8]
      simp only [reduceCtorEq, false_iff]
      rintro ⟨_, ip', p', rest', hs', hi', hp', hr', h9, _⟩
      have := splitC_second hs' hi' hp' hr'
      rw [h2] at this
      simp only [Option.some.injEq] at this
      rw [← this] at h9; omega
  · have hc : s.count '.' = 0 := List.count_eq_zero.2 hd
    have h2 : (splitC '.' (s ++ py"."))[1]? = some [] :=
      splitC_second (ip := s) (p := []) (rest := []) rfl hd (by simp) (.inl rfl)
    have hx : Msg.ensure8 s = .ok (s ++ py"." ++ List.replicate 8 '0') := by
      unfold Msg.ensure8 secondPart
      simp only [hc, if_true, h2, M_bind_ok]
      rfl
    rw [hx]
    simp only [reduceCtorEq, false_iff]
    rintro ⟨_, ip', p', rest', hs', _⟩
    exact hd (by rw [hs']; simp)

/-- `pad_hex` and `pad_hex_le`: for hex and an integer, the text shows the hex, which has more bytes than wanted. -/
theorem C126_pad (E : Env) (x : Str) (hx : IsHex x) (k : Int) (e : Err) (m : Str) :
    (Msg.padHex E (.str x) (.int k) = .error (e, m) ↔
      e = .valueError ∧ k < ((x.length / 2 : Nat) : Int) ∧ m = py"Hex value is already longer than desired padded length. Hex value: " ++ x) ∧
    (Msg.padHexLe E (.str x) (.int k) = .error (e, m) ↔
      e = .valueError ∧ k < ((x.length / 2 : Nat) : Int) ∧ m = py"Hex value is already longer than desired padded length. Hex value: " ++ x) := by
  unfold Msg.padHex Msg.padHexLe
  rw [padBytes_hex E hx]
  by_cases hk : k < ((x.length / 2 : Nat) : Int)
  · simp only [hk, if_true, M_bind_err, Except.error.injEq, Prod.mk.injEq, true_and]
    exact ⟨⟨fun h => ⟨h.1.symm, h.2.symm⟩, fun h => ⟨h.1.symm, h.2.symm⟩⟩, ⟨fun h => ⟨h.1.symm, h.2.symm⟩, fun h => ⟨h.1.symm, h.2.symm⟩⟩⟩
  · simp only [hk, if_false, M_bind_ok, false_and, and_false, iff_false]
    by_cases hm : k - ((x.length / 2 : Nat) : Int) > 0
    · simp only [hm, if_true]; exact ⟨(nomatch ·), (nomatch ·)⟩
    · simp only [hm, if_false]; exact ⟨(nomatch ·), (nomatch ·)⟩

end BT
