import Verif.JsonSpec
import Verif.Lemmas.JsonText

/-! # `json.loads` reads every JSON text -/

namespace BT.Json
open BT.Spec.JsonText

theorem ws_isWs {w : Str} (h : Ws w) : ∀ c ∈ w, isWs c = true := by
  intro c hc
  rcases h c hc with rfl | rfl | rfl | rfl <;> decide

theorem skip_ws {w : Str} (h : Ws w) (t : Str) : skipWs (w ++ t) = skipWs t := by
  have h' := ws_isWs h
  clear h
  unfold skipWs
  induction w with
  | nil => rfl
  | cons c w ih =>
    rw [List.cons_append, List.dropWhile_cons, if_pos (h' c (by simp))]
    exact ih fun d hd => h' d (by simp [hd])

theorem ends_ws {w : Str} (h : Ws w) {t : Str} (ht : Ends t) : Ends (w ++ t) := by
  cases w with
  | nil => exact ht
  | cons c w =>
    refine ends_cons ?_ _
    rcases h c (by simp) with rfl | rfl | rfl | rfl <;> decide

theorem scan_hex4' {s : Str} {n : Nat} (h : Hex4 s n) (t : Str) : scanStr (.hex 3 0) (s ++ t) = consCode n (scanStr .plain t) := by
  obtain ⟨a, b, c, d, x, y, z, w, rfl, h1, h2, h3, h4, rfl⟩ := h
  simp only [List.cons_append, List.nil_append, scanStr, h1, h2, h3, h4]
  congr 1
  omega

theorem join_single (c : Char) (m : List Nat) : joinCodes (c.toNat :: m) = c :: joinCodes m := by
  have hc := char_range c
  have h1 : isHigh c.toNat = false := by simp [isHigh]; omega
  have h2 : isLow c.toNat = false := by simp [isLow]; omega
  rw [joinCodes_cons h1, ofCode, h1, h2]
  simp

theorem scan_code {t : Str} {n : Nat} (h : CodeText t n) (r : Str) : scanStr .plain (t ++ r) = consCode n (scanStr .plain r) := by
  cases h with
  | raw c h1 h2 h3 =>
    rw [List.cons_append, List.nil_append, scanStr, if_neg h2, if_neg h3, if_neg (by omega)]
  | quote => rfl
  | backslash => rfl
  | slash => rfl
  | backspace => rfl
  | formFeed => rfl
  | lineFeed => rfl
  | carriageReturn => rfl
  | tab => rfl
  | unicode t c h =>
    rw [List.cons_append, List.cons_append, show ∀ a : Str, scanStr .plain ('\\' :: 'u' :: a) = scanStr (.hex 3 0) a from fun _ => rfl, scan_hex4' h]

theorem scan_codes {b : Str} {l : List Nat} (h : Codes b l) (r : Str) : scanStr .plain (b ++ '"' :: r) = some (l, r) := by
  induction h with
  | nil => rfl
  | cons hc _ ih => rw [List.append_assoc, scan_code hc, ih]; rfl

theorem isHigh_iff {n : Nat} : isHigh n = true ↔ HighCode n := by simp [isHigh, HighCode]
theorem isLow_iff {n : Nat} : isLow n = true ↔ LowCode n := by simp [isLow, LowCode]

theorem join_high {n : Nat} (h : HighCode n) {l : List Nat} (hl : ∀ m ∈ l.head?, ¬ LowCode m) : joinCodes (n :: l) = Char.ofNat 0xfffd :: joinCodes l := by
  have e : ofCode n = Char.ofNat 0xfffd := by rw [ofCode, isHigh_iff.2 h]; rfl
  cases l with
  | nil => show [ofCode n] = _; rw [e]; rfl
  | cons m l =>
    have : isLow m = false := by
      rw [← Bool.not_eq_true, isLow_iff]; exact hl m rfl
    rw [joinCodes, this, Bool.and_false, e]; rfl

theorem charsOf_join {l : List Nat} {s : Str} (h : CharsOf l s) : joinCodes l = s := by
  induction h with
  | nil => rfl
  | char c _ ih => rw [join_single, ih]
  | @pair c hi lo l s h1 h2 h3 _ ih =>
    rw [joinCodes, if_pos (by simp [isHigh, isLow]; omega), ih]
    refine congrArg (· :: s) ?_
    have : ∀ k : Nat, k = 0x10000 + hi * 1024 + lo → 0x10000 + (0xd800 + hi - 0xd800) * 1024 + (0xdc00 + lo - 0xdc00) = k := by
      intro k hk; omega
    exact (congrArg Char.ofNat (this _ h3)).trans (Char.ofNat_toNat c)
  | loneHigh n h1 h2 _ ih => rw [join_high h1 h2, ih]
  | loneLow n h1 _ ih =>
    have e : isHigh n = false := by
      rw [← Bool.not_eq_true, isHigh_iff]; unfold LowCode at h1; unfold HighCode; omega
    rw [joinCodes_cons e, ofCode, isLow_iff.2 h1, Bool.or_true, if_pos rfl, ih]

/-- a string literal, from after the opening quote -/
theorem scanString_text {b s : Str} {l : List Nat} (h : Codes b l) (h' : CharsOf l s) (r : Str) : scanString (b ++ '"' :: r) = some (s, r) := by
  rw [scanString, scan_codes h, Option.map_some, charsOf_join h']

theorem digit_isDigit {c : Char} (h : Digit c) : isDigit c = true := by
  obtain ⟨h1, h2⟩ := h
  have a : '0'.toNat ≤ c.toNat := h1
  have b : c.toNat ≤ '9'.toNat := h2
  rw [show '0'.toNat = 48 from rfl] at a
  rw [show '9'.toNat = 57 from rfl] at b
  simp [isDigit, a, b]

theorem scanInt_text {d : Str} (h : NatText d) {t : Str} (ht : Ends t) : scanInt (d ++ t) = some (d, t) := by
  obtain ⟨h0, h1, h2⟩ := h
  cases d with
  | nil => exact absurd rfl h0
  | cons c r =>
    by_cases hc : c = '0'
    · subst hc
      have := h2 rfl
      rw [this]; rfl
    · have hd := takeWhile_digits (a := r) (t := t) (fun x hx => digit_isDigit (h1 x (by simp [hx]))) ht
      have hi := digit_isDigit (h1 c (by simp))
      rw [List.cons_append]
      unfold scanInt
      split
      · next h => simp only [List.cons.injEq] at h; exact absurd h.1 hc
      · next h =>
        simp only [List.cons.injEq] at h
        obtain ⟨rfl, rfl⟩ := h
        simp [hi, hd]
      · next h => simp at h

theorem natText_head {d : Str} (h : NatText d) (t : Str) : ∃ c r, d = c :: r ∧ isDigit c = true ∧ scanMinus (d ++ t) = (false, d ++ t) := by
  obtain ⟨h0, h1, _⟩ := h
  cases d with
  | nil => exact absurd rfl h0
  | cons c r =>
    have hc := digit_isDigit (h1 c (by simp))
    refine ⟨c, r, rfl, hc, ?_⟩
    rw [List.cons_append]
    unfold scanMinus
    split
    · next h =>
      simp only [List.cons.injEq] at h
      rw [h.1] at hc
      exact absurd hc (by decide)
    · rfl

theorem scanAtom_text (u : UniDB) {s : Str} {n : Int} (h : IntText s n) {t : Str} (ht : Ends t) : scanAtom u (s ++ t) = some (.int n, t) := by
  unfold scanAtom
  rcases h with ⟨h, rfl⟩ | ⟨d, rfl, h, rfl⟩
  · obtain ⟨c, r, hcr, hc, hm⟩ := natText_head h t
    have hw : scanWord words (s ++ t) = none := by rw [hcr, List.cons_append]; exact digit_notword hc _
    rw [hw]
    simp only [scanNumber, hm, scanInt_text h ht, scanFrac_ends ht, scanExp_ends ht, and_self, if_true, Bool.false_eq_true, if_false]
    rfl
  · obtain ⟨c, r, hcr, hc, -⟩ := natText_head h t
    have hw : scanWord words ('-' :: d ++ t) = none := by
      rw [hcr]
      have : c ≠ 'I' := by rintro rfl; revert hc; decide
      simp [words, scanWord, this]
    rw [hw]
    simp only [List.cons_append, scanNumber, scanMinus, scanInt_text h ht, scanFrac_ends ht, scanExp_ends ht, and_self, if_true]
    rfl

/-- the digits of a number end at a fraction or exponent -/
theorem digits_stop {d : Str} (h : ∀ c ∈ d, Digit c) {t : Str} (ht : ∀ c ∈ t.head?, isDigit c = false) : digits (d ++ t) = (d, t) := by
  induction d with
  | nil =>
    cases t with
    | nil => rfl
    | cons c t => simp [digits, ht c rfl]
  | cons c d ih =>
    have h1 := ih fun x hx => h x (by simp [hx])
    have h2 := digit_isDigit (h c (by simp))
    simp only [digits, Prod.mk.injEq] at h1 ⊢
    simp [h2, h1.1, h1.2]

theorem scanInt_stop {d : Str} (h : NatText d) {t : Str} (ht : ∀ c ∈ t.head?, isDigit c = false) : scanInt (d ++ t) = some (d, t) := by
  obtain ⟨h0, h1, h2⟩ := h
  cases d with
  | nil => exact absurd rfl h0
  | cons c r =>
    by_cases hc : c = '0'
    · subst hc
      have := h2 rfl
      rw [this]; rfl
    · have hd := digits_stop (d := r) (t := t) (fun x hx => h1 x (by simp [hx])) ht
      have hi := digit_isDigit (h1 c (by simp))
      rw [List.cons_append]
      unfold scanInt
      split
      · next h => simp only [List.cons.injEq] at h; exact absurd h.1 hc
      · next h =>
        simp only [List.cons.injEq] at h
        obtain ⟨rfl, rfl⟩ := h
        simp [hi, hd]
      · next h => simp at h

theorem ends_head {t : Str} (h : Ends t) : ∀ c ∈ t.head?, isDigit c = false := fun c hc => (h c hc).1

/-- an exponent -/
theorem scanExp_text {e t : Str} (h : e = [] ∨ ∃ c g d, e = c :: (g ++ d) ∧ (c = 'e' ∨ c = 'E') ∧ (g = [] ∨ g = ['+'] ∨ g = ['-']) ∧ DigitsText d)
    (ht : Ends t) : scanExp (e ++ t) = (e, t) := by
  rcases h with rfl | ⟨c, g, d, rfl, hc, hg, hd0, hd⟩
  · exact scanExp_ends ht
  · have hs : scanSign ((g ++ d) ++ t) = (g, d ++ t) := by
      rcases hg with rfl | rfl | rfl
      · cases d with
        | nil => exact absurd rfl hd0
        | cons a d =>
          have ha := digit_isDigit (hd a (by simp))
          simp only [List.nil_append, List.cons_append]
          unfold scanSign
          split
          · next h => simp only [List.cons.injEq] at h; rw [h.1] at ha; exact absurd ha (by decide)
          · next h => simp only [List.cons.injEq] at h; rw [h.1] at ha; exact absurd ha (by decide)
          · rfl
      · rfl
      · rfl
    rw [List.cons_append, scanExp, if_pos hc, hs]
    simp only [digits_stop hd (ends_head ht)]
    rw [if_neg hd0]

/-- a fraction, followed by an exponent or the end -/
theorem scanFrac_text {f t : Str} (h : f = [] ∨ ∃ d, f = '.' :: d ∧ DigitsText d) (ht : ∀ c ∈ t.head?, isDigit c = false ∧ c ≠ '.') :
    scanFrac (f ++ t) = (f, t) := by
  rcases h with rfl | ⟨d, rfl, hd0, hd⟩
  · cases t with
    | nil => rfl
    | cons c t =>
      simp only [List.nil_append]
      unfold scanFrac
      split
      · next h => simp only [List.cons.injEq] at h; exact absurd h.1 (ht c rfl).2
      · rfl
  · rw [List.cons_append, scanFrac, digits_stop hd fun c hc => (ht c hc).1]
    simp only
    rw [if_neg hd0]

theorem exp_head {e t : Str} (h : e = [] ∨ ∃ c g d, e = c :: (g ++ d) ∧ (c = 'e' ∨ c = 'E') ∧ (g = [] ∨ g = ['+'] ∨ g = ['-']) ∧ DigitsText d)
    (ht : Ends t) : ∀ c ∈ (e ++ t).head?, isDigit c = false ∧ c ≠ '.' := by
  rcases h with rfl | ⟨c, g, d, rfl, hc, _⟩
  · exact fun c hc => ⟨(ht c hc).1, (ht c hc).2.1⟩
  · intro a ha
    simp only [List.cons_append, List.head?_cons, Option.mem_def, Option.some.injEq] at ha
    subst ha
    rcases hc with rfl | rfl <;> decide

theorem frac_head {f t : Str} (h : f = [] ∨ ∃ d, f = '.' :: d ∧ DigitsText d) (ht : ∀ c ∈ t.head?, isDigit c = false ∧ c ≠ '.') :
    ∀ c ∈ (f ++ t).head?, isDigit c = false := by
  rcases h with rfl | ⟨d, rfl, _⟩
  · exact fun c hc => (ht c hc).1
  · intro a ha
    simp only [List.cons_append, List.head?_cons, Option.mem_def, Option.some.injEq] at ha
    subst ha
    decide

theorem scanAtom_float (u : UniDB) {s : Str} {x : PyFloat} (h : FloatText s) (hx : pyFloatStr u s = .ok x) {t : Str} (ht : Ends t) :
    scanAtom u (s ++ t) = some (.float x, t) := by
  obtain ⟨m, i, f, e, rfl, hm, hi, hf, he, hfe⟩ := h
  have h1 := exp_head he ht
  have h2 := frac_head hf h1
  have e0 : (m ++ (i ++ (f ++ e))) ++ t = m ++ (i ++ (f ++ (e ++ t))) := by simp
  have hw : scanWord words (m ++ (i ++ (f ++ (e ++ t)))) = none := by
    obtain ⟨c, r, hcr, hc, _⟩ := natText_head hi []
    rcases hm with rfl | rfl
    · rw [hcr]; exact digit_notword hc _
    · rw [hcr]
      have : c ≠ 'I' := by rintro rfl; revert hc; decide
      simp [words, scanWord, this]
  have hs : scanMinus (m ++ (i ++ (f ++ (e ++ t)))) = (!m.isEmpty, i ++ (f ++ (e ++ t))) := by
    rcases hm with rfl | rfl
    · obtain ⟨_, _, _, _, h⟩ := natText_head hi (f ++ (e ++ t)); exact h
    · rfl
  have hsm : (if (!m.isEmpty) = true then ['-'] else ([] : Str)) = m := by rcases hm with rfl | rfl <;> rfl
  unfold scanAtom
  rw [e0, hw]
  simp only [scanNumber, hs, scanInt_stop hi h2, scanFrac_text hf h1, scanExp_text he ht]
  rw [if_neg hfe, hsm, List.append_assoc, List.append_assoc, hx]

theorem starts_text {s : Str} {n : Int} (h : IntText s n) : Starts s := by
  have key : ∀ c : Char, isDigit c = true → isWs c = false ∧ c ≠ ']' ∧ c ≠ '}' ∧ c ≠ '"' ∧ c ≠ '[' ∧ c ≠ '{' := by
    intro c hc
    refine ⟨?_, ?_, ?_, ?_, ?_, ?_⟩
    · by_contra hw
      have : c = ' ' ∨ c = '\t' ∨ c = '\n' ∨ c = '\r' := by
        have hw' : isWs c = true := by simpa using hw
        simpa [isWs, or_assoc] using hw'
      rcases this with rfl | rfl | rfl | rfl <;> revert hc <;> decide
    all_goals rintro rfl; revert hc; decide
  rcases h with ⟨h, rfl⟩ | ⟨d, rfl, h, rfl⟩
  · obtain ⟨c, r, rfl, hc, _⟩ := natText_head h []
    exact ⟨c, r, rfl, key c hc⟩
  · exact ⟨_, _, rfl, by decide⟩

theorem starts_float {s : Str} (h : FloatText s) : Starts s := by
  obtain ⟨m, i, f, e, rfl, hm, hi, _⟩ := h
  have hh : ∀ a : Str, Starts a → ∀ b, Starts (a ++ b) := by
    rintro a ⟨c, r, rfl, h⟩ b; exact ⟨c, r ++ b, rfl, h⟩
  rcases hm with rfl | rfl
  · exact hh _ (starts_text (Or.inl ⟨hi, rfl⟩)) _
  · exact ⟨_, _, rfl, by decide⟩

/-- the first character of a value -/
theorem val_head {u : UniDB} {t : Str} {x : PVal} (h : Val u t x) : ∃ c r, t = c :: r ∧ isWs c = false ∧ c ≠ ']' ∧ c ≠ '}' := by
  cases h with
  | null => exact ⟨_, _, rfl, by decide⟩
  | true => exact ⟨_, _, rfl, by decide⟩
  | false => exact ⟨_, _, rfl, by decide⟩
  | int h => obtain ⟨c, r, e, h1, h2, h3, _⟩ := starts_text h; exact ⟨c, r, e, h1, h2, h3⟩
  | float h => obtain ⟨c, r, e, h1, h2, h3, _⟩ := starts_float h; exact ⟨c, r, e, h1, h2, h3⟩
  | nan => exact ⟨_, _, rfl, by decide⟩
  | infinity => exact ⟨_, _, rfl, by decide⟩
  | minusInfinity => exact ⟨_, _, rfl, by decide⟩
  | str h => obtain ⟨b, l, rfl, _⟩ := h; exact ⟨_, _, rfl, by decide⟩
  | emptyList => exact ⟨_, _, rfl, by decide⟩
  | list => exact ⟨_, _, rfl, by decide⟩
  | emptyDict => exact ⟨_, _, rfl, by decide⟩
  | dict => exact ⟨_, _, rfl, by decide⟩

theorem skip_val {u : UniDB} {w t : Str} {x : PVal} (hw : Ws w) (h : Val u t x) (r : Str) : skipWs (w ++ (t ++ r)) = t ++ r := by
  obtain ⟨c, t', rfl, hc, _⟩ := val_head h
  rw [skip_ws hw, List.cons_append, skip_nonws hc]

/-- the text of the items begins with something else than a bracket -/
theorem items_head {u : UniDB} {t : Str} {l : List PVal} (h : Items u t l) (r : Str) : ∃ c t', skipWs (t ++ r) = c :: t' ∧ c ≠ ']' := by
  cases h with
  | one hw hv hw' =>
    obtain ⟨c, t', rfl, hc, h1, _⟩ := val_head hv
    rw [List.append_assoc, List.append_assoc, skip_val hw hv, List.cons_append]
    exact ⟨c, _, rfl, h1⟩
  | more hw hv hw' _ =>
    obtain ⟨c, t', rfl, hc, h1, _⟩ := val_head hv
    rw [List.append_assoc, List.append_assoc, skip_val hw hv, List.cons_append]
    exact ⟨c, _, rfl, h1⟩

theorem skip_key' {w k key : Str} (hw : Ws w) (h : StrText k key) (r : Str) : ∃ b l, Codes b l ∧ CharsOf l key ∧ k.length = b.length + 2 ∧ skipWs (w ++ (k ++ r)) = '"' :: (b ++ '"' :: r) := by
  obtain ⟨b, l, rfl, hb, hc⟩ := h
  refine ⟨b, l, hb, hc, by simp, ?_⟩
  rw [skip_ws hw, List.append_assoc, List.cons_append, List.cons_append, List.nil_append, skip_nonws (by decide)]

theorem members_head {u : UniDB} {t : Str} {l : List (Str × PVal)} (h : Members u t l) (r : Str) : ∃ t', skipWs (t ++ r) = '"' :: t' := by
  cases h with
  | one hw hk =>
    rw [List.append_assoc, List.append_assoc]
    obtain ⟨b, _, _, _, _, h⟩ := skip_key' hw hk _
    exact ⟨_, h⟩
  | more hw hk =>
    rw [List.append_assoc, List.append_assoc]
    obtain ⟨b, _, _, _, _, h⟩ := skip_key' hw hk _
    exact ⟨_, h⟩

theorem scanVal_list (u : UniDB) (n : Nat) (r : Str) {c : Char} {t : Str} (h : skipWs r = c :: t) (hc : c ≠ ']') :
    scanVal u (n + 1) ('[' :: r) = (scanItems u n (c :: t)).map fun p => (.list p.1, p.2) := by
  rw [scanVal, h]
  split
  · next h => simp only [List.cons.injEq] at h; exact absurd h.1 hc
  · rfl

theorem scanVal_dict (u : UniDB) (n : Nat) (r : Str) {t : Str} (h : skipWs r = '"' :: t) :
    scanVal u (n + 1) ('{' :: r) = (scanPairs u n ('"' :: t)).map fun p => (.dict (dictOf p.1), p.2) := by
  rw [scanVal, h]; rfl

theorem scanItems_last (u : UniDB) (n : Nat) {s r r' : Str} {x : PVal} (h : scanVal u n s = some (x, r)) (h' : skipWs r = ']' :: r') :
    scanItems u (n + 1) s = some ([x], r') := by
  rw [scanItems, h]; simp only [h']

theorem scanItems_more (u : UniDB) (n : Nat) {s r r' : Str} {x : PVal} (h : scanVal u n s = some (x, r)) (h' : skipWs r = ',' :: r') :
    scanItems u (n + 1) s = (scanItems u n (skipWs r')).map fun p => (x :: p.1, p.2) := by
  rw [scanItems, h]; simp only [h']

theorem scanPairs_last (u : UniDB) (n : Nat) {s k r1 r2 r r' : Str} {x : PVal} (h1 : scanString s = some (k, r1)) (h2 : skipWs r1 = ':' :: r2)
    (h : scanVal u n (skipWs r2) = some (x, r)) (h' : skipWs r = '}' :: r') : scanPairs u (n + 1) ('"' :: s) = some ([(k, x)], r') := by
  rw [scanPairs]; simp only [h1, h2, h, h']

theorem scanPairs_more (u : UniDB) (n : Nat) {s k r1 r2 r r' : Str} {x : PVal} (h1 : scanString s = some (k, r1)) (h2 : skipWs r1 = ':' :: r2)
    (h : scanVal u n (skipWs r2) = some (x, r)) (h' : skipWs r = ',' :: r') :
    scanPairs u (n + 1) ('"' :: s) = (scanPairs u n (skipWs r')).map fun p => ((k, x) :: p.1, p.2) := by
  rw [scanPairs]; simp only [h1, h2, h, h']

theorem read_text (u : UniDB) {t : Str} {x : PVal} (h : Val u t x) :
    ∀ (n : Nat) (r : Str), t.length < n → Ends r → scanVal u n (t ++ r) = some (x, r) := by
  refine Val.rec (motive_1 := fun t x _ => ∀ (n : Nat) (r : Str), t.length < n → Ends r → scanVal u n (t ++ r) = some (x, r))
    (motive_2 := fun t l _ => ∀ (n : Nat) (r : Str), t.length + 1 < n → scanItems u n (skipWs (t ++ ']' :: r)) = some (l, r))
    (motive_3 := fun t l _ => ∀ (n : Nat) (r : Str), t.length + 1 < n → scanPairs u n (skipWs (t ++ '}' :: r)) = some (l, r))
    ?_ ?_ ?_ ?_ ?_ ?_ ?_ ?_ ?_ ?_ ?_ ?_ ?_ ?_ ?_ ?_ ?_ h
  · intro n r hn _; obtain ⟨n, rfl⟩ : ∃ m, n = m + 1 := ⟨n - 1, by omega⟩; rfl
  · intro n r hn _; obtain ⟨n, rfl⟩ : ∃ m, n = m + 1 := ⟨n - 1, by omega⟩; rfl
  · intro n r hn _; obtain ⟨n, rfl⟩ : ∃ m, n = m + 1 := ⟨n - 1, by omega⟩; rfl
  · intro t k ht n r hn he
    obtain ⟨n, rfl⟩ : ∃ m, n = m + 1 := ⟨n - 1, by omega⟩
    rw [scanVal_atom u (starts_text ht), scanAtom_text u ht he]
  · intro t f ht hf n r hn he
    obtain ⟨n, rfl⟩ : ∃ m, n = m + 1 := ⟨n - 1, by omega⟩
    rw [scanVal_atom u (starts_float ht), scanAtom_float u ht hf he]
  · intro n r hn _; obtain ⟨n, rfl⟩ : ∃ m, n = m + 1 := ⟨n - 1, by omega⟩; rfl
  · intro n r hn _; obtain ⟨n, rfl⟩ : ∃ m, n = m + 1 := ⟨n - 1, by omega⟩; rfl
  · intro n r hn _; obtain ⟨n, rfl⟩ : ∃ m, n = m + 1 := ⟨n - 1, by omega⟩; rfl
  · rintro t s ⟨b, cs, rfl, hb, hc⟩ n r hn _
    obtain ⟨n, rfl⟩ : ∃ m, n = m + 1 := ⟨n - 1, by omega⟩
    rw [List.append_assoc, List.cons_append, List.cons_append, List.nil_append, scanVal, scanString_text hb hc]; rfl
  · intro w hw n r hn _
    obtain ⟨n, rfl⟩ : ∃ m, n = m + 1 := ⟨n - 1, by omega⟩
    rw [List.cons_append, List.append_assoc, List.cons_append, List.nil_append, scanVal, skip_ws hw, skip_nonws (by decide)]; rfl
  · intro t l ht ih n r hn _
    obtain ⟨n, rfl⟩ : ∃ m, n = m + 1 := ⟨n - 1, by omega⟩
    rw [List.cons_append, List.append_assoc, List.cons_append, List.nil_append]
    obtain ⟨c, t', h1, h2⟩ := items_head ht (']' :: r)
    rw [scanVal_list u n _ h1 h2, ← h1, ih n r (by simp at hn; omega)]; rfl
  · intro w hw n r hn _
    obtain ⟨n, rfl⟩ : ∃ m, n = m + 1 := ⟨n - 1, by omega⟩
    rw [List.cons_append, List.append_assoc, List.cons_append, List.nil_append, scanVal, skip_ws hw, skip_nonws (by decide)]; rfl
  · intro t l ht ih n r hn _
    obtain ⟨n, rfl⟩ : ∃ m, n = m + 1 := ⟨n - 1, by omega⟩
    rw [List.cons_append, List.append_assoc, List.cons_append, List.nil_append]
    obtain ⟨t', h1⟩ := members_head ht ('}' :: r)
    rw [scanVal_dict u n _ h1, ← h1, ih n r (by simp at hn; omega)]; rfl
  · intro w t w' x hw hv hw' ih n r hn
    obtain ⟨n, rfl⟩ : ∃ m, n = m + 1 := ⟨n - 1, by omega⟩
    rw [List.append_assoc, List.append_assoc, skip_val hw hv]
    refine scanItems_last u n (ih n _ (by simp at hn; omega) (ends_ws hw' (ends_cons (by decide) _))) ?_
    rw [skip_ws hw', skip_nonws (by decide)]
  · intro w t w' r' x l hw hv hw' _ ih ih' n r hn
    obtain ⟨n, rfl⟩ : ∃ m, n = m + 1 := ⟨n - 1, by omega⟩
    obtain ⟨c, t', rfl, _⟩ := val_head hv
    rw [List.append_assoc, List.append_assoc, skip_val hw hv, List.append_assoc, List.cons_append (a := ',')]
    rw [scanItems_more u n (r' := r' ++ ']' :: r) (ih n (w' ++ ',' :: (r' ++ ']' :: r)) (by simp at hn ⊢; omega) (ends_ws hw' (ends_cons (by decide) _))) (by rw [skip_ws hw', skip_nonws (by decide)])]
    rw [ih' n r (by simp at hn; omega)]; rfl
  · intro w k w1 w2 t w' key x hw hk h1 h2 hv hw' ih n r hn
    obtain ⟨n, rfl⟩ : ∃ m, n = m + 1 := ⟨n - 1, by omega⟩
    rw [List.append_assoc, List.append_assoc]
    obtain ⟨b, cs, hb, hc, hl, e⟩ := skip_key' hw hk ((w1 ++ ':' :: (w2 ++ (t ++ w'))) ++ '}' :: r)
    rw [e]
    refine scanPairs_last u n (scanString_text hb hc _) (r2 := w2 ++ (t ++ (w' ++ '}' :: r))) ?_ (r := w' ++ '}' :: r) ?_ ?_
    · rw [List.append_assoc, skip_ws h1, List.cons_append, skip_nonws (by decide)]; simp
    · rw [skip_val h2 hv]; exact ih n _ (by simp at hn; omega) (ends_ws hw' (ends_cons (by decide) _))
    · rw [skip_ws hw', skip_nonws (by decide)]
  · intro w k w1 w2 t w' r' key x l hw hk h1 h2 hv hw' _ ih ih' n r hn
    obtain ⟨n, rfl⟩ : ∃ m, n = m + 1 := ⟨n - 1, by omega⟩
    rw [List.append_assoc, List.append_assoc]
    obtain ⟨b, cs, hb, hc, hl, e⟩ := skip_key' hw hk ((w1 ++ ':' :: (w2 ++ (t ++ (w' ++ ',' :: r')))) ++ '}' :: r)
    rw [e]
    rw [scanPairs_more u n (scanString_text hb hc _) (r2 := w2 ++ (t ++ (w' ++ ',' :: (r' ++ '}' :: r)))) (r := w' ++ ',' :: (r' ++ '}' :: r)) (r' := r' ++ '}' :: r)
      (by rw [List.append_assoc, skip_ws h1, List.cons_append, skip_nonws (by decide)]; simp)
      (by rw [skip_val h2 hv]; exact ih n _ (by simp at hn; omega) (ends_ws hw' (ends_cons (by decide) _)))
      (by rw [skip_ws hw', skip_nonws (by decide)])]
    rw [ih' n r (by simp at hn; omega)]; rfl

theorem loads_text (u : UniDB) {s : Str} {x : PVal} (h : Denotes u s x) : loads u s = .ok x := by
  obtain ⟨w, t, w', rfl, hw, hv, hw'⟩ := h
  obtain ⟨c, t', rfl, hc, h1, h2⟩ := val_head hv
  have hb : ∀ r, w ++ (c :: t' ++ w') ≠ '\ufeff' :: r := by
    intro r hr
    cases w with
    | nil =>
      simp only [List.nil_append, List.cons_append, List.cons.injEq] at hr
      obtain ⟨rfl, _⟩ := hr
      cases hv with
      | int h =>
        rcases h with ⟨⟨_, h, _⟩, _⟩ | ⟨d, h, _⟩
        · have := h '\ufeff' (by simp)
          exact absurd (digit_isDigit this) (by decide)
        · simp at h
      | float h =>
        obtain ⟨m, i, f, e, h, hm, hi, _⟩ := h
        rcases hm with rfl | rfl
        · obtain ⟨c, r, rfl, hc, _⟩ := natText_head hi []
          simp only [List.nil_append, List.cons_append, List.cons.injEq] at h
          rw [← h.1] at hc
          exact absurd hc (by decide)
        · simp at h
      | str h => obtain ⟨b, l, h, _⟩ := h; simp at h
    | cons a w =>
      simp only [List.cons_append, List.cons.injEq] at hr
      have := hw a (by simp)
      rw [hr.1] at this
      revert this; decide
  have e : ∀ s : Str, (∀ r, s ≠ '\ufeff' :: r) → loads u s = match scanVal u (2 * s.length + 2) (skipWs s) with
      | none => .error .valueError
      | some (x, r) => if skipWs r = [] then .ok x else .error .valueError := by
    intro s hs
    unfold loads
    split
    · next r => exact absurd rfl (hs r)
    · rfl
  have hend : skipWs w' = [] := by have := skip_ws hw' []; simpa [skipWs] using this
  rw [e _ hb, skip_val hw hv, read_text u hv _ _ (by simp; omega) (by have := ends_ws hw' ends_nil; simpa using this)]
  simp [hend]

end BT.Json
