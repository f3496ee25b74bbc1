import Verif.Lemmas.JsonRead

/-! # `json.loads` reads nothing but JSON texts -/

namespace BT.Json
open BT.Spec.JsonText

theorem isWs_ws {c : Char} (h : isWs c = true) : c = ' ' ∨ c = '\t' ∨ c = '\n' ∨ c = '\r' := by
  simpa [isWs, or_assoc] using h

/-- what `skipWs` drops -/
theorem skip_split (s : Str) : ∃ w, Ws w ∧ s = w ++ skipWs s := by
  refine ⟨s.takeWhile isWs, fun c hc => isWs_ws (List.mem_takeWhile_imp hc), ?_⟩
  exact (List.takeWhile_append_dropWhile).symm

theorem isDigit_digit {c : Char} (h : isDigit c = true) : Digit c := by
  simp only [isDigit, Bool.and_eq_true, decide_eq_true_eq] at h
  exact ⟨show '0'.toNat ≤ c.toNat from h.1, show c.toNat ≤ '9'.toNat from h.2⟩

/-- what `digits` splits off -/
theorem digits_split (s : Str) : (∀ c ∈ (digits s).1, Digit c) ∧ s = (digits s).1 ++ (digits s).2 :=
  ⟨fun c hc => isDigit_digit (List.mem_takeWhile_imp hc), (List.takeWhile_append_dropWhile).symm⟩

theorem scanInt_only {s i r : Str} (h : scanInt s = some (i, r)) : NatText i ∧ s = i ++ r := by
  unfold scanInt at h
  split at h
  · simp only [Option.some.injEq, Prod.mk.injEq] at h
    obtain ⟨rfl, rfl⟩ := h
    exact ⟨⟨by simp, by intro c hc; simp only [List.mem_singleton] at hc; subst hc; exact isDigit_digit (by decide), fun _ => rfl⟩, rfl⟩
  · next c r' hn =>
    by_cases hc : isDigit c = true
    · rw [if_pos hc] at h
      simp only [Option.some.injEq, Prod.mk.injEq] at h
      obtain ⟨rfl, rfl⟩ := h
      obtain ⟨h1, h2⟩ := digits_split r'
      refine ⟨⟨by simp, ?_, ?_⟩, by rw [List.cons_append, ← h2]⟩
      · intro x hx
        rcases List.mem_cons.1 hx with rfl | hx
        · exact isDigit_digit hc
        · exact h1 x hx
      · intro h0
        simp only [List.head?_cons, Option.some.injEq] at h0
        exact absurd h0 hn
    · rw [if_neg hc] at h; simp at h
  · simp at h

theorem scanFrac_only (s : Str) : ((scanFrac s).1 = [] ∨ ∃ d, (scanFrac s).1 = '.' :: d ∧ DigitsText d) ∧ s = (scanFrac s).1 ++ (scanFrac s).2 := by
  unfold scanFrac
  split
  · next r =>
    obtain ⟨h1, h2⟩ := digits_split r
    by_cases h0 : (digits r).1 = []
    · rw [if_pos h0]; exact ⟨Or.inl rfl, rfl⟩
    · rw [if_neg h0]
      exact ⟨Or.inr ⟨_, rfl, h0, h1⟩, by simp only [List.cons_append]; rw [← h2]⟩
  · exact ⟨Or.inl rfl, rfl⟩

theorem scanSign_only (s : Str) : ((scanSign s).1 = [] ∨ (scanSign s).1 = ['+'] ∨ (scanSign s).1 = ['-']) ∧ s = (scanSign s).1 ++ (scanSign s).2 := by
  unfold scanSign
  split
  · exact ⟨Or.inr (Or.inl rfl), rfl⟩
  · exact ⟨Or.inr (Or.inr rfl), rfl⟩
  · exact ⟨Or.inl rfl, rfl⟩

theorem scanExp_only (s : Str) : ((scanExp s).1 = [] ∨ ∃ c g d, (scanExp s).1 = c :: (g ++ d) ∧ (c = 'e' ∨ c = 'E') ∧
    (g = [] ∨ g = ['+'] ∨ g = ['-']) ∧ DigitsText d) ∧ s = (scanExp s).1 ++ (scanExp s).2 := by
  unfold scanExp
  split
  · next c r =>
    by_cases hc : c = 'e' ∨ c = 'E'
    · rw [if_pos hc]
      obtain ⟨h1, h2⟩ := scanSign_only r
      obtain ⟨h3, h4⟩ := digits_split (scanSign r).2
      by_cases h0 : (digits (scanSign r).2).1 = []
      · rw [if_pos h0]; exact ⟨Or.inl rfl, rfl⟩
      · rw [if_neg h0]
        refine ⟨Or.inr ⟨c, _, _, rfl, hc, h1, h0, h3⟩, ?_⟩
        simp only [List.cons_append, List.append_assoc]
        rw [← h4, ← h2]
    · rw [if_neg hc]; exact ⟨Or.inl rfl, rfl⟩
  · exact ⟨Or.inl rfl, rfl⟩

theorem scanMinus_only (s : Str) : s = (if (scanMinus s).1 = true then ['-'] else []) ++ (scanMinus s).2 := by
  unfold scanMinus
  split <;> rfl

theorem scanNumber_only (u : UniDB) {s r : Str} {x : PVal} (h : scanNumber u s = some (x, r)) : ∃ t, s = t ++ r ∧ Val u t x := by
  unfold scanNumber at h
  have hm := scanMinus_only s
  revert hm h
  generalize scanMinus s = p
  obtain ⟨b, s1⟩ := p
  intro h hm
  simp only at h hm
  split at h
  · simp at h
  · next i r1 hi =>
    obtain ⟨hi', rfl⟩ := scanInt_only hi
    clear hi
    have hi := hi'
    obtain ⟨f1, f2⟩ := scanFrac_only r1
    obtain ⟨e1, e2⟩ := scanExp_only (scanFrac r1).2
    by_cases h0 : (scanFrac r1).1 = [] ∧ (scanExp (scanFrac r1).2).1 = []
    · rw [if_pos h0] at h
      simp only [Option.some.injEq, Prod.mk.injEq] at h
      obtain ⟨rfl, rfl⟩ := h
      have e3 : r1 = (scanExp (scanFrac r1).2).2 := by
        rw [h0.1, List.nil_append] at f2
        rw [h0.2, List.nil_append] at e2
        exact f2.trans e2
      rw [← e3]
      cases b with
      | false => exact ⟨i, by simpa using hm, Val.int (Or.inl ⟨hi, rfl⟩)⟩
      | true => exact ⟨'-' :: i, by simpa using hm, Val.int (Or.inr ⟨i, rfl, hi, rfl⟩)⟩
    · rw [if_neg h0] at h
      split at h
      · next f hf =>
        simp only [Option.some.injEq, Prod.mk.injEq] at h
        obtain ⟨rfl, rfl⟩ := h
        refine ⟨_, ?_, Val.float ?_ hf⟩
        · rw [hm]
          simp only [List.append_assoc]
          rw [← e2, ← f2]
        · refine ⟨_, i, _, _, by rw [List.append_assoc, List.append_assoc], ?_, hi, f1, e1, h0⟩
          cases b
          · exact Or.inl rfl
          · exact Or.inr rfl
      · simp at h

theorem scanWord_only {l : List (Str × PVal)} {s r : Str} {x : PVal} (h : scanWord l s = some (x, r)) : ∃ w, (w, x) ∈ l ∧ s = w ++ r := by
  induction l with
  | nil => simp [scanWord] at h
  | cons p l ih =>
    obtain ⟨w, y⟩ := p
    rw [scanWord] at h
    by_cases hw : s.take w.length = w
    · rw [if_pos hw] at h
      simp only [Option.some.injEq, Prod.mk.injEq] at h
      obtain ⟨rfl, rfl⟩ := h
      refine ⟨w, by simp, ?_⟩
      conv_lhs => rw [← List.take_append_drop w.length s, hw]
    · rw [if_neg hw] at h
      obtain ⟨w', h1, h2⟩ := ih h
      exact ⟨w', by simp [h1], h2⟩

theorem scanAtom_only (u : UniDB) {s r : Str} {x : PVal} (h : scanAtom u s = some (x, r)) : ∃ t, s = t ++ r ∧ Val u t x := by
  unfold scanAtom at h
  split at h
  · next p hp =>
    simp only [Option.some.injEq] at h
    subst h
    obtain ⟨w, h1, rfl⟩ := scanWord_only hp
    refine ⟨w, rfl, ?_⟩
    simp only [words, List.mem_cons, Prod.mk.injEq, List.not_mem_nil, or_false] at h1
    rcases h1 with ⟨rfl, rfl⟩ | ⟨rfl, rfl⟩ | ⟨rfl, rfl⟩ | ⟨rfl, rfl⟩ | ⟨rfl, rfl⟩ | ⟨rfl, rfl⟩
    · exact Val.null
    · exact Val.true
    · exact Val.false
    · exact Val.nan
    · exact Val.infinity
    · exact Val.minusInfinity
  · exact scanNumber_only u h

/-! ## Strings -/

theorem unesc_text {c : Char} {n : Nat} (h : unesc c = some n) : CodeText ['\\', c] n := by
  unfold unesc at h
  split at h
  · next hc =>
    simp only [Option.some.injEq] at h
    rcases hc with rfl | rfl | rfl <;> subst h
    · exact CodeText.quote
    · exact CodeText.backslash
    · exact CodeText.slash
  · split at h
    · next hc => simp only [Option.some.injEq] at h; subst h hc; exact CodeText.backspace
    · split at h
      · next hc => simp only [Option.some.injEq] at h; subst h hc; exact CodeText.formFeed
      · split at h
        · next hc => simp only [Option.some.injEq] at h; subst h hc; exact CodeText.lineFeed
        · split at h
          · next hc => simp only [Option.some.injEq] at h; subst h hc; exact CodeText.carriageReturn
          · split at h
            · next hc => simp only [Option.some.injEq] at h; subst h hc; exact CodeText.tab
            · simp at h

theorem consCode_some {n : Nat} {o : Option (List Nat × Str)} {cs : List Nat} {r : Str} (h : consCode n o = some (cs, r)) :
    ∃ cs', cs = n :: cs' ∧ o = some (cs', r) := by
  unfold consCode at h
  rw [Option.map_eq_some_iff] at h
  obtain ⟨⟨a, b⟩, h1, h2⟩ := h
  simp only [Prod.mk.injEq] at h2
  obtain ⟨rfl, rfl⟩ := h2
  exact ⟨a, rfl, h1⟩

theorem scan_hexStep {k acc : Nat} {s r : Str} {cs : List Nat} (h : scanStr (.hex k acc) s = some (cs, r)) :
    ∃ c d s', s = c :: s' ∧ hexVal c = some d ∧
      Nat.rec (motive := fun _ => Option (List Nat × Str)) (consCode (acc * 16 + d) (scanStr .plain s')) (fun k _ => scanStr (.hex k (acc * 16 + d)) s') k = some (cs, r) := by
  cases s with
  | nil => simp [scanStr] at h
  | cons c s' =>
    rw [scanStr] at h
    cases hd : hexVal c with
    | none => rw [hd] at h; simp at h
    | some d =>
      rw [hd] at h
      refine ⟨c, d, s', rfl, hd, ?_⟩
      cases k <;> exact h

theorem scan_pieces (n : Nat) : ∀ {s r : Str} {cs : List Nat}, s.length ≤ n → scanStr .plain s = some (cs, r) → ∃ b, s = b ++ '"' :: r ∧ Codes b cs := by
  induction n with
  | zero =>
    intro s r cs hn h
    have : s = [] := by cases s <;> simp_all
    subst this; simp [scanStr] at h
  | succ n ih =>
    intro s r cs hn h
    cases s with
    | nil => simp [scanStr] at h
    | cons c s =>
      rw [List.length_cons] at hn
      rw [scanStr] at h
      by_cases h1 : c = '"'
      · rw [if_pos h1] at h
        simp only [Option.some.injEq, Prod.mk.injEq] at h
        obtain ⟨rfl, rfl⟩ := h
        exact ⟨[], by rw [h1]; rfl, Codes.nil⟩
      rw [if_neg h1] at h
      by_cases h2 : c = '\\'
      · rw [if_pos h2] at h
        subst h2
        cases s with
        | nil => simp [scanStr] at h
        | cons d s =>
          rw [List.length_cons] at hn
          rw [scanStr] at h
          by_cases h3 : d = 'u'
          · rw [if_pos h3] at h
            subst h3
            obtain ⟨a1, x1, s1, rfl, e1, h⟩ := scan_hexStep h
            obtain ⟨a2, x2, s2, rfl, e2, h⟩ := scan_hexStep h
            obtain ⟨a3, x3, s3, rfl, e3, h⟩ := scan_hexStep h
            obtain ⟨a4, x4, s4, rfl, e4, h⟩ := scan_hexStep h
            obtain ⟨cs', rfl, h'⟩ := consCode_some h
            simp only [List.length_cons] at hn
            obtain ⟨b, rfl, hb⟩ := ih (by omega) h'
            refine ⟨('\\' :: 'u' :: [a1, a2, a3, a4]) ++ b, by simp, Codes.cons (CodeText.unicode _ _ ?_) hb⟩
            exact ⟨a1, a2, a3, a4, x1, x2, x3, x4, rfl, e1, e2, e3, e4, by omega⟩
          · rw [if_neg h3] at h
            cases hu : unesc d with
            | none => rw [hu] at h; simp at h
            | some m =>
              rw [hu] at h
              obtain ⟨cs', rfl, h'⟩ := consCode_some h
              obtain ⟨b, rfl, hb⟩ := ih (by omega) h'
              exact ⟨['\\', d] ++ b, by simp, Codes.cons (unesc_text hu) hb⟩
      rw [if_neg h2] at h
      by_cases h3 : c.toNat < 32
      · rw [if_pos h3] at h; simp at h
      rw [if_neg h3] at h
      obtain ⟨cs', rfl, h'⟩ := consCode_some h
      obtain ⟨b, rfl, hb⟩ := ih (by omega) h'
      exact ⟨[c] ++ b, by simp, Codes.cons (CodeText.raw c (by omega) h1 h2) hb⟩

theorem hexVal_lt {c : Char} {d : Nat} (h : hexVal c = some d) : d < 16 := by
  unfold hexVal at h
  rw [Option.bind_eq_some_iff] at h
  obtain ⟨a, _, h⟩ := h
  by_cases ha : a < 16
  · rw [if_pos ha] at h
    simp only [Option.some.injEq] at h; omega
  · rw [if_neg ha] at h; simp at h

theorem hex4_lt {t : Str} {n : Nat} (h : Hex4 t n) : n < 65536 := by
  obtain ⟨a, b, c, d, x, y, z, w, rfl, h1, h2, h3, h4, rfl⟩ := h
  have := hexVal_lt h1; have := hexVal_lt h2; have := hexVal_lt h3; have := hexVal_lt h4
  omega

theorem ofNat_toNat {n : Nat} (h : n < 0xd800 ∨ (0xdfff < n ∧ n < 0x110000)) : (Char.ofNat n).toNat = n := by
  have hv : n.isValidChar := h
  rw [Char.ofNat, dif_pos hv]; rfl

theorem code_valid {t : Str} {n : Nat} (h : CodeText t n) : n < 0x110000 := by
  cases h with
  | raw c => have := char_range c; omega
  | unicode t n h => have := hex4_lt h; omega
  | _ => omega

theorem join_charsOf (k : Nat) : ∀ {l : List Nat}, l.length ≤ k → (∀ n ∈ l, n < 0x110000) → CharsOf l (joinCodes l) := by
  induction k with
  | zero =>
    intro l hk _
    have : l = [] := by cases l <;> simp_all
    subst this; exact CharsOf.nil
  | succ k ih =>
    intro l hk hv
    cases l with
    | nil => exact CharsOf.nil
    | cons n l =>
      rw [List.length_cons] at hk
      have hn := hv n (by simp)
      have hv' : ∀ m ∈ l, m < 0x110000 := fun m hm => hv m (by simp [hm])
      by_cases h1 : isHigh n = true
      · by_cases h2 : ∃ m r, l = m :: r ∧ LowCode m
        · obtain ⟨m, r, rfl, h2⟩ := h2
          rw [List.length_cons] at hk
          rw [joinCodes, h1, isLow_iff.2 h2, Bool.and_self, if_pos rfl]
          rw [isHigh_iff] at h1
          unfold HighCode at h1
          unfold LowCode at h2
          have hr := ih (l := r) (by omega) fun x hx => hv' x (by simp [hx])
          have := CharsOf.pair (Char.ofNat (0x10000 + (n - 0xd800) * 1024 + (m - 0xdc00))) (n - 0xd800) (m - 0xdc00) (by omega) (by omega) (ofNat_toNat (by omega)) hr
          rwa [show 0xd800 + (n - 0xd800) = n by omega, show 0xdc00 + (m - 0xdc00) = m by omega] at this
        · have h3 : ∀ m ∈ l.head?, ¬ LowCode m := by
            intro m hm hl
            cases l with
            | nil => simp at hm
            | cons a l =>
              simp only [List.head?_cons, Option.mem_def, Option.some.injEq] at hm
              subst hm
              exact h2 ⟨a, l, rfl, hl⟩
          rw [isHigh_iff] at h1
          rw [join_high h1 h3]
          exact CharsOf.loneHigh n h1 h3 (ih (by omega) hv')
      · have h1' : isHigh n = false := by simpa using h1
        rw [joinCodes_cons h1', ofCode, h1', Bool.false_or]
        by_cases h2 : isLow n = true
        · rw [if_pos h2]
          exact CharsOf.loneLow n (isLow_iff.1 h2) (ih (by omega) hv')
        · rw [if_neg h2]
          rw [isHigh_iff] at h1
          rw [isLow_iff] at h2
          unfold HighCode at h1
          unfold LowCode at h2
          have := CharsOf.char (Char.ofNat n) (ih (l := l) (by omega) hv')
          rwa [ofNat_toNat (by omega)] at this

theorem codes_valid {b : Str} {l : List Nat} (h : Codes b l) : ∀ n ∈ l, n < 0x110000 := by
  induction h with
  | nil => simp
  | cons hc _ ih =>
    intro n hn
    rcases List.mem_cons.1 hn with rfl | hn
    · exact code_valid hc
    · exact ih n hn

theorem scanString_only {s r k : Str} (h : scanString s = some (k, r)) : ∃ b l, s = b ++ '"' :: r ∧ Codes b l ∧ CharsOf l k := by
  unfold scanString at h
  rw [Option.map_eq_some_iff] at h
  obtain ⟨⟨cs, r'⟩, h1, h2⟩ := h
  simp only [Prod.mk.injEq] at h2
  obtain ⟨rfl, rfl⟩ := h2
  obtain ⟨b, hb, hp⟩ := scan_pieces _ le_rfl h1
  exact ⟨b, cs, hb, hp, join_charsOf _ le_rfl (codes_valid hp)⟩

/-! ## Values -/

theorem ws_append {w w' : Str} (h : Ws w) (h' : Ws w') : Ws (w ++ w') := by
  intro c hc
  rcases List.mem_append.1 hc with hc | hc
  · exact h c hc
  · exact h' c hc

theorem items_ws {u : UniDB} {w t : Str} {l : List PVal} (hw : Ws w) (h : Items u t l) : Items u (w ++ t) l := by
  cases h with
  | one h1 h2 h3 => rw [← List.append_assoc]; exact Items.one (ws_append hw h1) h2 h3
  | more h1 h2 h3 h4 => rw [← List.append_assoc]; exact Items.more (ws_append hw h1) h2 h3 h4

theorem members_ws {u : UniDB} {w t : Str} {l : List (Str × PVal)} (hw : Ws w) (h : Members u t l) : Members u (w ++ t) l := by
  cases h with
  | one h1 h2 h3 h4 h5 h6 => rw [← List.append_assoc]; exact Members.one (ws_append hw h1) h2 h3 h4 h5 h6
  | more h1 h2 h3 h4 h5 h6 h7 => rw [← List.append_assoc]; exact Members.more (ws_append hw h1) h2 h3 h4 h5 h6 h7

theorem ws_nil : Ws [] := by intro c hc; simp at hc

theorem scan_only (u : UniDB) (n : Nat) :
    (∀ s r x, scanVal u n s = some (x, r) → ∃ t, s = t ++ r ∧ Val u t x) ∧
    (∀ s r l, scanItems u n s = some (l, r) → ∃ t, s = t ++ ']' :: r ∧ Items u t l) ∧
    (∀ s r l, scanPairs u n s = some (l, r) → ∃ t, s = t ++ '}' :: r ∧ Members u t l) := by
  induction n with
  | zero => refine ⟨?_, ?_, ?_⟩ <;> intro s r x h <;> simp [scanVal, scanItems, scanPairs] at h
  | succ n ih =>
    obtain ⟨ihV, ihI, ihP⟩ := ih
    refine ⟨?_, ?_, ?_⟩
    · intro s r x h
      unfold scanVal at h
      split at h
      · next r0 =>
        rw [Option.map_eq_some_iff] at h
        obtain ⟨⟨k, r'⟩, h1, h2⟩ := h
        simp only [Prod.mk.injEq] at h2
        obtain ⟨rfl, rfl⟩ := h2
        obtain ⟨b, cs, rfl, hb⟩ := scanString_only h1
        exact ⟨'"' :: b ++ ['"'], by simp, Val.str ⟨b, cs, rfl, hb⟩⟩
      · next r0 =>
        obtain ⟨w, hw, hr⟩ := skip_split r0
        split at h
        · next r' he =>
          simp only [Option.some.injEq, Prod.mk.injEq] at h
          obtain ⟨rfl, rfl⟩ := h
          rw [he] at hr
          exact ⟨'[' :: (w ++ [']']), by rw [hr]; simp, Val.emptyList hw⟩
        · next he =>
          rw [Option.map_eq_some_iff] at h
          obtain ⟨⟨l, r'⟩, h1, h2⟩ := h
          simp only [Prod.mk.injEq] at h2
          obtain ⟨rfl, rfl⟩ := h2
          obtain ⟨t, ht, hI⟩ := ihI _ _ _ h1
          refine ⟨'[' :: ((w ++ t) ++ [']']), ?_, Val.list (items_ws hw hI)⟩
          rw [hr, ht]; simp
      · next r0 =>
        obtain ⟨w, hw, hr⟩ := skip_split r0
        split at h
        · next r' he =>
          simp only [Option.some.injEq, Prod.mk.injEq] at h
          obtain ⟨rfl, rfl⟩ := h
          rw [he] at hr
          exact ⟨'{' :: (w ++ ['}']), by rw [hr]; simp, Val.emptyDict hw⟩
        · next he =>
          rw [Option.map_eq_some_iff] at h
          obtain ⟨⟨l, r'⟩, h1, h2⟩ := h
          simp only [Prod.mk.injEq] at h2
          obtain ⟨rfl, rfl⟩ := h2
          obtain ⟨t, ht, hM⟩ := ihP _ _ _ h1
          refine ⟨'{' :: ((w ++ t) ++ ['}']), ?_, Val.dict (members_ws hw hM)⟩
          rw [hr, ht]; simp
      · exact scanAtom_only u h
    · intro s r l h
      unfold scanItems at h
      split at h
      · simp at h
      · next x r1 hx =>
        obtain ⟨t, rfl, hV⟩ := ihV _ _ _ hx
        obtain ⟨w, hw, hr⟩ := skip_split r1
        split at h
        · next r' he =>
          simp only [Option.some.injEq, Prod.mk.injEq] at h
          obtain ⟨rfl, rfl⟩ := h
          rw [he] at hr
          exact ⟨[] ++ (t ++ w), by rw [hr]; simp, Items.one ws_nil hV hw⟩
        · next r' he =>
          rw [Option.map_eq_some_iff] at h
          obtain ⟨⟨l', r''⟩, h1, h2⟩ := h
          simp only [Prod.mk.injEq] at h2
          obtain ⟨rfl, rfl⟩ := h2
          obtain ⟨t', ht', hI⟩ := ihI _ _ _ h1
          obtain ⟨w2, hw2, hr2⟩ := skip_split r'
          rw [he] at hr
          refine ⟨[] ++ (t ++ (w ++ ',' :: (w2 ++ t'))), ?_, Items.more ws_nil hV hw (items_ws hw2 hI)⟩
          rw [hr, hr2, ht']; simp
        · simp at h
    · intro s r l h
      unfold scanPairs at h
      split at h
      · next r0 =>
        split at h
        · simp at h
        · next k r1 hk =>
          obtain ⟨b, cs, rfl, hb⟩ := scanString_only hk
          obtain ⟨w1, hw1, hr1⟩ := skip_split r1
          split at h
          · next r2 he1 =>
            rw [he1] at hr1
            obtain ⟨w2, hw2, hr2⟩ := skip_split r2
            split at h
            · simp at h
            · next x r3 hx =>
              obtain ⟨t, ht, hV⟩ := ihV _ _ _ hx
              obtain ⟨w3, hw3, hr3⟩ := skip_split r3
              split at h
              · next r' he =>
                simp only [Option.some.injEq, Prod.mk.injEq] at h
                obtain ⟨rfl, rfl⟩ := h
                rw [he] at hr3
                refine ⟨[] ++ (('"' :: b ++ ['"']) ++ (w1 ++ ':' :: (w2 ++ (t ++ w3)))), ?_, Members.one ws_nil ⟨b, cs, rfl, hb⟩ hw1 hw2 hV hw3⟩
                rw [hr1, hr2, ht, hr3]; simp
              · next r' he =>
                rw [Option.map_eq_some_iff] at h
                obtain ⟨⟨l', r''⟩, h1, h2⟩ := h
                simp only [Prod.mk.injEq] at h2
                obtain ⟨rfl, rfl⟩ := h2
                obtain ⟨t', ht', hM⟩ := ihP _ _ _ h1
                obtain ⟨w4, hw4, hr4⟩ := skip_split r'
                rw [he] at hr3
                refine ⟨[] ++ (('"' :: b ++ ['"']) ++ (w1 ++ ':' :: (w2 ++ (t ++ (w3 ++ ',' :: (w4 ++ t')))))), ?_,
                  Members.more ws_nil ⟨b, cs, rfl, hb⟩ hw1 hw2 hV hw3 (members_ws hw4 hM)⟩
                rw [hr1, hr2, ht, hr3, hr4, ht']; simp
              · simp at h
          · simp at h
      · simp at h

/-- whatever `json.loads` accepts is a JSON text for the value it returns -/
theorem loads_only (u : UniDB) {s : Str} {x : PVal} (h : loads u s = .ok x) : Denotes u s x := by
  unfold loads at h
  split at h
  · simp at h
  · split at h
    · simp at h
    · next y r hy =>
      obtain ⟨t, ht, hV⟩ := (scan_only u _).1 _ _ _ hy
      obtain ⟨w, hw, hr⟩ := skip_split s
      obtain ⟨w', hw', hr'⟩ := skip_split r
      by_cases h0 : skipWs r = []
      · rw [if_pos h0] at h
        simp only [Except.ok.injEq] at h
        subst h
        rw [h0, List.append_nil] at hr'
        exact ⟨w, t, r, by rw [← ht]; exact hr, hw, hV, hr' ▸ hw'⟩
      · rw [if_neg h0] at h; simp at h

end BT.Json
