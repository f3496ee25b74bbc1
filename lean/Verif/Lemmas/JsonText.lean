import Verif.Ext
import Verif.Lemmas.Amount

/-! # `json.loads` reads back what `json.dumps` wrote -/

namespace BT.Json

/-! ## Strings -/

theorem hexVal_digit : ∀ d < 16, hexVal (digitChar d) = some d := by decide

theorem scan_hex4 {n : Nat} (h : n < 65536) (t : Str) : scanStr (.hex 3 0) (hex4 n ++ t) = consCode n (scanStr .plain t) := by
  simp only [hex4, List.cons_append, List.nil_append, scanStr, hexVal_digit _ (Nat.mod_lt _ (by norm_num : 0 < 16))]
  congr 1
  omega

/-- The UTF-16 codes of a character. -/
def codes (c : Char) : List Nat :=
  if c.toNat < 0x10000 then [c.toNat] else [0xd800 + (c.toNat - 0x10000) / 1024, 0xdc00 + (c.toNat - 0x10000) % 1024]

theorem char_range (c : Char) : c.toNat < 0xd800 ∨ (0xdfff < c.toNat ∧ c.toNat < 0x110000) := c.valid

/-- Put several codes in front. -/
def consCodes : List Nat → Option (List Nat × Str) → Option (List Nat × Str)
  | [], r => r
  | n :: l, r => consCode n (consCodes l r)

theorem scan_esc (c : Char) (t : Str) : scanStr .plain (escChar c ++ t) = consCodes (codes c) (scanStr .plain t) := by
  have hc := char_range c
  unfold escChar
  by_cases h1 : c = '"'
  · subst h1; rfl
  rw [if_neg h1]
  by_cases h2 : c = '\\'
  · subst h2; rfl
  rw [if_neg h2]
  by_cases h3 : c = '\n'
  · subst h3; rfl
  rw [if_neg h3]
  by_cases h4 : c = '\r'
  · subst h4; rfl
  rw [if_neg h4]
  by_cases h5 : c = '\t'
  · subst h5; rfl
  rw [if_neg h5]
  by_cases h6 : c.toNat = 12
  · rw [if_pos h6]; simp [codes, h6, consCodes, scanStr, unesc]
  rw [if_neg h6]
  by_cases h7 : c.toNat = 8
  · rw [if_pos h7]; simp [codes, h7, consCodes, scanStr, unesc]
  rw [if_neg h7]
  by_cases h8 : 32 ≤ c.toNat ∧ c.toNat ≤ 126
  · rw [if_pos h8]
    simp only [List.cons_append, List.nil_append, scanStr, if_neg h1, if_neg h2]
    rw [if_neg (by omega), codes, if_pos (by omega)]
    rfl
  rw [if_neg h8]
  by_cases h9 : c.toNat < 0x10000
  · rw [if_pos h9]
    simp only [List.cons_append]
    rw [show scanStr .plain ('\\' :: 'u' :: (hex4 c.toNat ++ t)) = scanStr (.hex 3 0) (hex4 c.toNat ++ t) from rfl, scan_hex4 (by omega)]
    rw [codes, if_pos h9]; rfl
  · rw [if_neg h9]
    simp only [List.cons_append, List.append_assoc]
    rw [show ∀ a b : Str, scanStr .plain ('\\' :: 'u' :: (a ++ b)) = scanStr (.hex 3 0) (a ++ b) from fun _ _ => rfl, scan_hex4 (by omega)]
    rw [show ∀ a b : Str, scanStr .plain ('\\' :: 'u' :: (a ++ b)) = scanStr (.hex 3 0) (a ++ b) from fun _ _ => rfl, scan_hex4 (by omega)]
    rw [codes, if_neg h9]; rfl

theorem consCodes_some (l m : List Nat) (t : Str) : consCodes l (some (m, t)) = some (l ++ m, t) := by
  induction l with
  | nil => rfl
  | cons n l ih => simp [consCodes, ih, consCode]

theorem scan_text (s t : Str) : scanStr .plain (s.flatMap escChar ++ '"' :: t) = some (s.flatMap codes, t) := by
  induction s with
  | nil => rfl
  | cons c s ih => rw [List.flatMap_cons, List.append_assoc, scan_esc, ih, consCodes_some, List.flatMap_cons]

theorem joinCodes_cons {a : Nat} (h : isHigh a = false) (r : List Nat) : joinCodes (a :: r) = ofCode a :: joinCodes r := by
  cases r with
  | nil => rfl
  | cons b r => rw [joinCodes]; simp [h]

theorem joinPair {c : Char} (h : ¬ c.toNat < 0x10000) :
    Char.ofNat (0x10000 + (0xd800 + (c.toNat - 0x10000) / 1024 - 0xd800) * 1024 + (0xdc00 + (c.toNat - 0x10000) % 1024 - 0xdc00)) = c := by
  have e : ∀ n : Nat, ¬ n < 0x10000 →
      0x10000 + (0xd800 + (n - 0x10000) / 1024 - 0xd800) * 1024 + (0xdc00 + (n - 0x10000) % 1024 - 0xdc00) = n := by
    intro n hn; omega
  exact (congrArg Char.ofNat (e _ h)).trans (Char.ofNat_toNat c)

theorem join_codes (s : Str) : joinCodes (s.flatMap codes) = s := by
  induction s with
  | nil => rfl
  | cons c s ih =>
    have hc := char_range c
    rw [List.flatMap_cons, codes]
    by_cases h : c.toNat < 0x10000
    · rw [if_pos h]
      have h1 : isHigh c.toNat = false := by simp [isHigh]; omega
      have h2 : isLow c.toNat = false := by simp [isLow]; omega
      rw [List.cons_append, List.nil_append, joinCodes_cons h1, ih, ofCode, h1, h2]
      simp
    · rw [if_neg h, List.cons_append, List.cons_append, List.nil_append, joinCodes, if_pos, ih]
      · rw [joinPair h]
      · simp [isHigh, isLow]; omega

theorem scanString_dump (s t : Str) : scanString (s.flatMap escChar ++ '"' :: t) = some (s, t) := by
  simp [scanString, scan_text, join_codes]

/-! ## Numbers -/

/-- What may follow a number: not a character that would continue it. -/
def Ends (t : Str) : Prop := ∀ c ∈ t.head?, isDigit c = false ∧ c ≠ '.' ∧ c ≠ 'e' ∧ c ≠ 'E'

theorem isDigit_of {c : Char} (h : IsDig c) : isDigit c = true := by
  obtain ⟨d, hd, rfl⟩ := h
  revert d; decide

theorem takeWhile_digits {a t : Str} (ha : ∀ c ∈ a, isDigit c = true) (ht : Ends t) :
    digits (a ++ t) = (a, t) := by
  induction a with
  | nil =>
    cases t with
    | nil => rfl
    | cons c t =>
      have := (ht c rfl).1
      simp [digits, this]
  | cons x a ih =>
    have h1 := ih fun c hc => ha c (by simp [hc])
    have h2 := ha x (by simp)
    simp only [digits, Prod.mk.injEq] at h1 ⊢
    simp [h2, h1.1, h1.2]

theorem natOf_digits : ∀ (l : List Nat), (∀ d ∈ l, d < 10) → natOf ((l.map digitChar).reverse) = Nat.ofDigits 10 l := by
  intro l
  induction l with
  | nil => intro _; rfl
  | cons d l ih =>
    intro h
    have h1 := ih fun x hx => h x (by simp [hx])
    have hd := h d (by simp)
    rw [List.map_cons, List.reverse_cons, natOf, List.foldl_append]
    rw [show (List.map digitChar l).reverse.foldl (fun n c => 10 * n + (c.toNat - 48)) 0 = natOf ((List.map digitChar l).reverse) from rfl, h1]
    simp only [List.foldl_cons, List.foldl_nil, Nat.ofDigits_cons]
    have key : ∀ d < 10, (digitChar d).toNat - 48 = d := by decide
    rw [key d hd]; ring

theorem natOf_natDigits (n : Nat) : natOf (natDigits 10 n) = n := by
  unfold natDigits
  split
  · next h => subst h; rfl
  · rw [natOf_digits _ fun d hd => Nat.digits_lt_base (by norm_num) hd, Nat.ofDigits_digits]

theorem scanFrac_ends {t : Str} (h : Ends t) : scanFrac t = ([], t) := by
  cases t with
  | nil => rfl
  | cons c t =>
    have := (h c rfl).2.1
    unfold scanFrac
    split
    · next r hr => simp only [List.cons.injEq] at hr; exact absurd hr.1 this
    · rfl

theorem scanExp_ends {t : Str} (h : Ends t) : scanExp t = ([], t) := by
  cases t with
  | nil => rfl
  | cons c t =>
    obtain ⟨_, _, h1, h2⟩ := h c rfl
    simp [scanExp, h1, h2]

theorem scanInt_natDigits (n : Nat) {t : Str} (h : Ends t) : scanInt (natDigits 10 n ++ t) = some (natDigits 10 n, t) := by
  by_cases h0 : n = 0
  · subst h0; rfl
  · have hh := natDigits_head n h0
    have hd := natDigits_dig n
    cases hn : natDigits 10 n with
    | nil => exact absurd hn (natDigits_ne_nil n)
    | cons c r =>
      rw [hn] at hh hd
      have hc : c ≠ '0' := by simpa using hh
      have h1 : isDigit c = true := isDigit_of (hd c (by simp))
      have h2 := takeWhile_digits (a := r) (t := t) (fun x hx => isDigit_of (hd x (by simp [hx]))) h
      rw [List.cons_append]
      unfold scanInt
      split
      · next h => simp only [List.cons.injEq] at h; exact absurd h.1 hc
      · next h =>
        simp only [List.cons.injEq] at h
        obtain ⟨rfl, rfl⟩ := h
        simp [h1, h2]
      · next h => simp at h

theorem digit_notword {c : Char} (h : isDigit c = true) (t : Str) : scanWord words (c :: t) = none := by
  have h' : ∀ w ∈ ['n', 't', 'f', 'N', 'I', '-'], c ≠ w := by
    rintro w hw rfl
    simp only [List.mem_cons, List.not_mem_nil, or_false] at hw
    rcases hw with rfl | rfl | rfl | rfl | rfl | rfl <;> revert h <;> decide
  simp only [List.mem_cons, List.not_mem_nil, or_false, forall_eq_or_imp, forall_eq] at h'
  obtain ⟨h1, h2, h3, h4, h5, h6⟩ := h'
  simp [words, scanWord, h1, h2, h3, h4, h5, h6]

theorem scanAtom_int (u : UniDB) (n : Int) {t : Str} (h : Ends t) : scanAtom u (pyStr n ++ t) = some (.int n, t) := by
  have hnum : ∀ m : Nat, scanMinus (natDigits 10 m ++ t) = (false, natDigits 10 m ++ t) ∧ ∃ c r, natDigits 10 m ++ t = c :: r ∧ isDigit c = true := by
    intro m
    cases hn : natDigits 10 m with
    | nil => exact absurd hn (natDigits_ne_nil m)
    | cons c r =>
      have hc : isDigit c = true := isDigit_of (natDigits_dig m c (by rw [hn]; simp))
      refine ⟨?_, c, r ++ t, rfl, hc⟩
      rw [List.cons_append]
      unfold scanMinus
      split
      · next h =>
        simp only [List.cons.injEq] at h
        rw [h.1] at hc
        exact absurd hc (by decide)
      · rfl
  unfold scanAtom pyStr
  by_cases hn : n < 0
  · rw [if_pos hn, List.cons_append]
    obtain ⟨-, c, r, hcr, hc⟩ := hnum n.natAbs
    have hw : scanWord words ('-' :: (natDigits 10 n.natAbs ++ t)) = none := by
      rw [hcr]
      have : c ≠ 'I' := by rintro rfl; revert hc; decide
      simp [words, scanWord, this]
    rw [hw]
    simp only [scanNumber, scanMinus, scanInt_natDigits _ h, scanFrac_ends h, scanExp_ends h, and_self, if_true, natOf_natDigits]
    congr 3; omega
  · rw [if_neg hn]
    obtain ⟨hm, c, r, hcr, hc⟩ := hnum n.natAbs
    have hw : scanWord words (natDigits 10 n.natAbs ++ t) = none := by rw [hcr]; exact digit_notword hc r
    rw [hw]
    simp only [scanNumber, hm, scanInt_natDigits _ h, scanFrac_ends h, scanExp_ends h, and_self, if_true, natOf_natDigits]
    simp only [Bool.false_eq_true, if_false]
    congr 3; omega

/-! ## Values -/

theorem skip_newline (k : Nat) {c : Char} (h : isWs c = false) (t : Str) : skipWs (newline k ++ c :: t) = c :: t := by
  have : ∀ m, skipWs (List.replicate m ' ' ++ c :: t) = c :: t := by
    intro m
    induction m with
    | zero => simp [skipWs, h]
    | succ m ih => rw [List.replicate_succ, List.cons_append]; exact ih
  exact this _

theorem skip_nonws {c : Char} (h : isWs c = false) (t : Str) : skipWs (c :: t) = c :: t := by simp [skipWs, h]

mutual
/-- Bound on the recursion that reading the text of a value needs. -/
def need : PVal → Nat
  | .list l => 1 + needL l
  | .dict d => 1 + needD d
  | _ => 1
def needL : List PVal → Nat
  | [] => 0
  | x :: xs => 1 + need x + needL xs
def needD : List (Str × PVal) → Nat
  | [] => 0
  | (_, x) :: r => 1 + need x + needD r
end

/-- A character that begins a value: no white space, no closing bracket. -/
def Starts (s : Str) : Prop := ∃ c r, s = c :: r ∧ isWs c = false ∧ c ≠ ']' ∧ c ≠ '}' ∧ c ≠ '"' ∧ c ≠ '[' ∧ c ≠ '{'

theorem starts_int (n : Int) : Starts (pyStr n) := by
  have key : ∀ d < 10, isWs (digitChar d) = false ∧ digitChar d ≠ ']' ∧ digitChar d ≠ '}' ∧ digitChar d ≠ '"' ∧ digitChar d ≠ '[' ∧
    digitChar d ≠ '{' := by decide
  unfold pyStr
  split
  · exact ⟨_, _, rfl, by decide⟩
  · cases hn : natDigits 10 n.natAbs with
    | nil => exact absurd hn (natDigits_ne_nil _)
    | cons c r =>
      obtain ⟨d, hd, rfl⟩ := natDigits_dig n.natAbs c (by rw [hn]; simp)
      exact ⟨_, _, rfl, key d hd⟩

theorem scanVal_atom (u : UniDB) {s : Str} (h : Starts s) (n : Nat) (t : Str) : scanVal u (n + 1) (s ++ t) = scanAtom u (s ++ t) := by
  obtain ⟨c, r, rfl, _, _, _, h1, h2, h3⟩ := h
  rw [List.cons_append, scanVal]
  · intro r h; simp only [List.cons.injEq] at h; exact h1 h.1
  · intro r h; simp only [List.cons.injEq] at h; exact h2 h.1
  · intro r h; simp only [List.cons.injEq] at h; exact h3 h.1

/-- The first character of a dumped value. -/
theorem dump_head (fr : PyFloat → Str) (k : Nat) (x : PVal) (h : x.jsonSafe = true) :
    ∃ c r, dumpV fr k x = c :: r ∧ isWs c = false ∧ c ≠ ']' ∧ c ≠ '}' := by
  cases x with
  | none => exact ⟨_, _, rfl, by decide⟩
  | bool b => cases b <;> exact ⟨_, _, rfl, by decide⟩
  | int n =>
    obtain ⟨c, r, e, h1, h2, h3, _⟩ := starts_int n
    exact ⟨c, r, e, h1, h2, h3⟩
  | float f => simp [PVal.jsonSafe] at h
  | str s => exact ⟨_, _, rfl, by decide⟩
  | list l =>
    cases l with
    | nil => exact ⟨_, _, rfl, by decide⟩
    | cons x xs => rw [dumpV]; exact ⟨_, _, rfl, by decide⟩
  | dict d =>
    cases d with
    | nil => exact ⟨_, _, rfl, by decide⟩
    | cons p r => obtain ⟨key, x⟩ := p; rw [dumpV]; exact ⟨_, _, rfl, by decide⟩

theorem ends_cons {c : Char} (h : isDigit c = false ∧ c ≠ '.' ∧ c ≠ 'e' ∧ c ≠ 'E') (t : Str) : Ends (c :: t) := by
  intro c' hc
  simp only [List.head?_cons, Option.mem_def, Option.some.injEq] at hc
  subst hc; exact h

theorem ends_nil : Ends [] := by intro c hc; simp at hc

theorem ends_newline (k : Nat) (t : Str) : Ends (newline k ++ t) := ends_cons (by decide) _

theorem ends_dumpL (fr : PyFloat → Str) (k : Nat) (l : List PVal) (t : Str) (h : Ends t) : Ends (dumpL fr k l ++ t) := by
  cases l with
  | nil => exact h
  | cons x xs => rw [dumpL]; exact ends_cons (by decide) _

theorem ends_dumpD (fr : PyFloat → Str) (k : Nat) (l : List (Str × PVal)) (t : Str) (h : Ends t) : Ends (dumpD fr k l ++ t) := by
  cases l with
  | nil => exact h
  | cons x xs => obtain ⟨_, _⟩ := x; rw [dumpD]; exact ends_cons (by decide) _

theorem dictSet_new {d : List (Str × PVal)} {k : Str} (v : PVal) (h : ∀ p ∈ d, p.1 ≠ k) : dictSet d k v = d ++ [(k, v)] := by
  induction d with
  | nil => rfl
  | cons p d ih =>
    obtain ⟨k', w⟩ := p
    have h1 : k' ≠ k := h (k', w) (by simp)
    rw [dictSet, if_neg h1, ih fun q hq => h q (by simp [hq])]
    rfl

theorem dictOf_aux (l : List (Str × PVal)) : ∀ d : List (Str × PVal), PVal.jsonSafeD l = true → (∀ p ∈ d, ∀ q ∈ l, p.1 ≠ q.1) →
    l.foldl (fun d p => dictSet d p.1 p.2) d = d ++ l := by
  induction l with
  | nil => intro d _ _; simp
  | cons p l ih =>
    intro d hs hd
    obtain ⟨k, v⟩ := p
    simp only [PVal.jsonSafeD, Bool.and_eq_true, List.all_eq_true, bne_iff_ne, ne_eq] at hs
    rw [List.foldl_cons, dictSet_new v fun q hq => hd q hq (k, v) (by simp), ih _ hs.2]
    · simp
    · intro q hq q' hq'
      rcases List.mem_append.1 hq with hq | hq
      · exact hd q hq q' (by simp [hq'])
      · simp only [List.mem_cons, List.not_mem_nil, or_false] at hq
        subst hq
        exact fun e => hs.1.1 q' hq' e.symm

theorem dictOf_safe {l : List (Str × PVal)} (h : PVal.jsonSafeD l = true) : dictOf l = l := by
  have := dictOf_aux l [] h (by simp)
  simpa [dictOf] using this

theorem skip_key (k : Nat) (key t : Str) : skipWs (newline k ++ dumpStr key ++ t) = '"' :: (key.flatMap escChar ++ '"' :: t) := by
  rw [List.append_assoc, dumpStr, List.cons_append, skip_newline k (by decide)]
  simp

mutual
theorem read_val (u : UniDB) (fr : PyFloat → Str) (k : Nat) (x : PVal) (n : Nat) (t : Str) (hs : x.jsonSafe = true) (hn : need x ≤ n)
    (ht : Ends t) : scanVal u n (dumpV fr k x ++ t) = some (x, t) := by
  obtain ⟨n, rfl⟩ : ∃ m, n = m + 1 := ⟨n - 1, by cases x <;> simp [need] at hn <;> omega⟩
  cases x with
  | none => rfl
  | bool b => cases b <;> rfl
  | int i =>
    rw [dumpV, scanVal_atom u (starts_int i), scanAtom_int u i ht]
  | float f => simp [PVal.jsonSafe] at hs
  | str s =>
    rw [dumpV, dumpStr, List.cons_append, List.append_assoc]
    simp only [scanVal, List.cons_append, List.nil_append, scanString_dump, Option.map_some]
  | list l =>
    cases l with
    | nil => rfl
    | cons x xs =>
      simp only [PVal.jsonSafe, PVal.jsonSafeL, Bool.and_eq_true] at hs
      simp only [need, needL] at hn
      obtain ⟨c, r, hc, hw, h1, h2⟩ := dump_head fr (k + 1) x hs.1
      have e : dumpV fr k (.list (x :: xs)) ++ t =
          '[' :: (newline (k + 1) ++ (dumpV fr (k + 1) x ++ (dumpL fr (k + 1) xs ++ (newline k ++ ']' :: t)))) := by
        rw [dumpV]; simp
      have hsk : skipWs (newline (k + 1) ++ (dumpV fr (k + 1) x ++ (dumpL fr (k + 1) xs ++ (newline k ++ ']' :: t)))) =
          dumpV fr (k + 1) x ++ (dumpL fr (k + 1) xs ++ (newline k ++ ']' :: t)) := by
        rw [hc, List.cons_append, skip_newline _ hw]
      rw [e]
      have := read_items u fr (k + 1) k x xs n t hs.1 hs.2 (by omega)
      simp only [scanVal, hsk]
      rw [hc, List.cons_append] at this ⊢
      split
      · next h => simp only [List.cons.injEq] at h; exact absurd h.1 h1
      · rw [this]; rfl
  | dict d =>
    cases d with
    | nil => rfl
    | cons p r =>
      obtain ⟨key, x⟩ := p
      have hs' := hs
      simp only [PVal.jsonSafe, PVal.jsonSafeD, Bool.and_eq_true] at hs
      simp only [need, needD] at hn
      have e : dumpV fr k (.dict ((key, x) :: r)) ++ t =
          '{' :: (newline (k + 1) ++ dumpStr key ++ (py": " ++ (dumpV fr (k + 1) x ++ (dumpD fr (k + 1) r ++ (newline k ++ '}' :: t))))) := by
        rw [dumpV]; simp
      rw [e]
      have := read_pairs u fr (k + 1) k key x r n t hs.1.2 hs.2 (by omega)
      simp only [scanVal, skip_key]
      refine Eq.trans (b := (scanPairs u n _).map fun p => (PVal.dict (dictOf p.1), p.2)) rfl ?_
      rw [this, Option.map_some, dictOf_safe (by simpa [PVal.jsonSafe] using hs')]
termination_by n
decreasing_by all_goals omega
theorem read_items (u : UniDB) (fr : PyFloat → Str) (k k' : Nat) (x : PVal) (xs : List PVal) (n : Nat) (t : Str) (hs : x.jsonSafe = true)
    (hs' : PVal.jsonSafeL xs = true) (hn : 1 + need x + needL xs ≤ n) :
    scanItems u n (dumpV fr k x ++ (dumpL fr k xs ++ (newline k' ++ ']' :: t))) = some (x :: xs, t) := by
  obtain ⟨n, rfl⟩ : ∃ m, n = m + 1 := ⟨n - 1, by omega⟩
  have h1 := read_val u fr k x n (dumpL fr k xs ++ (newline k' ++ ']' :: t)) hs (by omega) (ends_dumpL fr k xs _ (ends_newline k' _))
  rw [scanItems, h1]
  cases xs with
  | nil =>
    simp only [dumpL, List.nil_append]
    rw [skip_newline k' (by decide)]
    rfl
  | cons y ys =>
    simp only [PVal.jsonSafeL, Bool.and_eq_true] at hs'
    simp only [needL] at hn
    obtain ⟨c, r, hc, hw, _⟩ := dump_head fr k y hs'.1
    have e : dumpL fr k (y :: ys) ++ (newline k' ++ ']' :: t) = ',' :: (newline k ++ (dumpV fr k y ++ (dumpL fr k ys ++ (newline k' ++ ']' :: t)))) := by
      rw [dumpL]; simp
    have hsk : skipWs (newline k ++ (dumpV fr k y ++ (dumpL fr k ys ++ (newline k' ++ ']' :: t)))) =
        dumpV fr k y ++ (dumpL fr k ys ++ (newline k' ++ ']' :: t)) := by
      rw [hc, List.cons_append, skip_newline _ hw]
    have := read_items u fr k k' y ys n t hs'.1 hs'.2 (by omega)
    simp only [e, skip_nonws (show isWs ',' = false by decide), hsk, this, Option.map_some]
termination_by n
decreasing_by all_goals omega
theorem read_pairs (u : UniDB) (fr : PyFloat → Str) (k k' : Nat) (key : Str) (x : PVal) (r : List (Str × PVal)) (n : Nat) (t : Str)
    (hs : x.jsonSafe = true) (hs' : PVal.jsonSafeD r = true) (hn : 1 + need x + needD r ≤ n) :
    scanPairs u n ('"' :: (key.flatMap escChar ++ '"' :: (py": " ++ (dumpV fr k x ++ (dumpD fr k r ++ (newline k' ++ '}' :: t)))))) =
      some ((key, x) :: r, t) := by
  obtain ⟨n, rfl⟩ : ∃ m, n = m + 1 := ⟨n - 1, by omega⟩
  have h1 := read_val u fr k x n (dumpD fr k r ++ (newline k' ++ '}' :: t)) hs (by omega) (ends_dumpD fr k r _ (ends_newline k' _))
  obtain ⟨c, w, hc, hw, _⟩ := dump_head fr k x hs
  have e1 : skipWs (py": " ++ (dumpV fr k x ++ (dumpD fr k r ++ (newline k' ++ '}' :: t)))) =
      ':' :: ' ' :: (dumpV fr k x ++ (dumpD fr k r ++ (newline k' ++ '}' :: t))) := rfl
  have e2 : skipWs (' ' :: (dumpV fr k x ++ (dumpD fr k r ++ (newline k' ++ '}' :: t)))) =
      dumpV fr k x ++ (dumpD fr k r ++ (newline k' ++ '}' :: t)) := by
    rw [hc, List.cons_append, show ∀ s, skipWs (' ' :: s) = skipWs s from fun _ => rfl, skip_nonws hw]
  simp only [scanPairs, scanString_dump, e1, e2, h1]
  cases r with
  | nil =>
    simp only [dumpD, List.nil_append]
    rw [skip_newline k' (by decide)]
    rfl
  | cons p r =>
    obtain ⟨key', y⟩ := p
    simp only [PVal.jsonSafeD, Bool.and_eq_true] at hs'
    simp only [needD] at hn
    have e : dumpD fr k ((key', y) :: r) ++ (newline k' ++ '}' :: t) =
        ',' :: (newline k ++ dumpStr key' ++ (py": " ++ (dumpV fr k y ++ (dumpD fr k r ++ (newline k' ++ '}' :: t))))) := by
      rw [dumpD]; simp
    have := read_pairs u fr k k' key' y r n t hs'.1.2 hs'.2 (by omega)
    simp only [e, skip_nonws (show isWs ',' = false by decide), skip_key, this, Option.map_some]
termination_by n
decreasing_by all_goals omega
end

mutual
theorem need_le (fr : PyFloat → Str) (k : Nat) (x : PVal) (h : x.jsonSafe = true) : need x ≤ (dumpV fr k x).length := by
  cases x with
  | none => simp [need, dumpV]
  | bool b => cases b <;> simp [need, dumpV]
  | int n => obtain ⟨c, r, e, _⟩ := starts_int n; simp [need, dumpV, e]
  | float f => simp [PVal.jsonSafe] at h
  | str s => simp [need, dumpV, dumpStr]
  | list l =>
    cases l with
    | nil => simp [need, dumpV, needL]
    | cons x xs =>
      simp only [PVal.jsonSafe, PVal.jsonSafeL, Bool.and_eq_true] at h
      have h1 := need_le fr (k + 1) x h.1
      have h2 := needL_le fr (k + 1) xs h.2
      simp [need, dumpV, needL, newline]; omega
  | dict d =>
    cases d with
    | nil => simp [need, dumpV, needD]
    | cons p r =>
      obtain ⟨key, x⟩ := p
      simp only [PVal.jsonSafe, PVal.jsonSafeD, Bool.and_eq_true] at h
      have h1 := need_le fr (k + 1) x h.1.2
      have h2 := needD_le fr (k + 1) r h.2
      simp [need, dumpV, needD, newline, dumpStr]; omega
theorem needL_le (fr : PyFloat → Str) (k : Nat) (l : List PVal) (h : PVal.jsonSafeL l = true) : needL l ≤ (dumpL fr k l).length := by
  cases l with
  | nil => simp [needL]
  | cons x xs =>
    simp only [PVal.jsonSafeL, Bool.and_eq_true] at h
    have h1 := need_le fr k x h.1
    have h2 := needL_le fr k xs h.2
    simp [needL, dumpL, newline]; omega
theorem needD_le (fr : PyFloat → Str) (k : Nat) (l : List (Str × PVal)) (h : PVal.jsonSafeD l = true) : needD l ≤ (dumpD fr k l).length := by
  cases l with
  | nil => simp [needD]
  | cons p r =>
    obtain ⟨key, x⟩ := p
    simp only [PVal.jsonSafeD, Bool.and_eq_true] at h
    have h1 := need_le fr k x h.1.2
    have h2 := needD_le fr k r h.2
    simp [needD, dumpD, newline, dumpStr]; omega
end

/-- `json.loads(json.dumps(x, indent=2)) == x` for data without floats. -/
theorem round_trip (u : UniDB) (fr : PyFloat → Str) (x : PVal) (h : x.jsonSafe = true) : loads u (dumps fr x) = .ok x := by
  obtain ⟨c, r, hc, hw, _⟩ := dump_head fr 0 x h
  have h0 : c ≠ '\ufeff' := by
    intro e
    have : ∀ (x : PVal), x.jsonSafe = true → (dumpV fr 0 x).head? ≠ some '\ufeff' := by
      intro x hx
      cases x with
      | none => simp [dumpV]
      | bool b => cases b <;> simp [dumpV]
      | int n =>
        simp only [dumpV, pyStr]
        split
        · simp
        · intro e
          have hd := natDigits_dig n.natAbs '\ufeff' (List.mem_of_mem_head? e)
          exact absurd (isDigit_of hd) (by decide)
      | float f => simp [PVal.jsonSafe] at hx
      | str s => simp [dumpV, dumpStr]
      | list l => cases l with
        | nil => simp [dumpV]
        | cons x xs => simp [dumpV]
      | dict d => cases d with
        | nil => simp [dumpV]
        | cons p r => obtain ⟨_, _⟩ := p; simp [dumpV]
    exact this x h (by rw [hc, e]; rfl)
  have hv := read_val u fr 0 x (2 * (dumpV fr 0 x).length + 2) [] h (by have := need_le fr 0 x h; omega) ends_nil
  rw [List.append_nil] at hv
  have hsk : skipWs (dumpV fr 0 x) = dumpV fr 0 x := by rw [hc]; exact skip_nonws hw r
  unfold loads dumps
  split
  · next s heq => rw [hc] at heq; simp only [List.cons.injEq] at heq; exact absurd heq.1 h0
  · rw [hsk, hv]; rfl

end BT.Json

/-- `json.loads(json.dumps(d))` gives float-free data back, whatever the environment. -/
theorem BT.Ext.json_round (X : BT.Ext) (d : BT.PVal) (h : d.jsonSafe = true) :
    X.jsonLoads (X.jsonDumps d) = .ok d := BT.Json.round_trip X.uni X.floatRepr d h
