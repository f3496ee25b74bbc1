import Verif.Lemmas.JsonOnly

/-! # What `json.dumps` writes is a JSON text -/

namespace BT.Json
open BT.Spec.JsonText

theorem hex4_text {n : Nat} (h : n < 65536) : Hex4 (hex4 n) n := by
  refine ⟨_, _, _, _, n / 4096 % 16, n / 256 % 16, n / 16 % 16, n % 16, rfl, hexVal_digit _ (by omega), hexVal_digit _ (by omega),
    hexVal_digit _ (by omega), hexVal_digit _ (by omega), by omega⟩

/-- a text for a sequence of codes in front of others -/
theorem codes_append {a b : Str} {l m : List Nat} (h : Codes a l) (h' : Codes b m) : Codes (a ++ b) (l ++ m) := by
  induction h with
  | nil => exact h'
  | cons hc _ ih => rw [List.append_assoc]; exact Codes.cons hc ih

theorem codes_one {a : Str} {n : Nat} (h : CodeText a n) : Codes a [n] := by
  have := Codes.cons h Codes.nil
  rwa [List.append_nil] at this

theorem esc_text (c : Char) : Codes (escChar c) (codes c) := by
  have hc := char_range c
  have e : c.toNat < 0x10000 → codes c = [c.toNat] := fun h => by rw [codes, if_pos h]
  unfold escChar
  by_cases h1 : c = '"'
  · rw [if_pos h1, e (by rw [h1]; decide), h1]; exact codes_one CodeText.quote
  rw [if_neg h1]
  by_cases h2 : c = '\\'
  · rw [if_pos h2, e (by rw [h2]; decide), h2]; exact codes_one CodeText.backslash
  rw [if_neg h2]
  by_cases h3 : c = '\n'
  · rw [if_pos h3, e (by rw [h3]; decide), h3]; exact codes_one CodeText.lineFeed
  rw [if_neg h3]
  by_cases h4 : c = '\r'
  · rw [if_pos h4, e (by rw [h4]; decide), h4]; exact codes_one CodeText.carriageReturn
  rw [if_neg h4]
  by_cases h5 : c = '\t'
  · rw [if_pos h5, e (by rw [h5]; decide), h5]; exact codes_one CodeText.tab
  rw [if_neg h5]
  by_cases h6 : c.toNat = 12
  · rw [if_pos h6, e (by omega), h6]; exact codes_one CodeText.formFeed
  rw [if_neg h6]
  by_cases h7 : c.toNat = 8
  · rw [if_pos h7, e (by omega), h7]; exact codes_one CodeText.backspace
  rw [if_neg h7]
  by_cases h8 : 32 ≤ c.toNat ∧ c.toNat ≤ 126
  · rw [if_pos h8, e (by omega)]; exact codes_one (CodeText.raw c h8.1 h1 h2)
  rw [if_neg h8]
  by_cases h9 : c.toNat < 0x10000
  · rw [if_pos h9, e h9]; exact codes_one (CodeText.unicode _ _ (hex4_text h9))
  rw [if_neg h9]
  rw [codes, if_neg h9]
  exact codes_append (codes_one (CodeText.unicode _ _ (hex4_text (by omega)))) (codes_one (CodeText.unicode _ _ (hex4_text (by omega))))

theorem dumpStr_text (s : Str) : StrText (dumpStr s) s := by
  have h : Codes (s.flatMap escChar) (s.flatMap codes) := by
    induction s with
    | nil => exact Codes.nil
    | cons c s ih => rw [List.flatMap_cons, List.flatMap_cons]; exact codes_append (esc_text c) ih
  refine ⟨s.flatMap escChar, s.flatMap codes, by simp [dumpStr], h, ?_⟩
  have := join_charsOf _ le_rfl (codes_valid h)
  rwa [join_codes] at this

theorem natDigits_text (n : Nat) : NatText (natDigits 10 n) := by
  refine ⟨natDigits_ne_nil n, fun c hc => isDigit_digit (isDigit_of (natDigits_dig n c hc)), fun h => ?_⟩
  by_cases h0 : n = 0
  · subst h0; rfl
  · exact absurd h (natDigits_head n h0)

theorem pyStr_text (n : Int) : IntText (pyStr n) n := by
  have e : ∀ m, decimal (natDigits 10 m) = m := natOf_natDigits
  unfold pyStr
  by_cases h : n < 0
  · rw [if_pos h]; exact Or.inr ⟨_, rfl, natDigits_text _, by rw [e]; omega⟩
  · rw [if_neg h]; exact Or.inl ⟨natDigits_text _, by rw [e]; omega⟩

theorem ws_newline (k : Nat) : Ws (newline k) := by
  intro c hc
  rcases List.mem_cons.1 hc with rfl | hc
  · simp
  · rw [(List.mem_replicate.1 hc).2]; simp

theorem ws_blank : Ws [' '] := by intro c hc; simp only [List.mem_singleton] at hc; simp [hc]

mutual
theorem dumpV_text (u : UniDB) (fr : PyFloat → Str) (k : Nat) : ∀ (x : PVal), x.jsonSafe = true → Val u (dumpV fr k x) x
  | .none, _ => by rw [dumpV]; exact Val.null
  | .bool true, _ => by rw [dumpV]; exact Val.true
  | .bool false, _ => by rw [dumpV]; exact Val.false
  | .int n, _ => by rw [dumpV]; exact Val.int (pyStr_text n)
  | .float f, h => by simp [PVal.jsonSafe] at h
  | .str s, _ => by rw [dumpV]; exact Val.str (dumpStr_text s)
  | .list [], _ => by rw [dumpV]; exact Val.emptyList (w := []) ws_nil
  | .list (x :: xs), h => by
    rw [PVal.jsonSafe, PVal.jsonSafeL, Bool.and_eq_true] at h
    rw [dumpV]
    refine (congrArg (fun t => Val u ('[' :: t) _) ?_).mp (Val.list (dumpL_text u fr (k + 1) x xs (newline k) (ws_newline k) h.1 h.2))
    simp
  | .dict [], _ => by rw [dumpV]; exact Val.emptyDict (w := []) ws_nil
  | .dict ((key, x) :: r), h => by
    have hd := dictOf_safe (l := (key, x) :: r) h
    rw [PVal.jsonSafe, PVal.jsonSafeD, Bool.and_eq_true, Bool.and_eq_true] at h
    have := Val.dict (dumpD_text u fr (k + 1) key x r (newline k) (ws_newline k) h.1.2 h.2)
    rw [show members ((key, x) :: r) = (key, x) :: r from hd] at this
    rw [dumpV]
    refine (congrArg (fun t => Val u ('{' :: t) _) ?_).mp this
    simp
termination_by x => sizeOf x
theorem dumpL_text (u : UniDB) (fr : PyFloat → Str) (k : Nat) : ∀ (x : PVal) (xs : List PVal) (w : Str), Ws w → x.jsonSafe = true → PVal.jsonSafeL xs = true →
    Items u (newline k ++ (dumpV fr k x ++ (dumpL fr k xs ++ w))) (x :: xs)
  | x, [], w, hw, h, _ => by
    rw [dumpL, List.nil_append]; exact Items.one (ws_newline k) (dumpV_text u fr k x h) hw
  | x, y :: ys, w, hw, h, h' => by
    rw [PVal.jsonSafeL, Bool.and_eq_true] at h'
    rw [dumpL]
    have := Items.more (ws_newline k) (dumpV_text u fr k x h) ws_nil (dumpL_text u fr k y ys w hw h'.1 h'.2)
    simpa using this
termination_by x xs => sizeOf x + sizeOf xs
theorem dumpD_text (u : UniDB) (fr : PyFloat → Str) (k : Nat) : ∀ (key : Str) (x : PVal) (r : List (Str × PVal)) (w : Str), Ws w → x.jsonSafe = true → PVal.jsonSafeD r = true →
    Members u (newline k ++ (dumpStr key ++ ([] ++ ':' :: ([' '] ++ (dumpV fr k x ++ (dumpD fr k r ++ w)))))) ((key, x) :: r)
  | key, x, [], w, hw, h, _ => by
    rw [dumpD, List.nil_append (as := w)]; exact Members.one (ws_newline k) (dumpStr_text key) ws_nil ws_blank (dumpV_text u fr k x h) hw
  | key, x, (key', y) :: r, w, hw, h, h' => by
    rw [PVal.jsonSafeD, Bool.and_eq_true, Bool.and_eq_true] at h'
    rw [dumpD]
    have := Members.more (ws_newline k) (dumpStr_text key) ws_nil ws_blank (dumpV_text u fr k x h) ws_nil (dumpD_text u fr k key' y r w hw h'.1.2 h'.2)
    simpa using this
termination_by _ x r => sizeOf x + sizeOf r
end

theorem dumps_text (u : UniDB) (fr : PyFloat → Str) {x : PVal} (h : x.jsonSafe = true) : Denotes u (dumps fr x) x :=
  ⟨[], _, [], by simp [dumps], ws_nil, dumpV_text u fr 0 x h, ws_nil⟩

/-! ## ASCII -/

/-- Printable ASCII or a line break. -/
def Plain (s : Str) : Prop := ∀ c ∈ s, c = '\n' ∨ (32 ≤ c.toNat ∧ c.toNat ≤ 126)

theorem plain_append {a b : Str} (h : Plain a) (h' : Plain b) : Plain (a ++ b) := by
  intro c hc
  rcases List.mem_append.1 hc with hc | hc
  · exact h c hc
  · exact h' c hc

theorem plain_cons {c : Char} {b : Str} (h : 32 ≤ c.toNat ∧ c.toNat ≤ 126) (h' : Plain b) : Plain (c :: b) := by
  intro d hd
  rcases List.mem_cons.1 hd with rfl | hd
  · exact Or.inr h
  · exact h' d hd

theorem plain_nil : Plain [] := by intro c hc; simp at hc

theorem plain_hex4 (n : Nat) : Plain (hex4 n) := by
  have : ∀ d < 16, 32 ≤ (digitChar d).toNat ∧ (digitChar d).toNat ≤ 126 := by decide
  exact plain_cons (this _ (by omega)) (plain_cons (this _ (by omega)) (plain_cons (this _ (by omega)) (plain_cons (this _ (by omega)) plain_nil)))

theorem plain_esc (c : Char) : Plain (escChar c) := by
  have two : ∀ a b : Char, (32 ≤ a.toNat ∧ a.toNat ≤ 126) → (32 ≤ b.toNat ∧ b.toNat ≤ 126) → Plain [a, b] :=
    fun a b h h' => plain_cons h (plain_cons h' plain_nil)
  unfold escChar
  by_cases h1 : c = '"'
  · rw [if_pos h1]; exact two _ _ (by decide) (by decide)
  rw [if_neg h1]
  by_cases h2 : c = '\\'
  · rw [if_pos h2]; exact two _ _ (by decide) (by decide)
  rw [if_neg h2]
  by_cases h3 : c = '\n'
  · rw [if_pos h3]; exact two _ _ (by decide) (by decide)
  rw [if_neg h3]
  by_cases h4 : c = '\r'
  · rw [if_pos h4]; exact two _ _ (by decide) (by decide)
  rw [if_neg h4]
  by_cases h5 : c = '\t'
  · rw [if_pos h5]; exact two _ _ (by decide) (by decide)
  rw [if_neg h5]
  by_cases h6 : c.toNat = 12
  · rw [if_pos h6]; exact two _ _ (by decide) (by decide)
  rw [if_neg h6]
  by_cases h7 : c.toNat = 8
  · rw [if_pos h7]; exact two _ _ (by decide) (by decide)
  rw [if_neg h7]
  by_cases h8 : 32 ≤ c.toNat ∧ c.toNat ≤ 126
  · rw [if_pos h8]; exact plain_cons h8 plain_nil
  rw [if_neg h8]
  have u : ∀ n, Plain ('\\' :: 'u' :: hex4 n) := fun n => plain_cons (by decide) (plain_cons (by decide) (plain_hex4 n))
  by_cases h9 : c.toNat < 0x10000
  · rw [if_pos h9]; exact u _
  rw [if_neg h9]
  exact plain_append (u _) (u _)

theorem plain_dumpStr (s : Str) : Plain (dumpStr s) := by
  refine plain_cons (by decide) (plain_append ?_ (plain_cons (by decide) plain_nil))
  intro c hc
  obtain ⟨a, _, h⟩ := List.mem_flatMap.1 hc
  exact plain_esc a c h

theorem plain_newline (k : Nat) : Plain (newline k) := by
  intro c hc
  rcases List.mem_cons.1 hc with rfl | hc
  · exact Or.inl rfl
  · rw [(List.mem_replicate.1 hc).2]; exact Or.inr (by decide)

theorem plain_digits (n : Nat) : Plain (natDigits 10 n) := by
  intro c hc
  have := isDigit_of (natDigits_dig n c hc)
  simp only [isDigit, Bool.and_eq_true, decide_eq_true_eq] at this
  exact Or.inr (by omega)

theorem plain_pyStr (n : Int) : Plain (pyStr n) := by
  unfold pyStr
  by_cases h : n < 0
  · rw [if_pos h]; exact plain_cons (by decide) (plain_digits _)
  · rw [if_neg h]; exact plain_digits _

mutual
theorem plain_dumpV (fr : PyFloat → Str) (k : Nat) : ∀ (x : PVal), x.jsonSafe = true → Plain (dumpV fr k x)
  | .none, _ => by rw [dumpV]; unfold Plain; decide
  | .bool true, _ => by rw [dumpV]; unfold Plain; decide
  | .bool false, _ => by rw [dumpV]; unfold Plain; decide
  | .int n, _ => by rw [dumpV]; exact plain_pyStr n
  | .float f, h => by simp [PVal.jsonSafe] at h
  | .str s, _ => by rw [dumpV]; exact plain_dumpStr s
  | .list [], _ => by rw [dumpV]; unfold Plain; decide
  | .list (x :: xs), h => by
    rw [PVal.jsonSafe, PVal.jsonSafeL, Bool.and_eq_true] at h
    rw [dumpV]
    exact plain_cons (by decide) (plain_append (plain_append (plain_append (plain_append (plain_newline _) (plain_dumpV fr _ x h.1)) (plain_dumpL fr _ xs h.2))
      (plain_newline _)) (plain_cons (by decide) plain_nil))
  | .dict [], _ => by rw [dumpV]; unfold Plain; decide
  | .dict ((key, x) :: r), h => by
    rw [PVal.jsonSafe, PVal.jsonSafeD, Bool.and_eq_true, Bool.and_eq_true] at h
    rw [dumpV]
    exact plain_cons (by decide) (plain_append (plain_append (plain_append (plain_append (plain_append (plain_append (plain_newline _) (plain_dumpStr key))
      (plain_cons (by decide) (plain_cons (by decide) plain_nil))) (plain_dumpV fr _ x h.1.2)) (plain_dumpD fr _ r h.2))
      (plain_newline _)) (plain_cons (by decide) plain_nil))
theorem plain_dumpL (fr : PyFloat → Str) (k : Nat) : ∀ (l : List PVal), PVal.jsonSafeL l = true → Plain (dumpL fr k l)
  | [], _ => by rw [dumpL]; exact plain_nil
  | x :: xs, h => by
    rw [PVal.jsonSafeL, Bool.and_eq_true] at h
    rw [dumpL]
    exact plain_cons (by decide) (plain_append (plain_append (plain_newline _) (plain_dumpV fr _ x h.1)) (plain_dumpL fr _ xs h.2))
theorem plain_dumpD (fr : PyFloat → Str) (k : Nat) : ∀ (l : List (Str × PVal)), PVal.jsonSafeD l = true → Plain (dumpD fr k l)
  | [], _ => by rw [dumpD]; exact plain_nil
  | (key, x) :: r, h => by
    rw [PVal.jsonSafeD, Bool.and_eq_true, Bool.and_eq_true] at h
    rw [dumpD]
    exact plain_cons (by decide) (plain_append (plain_append (plain_append (plain_append (plain_newline _) (plain_dumpStr key))
      (plain_cons (by decide) (plain_cons (by decide) plain_nil))) (plain_dumpV fr _ x h.1.2)) (plain_dumpD fr _ r h.2))
end

end BT.Json
