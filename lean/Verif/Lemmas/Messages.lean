import Verif.MsgSpec
import Verif.Lemmas.JsonText
import Verif.Lemmas.Facts
import Mathlib.Tactic.IntervalCases

/-! # Lemmas about error messages -/

namespace BT.Msg

/-! ## The exception monad with texts -/

@[simp] theorem M_pure {α : Type} (a : α) : (pure a : M α) = .ok a := rfl
@[simp] theorem M_bind_ok {α β : Type} (a : α) (f : α → M β) : ((.ok a : M α) >>= f) = f a := rfl
@[simp] theorem M_bind_err {α β : Type} (e : Exc) (f : α → M β) : ((.error e : M α) >>= f) = .error e := rfl
@[simp] theorem M_throw {α : Type} (e : Exc) : (throw e : M α) = .error e := rfl
@[simp] theorem forget_ok {α : Type} (a : α) : forget (.ok a : M α) = .ok a := rfl
@[simp] theorem forget_err {α : Type} (e : Err) (m : Str) : forget (.error (e, m) : M α) = .error e := rfl

theorem forget_bind {α β : Type} (x : M α) (f : α → M β) : forget (x >>= f) = (forget x >>= fun a => forget (f a)) := by
  cases x with
  | ok a => rfl
  | error e => rfl

theorem forget_error {α : Type} {x : M α} {e : Err} {m : Str} (h : x = .error (e, m)) : forget x = .error e := by rw [h]; rfl

/-! ## Names -/

theorem splitC_head (s : Str) : ∃ w ws, splitC ' ' s = w :: ws ∧ ' ' ∉ w ∧ s = w ++ (if ws = [] then [] else ' ' :: join [' '] ws) := by
  induction s with
  | nil => exact ⟨[], [], rfl, by simp, by simp⟩
  | cons x xs ih =>
    obtain ⟨w, ws, h1, h2, h3⟩ := ih
    by_cases hx : x = ' '
    · subst hx
      refine ⟨[], w :: ws, by simp [splitC, h1], by simp, ?_⟩
      simp only [reduceCtorEq, if_false, List.nil_append, List.cons.injEq, true_and]
      rw [h3]
      cases ws with
      | nil => simp [join]
      | cons y r => simp [join]
    · refine ⟨x :: w, ws, by simp [splitC, h1, hx], ?_, ?_⟩
      · simp only [List.mem_cons, not_or]
        exact ⟨fun h => hx h.symm, h2⟩
      · rw [List.cons_append, ← h3]

theorem quotedName_quoted (n : Str) : Quoted n (quotedName n) := by
  obtain ⟨w, ws, h1, h2, h3⟩ := splitC_head n
  refine ⟨w, if ws = [] then [] else ' ' :: join [' '] ws, h3, h2, ?_, ?_⟩
  · by_cases h : ws = []
    · left; simp [h]
    · right; exact ⟨join [' '] ws, by simp [h]⟩
  · unfold quotedName
    simp only [h1]
    cases ws with
    | nil => simp
    | cons y r => simp

theorem capital_eq {c : Char} (h : c = 'i' ∨ c = 'f' ∨ c = 'e' ∨ c = 'r') (r : Str) : capitalizeFirst (c :: r) = capital (c :: r) := by
  rcases h with rfl | rfl | rfl | rfl <;> rfl

theorem explains (E : Env) (x : PVal) (name location kind : Option Str) (detail : Str) :
    Explains E x name location kind detail (buildErrorMsg E detail x name location kind) := by
  refine ⟨match name with | none => [] | some n => [py"for variable " ++ quotedName n], ?_, ?_⟩
  · cases name with
    | none => rfl
    | some n => exact ⟨_, quotedName_quoted n, rfl⟩
  · unfold buildErrorMsg
    cases location <;> cases name <;> cases kind <;> by_cases hd : detail = [] <;>
      simp only [hd, ne_eq, not_true_eq_false, not_false_eq_true, if_true, if_false] <;>
      simp only [List.nil_append, List.cons_append, join, List.append_nil, List.append_assoc] <;>
      exact capital_eq (by decide) _

/-! ## `repr` -/

theorem hexDigits_length (k n : Nat) : (hexDigits k n).length = k := by
  induction k generalizing n with
  | zero => rfl
  | succ k ih => simp [hexDigits, ih]

theorem digitChar_inj {a b : Nat} (ha : a < 16) (hb : b < 16) (h : digitChar a = digitChar b) : a = b := by
  have : ∀ a < 16, ∀ b < 16, digitChar a = digitChar b → a = b := by decide
  exact this a ha b hb h

theorem hexDigits_inj {k a b : Nat} (ha : a < 16 ^ k) (hb : b < 16 ^ k) (h : hexDigits k a = hexDigits k b) : a = b := by
  induction k generalizing a b with
  | zero => simp at ha hb; omega
  | succ k ih =>
    simp only [hexDigits] at h
    have hl := List.append_inj h (by simp [hexDigits_length])
    have h1 := ih (a := a / 16) (b := b / 16) (by rw [pow_succ] at ha; omega) (by rw [pow_succ] at hb; omega) hl.1
    have h2 := digitChar_inj (Nat.mod_lt _ (by decide)) (Nat.mod_lt _ (by decide)) (by simpa using hl.2)
    omega

/-- The ways in which `repr` shows a character. -/
theorem reprChar_cases (E : Env) (q c : Char) :
    (reprChar E q c = ['\\', c] ∧ (c = q ∨ c = '\\')) ∨
    (reprChar E q c = py"\\t" ∧ c = '\t') ∨ (reprChar E q c = py"\\n" ∧ c = '\n') ∨ (reprChar E q c = py"\\r" ∧ c = '\r') ∨
    (reprChar E q c = [c] ∧ c ≠ q ∧ c ≠ '\\' ∧ Visible E c) ∨
    (reprChar E q c = py"\\x" ++ hexDigits 2 c.toNat ∧ c.toNat < 0x100) ∨
    (reprChar E q c = py"\\u" ++ hexDigits 4 c.toNat ∧ c.toNat < 0x10000) ∨
    reprChar E q c = py"\\U" ++ hexDigits 8 c.toNat := by
  unfold reprChar
  by_cases h1 : c = q ∨ c = '\\'
  · left; exact ⟨if_pos h1, h1⟩
  rw [if_neg h1]
  push Not at h1
  by_cases h2 : c = '\t'
  · right; left; exact ⟨if_pos h2, h2⟩
  rw [if_neg h2]
  by_cases h3 : c = '\n'
  · right; right; left; exact ⟨if_pos h3, h3⟩
  rw [if_neg h3]
  by_cases h4 : c = '\r'
  · right; right; right; left; exact ⟨if_pos h4, h4⟩
  rw [if_neg h4]
  by_cases h5 : 32 ≤ c.toNat ∧ c.toNat < 127
  · right; right; right; right; left; exact ⟨if_pos h5, h1.1, h1.2, Or.inl h5⟩
  rw [if_neg h5]
  by_cases h6 : 128 ≤ c.toNat ∧ E.printable c = true
  · right; right; right; right; left; exact ⟨if_pos h6, h1.1, h1.2, Or.inr h6⟩
  rw [if_neg h6]
  by_cases h7 : c.toNat < 0x100
  · right; right; right; right; right; left; exact ⟨if_pos h7, h7⟩
  rw [if_neg h7]
  by_cases h8 : c.toNat < 0x10000
  · right; right; right; right; right; right; left; exact ⟨if_pos h8, h8⟩
  rw [if_neg h8]
  right; right; right; right; right; right; right; rfl

theorem char_toNat_inj {a b : Char} (h : a.toNat = b.toNat) : a = b := Char.toNat_inj.mp h

theorem char_lt (c : Char) : c.toNat < 16 ^ 8 := by
  have := c.valid
  unfold Char.toNat
  simp only [UInt32.isValidChar, Nat.isValidChar] at this
  omega

/-- A reader of `repr` cannot mistake one character for another. -/
theorem reprChar_inj {E : Env} {q c d : Char} {u v : Str} (hq : q = '\'' ∨ q = '"') (h : reprChar E q c ++ u = reprChar E q d ++ v) : c = d ∧ u = v := by
  have hqe : q ≠ 't' ∧ q ≠ 'n' ∧ q ≠ 'r' ∧ q ≠ 'x' ∧ q ≠ 'u' ∧ q ≠ 'U' ∧ q ≠ '\\' := by
    rcases hq with rfl | rfl <;> decide
  rcases reprChar_cases E q c with ⟨e, hc⟩ | ⟨e, rfl⟩ | ⟨e, rfl⟩ | ⟨e, rfl⟩ | ⟨e, hc, hc', _⟩ | ⟨e, hc⟩ | ⟨e, hc⟩ | e <;>
  rcases reprChar_cases E q d with ⟨e', hd⟩ | ⟨e', rfl⟩ | ⟨e', rfl⟩ | ⟨e', rfl⟩ | ⟨e', hd, hd', _⟩ | ⟨e', hd⟩ | ⟨e', hd⟩ | e' <;>
  simp only [e, e'] at h <;> simp only [List.append_assoc, List.cons_append, List.nil_append, List.cons.injEq, true_and] at h <;>
  first
  | exact ⟨rfl, h⟩
  | exact h
  | (obtain ⟨h1, h2⟩ := List.append_inj h (by simp [hexDigits_length])
     refine ⟨char_toNat_inj (hexDigits_inj ?_ ?_ h1), h2⟩ <;> first | exact char_lt _ | (norm_num; omega))
  | (exact absurd h.1.symm hd')
  | (exact absurd h.1 hc')
  | (exfalso; obtain ⟨h1, _⟩ := h; revert h1; decide)
  | (exfalso; obtain ⟨h1, _⟩ := h; clear e e'; rcases hc with hc | hc <;> rw [hc] at h1 <;> first | (revert h1; decide) | (simp [h1] at hqe; done))
  | (exfalso; obtain ⟨h1, _⟩ := h; clear e e'; rcases hd with hd | hd <;> rw [hd] at h1 <;> first | (revert h1; decide) | (simp [← h1] at hqe; done))

theorem reprChar_ne_quote {E : Env} {q c : Char} {u v : Str} (hq : q = '\'' ∨ q = '"') : reprChar E q c ++ u ≠ q :: v := by
  have hqe : '\\' ≠ q := by rcases hq with rfl | rfl <;> decide
  rcases reprChar_cases E q c with ⟨e, hc⟩ | ⟨e, rfl⟩ | ⟨e, rfl⟩ | ⟨e, rfl⟩ | ⟨e, hc, hc', _⟩ | ⟨e, hc⟩ | ⟨e, hc⟩ | e <;> rw [e] <;>
    simp_all

theorem reprQuote_cases (s : Str) : reprQuote s = '\'' ∨ reprQuote s = '"' := by
  unfold reprQuote
  split <;> simp

theorem reprBody_inj {E : Env} {q : Char} (hq : q = '\'' ∨ q = '"') {s t u v : Str} (h : s.flatMap (reprChar E q) ++ q :: u = t.flatMap (reprChar E q) ++ q :: v) : s = t ∧ u = v := by
  induction s generalizing t with
  | nil =>
    cases t with
    | nil => simpa using h
    | cons d t =>
      rw [List.flatMap_cons, List.append_assoc] at h
      exact absurd h.symm (reprChar_ne_quote hq)
  | cons c s ih =>
    cases t with
    | nil =>
      rw [List.flatMap_cons, List.append_assoc] at h
      exact absurd h (reprChar_ne_quote hq)
    | cons d t =>
      rw [List.flatMap_cons, List.flatMap_cons, List.append_assoc, List.append_assoc] at h
      obtain ⟨rfl, h'⟩ := reprChar_inj hq h
      obtain ⟨rfl, h''⟩ := ih h'
      exact ⟨rfl, h''⟩

/-- `repr` of a string shows where the string ends and which string it is. -/
theorem reprStr_inj {E : Env} {s t u v : Str} (h : reprStr E s ++ u = reprStr E t ++ v) : s = t ∧ u = v := by
  simp only [reprStr, List.cons_append, List.append_assoc, List.nil_append, List.cons.injEq] at h
  obtain ⟨h1, h2⟩ := h
  rw [← h1] at h2
  exact reprBody_inj (reprQuote_cases s) h2

theorem visible_digit (E : Env) {d : Nat} (h : d < 16) : Visible E (digitChar d) := by
  have : ∀ d < 16, 32 ≤ (digitChar d).toNat ∧ (digitChar d).toNat < 127 := by decide
  exact Or.inl (this d h)

theorem visible_hexDigits (E : Env) (k n : Nat) : ∀ c ∈ hexDigits k n, Visible E c := by
  induction k generalizing n with
  | zero => simp [hexDigits]
  | succ k ih =>
    intro c hc
    simp only [hexDigits, List.mem_append, List.mem_singleton] at hc
    rcases hc with hc | rfl
    · exact ih _ c hc
    · exact visible_digit E (Nat.mod_lt _ (by decide))

theorem visible_lit (E : Env) {s : Str} (h : (s.all fun c => decide (32 ≤ c.toNat ∧ c.toNat < 127)) = true) : ∀ c ∈ s, Visible E c := by
  intro c hc
  have := List.all_eq_true.mp h c hc
  exact Or.inl (of_decide_eq_true this)

theorem visible_reprChar (E : Env) {q : Char} (hq : q = '\'' ∨ q = '"') (c : Char) : ∀ d ∈ reprChar E q c, Visible E d := by
  rcases reprChar_cases E q c with ⟨e, hc⟩ | ⟨e, rfl⟩ | ⟨e, rfl⟩ | ⟨e, rfl⟩ | ⟨e, hc, hc', hv⟩ | ⟨e, hc⟩ | ⟨e, hc⟩ | e <;> rw [e]
  · rcases hc with rfl | rfl
    · rcases hq with rfl | rfl <;> exact visible_lit E (by decide)
    · exact visible_lit E (by decide)
  · exact visible_lit E (by decide)
  · exact visible_lit E (by decide)
  · exact visible_lit E (by decide)
  · intro d hd; rw [List.mem_singleton] at hd; subst hd; exact hv
  all_goals
    intro d hd
    rw [List.mem_append] at hd
    rcases hd with hd | hd
    · exact visible_lit E (by decide) d hd
    · exact visible_hexDigits E _ _ d hd

theorem visible_reprStr (E : Env) (s : Str) : ∀ c ∈ reprStr E s, Visible E c := by
  intro c hc
  have hq : Visible E (reprQuote s) := by
    rcases reprQuote_cases s with h | h <;> rw [h] <;> exact Or.inl (by decide)
  simp only [reprStr, List.mem_cons, List.mem_append, List.mem_flatMap, List.not_mem_nil, or_false] at hc
  rcases hc with rfl | ⟨d, _, hd⟩ | rfl
  · exact hq
  · exact visible_reprChar E (reprQuote_cases s) d c hd
  · exact hq

/-! ## `repr` of a value -/

/-- What may follow the text of a value. -/
def Delim (u : Str) : Prop := u = [] ∨ ∃ r, u = ',' :: r ∨ u = ']' :: r ∨ u = '}' :: r

theorem Delim.ends {u : Str} (h : Delim u) : Json.Ends u := by
  rcases h with rfl | ⟨r, rfl | rfl | rfl⟩ <;> intro c hc
  · simp at hc
  all_goals
    rw [List.head?_cons, Option.mem_some_iff] at hc
    subst hc
    decide

theorem pyStr_inj {n m : Int} {u v : Str} (hu : Delim u) (hv : Delim v) (h : pyStr n ++ u = pyStr m ++ v) : n = m ∧ u = v := by
  let db : UniDB := ⟨fun _ => none, fun _ => false, fun _ => false, fun _ h => by simp at h⟩
  have h1 := Json.scanAtom_int db n hu.ends
  have h2 := Json.scanAtom_int db m hv.ends
  rw [h, h2] at h1
  simp only [Option.some.injEq, Prod.mk.injEq, PVal.int.injEq] at h1
  exact ⟨h1.1.symm, h1.2.symm⟩

/-- Which kind of value a text begins. -/
def tag (c : Char) : Nat :=
  if c = 'N' then 0 else if c = 'T' ∨ c = 'F' then 1 else if c = '\'' ∨ c = '"' then 4
  else if c = '[' then 5 else if c = '{' then 6 else if c = ']' ∨ c = '}' then 7 else 3

/-- The kind of a value. -/
def tagOf : PVal → Nat
  | .none => 0
  | .bool _ => 1
  | .int _ => 3
  | .float _ => 8
  | .str _ => 4
  | .list _ => 5
  | .dict _ => 6

theorem tag_digit (d : Nat) (h : d < 10) : tag (digitChar d) = 3 := by
  have : ∀ d < 10, tag (digitChar d) = 3 := by decide
  exact this d h

theorem natDigits_head (n : Nat) : ∃ c r, natDigits 10 n = c :: r ∧ tag c = 3 := by
  unfold natDigits
  by_cases h : n = 0
  · exact ⟨'0', [], by simp [h], by decide⟩
  · rw [if_neg h]
    have hne : ((Nat.digits 10 n).map digitChar).reverse ≠ [] := by
      simp only [ne_eq, List.reverse_eq_nil_iff, List.map_eq_nil_iff]
      exact Nat.digits_ne_nil_iff_ne_zero.mpr h
    obtain ⟨c, r, e⟩ := List.exists_cons_of_ne_nil hne
    refine ⟨c, r, e, ?_⟩
    have : c ∈ ((Nat.digits 10 n).map digitChar).reverse := by rw [e]; simp
    simp only [List.mem_reverse, List.mem_map] at this
    obtain ⟨d, hd, rfl⟩ := this
    exact tag_digit d (Nat.digits_lt_base (by decide) hd)

theorem repr_head {E : Env} {x : PVal} (h : NoFloat x) : ∃ c r, repr E x = c :: r ∧ tag c = tagOf x := by
  cases h with
  | none => exact ⟨_, _, by rw [repr], by decide⟩
  | bool b => cases b <;> exact ⟨_, _, by rw [repr], by decide⟩
  | int n =>
    rw [repr]
    unfold pyStr
    by_cases hn : n < 0
    · rw [if_pos hn]; exact ⟨_, _, rfl, by simp [tagOf]; decide⟩
    · rw [if_neg hn]; exact natDigits_head _
  | str s =>
    rw [repr, reprStr]
    refine ⟨_, _, rfl, ?_⟩
    rcases reprQuote_cases s with h | h <;> rw [h] <;> simp only [tagOf] <;> decide
  | list l =>
    cases l with
    | nil => rw [repr]; exact ⟨_, _, rfl, by simp [tagOf]; decide⟩
    | cons x xs => rw [repr]; exact ⟨_, _, rfl, by simp [tagOf]; decide⟩
  | dict d =>
    cases d with
    | nil => rw [repr]; exact ⟨_, _, rfl, by simp [tagOf]; decide⟩
    | cons p r => obtain ⟨k, x⟩ := p; rw [repr]; exact ⟨_, _, rfl, by simp [tagOf]; decide⟩

theorem tagOf_le {x : PVal} (h : NoFloat x) : tagOf x < 7 := by cases h <;> simp [tagOf]

theorem tag_eq {E : Env} {x y : PVal} {u v : Str} (hx : NoFloat x) (hy : NoFloat y) (h : repr E x ++ u = repr E y ++ v) : tagOf x = tagOf y := by
  obtain ⟨c, r, e, hc⟩ := repr_head (E := E) hx
  obtain ⟨c', r', e', hc'⟩ := repr_head (E := E) hy
  rw [e, e'] at h
  simp only [List.cons_append, List.cons.injEq] at h
  rw [← hc, ← hc', h.1]

theorem repr_ne_close {E : Env} {x : PVal} {c : Char} {u v : Str} (hx : NoFloat x) (hc : tag c = 7) : repr E x ++ u ≠ c :: v := by
  obtain ⟨d, r, e, hd⟩ := repr_head (E := E) hx
  rw [e]
  intro h
  simp only [List.cons_append, List.cons.injEq] at h
  have := tagOf_le hx
  rw [h.1] at hd
  omega

theorem delim_L {E : Env} (l : List PVal) (u : Str) : Delim (reprL E l ++ ']' :: u) := by
  cases l with
  | nil => rw [reprL]; exact Or.inr ⟨_, Or.inr (Or.inl rfl)⟩
  | cons x xs => rw [reprL]; exact Or.inr ⟨_, Or.inl rfl⟩

theorem delim_D {E : Env} (d : List (Str × PVal)) (u : Str) : Delim (reprD E d ++ '}' :: u) := by
  cases d with
  | nil => rw [reprD]; exact Or.inr ⟨_, Or.inr (Or.inr rfl)⟩
  | cons p r => obtain ⟨k, x⟩ := p; rw [reprD]; exact Or.inr ⟨_, Or.inl rfl⟩

mutual
/-- `repr` shows which value it is, and where it ends. -/
theorem repr_inj {E : Env} : ∀ (x y : PVal) {u v : Str}, NoFloat x → NoFloat y → Delim u → Delim v → repr E x ++ u = repr E y ++ v → x = y ∧ u = v
  | x, y, u, v, hx, hy, hu, hv, h => by
    have ht := tag_eq hx hy h
    match x, y, ht with
    | .none, .none, _ => exact ⟨rfl, List.append_cancel_left h⟩
    | .bool a, .bool b, _ =>
      cases a <;> cases b <;> simp only [repr] at h
      · exact ⟨rfl, List.append_cancel_left h⟩
      · simp at h
      · simp at h
      · exact ⟨rfl, List.append_cancel_left h⟩
    | .int n, .int m, _ =>
      rw [repr, repr] at h
      obtain ⟨rfl, e⟩ := pyStr_inj hu hv h
      exact ⟨rfl, e⟩
    | .float _, _, _ => cases hx
    | .str s, .str t, _ =>
      rw [repr, repr] at h
      obtain ⟨rfl, e⟩ := reprStr_inj h
      exact ⟨rfl, e⟩
    | .list [], .list [], _ => exact ⟨rfl, List.append_cancel_left h⟩
    | .list [], .list (y :: ys), _ =>
      cases hy with
      | list _ hy =>
      rw [repr, repr] at h
      simp only [List.cons_append, List.nil_append, List.append_assoc, List.cons.injEq, true_and] at h
      exact absurd h.symm (repr_ne_close (hy y (by simp)) (by decide))
    | .list (x :: xs), .list [], _ =>
      cases hx with
      | list _ hx =>
      rw [repr, repr] at h
      simp only [List.cons_append, List.nil_append, List.append_assoc, List.cons.injEq, true_and] at h
      exact absurd h (repr_ne_close (hx x (by simp)) (by decide))
    | .list (x :: xs), .list (y :: ys), _ =>
      cases hx with
      | list _ hx =>
      cases hy with
      | list _ hy =>
      rw [repr, repr] at h
      simp only [List.cons_append, List.nil_append, List.append_assoc, List.cons.injEq, true_and] at h
      obtain ⟨rfl, h1⟩ := repr_inj x y (hx x (by simp)) (hy y (by simp)) (delim_L _ _) (delim_L _ _) h
      obtain ⟨rfl, h2⟩ := reprL_inj xs ys (fun z hz => hx z (by simp [hz])) (fun z hz => hy z (by simp [hz])) h1
      exact ⟨rfl, h2⟩
    | .dict [], .dict [], _ => exact ⟨rfl, List.append_cancel_left h⟩
    | .dict [], .dict ((k, y) :: ys), _ =>
      rw [repr, repr, reprStr] at h
      simp only [List.cons_append, List.nil_append, List.append_assoc, List.cons.injEq, true_and] at h
      rcases reprQuote_cases k with e | e <;> rw [e] at h <;> exact absurd h.1 (by decide)
    | .dict ((k, x) :: xs), .dict [], _ =>
      rw [repr, repr, reprStr] at h
      simp only [List.cons_append, List.nil_append, List.append_assoc, List.cons.injEq, true_and] at h
      rcases reprQuote_cases k with e | e <;> rw [e] at h <;> exact absurd h.1 (by decide)
    | .dict ((k, x) :: xs), .dict ((k', y) :: ys), _ =>
      cases hx with
      | dict _ hx =>
      cases hy with
      | dict _ hy =>
      rw [repr, repr] at h
      simp only [List.cons_append, List.nil_append, List.append_assoc, List.cons.injEq, true_and] at h
      obtain ⟨rfl, h0⟩ := reprStr_inj h
      simp only [List.cons.injEq, true_and] at h0
      obtain ⟨rfl, h1⟩ := repr_inj x y (hx (k, x) (by simp)) (hy (k, y) (by simp)) (delim_D _ _) (delim_D _ _) h0
      obtain ⟨rfl, h2⟩ := reprD_inj xs ys (fun z hz => hx z (by simp [hz])) (fun z hz => hy z (by simp [hz])) h1
      exact ⟨rfl, h2⟩
    | .none, .bool _, ht => simp [tagOf] at ht
    | .none, .int _, ht => simp [tagOf] at ht
    | .none, .str _, ht => simp [tagOf] at ht
    | .none, .list _, ht => simp [tagOf] at ht
    | .none, .dict _, ht => simp [tagOf] at ht
    | .bool _, .none, ht => simp [tagOf] at ht
    | .bool _, .int _, ht => simp [tagOf] at ht
    | .bool _, .str _, ht => simp [tagOf] at ht
    | .bool _, .list _, ht => simp [tagOf] at ht
    | .bool _, .dict _, ht => simp [tagOf] at ht
    | .int _, .none, ht => simp [tagOf] at ht
    | .int _, .bool _, ht => simp [tagOf] at ht
    | .int _, .str _, ht => simp [tagOf] at ht
    | .int _, .list _, ht => simp [tagOf] at ht
    | .int _, .dict _, ht => simp [tagOf] at ht
    | .str _, .none, ht => simp [tagOf] at ht
    | .str _, .bool _, ht => simp [tagOf] at ht
    | .str _, .int _, ht => simp [tagOf] at ht
    | .str _, .list _, ht => simp [tagOf] at ht
    | .str _, .dict _, ht => simp [tagOf] at ht
    | .list _, .none, ht => simp [tagOf] at ht
    | .list _, .bool _, ht => simp [tagOf] at ht
    | .list _, .int _, ht => simp [tagOf] at ht
    | .list _, .str _, ht => simp [tagOf] at ht
    | .list _, .dict _, ht => simp [tagOf] at ht
    | .dict _, .none, ht => simp [tagOf] at ht
    | .dict _, .bool _, ht => simp [tagOf] at ht
    | .dict _, .int _, ht => simp [tagOf] at ht
    | .dict _, .str _, ht => simp [tagOf] at ht
    | .dict _, .list _, ht => simp [tagOf] at ht
    | _, .float _, _ => cases hy
termination_by x => sizeOf x
theorem reprL_inj {E : Env} : ∀ (l r : List PVal) {u v : Str}, (∀ x ∈ l, NoFloat x) → (∀ x ∈ r, NoFloat x) → reprL E l ++ ']' :: u = reprL E r ++ ']' :: v → l = r ∧ u = v
  | [], [], u, v, _, _, h => by rw [reprL] at h; simpa using h
  | [], y :: ys, u, v, _, _, h => by rw [reprL, reprL] at h; simp at h
  | x :: xs, [], u, v, _, _, h => by rw [reprL, reprL] at h; simp at h
  | x :: xs, y :: ys, u, v, hx, hy, h => by
    rw [reprL, reprL] at h
    simp only [List.cons_append, List.nil_append, List.append_assoc, List.cons.injEq, true_and] at h
    obtain ⟨rfl, h1⟩ := repr_inj x y (hx x (by simp)) (hy y (by simp)) (delim_L _ _) (delim_L _ _) h
    obtain ⟨rfl, h2⟩ := reprL_inj xs ys (fun z hz => hx z (by simp [hz])) (fun z hz => hy z (by simp [hz])) h1
    exact ⟨rfl, h2⟩
termination_by l => sizeOf l
theorem reprD_inj {E : Env} : ∀ (l r : List (Str × PVal)) {u v : Str}, (∀ p ∈ l, NoFloat p.2) → (∀ p ∈ r, NoFloat p.2) → reprD E l ++ '}' :: u = reprD E r ++ '}' :: v → l = r ∧ u = v
  | [], [], u, v, _, _, h => by rw [reprD] at h; simpa using h
  | [], (k, y) :: ys, u, v, _, _, h => by rw [reprD, reprD] at h; simp at h
  | (k, x) :: xs, [], u, v, _, _, h => by rw [reprD, reprD] at h; simp at h
  | (k, x) :: xs, (k', y) :: ys, u, v, hx, hy, h => by
    rw [reprD, reprD] at h
    simp only [List.cons_append, List.nil_append, List.append_assoc, List.cons.injEq, true_and] at h
    obtain ⟨rfl, h0⟩ := reprStr_inj h
    simp only [List.cons.injEq, true_and] at h0
    obtain ⟨rfl, h1⟩ := repr_inj x y (hx (k, x) (by simp)) (hy (k, y) (by simp)) (delim_D _ _) (delim_D _ _) h0
    obtain ⟨rfl, h2⟩ := reprD_inj xs ys (fun z hz => hx z (by simp [hz])) (fun z hz => hy z (by simp [hz])) h1
    exact ⟨rfl, h2⟩
termination_by l => sizeOf l
end

end BT.Msg
