import Verif.Props.Messages
import Verif.Lemmas.Address
import Verif.Props.KeyOrder

/-! # Error messages: the value, positions, secrets, control characters (C105 - C108) -/

namespace BT

open Msg Spec

/-! ## C105: the text shows which value was refused -/

namespace Msg

theorem quoted_unique {n q q' : Str} (h : Quoted n q) (h' : Quoted n q') : q = q' := by
  obtain ⟨w, r, e, hw, hr, rfl⟩ := h
  obtain ⟨w', r', e', hw', hr', rfl⟩ := h'
  have key : ∀ (w r w' r' : Str), w ++ r = w' ++ r' → ' ' ∉ w → ' ' ∉ w' → (r = [] ∨ ∃ t, r = ' ' :: t) → (r' = [] ∨ ∃ t, r' = ' ' :: t) → w = w' ∧ r = r' := by
    intro w
    induction w with
    | nil =>
      intro r w' r' h _ hw' hr hr'
      cases w' with
      | nil => exact ⟨rfl, h⟩
      | cons c w' =>
        rcases hr with rfl | ⟨t, rfl⟩
        · simp at h
        · simp only [List.nil_append, List.cons_append, List.cons.injEq] at h
          exact absurd (by rw [← h.1]; simp) hw'
    | cons c w ih =>
      intro r w' r' h hw hw' hr hr'
      cases w' with
      | nil =>
        rcases hr' with rfl | ⟨t, rfl⟩
        · simp at h
        · simp only [List.nil_append, List.cons_append, List.cons.injEq] at h
          exact absurd (by rw [h.1]; simp) hw
      | cons c' w' =>
        simp only [List.cons_append, List.cons.injEq] at h
        obtain ⟨rfl, h⟩ := h
        obtain ⟨rfl, e⟩ := ih r w' r' h (fun hm => hw (by simp [hm])) (fun hm => hw' (by simp [hm])) hr hr'
        exact ⟨rfl, e⟩
  obtain ⟨rfl, rfl⟩ := key w r w' r' (e.symm.trans e') hw hw' hr hr'
  rfl

theorem explains_eq {E : Env} {x : PVal} {name location kind : Option Str} {d m : Str} (h : Explains E x name location kind d m) :
    m = buildErrorMsg E d x name location kind := by
  obtain ⟨v, h1, h2⟩ := h
  obtain ⟨v', h1', h2'⟩ := explains E x name location kind d
  rw [h2, h2']
  have : v = v' := by
    cases name with
    | none => simp only at h1 h1'; rw [h1, h1']
    | some n =>
      obtain ⟨q, hq, rfl⟩ := h1
      obtain ⟨q', hq', rfl⟩ := h1'
      rw [quoted_unique hq hq']
  rw [this]

theorem capitalizeFirst_cancel {P u v : Str} (hP : P ≠ []) (h : capitalizeFirst (P ++ u) = capitalizeFirst (P ++ v)) : u = v := by
  cases P with
  | nil => exact absurd rfl hP
  | cons c P =>
    simp only [List.cons_append, capitalizeFirst, List.cons.injEq, true_and] at h
    exact List.append_cancel_left h

/-- The text before the value does not depend on it. -/
theorem build_split (E : Env) (name location kind : Option Str) : ∃ P, P ≠ [] ∧ ∀ d x, buildErrorMsg E d x name location kind =
    capitalizeFirst (P ++ (repr E x ++ (if d ≠ [] then py", " ++ d else []))) := by
  refine ⟨(match kind with
      | none => (match name with
        | none => (match location with | none => [] | some l => py"in location " ++ reprStr E l ++ py", ")
        | some n => (match location with | none => [] | some l => py"in location " ++ reprStr E l ++ py", ") ++ py"for variable " ++ quotedName n ++ py", ")
      | some k => (match name with
        | none => (match location with | none => [] | some l => py"in location " ++ reprStr E l ++ py", ")
        | some n => (match location with | none => [] | some l => py"in location " ++ reprStr E l ++ py", ") ++ py"for variable " ++ quotedName n ++ py", ") ++
          py"expected a " ++ reprStr E k ++ py", but ") ++ py"received value ", by simp, fun d x => ?_⟩
  unfold buildErrorMsg
  cases kind <;> cases name <;> cases location <;> by_cases hd : d = [] <;> simp [hd]

theorem delim_detail (d : Str) : Delim (if d ≠ [] then py", " ++ d else []) := by
  by_cases h : d = []
  · left; simp [h]
  · right; exact ⟨' ' :: d, Or.inl (by simp [h])⟩

end Msg

/-- Two values (without floats in them) with the same text of refusal are the same value. -/
theorem C105_value (E : Env) (x y : PVal) (name location kind : Option Str) (d d' m : Str) (hx : NoFloat x) (hy : NoFloat y)
    (h : Explains E x name location kind d m) (h' : Explains E y name location kind d' m) : x = y ∧ d = d' := by
  obtain ⟨P, hP, hb⟩ := build_split E name location kind
  have e := (explains_eq h).symm.trans (explains_eq h')
  rw [hb, hb] at e
  obtain ⟨h1, h2⟩ := repr_inj x y hx hy (delim_detail d) (delim_detail d') (capitalizeFirst_cancel hP e)
  refine ⟨h1, ?_⟩
  by_cases hd : d = [] <;> by_cases hd' : d' = [] <;> simp_all

/-- Every refusal by one of the validators shows the value. -/
theorem C105_refused (E : Env) (x y : PVal) (name location kind : Option Str) {α : Type} (r r' : M α) (e e' : Err) (m : Str) (hx : NoFloat x) (hy : NoFloat y)
    (hr : Reasoned E x name location kind r) (hr' : Reasoned E y name location kind r') (h : r = .error (e, m)) (h' : r' = .error (e', m)) : x = y := by
  obtain ⟨d, _, h1⟩ := hr e m h
  obtain ⟨d', _, h2⟩ := hr' e' m h'
  exact (C105_value E x y name location kind d d' m hx hy h1 h2).1

theorem C105_hex (E : Env) (x y : PVal) (name location kind : Option Str) (e e' : Err) (m : Str) (hx : NoFloat x) (hy : NoFloat y) :
    (Msg.vHex E x name location kind = .error (e, m) → Msg.vHex E y name location kind = .error (e', m) → x = y) ∧
    (∀ n, Msg.vHexLength E x n name location kind = .error (e, m) → Msg.vHexLength E y n name location kind = .error (e', m) → x = y) :=
  ⟨C105_refused E x y name location kind _ _ e e' m hx hy (C104_hex E x name location kind) (C104_hex E y name location kind),
   fun n => C105_refused E x y name location _ _ _ e e' m hx hy (C104_hexLength E x n name location kind) (C104_hexLength E y n name location kind)⟩

theorem C105_numbers (E : Env) (u : UniDB) (dp : Option Nat) (x y : PVal) (name location kind : Option Str) (e e' : Err) (m : Str) (hx : NoFloat x) (hy : NoFloat y) :
    (Msg.vPositiveInteger E x name location kind = .error (e, m) → Msg.vPositiveInteger E y name location kind = .error (e', m) → x = y) ∧
    (Msg.vWholeNumber E x name location kind = .error (e, m) → Msg.vWholeNumber E y name location kind = .error (e', m) → x = y) ∧
    (Msg.vStrWholeNumber E u x name location kind = .error (e, m) → Msg.vStrWholeNumber E u y name location kind = .error (e', m) → x = y) ∧
    (Msg.vStrWholeOrDecimal E u dp x name location kind = .error (e, m) → Msg.vStrWholeOrDecimal E u dp y name location kind = .error (e', m) → x = y) ∧
    (Msg.vStrDate E u x name location kind = .error (e, m) → Msg.vStrDate E u y name location kind = .error (e', m) → x = y) :=
  ⟨C105_refused E x y name location kind _ _ e e' m hx hy (C104_integers E x name location kind).1 (C104_integers E y name location kind).1,
   C105_refused E x y name location kind _ _ e e' m hx hy (C104_integers E x name location kind).2 (C104_integers E y name location kind).2,
   C105_refused E x y name location kind _ _ e e' m hx hy (C104_strWhole E u x name location kind).2 (C104_strWhole E u y name location kind).2,
   C105_refused E x y name location kind _ _ e e' m hx hy (C104_decimal E u dp x name location kind).2 (C104_decimal E u dp y name location kind).2,
   C105_refused E x y name location kind _ _ e e' m hx hy (C104_date E u x name location kind) (C104_date E u y name location kind)⟩

/-! ## C106: positions -/

/-- The text of `validate_hex` lists exactly the positions of the characters that are not hexadecimal
digits, in increasing order, and the characters at these positions. -/
theorem C106_hex (E : Env) (s : Str) (name location kind : Option Str) (e : Err) (m : Str)
    (h : Msg.vHex E (.str s) name location kind = .error (e, m)) :
    e = .valueError ∧
    ((s.length % 2 = 1 ∧ Explains E (.str s) name location kind (py"whose length is not an even number (" ++ pyStr s.length ++ py" chars).") m) ∨
     ∃ (l : List Nat) (chars : List Char), Positions (fun c => c ∉ py"0123456789abcdef") s l ∧ l ≠ [] ∧ l.map (fun i => s[i]?) = chars.map some ∧
       Explains E (.str s) name location kind (py"where the chars at indices " ++ listStr l ++ py" (with values '" ++
        join [','] (chars.map fun c => if c = '\n' then py"\\n" else [c]) ++ py"') are not hex chars.") m) := by
  unfold Msg.vHex at h
  simp only [Msg.vString, M_bind_ok] at h
  by_cases hl : s.length % 2 ≠ 0
  · rw [if_pos hl] at h
    simp only [M_throw, M_bind_err, Except.error.injEq, Prod.mk.injEq] at h
    refine ⟨h.1.symm, Or.inl ⟨by omega, ?_⟩⟩
    rw [← h.2]
    exact explains E _ name location kind _
  · rw [if_neg hl] at h
    simp only [M_pure] at h
    by_cases hb : (badChars notHex 0 s).length > 0
    · rw [if_pos hb] at h
      simp only [M_throw, M_bind_err, Except.error.injEq, Prod.mk.injEq] at h
      refine ⟨h.1.symm, Or.inr ⟨(badChars notHex 0 s).map Prod.fst, (badChars notHex 0 s).map Prod.snd, ?_, ?_, ?_, ?_⟩⟩
      · have := badChars_positions notHex s
        simp only [notHex_iff] at this
        exact this
      · intro hn
        rw [List.map_eq_nil_iff] at hn
        rw [hn] at hb
        simp at hb
      · rw [badChars_chars, List.map_map]; rfl
      · rw [← h.2, List.map_map]
        exact explains E _ name location kind _
    · rw [if_neg hb] at h; simp at h

theorem C106_digits (E : Env) (u : UniDB) (s : Str) (name location kind : Option Str) (e : Err) (m : Str) (h0 : s ≠ py"0")
    (h : Msg.vStrPositiveInteger E u (.str s) name location kind = .error (e, m)) :
    e = .valueError ∧ ∃ (l : List Nat) (chars : List Char), Positions (fun c => isDigitChar u c = false) s l ∧ l ≠ [] ∧ l.map (fun i => s[i]?) = chars.map some ∧
       Explains E (.str s) name location kind (py"where the chars at indices " ++ listStr l ++ py" (with values [" ++
        join py", " (chars.map fun c => reprStr E [c]) ++ py"]) are not digits.") m := by
  unfold Msg.vStrPositiveInteger at h
  simp only [Msg.vString, M_bind_ok] at h
  rw [if_neg h0] at h
  simp only [M_pure] at h
  by_cases hb : (badChars (fun c => !isDigitChar u c) 0 s).length > 0
  · rw [if_pos hb] at h
    simp only [M_throw, Except.error.injEq, Prod.mk.injEq] at h
    refine ⟨h.1.symm, (badChars (fun c => !isDigitChar u c) 0 s).map Prod.fst, (badChars (fun c => !isDigitChar u c) 0 s).map Prod.snd, ?_, ?_, ?_, ?_⟩
    · have := badChars_positions (fun c => !isDigitChar u c) s
      simp only [Bool.not_eq_true'] at this
      exact this
    · intro hn
      rw [List.map_eq_nil_iff] at hn
      rw [hn] at hb
      simp at hb
    · rw [badChars_chars, List.map_map]; rfl
    · rw [← h.2]
      have := explains E (.str s) name location kind (py"where the chars at indices " ++ listStr ((badChars (fun c => !isDigitChar u c) 0 s).map Prod.fst) ++
        py" (with values " ++ charList E ((badChars (fun c => !isDigitChar u c) 0 s).map Prod.snd) ++ py") are not digits.")
      simpa [charList] using this
  · rw [if_neg hb] at h; simp at h

namespace Msg

theorem loop_first (p : Char → Prop) [DecidablePred p] (hp : ∀ c, p c ↔ c ∈ permittedChars) (pre s d : Str)
    (hpre : ∀ c ∈ pre, p c) (line index : Nat) (hl : line = pre.count '\n')
    (hi : (line = 0 ∧ index = pre.length) ∨ ∃ u w, pre = u ++ '\n' :: w ∧ '\n' ∉ w ∧ index = w.length)
    (h : printableLoop line index s = some d) : ∃ l i c, FirstBad p (pre ++ s) l i c ∧ d = printableDetail l i c := by
  induction s generalizing pre line index with
  | nil => simp [printableLoop] at h
  | cons c r ih =>
    unfold printableLoop at h
    have hpc : permittedChars.contains c = true ↔ p c := by rw [hp, List.contains_iff_mem]
    by_cases h1 : p c
    · rw [if_neg (by rw [hpc.mpr h1]; decide)] at h
      have e : pre ++ c :: r = (pre ++ [c]) ++ r := by simp
      have hpre' : ∀ d ∈ pre ++ [c], p d := by
        intro d hd
        rw [List.mem_append, List.mem_singleton] at hd
        rcases hd with hd | rfl
        · exact hpre d hd
        · exact h1
      rw [e]
      by_cases h2 : c = '\n'
      · rw [if_pos h2] at h
        refine ih (pre ++ [c]) hpre' (line + 1) 0 ?_ ?_ h
        · rw [List.count_append, hl, h2]; simp
        · right; exact ⟨pre, [], by rw [h2], by simp, rfl⟩
      · rw [if_neg h2] at h
        refine ih (pre ++ [c]) hpre' line (index + 1) ?_ ?_ h
        · rw [List.count_append, hl, List.count_singleton, if_neg]
          · simp
          · simpa using h2
        · rcases hi with ⟨h3, h4⟩ | ⟨u, w, h3, h4, h5⟩
          · left; exact ⟨h3, by simp [h4]⟩
          · right
            refine ⟨u, w ++ [c], by rw [h3]; simp, ?_, by simp [h5]⟩
            simp only [List.mem_append, List.mem_singleton, not_or]
            exact ⟨h4, fun hc => h2 hc.symm⟩
    · have hf : permittedChars.contains c = false := by
        rw [Bool.eq_false_iff]; exact fun hc => h1 (hpc.mp hc)
      rw [if_pos (by rw [hf]; decide), Option.some.injEq] at h
      refine ⟨line, index + 1, c, ⟨pre, r, rfl, hpre, h1, hl, ?_⟩, h.symm⟩
      rcases hi with ⟨h3, h4⟩ | ⟨u, w, h3, h4, h5⟩
      · left; exact ⟨h3, by rw [h4]⟩
      · right; exact ⟨u, w, h3, h4, by rw [h5]⟩

end Msg

/-- The text of `validate_string_is_printable_ascii` names the first character that is not permitted: the number of
line breaks before it, its place in its line counted from 1, and its code point. -/
theorem C106_printable (E : Env) (s : Str) (name location kind : Option Str) (e : Err) (m : Str)
    (h : Msg.vPrintableAscii E (.str s) name location kind = .error (e, m)) :
    e = .valueError ∧ ∃ line place c, FirstBad (fun c => (0x20 ≤ c.toNat ∧ c.toNat ≤ 0x7e) ∨ c = '\t' ∨ c = '\n') s line place c ∧
      Explains E (.str s) name location kind (py"Line " ++ pyStr line ++ py", index " ++ pyStr place ++ py": Character '" ++ [c] ++ py"' (ord=" ++
        pyStr c.toNat ++ py") is not in the list of permitted data characters.") m := by
  unfold Msg.vPrintableAscii at h
  simp only [Msg.vString, M_bind_ok] at h
  cases hl : printableLoop 0 0 s with
  | none => rw [hl] at h; simp at h
  | some d =>
    rw [hl] at h
    simp only [M_throw, Except.error.injEq, Prod.mk.injEq] at h
    obtain ⟨l, i, c, h1, rfl⟩ := loop_first (fun c => (0x20 ≤ c.toNat ∧ c.toNat ≤ 0x7e) ∨ c = '\t' ∨ c = '\n') (fun c => (permitted_iff c).symm) [] s d
      (by simp) 0 0 (by simp) (Or.inl ⟨rfl, rfl⟩) hl
    refine ⟨h.1.symm, l, i, c, h1, ?_⟩
    rw [← h.2]
    exact explains E _ name location kind _

/-- The text of `validate_list_contains_items` lists the items of the list and then exactly the missing ones. -/
theorem C106_missing (input items : List Str) (e : Err) (m : Str) (h : Msg.vListContains input items = .error (e, m)) :
    e = .valueError ∧ ∃ missing : List Str, missing.Sublist items ∧ (∀ x, x ∈ missing ↔ x ∈ items ∧ x ∉ input) ∧ missing ≠ [] ∧
      m = py"Some items are not in the list.\nList items:" ++ (input.map fun x => py"\n- " ++ x).flatten ++
        py"\nItems not found:" ++ (missing.map fun x => py"\n- " ++ x).flatten := by
  unfold Msg.vListContains at h
  simp only at h
  by_cases hn : (items.filter fun x => !input.contains x).length = 0
  · rw [if_pos hn] at h; simp at h
  · rw [if_neg hn] at h
    simp only [Except.error.injEq, Prod.mk.injEq] at h
    refine ⟨h.1.symm, items.filter fun x => !input.contains x, List.filter_sublist, ?_, ?_, ?_⟩
    · intro x; simp [List.mem_filter]
    · intro h0; rw [h0] at hn; simp at hn
    · rw [← h.2]; simp [bulleted, List.flatMap]

/-! ## C107: secrets -/

theorem C107_key_text (E : Env) (X : Ext) : ∀ (keys : List Str) (m : Str), keyText E X keys = some m → keyMap X keys = .error .valueError := by
  intro keys
  induction keys with
  | nil => intro m h; simp [keyText] at h
  | cons k ks ih =>
    intro m h
    have ha := C104_agrees_hexLength E (.str k) 32 none none none
    unfold keyText at h
    rw [keyMap]
    simp only [vHexLengthP, vString, R_bind_ok] at ha
    cases hv : Msg.vHexLength E (.str k) 32 none none none with
    | error e =>
      rw [hv] at ha
      cases hk : vHexLength k 32 with
      | ok _ => rw [hk] at ha; cases e; simp at ha
      | error e' =>
        have : e' = .valueError := by
          unfold vHexLength vHex at hk
          by_cases h1 : k.length % 2 ≠ 0
          · simp [h1] at hk; exact hk.symm
          · by_cases h2 : (!(k.all fun c => py"0123456789abcdef".contains c)) = true
            · rw [if_neg h1, if_pos h2] at hk; simp at hk; exact hk.symm
            · rw [if_neg h1, if_neg h2] at hk
              by_cases h3 : (k.length : Int) ≠ 32 * 2
              · simp only [R_pure, R_bind_ok, if_pos h3] at hk; simp at hk; exact hk.symm
              · simp only [R_pure, R_bind_ok, if_neg h3] at hk; simp at hk
        rw [this]; rfl
    | ok s =>
      rw [hv] at ha h
      cases hk : vHexLength k 32 with
      | error e' => rw [hk] at ha; simp at ha
      | ok _ =>
        simp only [R_bind_ok]
        cases hp : privateKeyToAddress X k with
        | error e => rw [hp] at h; simp at h
        | ok a =>
          rw [hp] at h
          simp only at h
          rw [R_bind_ok, ih m h]; rfl

/-- Partial: no text is made for keys of the right form. -/
theorem C107_partial (E : Env) (X : Ext) (keys : List Str) (h : ∀ k ∈ keys, vHexLength k 32 = .ok ()) : keyText E X keys = none := by
  induction keys with
  | nil => rfl
  | cons k ks ih =>
    have ha := C104_agrees_hexLength E (.str k) 32 none none none
    simp only [vHexLengthP, vString, R_bind_ok, h k (by simp)] at ha
    unfold keyText
    cases hv : Msg.vHexLength E (.str k) 32 none none none with
    | error e => rw [hv] at ha; cases e; simp at ha
    | ok s =>
      simp only
      cases privateKeyToAddress X k with
      | error _ => rfl
      | ok _ => exact ih fun k hk => h k (by simp [hk])

namespace Msg

theorem repr_infix_build (E : Env) (d : Str) (x : PVal) (kind : Str) : repr E x <:+: buildErrorMsg E d x none none (some kind) := by
  unfold buildErrorMsg
  simp only [List.nil_append, List.cons_append, capitalizeFirst, List.append_assoc]
  by_cases hd : d = []
  · simp only [hd, ne_eq, not_true_eq_false, if_false]
    refine ⟨py"Expected a " ++ reprStr E kind ++ py", but received value ", [], ?_⟩
    simp only [List.append_nil, List.append_assoc, List.cons_append, List.nil_append]
    rfl
  · simp only [ne_eq, hd, not_false_eq_true, if_true]
    refine ⟨py"Expected a " ++ reprStr E kind ++ py", but received value ", py", " ++ d, ?_⟩
    simp only [List.append_assoc, List.cons_append, List.nil_append]
    rfl

/-- `repr` leaves a text of letters and digits as it is. -/
theorem reprStr_plain (E : Env) (s : Str) (h : ∀ c ∈ s, 48 ≤ c.toNat ∧ c.toNat < 123 ∧ c ≠ '\\') : reprStr E s = ['\''] ++ s ++ ['\''] := by
  have hq : reprQuote s = '\'' := by
    unfold reprQuote
    rw [if_neg]
    simp only [Bool.and_eq_true, List.contains_iff_mem, not_and]
    intro hm
    exact absurd (h _ hm).1 (by decide)
  have hc : s.flatMap (reprChar E '\'') = s := by
    clear hq
    induction s with
    | nil => rfl
    | cons c r ih =>
      rw [List.flatMap_cons, ih fun d hd => h d (by simp [hd])]
      obtain ⟨h1, h2, h3⟩ := h c (by simp)
      have e : reprChar E '\'' c = [c] := by
        unfold reprChar
        have ne : ∀ d : Char, d.toNat < 48 → c ≠ d := by rintro d hd rfl; omega
        rw [if_neg (by rintro (h | h); exacts [ne _ (by decide) h, h3 h]), if_neg (ne _ (by decide)), if_neg (ne _ (by decide)), if_neg (ne _ (by decide)),
          if_pos ⟨by omega, by omega⟩]
      rw [e]; rfl
  simp only [reprStr, hq, hc, List.cons_append, List.nil_append]

end Msg

/-- VIOLATION: `sign` with a first key that does not have the right form raises an exception whose text repeats the key. -/
theorem C107_sign_violation (E : Env) (X : Ext) (t : Tx) (k : Str) (ks : List Str) (h : vHexLength k 32 ≠ .ok ()) :
    (t.sign X (k :: ks) none).2 = .error .valueError ∧ ∃ m, keyText E X (k :: ks) = some m ∧ reprStr E k <:+: m := by
  have ha := C104_agrees_hexLength E (.str k) 32 none none none
  simp only [vHexLengthP, vString, R_bind_ok] at ha
  cases hv : Msg.vHexLength E (.str k) 32 none none none with
  | ok s =>
    rw [hv] at ha
    cases hk : vHexLength k 32 with
    | ok _ => exact absurd hk h
    | error e => rw [hk] at ha; simp at ha
  | error em =>
    obtain ⟨e, m⟩ := em
    have hkt : keyText E X (k :: ks) = some m := by unfold keyText; rw [hv]
    refine ⟨?_, m, hkt, ?_⟩
    · have := C107_key_text E X (k :: ks) m hkt
      simp only [Tx.sign, signChecks, R_pure, R_bind_ok, this]
    · obtain ⟨d, _, hd⟩ := C104_hexLength E (.str k) 32 none none none e m hv
      rw [explains_eq hd]
      have := repr_infix_build E d (.str k) (py"hex_length_" ++ pyStr 32 ++ py"_bytes")
      rw [Msg.repr] at this
      exact this

/-- VIOLATION: a key with one digit missing, or in upper case, is in the text digit by digit. -/
theorem C107_digits_violation (E : Env) (X : Ext) (t : Tx) (k : Str) (ks : List Str) (h : vHexLength k 32 ≠ .ok ())
    (hk : ∀ c ∈ k, c ∈ py"0123456789abcdefABCDEF") :
    (t.sign X (k :: ks) none).2 = .error .valueError ∧ ∃ m, keyText E X (k :: ks) = some m ∧ k <:+: m := by
  obtain ⟨h1, m, h2, h3⟩ := C107_sign_violation E X t k ks h
  refine ⟨h1, m, h2, List.IsInfix.trans ?_ h3⟩
  have : ∀ c ∈ py"0123456789abcdefABCDEF", 48 ≤ c.toNat ∧ c.toNat < 123 ∧ c ≠ '\\' := by decide
  rw [reprStr_plain E k fun c hc => this c (hk c hc)]
  exact ⟨['\''], ['\''], rfl⟩

/-- VIOLATION: decoding a WIF private key whose checksum does not match (one mistyped character is enough) raises an exception
whose text contains the key in hexadecimal and the text that was given. -/
theorem C107_wif_violation (X : Ext) (hs : ∀ b, (X.sha256 b).length = 32) (w : Str) (key c : Bytes) (hw : Denotes58 w (0x80 :: key ++ c))
    (hc : c.length = 4) (hne : c ≠ checksum X.sha256 (0x80 :: key)) :
    wifToPrivateKey X w = .error .valueError ∧ ∃ m, checksumText X w = some m ∧ hex key <:+: m ∧ w <:+: m := by
  rw [← denotes_text58 hw]
  have hd := text58_denotes (0x80 :: key ++ c)
  have hlen : (0x80 :: key ++ c).length - 4 = (0x80 :: key).length := by simp [hc]
  have hbad := C09_bad_checksum X hs _ _ hd (Or.inr (by
    rw [hlen, List.drop_left, List.take_left]; exact hne))
  refine ⟨by unfold wifToPrivateKey; rw [hbad]; rfl, ?_⟩
  have hal := text58_alphabet (0x80 :: key ++ c)
  have hb := base58ToInt_eq (alphabet_strip hal)
  have hpos : 0 < beNat (0x80 :: key ++ c) := by
    simp only [List.cons_append, beNat]
    have : 0 < (0x80 : UInt8).toNat := by decide
    positivity
  have h1 : ((text58 (0x80 :: key ++ c)).takeWhile (· == '1')).length = 0 := by
    rw [text58_ones]; simp
  rw [value58_strip, value58_text58, if_pos hpos] at hb
  have e1 : (hex (0x80 :: key ++ c)).drop ((hex (0x80 :: key ++ c)).length - 8) = hex c := by
    rw [hex_length, show 2 * (0x80 :: key ++ c).length - 8 = 2 * (0x80 :: key).length by simp [hc]; omega, hex_drop, List.drop_left]
  have e2 : (hex (0x80 :: key ++ c)).take ((hex (0x80 :: key ++ c)).length - 8) = hex (0x80 :: key) := by
    rw [hex_length, show 2 * (0x80 :: key ++ c).length - 8 = 2 * (0x80 :: key).length by simp [hc]; omega, hex_take, List.take_left]
  have hmin := minBytes_beNat (0x80 :: key ++ c) (by simp) (by simp)
  have hne' : hex c ≠ hex (checksum X.sha256 (0x80 :: key)) := fun h => hne (hex_inj h)
  simp only [checksumText, hb, intToHex_nat, hmin, lastK, dropLastK, e1, e2, stripCount, h1, rep_hex00, List.replicate_zero, ← hex_append, List.nil_append, getChecksum_hex,
    if_pos hne']
  refine ⟨_, rfl, ?_, ?_⟩
  · have hk : hex key <:+: hex (0x80 :: key) := by
      rw [show (0x80 :: key : Bytes) = [0x80] ++ key from rfl, hex_append]
      exact (List.suffix_append _ _).isInfix
    refine List.IsInfix.trans hk ?_
    simp only [List.append_assoc]
    exact ⟨py"Checksum value does not match calculated checksum.\n- Input: " ++ text58 (0x80 :: key ++ c) ++ py"\n- Input hex: " ++ hex (0x80 :: key ++ c) ++
      py"\n- Input hex without checksum: ", _, by simp only [List.append_assoc]; rfl⟩
  · simp only [List.append_assoc]
    exact ⟨py"Checksum value does not match calculated checksum.\n- Input: ", _, by simp only [List.append_assoc]; rfl⟩

/-- The text of `base58check_to_hex` is made only if it raises ValueError. -/
theorem C107_checksum_text (X : Ext) (s m : Str) (h : checksumText X s = some m) : base58checkToHex X s = .error .valueError := by
  unfold checksumText at h
  unfold base58checkToHex
  simp only at h ⊢
  cases h1 : base58ToInt (lstripC '1' s) with
  | error e => rw [h1] at h; simp at h
  | ok n =>
    rw [h1] at h
    simp only [R_bind_ok] at h ⊢
    cases h2 : intToHex n with
    | error e => rw [h2] at h; simp at h
    | ok x =>
      rw [h2] at h
      simp only [R_bind_ok] at h ⊢
      cases h3 : getChecksum X (rep (s.length - (lstripC '1' s).length) py"00" ++ dropLastK 8 x) with
      | error e => rw [h3] at h; simp at h
      | ok c =>
        rw [h3] at h
        simp only [R_bind_ok] at h ⊢
        by_cases hc : lastK 8 x ≠ c
        · rw [if_pos hc]; rfl
        · rw [if_neg hc] at h; simp at h

/-! ## C108: control characters -/

/-- The value is shown with visible characters only. -/
theorem C108_value (E : Env) (s : Str) : ∀ c ∈ reprStr E s, Visible E c := visible_reprStr E s

/-- VIOLATION: the text of `validate_hex` contains the refused characters (other than line breaks) as they are: a terminal
escape sequence in the value reaches the terminal. -/
theorem C108_hex_violation (E : Env) (s : Str) (name location kind : Option Str) (c : Char) (hl : s.length % 2 = 0) (hc : c ∈ s)
    (hx : c ∉ py"0123456789abcdef") (hn : c ≠ '\n') : ∃ m, Msg.vHex E (.str s) name location kind = .error (.valueError, m) ∧ c ∈ m := by
  have hb : (badChars notHex 0 s).length > 0 := by
    rw [badChars_len]
    intro h
    have h1 := (notHex_iff c).mpr hx
    rw [h c hc] at h1
    simp at h1
  refine ⟨_, by simp only [Msg.vHex, Msg.vString, M_bind_ok, hl, ne_eq, not_true_eq_false, if_false, M_pure, if_pos hb, M_throw, M_bind_err]; rfl, ?_⟩
  obtain ⟨P, hP, he⟩ := build_split E name location kind
  rw [he]
  obtain ⟨p, P', rfl⟩ := List.exists_cons_of_ne_nil hP
  simp only [List.cons_append, capitalizeFirst, List.mem_cons, List.mem_append]
  right; right; right
  rw [if_pos (by simp)]
  have hj : c ∈ join [','] ((badChars notHex 0 s).map fun p => showChar p.2) := by
    have key : ∀ (l : List Str) (w : Str), w ∈ l → c ∈ w → c ∈ join [','] l := by
      intro l
      induction l with
      | nil => simp
      | cons a r ih =>
        intro w hw hcw
        cases r with
        | nil => simp at hw; subst hw; exact hcw
        | cons b r =>
          rw [join]
          rcases List.mem_cons.mp hw with rfl | hw
          · simp [hcw]
          · have := ih w hw hcw
            simp [this]
    obtain ⟨i, hi⟩ := List.mem_iff_getElem?.mp hc
    refine key _ (showChar c) (List.mem_map.mpr ⟨(i, c), ?_, rfl⟩) (by simp [showChar, hn])
    exact (badChars_mem notHex 0 s i c).mpr ⟨Nat.zero_le _, by simpa using hi, (notHex_iff c).mpr hx⟩
  simp only [List.nil_append, List.mem_cons, List.mem_append, hj, or_true, true_or]

/-- VIOLATION: so does the text of `validate_string_is_printable_ascii`, for the first character that is not permitted. -/
theorem C108_printable_violation (E : Env) (s : Str) (name location kind : Option Str) (line place : Nat) (c : Char)
    (h : FirstBad (fun c => (0x20 ≤ c.toNat ∧ c.toNat ≤ 0x7e) ∨ c = '\t' ∨ c = '\n') s line place c) :
    ∃ m, Msg.vPrintableAscii E (.str s) name location kind = .error (.valueError, m) ∧ c ∈ m := by
  obtain ⟨before, after, rfl, hb, hc, hx1⟩ := h
  clear hx1
  have hne : printableLoop 0 0 (before ++ c :: after) ≠ none := by
    intro hn
    have := List.all_eq_true.mp ((printableLoop_none 0 0 _).mp hn) c (by simp)
    exact hc ((permitted_iff c).mp (by simpa using this))
  obtain ⟨d, hd⟩ := Option.ne_none_iff_exists'.mp hne
  have hm : Msg.vPrintableAscii E (.str (before ++ c :: after)) name location kind =
      .error (.valueError, buildErrorMsg E d (.str (before ++ c :: after)) name location kind) := by
    unfold Msg.vPrintableAscii
    simp only [Msg.vString, M_bind_ok, hd, M_throw]
  refine ⟨_, hm, ?_⟩
  obtain ⟨l, i, c', ⟨b', a', he, hb', hc', hx2⟩, rfl⟩ := loop_first (fun c => (0x20 ≤ c.toNat ∧ c.toNat ≤ 0x7e) ∨ c = '\t' ∨ c = '\n') (fun c => (permitted_iff c).symm) []
    (before ++ c :: after) d (by simp) 0 0 (by simp) (Or.inl ⟨rfl, rfl⟩) hd
  have hcc : c = c' := by
    clear hd hne hm hx2
    induction before generalizing b' with
    | nil =>
      cases b' with
      | nil => simp at he; exact he.1
      | cons x b' =>
        simp only [List.nil_append, List.cons_append, List.cons.injEq] at he
        exact absurd (by rw [he.1]; exact hb' x (by simp)) hc
    | cons y before ih =>
      cases b' with
      | nil =>
        simp only [List.nil_append, List.cons_append, List.cons.injEq] at he
        exact absurd (by rw [← he.1]; exact hb y (by simp)) hc'
      | cons x b' =>
        simp only [List.nil_append, List.cons_append, List.cons.injEq] at he
        exact ih (fun d hd => hb d (by simp [hd])) b' (by simpa using he.2) (fun d hd => hb' d (by simp [hd]))
  subst hcc
  obtain ⟨P, hP, hs⟩ := build_split E name location kind
  rw [hs]
  obtain ⟨p, P', rfl⟩ := List.exists_cons_of_ne_nil hP
  simp only [List.cons_append, capitalizeFirst, List.mem_cons, List.mem_append]
  right; right; right
  rw [if_pos (printableDetail_ne l i c)]
  simp [printableDetail]

/-- Partial: a refusal that does not list characters is one visible line, if the name is. -/
theorem C108_partial (E : Env) (u : UniDB) (s : Str) (name location kind : Option Str) (hn : ∀ n, name = some n → ∀ c ∈ n, Visible E c)
    (e : Err) (m : Str) (h : Msg.vStrDate E u (.str s) name location kind = .error (e, m)) : ∀ c ∈ m, Visible E c := by
  unfold Msg.vStrDate at h
  simp only [Msg.vString, M_bind_ok] at h
  by_cases hd : (!(dateCore u s || (s.getLast? == some '\n' && dateCore u s.dropLast))) = true
  · rw [if_pos hd] at h
    simp only [M_throw, Except.error.injEq, Prod.mk.injEq] at h
    rw [← h.2]
    have hq : ∀ n, name = some n → ∀ c ∈ quotedName n, Visible E c := by
      intro n hnn c hc
      obtain ⟨w, r, e1, _, _, e2⟩ := quotedName_quoted n
      rw [e2] at hc
      simp only [List.mem_append, List.mem_singleton] at hc
      rcases hc with ((rfl | hc) | rfl) | hc
      · exact Or.inl (by decide)
      · exact hn n hnn c (by rw [e1]; simp [hc])
      · exact Or.inl (by decide)
      · exact hn n hnn c (by rw [e1]; simp [hc])
    have hcap : ∀ t : Str, (∀ c ∈ t, Visible E c) → ∀ c ∈ capitalizeFirst t, Visible E c := by
      intro t ht c hc
      cases t with
      | nil => simp [capitalizeFirst] at hc
      | cons a r =>
        simp only [capitalizeFirst, List.mem_cons] at hc
        rcases hc with rfl | hc
        · by_cases ha : 97 ≤ a.toNat ∧ a.toNat ≤ 122
          · rw [if_pos ha]
            left
            have : ∀ n < 123, 97 ≤ n → 32 ≤ (Char.ofNat (n - 32)).toNat ∧ (Char.ofNat (n - 32)).toNat < 127 := by decide +kernel
            exact this a.toNat (by omega) ha.1
          · rw [if_neg ha]; exact ht a (by simp)
        · exact ht c (by simp [hc])
    unfold buildErrorMsg
    apply hcap
    have app : ∀ a b : Str, (∀ c ∈ a, Visible E c) → (∀ c ∈ b, Visible E c) → ∀ c ∈ a ++ b, Visible E c := by
      intro a b ha hb c hc
      rcases List.mem_append.mp hc with hc | hc
      · exact ha c hc
      · exact hb c hc
    have lit : ∀ a : Str, (a.all fun c => decide (32 ≤ c.toNat ∧ c.toNat < 127)) = true → ∀ c ∈ a, Visible E c := fun a ha => visible_lit E ha
    have h0 : ∀ c ∈ ([] : Str), Visible E c := by simp
    have hv : ∀ c ∈ Msg.repr E (.str s), Visible E c := by rw [Msg.repr]; exact visible_reprStr E s
    cases location <;> cases name <;> cases kind <;> simp only [ne_eq, reduceCtorEq, not_false_eq_true, if_true] <;>
      repeat (first | exact hv | exact h0 | exact hq _ rfl | exact visible_reprStr E _ | (apply lit; decide) | apply app)
  · rw [if_neg hd] at h; simp at h

end BT
