import Verif.Lemmas.Messages
import Verif.Lemmas.Validate
import Verif.Lemmas.Amount
import Verif.Concrete.Toy

/-!
# Error messages (C104 - C108)

`E` is any environment (`float.__repr__` and the printable non-ASCII characters), `name`, `location`
and `kind` are any optional strings.
-/

namespace BT

open Msg

/-! ## Lemmas -/

namespace Msg

theorem badChars_nil (p : Char → Bool) (i : Nat) (s : Str) : badChars p i s = [] ↔ ∀ c ∈ s, p c = false := by
  induction s generalizing i with
  | nil => simp [badChars]
  | cons c r ih =>
    unfold badChars
    by_cases h : p c
    · simp [h]
    · simp [h, ih]

theorem badChars_len (p : Char → Bool) (i : Nat) (s : Str) : (badChars p i s).length > 0 ↔ ¬ ∀ c ∈ s, p c = false := by
  rw [← badChars_nil p i s, gt_iff_lt, List.length_pos_iff]

theorem badChars_mem (p : Char → Bool) (k : Nat) (s : Str) (i : Nat) (c : Char) :
    (i, c) ∈ badChars p k s ↔ k ≤ i ∧ s[i - k]? = some c ∧ p c = true := by
  induction s generalizing k with
  | nil => simp [badChars]
  | cons d r ih =>
    have key : (i, c) ∈ badChars p (k + 1) r ↔ k < i ∧ (d :: r)[i - k]? = some c ∧ p c = true := by
      rw [ih]
      constructor
      · rintro ⟨h1, h2, h3⟩
        refine ⟨by omega, ?_, h3⟩
        rw [show i - k = (i - (k + 1)) + 1 by omega]; simpa using h2
      · rintro ⟨h1, h2, h3⟩
        refine ⟨by omega, ?_, h3⟩
        rw [show i - k = (i - (k + 1)) + 1 by omega] at h2; simpa using h2
    unfold badChars
    by_cases h : p d
    · simp only [h, if_true, List.mem_cons, key, Prod.mk.injEq]
      constructor
      · rintro (⟨rfl, rfl⟩ | ⟨h1, h2, h3⟩)
        · exact ⟨le_refl _, by simp, h⟩
        · exact ⟨by omega, h2, h3⟩
      · rintro ⟨h1, h2, h3⟩
        by_cases hik : i = k
        · left
          subst hik
          simp at h2
          exact ⟨rfl, h2.symm⟩
        · right; exact ⟨by omega, h2, h3⟩
    · rw [if_neg h, key]
      constructor
      · rintro ⟨h1, h2, h3⟩; exact ⟨by omega, h2, h3⟩
      · rintro ⟨h1, h2, h3⟩
        refine ⟨?_, h2, h3⟩
        by_contra hlt
        have : i = k := by omega
        subst this
        simp at h2
        rw [h2] at h
        exact h h3

theorem badChars_lower (p : Char → Bool) (k : Nat) (s : Str) : ∀ i ∈ (badChars p k s).map Prod.fst, k ≤ i := by
  intro i hi
  rw [List.mem_map] at hi
  obtain ⟨⟨j, c⟩, hj, rfl⟩ := hi
  exact ((badChars_mem p k s j c).mp hj).1

theorem badChars_sorted (p : Char → Bool) (k : Nat) (s : Str) : ((badChars p k s).map Prod.fst).Pairwise (· < ·) := by
  induction s generalizing k with
  | nil => simp [badChars]
  | cons d r ih =>
    unfold badChars
    by_cases h : p d
    · simp only [h, if_true, List.map_cons, List.pairwise_cons]
      exact ⟨fun i hi => Nat.lt_of_lt_of_le (Nat.lt_succ_self k) (badChars_lower p (k + 1) r i hi), ih (k + 1)⟩
    · simpa [h] using ih (k + 1)

theorem badChars_positions (p : Char → Bool) (s : Str) : Positions (fun c => p c = true) s ((badChars p 0 s).map Prod.fst) := by
  refine ⟨badChars_sorted p 0 s, fun i => ?_⟩
  simp only [List.mem_map, Prod.exists, exists_and_right, exists_eq_right]
  constructor
  · rintro ⟨c, hc⟩
    exact ⟨c, by simpa using ((badChars_mem p 0 s i c).mp hc).2⟩
  · rintro ⟨c, h1, h2⟩
    exact ⟨c, (badChars_mem p 0 s i c).mpr ⟨Nat.zero_le _, by simpa using h1, h2⟩⟩

/-- The characters shown are those at the positions shown. -/
theorem badChars_chars (p : Char → Bool) (s : Str) : ((badChars p 0 s).map Prod.fst).map (fun i => s[i]?) = (badChars p 0 s).map fun q => some q.2 := by
  rw [List.map_map]
  apply List.map_congr_left
  rintro ⟨i, c⟩ h
  simpa using ((badChars_mem p 0 s i c).mp h).2.1

theorem notHex_iff (c : Char) : notHex c = true ↔ c ∉ py"0123456789abcdef" := by
  unfold notHex
  simp only [Bool.not_eq_true', List.contains_eq_mem, decide_eq_false_iff_not]

theorem all_iff_bad (p q : Char → Bool) (h : ∀ c, q c = !p c) (i : Nat) (s : Str) : (!(s.all p)) = decide ((badChars q i s).length > 0) := by
  rw [Bool.eq_iff_iff]
  simp only [Bool.not_eq_true', decide_eq_true_eq, badChars_len]
  simp only [h, Bool.not_eq_false', ← List.all_eq_true]
  cases s.all p <;> simp

theorem printableLoop_none (line index : Nat) (s : Str) : printableLoop line index s = none ↔ s.all (fun c => permittedChars.contains c) = true := by
  induction s generalizing line index with
  | nil => simp [printableLoop]
  | cons c r ih =>
    unfold printableLoop
    by_cases h : permittedChars.contains c = true
    · by_cases hn : c = '\n'
      · rw [if_neg (by rw [h]; decide), if_pos hn, ih]; simp only [List.all_cons, h, Bool.true_and]
      · rw [if_neg (by rw [h]; decide), if_neg hn, ih]; simp only [List.all_cons, h, Bool.true_and]
    · rw [if_pos (by simpa using h)]; simp only [reduceCtorEq, List.all_cons, h, Bool.false_and, Bool.false_eq_true]

end Msg

/-! ## C104: the text agrees with the outcome and explains it -/

theorem C104_agrees_string (E : Env) (x : PVal) (name location kind : Option Str) : forget (Msg.vString E x name location kind) = vString x := by
  cases x <;> rfl

theorem C104_agrees_types (E : Env) (x : PVal) (name location kind : Option Str) :
    forget (Msg.vDict E x name location kind) = vDict x ∧ forget (Msg.vList E x name location kind) = vList x ∧
    forget (Msg.vInteger E x name location kind) = vInteger x ∧ forget (Msg.vBoolean E x name location kind) = vBoolean x := by
  cases x <;> exact ⟨rfl, rfl, rfl, rfl⟩

theorem C104_agrees_positive (E : Env) (x : PVal) (name location kind : Option Str) :
    forget (Msg.vPositiveInteger E x name location kind) = vPositiveInteger x := by
  unfold Msg.vPositiveInteger vPositiveInteger
  rw [forget_bind, (C104_agrees_types E x name location kind).2.2.1]
  cases vInteger x with
  | error e => rfl
  | ok n =>
    by_cases h : n < 1 <;> simp [h]

theorem C104_agrees_whole (E : Env) (x : PVal) (name location kind : Option Str) :
    forget (Msg.vWholeNumber E x name location kind) = vWholeNumber x := by
  unfold Msg.vWholeNumber vWholeNumber
  by_cases h : x.eqInt 0 = true
  · simp [h]
  · rw [if_neg h, if_neg h, forget_bind, C104_agrees_positive]
    cases vPositiveInteger x <;> rfl

theorem C104_agrees_hex (E : Env) (x : PVal) (name location kind : Option Str) : forget (Msg.vHex E x name location kind) = vHexP x := by
  unfold Msg.vHex vHexP
  rw [forget_bind, C104_agrees_string]
  cases vString x with
  | error e => rfl
  | ok s =>
    simp only [R_bind_ok]
    unfold vHex
    by_cases h : s.length % 2 ≠ 0
    · simp [h]
    · rw [all_iff_bad _ notHex (fun c => by simp [notHex]) 0 s]
      by_cases hb : (badChars notHex 0 s).length > 0
      · simp [h, hb]
      · simp [h, hb]

theorem C104_agrees_hexLength (E : Env) (x : PVal) (n : Int) (name location kind : Option Str) :
    forget (Msg.vHexLength E x n name location kind) = vHexLengthP x n := by
  unfold Msg.vHexLength vHexLengthP
  simp only [forget_bind, C104_agrees_hex]
  unfold vHexP vHexLength
  cases vString x with
  | error e => rfl
  | ok s =>
    simp only [R_bind_ok]
    cases vHex s with
    | error e => rfl
    | ok _ =>
      simp only [R_bind_ok, R_pure]
      by_cases h : (s.length : Int) ≠ n * 2 <;> simp [h]

theorem C104_agrees_strPositive (E : Env) (u : UniDB) (x : PVal) (name location kind : Option Str) :
    forget (Msg.vStrPositiveInteger E u x name location kind) = (vString x >>= vStrPositiveInteger u) := by
  unfold Msg.vStrPositiveInteger
  rw [forget_bind, C104_agrees_string]
  cases vString x with
  | error e => rfl
  | ok s =>
    simp only [R_bind_ok]
    unfold vStrPositiveInteger
    by_cases h : s = py"0"
    · simp [h]
    · rw [all_iff_bad _ (fun c => !isDigitChar u c) (fun c => rfl) 0 s]
      by_cases hb : (badChars (fun c => !isDigitChar u c) 0 s).length > 0
      · simp [h, hb]
      · simp [h, hb]

theorem C104_agrees_strWhole (E : Env) (u : UniDB) (x : PVal) (name location kind : Option Str) :
    forget (Msg.vStrWholeNumber E u x name location kind) = (vString x >>= vStrWholeNumber u) := by
  unfold Msg.vStrWholeNumber
  rw [forget_bind, C104_agrees_string]
  cases hx : vString x with
  | error e => rfl
  | ok s =>
    simp only [R_bind_ok]
    unfold vStrWholeNumber
    by_cases h : s = py"0"
    · simp [h]
    · rw [if_neg h, if_neg h, C104_agrees_strPositive, hx, R_bind_ok]

theorem C104_agrees_strDecimal (E : Env) (u : UniDB) (dp : Option Nat) (x : PVal) (name location kind : Option Str) :
    forget (Msg.vStrDecimal E u dp x name location kind) = (vString x >>= vStrDecimal u dp) := by
  unfold Msg.vStrDecimal
  rw [forget_bind, C104_agrees_string]
  cases hx : vString x with
  | error e => rfl
  | ok s =>
    simp only [R_bind_ok]
    unfold vStrDecimal
    by_cases h : s.count '.' ≠ 1
    · simp [h]
    · simp only [h, if_false]
      match splitC '.' s with
      | [] => rfl
      | [_] => rfl
      | _ :: _ :: _ :: _ => rfl
      | [a, b] =>
        simp only
        by_cases hd : (!isDigitStr u a || !isDigitStr u b) = true
        · simp [hd]
        · simp only [hd]
          cases dp with
          | none => rfl
          | some k => cases hr : reDecimal u k s <;> simp [hr]

theorem C104_agrees_strWholeOrDecimal (E : Env) (u : UniDB) (dp : Option Nat) (x : PVal) (name location kind : Option Str) :
    forget (Msg.vStrWholeOrDecimal E u dp x name location kind) = (vString x >>= vStrWholeOrDecimal u dp) := by
  have h1 := C104_agrees_strWhole E u x name location kind
  have h2 := C104_agrees_strDecimal E u dp x name location kind
  unfold Msg.vStrWholeOrDecimal
  cases hx : vString x with
  | error e =>
    rw [hx, R_bind_err] at h1 h2
    cases hw : Msg.vStrWholeNumber E u x name location kind with
    | ok _ => rw [hw] at h1; simp at h1
    | error e1 =>
      cases hd : Msg.vStrDecimal E u dp x name location kind with
      | ok _ => rw [hd] at h2; simp at h2
      | error e2 => rw [hw] at h1; exact h1
  | ok s =>
    rw [hx, R_bind_ok] at h1 h2
    rw [R_bind_ok]
    unfold vStrWholeOrDecimal
    rw [← h1, ← h2]
    cases Msg.vStrWholeNumber E u x name location kind with
    | ok _ => rfl
    | error e1 =>
      cases Msg.vStrDecimal E u dp x name location kind with
      | ok _ => rfl
      | error e2 => rfl

theorem C104_agrees_date (E : Env) (u : UniDB) (x : PVal) (name location kind : Option Str) :
    forget (Msg.vStrDate E u x name location kind) = (vString x >>= vStrDate u) := by
  unfold Msg.vStrDate
  rw [forget_bind, C104_agrees_string]
  cases hx : vString x with
  | error e => rfl
  | ok s =>
    simp only [R_bind_ok]
    unfold vStrDate
    by_cases h : (dateCore u s || (s.getLast? == some '\n' && dateCore u s.dropLast)) = true
    · rw [h]; rfl
    · rw [Bool.not_eq_true] at h; rw [h]; rfl

theorem C104_agrees_printable (E : Env) (x : PVal) (name location kind : Option Str) :
    forget (Msg.vPrintableAscii E x name location kind) = (vString x >>= vPrintableAscii) := by
  unfold Msg.vPrintableAscii
  rw [forget_bind, C104_agrees_string]
  cases hx : vString x with
  | error e => rfl
  | ok s =>
    simp only [R_bind_ok]
    unfold vPrintableAscii
    have h := printableLoop_none 0 0 s
    cases hl : printableLoop 0 0 s with
    | none => rw [if_pos (h.mp hl)]; rfl
    | some d =>
      rw [if_neg]
      · rfl
      · intro hc; rw [h.mpr hc] at hl; simp at hl

theorem C104_agrees_lists (n lo hi : Int) (x : Str) (l items : List Str) :
    forget (Msg.vIntegerDomain n lo hi) = vIntegerDomain n lo hi ∧ forget (Msg.vListContains l items) = vListContains l items ∧
    forget (Msg.vItemInList x l) = vItemInList x l := by
  refine ⟨?_, ?_, ?_⟩
  · unfold Msg.vIntegerDomain vIntegerDomain
    by_cases h1 : lo > hi
    · simp [h1]
    · by_cases h2 : lo ≤ n ∧ n ≤ hi
      · simp [h1, h2]
      · by_cases h3 : n < lo
        · simp [h1, h2, h3]
        · by_cases h4 : n > hi
          · simp [h1, h2, h3, h4]
          · exact absurd ⟨by omega, by omega⟩ h2
  · unfold Msg.vListContains vListContains
    simp only
    split <;> simp
  · unfold Msg.vItemInList vItemInList
    split <;> simp

/-- Every error of `r` is explained: location, variable, kind, value, and a reason. -/
def Reasoned {α : Type} (E : Env) (x : PVal) (name location kind : Option Str) (r : M α) : Prop :=
  ∀ e m, r = .error (e, m) → ∃ detail, detail ≠ [] ∧ Explains E x name location kind detail m

namespace Msg

theorem Reasoned.ok {α : Type} {E : Env} {x : PVal} {name location kind : Option Str} {a : α} : Reasoned E x name location kind (.ok a : M α) :=
  fun _ _ h => by simp at h

theorem Reasoned.built {α : Type} {E : Env} {x : PVal} {name location kind : Option Str} {e : Err} {d : Str} (h : d ≠ []) :
    Reasoned E x name location kind (.error (e, buildErrorMsg E d x name location kind) : M α) := by
  intro e' m he
  simp only [Except.error.injEq, Prod.mk.injEq] at he
  rw [← he.2]
  exact ⟨d, h, explains E x name location kind d⟩

theorem Reasoned.bind {α β : Type} {E : Env} {x : PVal} {name location kind : Option Str} {r : M α} {f : α → M β}
    (h : Reasoned E x name location kind r) (g : ∀ a, r = .ok a → Reasoned E x name location kind (f a)) : Reasoned E x name location kind (r >>= f) := by
  cases hr : r with
  | ok a => exact g a hr
  | error e =>
    intro e' m he
    rw [M_bind_err] at he
    exact h e' m (by rw [hr]; simpa using he)

theorem Reasoned.ite {α : Type} {E : Env} {x : PVal} {name location kind : Option Str} {c : Prop} [Decidable c] {r t : M α}
    (h1 : c → Reasoned E x name location kind r) (h2 : ¬ c → Reasoned E x name location kind t) : Reasoned E x name location kind (if c then r else t) := by
  by_cases h : c
  · rw [if_pos h]; exact h1 h
  · rw [if_neg h]; exact h2 h

theorem wrongType_ne (x : PVal) (w : Str) : wrongType x w ≠ [] := by simp [wrongType]

end Msg

/-- A value of the wrong type: the text names the type it has and the type it should have. -/
theorem C104_wrong_type (E : Env) (x : PVal) (name location kind : Option Str) (e : Err) (m : Str) :
    (Msg.vString E x name location kind = .error (e, m) → e = .typeError ∧ Explains E x name location kind (py"which has type '" ++ typeName x ++ py"', not 'str'.") m) ∧
    (Msg.vDict E x name location kind = .error (e, m) → e = .typeError ∧ Explains E x name location kind (py"which has type '" ++ typeName x ++ py"', not 'dict'.") m) ∧
    (Msg.vList E x name location kind = .error (e, m) → e = .typeError ∧ Explains E x name location kind (py"which has type '" ++ typeName x ++ py"', not 'list'.") m) ∧
    (Msg.vInteger E x name location kind = .error (e, m) → e = .typeError ∧ Explains E x name location kind (py"which has type '" ++ typeName x ++ py"', not 'int'.") m) ∧
    (Msg.vBoolean E x name location kind = .error (e, m) → e = .typeError ∧ Explains E x name location kind (py"which has type '" ++ typeName x ++ py"', not 'bool'.") m) := by
  have key : ∀ (w : Str) (e' : Err), (e', buildErrorMsg E (wrongType x w) x name location kind) = (e, m) →
      e' = e ∧ Explains E x name location kind (py"which has type '" ++ typeName x ++ py"', not '" ++ w ++ py"'.") m := by
    intro w e' h
    simp only [Prod.mk.injEq] at h
    rw [← h.2]
    exact ⟨h.1, explains E x name location kind _⟩
  refine ⟨?_, ?_, ?_, ?_, ?_⟩
  · intro h; cases x <;> simp only [Msg.vString, Except.error.injEq, reduceCtorEq] at h <;> exact ⟨(key _ _ h).1.symm, by simpa using (key _ _ h).2⟩
  · intro h; cases x <;> simp only [Msg.vDict, Except.error.injEq, reduceCtorEq] at h <;> exact ⟨(key _ _ h).1.symm, by simpa using (key _ _ h).2⟩
  · intro h; cases x <;> simp only [Msg.vList, Except.error.injEq, reduceCtorEq] at h <;> exact ⟨(key _ _ h).1.symm, by simpa using (key _ _ h).2⟩
  · intro h; cases x <;> simp only [Msg.vInteger, PVal.asInt, Except.error.injEq, reduceCtorEq] at h <;> exact ⟨(key _ _ h).1.symm, by simpa using (key _ _ h).2⟩
  · intro h; cases x <;> simp only [Msg.vBoolean, Except.error.injEq, reduceCtorEq] at h <;> exact ⟨(key _ _ h).1.symm, by simpa using (key _ _ h).2⟩

theorem Msg.string_reasoned (E : Env) (x : PVal) (name location kind : Option Str) : Reasoned E x name location kind (Msg.vString E x name location kind) := by
  intro e m h
  exact ⟨_, by simp, ((C104_wrong_type E x name location kind e m).1 h).2⟩

theorem C104_integers (E : Env) (x : PVal) (name location kind : Option Str) :
    Reasoned E x name location kind (Msg.vPositiveInteger E x name location kind) ∧ Reasoned E x name location kind (Msg.vWholeNumber E x name location kind) := by
  have hp : Reasoned E x name location kind (Msg.vPositiveInteger E x name location kind) := by
    refine Reasoned.bind (fun e m h => ⟨_, by simp, ((C104_wrong_type E x name location kind e m).2.2.2.1 h).2⟩) fun n _ => ?_
    by_cases h : n < 1
    · rw [if_pos h]; exact Reasoned.built (by simp)
    · rw [if_neg h]; exact Reasoned.ok
  refine ⟨hp, ?_⟩
  exact Reasoned.ite (fun _ => Reasoned.ok) fun _ => Reasoned.bind hp fun _ _ => Reasoned.ok

theorem C104_hex (E : Env) (x : PVal) (name location kind : Option Str) : Reasoned E x name location kind (Msg.vHex E x name location kind) := by
  refine Reasoned.bind (string_reasoned E x name location kind) fun s _ => ?_
  by_cases h : s.length % 2 ≠ 0
  · rw [if_pos h]; exact Reasoned.built (by simp)
  · rw [if_neg h]
    simp only [M_pure]
    by_cases hb : (badChars notHex 0 s).length > 0
    · rw [if_pos hb]; exact Reasoned.built (by simp)
    · rw [if_neg hb]; exact Reasoned.ok

/-- If the caller names no kind, the text names the number of bytes. -/
theorem C104_hexLength (E : Env) (x : PVal) (n : Int) (name location kind : Option Str) :
    Reasoned E x name location (some (kind.getD (py"hex_length_" ++ pyStr n ++ py"_bytes"))) (Msg.vHexLength E x n name location kind) := by
  refine Reasoned.bind (C104_hex E x name location _) fun s _ => ?_
  by_cases h : (s.length : Int) ≠ n * 2
  · rw [if_pos h]; exact Reasoned.built (by simp)
  · rw [if_neg h]; exact Reasoned.ok

theorem C104_strWhole (E : Env) (u : UniDB) (x : PVal) (name location kind : Option Str) :
    (x.eqStr py"0" = false → Reasoned E x name location kind (Msg.vStrPositiveInteger E u x name location kind)) ∧
    Reasoned E x name location kind (Msg.vStrWholeNumber E u x name location kind) := by
  have hp : x.eqStr py"0" = false → Reasoned E x name location kind (Msg.vStrPositiveInteger E u x name location kind) := by
    intro h0
    refine Reasoned.bind (string_reasoned E x name location kind) fun s hs => ?_
    have hx : x = .str s := by cases x <;> simp_all [Msg.vString]
    rw [hx] at h0
    have h : s ≠ py"0" := by simpa [PVal.eqStr] using h0
    rw [if_neg h]
    simp only [M_pure]
    by_cases hb : (badChars (fun c => !isDigitChar u c) 0 s).length > 0
    · rw [if_pos hb]; exact Reasoned.built (by simp)
    · rw [if_neg hb]; exact Reasoned.ok
  refine ⟨hp, Reasoned.bind (string_reasoned E x name location kind) fun s hs => ?_⟩
  have hx : x = .str s := by cases x <;> simp_all [Msg.vString]
  refine Reasoned.ite (fun _ => Reasoned.ok) fun h => hp ?_
  rw [hx]
  simpa [PVal.eqStr] using h

/-- Some of the texts on decimals do not say what was expected. -/
theorem C104_decimal (E : Env) (u : UniDB) (dp : Option Nat) (x : PVal) (name location kind : Option Str) :
    (∀ e m, Msg.vStrDecimal E u dp x name location kind = .error (e, m) →
      ∃ detail, detail ≠ [] ∧ (Explains E x name location kind detail m ∨ Explains E x name location none detail m)) ∧
    Reasoned E x name location kind (Msg.vStrWholeOrDecimal E u dp x name location kind) := by
  constructor
  · intro e m h
    unfold Msg.vStrDecimal at h
    cases hs : Msg.vString E x name location kind with
    | error e1 =>
      rw [hs, M_bind_err, Except.error.injEq] at h
      rw [h] at hs
      obtain ⟨d, h1, h2⟩ := string_reasoned E x name location kind e m hs
      exact ⟨d, h1, Or.inl h2⟩
    | ok s =>
      rw [hs, M_bind_ok] at h
      by_cases hc : s.count '.' ≠ 1
      · rw [if_pos hc] at h
        simp only [M_throw, M_bind_err, Except.error.injEq, Prod.mk.injEq] at h
        rw [← h.2]
        exact ⟨_, by simp, Or.inr (explains E x name location none _)⟩
      · rw [if_neg hc] at h
        push Not at hc
        obtain ⟨a, b, hsp, ha, hb⟩ : ∃ a b, s = a ++ '.' :: b ∧ '.' ∉ a ∧ '.' ∉ b := by
          have hm : '.' ∈ s := List.count_pos_iff.mp (by omega)
          obtain ⟨a, b, e1⟩ := List.append_of_mem hm
          rw [e1, List.count_append, List.count_cons_self] at hc
          exact ⟨a, b, e1, List.count_eq_zero.mp (by omega), List.count_eq_zero.mp (by omega)⟩
        rw [hsp, splitC_one ha hb, ← hsp] at h
        simp only [M_pure, M_bind_ok] at h
        by_cases hd : (!isDigitStr u a || !isDigitStr u b) = true
        · rw [if_pos hd] at h
          simp only [M_throw, M_bind_err, Except.error.injEq, Prod.mk.injEq] at h
          rw [← h.2]
          exact ⟨_, by simp, Or.inr (explains E x name location none _)⟩
        · rw [if_neg hd] at h
          cases dp with
          | none => simp at h
          | some k =>
            simp only at h
            by_cases hr : (!reDecimal u k s) = true
            · rw [if_pos hr] at h
              simp only [M_throw, Except.error.injEq, Prod.mk.injEq] at h
              rw [← h.2]
              exact ⟨_, by simp, Or.inl (explains E x name location kind _)⟩
            · rw [if_neg hr] at h; simp at h
  · intro e m h
    unfold Msg.vStrWholeOrDecimal at h
    have hw := (C104_strWhole E u x name location kind).2
    cases h1 : Msg.vStrWholeNumber E u x name location kind with
    | ok _ => rw [h1] at h; simp at h
    | error e1 =>
      cases h2 : Msg.vStrDecimal E u dp x name location kind with
      | ok _ => rw [h1, h2] at h; simp at h
      | error e2 =>
        rw [h1, h2] at h
        simp only [Except.error.injEq] at h
        exact hw e m (by rw [h1, h])

theorem C104_date (E : Env) (u : UniDB) (x : PVal) (name location kind : Option Str) : Reasoned E x name location kind (Msg.vStrDate E u x name location kind) := by
  refine Reasoned.bind (string_reasoned E x name location kind) fun s _ => ?_
  exact Reasoned.ite (fun _ => Reasoned.built (by simp)) fun _ => Reasoned.ok

namespace Msg

theorem printableDetail_ne (l i : Nat) (c : Char) : printableDetail l i c ≠ [] := by simp [printableDetail]

theorem printableLoop_some {line index : Nat} {s d : Str} (h : printableLoop line index s = some d) : ∃ l i c, d = printableDetail l i c := by
  induction s generalizing line index with
  | nil => simp [printableLoop] at h
  | cons c r ih =>
    unfold printableLoop at h
    by_cases h1 : (!permittedChars.contains c) = true
    · rw [if_pos h1] at h; exact ⟨_, _, _, (Option.some.inj h).symm⟩
    · rw [if_neg h1] at h
      by_cases h2 : c = '\n'
      · rw [if_pos h2] at h; exact ih h
      · rw [if_neg h2] at h; exact ih h

end Msg

theorem C104_printable (E : Env) (s : Str) (name location kind : Option Str) : Reasoned E (.str s) name location kind (Msg.vPrintableAscii E (.str s) name location kind) := by
  intro e m h
  unfold Msg.vPrintableAscii at h
  simp only [Msg.vString, M_bind_ok] at h
  cases hl : printableLoop 0 0 s with
  | none => rw [hl] at h; simp at h
  | some d =>
    rw [hl] at h
    simp only [M_throw, Except.error.injEq, Prod.mk.injEq] at h
    obtain ⟨l, i, c, rfl⟩ := printableLoop_some hl
    rw [← h.2]
    exact ⟨_, printableDetail_ne l i c, explains E _ name location kind _⟩

/-- VIOLATION: for the text '0' the message names neither location nor variable. -/
theorem C104_zero_violation (E : Env) (u : UniDB) (name location kind : Option Str) :
    Msg.vStrPositiveInteger E u (.str py"0") name location kind = .error (.valueError, py"0 is not a positive number.") ∧
    ∀ detail, ¬ Explains E (.str py"0") name location kind detail py"0 is not a positive number." := by
  refine ⟨by simp [Msg.vStrPositiveInteger, Msg.vString], ?_⟩
  rintro detail ⟨v, h1, h2⟩
  cases name with
  | none =>
    simp only at h1
    subst h1
    cases location <;> cases kind <;> by_cases hd : detail = [] <;> simp [hd, join, capital] at h2 <;>
      (obtain ⟨h2, _⟩ := h2; revert h2; decide)
  | some n =>
    obtain ⟨q, _, rfl⟩ := h1
    cases location <;> cases kind <;> by_cases hd : detail = [] <;> simp [hd, join, capital] at h2 <;>
      (obtain ⟨h2, _⟩ := h2; revert h2; decide)

/-- VIOLATION: on a value that is not a string `validate_string_is_printable_ascii` drops variable, location and kind. -/
theorem C104_printable_violation (E : Env) (x : PVal) (name location kind name' location' kind' : Option Str) (hx : ∀ s, x ≠ .str s) :
    Msg.vPrintableAscii E x name location kind = Msg.vPrintableAscii E x name' location' kind' ∧
    ∃ m, Msg.vPrintableAscii E x name location kind = .error (.typeError, m) ∧
      ((name ≠ none ∨ location ≠ none) → ∀ detail, ¬ Explains E x name location kind detail m) := by
  have e1 : ∀ name location kind, Msg.vPrintableAscii E x name location kind = .error (.typeError, buildErrorMsg E (wrongType x py"str") x none none (some py"string")) := by
    intro name location kind
    unfold Msg.vPrintableAscii
    cases x <;> first | rfl | exact absurd rfl (hx _)
  refine ⟨by rw [e1, e1], _, e1 name location kind, ?_⟩
  rintro hnl detail ⟨v, h1, h2⟩
  unfold buildErrorMsg at h2
  simp only [wrongType, List.nil_append, List.cons_append, List.append_assoc, ne_eq, reduceCtorEq, not_false_eq_true, if_true, capitalizeFirst] at h2
  cases name with
  | none =>
    simp only at h1
    subst h1
    cases location with
    | none => simp at hnl
    | some l =>
      cases kind <;> by_cases hd : detail = [] <;> simp [hd, join, capital] at h2 <;>
        (obtain ⟨h2, _⟩ := h2; revert h2; decide)
  | some n =>
    obtain ⟨q, _, rfl⟩ := h1
    cases location <;> cases kind <;> by_cases hd : detail = [] <;> simp [hd, join, capital] at h2 <;>
      (obtain ⟨h2, _⟩ := h2; revert h2; decide)

/-- VIOLATION: `validate_bytes` says that an `int` was wanted. -/
theorem C104_bytes_violation (E : Env) (x : PVal) (name location kind : Option Str) :
    ∃ m, Msg.vBytes E x name location kind = .error (.typeError, m) ∧
      Explains E x name location kind (py"which has type '" ++ typeName x ++ py"', not 'int'.") m := by
  refine ⟨_, rfl, ?_⟩
  have := explains E x name location kind (wrongType x py"int")
  simpa [wrongType] using this

/-- The texts of the three checks that do not use the common form. -/
theorem C104_domain (n lo hi : Int) (e : Err) (m : Str) (h : lo ≤ hi) (hm : Msg.vIntegerDomain n lo hi = .error (e, m)) :
    e = .valueError ∧
    ((n < lo ∧ m = py"\nInput is less than the minimum value.\n- Minimum value: " ++ pyStr lo ++ py"\n- Input: " ++ pyStr n ++ py"\n") ∨
     (hi < n ∧ m = py"\nInput is greater than the maximum value.\n- Maximum value: " ++ pyStr hi ++ py"\n- Input: " ++ pyStr n ++ py"\n")) := by
  unfold Msg.vIntegerDomain at hm
  rw [if_neg (by omega)] at hm
  by_cases h1 : lo ≤ n ∧ n ≤ hi
  · rw [if_pos h1] at hm; simp at hm
  · rw [if_neg h1] at hm
    by_cases h2 : n < lo
    · rw [if_pos h2] at hm
      simp only [Except.error.injEq, Prod.mk.injEq] at hm
      exact ⟨hm.1.symm, Or.inl ⟨h2, hm.2.symm⟩⟩
    · rw [if_neg h2] at hm
      by_cases h3 : n > hi
      · rw [if_pos h3] at hm
        simp only [Except.error.injEq, Prod.mk.injEq] at hm
        exact ⟨hm.1.symm, Or.inr ⟨h3, hm.2.symm⟩⟩
      · rw [if_neg h3] at hm; simp at hm

end BT
