import Verif.Messages

/-!
# Specification of error messages

What a reader of an error message is told, independent of how the code assembles the text.
-/

namespace BT.Msg

/-- The result without the text of the exception. -/
def forget {α : Type} : M α → R α
  | .ok a => .ok a
  | .error e => .error e.1

/-- `q` is `name` with quotes round its first word. -/
def Quoted (name q : Str) : Prop :=
  ∃ word rest, name = word ++ rest ∧ ' ' ∉ word ∧ (rest = [] ∨ ∃ r, rest = ' ' :: r) ∧
    q = ['\''] ++ word ++ ['\''] ++ rest

/-- The same text with a capital first letter. -/
def capital : Str → Str
  | [] => []
  | c :: r => c.toUpper :: r

/-- `m` is the sentence: in which location, for which variable, what was expected, the value received,
and what is wrong with it; clauses for which there is nothing to say are left out. -/
def Explains (E : Env) (x : PVal) (name location kind : Option Str) (detail m : Str) : Prop :=
  ∃ v : List Str,
    (match name with
      | none => v = []
      | some n => ∃ q, Quoted n q ∧ v = [py"for variable " ++ q]) ∧
    m = capital (join py", " (
      (match location with
        | none => []
        | some l => [py"in location " ++ reprStr E l]) ++ v ++
      (match kind with
        | none => []
        | some k => [py"expected a " ++ reprStr E k]) ++
      [(match kind with
        | none => []
        | some _ => py"but ") ++ py"received value " ++ repr E x] ++
      (if detail = [] then [] else [detail])))

/-- The positions of the characters of `s` that satisfy `p`, in increasing order. -/
def Positions (p : Char → Prop) (s : Str) (l : List Nat) : Prop :=
  l.Pairwise (· < ·) ∧ ∀ i, i ∈ l ↔ ∃ c, s[i]? = some c ∧ p c

/-- Position of the first character of `s` that is not permitted: the number of line breaks before it
and its place in its line, counted from 1. -/
def FirstBad (ok : Char → Prop) (s : Str) (line place : Nat) (c : Char) : Prop :=
  ∃ before after, s = before ++ c :: after ∧ (∀ d ∈ before, ok d) ∧ ¬ ok c ∧
    line = before.count '\n' ∧
    ((line = 0 ∧ place = before.length + 1) ∨
      ∃ u w, before = u ++ '\n' :: w ∧ '\n' ∉ w ∧ place = w.length + 1)

/-- No `float` occurs in the value. -/
inductive NoFloat : PVal → Prop
  | none : NoFloat .none
  | bool b : NoFloat (.bool b)
  | int n : NoFloat (.int n)
  | str s : NoFloat (.str s)
  | list l : (∀ x ∈ l, NoFloat x) → NoFloat (.list l)
  | dict d : (∀ p ∈ d, NoFloat p.2) → NoFloat (.dict d)

/-- A character that a terminal prints. -/
def Visible (E : Env) (c : Char) : Prop :=
  (32 ≤ c.toNat ∧ c.toNat < 127) ∨ (128 ≤ c.toNat ∧ E.printable c = true)

end BT.Msg
