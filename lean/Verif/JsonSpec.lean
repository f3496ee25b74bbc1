import Verif.PVal

/-!
# JSON texts (RFC 8259)

Which value a JSON text denotes, written down from the grammar of RFC 8259 and independent of the
scanner in `Json.lean`: optional white space around every token, any spelling of the characters of
a string, whole numbers without superfluous zeros, lists and objects.

As in Python, a number with a fraction or an exponent denotes `float(text)`, and the words `NaN`,
`Infinity` and `-Infinity` are allowed.  A surrogate that is not part of a pair stands for U+FFFD, since
the model's strings have no surrogates (Python keeps it).
-/

namespace BT.Spec.JsonText

/-- White space of JSON: blank, tabulator, line feed, carriage return. -/
def Ws (w : Str) : Prop := ∀ c ∈ w, c = ' ' ∨ c = '\t' ∨ c = '\n' ∨ c = '\r'

/-- A decimal digit. -/
def Digit (c : Char) : Prop := '0' ≤ c ∧ c ≤ '9'

/-- The four hexadecimal digits (of either case) of the number `n`. -/
def Hex4 (t : Str) (n : Nat) : Prop :=
  ∃ a b c d x y z w, t = [a, b, c, d] ∧ hexVal a = some x ∧ hexVal b = some y ∧ hexVal c = some z ∧ hexVal d = some w ∧
    n = ((x * 16 + y) * 16 + z) * 16 + w

/-- The ways to write a code inside a string. -/
inductive CodeText : Str → Nat → Prop
  | raw (c : Char) : 32 ≤ c.toNat → c ≠ '"' → c ≠ '\\' → CodeText [c] c.toNat
  | quote : CodeText ['\\', '"'] 34
  | backslash : CodeText ['\\', '\\'] 92
  | slash : CodeText ['\\', '/'] 47
  | backspace : CodeText ['\\', 'b'] 8
  | formFeed : CodeText ['\\', 'f'] 12
  | lineFeed : CodeText ['\\', 'n'] 10
  | carriageReturn : CodeText ['\\', 'r'] 13
  | tab : CodeText ['\\', 't'] 9
  | unicode (t : Str) (n : Nat) : Hex4 t n → CodeText ('\\' :: 'u' :: t) n

/-- The inside of a string literal: the text and its codes. -/
inductive Codes : Str → List Nat → Prop
  | nil : Codes [] []
  | cons {t r : Str} {n : Nat} {l : List Nat} : CodeText t n → Codes r l → Codes (t ++ r) (n :: l)

/-- First code of a surrogate pair. -/
def HighCode (n : Nat) : Prop := 0xd800 ≤ n ∧ n ≤ 0xdbff
/-- Second code of a surrogate pair. -/
def LowCode (n : Nat) : Prop := 0xdc00 ≤ n ∧ n ≤ 0xdfff

/-- The characters of a sequence of codes: two codes of a surrogate pair are one character. -/
inductive CharsOf : List Nat → Str → Prop
  | nil : CharsOf [] []
  | char (c : Char) {l : List Nat} {s : Str} : CharsOf l s → CharsOf (c.toNat :: l) (c :: s)
  | pair (c : Char) (hi lo : Nat) {l : List Nat} {s : Str} : hi < 1024 → lo < 1024 → c.toNat = 0x10000 + hi * 1024 + lo →
      CharsOf l s → CharsOf ((0xd800 + hi) :: (0xdc00 + lo) :: l) (c :: s)
  | loneHigh (n : Nat) {l : List Nat} {s : Str} : HighCode n → (∀ m ∈ l.head?, ¬ LowCode m) → CharsOf l s → CharsOf (n :: l) (Char.ofNat 0xfffd :: s)
  | loneLow (n : Nat) {l : List Nat} {s : Str} : LowCode n → CharsOf l s → CharsOf (n :: l) (Char.ofNat 0xfffd :: s)

/-- A string literal. -/
def StrText (t s : Str) : Prop := ∃ b l, t = '"' :: b ++ ['"'] ∧ Codes b l ∧ CharsOf l s

/-- The value of a sequence of decimal digits. -/
def decimal (ds : List Char) : Nat := ds.foldl (fun n c => 10 * n + (c.toNat - '0'.toNat)) 0

/-- Digits of a whole number: `0`, or digits that do not begin with `0`. -/
def NatText (t : Str) : Prop := t ≠ [] ∧ (∀ c ∈ t, Digit c) ∧ (t.head? = some '0' → t = ['0'])

/-- A whole number, with an optional minus sign. -/
def IntText (t : Str) (n : Int) : Prop :=
  (NatText t ∧ n = decimal t) ∨ ∃ d, t = '-' :: d ∧ NatText d ∧ n = - (decimal d : Int)

/-- One or more digits. -/
def DigitsText (t : Str) : Prop := t ≠ [] ∧ ∀ c ∈ t, Digit c

/-- A number with a fraction, an exponent or both. -/
def FloatText (t : Str) : Prop :=
  ∃ m i f e, t = m ++ (i ++ (f ++ e)) ∧ (m = [] ∨ m = ['-']) ∧ NatText i ∧ (f = [] ∨ ∃ d, f = '.' :: d ∧ DigitsText d) ∧
    (e = [] ∨ ∃ c g d, e = c :: (g ++ d) ∧ (c = 'e' ∨ c = 'E') ∧ (g = [] ∨ g = ['+'] ∨ g = ['-']) ∧ DigitsText d) ∧
    ¬ (f = [] ∧ e = [])

/-- Insert the members of an object one after the other: a repeated name keeps its place and gets the
last value. -/
def members (l : List (Str × PVal)) : List (Str × PVal) := l.foldl (fun d p => dictSet d p.1 p.2) []

mutual
/-- `Val t x`: the text `t`, which neither begins nor ends with white space, denotes `x`. -/
inductive Val (u : UniDB) : Str → PVal → Prop
  | null : Val u py"null" .none
  | true : Val u py"true" (.bool true)
  | false : Val u py"false" (.bool false)
  | int {t : Str} {n : Int} : IntText t n → Val u t (.int n)
  | float {t : Str} {f : PyFloat} : FloatText t → pyFloatStr u t = .ok f → Val u t (.float f)
  | nan : Val u py"NaN" (.float .nan)
  | infinity : Val u py"Infinity" (.float (.inf false))
  | minusInfinity : Val u py"-Infinity" (.float (.inf true))
  | str {t s : Str} : StrText t s → Val u t (.str s)
  | emptyList {w : Str} : Ws w → Val u ('[' :: (w ++ [']'])) (.list [])
  | list {t : Str} {l : List PVal} : Items u t l → Val u ('[' :: (t ++ [']'])) (.list l)
  | emptyDict {w : Str} : Ws w → Val u ('{' :: (w ++ ['}'])) (.dict [])
  | dict {t : Str} {l : List (Str × PVal)} : Members u t l → Val u ('{' :: (t ++ ['}'])) (.dict (members l))
/-- The items of a list, separated by commas, with white space around them. -/
inductive Items (u : UniDB) : Str → List PVal → Prop
  | one {w t w' : Str} {x : PVal} : Ws w → Val u t x → Ws w' → Items u (w ++ (t ++ w')) [x]
  | more {w t w' r : Str} {x : PVal} {l : List PVal} : Ws w → Val u t x → Ws w' → Items u r l → Items u (w ++ (t ++ (w' ++ ',' :: r))) (x :: l)
/-- The members of an object, separated by commas, with white space around all parts. -/
inductive Members (u : UniDB) : Str → List (Str × PVal) → Prop
  | one {w k w1 w2 t w' key : Str} {x : PVal} : Ws w → StrText k key → Ws w1 → Ws w2 → Val u t x → Ws w' →
      Members u (w ++ (k ++ (w1 ++ ':' :: (w2 ++ (t ++ w'))))) [(key, x)]
  | more {w k w1 w2 t w' r key : Str} {x : PVal} {l : List (Str × PVal)} : Ws w → StrText k key → Ws w1 → Ws w2 → Val u t x → Ws w' → Members u r l →
      Members u (w ++ (k ++ (w1 ++ ':' :: (w2 ++ (t ++ (w' ++ ',' :: r)))))) ((key, x) :: l)
end

/-- A JSON text that denotes `x`: a value with white space around it. -/
def Denotes (u : UniDB) (s : Str) (x : PVal) : Prop := ∃ w t w', s = w ++ (t ++ w') ∧ Ws w ∧ Val u t x ∧ Ws w'

end BT.Spec.JsonText
