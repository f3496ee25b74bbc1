import Mathlib.Data.Nat.Digits.Defs
import Mathlib.Data.List.Sort
import Batteries.Lean.Except

/-!
# Python run-time semantics used by the model

Nothing in this file models a file of `/repo`; it models the parts of the Python
language and standard library on which the code of `/repo` rests: exceptions,
`str` methods, slices, `int(...)`, `hex(...)`, `str(n)`.
The reference interpreter is CPython 3.6 (README "Environment").
-/

namespace BT

/-- The Python exception classes that the modelled code can raise.
The last three are the custom errors of `create_transaction.py:65-74`. -/
inductive Err
  | valueError | typeError | keyError | indexError | assertionError
  | notImplementedError | zeroDivisionError | overflowError | nameError | attributeError | osError
  | outputValueNotCovered | outputAndFeeValueNotCovered | duplicateOutputAddress
  deriving DecidableEq, Repr

/-- A Python `str`: a list of code points (lone surrogates are not modelled). -/
abbrev Str := List Char

/-- Characters removed by `str.strip()`: ASCII white space (including the separators
`\x1c`-`\x1f`) and non-ASCII white space. -/
def isSpaceChar' (sp : Char → Bool) (c : Char) : Bool :=
  if c.toNat < 128 then c.toNat == 32 || (9 ≤ c.toNat && c.toNat ≤ 13) || (28 ≤ c.toNat && c.toNat ≤ 31)
  else sp c

/-- `s.strip()` -/
def pyStrip' (sp : Char → Bool) (s : Str) : Str :=
  ((s.dropWhile (isSpaceChar' sp)).reverse.dropWhile (isSpaceChar' sp)).reverse

/-- Python `bytes`. -/
abbrev Bytes := List UInt8

/-- The outcome of a Python call: a value or a raised exception. -/
abbrev R (α : Type) := Except Err α

/-- `raise e` -/
def raise {α : Type} (e : Err) : R α := Except.error e

/-- `if not b: raise e` -/
def check (b : Bool) (e : Err) : R Unit := if b then .ok () else .error e

/-- `assert b` -/
def assertR (b : Bool) : R Unit := check b .assertionError

open Lean in
/-- `py"abc"` is the literal list of characters `['a','b','c']`. -/
macro:max "py" s:str : term => do
  let cs := (s.getString.toList.map Syntax.mkCharLit).toArray
  `(([$cs,*] : Str))

/-! ## Unicode data base -/

/-- The part of the Unicode database used by `str.isdigit`, `int`, `float`; only
consulted for non-ASCII characters.  The one fact used about it is the field
`digit_not_space`: no character is both a digit and white space. -/
structure UniDB where
  /-- decimal digit value (general category Nd) of a non-ASCII character -/
  decimal : Char → Option (Fin 10)
  /-- non-decimal characters for which `str.isdigit` is nevertheless true (e.g. '²') -/
  otherDigit : Char → Bool
  /-- non-ASCII white space -/
  space : Char → Bool
  /-- digits like '²' are not white space -/
  digit_not_space : ∀ c, otherDigit c = true → space c = false

/-- Value of an ASCII decimal digit. -/
def asciiDigit (c : Char) : Option Nat :=
  if '0'.toNat ≤ c.toNat ∧ c.toNat ≤ '9'.toNat then some (c.toNat - '0'.toNat) else none

/-- Decimal digit value of a character as used by `int()` and `float()`. -/
def decVal (u : UniDB) (c : Char) : Option Nat :=
  if c.toNat < 128 then asciiDigit c else (u.decimal c).map (·.val)

/-- `c.isdigit()` for one character. -/
def isDigitChar (u : UniDB) (c : Char) : Bool :=
  if c.toNat < 128 then (asciiDigit c).isSome else (u.decimal c).isSome || u.otherDigit c

/-- `s.isdigit()`: non-empty and all characters are digits. -/
def isDigitStr (u : UniDB) (s : Str) : Bool := !s.isEmpty && s.all (isDigitChar u)

/-! ## `str` methods and slices -/

/-- `s[a:b]` with `a, b ≥ 0`. -/
def slice {α : Type} (l : List α) (a b : Nat) : List α := (l.drop a).take (b - a)

/-- `s[-k:]`, `k > 0`. -/
def lastK {α : Type} (k : Nat) (l : List α) : List α := l.drop (l.length - k)

/-- `s[:-k]`, `k > 0`. -/
def dropLastK {α : Type} (k : Nat) (l : List α) : List α := l.take (l.length - k)

/-- `s.lstrip(c)` for a single character `c`. -/
def lstripC (c : Char) (s : Str) : Str := s.dropWhile (· == c)

/-- `s.replace(c, '')` for a single character `c`. -/
def removeC (c : Char) (s : Str) : Str := s.filter (· != c)

/-- `s.split(c)` for a single character `c`. -/
def splitC (c : Char) : Str → List Str
  | [] => [[]]
  | x :: xs =>
    if x = c then [] :: splitC c xs
    else match splitC c xs with
      | [] => [[x]]
      | p :: ps => (x :: p) :: ps

/-- `k * '00'` etc.: repetition of a string. -/
def rep (k : Nat) (s : Str) : Str := (List.replicate k s).flatten

/-! ## Numbers and digits -/

/-- Big-endian positional value of a list of digits. -/
def valBE (b : Nat) (ds : List Nat) : Nat := ds.foldl (fun a d => a * b + d) 0

/-- The character of a digit value (`0-9a-z`), as printed by `hex` and `str`. -/
def digitChar (d : Nat) : Char :=
  if d < 10 then Char.ofNat (48 + d) else Char.ofNat (87 + d)

/-- Digits of `n` in base `b` as Python prints them: most significant first, "0" for zero. -/
def natDigits (b n : Nat) : Str :=
  if n = 0 then ['0'] else ((Nat.digits b n).map digitChar).reverse

/-- `str(n)` for an `int`. -/
def pyStr (n : Int) : Str :=
  if n < 0 then '-' :: natDigits 10 n.natAbs else natDigits 10 n.natAbs

/-- `hex(n)` for an `int`. -/
def pyHex (n : Int) : Str :=
  if n < 0 then '-' :: '0' :: 'x' :: natDigits 16 n.natAbs
  else '0' :: 'x' :: natDigits 16 n.natAbs

/-- Value of an ASCII alphanumeric digit in the sense of `int(s, base)`. -/
def alnumVal (c : Char) : Option Nat :=
  if '0'.toNat ≤ c.toNat ∧ c.toNat ≤ '9'.toNat then some (c.toNat - '0'.toNat)
  else if 'a'.toNat ≤ c.toNat ∧ c.toNat ≤ 'z'.toNat then some (c.toNat - 'a'.toNat + 10)
  else if 'A'.toNat ≤ c.toNat ∧ c.toNat ≤ 'Z'.toNat then some (c.toNat - 'A'.toNat + 10)
  else none

/-- One character of `toAsciiNum`. -/
def asciiNumChar (u : UniDB) (c : Char) : Char :=
  if c.toNat < 128 then c
  else match u.decimal c with
    | some d => digitChar d.val
    | none => if u.space c then ' ' else '?'

/-- CPython `_PyUnicode_TransformDecimalAndSpaceToASCII`: non-ASCII decimal digits become
ASCII digits, non-ASCII white space a blank, any other non-ASCII character `?`. -/
def toAsciiNum (u : UniDB) (s : Str) : Str := s.map (asciiNumChar u)

/-- `Py_ISSPACE`: blank, `\t \n \v \f \r`. -/
def isAsciiSpace (c : Char) : Bool := c.toNat == 32 || (9 ≤ c.toNat && c.toNat ≤ 13)

/-- Strip ASCII white space on both sides. -/
def stripWs (s : Str) : Str :=
  ((s.dropWhile isAsciiSpace).reverse.dropWhile isAsciiSpace).reverse

/-- The digit loop of `PyLong_FromString`: digits with single underscores in between.
`okEnd` says whether the previous character was a digit. -/
def scanDigits (b : Nat) : Nat → Bool → Str → Option Nat
  | acc, okEnd, [] => if okEnd then some acc else none
  | acc, okEnd, c :: cs =>
    if c = '_' then (if okEnd then scanDigits b acc false cs else none)
    else match alnumVal c with
      | some d => if d < b then scanDigits b (acc * b + d) true cs else none
      | none => none

/-- Optional `0x` prefix (base 16 only), after which one underscore is allowed. -/
def scanPrefix (b : Nat) (s : Str) : Option Nat :=
  match s with
  | '0' :: x :: rest =>
    if b = 16 ∧ (x = 'x' ∨ x = 'X') then
      match rest with
      | '_' :: rest' => scanDigits b 0 false rest'
      | _ => scanDigits b 0 false rest
    else scanDigits b 0 false s
  | _ => scanDigits b 0 false s

/-- `int(s, b)` for a `str`, `b` = 10 or 16.  (The 4300-digit limit of newer CPython
versions does not exist in 3.6 and is not modelled.) -/
def pyInt (u : UniDB) (b : Nat) (s : Str) : R Int :=
  match stripWs (toAsciiNum u s) with
  | '-' :: r => match scanPrefix b r with
    | some n => .ok (-(n : Int))
    | none => .error .valueError
  | '+' :: r => match scanPrefix b r with
    | some n => .ok (n : Int)
    | none => .error .valueError
  | r => match scanPrefix b r with
    | some n => .ok (n : Int)
    | none => .error .valueError

/-! ## bytes -/

/-- `bytes.hex()` -/
def bytesHex (b : Bytes) : Str :=
  b.flatMap fun x => [digitChar (x.toNat / 16), digitChar (x.toNat % 16)]

/-- Value of one hex character, either case (`bytes.fromhex`). -/
def hexVal (c : Char) : Option Nat := (alnumVal c).bind fun d => if d < 16 then some d else none

/-- `bytes.fromhex(s)`: pairs of hex digits, blanks allowed between bytes (CPython 3.6). -/
def fromHex : Str → R Bytes
  | [] => .ok []
  | c :: cs =>
    if c = ' ' then fromHex cs
    else match cs with
      | [] => .error .valueError
      | d :: ds => match hexVal c, hexVal d with
        | some x, some y => (fromHex ds).map (UInt8.ofNat (16 * x + y) :: ·)
        | _, _ => .error .valueError

end BT
