import Verif.Ext

/-!
# `bitcoin_toolset/util/validate.py`

Here only the exception class; the texts (`build_error_msg`, 386-405) are in Messages.lean.
Passing a non-string as `name` makes `build_error_msg` itself raise AttributeError; this is
reachable only from `basic.verify_signature_digest` and modelled there.
-/

namespace BT

/-- `validate_string` (validate.py:374-378): returns the string, TypeError otherwise. -/
def vString : PVal → R Str
  | .str s => .ok s
  | _ => .error .typeError

/-- `validate_hex` (validate.py:303-321) on a string. -/
def vHex (s : Str) : R Unit := do
  if s.length % 2 ≠ 0 then raise .valueError
  if !(s.all fun c => py"0123456789abcdef".contains c) then raise .valueError

/-- `validate_hex` (validate.py:303-321) on any value. -/
def vHexP (x : PVal) : R Str := do
  let s ← vString x
  vHex s
  pure s

/-- `validate_hex_length` (validate.py:285-298) on a string and an `int`. -/
def vHexLength (s : Str) (n : Int) : R Unit := do
  vHex s
  if (s.length : Int) ≠ n * 2 then raise .valueError

/-- `validate_hex_length` (validate.py:285-298) on any value. -/
def vHexLengthP (x : PVal) (n : Int) : R Str := do
  let s ← vString x
  vHexLength s n
  pure s

/-- `validate_integer` (validate.py:260-264); `bool` is a subclass of `int`. -/
def vInteger (x : PVal) : R Int :=
  match x.asInt with
  | some n => .ok n
  | none => .error .typeError

/-- `validate_boolean` (validate.py:273-277). -/
def vBoolean : PVal → R Bool
  | .bool b => .ok b
  | _ => .error .typeError

/-- `validate_list` (validate.py:217-221). -/
def vList : PVal → R (List PVal)
  | .list l => .ok l
  | _ => .error .typeError

/-- `validate_dict` (validate.py:208-212). -/
def vDict : PVal → R (List (Str × PVal))
  | .dict d => .ok d
  | _ => .error .typeError

/-- `validate_positive_integer` (validate.py:247-252). -/
def vPositiveInteger (x : PVal) : R Int := do
  let n ← vInteger x
  if n < 1 then raise .valueError
  pure n

/-- `validate_whole_number` (validate.py:235-239): anything equal to 0 (also `False` and
`0.0`) passes, otherwise a positive integer is required. -/
def vWholeNumber (x : PVal) : R Unit := do
  if x.eqInt 0 then pure ()
  else do
    let _ ← vPositiveInteger x
    pure ()

/-- `validate_integer_domain` (validate.py:88-115). -/
def vIntegerDomain (n lo hi : Int) : R Unit := do
  if lo > hi then raise .valueError
  if lo ≤ n ∧ n ≤ hi then pure ()
  else if n < lo then raise .valueError
  else if n > hi then raise .valueError

/-- `validate_list_contains_items` (validate.py:38-55) for lists of strings. -/
def vListContains (input items : List Str) : R Unit :=
  let notFound := items.filter fun x => !input.contains x
  if notFound.length = 0 then .ok () else .error .valueError

/-- `validate_item_in_list` (validate.py:60-68) for strings. -/
def vItemInList (x : Str) (l : List Str) : R Unit :=
  if l.contains x then .ok () else .error .valueError

/-- Code point order on strings (`str.__le__`). -/
def strLe : Str → Str → Bool
  | [], _ => true
  | _ :: _, [] => false
  | a :: as, b :: bs => a.toNat < b.toNat || (a.toNat == b.toNat && strLe as bs)

/-- `sorted(l)` for a list of strings. -/
def sortStr (l : List Str) : List Str := l.insertionSort (fun a b => strLe a b = true)

/-- `validate_lists_are_identical` (validate.py:73-83): compares sorted copies. -/
def vListsIdentical (l1 l2 : List Str) : R Unit :=
  if sortStr l1 ≠ sortStr l2 then .error .valueError else .ok ()

/-- The permitted characters of `validate_string_is_printable_ascii`
(validate.py:123-126): data, escaped and white-space characters. -/
def permittedChars : Str :=
  py"!#$%&'()*+,-./0123456789:;<=>?@ABCDEFGHIJKLMNOPQRSTUVWXYZ[]^_`abcdefghijklmnopqrstuvwxyz{|}~"
    ++ ['"'] ++ ['\\'] ++ [' ', '\t', '\n']

/-- `validate_string_is_printable_ascii` (validate.py:120-139). -/
def vPrintableAscii (s : Str) : R Unit :=
  if s.all fun c => permittedChars.contains c then .ok () else .error .valueError

/-- `validate_string_is_positive_integer` (validate.py:341-353). -/
def vStrPositiveInteger (u : UniDB) (s : Str) : R Unit := do
  if s = py"0" then raise .valueError
  if !(s.all (isDigitChar u)) then raise .valueError

/-- `validate_string_is_whole_number` (validate.py:326-333). -/
def vStrWholeNumber (u : UniDB) (s : Str) : R Unit :=
  if s = py"0" then .ok () else vStrPositiveInteger u s

/-- The regular expression `^\d*.\d{dp}$` (validate.py:183-185) on a string without a
final newline: decimal digits, one character other than newline, `dp` decimal digits. -/
def reDecimal (u : UniDB) (dp : Nat) (s : Str) : Bool :=
  dp + 1 ≤ s.length &&
  (s.take (s.length - dp - 1)).all (fun c => (decVal u c).isSome) &&
  ((s.drop (s.length - dp - 1)).head? != some '\n') &&
  (s.drop (s.length - dp)).all (fun c => (decVal u c).isSome)

/-- `validate_string_is_decimal` (validate.py:167-188).  A negative `dp` is not modelled. -/
def vStrDecimal (u : UniDB) (dp : Option Nat) (s : Str) : R Unit := do
  if s.count '.' ≠ 1 then raise .typeError
  match splitC '.' s with
  | [s1, s2] => do
    if !(isDigitStr u s1) || !(isDigitStr u s2) then raise .typeError
    match dp with
    | some k => if !(reDecimal u k s) then raise .valueError else pure ()
    | none => pure ()
  | _ => raise .valueError

/-- `validate_string_is_whole_number_or_decimal` (validate.py:144-162): passes if one of
the two validators passes, otherwise re-raises the exception of the first. -/
def vStrWholeOrDecimal (u : UniDB) (dp : Option Nat) (s : Str) : R Unit :=
  match vStrWholeNumber u s, vStrDecimal u dp s with
  | .ok _, _ => .ok ()
  | .error _, .ok _ => .ok ()
  | .error e, .error _ => .error e

/-- The pattern `\d{4}-\d{2}-\d{2}` (validate.py:24). -/
def dateCore (u : UniDB) (t : Str) : Bool :=
  let d := fun c => (decVal u c).isSome
  match t with
  | [a, b, c, e, m1, f, g, m2, h, i] =>
    d a && d b && d c && d e && m1 == '-' && d f && d g && m2 == '-' && d h && d i
  | _ => false

/-- `validate_string_is_date` (validate.py:24, 361-366): the pattern
`^\d{4}-\d{2}-\d{2}$`; `\d` is any Unicode decimal digit and `$` also matches before a
final newline. -/
def vStrDate (u : UniDB) (s : Str) : R Unit :=
  if dateCore u s || (s.getLast? == some '\n' && dateCore u s.dropLast) then .ok ()
  else .error .valueError

end BT
