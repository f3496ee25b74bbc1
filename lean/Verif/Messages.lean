import Verif.Tx

/-!
# Error messages of `bitcoin_toolset/util/validate.py`

`Validate.lean` models which values are rejected and the class of the exception; here is the text
of the exception as well.  `C104_agrees_*` in Props/Messages.lean prove that the two agree.

Parameters of the model: `float.__repr__` and which non-ASCII characters `repr` prints as they are.
-/

namespace BT.Msg

/-- What `repr` needs besides the value: `float.__repr__` and `str.isprintable` of a non-ASCII
character. -/
structure Env where
  floatRepr : PyFloat → Str
  printable : Char → Bool

/-- An exception: its class and its text. -/
abbrev Exc := Err × Str

/-- Result of a function that may raise. -/
abbrev M (α : Type) := Except Exc α

/-! ## `repr` -/

/-- The last `k` hexadecimal digits of `n`. -/
def hexDigits : Nat → Nat → Str
  | 0, _ => []
  | k + 1, n => hexDigits k (n / 16) ++ [digitChar (n % 16)]

/-- One character of `repr(s)` (`unicode_repr` of CPython); `q` is the quote in use. -/
def reprChar (E : Env) (q c : Char) : Str :=
  if c = q ∨ c = '\\' then ['\\', c]
  else if c = '\t' then py"\\t"
  else if c = '\n' then py"\\n"
  else if c = '\r' then py"\\r"
  else if 32 ≤ c.toNat ∧ c.toNat < 127 then [c]
  else if 128 ≤ c.toNat ∧ E.printable c = true then [c]
  else if c.toNat < 0x100 then py"\\x" ++ hexDigits 2 c.toNat
  else if c.toNat < 0x10000 then py"\\u" ++ hexDigits 4 c.toNat
  else py"\\U" ++ hexDigits 8 c.toNat

/-- The quote used by `repr(s)`: double if the text has single quotes but no double quotes. -/
def reprQuote (s : Str) : Char := if s.contains '\'' && !s.contains '"' then '"' else '\''

/-- `repr(s)` of a string. -/
def reprStr (E : Env) (s : Str) : Str := reprQuote s :: (s.flatMap (reprChar E (reprQuote s)) ++ [reprQuote s])

mutual
/-- `repr(x)` -/
def repr (E : Env) : PVal → Str
  | .none => py"None"
  | .bool true => py"True"
  | .bool false => py"False"
  | .int n => pyStr n
  | .float f => E.floatRepr f
  | .str s => reprStr E s
  | .list [] => py"[]"
  | .list (x :: xs) => '[' :: (repr E x ++ reprL E xs ++ [']'])
  | .dict [] => py"{}"
  | .dict ((k, x) :: r) => '{' :: (reprStr E k ++ py": " ++ repr E x ++ reprD E r ++ ['}'])
/-- The items of a list after the first. -/
def reprL (E : Env) : List PVal → Str
  | [] => []
  | x :: xs => py", " ++ repr E x ++ reprL E xs
/-- The items of a dict after the first. -/
def reprD (E : Env) : List (Str × PVal) → Str
  | [] => []
  | (k, x) :: r => py", " ++ reprStr E k ++ py": " ++ repr E x ++ reprD E r
end

/-- `type(x).__name__` -/
def typeName : PVal → Str
  | .none => py"NoneType"
  | .bool _ => py"bool"
  | .int _ => py"int"
  | .float _ => py"float"
  | .str _ => py"str"
  | .list _ => py"list"
  | .dict _ => py"dict"

/-! ## `build_error_msg` -/

/-- `sep.join(l)` -/
def join (sep : Str) : List Str → Str
  | [] => []
  | [x] => x
  | x :: y :: r => x ++ sep ++ join sep (y :: r)

/-- `m[0].capitalize() + m[1:]` (validate.py:404) for a first letter in ASCII; IndexError on the empty
string cannot occur, the text contains "received value". -/
def capitalizeFirst : Str → Str
  | [] => []
  | c :: r => (if 97 ≤ c.toNat ∧ c.toNat ≤ 122 then Char.ofNat (c.toNat - 32) else c) :: r

/-- The quoted name (validate.py:392-397): quotes around the first word only. -/
def quotedName (name : Str) : Str :=
  let words := splitC ' ' name
  let name2 := '\'' :: (words.headD [] ++ ['\''])
  if words.length > 1 then name2 ++ ' ' :: join [' '] words.tail else name2

/-- `build_error_msg` (validate.py:386-405); `location` is a string or None. -/
def buildErrorMsg (E : Env) (msg : Str) (value : PVal) (name location kind : Option Str) : Str :=
  let m : Str := match location with
    | none => []
    | some l => py"in location " ++ reprStr E l ++ py", "
  let m := match name with
    | none => m
    | some n => m ++ py"for variable " ++ quotedName n ++ py", "
  let m := match kind with
    | none => m
    | some k => m ++ py"expected a " ++ reprStr E k ++ py", but "
  let m := m ++ py"received value " ++ repr E value
  let m := if msg ≠ [] then m ++ py", " ++ msg else m
  capitalizeFirst m

/-! ## The validators

`name`, `location` and `kind` are the optional arguments of the code; where `kind` has a default the
model's argument is the value it has in the call. -/

/-- "which has type '{}', not '{}'." (validate.py:210,219,228,262,275,376) -/
def wrongType (x : PVal) (wanted : Str) : Str :=
  py"which has type '" ++ typeName x ++ py"', not '" ++ wanted ++ py"'."

/-- `validate_string` (validate.py:374-378). -/
def vString (E : Env) (x : PVal) (name location : Option Str) (kind : Option Str := some py"string") : M Str :=
  match x with
  | .str s => .ok s
  | x => .error (.typeError, buildErrorMsg E (wrongType x py"str") x name location kind)

/-- `validate_dict` (validate.py:208-212). -/
def vDict (E : Env) (x : PVal) (name location : Option Str) (kind : Option Str := some py"dict") : M (List (Str × PVal)) :=
  match x with
  | .dict d => .ok d
  | x => .error (.typeError, buildErrorMsg E (wrongType x py"dict") x name location kind)

/-- `validate_list` (validate.py:217-221). -/
def vList (E : Env) (x : PVal) (name location : Option Str) (kind : Option Str := some py"list") : M (List PVal) :=
  match x with
  | .list l => .ok l
  | x => .error (.typeError, buildErrorMsg E (wrongType x py"list") x name location kind)

/-- `validate_bytes` (validate.py:226-230) on a value that is not of type `bytes` (no value of the model
is): the message names the wrong type, 'int'. -/
def vBytes (E : Env) (x : PVal) (name location : Option Str) (kind : Option Str := some py"bytes") : M Unit :=
  .error (.typeError, buildErrorMsg E (wrongType x py"int") x name location kind)

/-- `validate_integer` (validate.py:260-264). -/
def vInteger (E : Env) (x : PVal) (name location : Option Str) (kind : Option Str := some py"integer") : M Int :=
  match x.asInt with
  | some n => .ok n
  | none => .error (.typeError, buildErrorMsg E (wrongType x py"int") x name location kind)

/-- `validate_boolean` (validate.py:273-277). -/
def vBoolean (E : Env) (x : PVal) (name location : Option Str) (kind : Option Str := some py"boolean") : M Bool :=
  match x with
  | .bool b => .ok b
  | x => .error (.typeError, buildErrorMsg E (wrongType x py"bool") x name location kind)

/-- `validate_positive_integer` (validate.py:247-252). -/
def vPositiveInteger (E : Env) (x : PVal) (name location : Option Str) (kind : Option Str := some py"positive_integer") : M Int := do
  let n ← vInteger E x name location kind
  if n < 1 then throw (.valueError, buildErrorMsg E py"which is less than 1." x name location kind)
  pure n

/-- `validate_whole_number` (validate.py:235-239). -/
def vWholeNumber (E : Env) (x : PVal) (name location : Option Str) (kind : Option Str := some py"whole_number") : M Unit :=
  if x.eqInt 0 then pure ()
  else do
    let _ ← vPositiveInteger E x name location kind
    pure ()

/-- The indices from `i` on at which `p` holds, with the characters. -/
def badChars (p : Char → Bool) : Nat → Str → List (Nat × Char)
  | _, [] => []
  | i, c :: r => if p c then (i, c) :: badChars p (i + 1) r else badChars p (i + 1) r

/-- `str(l)` of a list of ints. -/
def listStr (l : List Nat) : Str := '[' :: (join py", " (l.map fun n => pyStr n) ++ [']'])

/-- A line break is shown as `\n` (validate.py:315-316). -/
def showChar (c : Char) : Str := if c = '\n' then py"\\n" else [c]

/-- Not one of the `hex_digits` (validate.py:25,310). -/
def notHex (c : Char) : Bool := !(py"0123456789abcdef").contains c

/-- `validate_hex` (validate.py:303-321). -/
def vHex (E : Env) (x : PVal) (name location : Option Str) (kind : Option Str := some py"hex") : M Str := do
  let s ← vString E x name location kind
  if s.length % 2 ≠ 0 then
    throw (.valueError, buildErrorMsg E (py"whose length is not an even number (" ++ pyStr s.length ++ py" chars).") x name location kind)
  let bad := badChars notHex 0 s
  if bad.length > 0 then
    throw (.valueError, buildErrorMsg E (py"where the chars at indices " ++ listStr (bad.map Prod.fst) ++ py" (with values '" ++
      join [','] (bad.map fun p => showChar p.2) ++ py"') are not hex chars.") x name location kind)
  pure s

/-- `validate_hex_length` (validate.py:285-298) with an `int` length. -/
def vHexLength (E : Env) (x : PVal) (n : Int) (name location : Option Str) (kind : Option Str) : M Str := do
  let kind := kind.getD (py"hex_length_" ++ pyStr n ++ py"_bytes")
  let s ← vHex E x name location (some kind)
  if (s.length : Int) ≠ n * 2 then
    throw (.valueError, buildErrorMsg E (py"whose length is " ++ pyStr s.length ++ py" chars, not " ++ pyStr (n * 2) ++ py" chars.")
      x name location (some kind))
  pure s

/-- `str(l)` of a list of characters. -/
def charList (E : Env) (l : List Char) : Str := '[' :: (join py", " (l.map fun c => reprStr E [c]) ++ [']'])

/-- `validate_string_is_positive_integer` (validate.py:341-353): the text for '0' has no name. -/
def vStrPositiveInteger (E : Env) (u : UniDB) (x : PVal) (name location : Option Str)
    (kind : Option Str := some py"string_is_positive_integer") : M Unit := do
  let s ← vString E x name location kind
  if s = py"0" then throw (.valueError, py"0 is not a positive number.")
  let bad := badChars (fun c => !isDigitChar u c) 0 s
  if bad.length > 0 then
    throw (.valueError, buildErrorMsg E (py"where the chars at indices " ++ listStr (bad.map Prod.fst) ++ py" (with values " ++
      charList E (bad.map Prod.snd) ++ py") are not digits.") x name location kind)

/-- `validate_string_is_whole_number` (validate.py:326-333). -/
def vStrWholeNumber (E : Env) (u : UniDB) (x : PVal) (name location : Option Str)
    (kind : Option Str := some py"string_is_whole_number") : M Unit := do
  let s ← vString E x name location kind
  if s = py"0" then pure () else vStrPositiveInteger E u x name location kind

/-- `validate_string_is_decimal` (validate.py:167-188).  A negative `dp` is not modelled. -/
def vStrDecimal (E : Env) (u : UniDB) (dp : Option Nat) (x : PVal) (name location : Option Str)
    (kind : Option Str := some py"integer") : M Unit := do
  let s ← vString E x name location kind
  if s.count '.' ≠ 1 then
    throw (.typeError, buildErrorMsg E (py"which has " ++ pyStr (s.count '.') ++ py" decimal points, not 1.") x name location none)
  match splitC '.' s with
  | [s1, s2] => do
    if !(isDigitStr u s1) || !(isDigitStr u s2) then
      throw (.typeError, buildErrorMsg E py"which has non-digit characters." x name location none)
    match dp with
    | some k =>
      if !(reDecimal u k s) then
        throw (.valueError, buildErrorMsg E (py"which is not a valid " ++ pyStr k ++ py"-decimal-place decimal value.") x name location kind)
      else pure ()
    | none => pure ()
  | _ => throw (.valueError, [])

/-- `validate_string_is_whole_number_or_decimal` (validate.py:144-162). -/
def vStrWholeOrDecimal (E : Env) (u : UniDB) (dp : Option Nat) (x : PVal) (name location : Option Str)
    (kind : Option Str := some py"integer") : M Unit :=
  match vStrWholeNumber E u x name location kind, vStrDecimal E u dp x name location kind with
  | .ok _, _ => .ok ()
  | .error _, .ok _ => .ok ()
  | .error e, .error _ => .error e

/-- `validate_string_is_date` (validate.py:361-366). -/
def vStrDate (E : Env) (u : UniDB) (x : PVal) (name location : Option Str) (kind : Option Str := some py"string_is_date") : M Unit := do
  let s ← vString E x name location kind
  if !(dateCore u s || (s.getLast? == some '\n' && dateCore u s.dropLast)) then
    throw (.valueError, buildErrorMsg E py"which is not a valid YYYY-MM-DD date string." x name location kind)

/-- "Line {}, index {}: Character '{}' (ord={}) is not in the list of permitted data characters." (validate.py:132-133) -/
def printableDetail (line index : Nat) (c : Char) : Str :=
  py"Line " ++ pyStr line ++ py", index " ++ pyStr index ++ py": Character '" ++ [c] ++ py"' (ord=" ++ pyStr c.toNat ++
    py") is not in the list of permitted data characters."

/-- The loop of `validate_string_is_printable_ascii` (validate.py:127-139): the text for the first
character that is not permitted. -/
def printableLoop : Nat → Nat → Str → Option Str
  | _, _, [] => none
  | line, index, c :: r =>
    if !(permittedChars.contains c) then some (printableDetail line (index + 1) c)
    else if c = '\n' then printableLoop (line + 1) 0 r
    else printableLoop line (index + 1) r

/-- `validate_string_is_printable_ascii` (validate.py:120-139): `validate_string` is called without the name. -/
def vPrintableAscii (E : Env) (x : PVal) (name location : Option Str) (kind : Option Str := some py"string_is_printable_ascii") : M Unit := do
  let s ← vString E x none none
  match printableLoop 0 0 s with
  | none => pure ()
  | some detail => throw (.valueError, buildErrorMsg E detail x name location kind)

/-- `validate_integer_domain` (validate.py:88-115) for ints. -/
def vIntegerDomain (n lo hi : Int) : M Unit :=
  if lo > hi then
    .error (.valueError, py"\nMinimum value must be less than maximum value.\n- Mininimum value: " ++ pyStr lo ++ py"\n- Maximum value: " ++ pyStr hi ++ py"\n")
  else if lo ≤ n ∧ n ≤ hi then .ok ()
  else if n < lo then
    .error (.valueError, py"\nInput is less than the minimum value.\n- Minimum value: " ++ pyStr lo ++ py"\n- Input: " ++ pyStr n ++ py"\n")
  else if n > hi then
    .error (.valueError, py"\nInput is greater than the maximum value.\n- Maximum value: " ++ pyStr hi ++ py"\n- Input: " ++ pyStr n ++ py"\n")
  else .ok ()

/-- Lines "- item" (validate.py:50-54,66-67). -/
def bulleted (l : List Str) : Str := l.flatMap fun x => py"\n- " ++ x

/-- `validate_list_contains_items` (validate.py:38-55) for lists of strings. -/
def vListContains (input items : List Str) : M Unit :=
  let notFound := items.filter fun x => !input.contains x
  if notFound.length = 0 then .ok ()
  else .error (.valueError, py"Some items are not in the list.\nList items:" ++ bulleted input ++ py"\nItems not found:" ++ bulleted notFound)

/-- `validate_item_in_list` (validate.py:60-68) for strings. -/
def vItemInList (x : Str) (l : List Str) : M Unit :=
  if l.contains x then .ok ()
  else .error (.valueError, py"Item not in list. Item: " ++ x ++ py"\nList items:" ++ bulleted l)

/-! ## Other texts -/

/-- The text of the exception of `base58check_to_hex` for a wrong checksum (basic.py:413-424); none if no such
exception is raised. -/
def checksumText (X : Ext) (s : Str) : Option Str :=
  let s2 := lstripC '1' s
  let count1 := s.length - s2.length
  match base58ToInt s2 with
  | .error _ => none
  | .ok s3 =>
    match intToHex s3 with
    | .error _ => none
    | .ok s4 =>
      let checksum := lastK 8 s4
      let s5 := dropLastK 8 s4
      let s6 := rep count1 py"00" ++ s5
      match getChecksum X s6 with
      | .error _ => none
      | .ok checksumNew =>
        if checksum ≠ checksumNew then
          some (py"Checksum value does not match calculated checksum.\n- Input: " ++ s ++ py"\n- Input hex: " ++ s4 ++
            py"\n- Input hex without checksum: " ++ s5 ++ py"\n- Input hex without checksum and with zeroes: " ++ s6 ++
            py"\n- Checksum value     : " ++ checksum ++ py"\n- Calculated checksum: " ++ checksumNew ++ py"\n")
        else none

/-- The text of the exception raised by `validate_hex_length` in the loop of `sign` over the private keys
(transaction.py:393-396); none if the loop ends or another function raises first. -/
def keyText (E : Env) (X : Ext) : List Str → Option Str
  | [] => none
  | k :: ks =>
    match vHexLength E (.str k) 32 none none none with
    | .error e => some e.2
    | .ok _ =>
      match privateKeyToAddress X k with
      | .error _ => none
      | .ok _ => keyText E X ks

end BT.Msg
