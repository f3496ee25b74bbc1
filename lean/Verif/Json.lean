import Verif.PVal

/-!
# The `json` module of the standard library

`json.dumps(_, indent=2)` (transaction.py:326,471,555) and `json.loads` / `json.load`
(transaction.py:337, cli.py:246,250) of CPython.  Not code of `/repo`, but modelled so that what
the package writes and reads back needs no assumption.

Simplifications: `repr` of a float is a parameter; a lone surrogate escape, which Python keeps as
such, is read as U+FFFD (the model's strings have no surrogates); there is no limit on the nesting
depth and on the number of digits of an integer.
-/

namespace BT.Json

/-! ## `json.dumps` -/

/-- `'{:04x}'.format(n)` for `n < 65536`. -/
def hex4 (n : Nat) : Str :=
  [digitChar (n / 4096 % 16), digitChar (n / 256 % 16), digitChar (n / 16 % 16), digitChar (n % 16)]

/-- One character of a string in ASCII-only JSON (`py_encode_basestring_ascii`). -/
def escChar (c : Char) : Str :=
  if c = '"' then ['\\', '"']
  else if c = '\\' then ['\\', '\\']
  else if c = '\n' then ['\\', 'n']
  else if c = '\r' then ['\\', 'r']
  else if c = '\t' then ['\\', 't']
  else if c.toNat = 12 then ['\\', 'f']
  else if c.toNat = 8 then ['\\', 'b']
  else if 32 ≤ c.toNat ∧ c.toNat ≤ 126 then [c]
  else if c.toNat < 0x10000 then '\\' :: 'u' :: hex4 c.toNat
  else '\\' :: 'u' :: hex4 (0xd800 + (c.toNat - 0x10000) / 1024) ++
    '\\' :: 'u' :: hex4 (0xdc00 + (c.toNat - 0x10000) % 1024)

/-- A string literal. -/
def dumpStr (s : Str) : Str := '"' :: (s.flatMap escChar ++ ['"'])

/-- A line break and the indentation of level `k` (`indent=2`). -/
def newline (k : Nat) : Str := '\n' :: List.replicate (2 * k) ' '

mutual
/-- A value at indentation level `k`; `fr` is `float.__repr__`. -/
def dumpV (fr : PyFloat → Str) (k : Nat) : PVal → Str
  | .none => py"null"
  | .bool true => py"true"
  | .bool false => py"false"
  | .int n => pyStr n
  | .float f => fr f
  | .str s => dumpStr s
  | .list [] => py"[]"
  | .list (x :: xs) =>
    '[' :: (newline (k + 1) ++ dumpV fr (k + 1) x ++ dumpL fr (k + 1) xs ++ newline k ++ [']'])
  | .dict [] => py"{}"
  | .dict ((key, x) :: r) =>
    '{' :: (newline (k + 1) ++ dumpStr key ++ py": " ++ dumpV fr (k + 1) x ++ dumpD fr (k + 1) r ++
      newline k ++ ['}'])
/-- The items of a list after the first. -/
def dumpL (fr : PyFloat → Str) (k : Nat) : List PVal → Str
  | [] => []
  | x :: xs => ',' :: (newline k ++ dumpV fr k x ++ dumpL fr k xs)
/-- The items of a dict after the first. -/
def dumpD (fr : PyFloat → Str) (k : Nat) : List (Str × PVal) → Str
  | [] => []
  | (key, x) :: r => ',' :: (newline k ++ dumpStr key ++ py": " ++ dumpV fr k x ++ dumpD fr k r)
end

/-- `json.dumps(x, indent=2)` -/
def dumps (fr : PyFloat → Str) (x : PVal) : Str := dumpV fr 0 x

/-! ## `json.loads` -/

/-- White space of JSON. -/
def isWs (c : Char) : Bool := c = ' ' || c = '\t' || c = '\n' || c = '\r'

/-- Skip white space. -/
def skipWs (s : Str) : Str := s.dropWhile isWs

/-- State of the scanner inside a string literal: plain text, after a backslash, inside a `\u`
escape with `k + 1` digits to come. -/
inductive St
  | plain
  | esc
  | hex (k acc : Nat)

/-- The character after a backslash. -/
def unesc (c : Char) : Option Nat :=
  if c = '"' ∨ c = '\\' ∨ c = '/' then some c.toNat
  else if c = 'b' then some 8
  else if c = 'f' then some 12
  else if c = 'n' then some 10
  else if c = 'r' then some 13
  else if c = 't' then some 9
  else none

/-- Put a code in front of the result of the rest. -/
def consCode (n : Nat) (r : Option (List Nat × Str)) : Option (List Nat × Str) :=
  r.map fun p => (n :: p.1, p.2)

/-- The codes of a string literal, from after the opening quote, and what follows the closing
quote (`scanstring`, strict mode). -/
def scanStr : St → Str → Option (List Nat × Str)
  | _, [] => none
  | .plain, c :: r =>
    if c = '"' then some ([], r)
    else if c = '\\' then scanStr .esc r
    else if c.toNat < 32 then none
    else consCode c.toNat (scanStr .plain r)
  | .esc, c :: r =>
    if c = 'u' then scanStr (.hex 3 0) r
    else match unesc c with
      | none => none
      | some n => consCode n (scanStr .plain r)
  | .hex k acc, c :: r =>
    match hexVal c with
    | none => none
    | some d =>
      match k with
      | 0 => consCode (acc * 16 + d) (scanStr .plain r)
      | k + 1 => scanStr (.hex k (acc * 16 + d)) r

/-- First half of a surrogate pair. -/
def isHigh (n : Nat) : Bool := 0xd800 ≤ n && n ≤ 0xdbff
/-- Second half of a surrogate pair. -/
def isLow (n : Nat) : Bool := 0xdc00 ≤ n && n ≤ 0xdfff

/-- The character of a code; U+FFFD for a lone surrogate. -/
def ofCode (n : Nat) : Char := if isHigh n || isLow n then Char.ofNat 0xfffd else Char.ofNat n

/-- Join surrogate pairs. -/
def joinCodes : List Nat → Str
  | [] => []
  | [a] => [ofCode a]
  | a :: b :: r =>
    if isHigh a && isLow b then Char.ofNat (0x10000 + (a - 0xd800) * 1024 + (b - 0xdc00)) :: joinCodes r
    else ofCode a :: joinCodes (b :: r)

/-- A string literal from after the opening quote. -/
def scanString (s : Str) : Option (Str × Str) := (scanStr .plain s).map fun p => (joinCodes p.1, p.2)

/-- ASCII digit. -/
def isDigit (c : Char) : Bool := 48 ≤ c.toNat && c.toNat ≤ 57

/-- The digits at the start of a text, and the rest. -/
def digits (s : Str) : Str × Str := (s.takeWhile isDigit, s.dropWhile isDigit)

/-- `0|[1-9]\d*` -/
def scanInt : Str → Option (Str × Str)
  | '0' :: r => some (['0'], r)
  | c :: r => if isDigit c then some (c :: (digits r).1, (digits r).2) else none
  | [] => none

/-- `(\.\d+)?` -/
def scanFrac : Str → Str × Str
  | '.' :: r => if (digits r).1 = [] then ([], '.' :: r) else ('.' :: (digits r).1, (digits r).2)
  | s => ([], s)

/-- An optional sign. -/
def scanSign : Str → Str × Str
  | '+' :: r => (['+'], r)
  | '-' :: r => (['-'], r)
  | s => ([], s)

/-- `([eE][-+]?\d+)?` -/
def scanExp : Str → Str × Str
  | c :: r =>
    if c = 'e' ∨ c = 'E' then
      if (digits (scanSign r).2).1 = [] then ([], c :: r)
      else (c :: ((scanSign r).1 ++ (digits (scanSign r).2).1), (digits (scanSign r).2).2)
    else ([], c :: r)
  | [] => ([], [])

/-- The value of a number without exponent and fraction: `int(text)`. -/
def natOf (s : Str) : Nat := s.foldl (fun n c => 10 * n + (c.toNat - 48)) 0

/-- The optional minus sign of a number. -/
def scanMinus : Str → Bool × Str
  | '-' :: r => (true, r)
  | s => (false, s)

/-- A number (`_match_number_unicode`): an int without fraction and exponent, otherwise
`float(text)`. -/
def scanNumber (u : UniDB) (s : Str) : Option (PVal × Str) :=
  match scanInt (scanMinus s).2 with
  | none => none
  | some (i, r1) =>
    let f := scanFrac r1
    let e := scanExp f.2
    if f.1 = [] ∧ e.1 = [] then
      some (.int (if (scanMinus s).1 then -(natOf i : Int) else natOf i), e.2)
    else
      match pyFloatStr u ((if (scanMinus s).1 then ['-'] else []) ++ i ++ f.1 ++ e.1) with
      | .ok x => some (.float x, e.2)
      | .error _ => none

/-- The fixed words. -/
def words : List (Str × PVal) := [
  (py"null", .none), (py"true", .bool true), (py"false", .bool false),
  (py"NaN", .float .nan), (py"Infinity", .float (.inf false)), (py"-Infinity", .float (.inf true))]

/-- A fixed word at the start of the text. -/
def scanWord : List (Str × PVal) → Str → Option (PVal × Str)
  | [], _ => none
  | (w, x) :: r, s => if s.take w.length = w then some (x, s.drop w.length) else scanWord r s

/-- A value that is neither a string nor a list nor a dict. -/
def scanAtom (u : UniDB) (s : Str) : Option (PVal × Str) :=
  match scanWord words s with
  | some p => some p
  | none => scanNumber u s

/-- `dict(pairs)`: a repeated key keeps its first place and gets the last value. -/
def dictOf (l : List (Str × PVal)) : List (Str × PVal) := l.foldl (fun d p => dictSet d p.1 p.2) []

mutual
/-- A value at the start of the text (`scan_once`).  The first argument bounds the recursion; it
never runs out in `loads` (`Json.loads_text`: every JSON text is read). -/
def scanVal (u : UniDB) : Nat → Str → Option (PVal × Str)
  | 0, _ => none
  | n + 1, s =>
    match s with
    | '"' :: r => (scanString r).map fun p => (.str p.1, p.2)
    | '[' :: r =>
      match skipWs r with
      | ']' :: r' => some (.list [], r')
      | r' => (scanItems u n r').map fun p => (.list p.1, p.2)
    | '{' :: r =>
      match skipWs r with
      | '}' :: r' => some (.dict [], r')
      | r' => (scanPairs u n r').map fun p => (.dict (dictOf p.1), p.2)
    | s => scanAtom u s
/-- The items of a non-empty list up to the closing bracket. -/
def scanItems (u : UniDB) : Nat → Str → Option (List PVal × Str)
  | 0, _ => none
  | n + 1, s =>
    match scanVal u n s with
    | none => none
    | some (x, r) =>
      match skipWs r with
      | ']' :: r' => some ([x], r')
      | ',' :: r' => (scanItems u n (skipWs r')).map fun p => (x :: p.1, p.2)
      | _ => none
/-- The items of a non-empty dict up to the closing brace. -/
def scanPairs (u : UniDB) : Nat → Str → Option (List (Str × PVal) × Str)
  | 0, _ => none
  | n + 1, s =>
    match s with
    | '"' :: r =>
      match scanString r with
      | none => none
      | some (k, r) =>
        match skipWs r with
        | ':' :: r =>
          match scanVal u n (skipWs r) with
          | none => none
          | some (x, r) =>
            match skipWs r with
            | '}' :: r' => some ([(k, x)], r')
            | ',' :: r' => (scanPairs u n (skipWs r')).map fun p => ((k, x) :: p.1, p.2)
            | _ => none
        | _ => none
    | _ => none
end

/-- `json.loads(s)`: every error is a JSONDecodeError, a ValueError. -/
def loads (u : UniDB) (s : Str) : R PVal :=
  match s with
  | '\ufeff' :: _ => .error .valueError
  | s =>
    match scanVal u (2 * s.length + 2) (skipWs s) with
    | none => .error .valueError
    | some (x, r) => if skipWs r = [] then .ok x else .error .valueError

end BT.Json
