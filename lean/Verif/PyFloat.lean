import Verif.Py
import Mathlib.Algebra.Order.Floor.Ring
import Mathlib.Data.Rat.Floor
import Mathlib.Algebra.Order.Archimedean.Basic
import Mathlib.Data.Rat.Cast.Order

/-!
# Python `float` (IEEE binary64), exactly

Models the `float` operations used in `basic.py:609-614` and
`create_transaction.py:151,156,332-337,527-543`.  A float is nan, ±inf or a rational
number; each operation is the exact rational operation followed by
round-to-nearest-even.  Simplification: `-0.0` is identified with `0.0` (no modelled
code path observes the sign of a zero).
-/

namespace BT

/-- A Python `float`. -/
inductive PyFloat
  | nan
  | inf (neg : Bool)
  | fin (q : ℚ)
  deriving DecidableEq

/-- `⌊log2 q⌋` for `q > 0`. -/
def floorLog2 (q : ℚ) : ℤ :=
  let e : ℤ := (Nat.log2 q.num.natAbs : ℤ) - (Nat.log2 q.den : ℤ)
  if (2 : ℚ) ^ e ≤ q then e else e - 1

/-- Round half to even, to an integer. -/
def rhe (q : ℚ) : ℤ :=
  let f := ⌊q⌋
  let d := q - f
  if d < 1 / 2 then f else if 1 / 2 < d then f + 1 else if f % 2 = 0 then f else f + 1

/-- Exponent of the unit in the last place of a binary64 with magnitude `q > 0`
(52 fraction bits, subnormals below `2^-1022`). -/
def ulpExp (q : ℚ) : ℤ := max (floorLog2 q - 52) (-1074)

/-- Rounding of a positive rational to the binary64 grid, without the overflow check. -/
def rndPos (q : ℚ) : ℚ := (rhe (q / 2 ^ ulpExp q) : ℚ) * 2 ^ ulpExp q

/-- Rounding of a rational to the binary64 grid, without the overflow check. -/
def rndQ (q : ℚ) : ℚ := if q = 0 then 0 else if q < 0 then -rndPos (-q) else rndPos q

/-- Round to binary64; results of magnitude `≥ 2^1024` become infinities. -/
def rnd64 (q : ℚ) : PyFloat :=
  let r := rndQ q
  if 2 ^ 1024 ≤ r then .inf false else if r ≤ -2 ^ 1024 then .inf true else .fin r

/-- `float(n)` for an `int`: OverflowError when too large. -/
def PyFloat.ofInt (n : Int) : R PyFloat :=
  match rnd64 n with
  | .fin q => .ok (.fin q)
  | _ => .error .overflowError

/-- Sign of a float as used for infinities (zero counts as positive). -/
def PyFloat.isNeg : PyFloat → Bool
  | .nan => false
  | .inf n => n
  | .fin q => q < 0

/-- Float multiplication. -/
def PyFloat.mul : PyFloat → PyFloat → PyFloat
  | .fin a, .fin b => rnd64 (a * b)
  | .nan, _ => .nan
  | _, .nan => .nan
  | .inf n, .fin b => if b = 0 then .nan else .inf (n != (b < 0))
  | .fin a, .inf n => if a = 0 then .nan else .inf (n != (a < 0))
  | .inf m, .inf n => .inf (m != n)

/-- Float division; ZeroDivisionError on a zero divisor. -/
def PyFloat.div (x y : PyFloat) : R PyFloat :=
  match x, y with
  | x, .fin b => if b = 0 then .error .zeroDivisionError else
      match x with
      | .fin a => .ok (rnd64 (a / b))
      | .inf n => .ok (.inf (n != (b < 0)))
      | .nan => .ok .nan
  | .fin _, .inf _ => .ok (.fin 0)
  | _, _ => .ok .nan

/-- `x < y` -/
def PyFloat.lt : PyFloat → PyFloat → Bool
  | .fin a, .fin b => a < b
  | .nan, _ => false
  | _, .nan => false
  | .inf m, .inf n => m && !n
  | .inf m, .fin _ => m
  | .fin _, .inf n => !n

/-- `math.ceil(x)` : nan → ValueError, inf → OverflowError. -/
def PyFloat.ceil : PyFloat → R Int
  | .fin q => .ok ⌈q⌉
  | .nan => .error .valueError
  | .inf _ => .error .overflowError

/-- `int(x)`: truncation toward zero. -/
def PyFloat.trunc : PyFloat → R Int
  | .fin q => .ok (if q < 0 then ⌈q⌉ else ⌊q⌋)
  | .nan => .error .valueError
  | .inf _ => .error .overflowError

/-! ## `float(s)` for strings -/

/-- Remove underscores, which may only stand between two digits. -/
def dropUnderscores : Bool → Str → Option Str
  | _, [] => some []
  | prevDigit, c :: cs =>
    if c = '_' then
      match prevDigit, cs with
      | true, d :: _ => if (asciiDigit d).isSome then dropUnderscores false cs else none
      | _, _ => none
    else (dropUnderscores (asciiDigit c).isSome cs).map (c :: ·)

/-- ASCII lower case. -/
def lowerC (c : Char) : Char :=
  if 'A'.toNat ≤ c.toNat ∧ c.toNat ≤ 'Z'.toNat then Char.ofNat (c.toNat + 32) else c

/-- Decimal value of a run of ASCII digits. -/
def digitsVal (s : Str) : Nat := valBE 10 (s.filterMap asciiDigit)

/-- Exponent part: `e[+-]digits`, or nothing. -/
def scanExp : Str → Option Int
  | [] => some 0
  | c :: cs =>
    if c = 'e' ∨ c = 'E' then
      let body := fun (r : Str) =>
        if !r.isEmpty && r.all (fun d => (asciiDigit d).isSome) then some (digitsVal r) else none
      match cs with
      | '-' :: r => (body r).map fun n => -(n : Int)
      | '+' :: r => (body r).map fun n => (n : Int)
      | r => (body r).map fun n => (n : Int)
    else none

/-- An unsigned decimal literal: digits, optional fraction, optional exponent. -/
def scanDecimal (s : Str) : Option ℚ :=
  let d1 := s.takeWhile fun c => (asciiDigit c).isSome
  let r1 := s.dropWhile fun c => (asciiDigit c).isSome
  match r1 with
  | '.' :: r2 =>
    let d2 := r2.takeWhile fun c => (asciiDigit c).isSome
    let r3 := r2.dropWhile fun c => (asciiDigit c).isSome
    if d1.isEmpty && d2.isEmpty then none
    else (scanExp r3).map fun e => (digitsVal (d1 ++ d2) : ℚ) * 10 ^ (e - (d2.length : ℤ))
  | r =>
    if d1.isEmpty then none
    else (scanExp r).map fun e => (digitsVal d1 : ℚ) * 10 ^ e

/-- An unsigned float literal (number, `inf`, `infinity`, `nan`). -/
def scanFloat (neg : Bool) (s : Str) : R PyFloat :=
  let l := s.map lowerC
  if l = py"inf" ∨ l = py"infinity" then .ok (.inf neg)
  else if l = py"nan" then .ok .nan
  else match scanDecimal s with
    | some q => .ok (rnd64 (if neg then -q else q))
    | none => .error .valueError

/-- `float(s)` for a `str`. -/
def pyFloatStr (u : UniDB) (s : Str) : R PyFloat :=
  match dropUnderscores false (stripWs (toAsciiNum u s)) with
  | none => .error .valueError
  | some ('-' :: r) => scanFloat true r
  | some ('+' :: r) => scanFloat false r
  | some r => scanFloat false r

end BT
