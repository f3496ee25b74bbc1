import Verif.PyFloat

/-!
# The parts of Python's `decimal` used by `transaction.py:245-264, 314-316`

Default context: 28 significant digits, ROUND_HALF_EVEN.  Only non-negative values occur.
-/

namespace BT

/-- Number of decimal digits of `⌊q⌋` for `q ≥ 1`, and `-k` where `q` has `k` leading
zeros after the point for `q < 1`: the exponent `e` with `10^(e-1) ≤ q < 10^e`, `q > 0`.
Found by counting from an estimate; `decExp q` is the least `e` with `q < 10^e`. -/
def decExp (q : ℚ) : ℤ :=
  -- `num < 10^a` and `den < 10^b`: start above and count down
  let a : Nat := (natDigits 10 q.num.natAbs).length
  let b : Nat := (natDigits 10 q.den).length
  let e0 : ℤ := (a : ℤ) - (b : ℤ)
  -- `10^(e0-1) < q < 10^(e0+1)`
  if q < (10 : ℚ) ^ e0 then e0 else e0 + 1

/-- Result of an inexact decimal operation: round the exact value to 28 significant digits,
half to even (`decimal.getcontext().prec == 28`). -/
def dec28 (q : ℚ) : ℚ :=
  if q = 0 then 0
  else
    let s : ℤ := decExp q - 28
    (rhe (q / 10 ^ s) : ℚ) * 10 ^ s

/-- Zero-padded decimal digits of `n`, at least `k` of them. -/
def padDigits (k n : Nat) : Str :=
  let s := natDigits 10 n
  List.replicate (k - s.length) '0' ++ s

/-- `'{:.kf}'.format(d)` for a non-negative Decimal `d`, `k ≥ 1`: round to `k` places, half
to even, and print the integer part, a point and `k` digits. -/
def fmtFixed (k : Nat) (q : ℚ) : Str :=
  let n : Nat := (rhe (q * 10 ^ k)).toNat
  natDigits 10 (n / 10 ^ k) ++ ['.'] ++ padDigits k (n % 10 ^ k)

end BT
