import Verif.Messages

/-!
# Texts of the exceptions of the functions on amounts, and of the padding of hex

`Basic.lean` models which amounts are rejected; here is the text of the exception as well.
`C126_agrees_*` in Props/AmountMsg.lean prove that the two agree.
-/

namespace BT.Msg

/-- `float(s)` with the text of its ValueError ("could not convert string to float: %R", CPython's
`PyFloat_FromString`). -/
def floatStr (E : Env) (u : UniDB) (s : Str) : M PyFloat :=
  match pyFloatStr u s with
  | .ok f => .ok f
  | .error e => .error (e, py"could not convert string to float: " ++ reprStr E s)

/-- `int(s)` with the text of its ValueError ("invalid literal for int() with base %d: %.200R", CPython's
`PyLong_FromUnicodeObject`). -/
def intStr (E : Env) (u : UniDB) (s : Str) : M Int :=
  match pyInt u 10 s with
  | .ok n => .ok n
  | .error e => .error (e, py"invalid literal for int() with base 10: " ++ (reprStr E s).take 200)

/-- `s.split('.')[1]` with the text of the IndexError. -/
def secondPart (s : Str) : M Str :=
  match (splitC '.' s)[1]? with
  | some p => .ok p
  | none => .error (.indexError, py"list index out of range")

/-- `validate_bitcoin_amount` (basic.py:592-614) on a string.  `'{:.8f}'.format` of the two constants is
written out. -/
def amountText (E : Env) (u : UniDB) (s : Str) : M Unit := do
  if ¬ (s.count '.' = 0 ∨ s.count '.' = 1) then
    throw (.valueError, py"Amount contains " ++ pyStr (s.count '.') ++
      py" periods ('.'). It must contain either 1 or 0 periods. Amount: " ++ s)
  let s2 := removeC '.' s
  if !(isDigitStr u s2) then
    throw (.valueError, py"Apart from an optional period ('.'), amount can contain only digits. Amount: " ++ s)
  if s.count '.' = 1 then
    let s3 ← secondPart s
    if s3.length > 8 then
      throw (.valueError, py"Amount (" ++ s ++ py") has " ++ pyStr s3.length ++
        py" decimal places. It can have at most 8 decimal places.")
  let f ← floatStr E u s
  if f.lt (.fin 0) then
    throw (.valueError, py"The minimum possible amount is 0.00000000. Amount: " ++ s)
  else if (PyFloat.fin ((21000000 : ℤ) : ℚ)).lt f then
    throw (.valueError, py"The maximum possible amount is 21000000.00000000. Amount: " ++ s)

/-- `validate_bitcoin_amount` (basic.py:587-614) on any value. -/
def vBitcoinAmount (E : Env) (u : UniDB) (x : PVal) : M Unit := do
  let s ← vString E x none none
  amountText E u s

/-- `validate_positive_bitcoin_amount` (basic.py:576-582) on any value. -/
def vPositiveBitcoinAmount (E : Env) (u : UniDB) (x : PVal) : M Str := do
  let s ← vString E x none none
  if removeC '0' (removeC '.' s) = [] then
    throw (.valueError, py"Amount ('" ++ s ++ py"') cannot be 0.")
  vBitcoinAmount E u x
  pure s

/-- The text of satoshi before the leading zeros are removed (basic.py:553-565). -/
def satoshiDigits (s : Str) : M Str :=
  if s.count '.' = 0 then pure (s ++ List.replicate 8 '0')
  else if s.count '.' = 1 then
    match splitC '.' s with
    | [_, s2] =>
      let m : Int := 8 - (s2.length : Int)
      pure (removeC '.' s ++ List.replicate m.toNat '0')
    | _ => throw (.valueError, py"too many values to unpack (expected 2)")
  else throw (.valueError, py"Bitcoin amount should contain 0 or 1 decimal points. Amount received: " ++ s)

/-- `bitcoin_to_satoshi` (basic.py:548-571) on any value. -/
def bitcoinToSatoshi (E : Env) (u : UniDB) (x : PVal) : M Int := do
  vBitcoinAmount E u x
  let s ← vString E x none none
  let output ← satoshiDigits s
  let n ← intStr E u (lstripC '0' output)
  vWholeNumber E (.int n) none none
  pure n

/-- `str(n)` of an `int` or a `bool`. -/
def strOfInt (n : Int) : PVal → Str
  | .bool true => py"True"
  | .bool false => py"False"
  | _ => pyStr n

/-- `satoshi_to_bitcoin` (basic.py:522-543) on any value. -/
def satoshiToBitcoin (E : Env) (u : UniDB) (x : PVal) : M Str := do
  let n ← vInteger E x none none
  vIntegerDomain n 0 (21 * 10 ^ 6 * 10 ^ 8)
  let s := strOfInt n x
  let p := s.length
  let s :=
    if p ≤ 8 then py"0." ++ (List.replicate (8 - p) '0' ++ s)
    else dropLastK 8 s ++ py"." ++ lastK 8 s
  vBitcoinAmount E u (.str s)
  pure s

/-- `ensure_8_decimal_places` (basic.py:619-630) on a string. -/
def ensure8 (s : Str) : M Str := do
  let s := if s.count '.' = 0 then s ++ py"." else s
  let p ← secondPart s
  let m : Int := 8 - (p.length : Int)
  if m < 0 then
    throw (.valueError, py"String decimal (" ++ s ++ py") has " ++ pyStr p.length ++ py" decimal places.")
  pure (s ++ List.replicate m.toNat '0')

/-- The common part of `pad_hex` and `pad_hex_le` (basic.py:660-667,677-684): the hex and the number of
bytes to add. -/
def padBytes (E : Env) (x n : PVal) : M (Str × Int) := do
  let s ← vHex E x none none
  let k ← vInteger E n none none
  let have' : Int := (s.length / 2 : Nat)
  if k < have' then
    throw (.valueError, py"Hex value is already longer than desired padded length. Hex value: " ++ s)
  pure (s, k - have')

/-- `pad_hex` (basic.py:659-670) on any values. -/
def padHex (E : Env) (x n : PVal) : M Str := do
  let (s, m) ← padBytes E x n
  if m > 0 then pure (rep m.toNat py"00" ++ s) else pure s

/-- `pad_hex_le` (basic.py:675-687) on any values. -/
def padHexLe (E : Env) (x n : PVal) : M Str := do
  let (s, m) ← padBytes E x n
  if m > 0 then pure (s ++ rep m.toNat py"00") else pure s

end BT.Msg
