import Verif.Validate

/-!
# `bitcoin_toolset/code/basic.py`

Log output (`deb`, `log`) is not modelled, but calls inside log arguments that can raise
(`hex_len`) are.
-/

namespace BT

/-- `hex_len` (basic.py:747-751). -/
def hexLen (x : Str) : R Nat := do
  vHex x
  pure (x.length / 2)

/-- `[x[i:i+2] for i in range(0, len(x), 2)]` (basic.py:738, transaction.py:585). -/
def chunks2 {α : Type} : List α → List (List α)
  | [] => []
  | [a] => [[a]]
  | a :: b :: r => [a, b] :: chunks2 r

/-- `reverse_hex_order` (basic.py:735-742). -/
def reverseHexOrder (x : Str) : R Str := do
  vHex x
  let output := (chunks2 x).reverse
  let output := output.flatten
  vHex output
  pure output

/-- `int_to_hex` (basic.py:716-730) on an `int`. -/
def intToHex (n : Int) : R Str := do
  let x := pyHex n
  let x := x.drop 2
  let x := if x.getLast? = some 'L' then x.dropLast else x
  let x := if x.length % 2 = 1 then '0' :: x else x
  vHex x
  pure x

/-- `hex_to_int` (basic.py:710-711): plain `int(x, 16)`, no validation. -/
def hexToInt (u : UniDB) (x : Str) : R Int := pyInt u 16 x

/-- `int_to_hex_le` (basic.py:701-705). -/
def intToHexLe (n : Int) : R Str := do
  let x ← intToHex n
  reverseHexOrder x

/-- `hex_le_to_int` (basic.py:692-696). -/
def hexLeToInt (u : UniDB) (xle : Str) : R Int := do
  let x ← reverseHexOrder xle
  hexToInt u x

/-- `pad_hex_le` (basic.py:675-687). -/
def padHexLe (x : Str) (nBytes : Int) : R Str := do
  vHex x
  let n ← hexLen x
  if nBytes < (n : Int) then raise .valueError
  let m := nBytes - n
  if m > 0 then pure (x ++ rep m.toNat py"00") else pure x

/-- `pad_hex` (basic.py:659-670). -/
def padHex (x : Str) (nBytes : Int) : R Str := do
  vHex x
  let n ← hexLen x
  if nBytes < (n : Int) then raise .valueError
  let m := nBytes - n
  if m > 0 then pure (rep m.toNat py"00" ++ x) else pure x

/-- `int_to_var_int` (basic.py:648-654). -/
def intToVarInt (n : Int) : R Str := do
  vIntegerDomain n 0 252
  let x ← intToHex n
  vHex x
  pure x

/-- `var_int_to_int` (basic.py:635-643) on a string. -/
def varIntToInt (u : UniDB) (x : Str) : R Int := do
  vHexLength x 1
  if x = py"fd" ∨ x = py"fe" ∨ x = py"ff" then raise .valueError
  let n ← pyInt u 16 x
  vIntegerDomain n 0 252
  pure n

/-- `var_int_to_int` (basic.py:635-643) on any value. -/
def varIntToIntP (u : UniDB) (x : PVal) : R Int := do
  let s ← vString x
  varIntToInt u s

/-- `ensure_8_decimal_places` (basic.py:619-630). -/
def ensure8 (s : Str) : R Str := do
  let s := if s.count '.' = 0 then s ++ py"." else s
  match (splitC '.' s)[1]? with
  | none => raise .indexError
  | some p =>
    let d : Int := p.length
    let m : Int := 8 - d
    if m < 0 then raise .valueError
    pure (s ++ List.replicate m.toNat '0')

/-- `validate_bitcoin_amount` (basic.py:587-614) on a string. -/
def vBitcoinAmount (u : UniDB) (s : Str) : R Unit := do
  if ¬ (s.count '.' = 0 ∨ s.count '.' = 1) then raise .valueError
  let s2 := removeC '.' s
  if !(isDigitStr u s2) then raise .valueError
  if s.count '.' = 1 then
    match (splitC '.' s)[1]? with
    | none => raise .indexError
    | some s3 => if s3.length > 8 then raise .valueError
  let f ← pyFloatStr u s
  let fmin : PyFloat := .fin 0
  let fmax ← PyFloat.ofInt (21 * 10 ^ 6)
  if f.lt fmin then raise .valueError
  else if fmax.lt f then raise .valueError

/-- `validate_positive_bitcoin_amount` (basic.py:576-582) on a string. -/
def vPositiveBitcoinAmount (u : UniDB) (s : Str) : R Unit := do
  if removeC '0' (removeC '.' s) = [] then raise .valueError
  vBitcoinAmount u s

/-- `validate_positive_bitcoin_amount` (basic.py:576-582) on any value. -/
def vPositiveBitcoinAmountP (u : UniDB) (x : PVal) : R Str := do
  let s ← vString x
  vPositiveBitcoinAmount u s
  pure s

/-- `bitcoin_to_satoshi` (basic.py:548-571) on a string. -/
def bitcoinToSatoshi (u : UniDB) (s : Str) : R Int := do
  vBitcoinAmount u s
  let output ←
    if s.count '.' = 0 then pure (s ++ List.replicate 8 '0')
    else if s.count '.' = 1 then
      match splitC '.' s with
      | [_, s2] =>
        let m : Int := 8 - (s2.length : Int)
        pure (removeC '.' s ++ List.replicate m.toNat '0')
      | _ => raise .valueError
    else raise .valueError
  let output := lstripC '0' output
  let n ← pyInt u 10 output
  vWholeNumber (.int n)
  pure n

/-- `satoshi_to_bitcoin` (basic.py:522-543) on an `int`. -/
def satoshiToBitcoin (u : UniDB) (n : Int) : R Str := do
  vIntegerDomain n 0 (21 * 10 ^ 6 * 10 ^ 8)
  let s := pyStr n
  let p := s.length
  let s :=
    if p ≤ 8 then py"0." ++ (List.replicate (8 - p) '0' ++ s)
    else dropLastK 8 s ++ py"." ++ lastK 8 s
  vBitcoinAmount u s
  pure s

/-- `satoshi_to_bitcoin` (basic.py:522-543) on any value.  A `bool` passes the integer
check but `str(True)` is not a number, so the amount check raises ValueError. -/
def satoshiToBitcoinP (u : UniDB) (x : PVal) : R Str :=
  match x with
  | .int n => satoshiToBitcoin u n
  | .bool _ => .error .valueError
  | _ => .error .typeError

/-- `get_sha256` (basic.py:506-509). -/
def getSha256 (X : Ext) (x : Str) : R Str := do
  vHex x
  let y ← fromHex x
  pure (bytesHex (X.sha256 y))

/-- `get_ripemd160` (basic.py:514-517). -/
def getRipemd160 (X : Ext) (x : Str) : R Str := do
  vHex x
  let y ← fromHex x
  pure (bytesHex (X.ripemd160 y))

/-- `get_double_sha256` (basic.py:498-501). -/
def getDoubleSha256 (X : Ext) (x : Str) : R Str := do
  let y ← getSha256 X x
  getSha256 X y

/-- `get_double_sha256_checksum` (basic.py:490-493). -/
def getChecksum (X : Ext) (x : Str) : R Str := do
  let y ← getDoubleSha256 X x
  pure (y.take 8)

/-- `count_leading_zero_bytes` (basic.py:477-485). -/
def countLeadingZeroBytes : Str → Nat
  | a :: b :: r => if a = '0' ∧ b = '0' then 1 + countLeadingZeroBytes r else 0
  | _ => 0

/-- `base58_symbols` (basic.py:444,464). -/
def base58Symbols : Str :=
  py"123456789ABCDEFGHJKLMNPQRSTUVWXYZabcdefghijkmnopqrstuvwxyz"

/-- The `while` loop of `hex_to_base58` (basic.py:467-470).  `fuel` bounds the number of
iterations; it is called with `fuel = y`, which always suffices. -/
def b58Loop : Nat → Nat → Str → Str
  | 0, _, out => out
  | fuel + 1, y, out =>
    if y > 0 then b58Loop fuel (y / 58) (out ++ [base58Symbols[y % 58]!]) else out

/-- `hex_to_base58` (basic.py:460-472). -/
def hexToBase58 (u : UniDB) (x : Str) : R Str := do
  vHex x
  let y ← pyInt u 16 x
  let output := b58Loop y.toNat y.toNat []
  pure output.reverse

/-- `base58_symbols.index(c)`: ValueError if absent. -/
def b58Index (c : Char) : R Nat :=
  match base58Symbols.idxOf? c with
  | some i => .ok i
  | none => .error .valueError

/-- The `for` loop of `base58_to_int` (basic.py:448-453); `t` is the running total. -/
def b58Sum : Str → Nat → R Nat
  | [], t => .ok t
  | c :: cs, t => do
    let value ← b58Index c
    b58Sum cs (t + value * 58 ^ cs.length)

/-- `base58_to_int` (basic.py:441-455). -/
def base58ToInt (s : Str) : R Int := do
  let t ← b58Sum s 0
  vPositiveInteger (.int t)

/-- `hex_to_base58check` (basic.py:430-436). -/
def hexToBase58check (X : Ext) (x : Str) : R Str := do
  let checksumHex ← getChecksum X x
  let x := x ++ checksumHex
  let xBase58 ← hexToBase58 X.uni x
  let n := countLeadingZeroBytes x
  pure (List.replicate n '1' ++ xBase58)

/-- `base58check_to_hex` (basic.py:398-425) on a string. -/
def base58checkToHex (X : Ext) (s : Str) : R Str := do
  let s2 := lstripC '1' s
  let count1 := s.length - s2.length
  let s3 ← base58ToInt s2
  let s4 ← intToHex s3
  let checksum := lastK 8 s4
  let s5 := dropLastK 8 s4
  let s6 := rep count1 py"00" ++ s5
  let checksumNew ← getChecksum X s6
  if checksum ≠ checksumNew then raise .valueError
  pure s6

/-- `bitcoin_address_to_public_key_hash_hex` (basic.py:383-393) on a string. -/
def addressToHash (X : Ext) (s : Str) : R Str := do
  let x ← base58checkToHex X s
  let y := x.take 2
  if y ≠ py"00" then raise .valueError
  let x := x.drop 2
  vHexLength x 20
  pure x

/-- `validate_bitcoin_address` (basic.py:377-378) on a string. -/
def vBitcoinAddress (X : Ext) (s : Str) : R Unit := do
  let _ ← addressToHash X s
  pure ()

/-- `validate_bitcoin_address` (basic.py:377-378, type check at 399) on any value. -/
def vBitcoinAddressP (X : Ext) (x : PVal) : R Str := do
  let s ← vString x
  vBitcoinAddress X s
  pure s

/-- `public_key_hash_hex_to_script_pub_key` (basic.py:359-372). -/
def hashToScriptPubKey (x : Str) : R (Str × Str) := do
  let scriptPubKey := py"76" ++ py"a9" ++ py"14" ++ x ++ py"88" ++ py"ac"
  let n ← hexLen scriptPubKey
  let scriptLength ← intToVarInt n
  pure (scriptPubKey, scriptLength)

/-- `address_to_script_pub_key` (basic.py:351-354). -/
def addressToScriptPubKey (X : Ext) (address : Str) : R (Str × Str) := do
  let h ← addressToHash X address
  hashToScriptPubKey h

/-- `public_key_hash_hex_to_address` (basic.py:217-222). -/
def hashToAddress (X : Ext) (h : Str) : R Str := hexToBase58check X (py"00" ++ h)

/-- `script_pub_key_to_address` (basic.py:190-194): bytes 3 up to the last two are taken
as a hash, without looking at the op codes. -/
def scriptPubKeyToAddress (X : Ext) (script : Str) : R Str :=
  hashToAddress X (slice script 6 (script.length - 4))

/-- `get_public_key_hash` (basic.py:235-243). -/
def getPublicKeyHash (X : Ext) (pk : Str) : R Str := do
  let b ← fromHex (py"04" ++ pk)
  let digest2 := X.ripemd160 (X.sha256 b)
  let h := bytesHex digest2
  vHexLength h 20
  pure h

/-- `public_key_hex_to_script_pub_key` (basic.py:227-230). -/
def publicKeyToScriptPubKey (X : Ext) (pk : Str) : R (Str × Str) := do
  let h ← getPublicKeyHash X pk
  hashToScriptPubKey h

/-- `public_key_hex_to_address` (basic.py:209-212). -/
def publicKeyToAddress (X : Ext) (pk : Str) : R Str := do
  let h ← getPublicKeyHash X pk
  hashToAddress X h

/-- `private_key_hex_to_public_key_hex` (basic.py:248-252). -/
def privateKeyToPublicKey (X : Ext) (k : Str) : R Str := do
  let k ← X.formatKey k
  X.validateKey k
  X.pubKey k

/-- `private_key_hex_to_address` (basic.py:199-204). -/
def privateKeyToAddress (X : Ext) (k : Str) : R Str := do
  let k ← X.formatKey k
  X.validateKey k
  let pk ← X.pubKey k
  publicKeyToAddress X pk

/-- `private_key_hex_to_wif` (basic.py:257-264). -/
def privateKeyToWif (X : Ext) (k : Str) : R Str := do
  let k ← X.formatKey k
  X.validateKey k
  hexToBase58check X (py"80" ++ k)

/-- `private_key_wif_to_hex` (basic.py:269-274): the first byte is dropped unseen. -/
def wifToPrivateKey (X : Ext) (w : Str) : R Str := do
  let k ← base58checkToHex X w
  let k := k.drop 2
  X.validateKey k
  pure k

/-- `script_sig_to_signature_hex_and_public_key_hex` (basic.py:279-307). -/
def scriptSigDecode (u : UniDB) (scriptSig : Str) : R (Str × Str) := do
  vHex scriptSig
  let b := slice scriptSig 0 2
  let n ← varIntToInt u b
  let m := n.toNat * 2 + 2
  let sig := slice scriptSig 2 m
  let _ ← hexLen sig
  let b := slice scriptSig m (m + 2)
  let n2 ← varIntToInt u b
  let m2 := m + 2 + n2.toNat * 2
  let pk := slice scriptSig (m + 2) m2
  let _ ← hexLen pk
  let b := lastK 2 sig
  if b ≠ py"01" then raise .valueError
  let sig := dropLastK 2 sig
  let _ ← hexLen sig
  let b := pk.take 2
  if b ≠ py"04" then raise .valueError
  let pk := pk.drop 2
  let _ ← hexLen pk
  pure (sig, pk)

/-- `signature_hex_and_public_key_hex_to_script_sig` (basic.py:312-346). -/
def scriptSigEncode (sig pk : Str) : R (Str × Str) := do
  vHex sig
  vHexLength pk 64
  let pk := py"04" ++ pk
  let _ ← hexLen pk
  let sigLen ← hexLen sig
  let sigPush ← intToVarInt sigLen
  let pkLen ← hexLen pk
  let pkPush ← intToVarInt pkLen
  let _ ← hexLen sigPush
  let _ ← hexLen pkPush
  let scriptSig := sigPush ++ sig ++ pkPush ++ pk
  let n ← hexLen scriptSig
  let scriptLength ← intToVarInt n
  let _ ← hexLen scriptLength
  pure (scriptSig, scriptLength)

/-- `verify_signature_digest` (basic.py:152-157).  `validate_hex(digest_hex, 64)` passes 64
as the variable *name*, so a non-hex digest raises AttributeError (from `name.split`). -/
def verifySignatureDigest (X : Ext) (pk digest sig : Str) : R Bool := do
  vHexLength pk 64
  if !(isHexStr digest) then raise .attributeError
  X.verifyDigest pk digest sig

/-- `verify_signature` (basic.py:162-167). -/
def verifySignature (X : Ext) (pk data sig : Str) : R Bool := do
  vHexLength pk 64
  vHex data
  vHexLength sig 64
  X.verifyData pk data sig

/-- `signature_to_der` (basic.py:137-147). -/
def signatureToDer (X : Ext) (sig : Str) : R Str := do
  let (rHex, sHex) ← X.splitRS sig
  let r ← pyInt X.uni 16 rHex
  let s ← pyInt X.uni 16 sHex
  let b ← X.derEncode r s
  pure (bytesHex b)

/-- `signature_from_der` (basic.py:116-132). -/
def signatureFromDer (X : Ext) (sig : Str) : R Str := do
  vHex sig
  let b ← fromHex sig
  let (r, s) ← X.derDecode b
  let rHex ← intToHex r
  let sHex ← intToHex s
  let rHex ← padHex rHex 32
  let sHex ← padHex sHex 32
  let out := rHex ++ sHex
  let _ ← hexLen out
  let _ ← hexLen rHex
  let _ ← hexLen sHex
  pure out

/-- `estimate_transaction_size` (basic.py:79-111). -/
def estimateTransactionSize (nInputs nOutputs : Int) : R Int := do
  let vi ← intToVarInt nInputs
  let inputCountBytes ← hexLen vi
  let inputsBytes := nInputs * (32 + 4 + 1 + 138 + 4)
  let vo ← intToVarInt nOutputs
  let outputCountBytes ← hexLen vo
  let outputsBytes := nOutputs * (8 + 1 + 25)
  pure (4 + (inputCountBytes : Int) + inputsBytes + (outputCountBytes : Int) + outputsBytes + 4)

end BT
