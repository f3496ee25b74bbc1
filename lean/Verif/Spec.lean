import Verif.Py

/-!
# Specification vocabulary

Definitions used to *state* the properties.  Nothing here is used by the model of the code
(and nothing here refers to it beyond the basic types `Str`, `Bytes`): they are the
textbook notions a reader needs in order to compare a theorem with its English property.
-/

namespace BT.Spec

/-- The lower-case hexadecimal digits in order. -/
def hexDigits : Str :=
  ['0','1','2','3','4','5','6','7','8','9','a','b','c','d','e','f']

/-- An even-length string of lower-case hexadecimal digits. -/
def IsHex (s : Str) : Prop := s.length % 2 = 0 ∧ ∀ c ∈ s, c ∈ hexDigits

/-- The two hexadecimal digits of one byte. -/
def hexByte (x : UInt8) : Str :=
  [hexDigits.getD (x.toNat / 16) '?', hexDigits.getD (x.toNat % 16) '?']

/-- The hexadecimal text of a byte string. -/
def hex (b : Bytes) : Str := b.flatMap hexByte

/-- The number denoted by a byte string, most significant byte first. -/
def beNat : Bytes → Nat
  | [] => 0
  | x :: r => x.toNat * 256 ^ r.length + beNat r

/-- The number denoted by a byte string, least significant byte first. -/
def leNat : Bytes → Nat
  | [] => 0
  | x :: r => x.toNat + 256 * leNat r

end BT.Spec

namespace BT.Spec

/-! ## Base58 -/

/-- The base58 alphabet in order of digit value. -/
def alphabet58 : Str :=
  ['1','2','3','4','5','6','7','8','9','A','B','C','D','E','F','G','H','J','K','L','M','N','P',
   'Q','R','S','T','U','V','W','X','Y','Z','a','b','c','d','e','f','g','h','i','j','k','m','n',
   'o','p','q','r','s','t','u','v','w','x','y','z']

/-- Digit value of a base58 character. -/
def digit58 (c : Char) : Nat := alphabet58.idxOf c

/-- Positional value of a base58 string, most significant digit first. -/
def value58 : Str → Nat
  | [] => 0
  | c :: cs => digit58 c * 58 ^ cs.length + value58 cs

/-- `f` is the byte string denoted by the base58 string `s`: one zero byte for each leading
'1', then the minimal big-endian bytes of the value. -/
def Denotes58 (s : Str) (f : Bytes) : Prop :=
  (∀ c ∈ s, c ∈ alphabet58) ∧
  ∃ m : Bytes, f = List.replicate (s.takeWhile (· == '1')).length 0 ++ m ∧
    m.head? ≠ some 0 ∧ beNat m = value58 s

/-- First four bytes of the double SHA-256. -/
def checksum (sha : Bytes → Bytes) (p : Bytes) : Bytes := (sha (sha p)).take 4

/-! ## Scripts -/

/-- The pay-to-public-key-hash script: OP_DUP OP_HASH160 push(20) hash OP_EQUALVERIFY
OP_CHECKSIG. -/
def p2pkh (h : Bytes) : Bytes := [0x76, 0xa9, 0x14] ++ h ++ [0x88, 0xac]

end BT.Spec

namespace BT.Spec

/-! ## Decimal amounts -/

/-- The number written by a string of decimal digits (ASCII or other Unicode decimal digits;
`decVal` is Python's digit value), most significant digit first. -/
def numeral (u : UniDB) : Str → Nat
  | [] => 0
  | c :: cs => (decVal u c).getD 0 * 10 ^ cs.length + numeral u cs

/-- `s` is a decimal amount in bitcoin worth exactly `sat` satoshi: decimal digits with at
most one point, at least one digit and at most 8 digits after the point. -/
def AmountOf (u : UniDB) (s : Str) (sat : Nat) : Prop :=
  ∃ ip fp : Str, (s = ip ++ '.' :: fp ∨ (s = ip ∧ fp = [])) ∧ ip ++ fp ≠ [] ∧ fp.length ≤ 8 ∧
    (∀ c ∈ ip ++ fp, (decVal u c).isSome = true) ∧
    sat = numeral u (ip ++ fp) * 10 ^ (8 - fp.length)

/-- The ASCII decimal digits. -/
def digits10 : Str := ['0','1','2','3','4','5','6','7','8','9']

/-- 21 million bitcoin in satoshi. -/
def maxMoney : Nat := 2100000000000000

/-- All characters are ASCII. -/
def Ascii (s : Str) : Prop := ∀ c ∈ s, c.toNat < 128

end BT.Spec

namespace BT.Spec

/-! ## Addresses -/

/-- `a` is the mainnet P2PKH address of the 20-byte hash `h`: version byte 0, hash, checksum. -/
def AddressOf (sha : Bytes → Bytes) (a : Str) (h : Bytes) : Prop :=
  h.length = 20 ∧ Denotes58 a ((0 :: h) ++ checksum sha (0 :: h))

end BT.Spec

namespace BT.Spec

/-! ## Raw transactions -/

/-- The bytes of a transaction input: outpoint (hash, index) and script. -/
structure RawIn where
  hash : Bytes
  index : Bytes
  script : Bytes
  deriving DecidableEq

/-- The bytes of a transaction output: 8-byte value and script. -/
structure RawOut where
  value : Bytes
  script : Bytes
  deriving DecidableEq

/-- 32-byte hash, 4-byte index, script of at most 252 bytes (one-byte length). -/
def RawIn.Ok (r : RawIn) : Prop := r.hash.length = 32 ∧ r.index.length = 4 ∧ r.script.length ≤ 252

/-- 8-byte value, script of at most 252 bytes. -/
def RawOut.Ok (r : RawOut) : Prop := r.value.length = 8 ∧ r.script.length ≤ 252

/-- hash, index, script length, script, sequence ffffffff -/
def RawIn.bytes (r : RawIn) : Bytes :=
  r.hash ++ r.index ++ [UInt8.ofNat r.script.length] ++ r.script ++ [0xff, 0xff, 0xff, 0xff]

/-- value, script length, script -/
def RawOut.bytes (r : RawOut) : Bytes := r.value ++ [UInt8.ofNat r.script.length] ++ r.script

/-- The Bitcoin serialisation of a version-1 transaction with lock time 0: version, input
count, inputs, output count, outputs, lock time. -/
def txBytes (ins : List RawIn) (outs : List RawOut) : Bytes :=
  [1, 0, 0, 0] ++ [UInt8.ofNat ins.length] ++ ins.flatMap RawIn.bytes ++
  [UInt8.ofNat outs.length] ++ outs.flatMap RawOut.bytes ++ [0, 0, 0, 0]

/-- The inputs with all scripts removed except that of input `idx`. -/
def keepOnly (idx : Nat) (ins : List RawIn) : List RawIn :=
  ins.mapIdx fun j r => if j = idx then r else { r with script := [] }

end BT.Spec
