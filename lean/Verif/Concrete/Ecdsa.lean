import Verif.Concrete.Hash
import Verif.Ext

/-!
# secp256k1 ECDSA with RFC 6979 nonces and DER, executable in the kernel

Not a model of code in `/repo` (the ECDSA submodule is absent): the published algorithms
(SEC 1/2, RFC 6979, X.690), used only to evaluate the model on the test vectors of `/repo`.
-/

namespace BT.Concrete

/-- Field prime of secp256k1. -/
def pP : Nat := 0xfffffffffffffffffffffffffffffffffffffffffffffffffffffffefffffc2f
/-- Group order of secp256k1. -/
def nP : Nat := 0xfffffffffffffffffffffffffffffffebaaedce6af48a03bbfd25e8cd0364141
/-- Generator, x. -/
def gX : Nat := 0x79be667ef9dcbbac55a06295ce870b07029bfcdb2dce28d959f2815b16f81798
/-- Generator, y. -/
def gY : Nat := 0x483ada7726a3c4655da4fbfc0e1108a8fd17b448a68554199c47d08ffb10d4b8

/-- Bits of `n`, most significant first, exactly `k` of them. -/
def bitsMSB : Nat → Nat → List Bool
  | 0, _ => []
  | k + 1, n => n.testBit k :: bitsMSB k n

/-- `b ^ e mod m` by square and multiply over the bits of `e`. -/
def powModLoop (b m : Nat) : List Bool → Nat → Nat
  | [], acc => acc
  | bit :: bs, acc =>
    forceN (acc * acc % m) fun a =>
    if bit then forceN (a * b % m) fun a => powModLoop b m bs a else powModLoop b m bs a

/-- Modular inverse by Fermat's little theorem. -/
def invMod (a m : Nat) : Nat := powModLoop (a % m) m (bitsMSB 256 (m - 2)) 1

/-- Subtraction modulo `pP`. -/
def subP (a b : Nat) : Nat := (a + pP - b) % pP

/-- Jacobian point; `z = 0` is the point at infinity. -/
abbrev Jac := Nat × Nat × Nat

/-- Doubling. -/
def jDouble : Jac → Jac
  | (x, y, z) =>
    forceN (y * y % pP) fun y2 =>
    forceN (4 * x * y2 % pP) fun s =>
    forceN (3 * x * x % pP) fun m =>
    forceN (subP (m * m % pP) (2 * s % pP)) fun x' =>
    forceN (subP (m * subP s x' % pP) (8 * y2 * y2 % pP)) fun y' =>
    forceN (2 * y * z % pP) fun z' => (x', y', z')

/-- Addition of an affine point. -/
def jAddAffine : Jac → Nat → Nat → Jac
  | (x1, y1, z1), x2, y2 =>
    if z1 = 0 then (x2, y2, 1) else
    forceN (z1 * z1 % pP) fun zz =>
    forceN (x2 * zz % pP) fun u2 =>
    forceN (y2 * zz % pP * z1 % pP) fun s2 =>
    if u2 = x1 then
      (if s2 = y1 then jDouble (x1, y1, z1) else (1, 1, 0))
    else
    forceN (subP u2 x1) fun h =>
    forceN (subP s2 y1) fun r =>
    forceN (h * h % pP) fun hh =>
    forceN (hh * h % pP) fun hhh =>
    forceN (x1 * hh % pP) fun v =>
    forceN (subP (subP (r * r % pP) hhh) (2 * v % pP)) fun x3 =>
    forceN (subP (r * subP v x3 % pP) (y1 * hhh % pP)) fun y3 =>
    forceN (z1 * h % pP) fun z3 => (x3, y3, z3)

/-- Double-and-add loop. -/
def mulLoop (x y : Nat) : List Bool → Jac → Jac
  | [], acc => acc
  | bit :: bs, acc =>
    match jDouble acc with
    | (a, b, c) => if bit then mulLoop x y bs (jAddAffine (a, b, c) x y) else mulLoop x y bs (a, b, c)

/-- Affine coordinates; `none` at infinity. -/
def toAffine : Jac → Option (Nat × Nat)
  | (x, y, z) =>
    if z = 0 then none else
    forceN (invMod z pP) fun zi =>
    forceN (zi * zi % pP) fun z2 => some (x * z2 % pP, y * z2 % pP * zi % pP)

/-- Scalar multiplication of an affine point. -/
def ecMul (k x y : Nat) : Option (Nat × Nat) := toAffine (mulLoop x y (bitsMSB 256 k) (1, 1, 0))

/-- Sum of two affine points. -/
def ecAdd (a b : Option (Nat × Nat)) : Option (Nat × Nat) :=
  match a, b with
  | none, b => b
  | a, none => a
  | some (x1, y1), some (x2, y2) => toAffine (jAddAffine (x1, y1, 1) x2 y2)

/-- HMAC-SHA256 on byte values (keys of at most 64 bytes). -/
def hmac (key msg : List Nat) : List Nat :=
  let k := key ++ List.replicate (64 - key.length) 0
  shaNat (k.map (· ^^^ 92) ++ shaNat (k.map (· ^^^ 54) ++ msg))

/-- Big-endian number of a list of byte values. -/
def ofBE (l : List Nat) : Nat := valBE 256 l

/-- RFC 6979 candidate loop. -/
def rfcLoop : Nat → List Nat → List Nat → Nat
  | 0, _, _ => 0
  | fuel + 1, K, V =>
    forceL (hmac K V) fun V =>
    let k := ofBE V
    if 0 < k ∧ k < nP then k
    else forceL (hmac K (V ++ [0])) fun K => forceL (hmac K V) fun V => rfcLoop fuel K V

/-- RFC 6979 nonce for private key `d` and digest bytes `h`. -/
def rfcNonce (d : Nat) (h : List Nat) : Nat :=
  let x := beBytes 32 d
  let z := beBytes 32 (ofBE h % nP)
  let V := List.replicate 32 1
  let K := List.replicate 32 0
  forceL (hmac K (V ++ [0] ++ x ++ z)) fun K =>
  forceL (hmac K V) fun V =>
  forceL (hmac K (V ++ [1] ++ x ++ z)) fun K =>
  forceL (hmac K V) fun V => rfcLoop 100 K V

/-- Hex of a number, 32 bytes. -/
def hex32 (n : Nat) : Str := bytesHex ((beBytes 32 n).map UInt8.ofNat)

/-- Number of a hex string. -/
def ofHex (s : Str) : Nat := valBE 16 (s.filterMap hexVal)

/-- Low-s ECDSA signature as 64 bytes of hex. -/
def ecSign (d z k : Nat) : R Str :=
  match ecMul (k % nP) gX gY with
  | none => .error .valueError
  | some (x, _) =>
    forceN (x % nP) fun r =>
    forceN (invMod k nP * ((z + r * d) % nP) % nP) fun s =>
    let s := if s > nP / 2 then nP - s else s
    if r = 0 ∨ s = 0 then .error .valueError else .ok (hex32 r ++ hex32 s)

/-- ECDSA verification, refusing high s and points that are not on the curve. -/
def ecVerify (pk : Str) (z : Nat) (sig : Str) : Bool :=
  let x := ofHex (pk.take 64)
  let y := ofHex (pk.drop 64)
  forceN (ofHex (sig.take 64)) fun r =>
  forceN (ofHex (sig.drop 64)) fun s =>
  if r = 0 ∨ r ≥ nP ∨ s = 0 ∨ s > nP / 2 then false
  else if x ≥ pP ∨ y ≥ pP ∨ (y * y) % pP ≠ (x * x * x + 7) % pP then false
  else
    forceN (invMod s nP) fun w =>
    match ecAdd (ecMul (z * w % nP) gX gY) (ecMul (r * w % nP) x y) with
    | none => false
    | some (px, _) => px % nP == r

/-- DER integer: minimal big-endian bytes with a leading zero when the top bit is set. -/
def derInt (n : Nat) : List Nat :=
  let b := if n = 0 then [0] else (Nat.digits 256 n).reverse
  let b := if 128 ≤ b.headD 0 then 0 :: b else b
  2 :: b.length :: b

/-- DER encoding of (r, s) with one-byte lengths. -/
def derEnc (r s : Int) : R Bytes :=
  if r < 0 ∨ s < 0 ∨ 2 ^ 256 ≤ r ∨ 2 ^ 256 ≤ s then .error .assertionError
  else
    let body := derInt r.toNat ++ derInt s.toNat
    .ok ((48 :: body.length :: body).map UInt8.ofNat)

/-- Read one DER integer. -/
def derReadInt : List Nat → Option (Nat × List Nat)
  | 2 :: len :: rest =>
    if len = 0 ∨ rest.length < len then none
    else some (ofBE (rest.take len), rest.drop len)
  | _ => none

/-- DER decoding of a signature. -/
def derDec (b : Bytes) : R (Int × Int) :=
  match b.map UInt8.toNat with
  | 48 :: len :: rest =>
    if rest.length ≠ len then .error .valueError
    else match derReadInt rest with
      | none => .error .valueError
      | some (r, rest) => match derReadInt rest with
        | some (s, []) => .ok ((r : Int), (s : Int))
        | _ => .error .valueError
  | _ => .error .valueError

/-- `format_private_key_hex` as the README shows it ("01" is accepted): left-pad to 64. -/
def fmtKey (k : Str) : R Str :=
  if isHexStr k && k.length ≤ 64 then .ok (List.replicate (64 - k.length) '0' ++ k) else .error .valueError

/-- 64 hex characters with a value in `[1, n-1]`. -/
def valKey (k : Str) : R Unit :=
  if isHexStr k && k.length == 64 && 0 < ofHex k && ofHex k < nP then .ok () else .error .valueError

/-- Public key of a private key. -/
def pubOf (k : Str) : R Str :=
  match ecMul (ofHex k) gX gY with
  | some (x, y) => .ok (hex32 x ++ hex32 y)
  | none => .error .valueError

/-- Split a 64-byte signature. -/
def splitSig (s : Str) : R (Str × Str) :=
  if isHexStr s && s.length == 128 then .ok (s.take 64, s.drop 64) else .error .valueError

/-- A few rows of the Unicode data base: Arabic-Indic digits U+0660-0669, superscript two,
no-break space. -/
def uniSample : UniDB where
  decimal c := if h : 0x660 ≤ c.toNat ∧ c.toNat ≤ 0x669 then
    some ⟨c.toNat - 0x660, by omega⟩ else none
  otherDigit c := c.toNat == 0xb2
  space c := c.toNat == 0xa0
  digit_not_space c h := by
    simp only [beq_iff_eq, beq_eq_false_iff_ne] at *
    omega

/-- A concrete external environment with real cryptography, for evaluating the model. -/
def Xreal : Ext where
  uni := uniSample
  sha256 := sha256
  ripemd160 := ripemd160
  formatKey := fmtKey
  validateKey := valKey
  pubKey := pubOf
  signDet k d := ecSign (ofHex k) (ofHex d) (rfcNonce (ofHex k) (beBytes 32 (ofHex d)))
  signRand k d v := ecSign (ofHex k) (ofHex d) (ofHex v)
  verifyDigest p d s := .ok (ecVerify p (ofHex d) s)
  signData k d := do
    let b ← fromHex d
    let h := (sha256 b).map UInt8.toNat
    ecSign (ofHex k) (ofBE h) (rfcNonce (ofHex k) h)
  verifyData p d s := do
    let b ← fromHex d
    pure (ecVerify p (ofBE ((sha256 b).map UInt8.toNat)) s)
  splitRS := splitSig
  derEncode := derEnc
  derDecode := derDec
  floatRepr _ := py"0.0"

/-- test (README.md): public key of private key 1 -/
example : pubOf (hex32 1) = .ok (hex32 gX ++ hex32 gY) := by decide +kernel

end BT.Concrete
