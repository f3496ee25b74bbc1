import Verif.Py

/-!
# SHA-256 and RIPEMD-160, executable in the kernel

These are *not* models of code in `/repo` (the submodules are absent); they are the
published algorithms (FIPS 180-4; Dobbertin, Bosselaers, Preneel 1996), used to build a
concrete `Ext` on which the model can be evaluated.
-/

namespace BT.Concrete

/-- Evaluate `n` to a literal before continuing (keeps kernel evaluation fast). -/
def forceN {α : Type} (n : Nat) (k : Nat → α) : α :=
  match n with
  | 0 => k 0
  | m + 1 => k (m + 1)

/-- Force all elements of a list. -/
def forceL {α : Type} : List Nat → (List Nat → α) → α
  | [], k => k []
  | x :: xs, k => forceN x fun x => forceL xs fun xs => k (x :: xs)

/-- Addition modulo 2^32. -/
def add32 (a b : Nat) : Nat := (a + b) % 4294967296

/-- Rotate a 32-bit word to the right. -/
def rotr (x n : Nat) : Nat := (x >>> n) ||| ((x <<< (32 - n)) % 4294967296)

/-- Rotate a 32-bit word to the left. -/
def rotl (x n : Nat) : Nat := ((x <<< n) % 4294967296) ||| (x >>> (32 - n))

/-- Complement of a 32-bit word. -/
def not32 (x : Nat) : Nat := 4294967295 - x

/-- Big-endian word of four bytes. -/
def wordBE : List Nat → Nat
  | [a, b, c, d] => ((a * 256 + b) * 256 + c) * 256 + d
  | _ => 0

/-- Little-endian word of four bytes. -/
def wordLE : List Nat → Nat
  | [a, b, c, d] => ((d * 256 + c) * 256 + b) * 256 + a
  | _ => 0

/-- Split a list into pieces of `n` elements (`fuel` pieces at most). -/
def pieces {α : Type} (n : Nat) : Nat → List α → List (List α)
  | 0, _ => []
  | fuel + 1, l => match l with
    | [] => []
    | _ => l.take n :: pieces n fuel (l.drop n)

/-- The padding of SHA-256 and RIPEMD-160 without the length: 0x80 and zeros. -/
def padZeros (len : Nat) : List Nat := 128 :: List.replicate ((119 - len % 64) % 64) 0

/-- `k` big-endian bytes of `n`. -/
def beBytes : Nat → Nat → List Nat
  | 0, _ => []
  | k + 1, n => beBytes k (n / 256) ++ [n % 256]

/-- SHA-256 round constants. -/
def shaK : List Nat := [
  0x428a2f98,0x71374491,0xb5c0fbcf,0xe9b5dba5,0x3956c25b,0x59f111f1,0x923f82a4,0xab1c5ed5,
  0xd807aa98,0x12835b01,0x243185be,0x550c7dc3,0x72be5d74,0x80deb1fe,0x9bdc06a7,0xc19bf174,
  0xe49b69c1,0xefbe4786,0x0fc19dc6,0x240ca1cc,0x2de92c6f,0x4a7484aa,0x5cb0a9dc,0x76f988da,
  0x983e5152,0xa831c66d,0xb00327c8,0xbf597fc7,0xc6e00bf3,0xd5a79147,0x06ca6351,0x14292967,
  0x27b70a85,0x2e1b2138,0x4d2c6dfc,0x53380d13,0x650a7354,0x766a0abb,0x81c2c92e,0x92722c85,
  0xa2bfe8a1,0xa81a664b,0xc24b8b70,0xc76c51a3,0xd192e819,0xd6990624,0xf40e3585,0x106aa070,
  0x19a4c116,0x1e376c08,0x2748774c,0x34b0bcb5,0x391c0cb3,0x4ed8aa4a,0x5b9cca4f,0x682e6ff3,
  0x748f82ee,0x78a5636f,0x84c87814,0x8cc70208,0x90befffa,0xa4506ceb,0xbef9a3f7,0xc67178f2]

/-- SHA-256 initial state. -/
def shaInit : List Nat := [0x6a09e667,0xbb67ae85,0x3c6ef372,0xa54ff53a,
  0x510e527f,0x9b05688c,0x1f83d9ab,0x5be0cd19]

/-- Next word of the message schedule from the last 16. -/
def shaNextW : List Nat → Nat
  | [w0, w1, _, _, _, _, _, _, _, w9, _, _, _, _, w14, _] =>
    let s0 := rotr w1 7 ^^^ rotr w1 18 ^^^ (w1 >>> 3)
    let s1 := rotr w14 17 ^^^ rotr w14 19 ^^^ (w14 >>> 10)
    (w0 + s0 + w9 + s1) % 4294967296
  | _ => 0

/-- The 64 rounds: remaining round constants, 16-word window, state. -/
def shaRounds : List Nat → List Nat → List Nat → List Nat
  | k :: ks, w, [a, b, c, d, e, f, g, h] =>
    let S1 := rotr e 6 ^^^ rotr e 11 ^^^ rotr e 25
    let ch := (e &&& f) ^^^ (not32 e &&& g)
    let t1 := (h + S1 + ch + k + w.headD 0) % 4294967296
    let S0 := rotr a 2 ^^^ rotr a 13 ^^^ rotr a 22
    let maj := (a &&& b) ^^^ (a &&& c) ^^^ (b &&& c)
    forceN t1 fun t1 =>
    forceN (add32 t1 (S0 + maj)) fun a' =>
    forceN (add32 d t1) fun e' =>
    forceN (shaNextW w) fun nw =>
    shaRounds ks (w.tail ++ [nw]) [a', a, b, c, e', e, f, g]
  | _, _, st => st

/-- One compression: state and a block of 64 bytes. -/
def shaBlock (st : List Nat) (block : List Nat) : List Nat :=
  forceL ((pieces 4 16 block).map wordBE) fun w =>
  forceL (List.zipWith add32 st (shaRounds shaK w st)) id

/-- SHA-256 on byte values. -/
def shaNat (m : List Nat) : List Nat :=
  let p := m ++ padZeros m.length ++ beBytes 8 (8 * m.length)
  let st := (pieces 64 p.length p).foldl shaBlock shaInit
  st.flatMap (beBytes 4)

/-- SHA-256; the result is cut or padded to 32 bytes, which never changes it. -/
def sha256 (b : Bytes) : Bytes :=
  (((shaNat (b.map UInt8.toNat)).map UInt8.ofNat) ++ List.replicate 32 0).take 32

/-- Message word order, left line (RIPEMD-160). -/
def rmR : List Nat := [
  0,1,2,3,4,5,6,7,8,9,10,11,12,13,14,15, 7,4,13,1,10,6,15,3,12,0,9,5,2,14,11,8,
  3,10,14,4,9,15,8,1,2,7,0,6,13,11,5,12, 1,9,11,10,0,8,12,4,13,3,7,15,14,5,6,2,
  4,0,5,9,7,12,2,10,14,1,3,8,11,6,15,13]
/-- Message word order, right line. -/
def rmR' : List Nat := [
  5,14,7,0,9,2,11,4,13,6,15,8,1,10,3,12, 6,11,3,7,0,13,5,10,14,15,8,12,4,9,1,2,
  15,5,1,3,7,14,6,9,11,8,12,2,10,0,4,13, 8,6,4,1,3,11,15,0,5,12,2,13,9,7,10,14,
  12,15,10,4,1,5,8,7,6,2,13,14,0,3,9,11]
/-- Rotations, left line. -/
def rmS : List Nat := [
  11,14,15,12,5,8,7,9,11,13,14,15,6,7,9,8, 7,6,8,13,11,9,7,15,7,12,15,9,11,7,13,12,
  11,13,6,7,14,9,13,15,14,8,13,6,5,12,7,5, 11,12,14,15,14,15,9,8,9,14,5,6,8,6,5,12,
  9,15,5,11,6,8,13,12,5,12,13,14,11,8,5,6]
/-- Rotations, right line. -/
def rmS' : List Nat := [
  8,9,9,11,13,15,15,5,7,7,8,11,14,14,12,6, 9,13,15,7,12,8,9,11,7,7,12,7,6,15,13,11,
  9,7,15,11,8,6,6,14,12,13,5,14,13,13,7,5, 15,5,8,11,14,14,6,14,6,9,12,9,12,5,15,8,
  8,5,12,9,12,5,14,6,8,13,6,5,15,13,11,11]

/-- RIPEMD-160 boolean functions by round number 0..4. -/
def rmF (j x y z : Nat) : Nat :=
  if j = 0 then x ^^^ y ^^^ z
  else if j = 1 then (x &&& y) ||| (not32 x &&& z)
  else if j = 2 then (x ||| not32 y) ^^^ z
  else if j = 3 then (x &&& z) ||| (y &&& not32 z)
  else x ^^^ (y ||| not32 z)

/-- One line (left or right) of RIPEMD-160: step number, word order, rotations, state. -/
def rmLine (X : List Nat) (f : Nat → Nat) (K : List Nat) :
    Nat → List Nat → List Nat → List Nat → List Nat
  | n, r :: rs, s :: ss, [a, b, c, d, e] =>
    forceN (n / 16) fun j =>
    let t := (a + rmF (f j) b c d + X.getD r 0 + K.getD j 0) % 4294967296
    forceN t fun t =>
    forceN (add32 (rotl t s) e) fun t =>
    forceN (rotl c 10) fun c' =>
    forceN (n + 1) fun n' =>
    rmLine X f K n' rs ss [e, t, b, c', d]
  | _, _, _, st => st

/-- One compression of RIPEMD-160. -/
def rmBlock (st : List Nat) (block : List Nat) : List Nat :=
  forceL ((pieces 4 16 block).map wordLE) fun X =>
  let l := rmLine X id [0, 0x5a827999, 0x6ed9eba1, 0x8f1bbcdc, 0xa953fd4e] 0 rmR rmS st
  let r := rmLine X (fun j => 4 - j) [0x50a28be6, 0x5c4dd124, 0x6d703ef3, 0x7a6d76e9, 0] 0 rmR' rmS' st
  match st, l, r with
  | [h0, h1, h2, h3, h4], [a, b, c, d, e], [a', b', c', d', e'] =>
    forceL [(h1 + c + d') % 4294967296, (h2 + d + e') % 4294967296, (h3 + e + a') % 4294967296,
      (h4 + a + b') % 4294967296, (h0 + b + c') % 4294967296] id
  | _, _, _ => st

/-- RIPEMD-160 on byte values. -/
def rmNat (m : List Nat) : List Nat :=
  let p := m ++ padZeros m.length ++ (beBytes 8 (8 * m.length)).reverse
  let st := (pieces 64 p.length p).foldl rmBlock
    [0x67452301, 0xefcdab89, 0x98badcfe, 0x10325476, 0xc3d2e1f0]
  st.flatMap fun w => (beBytes 4 w).reverse

/-- RIPEMD-160; the result is cut or padded to 20 bytes, which never changes it. -/
def ripemd160 (b : Bytes) : Bytes :=
  (((rmNat (b.map UInt8.toNat)).map UInt8.ofNat) ++ List.replicate 20 0).take 20

theorem sha256_length (b : Bytes) : (sha256 b).length = 32 := by
  simp [sha256]

theorem ripemd160_length (b : Bytes) : (ripemd160 b).length = 20 := by
  simp [ripemd160]

/-- test: SHA-256 of "abc" -/
example : bytesHex (sha256 [97, 98, 99]) =
    py"ba7816bf8f01cfea414140de5dae2223b00361a396177a9cb410ff61f20015ad" := by decide +kernel

/-- test: RIPEMD-160 of "abc" -/
example : bytesHex (ripemd160 [97, 98, 99]) = py"8eb208f7e05d987a9b044a8e98c6b087f15a0bfc" := by
  decide +kernel

end BT.Concrete
