import Verif.Concrete.Curve
import Verif.EndSpec

/-!
# When a script unlocks a pay-to-public-key-hash coin, in published terms

DER as in BIP 66, ECDSA as in SEC 1 over the curve secp256k1.  The curve `curve` (y² = x³ + 7 over
the integers modulo `pP`), its points and their addition are Mathlib's; `G` is the generator, `nP`
its order.
-/

namespace BT.Spec
open BT.Concrete WeierstrassCurve

/-- `b` is the DER form of the integer `n`: type 2, length, the bytes of the number; the first bit
is not set (the number is not negative) and a zero byte stands in front only where it is needed for
that. -/
def DerInteger (n : Nat) (b : Bytes) : Prop :=
  ∃ x c, b = 2 :: UInt8.ofNat (c.length + 1) :: x :: c ∧ c.length ≤ 32 ∧ beNat (x :: c) = n ∧ x.toNat < 128 ∧
    (x = 0 → ∀ y ∈ c.head?, 128 ≤ y.toNat)

/-- `b` is the DER form of the signature (`r`, `s`). -/
def DerSignature (r s : Nat) (b : Bytes) : Prop :=
  ∃ br bs, DerInteger r br ∧ DerInteger s bs ∧ b = 48 :: UInt8.ofNat (br.length + bs.length) :: (br ++ bs) ∧
    br.length + bs.length < 128

/-- The 64 bytes `pk` are the two coordinates of the point `Q`. -/
def KeyBytes (pk : Bytes) (Q : curve.Point) : Prop :=
  pk.length = 64 ∧ beNat (pk.take 32) < pP ∧ beNat (pk.drop 32) < pP ∧
    ∃ h, Q = .some ((beNat (pk.take 32) : Nat) : Fp) ((beNat (pk.drop 32) : Nat) : Fp) h

/-- (`r`, `s`) is an ECDSA signature of the number `z` under the public key `Q`. -/
def EcdsaValid (Q : curve.Point) (z r s : Nat) : Prop :=
  1 ≤ r ∧ r < nP ∧ 1 ≤ s ∧ s < nP ∧
  ∃ (w : Nat) (x y : Fp) (h : curve.Nonsingular x y), w * s % nP = 1 ∧
    (z * w % nP) • G + (r * w % nP) • Q = .some x y h ∧ x.val % nP = r

/-- The script unlocks a coin of `owner` in a transaction with signed message `msg`, as a Bitcoin
node decides it (standard transactions: strict DER, low s). -/
def ValidSpend (owner msg script : Bytes) : Prop :=
  ∃ (der pk : Bytes) (r s : Nat) (Q : curve.Point),
    script = [UInt8.ofNat (der.length + 1)] ++ der ++ [1] ++ [65, 4] ++ pk ∧ der.length ≤ 72 ∧
    DerSignature r s der ∧ KeyBytes pk Q ∧ ripemd160 (sha256 (4 :: pk)) = owner ∧
    EcdsaValid Q (beNat (sha256 (sha256 msg))) r s ∧ 2 * s ≤ nP

end BT.Spec
