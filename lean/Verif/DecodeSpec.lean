import Verif.TxSpec
import Verif.Tx

/-!
# Specification vocabulary: a transaction that is cut off (C143)
-/

namespace BT.Spec

/-- The call returns a value or raises a ValueError, nothing else. -/
def OnlyValueError {α : Type} (x : R α) : Prop := (∃ a, x = .ok a) ∨ x = .error .valueError

/-- An input as it is accepted by the decoder: a signature and an uncompressed public key can be read from its script. -/
def GoodIn (X : Ext) (r : RawIn) : Prop :=
  r.Ok ∧ ∃ d p : Bytes, p.length = 64 ∧ scriptSigDecode X.uni (hex r.script) = .ok (hex d, hex p)

/-- An output as it is accepted by the decoder. -/
def GoodOut (r : RawOut) : Prop := r.Ok ∧ leNat r.value ≤ maxMoney

/-- The beginning of a transaction that ends before one of the single bytes that say how many inputs or outputs, or how many bytes of a script follow;
everything before is as it should be. -/
inductive CutOff (X : Ext) : Bytes → Prop
  /-- the number of inputs is missing -/
  | inputCount : CutOff X [1, 0, 0, 0]
  /-- an input is missing, or cut off before the length of its script -/
  | input (ins : List RawIn) (n : Nat) (part : Bytes) (hn : n ≤ 252) (hl : ins.length < n) (hg : ∀ r ∈ ins, GoodIn X r) (hp : part.length ≤ 36) :
      CutOff X ([1, 0, 0, 0] ++ [UInt8.ofNat n] ++ ins.flatMap RawIn.bytes ++ part)
  /-- the number of outputs is missing -/
  | outputCount (ins : List RawIn) (hl : ins.length ≤ 252) (hg : ∀ r ∈ ins, GoodIn X r) :
      CutOff X ([1, 0, 0, 0] ++ [UInt8.ofNat ins.length] ++ ins.flatMap RawIn.bytes)
  /-- an output is cut off in its value or just before the length of its script -/
  | output (ins : List RawIn) (outs : List RawOut) (n : Nat) (part : Bytes) (hi : ins.length ≤ 252) (hg : ∀ r ∈ ins, GoodIn X r) (hn : n ≤ 252)
      (hl : outs.length < n) (ho : ∀ r ∈ outs, GoodOut r) (hp : 1 ≤ part.length ∧ part.length ≤ 8) (hv : leNat part ≤ maxMoney) :
      CutOff X ([1, 0, 0, 0] ++ [UInt8.ofNat ins.length] ++ ins.flatMap RawIn.bytes ++ [UInt8.ofNat n] ++ outs.flatMap RawOut.bytes ++ part)

end BT.Spec
