import Verif.Tx
import Verif.Spec

/-!
# Specification vocabulary for transaction objects

Relations between the attributes of the modelled objects and raw byte strings.
-/

namespace BT.Spec

/-- The input object refers to the outpoint of `r` and to the script `r.script` of the output
being spent (`r.script` with its length byte are the `script_pub_key` attributes). -/
structure SpendsRaw (i : TxIn) (r : RawIn) : Prop where
  hash : i.prevHash = hex r.hash
  index : i.prevIndex = hex r.index
  seq : i.sequence = py"ffffffff"
  spk : i.spk = some (hex r.script)
  spkLen : i.spkLen = some (hex [UInt8.ofNat r.script.length])

/-- The input object refers to the outpoint of `r` and carries the scriptSig `r.script`. -/
structure SignedRaw (i : TxIn) (r : RawIn) : Prop where
  hash : i.prevHash = hex r.hash
  index : i.prevIndex = hex r.index
  seq : i.sequence = py"ffffffff"
  sig : i.scriptSig = some (hex r.script)
  sigLen : i.scriptLen = some (hex [UInt8.ofNat r.script.length])

/-- The output object pays the value and script of `r`. -/
structure OutRaw (o : TxOut) (r : RawOut) : Prop where
  value : o.value = hex r.value
  spk : o.spk = hex r.script
  len : o.scriptLen = hex [UInt8.ofNat r.script.length]

/-- The fixed fields have their standard values and the counts are those of the lists. -/
structure Frame (t : Tx) : Prop where
  version : t.version = py"01000000"
  lock : t.lockTime = py"00000000"
  ht4 : t.hashType4 = py"01000000"
  ht1 : t.hashType1 = py"01"
  ic : t.inputCount = hex [UInt8.ofNat t.inputs.length]
  oc : t.outputCount = hex [UInt8.ofNat t.outputs.length]
  icl : t.inputs.length ≤ 252
  ocl : t.outputs.length ≤ 252

/-- Every input carries a scriptSig and its length. -/
def FullySigned (t : Tx) : Prop := ∀ i ∈ t.inputs, ∃ len sig, i.scriptLen = some len ∧ i.scriptSig = some sig

/-- The unsigned part of an input: everything except scriptSig and public key. -/
def unsignedPart (i : TxIn) : TxIn :=
  { i with scriptLen := none, scriptLenInt := .none, scriptSig := none, publicKey := none }

/-- `t` with the unsigned parts of its inputs. -/
def unsignedTx (t : Tx) : Tx := { t with inputs := t.inputs.map unsignedPart }

/-- a copy of an input without `public_key_hex` -/
def dropKey (i : TxIn) : TxIn := { i with publicKey := none }

/-- a copy of an input without the amounts (a serialised transaction does not contain them) -/
def forgetAmount (i : TxIn) : TxIn := { i with satoshi := none, bitcoin := none }

/-- A transaction put together (`Transaction.create`) from inputs and outputs made by
`TransactionInput.create` and `TransactionOutput.create`. -/
structure Created (X : Ext) (t : Tx) : Prop where
  frame : Frame t
  ins : ∀ i ∈ t.inputs, ∃ a txid idx sat, TxIn.create X a txid idx sat = .ok i
  outs : ∀ o ∈ t.outputs, ∃ a sat, TxOut.create X a sat = .ok o

end BT.Spec
