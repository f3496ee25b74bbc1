import Verif.TxLog

/-!
# Vocabulary for the statements about logs
-/

namespace BT.Lg

/-- The result of a run: the value, or the class of the exception. -/
def W.outcome {α : Type} (m : W α) : R α :=
  match m.res with
  | .ok a => .ok a
  | .error e => .error e.1

/-- The text of the exception that ends a run, where it is modelled. -/
def W.complaint {α : Type} (m : W α) : Option Str :=
  match m.res with
  | .ok _ => none
  | .error e => e.2

/-- The printed texts, in order. -/
def prints : List Ev → List Str
  | [] => []
  | .print s :: r => s :: prints r
  | .log _ _ _ :: r => prints r

/-- The logged records, in order: logger, level, text. -/
def records : List Ev → List (Str × Nat × Str)
  | [] => []
  | .print _ :: r => records r
  | .log l n s :: r => (l, n, s) :: records r

/-- The texts of the records of level at least `lev`: what a console handler shows when logger and handler have level
`lev` (`C120_console` in Props/TxLog2.lean proves it of the configured loggers). -/
def visible (lev : Nat) (ev : List Ev) : List Str :=
  ((records ev).filter fun r => lev ≤ r.2.1).map fun r => r.2.2

/-- What a task shows on standard output, and its outcome. -/
def W.out (m : W Unit) : CliOut := (prints m.ev, m.outcome)

end BT.Lg

/-! ## The texts of the log, from the values they report -/

namespace BT.Spec
open Lg (Ev)

/-- "what (n bytes)sep x", where `n` is the number of bytes of the hex text `x` -/
def withSize (what sep x : Str) : Str := what ++ py" (" ++ pyStr ((x.length / 2 : Nat) : Int) ++ py" bytes)" ++ sep ++ x

/-- "i of n", counting from one -/
def nth (j n : Nat) : Str := pyStr (j + 1 : Nat) ++ py" of " ++ pyStr n

/-- the records for a scriptSig that contains the DER signature `der` and the public key `pk` -/
def scriptSigLog (der pk : Str) : List Ev := [
  .log py"bitcoin_toolset.code.basic" 10
    (withSize py"signature_hex (DER-encoded, 1-byte hash type appended)" py": " (der ++ py"01")),
  .log py"bitcoin_toolset.code.basic" 10 (withSize py"public_key_hex" py": " (py"04" ++ pk)),
  .log py"bitcoin_toolset.code.basic" 10 py"1-byte hash type appended to signature_hex = 01",
  .log py"bitcoin_toolset.code.basic" 10 (withSize py"signature_hex (DER-encoded)" py": " der),
  .log py"bitcoin_toolset.code.basic" 10 py"1-byte compression type prepended to public key = 04",
  .log py"bitcoin_toolset.code.basic" 10 (withSize py"public_key_hex" py": " pk)]

/-- the record for a decoded signature -/
def derLog (sig : Str) : List Ev := [
  .log py"bitcoin_toolset.code.basic" 10
    (py"Signature decoded from DER encoding:\n" ++ withSize py"signature_hex" py" = " sig ++ py"\n" ++
      withSize py"r_hex" py" = " (sig.take 64) ++ py"\n" ++ withSize py"s_hex" py" = " (sig.drop 64))]

/-- the record of the verdict on the signature of input `j` of `n` -/
def verdictLog (n j : Nat) (valid : Bool) : Ev :=
  if valid then .log py"bitcoin_toolset.code.transaction" 10 (py"Signature " ++ nth j n ++ py" is valid.")
  else .log py"bitcoin_toolset.code.transaction" 40 (py"Signature " ++ nth j n ++ py" is invalid!")

/-- the records of the check of input `j` of `n` -/
def checkLog (n j : Nat) (der pk sig : Str) (valid : Bool) : List Ev :=
  .log py"bitcoin_toolset.code.transaction" 10 (py"Verifying signature " ++ nth j n ++ py".") ::
    (scriptSigLog der pk ++ derLog sig ++ [verdictLog n j valid])

/-- the check of one signature: what was found in the scriptSig, and the verdict -/
structure Check where
  der : Str
  pk : Str
  sig : Str
  valid : Bool

/-- `c` is the check of input `i`, number `j`, of `t`: the signature and the key are those in its scriptSig, and the verdict
is that of the ECDSA library on the double SHA-256 of the signable form of the input -/
def Check.Of (X : Ext) (t : Tx) (j : Nat) (i : TxIn) (c : Check) : Prop :=
  ∃ ss hx dg, i.scriptSig = some ss ∧ scriptSigDecode X.uni ss = .ok (c.der, c.pk) ∧ signatureFromDer X c.der = .ok c.sig ∧
    t.toHexSignable j = .ok hx ∧ getDoubleSha256 X hx = .ok dg ∧ X.verifyDigest c.pk dg c.sig = .ok c.valid

/-- the summary of a check -/
def summaryLog (n : Nat) : Ev :=
  .log py"bitcoin_toolset.code.transaction" 20
    (py"Transaction verified: " ++ pyStr n ++ py" valid signature" ++ (if n > 1 then py"s" else []))

/-- the records of the signing of input `j` of `n`; `given`: random values were supplied -/
def signingLog (given : Bool) (n j : Nat) (address pk sig der scriptSig scriptLen : Str) : List Ev := [
  .log py"bitcoin_toolset.code.transaction" 20 (py"Creating " ++ (if given then py"non-" else []) ++
    py"deterministic signature " ++ nth j n ++ py". Source address = " ++ address),
  .log py"bitcoin_toolset.code.transaction" 10 (withSize py"public_key_hex" py" = " pk),
  .log py"bitcoin_toolset.code.transaction" 10 (withSize py"signature_hex" py" = " sig),
  .log py"bitcoin_toolset.code.transaction" 10 (withSize py"signature_hex (DER-encoded)" py" = " der),
  .log py"bitcoin_toolset.code.transaction" 10
    (withSize py"signature_hex (DER-encoded, 1-byte hash type appended)" py" = " (der ++ py"01")),
  .log py"bitcoin_toolset.code.basic" 10
    (withSize py"public_key_hex (1-byte compression type prepended)" py" = " (py"04" ++ pk)),
  .log py"bitcoin_toolset.code.basic" 10 (withSize py"signature_hex_pushdata" py" = " (scriptSig.take 2)),
  .log py"bitcoin_toolset.code.basic" 10 py"public_key_hex_pushdata (1 bytes) = 41",
  .log py"bitcoin_toolset.code.basic" 10 (withSize py"script_sig" py" = " scriptSig),
  .log py"bitcoin_toolset.code.basic" 10 (withSize py"script_length" py" = " scriptLen)]

/-- what signing puts into an input, and the signature behind it -/
structure Signing where
  pk : Str
  sig : Str
  der : Str
  scriptSig : Str
  scriptLen : Str

/-- `g` is what signing put into the input `i`: its public key, its scriptSig (made of the DER form of the signature, the
hash type and the public key) and the length of the scriptSig -/
def Signing.Of (X : Ext) (i : TxIn) (g : Signing) : Prop :=
  i.publicKey = some g.pk ∧ i.scriptSig = some g.scriptSig ∧ i.scriptLen = some g.scriptLen ∧
    signatureToDer X g.sig = .ok g.der ∧ scriptSigEncode (g.der ++ py"01") g.pk = .ok (g.scriptSig, g.scriptLen)

/-- the summary of a signing -/
def signedLog (n : Nat) : Ev :=
  .log py"bitcoin_toolset.code.transaction" 20
    (py"Transaction signed with " ++ pyStr n ++ py" signature" ++ (if n = 0 then [] else py"s") ++ py".")

/-- a DEBUG record of transaction.py -/
def txDebug (s : Str) : Ev := .log py"bitcoin_toolset.code.transaction" 10 s

/-- the records for input number `j` with DER signature `der` in hex data -/
def readInputLog (j : Nat) (der : Str) (i : TxIn) : List Ev :=
  [txDebug (py"input " ++ pyStr j ++ py":"),
   txDebug (py"- previous_output_hash: " ++ i.prevHash),
   txDebug (py"- previous_output_index: " ++ i.prevIndex),
   txDebug (py"- script_length: " ++ i.scriptLen.getD []),
   txDebug (py"- script_length_int: " ++ pyStr ((i.scriptLenInt.asInt).getD 0)),
   txDebug (py"- script_sig: " ++ i.scriptSig.getD [])] ++
  scriptSigLog der (i.publicKey.getD []) ++
  [txDebug (withSize py"- signature_hex" py": " der),
   txDebug (withSize py"- public_key_hex" py": " (i.publicKey.getD [])),
   txDebug (py"- sequence: " ++ i.sequence)]

/-- the records for output number `j` in hex data -/
def readOutputLog (j : Nat) (o : TxOut) : List Ev :=
  [txDebug (py"output " ++ pyStr j ++ py":"),
   txDebug (py"- value: " ++ o.value ++ py" (" ++ o.bitcoin ++ py" bitcoin, " ++ pyStr o.satoshi ++ py" satoshi)"),
   txDebug (py"- script_length: " ++ o.scriptLen),
   txDebug (py"- script_length_int: " ++ pyStr o.scriptLenInt),
   txDebug (py"- script_pub_key: " ++ o.spk)]

/-- the records of loading the hex text `s` of the transaction `t` with DER signatures `ders` -/
def readLog (s : Str) (ders : List Str) (t : Tx) : List Ev :=
  [.log py"bitcoin_toolset.code.transaction" 20 py"Loading signed transaction from hex.",
   txDebug (py"hex received: " ++ s),
   txDebug (py"hex length: " ++ pyStr ((s.length / 2 : Nat) : Int)),
   txDebug (py"version: " ++ t.version),
   txDebug (py"input_count: " ++ t.inputCount),
   txDebug (py"input_count_int: " ++ pyStr t.inputs.length)] ++
  ((ders.zip t.inputs).zipIdx.flatMap fun p => readInputLog p.2 p.1.1 p.1.2) ++
  [txDebug (py"output_count: " ++ t.outputCount),
   txDebug (py"output_count_int: " ++ pyStr t.outputs.length)] ++
  (t.outputs.zipIdx.flatMap fun p => readOutputLog p.2 p.1) ++
  [txDebug (py"- block_lock_time: " ++ t.lockTime),
   .log py"bitcoin_toolset.code.transaction" 20 py"Signed transaction successfully loaded from hex format and validated."]

end BT.Spec
