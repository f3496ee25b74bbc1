import Verif.CliRun
import Verif.Report

/-!
# The log of the package and the output of the tasks

`Tx.lean`, `Cli.lean` and `CliRun.lean` model what the functions return and print.  Here are the same functions with
the lines they log (logger, level, text), in the order in which lines are logged and printed, and with the texts of the
exceptions that the tasks raise.  `C115_agrees` in Props/TxLog.lean proves that without log lines and texts these are
the same functions.
-/

namespace BT.Lg

/-- Something that becomes visible: a record given to a logger, or a `print`. -/
inductive Ev
  | log (logger : Str) (level : Nat) (text : Str)
  | print (text : Str)
  deriving DecidableEq

/-- An exception: its class and, where it is modelled, its text. -/
abbrev Exc := Report.Exc

/-- A run of a function: what becomes visible until it ends, in order, and its result. -/
structure W (α : Type) where
  ev : List Ev
  res : Except Exc α

/-- Sequential composition. -/
def W.bind {α β : Type} (m : W α) (f : α → W β) : W β :=
  match m.res with
  | .error e => ⟨m.ev, .error e⟩
  | .ok a => ⟨m.ev ++ (f a).ev, (f a).res⟩

instance : Monad W where
  pure a := ⟨[], .ok a⟩
  bind := W.bind

/-- A computation that logs and prints nothing; the text of its exception is not modelled. -/
def run {α : Type} (r : R α) : W α :=
  match r with
  | .ok a => ⟨[], .ok a⟩
  | .error e => ⟨[], .error (e, none)⟩

/-- `raise E(text)` -/
def refuse {α : Type} (e : Err) (text : Str) : W α := ⟨[], .error (e, some text)⟩

/-- `print(text)` -/
def print (text : Str) : W Unit := ⟨[.print text], .ok ()⟩

/-- `logger.debug`, `logger.info`, `logger.error` (levels 10, 20, 40 of the `logging` library). -/
def deb (logger text : Str) : W Unit := ⟨[.log logger 10 text], .ok ()⟩
@[inherit_doc deb] def info (logger text : Str) : W Unit := ⟨[.log logger 20 text], .ok ()⟩
@[inherit_doc deb] def err (logger text : Str) : W Unit := ⟨[.log logger 40 text], .ok ()⟩

/-- Names of the loggers (basic.py:25, transaction.py:27, create_transaction.py, hello.py, cli.py:52). -/
def lBasic : Str := py"bitcoin_toolset.code.basic"
@[inherit_doc lBasic] def lTx : Str := py"bitcoin_toolset.code.transaction"
@[inherit_doc lBasic] def lCreate : Str := py"bitcoin_toolset.code.create_transaction"
@[inherit_doc lBasic] def lHello : Str := py"bitcoin_toolset.code.hello"
@[inherit_doc lBasic] def lCli : Str := py"cli"

/-- `'{what} ({n} bytes){sep}{x}'.format(hex_len(x), x)` for the literals in the code. -/
def sized (what : Str) (sep : Str) (n : Nat) (x : Str) : Str := what ++ py" (" ++ pyStr n ++ py" bytes)" ++ sep ++ x

/-! ## basic.py -/

/-- `script_sig_to_signature_hex_and_public_key_hex` (basic.py:279-307), see `scriptSigDecode`. -/
def scriptSigDecode (u : UniDB) (scriptSig : Str) : W (Str × Str) := do
  run (vHex scriptSig)
  let n ← run (varIntToInt u (slice scriptSig 0 2))
  let m := n.toNat * 2 + 2
  let sig := slice scriptSig 2 m
  let k ← run (hexLen sig)
  deb lBasic (sized py"signature_hex (DER-encoded, 1-byte hash type appended)" py": " k sig)
  let n2 ← run (varIntToInt u (slice scriptSig m (m + 2)))
  let m2 := m + 2 + n2.toNat * 2
  let pk := slice scriptSig (m + 2) m2
  let k ← run (hexLen pk)
  deb lBasic (sized py"public_key_hex" py": " k pk)
  deb lBasic (py"1-byte hash type appended to signature_hex = " ++ lastK 2 sig)
  if lastK 2 sig ≠ py"01" then run (raise .valueError)
  let sig := dropLastK 2 sig
  let k ← run (hexLen sig)
  deb lBasic (sized py"signature_hex (DER-encoded)" py": " k sig)
  deb lBasic (py"1-byte compression type prepended to public key = " ++ pk.take 2)
  if pk.take 2 ≠ py"04" then run (raise .valueError)
  let pk := pk.drop 2
  let k ← run (hexLen pk)
  deb lBasic (sized py"public_key_hex" py": " k pk)
  pure (sig, pk)

/-- `signature_hex_and_public_key_hex_to_script_sig` (basic.py:312-346), see `scriptSigEncode`. -/
def scriptSigEncode (sig pk : Str) : W (Str × Str) := do
  run (vHex sig)
  run (vHexLength pk 64)
  let pk := py"04" ++ pk
  let k ← run (hexLen pk)
  deb lBasic (sized py"public_key_hex (1-byte compression type prepended)" py" = " k pk)
  let sigLen ← run (hexLen sig)
  let sigPush ← run (intToVarInt sigLen)
  let pkLen ← run (hexLen pk)
  let pkPush ← run (intToVarInt pkLen)
  let k ← run (hexLen sigPush)
  deb lBasic (sized py"signature_hex_pushdata" py" = " k sigPush)
  let k ← run (hexLen pkPush)
  deb lBasic (sized py"public_key_hex_pushdata" py" = " k pkPush)
  let scriptSig := sigPush ++ sig ++ pkPush ++ pk
  let n ← run (hexLen scriptSig)
  let scriptLength ← run (intToVarInt n)
  deb lBasic (sized py"script_sig" py" = " n scriptSig)
  let k ← run (hexLen scriptLength)
  deb lBasic (sized py"script_length" py" = " k scriptLength)
  pure (scriptSig, scriptLength)

/-- `signature_from_der` (basic.py:116-132), see `signatureFromDer`. -/
def signatureFromDer (X : Ext) (sig : Str) : W Str := do
  run (vHex sig)
  let b ← run (fromHex sig)
  let p ← run (X.derDecode b)
  let rHex ← run (intToHex p.1)
  let sHex ← run (intToHex p.2)
  let rHex ← run (padHex rHex 32)
  let sHex ← run (padHex sHex 32)
  let k ← run (hexLen (rHex ++ sHex))
  let kr ← run (hexLen rHex)
  let ks ← run (hexLen sHex)
  deb lBasic (py"Signature decoded from DER encoding:\n" ++ sized py"signature_hex" py" = " k (rHex ++ sHex) ++ py"\n" ++
    sized py"r_hex" py" = " kr rHex ++ py"\n" ++ sized py"s_hex" py" = " ks sHex)
  pure (rHex ++ sHex)

/-! ## transaction.py -/

/-- `to_hex_signed_form` (transaction.py:536-550), see `Tx.toHexSigned`. -/
def toHexSigned (t : Tx) : W Str := do
  let s ← run t.toHexSigned
  info lTx py"Signed transaction converted to hex form."
  pure s

/-- The size entries (transaction.py:310-320), see `Tx.sizePart`. -/
def sizePart (t : Tx) : W (PVal × PVal) :=
  if t.signed then do
    let h ← toHexSigned t
    let n ← run (hexLen h)
    match t.fee with
    | none => pure (.int n, .dict [(py"satoshi_amount", .none), (py"bitcoin_amount", .none)])
    | some f =>
      let r := decDiv f n
      pure (.int n, .dict [(py"satoshi_per_byte", .str (fmtFixed 4 r)),
        (py"bitcoin_per_byte", .str (feeRateBitcoin (round4 r)))])
  else pure (.none, .dict [(py"satoshi_amount", .none), (py"bitcoin_amount", .none)])

/-- `to_json` (transaction.py:239-327), see `Tx.toDict` and `Tx.toJson`: the steps before `sizePart` log nothing, and
`json.dumps` does not raise on the dict. -/
def toJson (X : Ext) (t : Tx) : W Str := do
  let size ← run (estimateTransactionSize t.inputs.length t.outputs.length)
  let _ ← run (t.knownPart X.uni size)
  let _ ← run (satoshiToBitcoin X.uni t.totalOutput)
  let _ ← run (t.changePart X.uni)
  let _ ← sizePart t
  run (t.toJson X)

/-- `from_json` (transaction.py:331-377), see `Tx.fromJson`. -/
def fromJson (X : Ext) (s : Str) : W Tx := do
  let t ← run (Tx.fromJson X s)
  info lTx py"Transaction successfully loaded from JSON format and validated."
  pure t

/-- "Creating ... signature i of n. Source address = a" (transaction.py:403-405). -/
def creatingLine (given : Bool) (i n : Nat) (address : Str) : Str :=
  py"Creating " ++ (if given then py"non-" else []) ++ py"deterministic signature " ++ pyStr (i + 1) ++ py" of " ++ pyStr n ++
    py". Source address = " ++ address

/-- First part of one iteration of the signing loop (transaction.py:401-410), see `Tx.signPrepare`. -/
def signPrepare (X : Ext) (m : List (Str × Str)) (rvs : Option (List Str)) (i n : Nat) (inp : TxIn) :
    W (Option Str × Str × Str) := do
  let rv ← run (randomFor rvs i)
  info lTx (creatingLine rvs.isSome i n inp.address)
  match keyFor m inp.address with
  | none => run (raise .valueError)
  | some key => do
    let pk ← run (privateKeyToPublicKey X key)
    pure (rv, key, pk)

/-- Second part of one iteration (transaction.py:412-426), see `Tx.signFinish`. -/
def signFinish (X : Ext) (t : Tx) (i : Nat) (rv : Option Str) (key pk : Str) : W (Str × Str × Int) := do
  let k ← run (hexLen pk)
  deb lTx (sized py"public_key_hex" py" = " k pk)
  let sig ← run (t.createSignature X i key rv)
  let k ← run (hexLen sig)
  deb lTx (sized py"signature_hex" py" = " k sig)
  let der ← run (signatureToDer X sig)
  let k ← run (hexLen der)
  deb lTx (sized py"signature_hex (DER-encoded)" py" = " k der)
  let der := der ++ t.hashType1
  let k ← run (hexLen der)
  deb lTx (sized py"signature_hex (DER-encoded, 1-byte hash type appended)" py" = " k der)
  let p ← scriptSigEncode der pk
  let n ← run (varIntToInt X.uni p.2)
  pure (p.1, p.2, n)

/-- One iteration of the signing loop (transaction.py:399-430), see `Tx.signOne`. -/
def signOne (X : Ext) (m : List (Str × Str)) (rvs : Option (List Str)) (i : Nat) (t : Tx) : Tx × W Unit :=
  match t.inputs[i]? with
  | none => (t, run (.error .indexError))
  | some inp =>
    let w1 := signPrepare X m rvs i t.inputs.length inp
    match w1.res with
    | .error e => (t, ⟨w1.ev, .error e⟩)
    | .ok (rv, key, pk) =>
      let inp1 := { inp with publicKey := some pk }
      let t1 := { t with inputs := t.inputs.set i inp1 }
      let w2 := signFinish X t1 i rv key pk
      match w2.res with
      | .error e => (t1, ⟨w1.ev ++ w2.ev, .error e⟩)
      | .ok (scriptSig, scriptLen, n) =>
        let inp2 := { inp1 with scriptLen := some scriptLen, scriptLenInt := .int n,
                                scriptSig := some scriptSig }
        ({ t1 with inputs := t1.inputs.set i inp2 }, ⟨w1.ev ++ w2.ev, .ok ()⟩)

/-- The signing loop (transaction.py:399), see `Tx.signLoop`. -/
def signLoop (X : Ext) (m : List (Str × Str)) (rvs : Option (List Str)) : List Nat → Tx → Tx × W Unit
  | [], t => (t, pure ())
  | i :: is, t =>
    let o := signOne X m rvs i t
    match o.2.res with
    | .ok _ =>
      let o2 := signLoop X m rvs is o.1
      (o2.1, ⟨o.2.ev ++ o2.2.ev, o2.2.res⟩)
    | .error e => (o.1, ⟨o.2.ev, .error e⟩)

/-- "Transaction signed with n signatures." (transaction.py:431-433): the plural starts at one. -/
def signedLine (n : Nat) : Str :=
  py"Transaction signed with " ++ pyStr n ++ py" signature" ++ (if n > 0 then py"s" else []) ++ py"."

/-- `sign` (transaction.py:380-434), see `Tx.sign`. -/
def sign (X : Ext) (t : Tx) (keys : List Str) (rvs : Option (List Str)) : Tx × W Unit :=
  match signChecks X keys rvs with
  | .error e => (t, run (.error e))
  | .ok m =>
    let o := signLoop X m rvs (List.range t.inputs.length) t
    (o.1, do
      o.2
      info lTx (signedLine t.inputs.length))

/-- One iteration of the loop of `verify` (transaction.py:499-516), see `Tx.verifyInput`; `n` is the number of inputs. -/
def verifyInput (X : Ext) (t : Tx) (i n : Nat) (inp : TxIn) : W Bool := do
  deb lTx (py"Verifying signature " ++ pyStr (i + 1) ++ py" of " ++ pyStr n ++ py".")
  match inp.scriptSig with
  | none => run (raise .valueError)
  | some scriptSig => do
    let p ← scriptSigDecode X.uni scriptSig
    let sig ← signatureFromDer X p.1
    let ok ← run (t.verifyOne X i p.2 sig)
    if ok then deb lTx (py"Signature " ++ pyStr (i + 1) ++ py" of " ++ pyStr n ++ py" is valid.")
    else err lTx (py"Signature " ++ pyStr (i + 1) ++ py" of " ++ pyStr n ++ py" is invalid!")
    pure ok

/-- The loop of `verify` (transaction.py:499-516), see `Tx.verifyLoop`. -/
def verifyLoop (X : Ext) (t : Tx) (n : Nat) : Nat → List TxIn → Nat → W Nat
  | _, [], bad => pure bad
  | i, inp :: r, bad => do
    let ok ← verifyInput X t i n inp
    verifyLoop X t n (i + 1) r (if ok then bad else bad + 1)

/-- "Transaction verified: n valid signatures" (transaction.py:517-519): the number of inputs, whatever the verdicts. -/
def verifiedLine (n : Nat) : Str :=
  py"Transaction verified: " ++ pyStr n ++ py" valid signature" ++ (if n > 1 then py"s" else [])

/-- `verify` (transaction.py:496-520), see `Tx.verify`. -/
def verify (X : Ext) (t : Tx) : W Nat := do
  let bad ← verifyLoop X t t.inputs.length 0 t.inputs 0
  info lTx (verifiedLine t.inputs.length)
  pure bad

/-- `calculate_txid` (transaction.py:665-672), see `Tx.txid`. -/
def txid (X : Ext) (t : Tx) : W Str := do
  if !t.signed then run (raise .valueError)
  let h ← toHexSigned t
  let hash ← run (getDoubleSha256 X h)
  run (reverseHexOrder hash)

/-- One iteration of the input loop of `from_hex_signed` (transaction.py:598-623), see `parseInput`; `x` counts from 0. -/
def parseInput (X : Ext) (x : Nat) (hb : List Str) : W (TxIn × List Str) := do
  deb lTx (py"input " ++ pyStr x ++ py":")
  let (prevHash, hb) := takeBytes 32 hb
  deb lTx (py"- previous_output_hash: " ++ prevHash)
  let (prevIndex, hb) := takeBytes 4 hb
  deb lTx (py"- previous_output_index: " ++ prevIndex)
  let (scriptLen, hb) ← run (takeByte hb)
  deb lTx (py"- script_length: " ++ scriptLen)
  let n ← run (varIntToInt X.uni scriptLen)
  deb lTx (py"- script_length_int: " ++ pyStr n)
  let (scriptSig, hb) := takeBytes n.toNat hb
  deb lTx (py"- script_sig: " ++ scriptSig)
  let (sig, pk) ← scriptSigDecode X.uni scriptSig
  let k ← run (hexLen sig)
  deb lTx (sized py"- signature_hex" py": " k sig)
  let k ← run (hexLen pk)
  deb lTx (sized py"- public_key_hex" py": " k pk)
  let (sequence, hb) := takeBytes 4 hb
  deb lTx (py"- sequence: " ++ sequence)
  if sequence ≠ py"ffffffff" then run (raise .valueError)
  let inp ← run (TxIn.createFromSigned X pk prevHash prevIndex scriptLen scriptSig)
  pure (inp, hb)

/-- One iteration of the output loop (transaction.py:631-647), see `parseOutput`. -/
def parseOutput (X : Ext) (x : Nat) (hb : List Str) : W (TxOut × List Str) := do
  deb lTx (py"output " ++ pyStr x ++ py":")
  let (value, hb) := takeBytes 8 hb
  let satoshi ← run (hexLeToInt X.uni value)
  let b ← run (satoshiToBitcoin X.uni satoshi)
  deb lTx (py"- value: " ++ value ++ py" (" ++ b ++ py" bitcoin, " ++ pyStr satoshi ++ py" satoshi)")
  let (scriptLen, hb) ← run (takeByte hb)
  deb lTx (py"- script_length: " ++ scriptLen)
  let n ← run (varIntToInt X.uni scriptLen)
  deb lTx (py"- script_length_int: " ++ pyStr n)
  let (spk, hb) := takeBytes n.toNat hb
  deb lTx (py"- script_pub_key: " ++ spk)
  let out ← run (TxOut.createFromSigned X value scriptLen spk)
  pure (out, hb)

/-- A `for x in range(n)` loop of `from_hex_signed` (transaction.py:598,631), see `parseMany`; `x` is the next index. -/
def parseMany {α : Type} (f : Nat → List Str → W (α × List Str)) : Nat → Nat → List Str → W (List α × List Str)
  | 0, _, hb => pure ([], hb)
  | n + 1, x, hb => do
    let p ← f x hb
    let q ← parseMany f n (x + 1) p.2
    pure (p.1 :: q.1, q.2)

/-- `from_hex_signed` (transaction.py:576-662), see `Tx.fromHexSigned`. -/
def fromHexSigned (X : Ext) (s : Str) : W Tx := do
  info lTx py"Loading signed transaction from hex."
  deb lTx (py"hex received: " ++ s)
  let k ← run (hexLen s)
  deb lTx (py"hex length: " ++ pyStr k)
  let hb := chunks2 s
  let (version, hb) := takeBytes 4 hb
  if version ≠ py"01000000" then run (raise .valueError)
  deb lTx (py"version: " ++ version)
  let (ic, hb) ← run (takeByte hb)
  deb lTx (py"input_count: " ++ ic)
  let icInt ← run (varIntToInt X.uni ic)
  deb lTx (py"input_count_int: " ++ pyStr icInt)
  let (inputs, hb) ← parseMany (parseInput X) icInt.toNat 0 hb
  let (oc, hb) ← run (takeByte hb)
  deb lTx (py"output_count: " ++ oc)
  let ocInt ← run (varIntToInt X.uni oc)
  deb lTx (py"output_count_int: " ++ pyStr ocInt)
  let (outputs, hb) ← parseMany (parseOutput X) ocInt.toNat 0 hb
  let (lockTime, _) := takeBytes 4 hb
  deb lTx (py"- block_lock_time: " ++ lockTime)
  if lockTime ≠ py"00000000" then run (raise .valueError)
  let t ← run (Tx.create inputs outputs)
  info lTx py"Signed transaction successfully loaded from hex format and validated."
  pure t

/-- `create_transaction` (create_transaction.py:89-561) with its report (all lines at level INFO), see `Report.create`. -/
def create (E : Msg.Env) (X : Ext) (a : Args) : W (Tx × Args) :=
  let l := Report.create E X a
  ⟨l.log.map (.log lCreate 20), l.res⟩

/-! ## cli.py -/

/-- `tx.sign(keys)` as used by the tasks: the same object is used afterwards (cli.py:415,494). -/
def signed (X : Ext) (t : Tx) (keys : List Str) : W Tx :=
  let o := sign X t keys none
  do
    o.2
    pure o.1

/-- `hello` (cli.py:298-304) and `hello2` (cli.py:309-313, hello.py:49-53): the same lines from different loggers. -/
def cliHello (logger : Str) : W Unit := do
  info logger py"Log statement at INFO level"
  deb logger py"Log statement at DEBUG level"
  print py"hello world"

/-- `get_private_key_wif` (cli.py:336-338). -/
def cliGetWif (X : Ext) (key : Str) : W Unit := do print (← run (privateKeyToWif X key))

/-- `private_key_wif_to_hex` (cli.py:343-345). -/
def cliWifToHex (X : Ext) (a : CliArgs) : W Unit := do
  let w ← run (needStr a.privateKeyWif)
  print (← run (wifToPrivateKey X w))

/-- `get_public_key` (cli.py:350-352). -/
def cliGetPublicKey (X : Ext) (key : Str) : W Unit := do print (← run (privateKeyToPublicKey X key))

/-- `get_address` (cli.py:357-359). -/
def cliGetAddress (X : Ext) (key : Str) : W Unit := do print (← run (privateKeyToAddress X key))

/-- `sign_data` (cli.py:364-374). -/
def cliSignData (X : Ext) (key : Str) (a : CliArgs) : W Unit := do
  let d ← run (needStr a.data)
  run (vPrintableAscii d)
  let sig ← run (X.signData key (asciiHex d))
  print sig
  let pk ← run (privateKeyToPublicKey X key)
  let ok ← run (verifySignature X pk (asciiHex d) sig)
  if !ok then refuse .valueError py"Invalid signature!"

/-- `verify_data_signature` (cli.py:379-387). -/
def cliVerifyData (X : Ext) (a : CliArgs) : W Unit := do
  let d ← run (needStr a.data)
  run (vPrintableAscii d)
  let pk ← run (needStr a.publicKeyHex)
  run (vHexLength pk 64)
  let sig ← run (needStr a.signatureHex)
  let ok ← run (verifySignature X pk (asciiHex d) sig)
  if ok then print py"Valid signature." else print py"Invalid signature!"

/-- `create_unsigned_transaction_json` (cli.py:392-397). -/
def cliCreateUnsigned (E : Msg.Env) (X : Ext) (a : CliArgs) : W Unit := do
  let r ← create E X (cliTxArgs a)
  let js ← toJson X r.1
  print js
  let _ ← fromJson X js
  pure ()

/-- `validate_unsigned_transaction_json` (cli.py:402-405). -/
def cliValidateUnsigned (X : Ext) (a : CliArgs) : W Unit := do
  let js ← run (needStr a.data)
  let _ ← fromJson X js
  print py"Unsigned transaction data validated."

/-- The plural of the tasks (cli.py:420,434,465,478,510). -/
def plural (n : Nat) : Str := if n > 1 then py"s" else []

/-- `create_signed_transaction_json` (cli.py:410-423). -/
def cliSignJson (X : Ext) (a : CliArgs) : W Unit := do
  let js ← run (needStr a.data)
  let t ← fromJson X js
  let ts ← signed X t a.privateKeysHex
  let out ← toJson X ts
  print out
  let bad ← verify X ts
  if bad ≠ 0 then refuse .valueError (py"Invalid signature" ++ plural ts.inputs.length ++ py"!")

/-- `verify_signed_transaction_json` (cli.py:428-439). -/
def cliVerifyJson (X : Ext) (a : CliArgs) : W Unit := do
  let js ← run (needStr a.data)
  let t ← fromJson X js
  let bad ← verify X t
  if bad = 0 then print (py"Valid signature" ++ plural t.inputs.length ++ py".")
  else print (py"Invalid signature" ++ plural t.inputs.length ++ py"!.")

/-- `create_signed_transaction_hex` (cli.py:444-453). -/
def cliSignedHex (X : Ext) (a : CliArgs) : W Unit := do
  let js ← run (needStr a.data)
  let t ← fromJson X js
  let _validSignatures ← verify X t
  let h ← toHexSigned t
  print h
  refuse .nameError py"name 'invalid_signatures' is not defined"

/-- "Signed transaction: k invalid signatures detected! ..." (cli.py:466,479,500; `what` differs in cli.py:514). -/
def invalidText (what : Str) (k : Nat) (s : Str) (detected : Str) : Str :=
  what ++ py": " ++ pyStr k ++ py" invalid signature" ++ s ++ py" " ++ detected ++ py"! Please re-run using the --debug flag."

/-- `decode_signed_transaction_hex` (cli.py:458-467). -/
def cliDecodeHex (X : Ext) (a : CliArgs) : W Unit := do
  let h ← run (dataStripped X a)
  let t ← fromHexSigned X h
  let bad ← verify X t
  let js ← toJson X t
  print js
  if bad ≠ 0 then refuse .valueError (invalidText py"Signed transaction" bad (plural t.inputs.length) py"detected")

/-- `verify_signed_transaction_hex` (cli.py:472-482). -/
def cliVerifyHex (X : Ext) (a : CliArgs) : W Unit := do
  let h ← run (dataStripped X a)
  let t ← fromHexSigned X h
  let bad ← verify X t
  if bad ≠ 0 then refuse .valueError (invalidText py"Signed transaction" bad (plural t.inputs.length) py"detected")
  print (py"Valid signature" ++ plural t.inputs.length ++ py".")

/-- `create_sign_and_verify_transaction_hex` (cli.py:487-516), also `create_transaction` (cli.py:521-522). -/
def cliOneShot (E : Msg.Env) (X : Ext) (a : CliArgs) : W Unit := do
  let r ← create E X (cliTxArgs a)
  let js ← toJson X r.1
  let _ ← fromJson X js
  let ts ← signed X r.1 a.privateKeysHex
  let bad ← verify X ts
  if bad ≠ 0 then refuse .valueError (invalidText py"Signed transaction" bad (plural bad) py"detected")
  let h ← toHexSigned ts
  let k ← run (hexLen h)
  deb lCli (sized py"tx_signed_hex" py" = " k h)
  let t2 ← fromHexSigned X h
  let bad2 ← verify X t2
  if bad2 ≠ 0 then
    refuse .valueError (invalidText py"Signed transaction (hex format)" bad2 (plural t2.inputs.length) py"detect")
  print h

/-- Dispatch (cli.py:284-293), see `cliDispatch`. -/
def dispatch (E : Msg.Env) (X : Ext) (a : CliArgs) : W Unit :=
  let key := a.privateKeysHex.headD []
  if a.task = py"hello" then cliHello lCli
  else if a.task = py"hello2" then cliHello lHello
  else if a.task = py"get_private_key_wif" then cliGetWif X key
  else if a.task = py"private_key_wif_to_hex" then cliWifToHex X a
  else if a.task = py"get_public_key" then cliGetPublicKey X key
  else if a.task = py"get_address" then cliGetAddress X key
  else if a.task = py"sign_data" then cliSignData X key a
  else if a.task = py"verify_data_signature" then cliVerifyData X a
  else if a.task = py"create_unsigned_transaction_json" then cliCreateUnsigned E X a
  else if a.task = py"validate_unsigned_transaction_json" then cliValidateUnsigned X a
  else if a.task = py"create_signed_transaction_json" then cliSignJson X a
  else if a.task = py"verify_signed_transaction_json" then cliVerifyJson X a
  else if a.task = py"create_signed_transaction_hex" then cliSignedHex X a
  else if a.task = py"verify_signed_transaction_hex" then cliVerifyHex X a
  else if a.task = py"decode_signed_transaction_hex" then cliDecodeHex X a
  else if a.task = py"create_sign_and_verify_transaction_hex" then cliOneShot E X a
  else if a.task = py"create_transaction" then cliOneShot E X a
  else print (unknownTask a.task)

/-- `get_python_version` (cli.py:318-331), see `cliPythonVersion`; nothing is logged. -/
def cliPythonVersion (X : Ext) (sh : Shell) : W Unit :=
  let o := BT.cliPythonVersion X sh
  ⟨o.1.map .print, match o.2 with
    | .ok u => .ok u
    | .error e => .error (e, none)⟩

/-- The task (cli.py:284-293), see `cliTask`. -/
def task (E : Msg.Env) (X : Ext) (sh : Shell) (a : CliArgs) : W Unit :=
  if a.task = py"get_python_version" then cliPythonVersion X sh else dispatch E X a

end BT.Lg
