import Verif.Json

/-!
# External components

The git submodules of `/repo` (`bitcoin_toolset/submodules/__init__.py`: ecdsa_python3,
sha256_python3, ripemd160_python3) are not part of the pinned source tree; they, the
Unicode data base and `float.__repr__` are the fields of `Ext`.  The model is a function
of an arbitrary `Ext`; facts about them appear only as the explicit hypotheses `Ext.Laws` and
`Ext.SignTotal`.  The `json` module is modelled in `Verif/Json.lean`.
-/

namespace BT

/-- External functions called by the modelled code. -/
structure Ext where
  /-- Unicode data base of the interpreter -/
  uni : UniDB
  /-- `sha256.digest` (`basic.py:239,509`) -/
  sha256 : Bytes → Bytes
  /-- `ripemd160.digest` (`basic.py:240,517`) -/
  ripemd160 : Bytes → Bytes
  /-- `ecdsa.format_private_key_hex` (`basic.py:200,249,259`) -/
  formatKey : Str → R Str
  /-- `ecdsa.validate_private_key_hex` (`basic.py:201,250,260,273`) -/
  validateKey : Str → R Unit
  /-- `ecdsa.private_key_hex_to_public_key_hex` (`basic.py:202,251`) -/
  pubKey : Str → R Str
  /-- `ecdsa.create_deterministic_signature_for_digest_low_s` (`basic.py:179`) -/
  signDet : Str → Str → R Str
  /-- `ecdsa.create_signature_for_digest_low_s` (`basic.py:185`) -/
  signRand : Str → Str → Str → R Str
  /-- `ecdsa.verify_signature_digest_low_s` (`basic.py:156`) -/
  verifyDigest : Str → Str → Str → R Bool
  /-- `ecdsa.create_deterministic_signature_low_s` (`basic.py:173`) -/
  signData : Str → Str → R Str
  /-- `ecdsa.verify_signature_low_s` (`basic.py:166`) -/
  verifyData : Str → Str → Str → R Bool
  /-- `ecdsa...signature_hex_to_r_and_s_hex` (`basic.py:139`) -/
  splitRS : Str → R (Str × Str)
  /-- `ecdsa...sigencode_der` (`basic.py:145`) -/
  derEncode : Int → Int → R Bytes
  /-- `ecdsa...sigdecode_der` (`basic.py:120`) -/
  derDecode : Bytes → R (Int × Int)
  /-- `float.__repr__`, used by `json.dumps` -/
  floatRepr : PyFloat → Str

/-- `json.dumps(_, indent=2)` (`transaction.py:326`) -/
def Ext.jsonDumps (X : Ext) (x : PVal) : Str := Json.dumps X.floatRepr x

/-- `json.loads` (`transaction.py:337`) -/
def Ext.jsonLoads (X : Ext) (s : Str) : R PVal := Json.loads X.uni s

/-- Lower-case hex string with an even number of characters. -/
def isHexStr (s : Str) : Bool :=
  s.length % 2 == 0 && s.all fun c => py"0123456789abcdef".contains c

/-- Assumed behaviour of the external components, used as an explicit hypothesis by the
theorems that need it. -/
structure Ext.Laws (X : Ext) : Prop where
  sha_len : ∀ b, (X.sha256 b).length = 32
  rip_len : ∀ b, (X.ripemd160 b).length = 20
  /-- an accepted private key has 64 lower-case hex characters -/
  key_shape : ∀ k, X.validateKey k = .ok () → isHexStr k = true ∧ k.length = 64
  /-- formatting a 64-character key does nothing -/
  format_id : ∀ k, isHexStr k = true → k.length = 64 → X.formatKey k = .ok k
  /-- public keys are 64 bytes in hex -/
  pub_shape : ∀ k p, X.pubKey k = .ok p → isHexStr p = true ∧ p.length = 128
  /-- signatures are 64 bytes in hex -/
  sig_shape : ∀ k d s, X.signDet k d = .ok s → isHexStr s = true ∧ s.length = 128
  sig_shape_rand : ∀ k d n s, X.signRand k d n = .ok s → isHexStr s = true ∧ s.length = 128
  /-- a signature made with a key verifies under its public key -/
  sign_verify : ∀ k p d s, X.validateKey k = .ok () → X.pubKey k = .ok p →
    X.signDet k d = .ok s → X.verifyDigest p d s = .ok true
  sign_verify_rand : ∀ k p d n s, X.validateKey k = .ok () → X.pubKey k = .ok p →
    X.signRand k d n = .ok s → X.verifyDigest p d s = .ok true
  /-- the same for signatures of data -/
  data_shape : ∀ k d s, X.signData k d = .ok s → isHexStr s = true ∧ s.length = 128
  data_verify : ∀ k p d s, X.validateKey k = .ok () → X.pubKey k = .ok p →
    X.signData k d = .ok s → X.verifyData p d s = .ok true
  /-- a valid private key has a public key -/
  pub_ok : ∀ k, X.validateKey k = .ok () → ∃ p, X.pubKey k = .ok p
  /-- splitting a 64-byte signature -/
  split_ok : ∀ s, isHexStr s = true → s.length = 128 → X.splitRS s = .ok (s.take 64, s.drop 64)
  /-- DER round trip and size for 256-bit numbers -/
  der_round : ∀ r s : Nat, r < 2 ^ 256 → s < 2 ^ 256 → ∃ b, X.derEncode r s = .ok b ∧
    X.derDecode b = .ok ((r : Int), (s : Int)) ∧ b.length ≤ 72

/-- A valid private key can sign every digest and every data.  Apart from `Ext.Laws` because for
ECDSA it is a statistical fact: a nonce with r = 0 or s = 0 cannot be excluded. -/
structure Ext.SignTotal (X : Ext) : Prop where
  sign_ok : ∀ k d, X.validateKey k = .ok () → isHexStr d = true → d.length = 64 → ∃ s, X.signDet k d = .ok s
  data_ok : ∀ k d, X.validateKey k = .ok () → isHexStr d = true → ∃ s, X.signData k d = .ok s

end BT
