import Verif.Props.Real
import Verif.Lemmas.EcdsaForm

/-!
# C146, C147: the forms of a signature, and the texts it is for

`beNat (sha256 (asciiBytes d))` is the number that is signed for the text `d`, `nP` the order of the generator `G`, `pP` the prime of the field.
-/

namespace BT
open Spec Concrete WeierstrassCurve

attribute [local irreducible] ecMul invMod hex32 pP nP gX gY rfcNonce ofHex ecVerify sha256 ripemd160 derEnc

namespace EcdsaForm

/-- the arguments of verify_data_signature: a text, the 64 bytes of a public key, the 32 + 32 bytes of a signature -/
structure Asks (a : CliArgs) (d : Str) (pk r s : Bytes) : Prop where
  text : a.data = some d
  printable : PrintableAscii d
  key : a.publicKeyHex = some (hex pk)
  signature : a.signatureHex = some (hex (r ++ s))
  keyLen : pk.length = 64
  rLen : r.length = 32
  sLen : s.length = 32

/-- a run of the task that says that the signature is valid -/
def SaysValid (a : CliArgs) : Prop := cliVerifyData Xreal a = ([py"Valid signature."], .ok ())

theorem keyBytes_unique {pk : Bytes} {Q Q' : curve.Point} (h : KeyBytes pk Q) (h' : KeyBytes pk Q') : Q = Q' := by
  obtain ⟨_, _, _, _, e⟩ := h
  obtain ⟨_, _, _, _, e'⟩ := h'
  rw [e, e']

theorem says_iff {a : CliArgs} {d : Str} {pk r s : Bytes} {k : Nat} (h : Asks a d pk r s) (hk : KeyBytes pk (k • G)) :
    SaysValid a ↔ EcdsaValid (k • G) (beNat (sha256 (asciiBytes d))) (beNat r) (beNat s) ∧ 2 * beNat s ≤ nP := by
  unfold SaysValid
  rw [(C93_verify_data a d pk r s h.text h.printable h.key h.signature h.keyLen h.rLen h.sLen).1]
  constructor
  · rintro ⟨Q, hQ, hv⟩
    rw [keyBytes_unique hQ hk] at hv
    exact hv
  · exact fun hv => ⟨_, hk, hv⟩

end EcdsaForm

open EcdsaForm

/-! ## C146 -/

/-- **C146**: for a text and the public key of a private key, verify_data_signature accepts only one second half with a given first half
(first halves from p - n on: all but one in 2 ^ 127). -/
theorem C146_one_form {a a' : CliArgs} {d : Str} {pk r s s' : Bytes} {k : Nat} (hk : KeyBytes pk (k • G)) (h : Asks a d pk r s) (h' : Asks a' d pk r s')
    (hr : pP - nP ≤ beNat r) (v : SaysValid a) (v' : SaysValid a') : s = s' := by
  rw [says_iff h hk] at v
  rw [says_iff h' hk] at v'
  exact beNat_inj (by rw [h.sLen, h'.sLen]) (low_unique hr v.1 v'.1 v.2 v'.2)

/-- **C146**, for every first half: at most two second halves are accepted. -/
theorem C146_two_forms {a1 a2 a3 : CliArgs} {d : Str} {pk r s1 s2 s3 : Bytes} {k : Nat} (hk : KeyBytes pk (k • G)) (h1 : Asks a1 d pk r s1) (h2 : Asks a2 d pk r s2)
    (h3 : Asks a3 d pk r s3) (v1 : SaysValid a1) (v2 : SaysValid a2) (v3 : SaysValid a3) : s1 = s2 ∨ s1 = s3 ∨ s2 = s3 := by
  rw [says_iff h1 hk] at v1
  rw [says_iff h2 hk] at v2
  rw [says_iff h3 hk] at v3
  have i : ∀ {x y : Bytes}, x.length = 32 → y.length = 32 → beNat x = beNat y → x = y := fun l l' => beNat_inj (by rw [l, l'])
  rcases low_two v1.1 v2.1 v3.1 v1.2 v2.2 v3.2 with e | e | e
  · exact .inl (i h1.sLen h2.sLen e)
  · exact .inr (.inl (i h1.sLen h3.sLen e))
  · exact .inr (.inr (i h2.sLen h3.sLen e))

/-! ## C147 -/

/-- **C147**, what holds: a signature that is accepted for two texts is one of texts with the same SHA-256 number modulo n, or the texts and the signature give away the private key. -/
theorem C147_one_text_partial {a a' : CliArgs} {d d' : Str} {pk r s : Bytes} {k : Nat} (hk : KeyBytes pk (k • G)) (h : Asks a d pk r s) (h' : Asks a' d' pk r s)
    (hr : pP - nP ≤ beNat r) (v : SaysValid a) (v' : SaysValid a') :
    beNat (sha256 (asciiBytes d)) % nP = beNat (sha256 (asciiBytes d')) % nP ∨
      nP ∣ 2 * beNat r * k + beNat (sha256 (asciiBytes d)) + beNat (sha256 (asciiBytes d')) := by
  rw [says_iff h hk] at v
  rw [says_iff h' hk] at v'
  rcases two_digests hr v.1 v'.1 with e | e
  · exact .inl ((ZMod.natCast_eq_natCast_iff' _ _ _).1 e)
  · right
    rw [← ZMod.natCast_eq_zero_iff]
    push_cast
    linear_combination e

/-- **C147** is false: for any two texts (with numbers that are neither equal nor opposite modulo n) there are a private key and one signature that the task
accepts for both texts under the public key that the program computes from the private key. -/
theorem C147_two_texts_violation {d d' : Str} (hd : PrintableAscii d) (hd' : PrintableAscii d')
    (h1 : beNat (sha256 (asciiBytes d)) % nP ≠ beNat (sha256 (asciiBytes d')) % nP)
    (h2 : ¬ nP ∣ beNat (sha256 (asciiBytes d)) + beNat (sha256 (asciiBytes d'))) :
    ∃ key pk r s : Bytes, key.length = 32 ∧ privateKeyToPublicKey Xreal (hex key) = .ok (hex pk) ∧ pk.length = 64 ∧ r.length = 32 ∧ s.length = 32 ∧ pP - nP ≤ beNat r ∧
      ∀ a a' : CliArgs, a.data = some d → a'.data = some d' → a.publicKeyHex = some (hex pk) → a'.publicKeyHex = some (hex pk) →
        a.signatureHex = some (hex (r ++ s)) → a'.signatureHex = some (hex (r ++ s)) → SaysValid a ∧ SaysValid a' := by
  obtain ⟨k, r, s, k1, k2, big, v1, v2, hl⟩ := make_two (z := beNat (sha256 (asciiBytes d))) (z' := beNat (sha256 (asciiBytes d')))
    (fun e => h1 ((ZMod.natCast_eq_natCast_iff' _ _ _).1 e)) (fun e => h2 ((ZMod.natCast_eq_zero_iff _ _).1 (by push_cast; exact e)))
  have n256 : nP < 2 ^ 256 := by decide +kernel
  have mk : ∀ n, n < nP → ∃ b : Bytes, b.length = 32 ∧ beNat b = n := by
    intro n hn
    obtain ⟨b, _, l, e⟩ := hex32_bytes n
    exact ⟨b, l, by rw [e, Nat.mod_eq_of_lt (by omega)]⟩
  obtain ⟨bk, lk, ek⟩ := mk k k2
  obtain ⟨br, lr, er⟩ := mk r v1.2.1
  obtain ⟨bs, ls, es⟩ := mk s v1.2.2.2.1
  have hv : valKey (hex bk) = .ok () := valKey_iff.2 ⟨bk, rfl, lk, by omega, by omega⟩
  obtain ⟨p, hp⟩ := Xreal_laws.pub_ok _ hv
  obtain ⟨pk, rfl, hpk⟩ := pubOf_point hv hp
  rw [ofHex_hex, ek] at hpk
  refine ⟨bk, pk, br, bs, lk, (C92_public_key bk lk _).2 ⟨by omega, by omega, pk, rfl, by rw [ek]; exact hpk⟩, hpk.1, lr, ls, by rw [er]; exact big, ?_⟩
  intro a a' e1 e2 e3 e4 e5 e6
  constructor
  · rw [says_iff ⟨e1, hd, e3, e5, hpk.1, lr, ls⟩ hpk, er, es]; exact ⟨v1, hl⟩
  · rw [says_iff ⟨e2, hd', e4, e6, hpk.1, lr, ls⟩ hpk, er, es]; exact ⟨v2, hl⟩

/-- two texts as C147 asks for -/
theorem EcdsaForm.two_texts : PrintableAscii py"I owe you 1 coin" ∧ PrintableAscii py"I owe you 2 coins" ∧
    beNat (sha256 (asciiBytes py"I owe you 1 coin")) % nP ≠ beNat (sha256 (asciiBytes py"I owe you 2 coins")) % nP ∧
    ¬ nP ∣ beNat (sha256 (asciiBytes py"I owe you 1 coin")) + beNat (sha256 (asciiBytes py"I owe you 2 coins")) := by
  refine ⟨?_, ?_, ?_, ?_⟩
  · unfold PrintableAscii; decide +kernel
  · unfold PrintableAscii; decide +kernel
  · decide +kernel
  · decide +kernel

/-- the hypotheses of C146 and of C147_one_text_partial are met: a key that the program computes from a private key, a signature, two different texts, and runs that accept it -/
example : ∃ (key pk r s : Bytes) (a a' : CliArgs), KeyBytes pk (beNat key • G) ∧ Asks a py"I owe you 1 coin" pk r s ∧ Asks a' py"I owe you 2 coins" pk r s ∧
    pP - nP ≤ beNat r ∧ SaysValid a ∧ SaysValid a' := by
  obtain ⟨p1, p2, p3, p4⟩ := two_texts
  obtain ⟨key, pk, r, s, lk, hp, l1, l2, l3, big, hv⟩ := C147_two_texts_violation p1 p2 p3 p4
  obtain ⟨_, _, pk', e, hpk⟩ := (C92_public_key key lk _).1 hp
  rw [hex_inj_iff] at e
  subst e
  refine ⟨key, pk, r, s, { task := py"verify_data_signature", data := some py"I owe you 1 coin", publicKeyHex := some (hex pk), signatureHex := some (hex (r ++ s)) },
    { task := py"verify_data_signature", data := some py"I owe you 2 coins", publicKeyHex := some (hex pk), signatureHex := some (hex (r ++ s)) }, hpk,
    ⟨rfl, p1, rfl, rfl, l1, l2, l3⟩, ⟨rfl, p2, rfl, rfl, l1, l2, l3⟩, big, ?_⟩
  exact hv _ _ rfl rfl rfl rfl rfl rfl

end BT
