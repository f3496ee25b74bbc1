import Verif.Lemmas.Cli
import Verif.Props.Base58
import Verif.Props.Validate
import Verif.Concrete.SampleCreate

/-!
# Properties of the key and data tasks of the CLI (C76, C77, C80)
-/

namespace BT
open Spec

variable {X : Ext}

/-- The bytes of an ASCII text. -/
def asciiBytes (s : Str) : Bytes := s.map fun c => UInt8.ofNat c.toNat

/-- Only printable ASCII characters, tabs and newlines. -/
def PrintableAscii (s : Str) : Prop := ∀ c ∈ s, (0x20 ≤ c.toNat ∧ c.toNat ≤ 0x7e) ∨ c = '\t' ∨ c = '\n'

theorem asciiHex_eq (s : Str) : asciiHex s = hex (asciiBytes s) := bytesHex_eq _

theorem printable_lt {c : Char} (h : (0x20 ≤ c.toNat ∧ c.toNat ≤ 0x7e) ∨ c = '\t' ∨ c = '\n') : c.toNat < 256 := by
  rcases h with h | rfl | rfl
  · omega
  · decide
  · decide

theorem vPrintable_iff (s : Str) : vPrintableAscii s = .ok () ↔ PrintableAscii s := by
  constructor
  · intro h c hc
    by_contra hn
    rw [(C62_printable_ascii s).2 ⟨c, hc, hn⟩] at h
    simp at h
  · exact (C62_printable_ascii s).1

/-! ## C76: signing data -/

/-- **C76**: different texts are different messages. -/
theorem C76_different_texts (s t : Str) (hs : PrintableAscii s) (ht : PrintableAscii t)
    (h : hex (asciiBytes s) = hex (asciiBytes t)) : s = t := by
  replace h := hex_inj h
  unfold asciiBytes at h
  induction s generalizing t with
  | nil => cases t with
    | nil => rfl
    | cons c t => simp at h
  | cons c s ih =>
    cases t with
    | nil => simp at h
    | cons d t =>
      simp only [List.map_cons, List.cons.injEq] at h
      have h1 := printable_lt (hs c (by simp))
      have h2 := printable_lt (ht d (by simp))
      have e : c.toNat = d.toNat := by
        have := congrArg UInt8.toNat h.1
        simp only [UInt8.toNat_ofNat'] at this
        omega
      have e2 : c = d := Char.toNat_inj.1 e
      rw [e2, ih t (fun x hx => hs x (by simp [hx])) (fun x hx => ht x (by simp [hx])) h.2]

/-- **C76**, the verifying task: it ends normally exactly when the text is printable ASCII, key and
signature are 64 bytes of hex and the library gives a verdict; the one line it then prints is
that verdict. -/
theorem C76_verify_exact (X : Ext) (a : CliArgs) (out : List Str) :
    cliVerifyData X a = (out, .ok ()) ↔ ∃ d pk sig b, a.data = some d ∧ PrintableAscii d ∧
      a.publicKeyHex = some pk ∧ IsHex pk ∧ pk.length = 128 ∧ a.signatureHex = some sig ∧ IsHex sig ∧ sig.length = 128 ∧
      X.verifyData pk (hex (asciiBytes d)) sig = .ok b ∧
      out = [if b then py"Valid signature." else py"Invalid signature!"] := by
  constructor
  · intro h
    unfold cliVerifyData at h
    obtain ⟨d, h1, h⟩ := bindOut_out_ok h
    obtain ⟨_, h2, h⟩ := bindOut_out_ok h
    obtain ⟨pk, h3, h⟩ := bindOut_out_ok h
    obtain ⟨_, h4, h⟩ := bindOut_out_ok h
    obtain ⟨sig, h5, h⟩ := bindOut_out_ok h
    obtain ⟨b, h6, h⟩ := bindOut_out_ok h
    simp only [verifySignature, R_bind_eq_ok, asciiHex_eq] at h6
    obtain ⟨_, h7, _, _, _, h8, h9⟩ := h6
    rw [vHexLength_ok] at h7 h8
    refine ⟨d, pk, sig, b, ?_, (vPrintable_iff d).1 h2, ?_, h7.1, ?_, ?_, h8.1, ?_, h9, ?_⟩
    · cases hd : a.data with
      | none => rw [hd] at h1; simp [needStr] at h1
      | some x => rw [hd] at h1; simp [needStr] at h1; rw [h1]
    · cases hd : a.publicKeyHex with
      | none => rw [hd] at h3; simp [needStr] at h3
      | some x => rw [hd] at h3; simp [needStr] at h3; rw [h3]
    · have := h7.2; omega
    · cases hd : a.signatureHex with
      | none => rw [hd] at h5; simp [needStr] at h5
      | some x => rw [hd] at h5; simp [needStr] at h5; rw [h5]
    · have := h8.2; omega
    · cases b <;> simp at h ⊢ <;> exact h.symm
  · rintro ⟨d, pk, sig, b, h1, h2, h3, h4, h5, h6, h7, h8, h9, rfl⟩
    have e1 : vHexLength pk 64 = .ok () := vHexLength_ok.2 ⟨h4, by rw [h5]; rfl⟩
    have e2 : vHexLength sig 64 = .ok () := vHexLength_ok.2 ⟨h7, by rw [h8]; rfl⟩
    unfold cliVerifyData
    simp only [h1, h3, h6, needStr, bindOut_ok, (vPrintable_iff d).2 h2, e1, verifySignature, e2, R_bind_ok, asciiHex_eq, vHex_hex, h9]
    cases b <;> rfl

/-- **C76**, the signing task: with a 32-byte private key accepted by the library and a printable
text, it prints exactly the signature the library makes, and ends normally. -/
theorem C76_sign_succeeds (L : X.Laws) (ST : X.SignTotal) (a : CliArgs) (k d : Str) (hd : a.data = some d) (hp : PrintableAscii d)
    (hk : X.validateKey k = .ok ()) :
    ∃ sig, X.signData k (hex (asciiBytes d)) = .ok sig ∧ cliSignData X k a = ([sig], .ok ()) := by
  obtain ⟨sig, hs⟩ := ST.data_ok k (hex (asciiBytes d)) hk (isHexStr_iff.2 (isHex_hex _))
  obtain ⟨pk, hpk⟩ := L.pub_ok k hk
  refine ⟨sig, hs, ?_⟩
  obtain ⟨k1, k2⟩ := L.key_shape k hk
  have hf := L.format_id k k1 k2
  obtain ⟨p1, p2⟩ := L.pub_shape k pk hpk
  obtain ⟨s1, s2⟩ := L.data_shape _ _ _ hs
  have e1 : vHexLength pk 64 = .ok () := vHexLength_ok.2 ⟨isHexStr_iff.1 p1, by rw [p2]; rfl⟩
  have e2 : vHexLength sig 64 = .ok () := vHexLength_ok.2 ⟨isHexStr_iff.1 s1, by rw [s2]; rfl⟩
  unfold cliSignData
  simp only [hd, needStr, bindOut_ok, (vPrintable_iff d).2 hp, asciiHex_eq, hs, printThen_mk, privateKeyToPublicKey, hf, hk, hpk, R_bind_ok,
    verifySignature, e1, e2, vHex_hex, L.data_verify k pk _ sig hk hpk hs]
  rfl

/-- **C76**: whenever the signing task ends normally it has printed one signature of the text, and
the verifying task, given that text, the public key printed by `get_public_key` for the same
private key and that signature, prints that it is valid. -/
theorem C76_sign_then_verify (X : Ext) (a : CliArgs) (k : Str) (out : List Str) (h : cliSignData X k a = (out, .ok ())) :
    ∃ d pk sig, a.data = some d ∧ PrintableAscii d ∧ out = [sig] ∧ X.signData k (hex (asciiBytes d)) = .ok sig ∧
      cliGetPublicKey X k = ([pk], .ok ()) ∧
      ∀ b : CliArgs, b.data = a.data → b.publicKeyHex = some pk → b.signatureHex = some sig →
        cliVerifyData X b = ([py"Valid signature."], .ok ()) := by
  unfold cliSignData at h
  obtain ⟨d, h1, h⟩ := bindOut_out_ok h
  obtain ⟨_, h2, h⟩ := bindOut_out_ok h
  obtain ⟨sig, h3, h⟩ := bindOut_out_ok h
  simp only [printThen_mk, Prod.mk.injEq] at h
  obtain ⟨h4, h5⟩ := h
  cases hp : privateKeyToPublicKey X k with
  | error e => rw [hp] at h5; simp at h5
  | ok pk =>
    rw [hp] at h4 h5
    simp only [bindOut_ok] at h4 h5
    cases hv : verifySignature X pk (asciiHex d) sig with
    | error e => rw [hv] at h5; simp at h5
    | ok b =>
      rw [hv] at h4 h5
      simp only [bindOut_ok] at h4 h5
      cases b with
      | false => simp at h5
      | true =>
        simp only [Bool.not_true, Bool.false_eq_true, if_false] at h4
        have hd : a.data = some d := by
          cases hd : a.data with
          | none => rw [hd] at h1; simp [needStr] at h1
          | some x => rw [hd] at h1; simp [needStr] at h1; rw [h1]
        refine ⟨d, pk, sig, hd, (vPrintable_iff d).1 h2, h4.symm, by rw [← asciiHex_eq]; exact h3, by simp [cliGetPublicKey, hp], ?_⟩
        intro b hb1 hb2 hb3
        simp only [verifySignature, R_bind_eq_ok, asciiHex_eq] at hv
        obtain ⟨_, v1, _, _, _, v2, v3⟩ := hv
        rw [vHexLength_ok] at v1 v2
        refine (C76_verify_exact X b _).2 ⟨d, pk, sig, true, hb1.trans hd, (vPrintable_iff d).1 h2, hb2, v1.1, by have := v1.2; omega, hb3,
          v2.1, by have := v2.2; omega, v3, rfl⟩

/-! ## C77: the key tasks agree with each other -/

/-- **C77**: for one private key, `get_private_key_wif`, `get_public_key` and `get_address`
succeed or fail together; the public key is 64 bytes, the address is the mainnet P2PKH address of
the hash of the uncompressed public key, and `private_key_wif_to_hex` turns the printed WIF back
into the 32-byte form of the key, for which all tasks print the same. -/
theorem C77_key_tasks (L : X.Laws) (k w : Str) (h : cliGetWif X k = ([w], .ok ())) :
    ∃ (k' : Str) (pk : Bytes) (a : Str), k'.length = 64 ∧ pk.length = 64 ∧ cliGetPublicKey X k = ([hex pk], .ok ()) ∧
      cliGetAddress X k = ([a], .ok ()) ∧ AddressOf X.sha256 a (X.ripemd160 (X.sha256 (4 :: pk))) ∧
      (∀ b : CliArgs, b.privateKeyWif = some w → cliWifToHex X b = ([k'], .ok ())) ∧
      cliGetWif X k' = ([w], .ok ()) ∧ cliGetPublicKey X k' = ([hex pk], .ok ()) ∧ cliGetAddress X k' = ([a], .ok ()) := by
  have hw : privateKeyToWif X k = .ok w := by
    unfold cliGetWif at h
    cases hr : privateKeyToWif X k with
    | error e => rw [hr] at h; simp at h
    | ok x => rw [hr] at h; simp at h; rw [h]
  obtain ⟨k', f1, f2, f3⟩ := C12_wif_round_trip X L k w hw
  have hv : X.validateKey k' = .ok () := by
    simp only [privateKeyToWif, R_bind_eq_ok] at hw
    obtain ⟨k2, g1, _, g2, _⟩ := hw
    rw [f1] at g1
    injection g1 with g1
    subst g1
    exact g2
  obtain ⟨v1, v2⟩ := L.key_shape k' hv
  have f4 := L.format_id k' v1 v2
  obtain ⟨p, hpk⟩ := L.pub_ok k' hv
  · skip
    obtain ⟨p1, p2⟩ := L.pub_shape k' p hpk
    obtain ⟨pk, rfl⟩ := isHex_exists (isHexStr_iff.1 p1)
    have hl : pk.length = 64 := by simp at p2; omega
    refine ⟨k', pk, text58 ((0 :: X.ripemd160 (X.sha256 (4 :: pk))) ++ checksum X.sha256 (0 :: X.ripemd160 (X.sha256 (4 :: pk)))), f2, hl, ?_, ?_,
      ⟨L.rip_len _, text58_denotes _⟩, ?_, ?_, ?_, ?_⟩
    · simp [cliGetPublicKey, privateKeyToPublicKey, f1, hv, hpk]
    · simp [cliGetAddress, privateKeyToAddress, f1, hv, hpk, publicKeyToAddress, getPublicKeyHash_hex X L.rip_len, hashToAddress_hex X L.sha_len]
    · intro b hb
      simp [cliWifToHex, hb, needStr, f3]
    · simp only [privateKeyToWif, f1, R_bind_ok] at hw
      simp only [cliGetWif, privateKeyToWif, f4, R_bind_ok, hw, printR_ok]
    · simp [cliGetPublicKey, privateKeyToPublicKey, f4, hv, hpk]
    · simp [cliGetAddress, privateKeyToAddress, f4, hv, hpk, publicKeyToAddress, getPublicKeyHash_hex X L.rip_len, hashToAddress_hex X L.sha_len]

/-! ## C80: argument checks of `main` -/

/-- **C80**: the tasks that work with one private key refuse to run with none or several. -/
theorem C80_single_key (X : Ext) (a : CliArgs)
    (ht : a.task ∈ [py"get_private_key_wif", py"get_public_key", py"get_address", py"sign_data"]) (hk : a.privateKeysHex.length ≠ 1) :
    cliMain X a = ([], .error .assertionError) := by
  unfold cliMain
  rw [if_pos (by simpa [tasksSingleKey] using ht)]
  have : assertR (a.privateKeysHex.length == 1) = .error .assertionError := by
    have e : (a.privateKeysHex.length == 1) = false := by simpa using hk
    rw [e]; rfl
  rw [this]; rfl

/-- **C80**: with exactly one key they run on that key (`sign_data` also needs data). -/
theorem C80_single_key_runs (X : Ext) (a : CliArgs) (k : Str) (hk : a.privateKeysHex = [k]) :
    (a.task = py"get_private_key_wif" → cliMain X a = cliGetWif X k) ∧
    (a.task = py"get_public_key" → cliMain X a = cliGetPublicKey X k) ∧
    (a.task = py"get_address" → cliMain X a = cliGetAddress X k) ∧
    (a.task = py"sign_data" → ∀ c d, a.data = some (c :: d) → cliMain X a = cliSignData X k a) ∧
    (a.task = py"sign_data" → (a.data = none ∨ a.data = some []) → cliMain X a = ([], .error .valueError)) := by
  have h1 : assertR (a.privateKeysHex.length == 1) = .ok () := by rw [hk]; rfl
  have hh : a.privateKeysHex.headD [] = k := by rw [hk]; rfl
  refine ⟨fun ht => ?_, fun ht => ?_, fun ht => ?_, fun ht c d hd => ?_, fun ht hd => ?_⟩
  · unfold cliMain cliDispatch
    rw [h1, hh, ht]
    rfl
  · unfold cliMain cliDispatch
    rw [h1, hh, ht]
    rfl
  · unfold cliMain cliDispatch
    rw [h1, hh, ht]
    rfl
  · unfold cliMain cliDispatch
    rw [h1, hh, ht, hd]
    rfl
  · unfold cliMain cliDispatch
    rw [h1, hh, ht]
    rcases hd with hd | hd <;> rw [hd] <;> rfl

/-! ## The hypotheses are met -/

namespace Concrete

/-- signing a text with the sample environment -/
example : ∃ sig, cliSignData Xtoy (keys12.headD []) { task := py"sign_data", data := some py"Hello, World~" } = ([sig], .ok ()) := by
  have h1 : vPrintableAscii py"Hello, World~" = .ok () := by decide +kernel
  have h2 : Xtoy.validateKey (keys12.headD []) = .ok () := by decide +kernel
  obtain ⟨sig, _, h⟩ := C76_sign_succeeds Xtoy_laws Xtoy_signTotal { task := py"sign_data", data := some py"Hello, World~" } (keys12.headD []) _ rfl ((vPrintable_iff _).1 h1) h2
  exact ⟨sig, h⟩

/-- the hypothesis of C77 is met -/
example : ∃ w, cliGetWif Xtoy (keys12.headD []) = ([w], .ok ()) := by
  have h1 : (privateKeyToWif Xtoy (keys12.headD [])).isOk = true := by decide +kernel
  obtain ⟨w, hw⟩ := isOk_exists h1
  exact ⟨w, by unfold cliGetWif; rw [hw]; rfl⟩

end Concrete
end BT
