import Verif.Lemmas.Real
import Verif.Props.CliRunWit

/-!
# C91-C93: with the real cryptography

`Xreal` is the environment with SHA-256, RIPEMD-160, secp256k1 ECDSA (RFC 6979) and DER.  Nothing is
assumed about it: `Xreal_laws` is proved.
-/

namespace BT
open Spec Concrete WeierstrassCurve

attribute [local irreducible] ecMul invMod hex32 pP nP gX gY rfcNonce ofHex ecVerify sha256 ripemd160 derEnc

/-! ## C91: what the program prints is a valid spend -/

/-- **C91** for the one-shot task: every input of the transaction it prints is a valid spend of the coin it refers to. -/
theorem C91_one_shot (a : CliArgs) (out : List Str) (hrun : cliOneShot Xreal a = (out, .ok ())) :
    ∃ (coins spent : List Coin) (ins : List RawIn) (outs : List RawOut) (insD : List PVal),
      a.inputs = some (.list insD) ∧ List.Forall₂ (Coin.Described Xreal) insD coins ∧ (∀ c ∈ spent, c ∈ coins) ∧ spent ≠ [] ∧
      out = [hex (txBytes ins outs)] ∧ List.Forall₂ Coin.SpentBy spent ins ∧
      ∀ (j : Nat) (c : Coin) (i : RawIn), spent[j]? = some c → ins[j]? = some i →
        ValidSpend c.owner (signedMessage ins outs j c.owner) i.script := by
  obtain ⟨coins, spent, unused, asked, paid, ins, outs, fee, insD, outsD, design, ca, owner, h1, h2, _, _, _, _, _, h3, h4, h5, h6, _, _,
    _, _, _, _, _, _, _, h7⟩ := C74_end_to_end Xreal_laws a out hrun
  exact ⟨coins, spent, ins, outs, insD, h1, h2, fun c hc => h5.subset (List.mem_append_left _ hc), h6, h3, h4,
    fun j c i hj hi => unlocks_real (h7 j c i hj hi)⟩

/-- **C91** for the whole program: if the run ends with exit status 0, the transaction it printed
spends coins of the input file, and each of its inputs satisfies the rules by which a node accepts it: strict
DER, low s, the key has the hash the coin is locked to, and the ECDSA equation holds in the group
of secp256k1 for the double SHA-256 of the message of that input. -/
theorem C91_program (fs : FS) (sh : Shell) (setup : R Unit) (r : RawArgs)
    (ht : r.task = py"create_transaction" ∨ r.task = py"create_sign_and_verify_transaction_hex")
    (hrun : exitStatus (cliRun Xreal fs sh setup r) = 0) :
    ∃ (coins spent : List Coin) (ins : List RawIn) (outs : List RawOut) (fi ti : Str) (insD : List PVal),
      r.inputFile = some fi ∧ fs.read fi = .ok ti ∧ Xreal.jsonLoads ti = .ok (.list insD) ∧
      List.Forall₂ (Coin.Described Xreal) insD coins ∧ (∀ c ∈ spent, c ∈ coins) ∧ spent ≠ [] ∧
      (cliRun Xreal fs sh setup r).1 = [hex (txBytes ins outs)] ∧ List.Forall₂ Coin.SpentBy spent ins ∧
      ∀ (j : Nat) (c : Coin) (i : RawIn), spent[j]? = some c → ins[j]? = some i →
        ValidSpend c.owner (signedMessage ins outs j c.owner) i.script := by
  obtain ⟨coins, spent, unused, asked, paid, ins, outs, fee, fi, fd, ti, td, insD, outsD, design, ca, owner, h1, h2, h3, _, _, _, h4, _, _, _, _,
    h5, h6, h7, h8, _, _, _, _, _, _, _, _, _, h9⟩ := C74_program Xreal_laws fs sh setup r ht hrun
  exact ⟨coins, spent, ins, outs, fi, ti, insD, h1, h2, h3, h4, fun c hc => h7.subset (List.mem_append_left _ hc), h8, h5, h6,
    fun j c i hj hi => unlocks_real (h9 j c i hj hi)⟩

/-! ## C92: keys -/

theorem hex32_bytes (n : Nat) : ∃ b : Bytes, hex32 n = hex b ∧ b.length = 32 ∧ beNat b = n % 2 ^ 256 := by
  have e := hex32_eq n
  have v : beNat ((beBytes 32 n).map UInt8.ofNat) = n % 256 ^ 32 := beNat_beBytes 32 n
  have p : (256 : Nat) ^ 32 = 2 ^ 256 := by decide +kernel
  rw [p] at v
  exact ⟨_, e, by rw [List.length_map, beBytes_length], v⟩

theorem pubOf_point {k p : Str} (hk : valKey k = .ok ()) (h : pubOf k = .ok p) :
    ∃ pk, p = hex pk ∧ KeyBytes pk (ofHex k • G) := by
  obtain ⟨x, y, hm, rfl⟩ := pubOf_ok h
  have nlt := nP_lt
  have plt := pP_lt
  have hr := mulG_rep (k := ofHex k) (lt_trans (valKey_bounds hk).2 nlt)
  rw [hm] at hr
  obtain ⟨h1, h2, hns, he⟩ := hr
  obtain ⟨bx, e1, l1, v1⟩ := hex32_bytes x
  obtain ⟨yb, e2, l2, v2⟩ := hex32_bytes y
  rw [Nat.mod_eq_of_lt (lt_trans h1 plt)] at v1
  rw [Nat.mod_eq_of_lt (lt_trans h2 plt)] at v2
  refine ⟨bx ++ yb, by rw [e1, e2, hex_append], by simp [l1, l2], ?_⟩
  rw [List.take_left' l1, List.drop_left' l1, v1, v2]
  exact ⟨h1, h2, hns, he⟩

theorem valKey_iff {k : Str} : valKey k = .ok () ↔ ∃ b : Bytes, k = hex b ∧ b.length = 32 ∧ 1 ≤ beNat b ∧ beNat b < nP := by
  constructor
  · intro h
    have hs := valKey_shape h
    simp only [Bool.and_eq_true, beq_iff_eq] at hs
    obtain ⟨b, rfl⟩ := isHex_exists (isHexStr_iff.1 hs.1)
    have hb := valKey_bounds h
    rw [ofHex_hex] at hb
    exact ⟨b, rfl, by have := hs.2; rw [hex_length] at this; omega, hb.1, hb.2⟩
  · rintro ⟨b, rfl, hl, h1, h2⟩
    unfold valKey
    rw [if_pos]
    simp only [Bool.and_eq_true, beq_iff_eq, decide_eq_true_eq, hex_length, hl, ofHex_hex]
    exact ⟨⟨⟨isHexStr_iff.2 (isHex_hex _), trivial⟩, h1⟩, h2⟩

/-- **C92**: a 32-byte private key is accepted exactly if it is a number from 1 to n - 1, and then its public key is
that multiple of the generator. -/
theorem C92_public_key (b : Bytes) (hl : b.length = 32) (p : Str) :
    privateKeyToPublicKey Xreal (hex b) = .ok p ↔
      1 ≤ beNat b ∧ beNat b < nP ∧ ∃ pk, p = hex pk ∧ KeyBytes pk (beNat b • G) := by
  have hf : Xreal.formatKey (hex b) = .ok (hex b) := Xreal_laws.format_id _ (isHexStr_iff.2 (isHex_hex _)) (by rw [hex_length, hl])
  have key : privateKeyToPublicKey Xreal (hex b) = .ok p ↔ valKey (hex b) = .ok () ∧ pubOf (hex b) = .ok p := by
    unfold privateKeyToPublicKey
    rw [hf, R_bind_ok, R_bind_eq_ok]
    exact ⟨fun ⟨_, h1, h2⟩ => ⟨h1, h2⟩, fun ⟨h1, h2⟩ => ⟨_, h1, h2⟩⟩
  rw [key]
  constructor
  · rintro ⟨h1, h2⟩
    obtain ⟨b', e, _, h3, h4⟩ := valKey_iff.1 h1
    rw [hex_inj_iff] at e
    subst e
    have := pubOf_point h1 h2
    rw [ofHex_hex] at this
    exact ⟨h3, h4, this⟩
  · rintro ⟨h1, h2, pk, rfl, hpk⟩
    have hv : valKey (hex b) = .ok () := valKey_iff.2 ⟨b, rfl, hl, h1, h2⟩
    obtain ⟨q, hq⟩ := Xreal_laws.pub_ok _ hv
    have hq' : pubOf (hex b) = .ok q := hq
    obtain ⟨pk', rfl, hpk'⟩ := pubOf_point hv hq'
    rw [ofHex_hex] at hpk'
    refine ⟨hv, ?_⟩
    rw [hq']
    obtain ⟨l1, a1, a2, ns, e⟩ := hpk
    obtain ⟨l2, b1, b2, ns', e'⟩ := hpk'
    rw [e] at e'
    simp only [Affine.Point.some.injEq] at e'
    have x1 := (natCast_inj_of_lt a1 b1).1 e'.1
    have x2 := (natCast_inj_of_lt a2 b2).1 e'.2
    have y1 := beNat_inj (by simp [l1, l2]) x1
    have y2 := beNat_inj (by simp [l1, l2]) x2
    rw [← List.take_append_drop 32 pk, ← List.take_append_drop 32 pk', y1, y2]

/-- **C92**: different private keys have different public keys. -/
theorem C92_injective (k k' p : Str) (hk : k.length = 64) (hk' : k'.length = 64) (h : privateKeyToPublicKey Xreal k = .ok p)
    (h' : privateKeyToPublicKey Xreal k' = .ok p) : k = k' := by
  have shape : ∀ x : Str, x.length = 64 → privateKeyToPublicKey Xreal x = .ok p → ∃ b : Bytes, x = hex b ∧ b.length = 32 := by
    intro x hx h
    have : ∃ y, Xreal.formatKey x = .ok y := by
      unfold privateKeyToPublicKey at h
      rw [R_bind_eq_ok] at h
      exact ⟨_, h.choose_spec.1⟩
    obtain ⟨y, hy⟩ := this
    have hy : fmtKey x = .ok y := hy
    unfold fmtKey at hy
    split at hy
    · rename_i hc
      simp only [Bool.and_eq_true] at hc
      obtain ⟨b, rfl⟩ := isHex_exists (isHexStr_iff.1 hc.1)
      exact ⟨b, rfl, by rw [hex_length] at hx; omega⟩
    · simp at hy
  obtain ⟨b, rfl, l1⟩ := shape k hk h
  obtain ⟨b', rfl, l2⟩ := shape k' hk' h'
  obtain ⟨g1, g2, pk, rfl, _, _, _, _, e⟩ := (C92_public_key b l1 p).1 h
  obtain ⟨g1', g2', pk', e1, _, _, _, _, e'⟩ := (C92_public_key b' l2 _).1 h'
  rw [hex_inj_iff] at e1
  subst e1
  have : beNat b • G = beNat b' • G := by rw [e, e']
  rw [smul_eq_iff, ZMod.natCast_eq_natCast_iff', Nat.mod_eq_of_lt g2, Nat.mod_eq_of_lt g2'] at this
  rw [beNat_inj (by rw [l1, l2]) this]

/-- **C92**: the address of a private key is the P2PKH address of its multiple of the generator. -/
theorem C92_address (b : Bytes) (hl : b.length = 32) (h1 : 1 ≤ beNat b) (h2 : beNat b < nP) :
    ∃ (a : Str) (pk : Bytes), privateKeyToAddress Xreal (hex b) = .ok a ∧ KeyBytes pk (beNat b • G) ∧
      AddressOf sha256 a (ripemd160 (sha256 (4 :: pk))) := by
  have hv : valKey (hex b) = .ok () := valKey_iff.2 ⟨b, rfl, hl, h1, h2⟩
  have hf : Xreal.formatKey (hex b) = .ok (hex b) := Xreal_laws.format_id _ (isHexStr_iff.2 (isHex_hex _)) (by rw [hex_length, hl])
  obtain ⟨q, hq⟩ := Xreal_laws.pub_ok _ hv
  obtain ⟨pk, rfl, hpk⟩ := pubOf_point hv hq
  rw [ofHex_hex] at hpk
  have ha := getPublicKeyHash_hex Xreal Xreal_laws.rip_len pk
  have hA0 : ∃ a, publicKeyToAddress Xreal (hex pk) = .ok a := by
    unfold publicKeyToAddress
    rw [ha, R_bind_ok, hashToAddress_hex Xreal Xreal_laws.sha_len]
    exact ⟨_, rfl⟩
  obtain ⟨a, hA⟩ := hA0
  refine ⟨a, pk, ?_, hpk, (C10_public_key_address Xreal Xreal_laws pk a).1 hA⟩
  unfold privateKeyToAddress
  rw [hf, R_bind_ok]
  have hv' : Xreal.validateKey (hex b) = .ok () := hv
  rw [hv', R_bind_ok, hq, R_bind_ok, hA]

/-- **C92**: address and hash are in one-to-one correspondence without exception (for SHA-256 the
checksum that C10 excludes does not occur). -/
theorem C92_address_round_trip (h : Bytes) (hl : h.length = 20) :
    (hashToAddress Xreal (hex h) >>= addressToHash Xreal) = .ok (hex h) := by
  refine C10_address_round_trip Xreal Xreal_laws.sha_len h hl ?_
  rintro ⟨_, hc⟩
  exact absurd hc (by decide +kernel)

/-! ## C93: verdicts on signed data -/

/-- **C93**: the verdict of `verify_data_signature` on a text, a public key and a signature is "valid" exactly if
the key is a point of the curve and the signature is a low-s ECDSA signature of the SHA-256 of the
text under it. -/
theorem C93_verify_data (a : CliArgs) (d : Str) (pk r s : Bytes) (hd : a.data = some d) (hp : PrintableAscii d)
    (hpk : a.publicKeyHex = some (hex pk)) (hsig : a.signatureHex = some (hex (r ++ s)))
    (l1 : pk.length = 64) (l2 : r.length = 32) (l3 : s.length = 32) :
    (cliVerifyData Xreal a = ([py"Valid signature."], .ok ()) ↔
      ∃ Q, KeyBytes pk Q ∧ EcdsaValid Q (beNat (sha256 (asciiBytes d))) (beNat r) (beNat s) ∧ 2 * beNat s ≤ nP) ∧
    (cliVerifyData Xreal a = ([py"Valid signature."], .ok ()) ∨ cliVerifyData Xreal a = ([py"Invalid signature!"], .ok ())) := by
  have hval : ofBE ((sha256 (asciiBytes d)).map UInt8.toNat) = beNat (sha256 (asciiBytes d)) := by
    have hb : ∀ x ∈ (sha256 (asciiBytes d)).map UInt8.toNat, x < 256 := by
      intro x hx
      obtain ⟨y, _, rfl⟩ := List.mem_map.1 hx
      exact y.toNat_lt
    rw [ofBE, ← beNat_map hb, List.map_map]
    congr 1
    conv_rhs => rw [← List.map_id (sha256 (asciiBytes d))]
    exact List.map_congr_left fun x _ => by simp
  have hv : Xreal.verifyData (hex pk) (hex (asciiBytes d)) (hex (r ++ s)) = .ok (ecVerify (hex pk) (beNat (sha256 (asciiBytes d))) (hex (r ++ s))) := by
    change (fromHex (hex (asciiBytes d)) >>= fun b => pure (ecVerify (hex pk) (ofBE ((sha256 b).map UInt8.toNat)) (hex (r ++ s)))) = _
    rw [fromHex_hex, R_bind_ok, hval]
    rfl
  have run : ∀ out, cliVerifyData Xreal a = (out, .ok ()) ↔
      out = [if ecVerify (hex pk) (beNat (sha256 (asciiBytes d))) (hex (r ++ s)) then py"Valid signature." else py"Invalid signature!"] := by
    intro out
    rw [C76_verify_exact]
    constructor
    · rintro ⟨d', pk', sig', b, e1, _, e2, _, _, e3, _, _, e4, rfl⟩
      rw [hd] at e1; rw [hpk] at e2; rw [hsig] at e3
      cases e1; cases e2; cases e3
      rw [hv] at e4
      cases e4
      rfl
    · rintro rfl
      exact ⟨d, _, _, _, hd, hp, hpk, isHex_hex _, by rw [hex_length, l1], hsig, isHex_hex _, by simp [l2, l3], hv, rfl⟩
  rw [← ecVerify_iff l1 l2]
  cases hb : ecVerify (hex pk) (beNat (sha256 (asciiBytes d))) (hex (r ++ s)) with
  | true =>
    have := (run _).2 rfl
    rw [hb] at this
    exact ⟨⟨fun _ => rfl, fun _ => this⟩, .inl this⟩
  | false =>
    have := (run _).2 rfl
    rw [hb] at this
    refine ⟨⟨fun h => ?_, fun h => by simp at h⟩, .inr this⟩
    rw [this] at h
    exact absurd h (by decide)

end BT
