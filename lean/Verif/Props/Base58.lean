import Verif.Lemmas.Address
import Verif.Concrete.Ecdsa

/-! # C06-C15: base58, addresses, scripts, WIF -/

namespace BT
open Spec

/-- **C06**: for a hex string of positive value, the base58 text consists of alphabet
characters, does not start with '1', has the same value in base 58, and decodes to the number. -/
theorem C06_base58_round_trip (u : UniDB) (b : Bytes) (h : 0 < beNat b) :
    ∃ s, hexToBase58 u (hex b) = .ok s ∧ (∀ c ∈ s, c ∈ alphabet58) ∧ s.head? ≠ some '1' ∧
      value58 s = beNat b ∧ base58ToInt s = .ok (beNat b : Int) := by
  have hne : b ≠ [] := by rintro rfl; simp [beNat] at h
  refine ⟨enc58 (beNat b), hexToBase58_hex u hne, enc58_alphabet _, enc58_head, value58_enc58 _, ?_⟩
  rw [base58ToInt_eq (enc58_alphabet _), value58_enc58, if_pos h]

/-- **C06**: a non-empty hex string of value 0 gives the empty text, and a base58 string of
value 0 (empty or only '1's) is refused. -/
theorem C06_base58_zero (u : UniDB) (b : Bytes) (hne : b ≠ []) (h : beNat b = 0) :
    hexToBase58 u (hex b) = .ok [] ∧ ∀ k, base58ToInt (List.replicate k '1') = .error .valueError := by
  constructor
  · rw [hexToBase58_hex u hne, h]; simp [enc58]
  · intro k
    have ha : ∀ c ∈ List.replicate k '1', c ∈ alphabet58 := by
      intro c hc; rw [List.eq_of_mem_replicate hc]; decide
    have : value58 (List.replicate k '1') = 0 := by
      have := value58_ones k []; simpa [value58] using this
    rw [base58ToInt_eq ha, this]; rfl

/-- **C06**: `base58_to_int` succeeds exactly on alphabet strings of positive value and returns
the positional value. -/
theorem C06_base58_to_int (s : Str) (n : Int) :
    base58ToInt s = .ok n ↔ (∀ c ∈ s, c ∈ alphabet58) ∧ 0 < value58 s ∧ n = value58 s := by
  by_cases h : ∀ c ∈ s, c ∈ alphabet58
  · rw [base58ToInt_eq h]
    by_cases hv : 0 < value58 s
    · rw [if_pos hv]; simp only [Except.ok.injEq]
      exact ⟨fun e => ⟨h, hv, e.symm⟩, fun e => e.2.2.symm⟩
    · rw [if_neg hv]; simp [hv]
  · have h' := h
    push Not at h'
    rw [base58ToInt_err h']; simp [h]

/-- **C06**: `base58_to_int` is injective on strings without a leading '1'. -/
theorem C06_base58_injective (s t : Str) (n : Int) (hs : base58ToInt s = .ok n)
    (ht : base58ToInt t = .ok n) (h1 : s.head? ≠ some '1') (h2 : t.head? ≠ some '1') : s = t := by
  obtain ⟨a, _, e1⟩ := (C06_base58_to_int s n).1 hs
  obtain ⟨b, _, e2⟩ := (C06_base58_to_int t n).1 ht
  exact value58_inj a b h1 h2 (by omega)

/-- **C07**: decoding inverts encoding for every payload, except when the payload is all zero
bytes and its checksum begins with a zero byte. -/
theorem C07_base58check_round_trip (X : Ext) (hs : ∀ b, (X.sha256 b).length = 32) (p : Bytes)
    (h : ¬ ((∀ x ∈ p, x = 0) ∧ (checksum X.sha256 p).head? = some 0)) :
    (hexToBase58check X (hex p) >>= base58checkToHex X) = .ok (hex p) := by
  rw [hexToBase58check_hex X hs, R_bind_ok, decode_encode X hs p h]

/-- **C07**, the exceptional payloads: encoding succeeds but decoding raises ValueError. -/
theorem C07_base58check_exception (X : Ext) (hs : ∀ b, (X.sha256 b).length = 32) (p : Bytes)
    (h : (∀ x ∈ p, x = 0) ∧ (checksum X.sha256 p).head? = some 0) :
    ∃ s, hexToBase58check X (hex p) = .ok s ∧ base58checkToHex X s = .error .valueError :=
  ⟨_, hexToBase58check_hex X hs p, decode_encode_exc X hs p h⟩

/-- **C08**: an accepted base58check string is the encoding of its payload. -/
theorem C08_base58check_canonical (X : Ext) (hs : ∀ b, (X.sha256 b).length = 32) (s x : Str)
    (h : base58checkToHex X s = .ok x) : hexToBase58check X x = .ok s := by
  obtain ⟨_, _, _, he⟩ := encode_decode X hs h
  exact he

/-- **C08**: two different accepted strings never denote the same payload. -/
theorem C08_not_malleable (X : Ext) (hs : ∀ b, (X.sha256 b).length = 32) (s t x : Str)
    (h1 : base58checkToHex X s = .ok x) (h2 : base58checkToHex X t = .ok x) : s = t := by
  have a := C08_base58check_canonical X hs s x h1
  have b := C08_base58check_canonical X hs t x h2
  rw [a] at b; simpa using b

/-- **C09**: a character outside the alphabet raises ValueError. -/
theorem C09_bad_character (X : Ext) (s : Str) (h : ∃ c ∈ s, c ∉ alphabet58) :
    base58checkToHex X s = .error .valueError := base58checkToHex_char X h

/-- **C09**: fewer than four bytes, or a wrong checksum, raise ValueError. -/
theorem C09_bad_checksum (X : Ext) (hs : ∀ b, (X.sha256 b).length = 32) (s : Str) (f : Bytes)
    (hd : Denotes58 s f)
    (h : f.length < 4 ∨ f.drop (f.length - 4) ≠ checksum X.sha256 (f.take (f.length - 4))) :
    base58checkToHex X s = .error .valueError := by
  cases hr : base58checkToHex X s with
  | error e => rw [base58checkToHex_err X hr]
  | ok x =>
    exfalso
    obtain ⟨p, rfl, hp, _⟩ := encode_decode X hs hr
    have hcl : (checksum X.sha256 p).length = 4 := by simp [checksum, hs]
    have e : f = p ++ checksum X.sha256 p := by
      obtain ⟨_, m, rfl, h1, h2⟩ := hd
      obtain ⟨_, m', h3, h4, h5⟩ := hp
      rw [h3]
      congr 1
      by_cases h0 : value58 s = 0
      · rw [head_zero_beNat (h2.trans h0) h1, head_zero_beNat (h5.trans h0) h4]
      · have g : ∀ k : Bytes, beNat k = value58 s → k ≠ [] := by
          rintro k hk rfl; exact h0 (by rw [← hk]; rfl)
        rw [← minBytes_beNat m (g m h2) h1, ← minBytes_beNat m' (g m' h5) h4, h2, h5]
    rcases h with h | h
    · rw [e] at h; simp [hcl] at h
    · apply h
      have e2 : f.length - 4 = p.length := by rw [e]; simp [hcl]
      rw [e2, e, List.drop_left, List.take_left]

/-- **C09**: every alphabet string denotes exactly one byte string, so the two theorems above
cover all strings; everything else that is refused is refused with ValueError too. -/
theorem C09_denotes (s : Str) (h : ∀ c ∈ s, c ∈ alphabet58) : ∃! f, Denotes58 s f := by
  by_cases h0 : value58 s = 0
  · refine ⟨List.replicate (s.takeWhile (· == '1')).length 0 ++ [], ⟨h, [], rfl, by simp, by simp [h0, beNat]⟩, ?_⟩
    rintro g ⟨_, m, rfl, h1, h2⟩
    rw [head_zero_beNat (h2.trans h0) h1]
  · refine ⟨_, ⟨h, minBytes (value58 s), rfl, minBytes_head _ h0, beNat_minBytes _⟩, ?_⟩
    rintro g ⟨_, m, rfl, h1, h2⟩
    have : m ≠ [] := by rintro rfl; exact h0 (by rw [← h2]; rfl)
    rw [← minBytes_beNat m this h1, h2]

/-- **C09**: only ValueError is ever raised. -/
theorem C09_error_kind (X : Ext) (s : Str) (e : Err) (h : base58checkToHex X s = .error e) :
    e = .valueError := base58checkToHex_err X h

/-- **C09**, converse: a correct checksum is accepted (outside the exceptional payloads). -/
theorem C09_good_checksum (X : Ext) (hs : ∀ b, (X.sha256 b).length = 32) (s : Str) (p : Bytes)
    (hd : Denotes58 s (p ++ checksum X.sha256 p))
    (h : ¬ ((∀ x ∈ p, x = 0) ∧ (checksum X.sha256 p).head? = some 0)) :
    base58checkToHex X s = .ok (hex p) := by
  rw [← denotes_text58 hd]; exact decode_encode X hs p h

/-- **C10**: address ↔ public key hash round trip. -/
theorem C10_address_round_trip (X : Ext) (hs : ∀ b, (X.sha256 b).length = 32) (h : Bytes)
    (hl : h.length = 20)
    (hz : ¬ ((∀ x ∈ h, x = 0) ∧ (checksum X.sha256 (List.replicate 21 0)).head? = some 0)) :
    (hashToAddress X (hex h) >>= addressToHash X) = .ok (hex h) := by
  rw [hashToAddress_hex X hs, R_bind_ok]
  refine (addressToHash_ok X hs).2 ⟨h, hl, rfl, ?_⟩
  apply decode_encode X hs
  rintro ⟨h1, h2⟩
  apply hz
  have h3 : ∀ x ∈ h, x = 0 := fun x hx => h1 x (by simp [hx])
  refine ⟨h3, ?_⟩
  have : (0 : UInt8) :: h = List.replicate 21 0 := by
    rw [List.eq_replicate_of_mem h3, hl]; rfl
  rwa [this] at h2

/-- **C10**: the text made from a 20-byte hash is its standard mainnet address: the base58 form of
version byte 0, hash and checksum; nothing else is one. -/
theorem C10_standard_address (X : Ext) (hs : ∀ b, (X.sha256 b).length = 32) (h : Bytes) (hl : h.length = 20) (a : Str) :
    hashToAddress X (hex h) = .ok a ↔ AddressOf X.sha256 a h := by
  rw [hashToAddress_hex X hs]
  constructor
  · intro e
    injection e with e
    subst e
    exact ⟨hl, text58_denotes _⟩
  · rintro ⟨_, hd⟩
    rw [← denotes_text58 hd]

/-- **C10**: the address of a public key is that of RIPEMD-160 after SHA-256 of the byte 04 and the 64 bytes. -/
theorem C10_public_key_address (X : Ext) (L : X.Laws) (pk : Bytes) (a : Str) :
    publicKeyToAddress X (hex pk) = .ok a ↔ AddressOf X.sha256 a (X.ripemd160 (X.sha256 (4 :: pk))) := by
  rw [← C10_standard_address X L.sha_len _ (L.rip_len _)]
  simp [publicKeyToAddress, getPublicKeyHash_hex X L.rip_len]

/-- **C11**: an accepted address is the address of exactly one 20-byte hash. -/
theorem C11_accepted_address (X : Ext) (hs : ∀ b, (X.sha256 b).length = 32) (s : Str)
    (h : vBitcoinAddress X s = .ok ()) :
    ∃! b : Bytes, b.length = 20 ∧ hashToAddress X (hex b) = .ok s ∧ addressToHash X s = .ok (hex b) := by
  obtain ⟨x, hx⟩ := (vBitcoinAddress_ok X).1 h
  obtain ⟨b, hb, rfl, _⟩ := (addressToHash_ok X hs).1 hx
  refine ⟨b, ⟨hb, hashToAddress_of_hash X hs hx, hx⟩, ?_⟩
  rintro c ⟨_, _, hc⟩
  rw [hx] at hc
  exact (hex_inj (by simpa using hc)).symm

/-- **C11**: the hash behind a string is unique even without knowing that it is accepted:
different 20-byte hashes have different addresses. -/
theorem C11_address_injective (X : Ext) (hs : ∀ b, (X.sha256 b).length = 32) (g h : Bytes)
    (hl : g.length = h.length) (he : hashToAddress X (hex g) = hashToAddress X (hex h)) : g = h := by
  rw [hashToAddress_hex X hs, hashToAddress_hex X hs, Except.ok.injEq] at he
  have hv := congrArg value58 he
  rw [value58_text58, value58_text58] at hv
  have := beNat_inj (by simp [hl, checksum, hs]) hv
  have h2 := List.append_inj this (by simp [hl])
  simpa using h2.1

/-- **C11**: every other string raises ValueError. -/
theorem C11_rejected_address (X : Ext) (s : Str) :
    vBitcoinAddress X s = .ok () ∨ vBitcoinAddress X s = .error .valueError := by
  cases h : vBitcoinAddress X s with
  | ok u => left; rfl
  | error e =>
    right
    simp only [vBitcoinAddress, R_bind_eq_err] at h
    rcases h with h | ⟨_, _, h⟩
    · rw [addressToHash_err X h]
    · simp at h

/-- **C11**: a payload with another version byte or another length is refused. -/
theorem C11_other_payloads (X : Ext) (hs : ∀ b, (X.sha256 b).length = 32) (s : Str) (p : Bytes)
    (h : base58checkToHex X s = .ok (hex p)) (hp : p.head? ≠ some 0 ∨ p.length ≠ 21) :
    vBitcoinAddress X s = .error .valueError := by
  rcases C11_rejected_address X s with hc | hc
  · exfalso
    obtain ⟨x, hx⟩ := (vBitcoinAddress_ok X).1 hc
    obtain ⟨b, hb, rfl, hd⟩ := (addressToHash_ok X hs).1 hx
    rw [h] at hd
    have : p = 0 :: b := hex_inj (by simpa using hd)
    subst this
    simp [hb] at hp
  · exact hc

/-- **C12**: the WIF text is the base58 form of the byte 80, the 32 key bytes and the checksum. -/
theorem C12_wif_layout (X : Ext) (L : X.Laws) (k w : Str) (h : privateKeyToWif X k = .ok w) :
    ∃ b : Bytes, b.length = 32 ∧ X.formatKey k = .ok (hex b) ∧ X.validateKey (hex b) = .ok () ∧
      Denotes58 w ((0x80 :: b) ++ checksum X.sha256 (0x80 :: b)) := by
  simp only [privateKeyToWif, R_bind_eq_ok] at h
  obtain ⟨k', hf, _, hv, hw⟩ := h
  obtain ⟨h1, h2⟩ := L.key_shape k' hv
  obtain ⟨b, rfl⟩ := isHex_exists (isHexStr_iff.1 h1)
  have hb : b.length = 32 := by simp at h2; omega
  refine ⟨b, hb, hf, hv, ?_⟩
  have e : py"80" ++ hex b = hex (0x80 :: b) := by rw [hex_cons]; rfl
  rw [e, hexToBase58check_hex X L.sha_len, Except.ok.injEq] at hw
  subst hw
  exact text58_denotes _

/-- **C12**: WIF round trip: the decoder returns the 32-byte form of the key that was encoded. -/
theorem C12_wif_round_trip (X : Ext) (L : X.Laws) (k w : Str) (h : privateKeyToWif X k = .ok w) :
    ∃ k', X.formatKey k = .ok k' ∧ k'.length = 64 ∧ wifToPrivateKey X w = .ok k' := by
  simp only [privateKeyToWif, R_bind_eq_ok] at h
  obtain ⟨k', hf, _, hv, hw⟩ := h
  obtain ⟨h1, h2⟩ := L.key_shape k' hv
  obtain ⟨b, rfl⟩ := isHex_exists (isHexStr_iff.1 h1)
  have hb : b.length = 32 := by simp at h2; omega
  refine ⟨_, hf, h2, ?_⟩
  have e : py"80" ++ hex b = hex (0x80 :: b) := by rw [hex_cons]; rfl
  rw [e, hexToBase58check_hex X L.sha_len, Except.ok.injEq] at hw
  subst hw
  have hd := decode_encode X L.sha_len (0x80 :: b) (by
    rintro ⟨h, _⟩; have := h 0x80 (by simp); revert this; decide)
  simp only [wifToPrivateKey, hd, R_bind_ok]
  rw [show (2 : Nat) = 2 * 1 from rfl, hex_drop]
  simp [hv]

/-- **C13** (what holds): a decoded WIF key is the last 32 bytes of a checksummed payload of
33 bytes and is an accepted key; the version byte `v` is arbitrary. -/
theorem C13_wif_partial (X : Ext) (L : X.Laws) (w k : Str) (h : wifToPrivateKey X w = .ok k) :
    X.validateKey k = .ok () ∧ ∃ v : UInt8, hexToBase58check X (hex [v] ++ k) = .ok w := by
  simp only [wifToPrivateKey, R_bind_eq_ok] at h
  obtain ⟨x, hx, _, hv, hk⟩ := h
  obtain ⟨p, rfl, _, he⟩ := encode_decode X L.sha_len hx
  rw [show (2 : Nat) = 2 * 1 from rfl, hex_drop] at hv hk
  simp only [R_pure, Except.ok.injEq] at hk
  subst hk
  refine ⟨hv, ?_⟩
  cases p with
  | nil => have := (L.key_shape _ hv).2; simp at this
  | cons v p =>
    refine ⟨v, ?_⟩
    simp only [List.drop_succ_cons, List.drop_zero]
    rw [← hex_append]; exact he

/-- **C13** violated: the network byte is not checked.  For every accepted key and every
non-zero version byte (in particular the testnet byte ef) the WIF text with that byte is
decoded to the key. -/
theorem C13_violation (X : Ext) (L : X.Laws) (k : Str) (hk : X.validateKey k = .ok ()) (v : UInt8)
    (hv : v ≠ 0) :
    ∃ w, hexToBase58check X (hex [v] ++ k) = .ok w ∧ wifToPrivateKey X w = .ok k := by
  obtain ⟨h1, h2⟩ := L.key_shape k hk
  obtain ⟨b, rfl⟩ := isHex_exists (isHexStr_iff.1 h1)
  refine ⟨_, by rw [← hex_append]; exact hexToBase58check_hex X L.sha_len _, ?_⟩
  have hd := decode_encode X L.sha_len ([v] ++ b) (by
    rintro ⟨h, _⟩; exact hv (h v (by simp)))
  simp only [wifToPrivateKey, hd, R_bind_ok]
  rw [show (2 : Nat) = 2 * 1 from rfl, hex_drop]
  simp [hk]

/-- **C14**: the script of an accepted address is the 25-byte P2PKH script of its hash with
length byte 19, and `script_pub_key_to_address` maps it back to the address. -/
theorem C14_script_round_trip (X : Ext) (hs : ∀ b, (X.sha256 b).length = 32) (a : Str)
    (h : vBitcoinAddress X a = .ok ()) :
    ∃ b : Bytes, b.length = 20 ∧ addressToHash X a = .ok (hex b) ∧
      addressToScriptPubKey X a = .ok (hex (p2pkh b), py"19") ∧
      (p2pkh b).length = 25 ∧ scriptPubKeyToAddress X (hex (p2pkh b)) = .ok a := by
  obtain ⟨x, hx⟩ := (vBitcoinAddress_ok X).1 h
  obtain ⟨b, hb, rfl, _⟩ := (addressToHash_ok X hs).1 hx
  refine ⟨b, hb, hx, ?_, by simp [p2pkh, hb], ?_⟩
  · exact (addressToScriptPubKey_ok X hs).2 ⟨b, hb, hx, rfl⟩
  · rw [p2pkh, scriptPubKeyToAddress_mid X _ b _ rfl rfl]
    exact hashToAddress_of_hash X hs hx

/-- **C14**: a string that is not an accepted address has no script. -/
theorem C14_script_rejects (X : Ext) (a : Str) (h : vBitcoinAddress X a ≠ .ok ()) :
    addressToScriptPubKey X a = .error .valueError := by
  cases hx : addressToHash X a with
  | ok x => exact absurd ((vBitcoinAddress_ok X).2 ⟨x, hx⟩) h
  | error e => simp [addressToScriptPubKey, hx, addressToHash_err X hx]

/-- **C15** (what holds): for a P2PKH script the address of its hash is returned. -/
theorem C15_p2pkh_partial (X : Ext) (h : Bytes) :
    scriptPubKeyToAddress X (hex (p2pkh h)) = hashToAddress X (hex h) := by
  rw [p2pkh]; exact scriptPubKeyToAddress_mid X _ h _ rfl rfl

/-- **C15** violated: every hex script whatsoever is rendered as an address; the first three
and the last two bytes are not looked at. -/
theorem C15_violation (X : Ext) (hs : ∀ b, (X.sha256 b).length = 32) :
    (∀ b : Bytes, ∃ a, scriptPubKeyToAddress X (hex b) = .ok a) ∧
    (∀ a h c : Bytes, a.length = 3 → c.length = 2 →
      scriptPubKeyToAddress X (hex (a ++ h ++ c)) = scriptPubKeyToAddress X (hex (p2pkh h))) := by
  constructor
  · intro b
    have : slice (hex b) 6 ((hex b).length - 4) = hex ((b.drop 3).take (b.length - 2 - 3)) := by
      rw [slice, show (6 : Nat) = 2 * 3 from rfl, hex_drop, ← hex_take, hex_length]
      congr 1; omega
    rw [scriptPubKeyToAddress, this, hashToAddress_hex X hs]
    exact ⟨_, rfl⟩
  · intro a h c ha hc
    rw [scriptPubKeyToAddress_mid X a h c ha hc, C15_p2pkh_partial]

/-! ## Witnesses -/

example : 0 < beNat [0, 1, 2] := by decide
example : beNat [0, 0] = 0 ∧ ([0, 0] : Bytes) ≠ [] := by decide
/-- the hypotheses of C07 hold for a real payload (and the exception is not met) -/
example : ¬ ((∀ x ∈ ([0, 0, 7] : Bytes), x = 0) ∧
    (checksum Concrete.Xreal.sha256 [0, 0, 7]).head? = some 0) := by decide
/-- the SHA-256 of the concrete environment satisfies the length hypothesis -/
example : ∀ b, (Concrete.Xreal.sha256 b).length = 32 := Concrete.sha256_length
/-- with the real SHA-256 the zero hash is not exceptional (C10 applies to it as well) -/
example : (checksum Concrete.Xreal.sha256 (List.replicate 21 0)).head? ≠ some 0 := by decide +kernel
/-- the exception of C07 really occurs for a hash function: a constant one -/
example : (∀ x ∈ ([0] : Bytes), x = 0) ∧
    (checksum (fun _ => List.replicate 32 0) [0]).head? = some 0 := by decide
example : vBitcoinAddress Concrete.Xreal py"1BgGZ9tcN4rm9KBzDn7KprQz87SZ26SAMH" = .ok () := by
  decide +kernel
example : Denotes58 py"12" [0, 1] :=
  ⟨by decide, [1], by decide, by decide, by decide⟩
example : ∃ c ∈ py"1l", c ∉ alphabet58 := by decide
/-- the violation of C13 on a concrete string: the *testnet* WIF of private key 1 -/
example : wifToPrivateKey Concrete.Xreal py"91avARGdfge8E4tZfYLoxeJ5sGBdNJQH4kvjJoQFacbgwmaKkrx" =
    .ok (List.replicate 63 '0' ++ ['1']) := by decide +kernel

end BT
