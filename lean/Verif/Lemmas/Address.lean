import Verif.Lemmas.Base58

namespace BT
open Spec

/-! # Addresses, scripts, WIF -/

/-- decoding a base58check text of `p`, in the non-exceptional case -/
theorem decode_encode (X : Ext) (hs : ∀ b, (X.sha256 b).length = 32) (p : Bytes)
    (h : ¬ ((∀ x ∈ p, x = 0) ∧ (checksum X.sha256 p).head? = some 0)) :
    base58checkToHex X (text58 (p ++ checksum X.sha256 p)) = .ok (hex p) := by
  rw [base58checkToHex_ok X hs]
  refine ⟨text58_alphabet _, ?_⟩
  simp only [text58_ones, value58_text58]
  obtain ⟨m, h1, h2, h3⟩ := zeros_split p
  by_cases hm : m = []
  · -- payload all zero, checksum does not start with zero
    subst hm
    have hp : ∀ x ∈ p, x = 0 := by
      intro x hx; rw [h1] at hx; simp at hx; exact hx.2
    have hc : (checksum X.sha256 p).head? ≠ some 0 := fun hc => h ⟨hp, hc⟩
    have hz : ((p ++ checksum X.sha256 p).takeWhile (· == 0)).length = p.length := by
      have : p = List.replicate p.length 0 := List.eq_replicate_of_mem hp
      have h2 := takeWhile_zeros (k := p.length) hc
      rwa [← this] at h2
    have hpr : List.replicate p.length (0 : UInt8) = p := (List.eq_replicate_of_mem hp).symm
    refine ⟨[], ?_⟩
    rw [hz]
    simp only [List.append_nil, hpr, List.nil_append]
    refine ⟨trivial, hc, ?_⟩
    have h0 : beNat p = 0 := by rw [← hpr]; exact beNat_replicate_zero _
    rw [beNat_append, h0]; simp
  · have hmc : (m ++ checksum X.sha256 p).head? ≠ some 0 := by
      cases m with
      | nil => simp at hm
      | cons a m => simpa using h2
    have hz : ((p ++ checksum X.sha256 p).takeWhile (· == 0)).length = (p.takeWhile (· == 0)).length := by
      have h2 := takeWhile_zeros (k := (p.takeWhile (· == 0)).length) hmc
      rwa [← List.append_assoc, ← h1] at h2
    refine ⟨m, ?_⟩
    rw [hz, ← h1]
    refine ⟨rfl, hmc, ?_⟩
    rw [beNat_append, beNat_append, h3]

/-- in the exceptional case the text is refused -/
theorem decode_encode_exc (X : Ext) (hs : ∀ b, (X.sha256 b).length = 32) (p : Bytes)
    (h : (∀ x ∈ p, x = 0) ∧ (checksum X.sha256 p).head? = some 0) :
    base58checkToHex X (text58 (p ++ checksum X.sha256 p)) = .error .valueError := by
  cases hd : base58checkToHex X (text58 (p ++ checksum X.sha256 p)) with
  | error e => rw [base58checkToHex_err X hd]
  | ok x =>
    exfalso
    rw [base58checkToHex_ok X hs] at hd
    obtain ⟨_, m', hx, hh, hv⟩ := hd
    rw [text58_ones] at hx hh hv
    rw [value58_text58] at hv
    obtain ⟨hp, hc⟩ := h
    have hcl : ∀ p, (checksum X.sha256 p).length = 4 := by intro p; simp [checksum, hs]
    -- the value is below 256^3, but `m` has at least four bytes and no leading zero
    have hpr : List.replicate p.length (0 : UInt8) = p := (List.eq_replicate_of_mem hp).symm
    have h0 : beNat p = 0 := by rw [← hpr]; exact beNat_replicate_zero _
    have hlt : beNat (p ++ checksum X.sha256 p) < 256 ^ 3 := by
      rw [beNat_append, h0]
      cases hcs : checksum X.sha256 p with
      | nil => have := hcl p; rw [hcs] at this; simp at this
      | cons a r =>
        rw [hcs] at hc
        have ha : a = 0 := by simpa using hc
        have hr : r.length = 3 := by have := hcl p; rw [hcs] at this; simpa using this
        have := beNat_lt r
        rw [hr] at this
        simp [beNat, ha]; omega
    have hne : m' ++ checksum X.sha256 (List.replicate
      ((p ++ checksum X.sha256 p).takeWhile (· == 0)).length 0 ++ m') ≠ [] := by
      intro h; have := congrArg List.length h; simp [hcl] at this
    have e := minBytes_beNat _ hne hh
    rw [hv] at e
    have := minBytes_length_le (k := 3) (by omega) hlt
    rw [e] at this
    simp [hcl] at this

theorem encode_decode (X : Ext) (hs : ∀ b, (X.sha256 b).length = 32) {s x : Str}
    (h : base58checkToHex X s = .ok x) : ∃ p : Bytes, x = hex p ∧
      Denotes58 s (p ++ checksum X.sha256 p) ∧ hexToBase58check X x = .ok s := by
  obtain ⟨ha, m', rfl, hh, hv⟩ := (base58checkToHex_ok X hs).1 h
  refine ⟨_, rfl, ?_⟩
  have hd : Denotes58 s ((List.replicate (s.takeWhile (· == '1')).length 0 ++ m') ++
      checksum X.sha256 (List.replicate (s.takeWhile (· == '1')).length 0 ++ m')) :=
    ⟨ha, _, by rw [List.append_assoc], hh, hv⟩
  refine ⟨hd, ?_⟩
  rw [hexToBase58check_hex X hs, denotes_text58 hd]

theorem addressToHash_ok (X : Ext) (hs : ∀ b, (X.sha256 b).length = 32) {s x : Str} :
    addressToHash X s = .ok x ↔ ∃ h : Bytes, h.length = 20 ∧ x = hex h ∧
      base58checkToHex X s = .ok (hex (0 :: h)) := by
  constructor
  · intro h
    simp only [addressToHash, R_bind_eq_ok] at h
    obtain ⟨y, hy, h⟩ := h
    obtain ⟨p, rfl, _, _⟩ := encode_decode X hs hy
    rw [show (2 : Nat) = 2 * 1 from rfl, hex_take, hex_drop] at h
    split at h
    · simp at h
    · rename_i h0
      simp only [R_bind_eq_ok] at h
      obtain ⟨_, hl, hx⟩ := h
      have h0' : hex (p.take 1) = hex [0] := by
        rw [show hex [0] = py"00" from by decide]; simpa using h0
      have hl' := vHexLength_bytes (n := 20) hl
      obtain ⟨b, hb, hbl⟩ := hl'
      rw [hex_inj_iff] at hb h0'
      cases p with
      | nil => simp at h0'
      | cons a r =>
        simp at h0' hb
        subst h0' hb
        refine ⟨r, hbl, ?_, hy⟩
        simpa using hx.symm
  · rintro ⟨h, hl, rfl, hb⟩
    simp only [addressToHash, hb, R_bind_ok]
    rw [show (2 : Nat) = 2 * 1 from rfl, hex_take, hex_drop]
    have : vHexLength (hex h) 20 = .ok () := by rw [vHexLength_hex, if_pos (by omega)]
    simp [hexByte, hexDigits, this]

theorem addressToHash_err (X : Ext) {s : Str} {e : Err} (h : addressToHash X s = .error e) :
    e = .valueError := by
  simp only [addressToHash, R_bind_eq_err] at h
  rcases h with h | ⟨y, _, h⟩
  · exact base58checkToHex_err X h
  · split at h
    · simpa using h.symm
    · simp only [R_pure, R_bind_eq_err] at h
      rcases h with h | ⟨_, _, h⟩
      · exact vHexLength_err h
      · simp at h

theorem vBitcoinAddress_ok (X : Ext) {s : Str} {u : Unit} :
    vBitcoinAddress X s = .ok u ↔ ∃ x, addressToHash X s = .ok x := by
  simp [vBitcoinAddress, R_bind_eq_ok]

theorem hashToScriptPubKey_hex (h : Bytes) (hl : h.length = 20) :
    hashToScriptPubKey (hex h) = .ok (hex (p2pkh h), hex [25]) := by
  have e : py"76" ++ py"a9" ++ py"14" ++ hex h ++ py"88" ++ py"ac" = hex (p2pkh h) := by
    have e1 : hex [0x76, 0xa9, 0x14] = py"76a914" := by decide
    have e2 : hex [0x88, 0xac] = py"88ac" := by decide
    rw [p2pkh, hex_append, hex_append, e1, e2]; simp
  have hlen : (p2pkh h).length = 25 := by simp [p2pkh, hl]
  simp only [hashToScriptPubKey, e, hexLen_hex, R_bind_ok, hlen]
  have := intToVarInt_nat (n := 25) (by norm_num)
  simp only [this, R_bind_ok, R_pure]; rfl

theorem addressToScriptPubKey_ok (X : Ext) (hs : ∀ b, (X.sha256 b).length = 32) {a : Str}
    {r : Str × Str} :
    addressToScriptPubKey X a = .ok r ↔ ∃ h : Bytes, h.length = 20 ∧ addressToHash X a = .ok (hex h) ∧
      r = (hex (p2pkh h), hex [25]) := by
  simp only [addressToScriptPubKey, R_bind_eq_ok]
  constructor
  · rintro ⟨x, hx, h⟩
    obtain ⟨b, hb, rfl, _⟩ := (addressToHash_ok X hs).1 hx
    rw [hashToScriptPubKey_hex b hb] at h
    exact ⟨b, hb, hx, by simpa using h.symm⟩
  · rintro ⟨b, hb, hx, rfl⟩
    exact ⟨_, hx, hashToScriptPubKey_hex b hb⟩

theorem hashToAddress_hex (X : Ext) (hs : ∀ b, (X.sha256 b).length = 32) (h : Bytes) :
    hashToAddress X (hex h) = .ok (text58 (0 :: h ++ checksum X.sha256 (0 :: h))) := by
  have : py"00" ++ hex h = hex (0 :: h) := by
    rw [hex_cons]; rfl
  rw [hashToAddress, this, hexToBase58check_hex X hs]

theorem hashToAddress_of_hash (X : Ext) (hs : ∀ b, (X.sha256 b).length = 32) {a : Str} {h : Bytes}
    (hh : addressToHash X a = .ok (hex h)) : hashToAddress X (hex h) = .ok a := by
  obtain ⟨b, _, hx, hb⟩ := (addressToHash_ok X hs).1 hh
  rw [hex_inj_iff] at hx; subst hx
  obtain ⟨p, hp, _, he⟩ := encode_decode X hs hb
  have : py"00" ++ hex h = hex (0 :: h) := by rw [hex_cons]; rfl
  rw [hashToAddress, this]; exact he

theorem slice_mid (a h c : Bytes) (ha : a.length = 3) (hc : c.length = 2) :
    slice (hex (a ++ h ++ c)) 6 ((hex (a ++ h ++ c)).length - 4) = hex h := by
  have e : (hex (a ++ h ++ c)).length - 4 - 6 = 2 * h.length := by simp [ha, hc]; omega
  have e1 : (a ++ h ++ c).drop 3 = h ++ c := by
    rw [List.append_assoc, ← ha, List.drop_left]
  rw [slice, e, show (6 : Nat) = 2 * 3 from rfl, hex_drop, hex_take, e1, List.take_left]

theorem scriptPubKeyToAddress_mid (X : Ext) (a h c : Bytes) (ha : a.length = 3) (hc : c.length = 2) :
    scriptPubKeyToAddress X (hex (a ++ h ++ c)) = hashToAddress X (hex h) := by
  rw [scriptPubKeyToAddress, slice_mid a h c ha hc]

theorem getPublicKeyHash_hex (X : Ext) (hr : ∀ b, (X.ripemd160 b).length = 20) (p : Bytes) :
    getPublicKeyHash X (hex p) = .ok (hex (X.ripemd160 (X.sha256 (4 :: p)))) := by
  have : py"04" ++ hex p = hex (4 :: p) := by rw [hex_cons]; rfl
  simp only [getPublicKeyHash, this, fromHex_hex, R_bind_ok, bytesHex_eq]
  rw [vHexLength_hex, if_pos (by simp [hr])]; rfl

end BT
