import Verif.Tx
import Verif.Lemmas.Address
import Verif.Lemmas.Script
import Verif.Lemmas.Amount
import Verif.Lemmas.Validate

namespace BT
open Spec

/-! # Inputs and outputs -/

theorem AddressOf_of_hash (X : Ext) (hs : ∀ b, (X.sha256 b).length = 32) {a : Str} {h : Bytes}
    (hh : addressToHash X a = .ok (hex h)) : AddressOf X.sha256 a h := by
  obtain ⟨b, hb, hx, hd⟩ := (addressToHash_ok X hs).1 hh
  rw [hex_inj_iff] at hx; subst hx
  obtain ⟨p, hp, hd2, _⟩ := encode_decode X hs hd
  rw [hex_inj_iff] at hp; subst hp
  exact ⟨hb, hd2⟩

theorem addressToHash_VE (X : Ext) (a : Str) : VE (addressToHash X a) := fun _ h => addressToHash_err X h

theorem vBitcoinAddress_hash (X : Ext) (hs : ∀ b, (X.sha256 b).length = 32) {a : Str} {x : Unit}
    (h : vBitcoinAddress X a = .ok x) : ∃ b : Bytes, b.length = 20 ∧ addressToHash X a = .ok (hex b) := by
  obtain ⟨y, hy⟩ := (vBitcoinAddress_ok X).1 h
  obtain ⟨b, hb, rfl, _⟩ := (addressToHash_ok X hs).1 hy
  exact ⟨b, hb, hy⟩

theorem vBitcoinAddress_VE (X : Ext) (a : Str) : VE (vBitcoinAddress X a) := by
  unfold vBitcoinAddress
  exact VE.bind (addressToHash_VE X a) fun _ _ => VE.ok _

theorem hash_len (X : Ext) (hs : ∀ b, (X.sha256 b).length = 32) {a : Str} {h : Bytes}
    (hh : addressToHash X a = .ok (hex h)) : h.length = 20 := (AddressOf_of_hash X hs hh).1

/-! ## outputs -/

/-- the output object for an address, its hash and an amount -/
def outOf (a : Str) (h : Bytes) (n : Nat) : TxOut :=
  { value := hex (leBytes 8 n), scriptLen := hex [25], scriptLenInt := 25, spk := hex (p2pkh h),
    address := a, bitcoin := btcText n, satoshi := n }

theorem intToHexLe_VE (n : Int) : VE (intToHexLe n) := by
  by_cases h : n < 0
  · rw [intToHexLe_neg h]; exact VE.err
  · obtain ⟨m, rfl⟩ : ∃ m : Nat, n = m := ⟨n.toNat, by omega⟩
    rw [intToHexLe_nat]; exact VE.ok _

theorem padHexLe_VE (s : Str) (k : Int) : VE (padHexLe s k) := by
  by_cases h : IsHex s
  · obtain ⟨b, rfl⟩ := isHex_exists h
    rw [padHexLe_hex]
    exact VE.ite (fun _ => VE.ok _) fun _ => VE.err
  · rw [padHexLe_not h]; exact VE.err

theorem varInt25 (u : UniDB) : varIntToInt u (hex [25]) = .ok 25 := by
  rw [varIntToInt_hex]; rfl

theorem addressToScriptPubKey_hash (X : Ext) {a : Str} {h : Bytes} (hl : h.length = 20)
    (hh : addressToHash X a = .ok (hex h)) : addressToScriptPubKey X a = .ok (hex (p2pkh h), hex [25]) := by
  simp only [addressToScriptPubKey, hh, R_bind_ok, hashToScriptPubKey_hex h hl]

theorem leField8 {n : Nat} (h : n ≤ maxMoney) :
    (intToHexLe (n : Int) >>= fun x => padHexLe x 8) = .ok (hex (leBytes 8 n)) :=
  leField_nat (k := 8) (by norm_num) (by unfold maxMoney at h; norm_num; omega)

theorem TxOut_create_of (X : Ext) {a : Str} {h : Bytes} {n : Nat} (hl : h.length = 20)
    (hh : addressToHash X a = .ok (hex h)) (hn : n ≤ maxMoney) :
    TxOut.create X a n = .ok (outOf a h n) := by
  have h8 := leField8 hn
  simp only [R_bind_eq_ok] at h8
  obtain ⟨x, hx, hp⟩ := h8
  simp only [TxOut.create, hx, hp, R_bind_ok, addressToScriptPubKey_hash X hl hh, varInt25,
    satoshiToBitcoin_nat X.uni hn]
  rfl

theorem TxOut_create_ok (X : Ext) (hs : ∀ b, (X.sha256 b).length = 32) {a : Str} {n : Int} {o : TxOut} :
    TxOut.create X a n = .ok o ↔ ∃ (h : Bytes) (k : Nat), h.length = 20 ∧ addressToHash X a = .ok (hex h) ∧
      n = k ∧ k ≤ maxMoney ∧ o = outOf a h k := by
  constructor
  · intro h
    have h0 := h
    simp only [TxOut.create, R_bind_eq_ok] at h
    obtain ⟨_, _, _, _, r, hr, h⟩ := h
    obtain ⟨_, _, b, hb, _⟩ := h
    obtain ⟨hh, hl, hd, rfl⟩ := (addressToScriptPubKey_ok X hs).1 hr
    obtain ⟨k, rfl, hk, rfl⟩ := (satoshiToBitcoin_ok X.uni).1 hb
    rw [TxOut_create_of X hl hd hk] at h0
    exact ⟨hh, k, hl, hd, rfl, hk, by simpa using h0.symm⟩
  · rintro ⟨h, k, hl, hh, rfl, hk, rfl⟩
    exact TxOut_create_of X hl hh hk

theorem intToVarInt_VE (n : Int) : VE (intToVarInt n) := by
  intro e h
  by_cases hb : n < 0 ∨ 252 < n
  · rw [intToVarInt_out hb] at h; simpa using h.symm
  · obtain ⟨m, rfl⟩ : ∃ m : Nat, n = m := ⟨n.toNat, by omega⟩
    rw [intToVarInt_nat (by omega)] at h; simp at h

theorem addressToScriptPubKey_VE (X : Ext) (a : Str) : VE (addressToScriptPubKey X a) := by
  unfold addressToScriptPubKey hashToScriptPubKey
  refine VE.bind (addressToHash_VE X a) fun _ _ => VE.bind (hexLen_VE _) fun _ _ =>
    VE.bind (intToVarInt_VE _) fun _ _ => VE.ok _

theorem TxOut_create_VE (X : Ext) (a : Str) (n : Int) : VE (TxOut.create X a n) := by
  unfold TxOut.create
  refine VE.bind (intToHexLe_VE n) fun _ _ => VE.bind (padHexLe_VE _ _) fun _ _ =>
    VE.bind (addressToScriptPubKey_VE X a) fun r _ => ?_
  obtain ⟨r1, r2⟩ := r
  exact VE.bind (varIntToInt_VE _ _) fun _ _ => VE.bind (satoshiToBitcoin_VE _ _) fun _ _ => VE.ok _

/-! ## `set_satoshi_amount` -/

theorem setSatoshi_ok (u : UniDB) (o : TxOut) {n : Nat} (h1 : 1 ≤ n) (h2 : n ≤ maxMoney) :
    o.setSatoshi u n = ({ o with value := hex (leBytes 8 n), satoshi := n, bitcoin := btcText n }, .ok ()) := by
  unfold TxOut.setSatoshi
  have h8 := leField8 h2
  have hp : vPositiveInteger (.int (n : Int)) = .ok (n : Int) := by
    simp [vPositiveInteger, vInteger, PVal.asInt]; omega
  simp only [hp, R_bind_ok, h8, satoshiToBitcoin_nat u h2]

theorem setSatoshi_bad (u : UniDB) (o : TxOut) {n : Int} (h : n < 1 ∨ 256 ^ 8 ≤ n) :
    o.setSatoshi u n = (o, .error .valueError) := by
  unfold TxOut.setSatoshi
  by_cases h1 : n < 1
  · have hp : vPositiveInteger (.int n) = .error .valueError := by
      simp [vPositiveInteger, vInteger, PVal.asInt, h1]
    simp only [hp, R_bind_err]
  · obtain ⟨m, rfl⟩ : ∃ m : Nat, n = m := ⟨n.toNat, by omega⟩
    have hp : vPositiveInteger (.int (m : Int)) = .ok (m : Int) := by
      simp [vPositiveInteger, vInteger, PVal.asInt]; omega
    have hm : 256 ^ 8 ≤ m := by
      rcases h with h | h
      · omega
      · exact_mod_cast h
    have := leField_big (k := 8) hm
    simp only [hp, R_bind_ok]
    rw [show ((8 : ℕ) : ℤ) = 8 from rfl] at this
    rw [this]

theorem setSatoshi_over (u : UniDB) (o : TxOut) {n : Nat} (h1 : maxMoney < n) (h2 : n < 256 ^ 8) :
    o.setSatoshi u n = ({ o with value := hex (leBytes 8 n), satoshi := n }, .error .valueError) := by
  unfold TxOut.setSatoshi
  have h8 := leField_nat (k := 8) (by norm_num) h2
  rw [show ((8 : ℕ) : ℤ) = 8 from rfl] at h8
  have hp : vPositiveInteger (.int (n : Int)) = .ok (n : Int) := by
    simp [vPositiveInteger, vInteger, PVal.asInt]; omega
  have : satoshiToBitcoin u (n : Int) = .error .valueError := satoshiToBitcoin_out u (.inr (by omega))
  simp only [hp, R_bind_ok, h8, this]

/-! ## inputs -/

/-- the unsigned input object -/
def inOf (a : Str) (t h : Bytes) (ix n : Nat) : TxIn :=
  { prevHash := hex t.reverse, prevIndex := hex (leBytes 4 ix), prevIndexInt := ix,
    spkLen := some (hex [25]), spk := some (hex (p2pkh h)), spkLenInt := .int 25,
    address := a, txid := hex t, satoshi := some (n : Int), bitcoin := some (btcText n) }

theorem TxIn_create_of (X : Ext) {a : Str} {t h : Bytes} {ix n : Nat} (hl : h.length = 20)
    (hh : addressToHash X a = .ok (hex h)) (ht : t.length = 32) (hix : ix < 2 ^ 32) (hn : n ≤ maxMoney) :
    TxIn.create X a (hex t) ix n = .ok (inOf a t h ix n) := by
  have h4 := leField_nat (n := ix) (k := 4) (by norm_num) (by norm_num; omega)
  rw [show ((4 : ℕ) : ℤ) = 4 from rfl] at h4
  simp only [R_bind_eq_ok] at h4
  obtain ⟨x, hx, hp⟩ := h4
  have ha : vBitcoinAddress X a = .ok () := (vBitcoinAddress_ok X).2 ⟨_, hh⟩
  have hv : vHexLength (hex t) 32 = .ok () := by rw [vHexLength_hex, if_pos (by omega)]
  simp only [TxIn.create, ha, hv, reverseHexOrder_hex, hx, hp, R_bind_ok, addressToScriptPubKey_hash X hl hh,
    varInt25, satoshiToBitcoin_nat X.uni hn]
  rfl

theorem TxIn_create_ok (X : Ext) (hs : ∀ b, (X.sha256 b).length = 32) {a txid : Str} {idx sat : Int} {i : TxIn} :
    TxIn.create X a txid idx sat = .ok i ↔ ∃ (t h : Bytes) (ix n : Nat), h.length = 20 ∧
      addressToHash X a = .ok (hex h) ∧ txid = hex t ∧ t.length = 32 ∧ idx = ix ∧ ix < 2 ^ 32 ∧
      sat = n ∧ n ≤ maxMoney ∧ i = inOf a t h ix n := by
  constructor
  · intro h
    have h0 := h
    simp only [TxIn.create, R_bind_eq_ok] at h
    obtain ⟨_, _, _, hv, _, _, x, hx, y, hy, r, hr, h⟩ := h
    obtain ⟨_, _, b, hb, _⟩ := h
    obtain ⟨hh, hl, hd, rfl⟩ := (addressToScriptPubKey_ok X hs).1 hr
    obtain ⟨k, rfl, hk, rfl⟩ := (satoshiToBitcoin_ok X.uni).1 hb
    obtain ⟨t, rfl, ht⟩ := vHexLength_bytes (n := 32) hv
    have hf : (intToHexLe idx >>= fun x => padHexLe x (4 : ℕ)) = .ok y := by rw [hx]; exact hy
    obtain ⟨i0, i1, _⟩ := (leField_ok (by norm_num)).1 hf
    obtain ⟨m, rfl⟩ : ∃ m : Nat, idx = m := ⟨idx.toNat, by omega⟩
    have hm : m < 2 ^ 32 := by norm_num at i1 ⊢; omega
    rw [TxIn_create_of X hl hd ht hm hk] at h0
    exact ⟨t, hh, m, k, hl, hd, rfl, ht, rfl, hm, rfl, hk, by simpa using h0.symm⟩
  · rintro ⟨t, h, ix, n, hl, hh, rfl, ht, rfl, hix, rfl, hn, rfl⟩
    exact TxIn_create_of X hl hh ht hix hn

theorem reverseHexOrder_VE (s : Str) : VE (reverseHexOrder s) := by
  by_cases h : IsHex s
  · obtain ⟨b, rfl⟩ := isHex_exists h
    rw [reverseHexOrder_hex]; exact VE.ok _
  · rw [reverseHexOrder_not h]; exact VE.err

theorem TxIn_create_VE (X : Ext) (a txid : Str) (idx sat : Int) : VE (TxIn.create X a txid idx sat) := by
  unfold TxIn.create
  refine VE.bind (vBitcoinAddress_VE X a) fun _ _ => VE.bind (vHexLength_VE _ _) fun _ _ =>
    VE.bind (reverseHexOrder_VE _) fun _ _ => VE.bind (intToHexLe_VE _) fun _ _ =>
    VE.bind (padHexLe_VE _ _) fun _ _ => VE.bind (addressToScriptPubKey_VE X a) fun r _ => ?_
  obtain ⟨r1, r2⟩ := r
  exact VE.bind (varIntToInt_VE _ _) fun _ _ => VE.bind (satoshiToBitcoin_VE _ _) fun _ _ => VE.ok _

end BT
