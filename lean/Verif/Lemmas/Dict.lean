import Verif.Lemmas.InOut

namespace BT
open Spec

/-! # `from_dict` of inputs and outputs -/

theorem vString_ok {x : PVal} {s : Str} : vString x = .ok s ↔ x = .str s := by
  cases x <;> simp [vString]

theorem vHexP_ok {x : PVal} {s : Str} : vHexP x = .ok s ↔ x = .str s ∧ IsHex s := by
  unfold vHexP
  simp only [R_bind_eq_ok, vString_ok, vHex_ok]
  constructor
  · rintro ⟨a, rfl, _, h, h2⟩; simp at h2; subst h2; exact ⟨rfl, h⟩
  · rintro ⟨rfl, h⟩; exact ⟨s, rfl, (), h, rfl⟩

theorem vHexLengthP_ok {x : PVal} {n : Int} {s : Str} :
    vHexLengthP x n = .ok s ↔ x = .str s ∧ vHexLength s n = .ok () := by
  unfold vHexLengthP
  simp only [R_bind_eq_ok, vString_ok]
  constructor
  · rintro ⟨a, rfl, _, h, h2⟩; simp at h2; subst h2; exact ⟨rfl, h⟩
  · rintro ⟨rfl, h⟩; exact ⟨s, rfl, (), h, rfl⟩

theorem vInteger_ok {x : PVal} {n : Int} : vInteger x = .ok n ↔ x.asInt = some n := by
  unfold vInteger; cases x.asInt <;> simp

theorem vBitcoinAddressP_ok {X : Ext} {x : PVal} {s : Str} :
    vBitcoinAddressP X x = .ok s ↔ x = .str s ∧ vBitcoinAddress X s = .ok () := by
  unfold vBitcoinAddressP
  simp only [R_bind_eq_ok, vString_ok]
  constructor
  · rintro ⟨a, rfl, _, h, h2⟩; simp at h2; subst h2; exact ⟨rfl, h⟩
  · rintro ⟨rfl, h⟩; exact ⟨s, rfl, (), h, rfl⟩

theorem vPositiveBitcoinAmountP_ok {u : UniDB} {x : PVal} {s : Str} :
    vPositiveBitcoinAmountP u x = .ok s ↔ x = .str s ∧ vPositiveBitcoinAmount u s = .ok () := by
  unfold vPositiveBitcoinAmountP
  simp only [R_bind_eq_ok, vString_ok]
  constructor
  · rintro ⟨a, rfl, _, h, h2⟩; simp at h2; subst h2; exact ⟨rfl, h⟩
  · rintro ⟨rfl, h⟩; exact ⟨s, rfl, (), h, rfl⟩

theorem varIntToIntP_ok {u : UniDB} {x : PVal} {n : Int} :
    varIntToIntP u x = .ok n ↔ ∃ s, x = .str s ∧ varIntToInt u s = .ok n := by
  unfold varIntToIntP
  simp only [R_bind_eq_ok, vString_ok]

theorem satoshiToBitcoinP_ok {u : UniDB} {x : PVal} {s : Str} :
    satoshiToBitcoinP u x = .ok s ↔ ∃ k : Nat, x = .int k ∧ k ≤ maxMoney ∧ s = btcText k := by
  cases x <;> simp [satoshiToBitcoinP, satoshiToBitcoin_ok]

theorem asDict_ok {x : PVal} {d : List (Str × PVal)} : x.asDict = .ok d ↔ x = .dict d := by
  cases x <;> simp [PVal.asDict]

theorem dictGet_ok {d : List (Str × PVal)} {k : Str} {v : PVal} : dictGet d k = .ok v ↔ dictFind d k = some v := by
  unfold dictGet; cases dictFind d k <;> simp

theorem vPositive_btcText (u : UniDB) {n : Nat} (hn : n ≤ maxMoney) {x : Unit} :
    vPositiveBitcoinAmount u (btcText n) = .ok x ↔ 1 ≤ n := by
  rw [vPositive_ok]
  have hz := ascii_zero (btcText_amount u n) (btcText_ascii n)
  constructor
  · rintro ⟨_, _, _, c, hc, h1, h2⟩
    by_contra h
    rcases (hz.1 (by omega)) c hc with h | h
    · exact h1 h
    · exact h2 h
  · intro h
    refine ⟨n, btcText_amount u n, hn, ?_⟩
    by_contra hc
    push Not at hc
    have : n = 0 := hz.2 fun c h => by
      by_cases h1 : c = '0'
      · exact .inl h1
      · exact .inr (hc c h h1)
    omega

theorem TxOut_fromDict_ok (X : Ext) (hs : ∀ b, (X.sha256 b).length = 32) {x : PVal} {o : TxOut}
    (hf : TxOut.fromDict X x = .ok o) :
    ∃ d, x = .dict d ∧ ∃ (h : Bytes) (n : Nat), h.length = 20 ∧ addressToHash X o.address = .ok (hex h) ∧
      1 ≤ n ∧ n ≤ maxMoney ∧ o = outOf o.address h n ∧
      dictFind d py"value" = some (.str o.value) ∧
      dictFind d py"script_length" = some (.str o.scriptLen) ∧
      (∃ v, dictFind d py"script_length_int" = some v ∧ v.asInt = some o.scriptLenInt) ∧
      dictFind d py"script_pub_key" = some (.str o.spk) ∧
      dictFind d py"address" = some (.str o.address) ∧
      dictFind d py"bitcoin_amount" = some (.str o.bitcoin) ∧
      dictFind d py"satoshi_amount" = some (.int o.satoshi) := by
  simp only [TxOut.fromDict, R_bind_eq_ok, asDict_ok, dictGet_ok, vHexP_ok, vInteger_ok, vBitcoinAddressP_ok,
    vPositiveBitcoinAmountP_ok, satoshiToBitcoinP_ok, assertR_ok, beq_iff_eq] at hf
  obtain ⟨d, rfl, _, _, v1, f1, s1, ⟨rfl, _⟩, v2, f2, s2, ⟨rfl, _⟩, v3, f3, n3, e3, v4, f4, s4, ⟨rfl, _⟩,
    v5, f5, a, ⟨rfl, ha⟩, v6, f6, b, ⟨rfl, hb⟩, m, hm, _, rfl, v7, f7, b', ⟨k, rfl, hk, rfl⟩, _, rfl, sat, hsat,
    w, hw, w8, hw8, _, rfl, hh, hhh, r, hr, _, rfl, _, rfl, ho⟩ := hf
  simp only [PVal.asInt, Option.some.injEq] at hsat
  subst hsat
  obtain ⟨h, hl, hha⟩ := vBitcoinAddress_hash X hs ha
  rw [hhh] at hha
  simp only [Except.ok.injEq] at hha
  subst hha
  rw [hashToScriptPubKey_hex h hl] at hr
  simp only [Except.ok.injEq] at hr
  subst hr
  rw [varInt25, Except.ok.injEq] at hm
  subst hm
  have h8 := leField8 hk
  rw [hw, R_bind_ok, hw8, Except.ok.injEq] at h8
  subst h8
  simp only [R_pure, Except.ok.injEq] at ho
  subst ho
  refine ⟨d, rfl, h, k, hl, hhh, (vPositive_btcText X.uni hk).1 hb, hk, rfl, f1, f2, ⟨v3, f3, e3⟩, f4, f5, f6, f7⟩

theorem TxOut_fromDict_of (X : Ext) {a : Str} {h : Bytes} {n : Nat} (hl : h.length = 20)
    (hh : addressToHash X a = .ok (hex h)) (h1 : 1 ≤ n) (hn : n ≤ maxMoney) :
    TxOut.fromDict X (outOf a h n).toDict = .ok (outOf a h n) := by
  have hk : vListContains (dictKeys [
      (py"value", PVal.str (outOf a h n).value), (py"script_length", .str (outOf a h n).scriptLen),
      (py"script_length_int", .int (outOf a h n).scriptLenInt), (py"script_pub_key", .str (outOf a h n).spk),
      (py"address", .str (outOf a h n).address), (py"bitcoin_amount", .str (outOf a h n).bitcoin),
      (py"satoshi_amount", .int (outOf a h n).satoshi)]) TxOut.expectedKeys = .ok () := rfl
  have h8 := leField8 hn
  simp only [R_bind_eq_ok] at h8
  obtain ⟨w, hw, hw8⟩ := h8
  simp only [TxOut.fromDict, TxOut.toDict, R_bind_eq_ok, asDict_ok, dictGet_ok, vHexP_ok, vInteger_ok, vBitcoinAddressP_ok,
    vPositiveBitcoinAmountP_ok, satoshiToBitcoinP_ok, assertR_ok, beq_iff_eq]
  refine ⟨_, rfl, _, hk, _, rfl, _, ⟨rfl, isHex_hex _⟩, _, rfl, _, ⟨rfl, isHex_hex _⟩, _, rfl, _, rfl, _, rfl, _,
    ⟨rfl, isHex_hex _⟩, _, rfl, a, ⟨rfl, (vBitcoinAddress_ok X).2 ⟨_, hh⟩⟩, _, rfl, _,
    ⟨rfl, (vPositive_btcText X.uni hn).2 h1⟩, 25, varInt25 _, (), rfl, _, rfl, _, ⟨n, rfl, hn, rfl⟩, (), rfl, (n : Int), rfl,
    w, hw, _, hw8, (), rfl, _, hh, _, hashToScriptPubKey_hex h hl, (), rfl, (), rfl, rfl⟩

/-- an input created and then given a scriptSig -/
def withSig (i : TxIn) (pk : Option Str) (f : Bytes) : TxIn :=
  { i with publicKey := pk, scriptLen := some (hex [UInt8.ofNat f.length]), scriptLenInt := .int f.length,
           scriptSig := some (hex f) }

theorem varInt_len (u : UniDB) {n : Nat} (h : n ≤ 252) : varIntToInt u (hex [UInt8.ofNat n]) = .ok (n : Int) := by
  rw [varIntToInt_hex]
  have : (UInt8.ofNat n).toNat = n := by rw [UInt8.toNat_ofNat', Nat.mod_eq_of_lt (by omega)]
  rw [this, if_pos h]

/-- an optional script and its length field fit together -/
def FieldOk (len script : Option Str) (lenInt : PVal) : Prop :=
  (∀ l, len = some l → ∃ x : UInt8, l = hex [x] ∧ x.toNat ≤ 252 ∧ lenInt.eqInt x.toNat = true) ∧
  ∀ s, script = some s → ∃ f : Bytes, s = hex f ∧ f.length ≤ 252 ∧ len = some (hex [UInt8.ofNat f.length])

theorem optStrR_ok {p : PVal} {o : Option Str} : optStrR p = .ok o ↔ p = .ofOptStr o := by
  cases p <;> cases o <;> simp [optStrR, PVal.ofOptStr]

theorem checkField_ok (u : UniDB) {e : Err} {lenInt : PVal} {len script : Option Str} {x y : Unit} :
    (checkLenField u (.ofOptStr len) lenInt = .ok x ∧
      checkScriptField u (.ofOptStr len) (.ofOptStr script) e = .ok y) ↔ FieldOk len script lenInt := by
  have h1 : checkLenField u (.ofOptStr len) lenInt = .ok x ↔
      ∀ l, len = some l → ∃ x : UInt8, l = hex [x] ∧ x.toNat ≤ 252 ∧ lenInt.eqInt x.toNat = true := by
    cases len with
    | none => simp [checkLenField, PVal.ofOptStr, PVal.isNone]
    | some l =>
      simp only [checkLenField, PVal.ofOptStr, PVal.isNone, R_bind_eq_ok, vHexP_ok, assertR_ok,
        Option.some.injEq, Bool.false_eq_true, if_false, varIntToInt_ok]
      constructor
      · rintro ⟨_, ⟨h, h'⟩, _, ⟨z, rfl, hz, rfl⟩, he⟩ l' rfl
        injection h with h
        exact ⟨z, h, hz, he⟩
      · intro h
        obtain ⟨z, rfl, hz, he⟩ := h l rfl
        exact ⟨_, ⟨rfl, isHex_hex _⟩, _, ⟨z, rfl, hz, rfl⟩, he⟩
  have h2 : checkScriptField u (.ofOptStr len) (.ofOptStr script) e = .ok y ↔
      ∀ s, script = some s → ∃ f : Bytes, s = hex f ∧ f.length ≤ 252 ∧ len = some (hex [UInt8.ofNat f.length]) := by
    cases script with
    | none => simp [checkScriptField, PVal.ofOptStr, PVal.isNone]
    | some l =>
      have e0 : (PVal.ofOptStr (some l)).isNone = false := rfl
      simp only [checkScriptField, e0, R_bind_eq_ok, vHexP_ok, check_ok,
        Option.some.injEq, Bool.false_eq_true, if_false, varIntToIntP_ok, varIntToInt_ok, hexLen_ok, beq_iff_eq]
      constructor
      · rintro ⟨s, ⟨h, h'⟩, _, ⟨l2, hl2, z, rfl, hz, rfl⟩, n2, ⟨_, rfl⟩, he⟩ l' rfl
        simp only [PVal.ofOptStr] at h
        injection h with h
        subst h
        obtain ⟨f, rfl⟩ := isHex_exists h'
        have hf : f.length = z.toNat := by simp at he; omega
        refine ⟨f, rfl, by omega, ?_⟩
        cases len with
        | none => simp [PVal.ofOptStr] at hl2
        | some l3 =>
          simp only [PVal.ofOptStr] at hl2
          injection hl2 with hl2
          rw [hl2, hf, UInt8.ofNat_toNat]
      · intro h
        obtain ⟨f, rfl, hf, rfl⟩ := h l rfl
        have e : (UInt8.ofNat f.length).toNat = f.length := by
          rw [UInt8.toNat_ofNat', Nat.mod_eq_of_lt (by omega)]
        exact ⟨_, ⟨rfl, isHex_hex _⟩, _, ⟨_, rfl, _, rfl, by omega, rfl⟩, _, ⟨isHex_hex _, rfl⟩, by simp [e]⟩
  rw [h1, h2]; rfl

theorem checkKey_ok {pk : PVal} {x : Unit} :
    checkKeyField pk = .ok x ↔ pk = .none ∨ ∃ p : Bytes, pk = .str (hex p) ∧ p.length = 64 := by
  unfold checkKeyField
  cases pk with
  | none => simp [PVal.isNone]
  | str s =>
    simp only [PVal.isNone, Bool.false_eq_true, if_false, R_bind_eq_ok, vHexLengthP_ok, R_pure]
    constructor
    · rintro ⟨_, ⟨h, h2⟩, _⟩
      injection h with h; subst h
      obtain ⟨b, rfl, hb⟩ := vHexLength_bytes (n := 64) h2
      exact .inr ⟨b, rfl, hb⟩
    · rintro (h | ⟨p, h, hp⟩)
      · simp at h
      · injection h with h; subst h
        exact ⟨_, ⟨rfl, by rw [vHexLength_hex, if_pos (by omega)]⟩, trivial⟩
  | _ => simp [PVal.isNone, vHexLengthP, vString]

/-- what `TransactionInput.from_dict` guarantees -/
structure LoadedIn (X : Ext) (i : TxIn) (t : Bytes) (ix n : Nat) : Prop where
  tlen : t.length = 32
  txid : i.txid = hex t
  prevHash : i.prevHash = hex t.reverse
  ixlt : ix < 2 ^ 32
  prevIndexInt : i.prevIndexInt = ix
  prevIndex : i.prevIndex = hex (leBytes 4 ix)
  seq : i.sequence = py"ffffffff"
  npos : 1 ≤ n
  nmax : n ≤ maxMoney
  sat : i.satoshi = some (n : Int)
  btc : i.bitcoin = some (btcText n)
  addr : vBitcoinAddress X i.address = .ok ()
  sig : FieldOk i.scriptLen i.scriptSig i.scriptLenInt
  spk : FieldOk i.spkLen i.spk i.spkLenInt

/-- the dict entries agree with the attributes -/
structure InEntries (d : List (Str × PVal)) (i : TxIn) : Prop where
  prevHash : dictFind d py"previous_output_hash" = some (.str i.prevHash)
  prevIndex : dictFind d py"previous_output_index" = some (.str i.prevIndex)
  prevIndexInt : ∃ v, dictFind d py"previous_output_index_int" = some v ∧ v.asInt = some i.prevIndexInt
  scriptLen : dictFind d py"script_length" = some (.ofOptStr i.scriptLen)
  scriptLenInt : dictFind d py"script_length_int" = some i.scriptLenInt
  scriptSig : dictFind d py"script_sig" = some (.ofOptStr i.scriptSig)
  sequence : dictFind d py"sequence" = some (.str i.sequence)
  spkLen : dictFind d py"script_pub_key_length" = some (.ofOptStr i.spkLen)
  spkLenInt : dictFind d py"script_pub_key_length_int" = some i.spkLenInt
  spk : dictFind d py"script_pub_key" = some (.ofOptStr i.spk)
  address : dictFind d py"address" = some (.str i.address)
  txid : dictFind d py"txid" = some (.str i.txid)
  sat : dictFind d py"satoshi_amount" = some (.ofOptInt i.satoshi)
  btc : dictFind d py"bitcoin_amount" = some (.ofOptStr i.bitcoin)

/-- the `public_key_hex` entry is null or a 64-byte key -/
def KeyEntry (d : List (Str × PVal)) : Prop :=
  dictFind d py"public_key_hex" = some .none ∨
    ∃ p : Bytes, dictFind d py"public_key_hex" = some (.str (hex p)) ∧ p.length = 64

theorem eqStr_iff {x : PVal} {s : Str} : x.eqStr s = true ↔ x = .str s := by
  cases x <;> simp [PVal.eqStr]

theorem dictKeys_mem {d : List (Str × PVal)} {k : Str} {v : PVal} (h : dictFind d k = some v) : k ∈ dictKeys d := by
  induction d with
  | nil => simp [dictFind] at h
  | cons p r ih =>
    obtain ⟨k', w⟩ := p
    unfold dictFind at h
    split at h
    · subst_vars; simp [dictKeys]
    · have := ih h; simp only [dictKeys, List.map_cons, List.mem_cons]; exact .inr this

theorem index_field {n : Int} {s x : Str} (h1 : intToHexLe n = .ok x) (h2 : padHexLe x 4 = .ok s) :
    ∃ ix : Nat, n = ix ∧ ix < 2 ^ 32 ∧ s = hex (leBytes 4 ix) := by
  have hf : (intToHexLe n >>= fun x => padHexLe x (4 : ℕ)) = .ok s := by rw [h1]; exact h2
  obtain ⟨i0, i1, _⟩ := (leField_ok (by norm_num)).1 hf
  obtain ⟨m, rfl⟩ : ∃ m : Nat, n = m := ⟨n.toNat, by omega⟩
  have hm : m < 256 ^ 4 := by exact_mod_cast i1
  rw [leField_nat (by norm_num) hm, Except.ok.injEq] at hf
  exact ⟨m, rfl, by norm_num at hm ⊢; omega, hf.symm⟩

theorem TxIn_fromDict_ok (X : Ext) {x : PVal} {i : TxIn} :
    TxIn.fromDict X x = .ok i ↔
    ∃ d, x = .dict d ∧ InEntries d i ∧ KeyEntry d ∧ i.publicKey = none ∧ ∃ t ix n, LoadedIn X i t ix n := by
  constructor
  · intro hf
    simp only [TxIn.fromDict, R_bind_eq_ok, asDict_ok, dictGet_ok, vHexP_ok, vHexLengthP_ok, vInteger_ok, vBitcoinAddressP_ok,
      vPositiveBitcoinAmountP_ok, satoshiToBitcoinP_ok, assertR_ok, beq_iff_eq, eqStr_iff, vString_ok, optStrR_ok] at hf
    obtain ⟨d, rfl, _, _, v1, f1, ph, ⟨rfl, hph⟩, v2, f2, pi, ⟨rfl, _⟩, v3, f3, pii, e3, xa, hxa, xb, hxb, _, rfl,
      v4, f4, v5, f5, _, g1, v6, f6, _, g2, v7, f7, _, rfl, v8, f8, _, g3, v9, f9, v10, f10, _, g4, v11, f11, _, g5,
      v12, f12, a, ⟨rfl, ha⟩, v13, f13, tx, rfl, rh, hrh, _, rfl, v14, f14, sat, hsat, v15, f15, b, ⟨rfl, hb⟩,
      b', ⟨k, rfl, hk, rfl⟩, _, rfl, sl, rfl, ss, rfl, spl, rfl, sp, rfl, hi⟩ := hf
    simp only [PVal.asInt, Option.some.injEq] at hsat
    subst hsat
    obtain ⟨t, rfl, rfl⟩ := reverseHexOrder_ok.1 hrh
    obtain ⟨ix, rfl, hix, rfl⟩ := index_field hxa hxb
    rw [vHexLength_hex] at hph
    simp only [R_pure, Except.ok.injEq] at hi
    subst hi
    refine ⟨d, rfl, ⟨f1, f2, ⟨v3, f3, e3⟩, f4, f5, f6, f7, f9, f10, f11, f12, f13, f14, f15⟩, ?_, rfl, t, ix, k, ?_⟩
    · rcases checkKey_ok.1 g3 with rfl | ⟨p, rfl, hp⟩
      · exact .inl f8
      · exact .inr ⟨p, f8, hp⟩
    · refine ⟨?_, rfl, rfl, hix, rfl, rfl, rfl, (vPositive_btcText X.uni hk).1 hb, hk, rfl, rfl, ha,
        (checkField_ok X.uni).1 ⟨g1, g2⟩, (checkField_ok X.uni).1 ⟨g4, g5⟩⟩
      by_contra hc
      rw [if_neg (by simp; omega)] at hph
      simp at hph
  · rintro ⟨d, rfl, E, K, hpk, t, ix, n, L⟩
    have hkeys : vListContains (dictKeys d) TxIn.expectedKeys = .ok () := by
      rw [vListContains_ok]
      have hK : py"public_key_hex" ∈ dictKeys d := by
        rcases K with h | ⟨_, h, _⟩ <;> exact dictKeys_mem h
      obtain ⟨v, hv, _⟩ := E.prevIndexInt
      simp only [TxIn.expectedKeys, List.forall_mem_cons, List.not_mem_nil, false_imp_iff, implies_true, and_true]
      exact ⟨dictKeys_mem E.prevHash, dictKeys_mem E.prevIndex, dictKeys_mem hv, dictKeys_mem E.scriptLen,
        dictKeys_mem E.scriptLenInt, dictKeys_mem E.scriptSig, dictKeys_mem E.sequence, hK, dictKeys_mem E.spkLen,
        dictKeys_mem E.spkLenInt, dictKeys_mem E.spk, dictKeys_mem E.address, dictKeys_mem E.txid,
        dictKeys_mem E.sat, dictKeys_mem E.btc⟩
    obtain ⟨v, hv, hv2⟩ := E.prevIndexInt
    have h4 := leField_nat (n := ix) (k := 4) (by norm_num) (by have := L.ixlt; norm_num at this ⊢; omega)
    rw [show ((4 : ℕ) : ℤ) = 4 from rfl] at h4
    simp only [R_bind_eq_ok] at h4
    obtain ⟨w, hw, hw4⟩ := h4
    obtain ⟨g1, g2⟩ := (checkField_ok X.uni (e := .valueError) (x := ()) (y := ())).2 L.sig
    obtain ⟨g4, g5⟩ := (checkField_ok X.uni (e := .assertionError) (x := ()) (y := ())).2 L.spk
    obtain ⟨k, hk, gk⟩ : ∃ k, dictFind d py"public_key_hex" = some k ∧ checkKeyField k = .ok () := by
      rcases K with h | ⟨p, h, hp⟩
      · exact ⟨_, h, checkKey_ok.2 (.inl rfl)⟩
      · exact ⟨_, h, checkKey_ok.2 (.inr ⟨p, rfl, hp⟩)⟩
    have h1 := E.sat
    have h2 := E.btc
    rw [L.sat] at h1
    rw [L.btc] at h2
    simp only [TxIn.fromDict, R_bind_eq_ok, asDict_ok, dictGet_ok, vHexP_ok, vHexLengthP_ok, vInteger_ok, vBitcoinAddressP_ok,
      vPositiveBitcoinAmountP_ok, satoshiToBitcoinP_ok, assertR_ok, beq_iff_eq, eqStr_iff, vString_ok, optStrR_ok]
    refine ⟨d, rfl, _, hkeys, _, E.prevHash, _, ⟨rfl, ?_⟩, _, E.prevIndex, _, ⟨rfl, ?_⟩, v, hv, _, hv2, w, ?_, _, hw4, (),
      L.prevIndex.symm, _, E.scriptLen, _, E.scriptLenInt, _, g1, _, E.scriptSig, _, g2, _, E.sequence, (), ?_, k, hk, _, gk,
      _, E.spkLen, _, E.spkLenInt, _, g4, _, E.spk, _, g5, _, E.address, _, ⟨rfl, L.addr⟩, _, E.txid, _, rfl, _,
      by rw [L.txid]; exact reverseHexOrder_hex t, (), L.prevHash.symm, _, h1, (n : Int), rfl, _, h2, _,
      ⟨rfl, (vPositive_btcText X.uni L.nmax).2 L.npos⟩, _, ⟨n, rfl, L.nmax, rfl⟩, (), rfl, _, rfl, _, rfl, _, rfl, _, rfl, ?_⟩
    · rw [L.prevHash, vHexLength_hex, if_pos (by have := L.tlen; simp; omega)]
    · rw [L.prevIndex]; exact isHex_hex _
    · rw [L.prevIndexInt]; exact hw
    · rw [L.seq]
    · cases i
      simp only at hpk
      obtain ⟨_, _, _, _, _, _, hseq, _, _, hsat, hbtc, _, _, _⟩ := L
      simp only at hseq hsat hbtc
      subst hpk hseq hsat hbtc
      rfl

theorem inEntries_toDict (i : TxIn) : ∃ d, i.toDict = .dict d ∧ InEntries d i ∧
    dictFind d py"public_key_hex" = some (.ofOptStr i.publicKey) :=
  ⟨_, rfl, ⟨rfl, rfl, ⟨_, rfl, rfl⟩, rfl, rfl, rfl, rfl, rfl, rfl, rfl, rfl, rfl, rfl, rfl⟩, rfl⟩

/-- the input without its public key -/
def noKey (i : TxIn) : TxIn := { i with publicKey := none }

/-- loading an input's own dict gives the input back (public key aside) -/
theorem TxIn_fromDict_toDict (X : Ext) {i : TxIn} {t : Bytes} {ix n : Nat} (L : LoadedIn X i t ix n)
    (hk : ∀ p, i.publicKey = some p → ∃ b : Bytes, p = hex b ∧ b.length = 64) :
    TxIn.fromDict X i.toDict = .ok (noKey i) := by
  obtain ⟨d, h1, E, K⟩ := inEntries_toDict i
  refine (TxIn_fromDict_ok X).2 ⟨d, h1, ⟨E.1, E.2, E.3, E.4, E.5, E.6, E.7, E.8, E.9, E.10, E.11, E.12, E.13, E.14⟩, ?_, rfl,
    t, ix, n, ⟨L.1, L.2, L.3, L.4, L.5, L.6, L.7, L.8, L.9, L.10, L.11, L.12, L.13, L.14⟩⟩
  cases hp : i.publicKey with
  | none => rw [hp] at K; exact .inl K
  | some p =>
    obtain ⟨b, rfl, hb⟩ := hk p hp
    rw [hp] at K
    exact .inr ⟨b, K, hb⟩

theorem loaded_inOf (X : Ext) {a : Str} {t h : Bytes} {ix n : Nat} (hl : h.length = 20)
    (hh : addressToHash X a = .ok (hex h)) (ht : t.length = 32) (hix : ix < 2 ^ 32) (h1 : 1 ≤ n) (hn : n ≤ maxMoney) :
    LoadedIn X (inOf a t h ix n) t ix n := by
  refine ⟨ht, rfl, rfl, hix, rfl, rfl, rfl, h1, hn, rfl, rfl, (vBitcoinAddress_ok X).2 ⟨_, hh⟩, ⟨by simp [inOf], by simp [inOf]⟩, ?_, ?_⟩
  · rintro l hl'
    simp only [inOf, Option.some.injEq] at hl'
    exact ⟨25, hl'.symm, by decide, rfl⟩
  · rintro s hs'
    simp only [inOf, Option.some.injEq] at hs'
    have : (p2pkh h).length = 25 := by simp [p2pkh, hl]
    exact ⟨_, hs'.symm, by omega, by rw [this]; rfl⟩

theorem loaded_withSig (X : Ext) {i : TxIn} {t : Bytes} {ix n : Nat} (L : LoadedIn X i t ix n) (pk : Option Str)
    {f : Bytes} (hf : f.length ≤ 252) : LoadedIn X (withSig i pk f) t ix n := by
  refine ⟨L.1, L.2, L.3, L.4, L.5, L.6, L.7, L.8, L.9, L.10, L.11, L.12, ⟨?_, ?_⟩, L.14⟩
  · rintro l hl'
    simp only [withSig, Option.some.injEq] at hl'
    have e : (UInt8.ofNat f.length).toNat = f.length := by
      rw [UInt8.toNat_ofNat', Nat.mod_eq_of_lt (by omega)]
    exact ⟨_, hl'.symm, by omega, by simp [withSig, PVal.eqInt]; omega⟩
  · rintro s hs'
    simp only [withSig, Option.some.injEq] at hs'
    exact ⟨f, hs'.symm, hf, rfl⟩

end BT
