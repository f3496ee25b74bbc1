import Verif.Lemmas.Dict
import Verif.TxSpec
import Verif.Concrete.Ecdsa

/-! # C24-C28: transaction inputs and outputs -/

namespace BT
open Spec

/-- the amount fields of an output agree: 8-byte little-endian `value`, `satoshi_amount` and
`bitcoin_amount` all denote `n` satoshi -/
def Spec.OutputAmount (u : UniDB) (o : TxOut) (n : Nat) : Prop :=
  (∃ b : Bytes, o.value = hex b ∧ b.length = 8 ∧ leNat b = n) ∧ o.satoshi = n ∧ AmountOf u o.bitcoin n

/-- the script fields of an output are the P2PKH script of its address -/
def Spec.OutputScript (X : Ext) (o : TxOut) : Prop :=
  ∃ h : Bytes, AddressOf X.sha256 o.address h ∧ o.spk = hex (p2pkh h) ∧ o.scriptLen = hex [25] ∧
    o.scriptLenInt = 25 ∧ (p2pkh h).length = 25

theorem out_amount (u : UniDB) (a : Str) (h : Bytes) {n : Nat} (hn : n ≤ maxMoney) :
    OutputAmount u (outOf a h n) n :=
  ⟨⟨leBytes 8 n, rfl, by simp, leNat_leBytes (by unfold maxMoney at hn; norm_num; omega)⟩, rfl, btcText_amount u n⟩

theorem out_script (X : Ext) (hs : ∀ b, (X.sha256 b).length = 32) {a : Str} {h : Bytes} (n : Nat)
    (hh : addressToHash X a = .ok (hex h)) : OutputScript X (outOf a h n) :=
  ⟨h, AddressOf_of_hash X hs hh, rfl, rfl, rfl, by simp [p2pkh, hash_len X hs hh]⟩

/-- **C24**: the input made by `TransactionInput.create` carries exactly its arguments. -/
theorem C24_create (X : Ext) (hs : ∀ b, (X.sha256 b).length = 32) (a txid : Str) (idx sat : Int) (i : TxIn)
    (hc : TxIn.create X a txid idx sat = .ok i) :
    ∃ (h t ib : Bytes) (n : Nat), AddressOf X.sha256 a h ∧ i.address = a ∧
      txid = hex t ∧ t.length = 32 ∧ i.txid = txid ∧ i.prevHash = hex t.reverse ∧
      i.prevIndex = hex ib ∧ ib.length = 4 ∧ (leNat ib : Int) = idx ∧ i.prevIndexInt = idx ∧
      i.spk = some (hex (p2pkh h)) ∧ (p2pkh h).length = 25 ∧ i.spkLen = some (hex [25]) ∧
      sat = n ∧ i.satoshi = some sat ∧ (∃ b, i.bitcoin = some b ∧ AmountOf X.uni b n) ∧
      i.signed = false ∧ i.scriptSig = none ∧ i.publicKey = none ∧ i.sequence = py"ffffffff" := by
  obtain ⟨t, h, ix, n, hl, hh, rfl, ht, rfl, hix, rfl, hn, rfl⟩ := (TxIn_create_ok X hs).1 hc
  refine ⟨h, t, leBytes 4 ix, n, AddressOf_of_hash X hs hh, rfl, rfl, ht, rfl, rfl, rfl, by simp, ?_, rfl, rfl,
    by simp [p2pkh, hl], rfl, rfl, rfl, ⟨_, rfl, btcText_amount _ n⟩, rfl, rfl, rfl, rfl⟩
  rw [leNat_leBytes (by norm_num; omega)]

/-- **C24**: it succeeds exactly for a valid address, a 64-digit hex txid, an index below 2^32
and an amount up to 21 million bitcoin. -/
theorem C24_accepts (X : Ext) (hs : ∀ b, (X.sha256 b).length = 32) (a txid : Str) (idx sat : Int) :
    (∃ i, TxIn.create X a txid idx sat = .ok i) ↔
      vBitcoinAddress X a = .ok () ∧ IsHex txid ∧ txid.length = 64 ∧ 0 ≤ idx ∧ idx < 2 ^ 32 ∧
      0 ≤ sat ∧ sat ≤ maxMoney := by
  constructor
  · rintro ⟨i, hc⟩
    obtain ⟨t, h, ix, n, hl, hh, rfl, ht, rfl, hix, rfl, hn, rfl⟩ := (TxIn_create_ok X hs).1 hc
    exact ⟨(vBitcoinAddress_ok X).2 ⟨_, hh⟩, isHex_hex _, by simp [ht], by omega, by exact_mod_cast hix, by omega,
      by exact_mod_cast hn⟩
  · rintro ⟨ha, hx, hl, h0, h1, h2, h3⟩
    obtain ⟨t, rfl⟩ := isHex_exists hx
    obtain ⟨h, hlen, hh⟩ := vBitcoinAddress_hash X hs ha
    obtain ⟨ix, rfl⟩ : ∃ m : Nat, idx = m := ⟨idx.toNat, by omega⟩
    obtain ⟨n, rfl⟩ : ∃ m : Nat, sat = m := ⟨sat.toNat, by omega⟩
    exact ⟨_, TxIn_create_of X hlen hh (by simp at hl; omega) (by exact_mod_cast h1) (by exact_mod_cast h3)⟩

/-- **C24**: and otherwise raises ValueError. -/
theorem C24_rejects (X : Ext) (a txid : Str) (idx sat : Int) (h : ¬ ∃ i, TxIn.create X a txid idx sat = .ok i) :
    TxIn.create X a txid idx sat = .error .valueError :=
  (TxIn_create_VE X a txid idx sat).eq_of_not_ok fun i hi => h ⟨i, hi⟩

/-- **C24** for outputs: `TransactionOutput.create` succeeds exactly for a valid address and an
amount up to 21 million bitcoin; the output then pays that amount to that address. -/
theorem C24_output (X : Ext) (hs : ∀ b, (X.sha256 b).length = 32) (a : Str) (sat : Int) :
    (∀ o, TxOut.create X a sat = .ok o → o.address = a ∧ OutputScript X o ∧ ∃ n : Nat, sat = n ∧
      OutputAmount X.uni o n) ∧
    ((∃ o, TxOut.create X a sat = .ok o) ↔ vBitcoinAddress X a = .ok () ∧ 0 ≤ sat ∧ sat ≤ maxMoney) ∧
    ((¬ ∃ o, TxOut.create X a sat = .ok o) → TxOut.create X a sat = .error .valueError) := by
  refine ⟨?_, ⟨?_, ?_⟩, fun h => (TxOut_create_VE X a sat).eq_of_not_ok fun o ho => h ⟨o, ho⟩⟩
  · intro o ho
    obtain ⟨h, n, hl, hh, rfl, hn, rfl⟩ := (TxOut_create_ok X hs).1 ho
    exact ⟨rfl, out_script X hs n hh, n, rfl, out_amount X.uni a h hn⟩
  · rintro ⟨o, ho⟩
    obtain ⟨h, n, hl, hh, rfl, hn, rfl⟩ := (TxOut_create_ok X hs).1 ho
    exact ⟨(vBitcoinAddress_ok X).2 ⟨_, hh⟩, by omega, by exact_mod_cast hn⟩
  · rintro ⟨ha, h2, h3⟩
    obtain ⟨h, hlen, hh⟩ := vBitcoinAddress_hash X hs ha
    obtain ⟨n, rfl⟩ : ∃ m : Nat, sat = m := ⟨sat.toNat, by omega⟩
    exact ⟨_, TxOut_create_of X hlen hh (by exact_mod_cast h3)⟩

/-- the object after a sequence of `set_satoshi_amount` calls, exceptions being swallowed by
the caller -/
def Spec.setAll (u : UniDB) : TxOut → List Int → TxOut
  | o, [] => o
  | o, n :: ns => setAll u (o.setSatoshi u n).1 ns

/-- **C25** (what holds): after any sequence of calls none of whose arguments lies above 21
million bitcoin but below 2^64 satoshi, all amount fields agree; the script and address always
stay what they were; and in *every* history `value` and `satoshi_amount` agree with each other. -/
theorem C25_fields_agree_partial (X : Ext) (hs : ∀ b, (X.sha256 b).length = 32) (a : Str) (sat : Int) (o : TxOut)
    (hc : TxOut.create X a sat = .ok o) (ns : List Int) :
    (setAll X.uni o ns).address = a ∧ OutputScript X (setAll X.uni o ns) ∧
    (∃ (b : Bytes), (setAll X.uni o ns).value = hex b ∧ b.length = 8 ∧
      (leNat b : Int) = (setAll X.uni o ns).satoshi) ∧
    ((∀ n ∈ ns, n ≤ maxMoney ∨ 2 ^ 64 ≤ n) → ∃ n, OutputAmount X.uni (setAll X.uni o ns) n) := by
  obtain ⟨h, n, hl, hh, rfl, hn, rfl⟩ := (TxOut_create_ok X hs).1 hc
  have key : ∀ (ns : List Int) (o : TxOut) (_ : o.address = a ∧ OutputScript X o ∧
      (∃ b : Bytes, o.value = hex b ∧ b.length = 8 ∧ (leNat b : Int) = o.satoshi)),
      ((setAll X.uni o ns).address = a ∧ OutputScript X (setAll X.uni o ns) ∧
      (∃ (b : Bytes), (setAll X.uni o ns).value = hex b ∧ b.length = 8 ∧
      (leNat b : Int) = (setAll X.uni o ns).satoshi)) ∧
      ((∃ n, OutputAmount X.uni o n) → (∀ n ∈ ns, n ≤ maxMoney ∨ 2 ^ 64 ≤ n) →
        ∃ n, OutputAmount X.uni (setAll X.uni o ns) n) := by
    intro ns
    induction ns with
    | nil => intro o ho; exact ⟨ho, fun h _ => h⟩
    | cons m ns ih =>
      intro o ho
      obtain ⟨h1, ⟨g, hg⟩, h3⟩ := ho
      by_cases hb : m < 1 ∨ 256 ^ 8 ≤ m
      · have := setSatoshi_bad X.uni o hb
        have := ih (o.setSatoshi X.uni m).1 (by rw [this]; exact ⟨h1, ⟨g, hg⟩, h3⟩)
        refine ⟨this.1, fun hA hm => this.2 (by rw [setSatoshi_bad X.uni o hb]; exact hA) fun k hk => hm k (by simp [hk])⟩
      · push Not at hb
        obtain ⟨k, rfl⟩ : ∃ k : Nat, m = k := ⟨m.toNat, by omega⟩
        by_cases hk : k ≤ maxMoney
        · have e := setSatoshi_ok X.uni o (n := k) (by omega) hk
          have := ih (o.setSatoshi X.uni k).1 (by
            rw [e]; exact ⟨h1, ⟨g, hg⟩, leBytes 8 k, rfl, by simp, by
              rw [leNat_leBytes (by unfold maxMoney at hk; norm_num; omega)]⟩)
          refine ⟨this.1, fun _ hm => this.2 ?_ fun k hk => hm k (by simp [hk])⟩
          rw [e]
          exact ⟨k, ⟨leBytes 8 k, rfl, by simp, leNat_leBytes (by unfold maxMoney at hk; norm_num; omega)⟩, rfl,
            btcText_amount _ k⟩
        · have hk2 : k < 256 ^ 8 := by have := hb.2; exact_mod_cast this
          have e := setSatoshi_over X.uni o (n := k) (by omega) hk2
          have := ih (o.setSatoshi X.uni k).1 (by
            rw [e]; exact ⟨h1, ⟨g, hg⟩, leBytes 8 k, rfl, by simp, by rw [leNat_leBytes hk2]⟩)
          refine ⟨this.1, fun _ hm => ?_⟩
          exfalso
          rcases hm k (by simp) with h | h
          · exact hk (by exact_mod_cast h)
          · norm_num at h hk2; omega
  obtain ⟨k1, k2⟩ := key ns (outOf a h n) ⟨rfl, out_script X hs n hh, leBytes 8 n, rfl, by simp, by
    rw [leNat_leBytes (by unfold maxMoney at hn; norm_num; omega)]; rfl⟩
  exact ⟨k1.1, k1.2.1, k1.2.2, k2 ⟨n, out_amount X.uni a h hn⟩⟩

/-- **C25**: a call with an amount in 1..21e14 succeeds and sets exactly that amount; a call with
an amount below 1 or from 2^64 on raises ValueError and changes nothing. -/
theorem C25_set_amount (u : UniDB) (o : TxOut) (n : Int) :
    (1 ≤ n → n ≤ maxMoney → ∃ m : Nat, n = m ∧ (o.setSatoshi u n).2 = .ok () ∧
      OutputAmount u (o.setSatoshi u n).1 m) ∧
    ((n < 1 ∨ 2 ^ 64 ≤ n) → o.setSatoshi u n = (o, .error .valueError)) := by
  constructor
  · intro h1 h2
    obtain ⟨k, rfl⟩ : ∃ k : Nat, n = k := ⟨n.toNat, by omega⟩
    have hk : k ≤ maxMoney := by exact_mod_cast h2
    have e := setSatoshi_ok u o (n := k) (by omega) hk
    rw [e]
    exact ⟨k, rfl, rfl, ⟨leBytes 8 k, rfl, by simp, leNat_leBytes (by unfold maxMoney at hk; norm_num; omega)⟩, rfl,
      btcText_amount _ k⟩
  · intro h
    exact setSatoshi_bad u o (by norm_num at h ⊢; exact h)

/-- **C25** violated: a refused amount above 21 million bitcoin (and below 2^64 satoshi) leaves
the object with that amount in `value` and `satoshi_amount` and the old `bitcoin_amount`. -/
theorem C25_violation (X : Ext) (hs : ∀ b, (X.sha256 b).length = 32) (a : Str) (sat : Int) (o : TxOut)
    (hc : TxOut.create X a sat = .ok o) (n : Int) (h1 : maxMoney < n) (h2 : n < 2 ^ 64) :
    (o.setSatoshi X.uni n).2 = .error .valueError ∧ (o.setSatoshi X.uni n).1.satoshi = n ∧
      ¬ ∃ m, OutputAmount X.uni (o.setSatoshi X.uni n).1 m := by
  obtain ⟨h, k, hl, hh, rfl, hk, rfl⟩ := (TxOut_create_ok X hs).1 hc
  obtain ⟨m, rfl⟩ : ∃ m : Nat, n = m := ⟨n.toNat, by unfold maxMoney at h1; omega⟩
  have hm : maxMoney < m := by exact_mod_cast h1
  rw [setSatoshi_over X.uni _ hm (by norm_num; exact_mod_cast h2)]
  refine ⟨rfl, rfl, ?_⟩
  rintro ⟨j, _, h2, h3⟩
  have e1 : j = m := by simpa using h2.symm
  have e2 : j = k := AmountOf_unique h3 (btcText_amount X.uni k)
  omega

/-- **C26**: an output with a positive amount survives `to_dict` and `from_dict`. -/
theorem C26_round_trip (X : Ext) (hs : ∀ b, (X.sha256 b).length = 32) (a : Str) (sat : Int) (o : TxOut)
    (hc : TxOut.create X a sat = .ok o) (h1 : 1 ≤ sat) : TxOut.fromDict X o.toDict = .ok o := by
  obtain ⟨h, n, hl, hh, rfl, hn, rfl⟩ := (TxOut_create_ok X hs).1 hc
  exact TxOut_fromDict_of X hl hh (by omega) hn

/-- **C26**: whatever `from_dict` accepts is a consistent output with a positive amount (namely
the one `create` makes from its address and amount), and its attributes are the dict entries. -/
theorem C26_cross_checks (X : Ext) (hs : ∀ b, (X.sha256 b).length = 32) (x : PVal) (o : TxOut)
    (hf : TxOut.fromDict X x = .ok o) :
    OutputScript X o ∧ (∃ n, 1 ≤ n ∧ n ≤ maxMoney ∧ OutputAmount X.uni o n) ∧
    TxOut.create X o.address o.satoshi = .ok o ∧
    ∃ d, x = .dict d ∧ dictFind d py"value" = some (.str o.value) ∧
      dictFind d py"script_length" = some (.str o.scriptLen) ∧
      (∃ v, dictFind d py"script_length_int" = some v ∧ v.asInt = some o.scriptLenInt) ∧
      dictFind d py"script_pub_key" = some (.str o.spk) ∧
      dictFind d py"address" = some (.str o.address) ∧
      dictFind d py"bitcoin_amount" = some (.str o.bitcoin) ∧
      dictFind d py"satoshi_amount" = some (.int o.satoshi) := by
  obtain ⟨d, rfl, h, n, hl, hh, h1, h2, he, hd⟩ := TxOut_fromDict_ok X hs hf
  refine ⟨by rw [he]; exact out_script X hs n hh, ⟨n, h1, h2, by rw [he]; exact out_amount X.uni _ h h2⟩, ?_, d, rfl, hd⟩
  have : o.satoshi = n := by rw [he]; rfl
  rw [this, TxOut_create_of X hl hh h2, ← he]

/-- **C27**: an unsigned input with a positive amount survives `to_dict` and `from_dict`. -/
theorem C27_round_trip (X : Ext) (hs : ∀ b, (X.sha256 b).length = 32) (a txid : Str) (idx sat : Int) (i : TxIn)
    (hc : TxIn.create X a txid idx sat = .ok i) (h1 : 1 ≤ sat) : TxIn.fromDict X i.toDict = .ok i := by
  obtain ⟨t, h, ix, n, hl, hh, rfl, ht, rfl, hix, rfl, hn, rfl⟩ := (TxIn_create_ok X hs).1 hc
  exact TxIn_fromDict_toDict X (loaded_inOf X hl hh ht hix (by omega) hn) (by simp [inOf])

/-- **C27**: a signed input (any scriptSig up to 252 bytes with the right length fields, a
64-byte public key) survives as well, except that the public key is dropped. -/
theorem C27_round_trip_signed (X : Ext) (hs : ∀ b, (X.sha256 b).length = 32) (a txid : Str) (idx sat : Int) (i s : TxIn)
    (hc : TxIn.create X a txid idx sat = .ok i) (h1 : 1 ≤ sat) (f p : Bytes) (hf : f.length ≤ 252)
    (hp : p.length = 64)
    (he : s = { i with publicKey := some (hex p), scriptLen := some (hex [UInt8.ofNat f.length]),
                       scriptLenInt := .int f.length, scriptSig := some (hex f) }) :
    TxIn.fromDict X s.toDict = .ok (dropKey s) := by
  obtain ⟨t, h, ix, n, hl, hh, rfl, ht, rfl, hix, rfl, hn, rfl⟩ := (TxIn_create_ok X hs).1 hc
  have L := loaded_withSig X (loaded_inOf X hl hh ht hix (n := n) (by omega) hn) (some (hex p)) hf
  subst he
  exact TxIn_fromDict_toDict X L (by
    intro q hq; simp only [withSig, Option.some.injEq] at hq; exact ⟨p, hq.symm, hp⟩)

/-- **C27**: whatever `from_dict` accepts has matching txid/hash, index, amounts and script
lengths, the fixed sequence number and a valid address. -/
theorem C27_cross_checks (X : Ext) (x : PVal) (i : TxIn) (hf : TxIn.fromDict X x = .ok i) :
    ∃ (t ib : Bytes) (n : Nat), i.txid = hex t ∧ t.length = 32 ∧ i.prevHash = hex t.reverse ∧
      i.prevIndex = hex ib ∧ ib.length = 4 ∧ (leNat ib : Int) = i.prevIndexInt ∧
      1 ≤ n ∧ n ≤ maxMoney ∧ i.satoshi = some (n : Int) ∧ (∃ b, i.bitcoin = some b ∧ AmountOf X.uni b n) ∧
      vBitcoinAddress X i.address = .ok () ∧ i.sequence = py"ffffffff" ∧
      (∀ s, i.scriptSig = some s → ∃ f : Bytes, s = hex f ∧ f.length ≤ 252 ∧
        i.scriptLen = some (hex [UInt8.ofNat f.length]) ∧ i.scriptLenInt.eqInt f.length = true) ∧
      (∀ s, i.spk = some s → ∃ f : Bytes, s = hex f ∧ f.length ≤ 252 ∧
        i.spkLen = some (hex [UInt8.ofNat f.length]) ∧ i.spkLenInt.eqInt f.length = true) ∧
      (∃ d, x = .dict d ∧ dictFind d py"txid" = some (.str i.txid) ∧
        dictFind d py"address" = some (.str i.address) ∧
        dictFind d py"satoshi_amount" = some (.int n) ∧
        dictFind d py"script_sig" = some (match i.scriptSig with | some s => .str s | none => .none) ∧
        dictFind d py"script_pub_key" = some (match i.spk with | some s => .str s | none => .none)) := by
  obtain ⟨d, rfl, E, _, _, t, ix, n, L⟩ := (TxIn_fromDict_ok X).1 hf
  have hfield : ∀ {len script : Option Str} {li : PVal}, FieldOk len script li → ∀ s, script = some s →
      ∃ f : Bytes, s = hex f ∧ f.length ≤ 252 ∧ len = some (hex [UInt8.ofNat f.length]) ∧ li.eqInt f.length = true := by
    intro len script li F s hss
    obtain ⟨f, rfl, hl, hlen⟩ := F.2 s hss
    obtain ⟨z, hz, _, he⟩ := F.1 _ hlen
    rw [hex_inj_iff] at hz
    simp only [List.cons.injEq, and_true] at hz
    subst hz
    rw [UInt8.toNat_ofNat', Nat.mod_eq_of_lt (by omega)] at he
    exact ⟨f, rfl, hl, hlen, he⟩
  refine ⟨t, leBytes 4 ix, n, L.txid, L.tlen, L.prevHash, L.prevIndex, by simp, ?_, L.npos, L.nmax, L.sat,
    ⟨_, L.btc, btcText_amount _ _⟩, L.addr, L.seq, hfield L.sig, hfield L.spk, d, rfl, E.txid, E.address, ?_, ?_, ?_⟩
  · rw [L.prevIndexInt, leNat_leBytes (by have := L.ixlt; norm_num at this ⊢; omega)]
  · have := E.sat; rw [L.sat] at this; exact this
  · rw [E.scriptSig]; cases i.scriptSig <;> rfl
  · rw [E.spk]; cases i.spk <;> rfl

/-- **C28** (what holds): an unsigned input loaded from its own dict keeps the script of its
address. -/
theorem C28_script_of_address_partial (X : Ext) (hs : ∀ b, (X.sha256 b).length = 32) (a txid : Str) (idx sat : Int)
    (i j : TxIn) (hc : TxIn.create X a txid idx sat = .ok i) (hl : TxIn.fromDict X i.toDict = .ok j) :
    ∃ h, AddressOf X.sha256 j.address h ∧ j.spk = some (hex (p2pkh h)) := by
  obtain ⟨t, h, ix, n, hlen, hh, rfl, ht, rfl, hix, rfl, hn, rfl⟩ := (TxIn_create_ok X hs).1 hc
  obtain ⟨d, hd, E, _⟩ := (TxIn_fromDict_ok X).1 hl
  obtain ⟨d', hd', E', _⟩ := inEntries_toDict (inOf a t h ix n)
  rw [hd'] at hd; injection hd with hd; subst hd
  have h1 := E.address.symm.trans E'.address
  have h2 := E.spk.symm.trans E'.spk
  simp only [Option.some.injEq, PVal.str.injEq] at h1
  refine ⟨h, by rw [h1]; exact AddressOf_of_hash X hs hh, ?_⟩
  cases hj : j.spk with
  | none => rw [hj] at h2; simp [PVal.ofOptStr, inOf] at h2
  | some s => rw [hj] at h2; simp only [PVal.ofOptStr, inOf, Option.some.injEq, PVal.str.injEq] at h2; rw [h2]

/-- **C28** violated: the dict of any created input with its script replaced by *any* bytes
`f` (up to 252), or by null, is accepted with that script. -/
theorem C28_violation (X : Ext) (hs : ∀ b, (X.sha256 b).length = 32) (a txid : Str) (idx sat : Int) (i : TxIn)
    (hc : TxIn.create X a txid idx sat = .ok i) (h1 : 1 ≤ sat) :
    (∀ f : Bytes, f.length ≤ 252 → ∃ j, TxIn.fromDict X ({ i with
      spk := some (hex f), spkLen := some (hex [UInt8.ofNat f.length]), spkLenInt := .int f.length } : TxIn).toDict = .ok j ∧
      j.address = a ∧ j.spk = some (hex f)) ∧
    (∃ j, TxIn.fromDict X ({ i with spk := none, spkLen := none } : TxIn).toDict = .ok j ∧
      j.address = a ∧ j.spk = none) := by
  obtain ⟨t, h, ix, n, hl, hh, rfl, ht, rfl, hix, rfl, hn, rfl⟩ := (TxIn_create_ok X hs).1 hc
  have L := loaded_inOf X hl hh ht hix (n := n) (by omega) hn
  constructor
  · intro f hf
    refine ⟨_, TxIn_fromDict_toDict X (t := t) (ix := ix) (n := n) ⟨L.1, L.2, L.3, L.4, L.5, L.6, L.7, L.8, L.9, L.10, L.11, L.12, L.13, ?_, ?_⟩
      (by simp [inOf]), rfl, rfl⟩
    · rintro l hl'
      simp only [Option.some.injEq] at hl'
      have e : (UInt8.ofNat f.length).toNat = f.length := by
        rw [UInt8.toNat_ofNat', Nat.mod_eq_of_lt (by omega)]
      exact ⟨_, hl'.symm, by omega, by simp [PVal.eqInt]; omega⟩
    · rintro s hs'
      simp only [Option.some.injEq] at hs'
      exact ⟨f, hs'.symm, hf, rfl⟩
  · exact ⟨_, TxIn_fromDict_toDict X (t := t) (ix := ix) (n := n) ⟨L.1, L.2, L.3, L.4, L.5, L.6, L.7, L.8, L.9, L.10, L.11, L.12, L.13, by simp, by simp⟩
      (by simp [inOf]), rfl, rfl⟩

/-! ## Witnesses -/

/-- hypotheses of the theorems above are met by a real input and output -/
example : ∃ i, TxIn.create Concrete.Xreal py"1BgGZ9tcN4rm9KBzDn7KprQz87SZ26SAMH"
    (List.replicate 64 'a') 3 70000 = .ok i :=
  (C24_accepts Concrete.Xreal Concrete.sha256_length _ _ _ _).2
    ⟨by decide +kernel, ⟨by decide, by decide⟩, by decide, by decide, by decide, by decide, by decide⟩
example : ∃ o, TxOut.create Concrete.Xreal py"1BgGZ9tcN4rm9KBzDn7KprQz87SZ26SAMH" 70000 = .ok o :=
  (C24_output Concrete.Xreal Concrete.sha256_length _ _).2.1.2 ⟨by decide +kernel, by decide, by decide⟩
/-- the band of C25's violation is not empty -/
example : (maxMoney : Int) < 2100000000000001 ∧ (2100000000000001 : Int) < 2 ^ 64 := by decide

end BT
