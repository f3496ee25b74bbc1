import Verif.Lemmas.Ser

namespace BT
open Spec

/-! # `from_hex_signed` -/

theorem flatten_map_hexByte (b : Bytes) : (b.map hexByte).flatten = hex b := by
  rw [hex, List.flatMap]

theorem takeBytes_hex (n : Nat) (b : Bytes) :
    takeBytes n (b.map hexByte) = (hex (b.take n), (b.drop n).map hexByte) := by
  simp only [takeBytes, ← List.map_take, ← List.map_drop, flatten_map_hexByte]

theorem takeByte_ok {b : Bytes} {s : Str} {hb : List Str} :
    takeByte (b.map hexByte) = .ok (s, hb) ↔ ∃ x r, b = x :: r ∧ s = hex [x] ∧ hb = r.map hexByte := by
  cases b with
  | nil => simp [takeByte]
  | cons x r => simp [takeByte, eq_comm]

/-- hash160 of an uncompressed key -/
def keyHash (X : Ext) (p : Bytes) : Bytes := X.ripemd160 (X.sha256 (4 :: p))

/-- the address text of a 20-byte hash -/
def addrText (X : Ext) (h : Bytes) : Str := text58 (0 :: h ++ checksum X.sha256 (0 :: h))

/-- the input object made from raw bytes and public key -/
def parsedIn (X : Ext) (r : RawIn) (p : Bytes) : TxIn :=
  { prevHash := hex r.hash, prevIndex := hex r.index, prevIndexInt := leNat r.index,
    publicKey := some (hex p), spkLen := some (hex [25]), spkLenInt := .int 25,
    spk := some (hex (p2pkh (keyHash X p))), scriptLen := some (hex [UInt8.ofNat r.script.length]),
    scriptLenInt := .int r.script.length, scriptSig := some (hex r.script),
    address := addrText X (keyHash X p), txid := hex r.hash.reverse }

theorem createFromSigned_in (X : Ext) (hs : ∀ b, (X.sha256 b).length = 32) (hr : ∀ b, (X.ripemd160 b).length = 20)
    {r : RawIn} (h : r.Ok) {p : Bytes} (hp : p.length = 64) :
    TxIn.createFromSigned X (hex p) (hex r.hash) (hex r.index) (hex [UInt8.ofNat r.script.length]) (hex r.script)
      = .ok (parsedIn X r p) := by
  obtain ⟨h1, h2, h3⟩ := h
  have e1 : vHexLength (hex p) 64 = .ok () := by rw [vHexLength_hex, if_pos (by omega)]
  have e2 : vHexLength (hex r.hash) 32 = .ok () := by rw [vHexLength_hex, if_pos (by omega)]
  have e3 : vHexLength (hex r.index) 4 = .ok () := by rw [vHexLength_hex, if_pos (by omega)]
  have e4 : publicKeyToScriptPubKey X (hex p) = .ok (hex (p2pkh (keyHash X p)), hex [25]) := by
    simp only [publicKeyToScriptPubKey, getPublicKeyHash_hex X hr, R_bind_ok]
    exact hashToScriptPubKey_hex _ (hr _)
  have e5 : scriptPubKeyToAddress X (hex (p2pkh (keyHash X p))) = .ok (addrText X (keyHash X p)) := by
    rw [p2pkh, scriptPubKeyToAddress_mid X _ _ _ rfl rfl, hashToAddress_hex X hs]; rfl
  have e6 : hexLeToInt X.uni (hex r.index) = .ok (leNat r.index : Int) := by
    simp only [hexLeToInt, reverseHexOrder_hex, R_bind_ok, hexToInt]
    rw [pyInt_hex X.uni (by intro hc; simp at hc; simp [hc] at h2), beNat_reverse]
  simp only [TxIn.createFromSigned, e1, e2, e3, vHex_hex, R_bind_ok, varInt_len X.uni h3, e4, varInt25, e5, e6,
    reverseHexOrder_hex]
  rfl

theorem parseInput_ok (X : Ext) (hs : ∀ b, (X.sha256 b).length = 32) (hr : ∀ b, (X.ripemd160 b).length = 20)
    {b : Bytes} {i : TxIn} {hb : List Str} :
    parseInput X (b.map hexByte) = .ok (i, hb) ↔ ∃ (r : RawIn) (d p rest : Bytes), r.Ok ∧ b = r.bytes ++ rest ∧
      hb = rest.map hexByte ∧ scriptSigDecode X.uni (hex r.script) = .ok (hex d, hex p) ∧ p.length = 64 ∧
      i = parsedIn X r p := by
  unfold parseInput
  simp only [takeBytes_hex]
  constructor
  · intro h
    simp only [R_bind_eq_ok] at h
    obtain ⟨⟨sl, hb1⟩, h1, h⟩ := h
    obtain ⟨x, q, hq, rfl, rfl⟩ := takeByte_ok.1 h1
    obtain ⟨n, hn, h⟩ := h
    simp only [takeBytes_hex] at h
    obtain ⟨⟨sg, pk⟩, h2, h⟩ := h
    obtain ⟨_, _, h⟩ := h
    obtain ⟨_, _, h⟩ := h
    rw [varIntToInt_hex] at hn
    split at hn
    · rename_i hx
      simp only [Except.ok.injEq] at hn
      subst hn
      simp only [Int.toNat_natCast] at h h2
      split at h
      · simp at h
      · rename_i hseq
        rw [not_not, hex_ff, hex_inj_iff] at hseq
        simp only [R_bind_eq_ok] at h
        obtain ⟨i', hi, h⟩ := h
        simp only [R_pure, Except.ok.injEq, Prod.mk.injEq] at h
        obtain ⟨rfl, rfl⟩ := h
        -- lengths
        have hlen := congrArg List.length hseq
        simp only [List.length_take, List.length_drop, List.length_cons, List.length_nil] at hlen
        have hqlen : x.toNat ≤ q.length := by omega
        have hb36 : 36 < b.length := by
          have := congrArg List.length hq
          simp at this; omega
        obtain ⟨d, q2, n2, hs2, _, _, _, rfl, rfl⟩ := (scriptSigDecode_ok X.uni).1 h2
        have hi0 := hi
        simp only [TxIn.createFromSigned, R_bind_eq_ok] at hi
        obtain ⟨_, hp, _⟩ := hi
        rw [vHexLength_hex] at hp
        have hp64 : (q2.take (n2.toNat - 1)).length = 64 := by
          by_contra hc
          rw [if_neg (by omega)] at hp
          simp at hp
        have hrok : RawIn.Ok ⟨b.take 32, (b.drop 32).take 4, q.take x.toNat⟩ := by
          refine ⟨?_, ?_, ?_⟩ <;> simp <;> omega
        have hx8 : UInt8.ofNat (q.take x.toNat).length = x := by
          rw [List.length_take, min_eq_left hqlen, UInt8.ofNat_toNat]
        refine ⟨⟨b.take 32, (b.drop 32).take 4, q.take x.toNat⟩, d, q2.take (n2.toNat - 1), (q.drop x.toNat).drop 4, hrok, ?_, rfl, h2,
          hp64, ?_⟩
        · simp only [RawIn.bytes, hx8, List.append_assoc, List.singleton_append]
          rw [← hseq, List.take_append_drop, List.cons_append, List.take_append_drop, ← hq, List.take_append_drop,
            List.take_append_drop]
        · have := createFromSigned_in X hs hr hrok (p := q2.take (n2.toNat - 1)) hp64
          simp only [hx8] at this
          rw [this, Except.ok.injEq] at hi0
          exact hi0.symm
    · simp at hn
  · rintro ⟨r, d, p, rest, hok, rfl, rfl, hdec, hp, rfl⟩
    obtain ⟨h1, h2, h3⟩ := hok
    have a1 : (r.bytes ++ rest).take 32 = r.hash := by
      simp only [RawIn.bytes, List.append_assoc]; rw [← h1, List.take_left]
    have a2 : (r.bytes ++ rest).drop 32 = r.index ++ (UInt8.ofNat r.script.length :: (r.script ++ ([0xff, 0xff, 0xff, 0xff] ++ rest))) := by
      simp only [RawIn.bytes, List.append_assoc]; rw [← h1, List.drop_left]; simp
    have a3 : (r.index ++ (UInt8.ofNat r.script.length :: (r.script ++ ([0xff, 0xff, 0xff, 0xff] ++ rest)))).take 4 = r.index := by
      rw [← h2, List.take_left]
    have a4 : (r.index ++ (UInt8.ofNat r.script.length :: (r.script ++ ([0xff, 0xff, 0xff, 0xff] ++ rest)))).drop 4 =
        UInt8.ofNat r.script.length :: (r.script ++ ([0xff, 0xff, 0xff, 0xff] ++ rest)) := by
      rw [← h2, List.drop_left]
    simp only [a1, a2, a3, a4, List.map_cons, takeByte, R_bind_ok]
    rw [show hexByte (UInt8.ofNat r.script.length) = hex [UInt8.ofNat r.script.length] by simp, varInt_len X.uni h3]
    simp only [R_bind_ok, Int.toNat_natCast, takeBytes_hex, List.take_left, List.drop_left, hdec, hexLen_hex]
    have a5 : ([0xff, 0xff, 0xff, 0xff] ++ rest : Bytes).take 4 = [0xff, 0xff, 0xff, 0xff] := rfl
    have a6 : ([0xff, 0xff, 0xff, 0xff] ++ rest : Bytes).drop 4 = rest := rfl
    rw [a5, a6, ← hex_ff]
    simp only [ne_eq, not_true, if_false, createFromSigned_in X hs hr ⟨h1, h2, h3⟩ hp, R_bind_ok, R_pure]

/-- the output object made from raw bytes -/
def parsedOut (X : Ext) (r : RawOut) : TxOut :=
  { value := hex r.value, scriptLen := hex [UInt8.ofNat r.script.length], scriptLenInt := r.script.length,
    spk := hex r.script, address := addrText X ((r.script.drop 3).take (r.script.length - 5)),
    bitcoin := btcText (leNat r.value), satoshi := leNat r.value }

theorem scriptAddr (X : Ext) (hs : ∀ b, (X.sha256 b).length = 32) (b : Bytes) :
    scriptPubKeyToAddress X (hex b) = .ok (addrText X ((b.drop 3).take (b.length - 5))) := by
  have : slice (hex b) 6 ((hex b).length - 4) = hex ((b.drop 3).take (b.length - 5)) := by
    rw [slice, show (6 : Nat) = 2 * 3 from rfl, hex_drop, ← hex_take, hex_length]
    congr 1; omega
  rw [scriptPubKeyToAddress, this, hashToAddress_hex X hs]; rfl

theorem hexLe_val (u : UniDB) {v : Bytes} (h : v ≠ []) : hexLeToInt u (hex v) = .ok (leNat v : Int) := by
  simp only [hexLeToInt, reverseHexOrder_hex, R_bind_ok, hexToInt]
  rw [pyInt_hex u (by simpa using h), beNat_reverse]

theorem parseOutput_ok (X : Ext) (hs : ∀ b, (X.sha256 b).length = 32) {b : Bytes} {o : TxOut} {hb : List Str} :
    parseOutput X (b.map hexByte) = .ok (o, hb) ↔ ∃ (v s rest : Bytes) (x : UInt8),
      v.length = 8 ∧ x.toNat ≤ 252 ∧ b = v ++ x :: (s ++ rest) ∧
      (s.length = x.toNat ∨ (s.length < x.toNat ∧ rest = [])) ∧
      hb = rest.map hexByte ∧ leNat v ≤ maxMoney ∧ o = { parsedOut X ⟨v, s⟩ with scriptLen := hex [x], scriptLenInt := x.toNat } := by
  unfold parseOutput
  simp only [takeBytes_hex]
  constructor
  · intro h
    simp only [R_bind_eq_ok] at h
    obtain ⟨n, hn, m, hm, ⟨sl, hb1⟩, h1, h⟩ := h
    obtain ⟨x, q, hq, rfl, rfl⟩ := takeByte_ok.1 h1
    obtain ⟨k, hk, h⟩ := h
    simp only [takeBytes_hex] at h
    obtain ⟨o', ho, h⟩ := h
    simp only [R_pure, Except.ok.injEq, Prod.mk.injEq] at h
    obtain ⟨rfl, rfl⟩ := h
    have hv : (b.take 8).length = 8 := by
      have := congrArg List.length hq
      simp at this ⊢; omega
    have hne : b.take 8 ≠ [] := by intro hc; simp [hc] at hv
    rw [hexLe_val X.uni hne, Except.ok.injEq] at hn
    subst hn
    obtain ⟨j, hj, hjm, rfl⟩ := (satoshiToBitcoin_ok X.uni).1 hm
    have hj : j = leNat (b.take 8) := by omega
    subst hj
    rw [varIntToInt_hex] at hk
    split at hk
    · rename_i hx
      simp only [Except.ok.injEq] at hk
      subst hk
      simp only [Int.toNat_natCast] at ho ⊢
      refine ⟨b.take 8, q.take x.toNat, q.drop x.toNat, x, hv, hx, ?_, ?_, rfl, hjm, ?_⟩
      · rw [List.take_append_drop, ← hq, List.take_append_drop]
      · by_cases hl : x.toNat ≤ q.length
        · left; simp; exact hl
        · right; simp; omega
      · have e1 : varIntToInt X.uni (hex [x]) = .ok (x.toNat : Int) := by rw [varIntToInt_hex, if_pos hx]
        simp only [TxOut.createFromSigned, e1, scriptAddr X hs, R_bind_ok, hexLe_val X.uni hne,
          satoshiToBitcoin_nat X.uni hjm, R_pure, Except.ok.injEq] at ho
        rw [← ho]; rfl
    · simp at hk
  · rintro ⟨v, s, rest, x, hv, hx, rfl, hlen, rfl, hmax, rfl⟩
    have hne : v ≠ [] := by intro hc; simp [hc] at hv
    have a1 : (v ++ x :: (s ++ rest)).take 8 = v := by rw [← hv, List.take_left]
    have a2 : (v ++ x :: (s ++ rest)).drop 8 = x :: (s ++ rest) := by rw [← hv, List.drop_left]
    have a3 : (s ++ rest).take x.toNat = s ∧ (s ++ rest).drop x.toNat = rest := by
      rcases hlen with h | ⟨h, rfl⟩
      · rw [← h]; simp
      · simp; omega
    have e1 : varIntToInt X.uni (hex [x]) = .ok (x.toNat : Int) := by rw [varIntToInt_hex, if_pos hx]
    simp only [a1, a2, hexLe_val X.uni hne, R_bind_ok, satoshiToBitcoin_nat X.uni hmax, List.map_cons, takeByte]
    rw [show hexByte x = hex [x] by simp, e1]
    simp only [R_bind_ok, Int.toNat_natCast, takeBytes_hex, a3.1, a3.2, TxOut.createFromSigned, e1, scriptAddr X hs,
      hexLe_val X.uni hne, satoshiToBitcoin_nat X.uni hmax, R_pure]
    rfl

/-- the public key `p` can be read from the scriptSig of `r` -/
def KeyIn (X : Ext) (r : RawIn) (p : Bytes) : Prop :=
  r.Ok ∧ p.length = 64 ∧ ∃ d : Bytes, scriptSigDecode X.uni (hex r.script) = .ok (hex d, hex p)

theorem parseInputs_ok (X : Ext) (hs : ∀ b, (X.sha256 b).length = 32) (hr : ∀ b, (X.ripemd160 b).length = 20)
    (n : Nat) {b : Bytes} {is : List TxIn} {hb : List Str} :
    parseMany (parseInput X) n (b.map hexByte) = .ok (is, hb) ↔ ∃ (l : List (RawIn × Bytes)) (rest : Bytes),
      l.length = n ∧ (∀ q ∈ l, KeyIn X q.1 q.2) ∧ b = (l.map Prod.fst).flatMap RawIn.bytes ++ rest ∧
      hb = rest.map hexByte ∧ is = l.map fun q => parsedIn X q.1 q.2 := by
  induction n generalizing b is hb with
  | zero =>
    simp only [parseMany, Except.ok.injEq, Prod.mk.injEq]
    constructor
    · rintro ⟨rfl, rfl⟩; exact ⟨[], b, rfl, by simp, by simp, rfl, rfl⟩
    · rintro ⟨l, rest, hl, _, rfl, rfl, rfl⟩
      rw [List.length_eq_zero_iff] at hl; subst hl; simp
  | succ n ih =>
    simp only [parseMany, R_bind_eq_ok]
    constructor
    · rintro ⟨⟨x, hb1⟩, h1, ⟨xs, hb2⟩, h2, h3⟩
      simp only [R_pure, Except.ok.injEq, Prod.mk.injEq] at h3
      obtain ⟨rfl, rfl⟩ := h3
      obtain ⟨r, d, p, rest, hok, rfl, rfl, hdec, hp, rfl⟩ := (parseInput_ok X hs hr).1 h1
      obtain ⟨l, rest2, hl, hk, rfl, rfl, rfl⟩ := ih.1 h2
      exact ⟨(r, p) :: l, rest2, by simp [hl], by
        intro q hq
        rcases List.mem_cons.1 hq with rfl | hq
        · exact ⟨hok, hp, d, hdec⟩
        · exact hk q hq, by simp, rfl, rfl⟩
    · rintro ⟨l, rest, hl, hk, rfl, rfl, rfl⟩
      cases l with
      | nil => simp at hl
      | cons q l =>
        obtain ⟨hok, hp, d, hdec⟩ := hk q (by simp)
        refine ⟨(parsedIn X q.1 q.2, ((l.map Prod.fst).flatMap RawIn.bytes ++ rest).map hexByte), ?_,
          (l.map fun q => parsedIn X q.1 q.2, rest.map hexByte), ?_, rfl⟩
        · exact (parseInput_ok X hs hr).2 ⟨q.1, d, q.2, _, hok, by simp, rfl, hdec, hp, rfl⟩
        · exact ih.2 ⟨l, rest, by simpa using hl, fun q hq => hk q (by simp [hq]), rfl, rfl, rfl⟩

theorem parseOutputs_ok (X : Ext) (hs : ∀ b, (X.sha256 b).length = 32)
    (n : Nat) {b : Bytes} {os : List TxOut} {hb : List Str} (hne : hb ≠ []) :
    parseMany (parseOutput X) n (b.map hexByte) = .ok (os, hb) ↔ ∃ (l : List RawOut) (rest : Bytes),
      l.length = n ∧ (∀ r ∈ l, r.Ok ∧ leNat r.value ≤ maxMoney) ∧ b = l.flatMap RawOut.bytes ++ rest ∧
      hb = rest.map hexByte ∧ os = l.map (parsedOut X) := by
  induction n generalizing b os with
  | zero =>
    simp only [parseMany, Except.ok.injEq, Prod.mk.injEq]
    constructor
    · rintro ⟨rfl, rfl⟩; exact ⟨[], b, rfl, by simp, by simp, rfl, rfl⟩
    · rintro ⟨l, rest, hl, _, rfl, rfl, rfl⟩
      rw [List.length_eq_zero_iff] at hl; subst hl; simp
  | succ n ih =>
    simp only [parseMany, R_bind_eq_ok]
    constructor
    · rintro ⟨⟨x, hb1⟩, h1, ⟨xs, hb2⟩, h2, h3⟩
      simp only [R_pure, Except.ok.injEq, Prod.mk.injEq] at h3
      obtain ⟨rfl, rfl⟩ := h3
      obtain ⟨v, s, rest, x, hv, hx, rfl, hlen, rfl, hmax, rfl⟩ := (parseOutput_ok X hs).1 h1
      obtain ⟨l, rest2, hl, hk, rfl, rfl, rfl⟩ := ih.1 h2
      have hrest : l.flatMap RawOut.bytes ++ rest2 ≠ [] := by
        intro hc
        apply hne
        simp at hc
        simp [hc.2]
      have hlen := hlen.resolve_right fun h => hrest h.2
      have hx8 : UInt8.ofNat s.length = x := by rw [hlen, UInt8.ofNat_toNat]
      refine ⟨⟨v, s⟩ :: l, rest2, by simp [hl], ?_, ?_, rfl, ?_⟩
      · intro q hq
        rcases List.mem_cons.1 hq with rfl | hq
        · exact ⟨⟨hv, by simp only; omega⟩, hmax⟩
        · exact hk q hq
      · simp [RawOut.bytes, hx8]
      · simp only [List.map_cons, List.cons.injEq, and_true, parsedOut, hlen, UInt8.ofNat_toNat]
    · rintro ⟨l, rest, hl, hk, rfl, rfl, rfl⟩
      cases l with
      | nil => simp at hl
      | cons r l =>
        obtain ⟨⟨hv, hs252⟩, hmax⟩ := hk r (by simp)
        have e : (UInt8.ofNat r.script.length).toNat = r.script.length := by
          rw [UInt8.toNat_ofNat', Nat.mod_eq_of_lt (by omega)]
        refine ⟨(parsedOut X r, (l.flatMap RawOut.bytes ++ rest).map hexByte), ?_,
          (l.map (parsedOut X), rest.map hexByte), ?_, rfl⟩
        · exact (parseOutput_ok X hs).2 ⟨r.value, r.script, _, UInt8.ofNat r.script.length, hv, by omega, by simp [RawOut.bytes],
            .inl e.symm, rfl, hmax, by simp [parsedOut, e]⟩
        · exact ih.2 ⟨l, rest, by simpa using hl, fun q hq => hk q (by simp [hq]), rfl, rfl, rfl⟩

/-- the transaction object made from raw inputs (with public keys) and outputs -/
def parsedTx (X : Ext) (l : List (RawIn × Bytes)) (outs : List RawOut) : Tx :=
  { inputCount := hex [UInt8.ofNat l.length], inputs := l.map fun q => parsedIn X q.1 q.2,
    outputCount := hex [UInt8.ofNat outs.length], outputs := outs.map (parsedOut X) }

theorem fromHexSigned_ok (X : Ext) (hs : ∀ b, (X.sha256 b).length = 32) (hr : ∀ b, (X.ripemd160 b).length = 20)
    {s : Str} {t : Tx} :
    Tx.fromHexSigned X s = .ok t ↔ ∃ (l : List (RawIn × Bytes)) (outs : List RawOut) (rest : Bytes),
      s = hex (txBytes (l.map Prod.fst) outs ++ rest) ∧ (∀ q ∈ l, KeyIn X q.1 q.2) ∧
      (∀ r ∈ outs, r.Ok ∧ leNat r.value ≤ maxMoney) ∧ l.length ≤ 252 ∧ outs.length ≤ 252 ∧ t = parsedTx X l outs := by
  unfold Tx.fromHexSigned
  simp only [R_bind_eq_ok]
  constructor
  · rintro ⟨_, h0, h⟩
    obtain ⟨b, rfl⟩ := isHex_exists (hexLen_ok.1 h0).1
    simp only [chunks2_hex, takeBytes_hex] at h
    split at h
    · simp at h
    · rename_i hv
      rw [not_not, hex_v1, hex_inj_iff] at hv
      simp only [R_bind_eq_ok] at h
      obtain ⟨⟨ic, hb1⟩, h1, ici, hici, ⟨is, hb2⟩, h2, ⟨oc, hb3⟩, h3, oci, hoci, ⟨os, hb4⟩, h4, h⟩ := h
      obtain ⟨x, q, hq, rfl, rfl⟩ := takeByte_ok.1 h1
      obtain ⟨l, rest, hl, hk, rfl, rfl, rfl⟩ := (parseInputs_ok X hs hr _).1 h2
      obtain ⟨y, q2, rfl, rfl, rfl⟩ := takeByte_ok.1 h3
      rw [varIntToInt_hex] at hici hoci
      split at hici
      · rename_i hx
        split at hoci
        · rename_i hy
          simp only [Except.ok.injEq] at hici hoci
          subst hici hoci
          simp only [Int.toNat_natCast] at hl h4
          split at h
          · simp at h
          · rename_i hlock
            have hne : hb4 ≠ [] := by
              rintro rfl
              simp [takeBytes] at hlock
            obtain ⟨outs, rest2, hlo, hko, rfl, rfl, rfl⟩ := (parseOutputs_ok X hs _ hne).1 h4
            simp only [takeBytes_hex] at hlock
            rw [not_not, hex_lock, hex_inj_iff] at hlock
            obtain ⟨_, _, rfl⟩ := Tx_create_ok.1 h
            refine ⟨l, outs, rest2.drop 4, ?_, hk, hko, by omega, by omega, by simp [parsedTx]⟩
            rw [hex_inj_iff]
            have hb : b = [1, 0, 0, 0] ++ b.drop 4 := by rw [← hv, List.take_append_drop]
            have hr2 : rest2 = [0, 0, 0, 0] ++ rest2.drop 4 := by rw [← hlock, List.take_append_drop]
            rw [hb, hq]
            conv_lhs => rw [hr2]
            simp [txBytes, hl, hlo]
        · simp at hoci
      · simp at hici
  · rintro ⟨l, outs, rest, rfl, hk, hko, hl, hlo, rfl⟩
    refine ⟨_, hexLen_hex _, ?_⟩
    simp only [chunks2_hex, takeBytes_hex]
    have a1 : (txBytes (l.map Prod.fst) outs ++ rest).take 4 = [1, 0, 0, 0] := rfl
    have a2 : (txBytes (l.map Prod.fst) outs ++ rest).drop 4 = UInt8.ofNat l.length :: ((l.map Prod.fst).flatMap RawIn.bytes ++
        (UInt8.ofNat outs.length :: (outs.flatMap RawOut.bytes ++ ([0, 0, 0, 0] ++ rest)))) := by
      simp [txBytes]
    rw [a1, a2, ← hex_v1, if_neg (by simp)]
    simp only [List.map_cons, takeByte, R_bind_ok]
    rw [show hexByte (UInt8.ofNat l.length) = hex [UInt8.ofNat l.length] by simp, varInt_len X.uni hl]
    simp only [R_bind_ok, Int.toNat_natCast]
    rw [(parseInputs_ok X hs hr l.length).2 ⟨l, _, rfl, hk, rfl, rfl, rfl⟩]
    simp only [List.map_cons, takeByte, R_bind_ok]
    rw [show hexByte (UInt8.ofNat outs.length) = hex [UInt8.ofNat outs.length] by simp, varInt_len X.uni hlo]
    simp only [R_bind_ok, Int.toNat_natCast]
    rw [(parseOutputs_ok X hs outs.length (hb := ([0, 0, 0, 0] ++ rest).map hexByte) (by simp)).2 ⟨outs, _, rfl, hko, rfl, rfl, rfl⟩]
    simp only [R_bind_ok, takeBytes_hex]
    rw [show ([0, 0, 0, 0] ++ rest : Bytes).take 4 = [0, 0, 0, 0] from rfl, ← hex_lock, if_neg (by simp)]
    exact Tx_create_ok.2 ⟨by simpa using hl, by simpa using hlo, by simp [parsedTx]⟩

theorem parsedTx_frame (X : Ext) {l : List (RawIn × Bytes)} {outs : List RawOut} (hl : l.length ≤ 252) (ho : outs.length ≤ 252) :
    Frame (parsedTx X l outs) :=
  ⟨rfl, rfl, rfl, rfl, by simp [parsedTx], by simp [parsedTx], by simpa [parsedTx] using hl, by simpa [parsedTx] using ho⟩

theorem parsedTx_hex (X : Ext) {l : List (RawIn × Bytes)} {outs : List RawOut} (hl : l.length ≤ 252) (ho : outs.length ≤ 252) :
    (parsedTx X l outs).toHexSigned = .ok (hex (txBytes (l.map Prod.fst) outs)) := by
  apply signed_hex (parsedTx_frame X hl ho)
  · simp only [parsedTx, List.forall₂_map_left_iff, List.forall₂_map_right_iff]
    exact List.forall₂_same.2 fun q _ => ⟨rfl, rfl, rfl, rfl, rfl⟩
  · simp only [parsedTx, List.forall₂_map_left_iff]
    exact List.forall₂_same.2 fun q _ => ⟨rfl, rfl, rfl⟩

end BT
