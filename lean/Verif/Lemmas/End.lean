import Verif.EndSpec
import Verif.Props.CreateMore

/-! # From objects to bytes -/

namespace BT
open Spec

variable {X : Ext}

/-- an address has one hash -/
theorem addressOf_unique {sha : Bytes → Bytes} {a : Str} {h h' : Bytes} (p : AddressOf sha a h) (q : AddressOf sha a h') : h = h' := by
  have e := denotes_inj p.2 q.2
  simp only [List.cons_append, List.cons.injEq, true_and] at e
  exact (List.append_inj e (by rw [p.1, q.1])).1

/-- the coin an input object refers to -/
structure CoinIn (X : Ext) (c : Coin) (i : TxIn) : Prop where
  txl : c.txid.length = 32
  txid : i.txid = hex c.txid
  ixl : c.index < 2 ^ 32
  ix : i.prevIndexInt = c.index
  sat : i.satoshi = some (c.sat : Int)
  ol : c.owner.length = 20
  own : addressToHash X i.address = .ok (hex c.owner)
  hash : i.prevHash = hex c.txid.reverse
  index : i.prevIndex = hex (leBytes 4 c.index)
  seq : i.sequence = py"ffffffff"
  spk : i.spk = some (hex (p2pkh c.owner))
  spkLen : i.spkLen = some (hex [25])

/-- the payment an output object makes -/
structure PayOut (X : Ext) (d : Payment) (o : TxOut) : Prop where
  sat : o.satoshi = d.sat
  max : d.sat ≤ maxMoney
  ol : d.owner.length = 20
  own : addressToHash X o.address = .ok (hex d.owner)
  value : o.value = hex (leBytes 8 d.sat)
  spk : o.spk = hex (p2pkh d.owner)
  len : o.scriptLen = hex [25]

theorem coin_of_create (hs : ∀ b, (X.sha256 b).length = 32) {i : TxIn} (h : ∃ a txid idx sat, TxIn.create X a txid idx sat = .ok i) :
    ∃ c, CoinIn X c i := by
  obtain ⟨a, txid, idx, sat, h⟩ := h
  obtain ⟨t, hh, ix, n, h1, h2, h3, h4, h5, h6, h7, h8, rfl⟩ := (TxIn_create_ok X hs).1 h
  exact ⟨⟨t, ix, n, hh⟩, ⟨h4, rfl, h6, rfl, rfl, h1, h2, rfl, rfl, rfl, rfl, rfl⟩⟩

theorem pay_of_create (hs : ∀ b, (X.sha256 b).length = 32) {o : TxOut} (h : ∃ a sat, TxOut.create X a sat = .ok o) :
    ∃ d, PayOut X d o := by
  obtain ⟨a, sat, h⟩ := h
  obtain ⟨hh, n, h1, h2, h3, h4, rfl⟩ := (TxOut_create_ok X hs).1 h
  exact ⟨⟨n, hh⟩, ⟨rfl, h4, h1, h2, rfl, rfl, rfl⟩⟩

theorem coin_fn (hs : ∀ b, (X.sha256 b).length = 32) :
    ∃ f : TxIn → Coin, ∀ i, (∃ a txid idx sat, TxIn.create X a txid idx sat = .ok i) → CoinIn X (f i) i := by
  classical
  refine ⟨fun i => if h : ∃ c, CoinIn X c i then h.choose else ⟨[], 0, 0, []⟩, ?_⟩
  intro i hi
  have h := coin_of_create hs hi
  simp only [h, dif_pos]
  exact h.choose_spec

theorem pay_fn (hs : ∀ b, (X.sha256 b).length = 32) :
    ∃ f : TxOut → Payment, ∀ o, (∃ a sat, TxOut.create X a sat = .ok o) → PayOut X (f o) o := by
  classical
  refine ⟨fun i => if h : ∃ c, PayOut X c i then h.choose else ⟨0, []⟩, ?_⟩
  intro i hi
  have h := pay_of_create hs hi
  simp only [h, dif_pos]
  exact h.choose_spec

theorem described_coin (hs : ∀ b, (X.sha256 b).length = 32) {p : PVal} {i : TxIn} {c : Coin} (h : Offers X p i) (hc : CoinIn X c i) :
    c.Described X p := by
  obtain ⟨a, txid, v, idx, s, sat, e1, e2, e3, e4, e5, e6, e7⟩ := h
  obtain ⟨t, hh, ix, n, h1, h2, h3, h4, h5, h6, h7, h8, rfl⟩ := (TxIn_create_ok X hs).1 e7
  have q1 : hex t = hex c.txid := hc.txid
  have q2 : (ix : Int) = c.index := hc.ix
  have q3 : some (n : Int) = some (c.sat : Int) := hc.sat
  have q4 : addressToHash X a = .ok (hex c.owner) := hc.own
  refine ⟨hc.txl, by rw [← q1, ← h3]; exact e2, ⟨v, e3, by rw [e4, h5, q2]⟩, ⟨s, e5, ?_⟩, ⟨a, e1, AddressOf_of_hash X hs q4⟩⟩
  have : sat = c.sat := by injection q3 with q3; omega
  exact this ▸ e6

theorem described_pay (hs : ∀ b, (X.sha256 b).length = 32) {p : PVal} {o : TxOut} {d : Payment} (h : Asks X p o) (hc : PayOut X d o) :
    d.Described X p := by
  obtain ⟨a, s, sat, e1, e2, e3, e4⟩ := h
  obtain ⟨hh, n, h1, h2, h3, h4, rfl⟩ := (TxOut_create_ok X hs).1 e4
  have q3 : (n : Int) = (d.sat : Int) := hc.sat
  have q4 : addressToHash X a = .ok (hex d.owner) := hc.own
  have : sat = d.sat := by omega
  exact ⟨⟨s, e2, this ▸ e3⟩, ⟨a, e1, AddressOf_of_hash X hs q4⟩⟩

theorem owner_eq_iff (hs : ∀ b, (X.sha256 b).length = 32) {a b : Str} {g h : Bytes} (h1 : addressToHash X a = .ok (hex g))
    (h2 : addressToHash X b = .ok (hex h)) : g = h ↔ a = b := by
  constructor
  · rintro rfl
    have e1 := hashToAddress_of_hash X hs h1
    have e2 := hashToAddress_of_hash X hs h2
    rw [e1] at e2; injection e2
  · rintro rfl
    rw [h1] at h2; injection h2 with h2
    exact hex_inj_iff.1 h2

theorem coinTotal_map (f : TxIn → Coin) : ∀ l : List TxIn, (∀ i ∈ l, CoinIn X (f i) i) → (coinTotal (l.map f) : Int) = inTotal l := by
  intro l
  induction l with
  | nil => intro _; rfl
  | cons i l ih =>
    intro h
    have h1 := (h i (by simp)).sat
    have h2 := ih fun x hx => h x (by simp [hx])
    simp only [coinTotal, List.map_cons, List.sum_cons, inTotal, h1, Option.getD_some] at h2 ⊢
    push_cast at h2 ⊢
    omega

theorem payTotal_map (f : TxOut → Payment) : ∀ l : List TxOut, (∀ i ∈ l, PayOut X (f i) i) → (payTotal (l.map f) : Int) = outTotal l := by
  intro l
  induction l with
  | nil => intro _; rfl
  | cons i l ih =>
    intro h
    have h1 := (h i (by simp)).sat
    have h2 := ih fun x hx => h x (by simp [hx])
    simp only [payTotal, List.map_cons, List.sum_cons, outTotal, h1] at h2 ⊢
    push_cast at h2 ⊢
    omega

theorem forall₂_map_of {α β γ : Type} {P : α → β → Prop} {Q : α → γ → Prop} {f : β → γ} {l : List α} {m : List β}
    (h : List.Forall₂ P l m) (hq : ∀ a b, b ∈ m → P a b → Q a (f b)) : List.Forall₂ Q l (m.map f) := by
  induction h with
  | nil => exact .nil
  | cons h _ ih => exact .cons (hq _ _ (by simp) h) (ih fun a b hb => hq a b (by simp [hb]))

theorem change_to (hs : ∀ b, (X.sha256 b).length = 32) {g : TxOut → Payment} (hg : ∀ o, (∃ a sat, TxOut.create X a sat = .ok o) → PayOut X (g o) o)
    {ca : Str} {ow : Bytes} (hca : addressToHash X ca = .ok (hex ow)) {s : Int} {outs outs' : List TxOut}
    (ho : ∀ o ∈ outs, ∃ a sat, TxOut.create X a sat = .ok o) (h : WithChange X ca none s outs outs') (hnn : 0 ≤ s) :
    ChangeTo ow s.toNat (outs.map g) (outs'.map g) := by
  have key : ∀ n o, TxOut.create X ca n = .ok o → g o = ⟨n.toNat, ow⟩ := by
    intro n o hc
    have hp := hg o ⟨_, _, hc⟩
    obtain ⟨c1, c2, _⟩ := create_satoshi hs hc
    have h1 := hp.sat
    have h2 := hp.own
    rw [c2] at h2
    have := (owner_eq_iff hs h2 hca).2 rfl
    rw [show g o = ⟨(g o).sat, (g o).owner⟩ from rfl, this]
    congr 1
    omega
  have ne : ∀ o ∈ outs, o.address ≠ ca → (g o).owner ≠ ow := by
    intro o hoo hne he
    exact hne ((owner_eq_iff hs (hg o (ho o hoo)).own hca).1 he)
  cases h with
  | exact _ h0 => exact .exact _ (by omega)
  | new _ c h1 h2 h3 =>
    rw [List.map_cons, key _ _ h3]
    refine .new _ (by omega) ?_
    intro d hd
    obtain ⟨o, hoo, rfl⟩ := List.mem_map.1 hd
    exact ne o hoo (h2 o hoo)
  | raised pre o post c h1 h2 h3 h4 =>
    simp only [List.map_append, List.map_cons]
    have hgo := hg o (ho o (by simp))
    have e : g o = ⟨(g o).sat, ow⟩ := by
      have h2' := hgo.own
      rw [h2] at h2'
      rw [← (owner_eq_iff hs h2' hca).2 rfl]
    have hcs : (o.satoshi + s).toNat = (g o).sat + s.toNat := by have := hgo.sat; omega
    rw [key _ _ h3, hcs, e]
    refine .raised _ _ _ (by omega) ?_
    intro d hd
    rw [← List.map_append] at hd
    obtain ⟨x, hx, rfl⟩ := List.mem_map.1 hd
    have hx' : x ∈ pre ++ o :: post := by
      simp only [List.mem_append, List.mem_cons] at hx ⊢; tauto
    refine ne x hx' ?_
    rcases h4 with h4 | ⟨k, _, h5 | ⟨h5, _⟩ | ⟨h5, _⟩⟩
    · exact h4 x hx
    · simp at h5
    · simp at h5
    · simp at h5

/-! ## signatures -/

theorem signature_der_nat (X : Ext) (L : X.Laws) {sig : Str} {d : Bytes} (h1 : isHexStr sig = true) (h2 : sig.length = 128)
    (h : signatureToDer X sig = .ok (hex d)) :
    ∃ r s : Bytes, r.length = 32 ∧ s.length = 32 ∧ sig = hex (r ++ s) ∧
      X.derEncode (beNat r) (beNat s) = .ok d ∧ X.derDecode d = .ok ((beNat r : Int), (beNat s : Int)) := by
  obtain ⟨g, rfl⟩ := isHex_exists (isHexStr_iff.1 h1)
  have hg : g.length = 64 := by simp at h2; omega
  have ht : (hex g).take 64 = hex (g.take 32) := hex_take g 32
  have hd : (hex g).drop 64 = hex (g.drop 32) := hex_drop g 32
  have l1 : (g.take 32).length = 32 := by simp [hg]
  have l2 : (g.drop 32).length = 32 := by simp [hg]
  have n1 : g.take 32 ≠ [] := by intro h; rw [h] at l1; simp at l1
  have n2 : g.drop 32 ≠ [] := by intro h; rw [h] at l2; simp at l2
  have b1 : beNat (g.take 32) < 256 ^ 32 := by have := beNat_lt (g.take 32); rwa [l1] at this
  have b2 : beNat (g.drop 32) < 256 ^ 32 := by have := beNat_lt (g.drop 32); rwa [l2] at this
  obtain ⟨d', e1, e2, e3⟩ := L.der_round (beNat (g.take 32)) (beNat (g.drop 32)) (by simpa using b1) (by simpa using b2)
  simp only [signatureToDer, L.split_ok _ h1 h2, R_bind_ok, ht, hd, pyInt_hex X.uni n1, pyInt_hex X.uni n2, e1, bytesHex_eq, R_pure,
    Except.ok.injEq, hex_inj_iff] at h
  subst h
  exact ⟨g.take 32, g.drop 32, l1, l2, by rw [List.take_append_drop], e1, e2⟩

/-- one input after signing -/
theorem signed_at (L : X.Laws) {t t' : Tx} (ht : t.hashType1 = py"01") {keys : List Str} {rvs : Option (List Str)}
    (h : t.sign X keys rvs = (t', .ok ())) {j : Nat} {i i' : TxIn} (hi : t.inputs[j]? = some i) (hi' : t'.inputs[j]? = some i')
    {c : Coin} (hc : CoinIn X c i) {msg : Bytes} (hm : t.toHexSignable j = .ok (hex msg)) :
    ∃ r : RawIn, SignedRaw i' r ∧ c.SpentBy r ∧ Unlocks X c.owner msg r.script := by
  rw [sign_eq] at h
  cases hck : signChecks X keys rvs with
  | error e => rw [hck] at h; simp at h
  | ok m =>
    rw [hck] at h
    simp only [Prod.mk.injEq] at h
    obtain ⟨rfl, h2⟩ := h
    obtain ⟨hl, hst⟩ := (signRest_ok X t m rvs t.inputs 0 (signRest X t m rvs 0 t.inputs).1).1 (by rw [← h2])
    obtain ⟨rv, key, pk, ss, sl, n, h3, h4, rfl⟩ := hst j i i' hi hi'
    rw [Nat.zero_add] at h4
    obtain ⟨_, h6, h7⟩ := (signPrepare_ok X).1 h3
    obtain ⟨h8, h9, h10⟩ := keyMap_mem X keys m ((signChecks_ok X).1 hck).1 _ _ (keyFor_mem h6)
    obtain ⟨h11, h12, h13⟩ := key_valid X L h9 h10 h7
    obtain ⟨sig, d, p, k1, rfl, hp, hd, k2, _, rfl, rfl, rfl⟩ := signFinish_ok X L ht h4
    obtain ⟨hx, dg, _, m1, m2, _, m3⟩ := createSignature_ok X k1
    rw [hm] at m1; injection m1 with m1; subst m1
    rw [getDoubleSha256_hex] at m2; injection m2 with m2; subst m2
    have hsig : isHexStr sig = true ∧ sig.length = 128 := by
      rcases m3 with ⟨v, _, _, h6⟩ | ⟨_, h6⟩
      · exact L.sig_shape_rand _ _ _ _ h6
      · exact L.sig_shape _ _ _ h6
    have hver : X.verifyDigest (hex p) (hex (X.sha256 (X.sha256 msg))) sig = .ok true := by
      rcases m3 with ⟨v, _, _, h6⟩ | ⟨_, h6⟩
      · exact L.sign_verify_rand _ _ _ _ _ h11 h12 h6
      · exact L.sign_verify _ _ _ _ h11 h12 h6
    obtain ⟨r, s, r1, r2, rfl, r4, r3⟩ := signature_der_nat X L hsig.1 hsig.2 k2
    simp only [publicKeyToAddress, getPublicKeyHash_hex X L.rip_len, R_bind_ok] at h13
    have hkey : keyHash X p = c.owner :=
      AddressOf_hashToAddress X L.sha_len (AddressOf_of_hash X L.sha_len hc.own) h13 (L.rip_len _)
    refine ⟨⟨c.txid.reverse, leBytes 4 c.index, sigScript (d ++ [1]) p⟩, ⟨hc.hash, hc.index, hc.seq, rfl, rfl⟩, ⟨rfl, by simp, ?_⟩,
      d, p, r, s, ?_, hd, hp, hkey, r1, r2, r4, r3, hver⟩
    · exact leNat_leBytes (by have := hc.ixl; norm_num at this ⊢; omega)
    · simp [sigScript]

theorem keepOnly_map (f : TxIn → Coin) (g : TxIn → RawIn) (l : List TxIn) (j : Nat) (i : TxIn) (hi : l[j]? = some i) (rs : List RawIn)
    (h : List.Forall₂ (fun i r => r.hash = (g i).hash ∧ r.index = (g i).index) l rs) (hg : ∀ i ∈ l, (g i).script = p2pkh (f i).owner) :
    keepOnly j (l.map g) = rs.mapIdx fun k r => { r with script := if k = j then p2pkh (f i).owner else [] } := by
  apply List.ext_getElem?
  intro k
  unfold keepOnly
  simp only [List.getElem?_mapIdx, List.getElem?_map]
  cases hk : l[k]? with
  | none =>
    have : rs[k]? = none := by
      rw [List.getElem?_eq_none_iff] at hk ⊢; rw [← h.length_eq]; exact hk
    simp [this]
  | some x =>
    have hkl := (List.getElem?_eq_some_iff.1 hk).1
    have hkr : k < rs.length := by rw [← h.length_eq]; exact hkl
    have hR := (List.forall₂_iff_get.1 h).2 k hkl hkr
    simp only [List.get_eq_getElem] at hR
    rw [List.getElem?_eq_getElem hkl] at hk
    injection hk with hk
    rw [hk] at hR
    rw [List.getElem?_eq_getElem hkr]
    simp only [Option.map_some, Option.some.injEq]
    by_cases hj : k = j
    · subst hj
      rw [List.getElem?_eq_getElem hkl, hk] at hi
      injection hi with hi; subst hi
      simp only [if_true]
      rw [← hg x (by rw [← hk]; exact List.getElem_mem _), hR.1, hR.2]
    · simp only [hj, if_false]
      rw [hR.1, hR.2]

/-- **the signed form of a created transaction, in bytes** -/
theorem signed_bytes (L : X.Laws) {t t' : Tx} (C : Spec.Created X t) {keys : List Str} {rvs : Option (List Str)}
    (h : t.sign X keys rvs = (t', .ok ())) {f : TxIn → Coin} (hf : ∀ i ∈ t.inputs, CoinIn X (f i) i) {g : TxOut → Payment}
    (hg : ∀ o ∈ t.outputs, PayOut X (g o) o) :
    ∃ ins outs, t'.toHexSigned = .ok (hex (txBytes ins outs)) ∧ List.Forall₂ Coin.SpentBy (t.inputs.map f) ins ∧
      List.Forall₂ Payment.MadeBy (t.outputs.map g) outs ∧
      ∀ (j : Nat) (c : Coin) (r : RawIn), (t.inputs.map f)[j]? = some c → ins[j]? = some r → 
        Unlocks X c.owner (signedMessage ins outs j c.owner) r.script := by
  have hu := C39_only_signatures X t keys rvs
  rw [h] at hu
  simp only at hu
  have houts : t'.outputs = t.outputs := by
    have := congrArg Tx.outputs hu; simpa [unsignedTx] using this
  have hin : t'.inputs.length = t.inputs.length := unsigned_length hu
  have F : Frame t' := by
    have e1 := congrArg Tx.version hu
    have e2 := congrArg Tx.lockTime hu
    have e3 := congrArg Tx.hashType4 hu
    have e4 := congrArg Tx.hashType1 hu
    have e5 := congrArg Tx.inputCount hu
    have e6 := congrArg Tx.outputCount hu
    simp only [unsignedTx] at e1 e2 e3 e4 e5 e6
    have G := C.frame
    exact ⟨e1.trans G.version, e2.trans G.lock, e3.trans G.ht4, e4.trans G.ht1, by rw [hin]; exact e5.trans G.ic,
      by rw [houts]; exact e6.trans G.oc, by rw [hin]; exact G.icl, by rw [houts]; exact G.ocl⟩
  -- the outputs
  have go : ∀ d : Payment, d.owner.length = 20 → (p2pkh d.owner).length = 25 := by intro d hd; simp [p2pkh, hd]
  let outs : List RawOut := t.outputs.map fun o => ⟨leBytes 8 (g o).sat, p2pkh (g o).owner⟩
  have ho : List.Forall₂ OutRaw t.outputs outs := by
    rw [List.forall₂_map_right_iff, List.forall₂_same]
    intro o hoo
    have := hg o hoo
    exact ⟨this.value, this.spk, by rw [this.len, go _ this.ol]; rfl⟩
  have hmade : List.Forall₂ Payment.MadeBy (t.outputs.map g) outs := by
    rw [List.forall₂_map_left_iff, List.forall₂_map_right_iff, List.forall₂_same]
    intro o hoo
    refine ⟨by simp, ?_, rfl⟩
    exact leNat_leBytes (by have := (hg o hoo).max; unfold maxMoney at this; norm_num; omega)
  -- the unsigned inputs
  let ui : TxIn → RawIn := fun i => ⟨(f i).txid.reverse, leBytes 4 (f i).index, p2pkh (f i).owner⟩
  have hU : List.Forall₂ SpendsRaw t.inputs (t.inputs.map ui) := by
    rw [List.forall₂_map_right_iff, List.forall₂_same]
    intro i hi
    have := hf i hi
    exact ⟨this.hash, this.index, this.seq, this.spk, by rw [this.spkLen]; show _ = some (hex [UInt8.ofNat (p2pkh (f i).owner).length]); simp [p2pkh, this.ol]⟩
  have hmsg := fun j => signable_hex C.frame hU ho j
  -- the signed inputs
  have step : ∀ j (hj : j < t.inputs.length), ∃ r : RawIn, ∃ i', t'.inputs[j]? = some i' ∧ SignedRaw i' r ∧ (f t.inputs[j]).SpentBy r ∧
      Unlocks X (f t.inputs[j]).owner (txBytes (keepOnly j (t.inputs.map ui)) outs ++ [1, 0, 0, 0]) r.script := by
    intro j hj
    have hj' : j < t'.inputs.length := by omega
    obtain ⟨r, h1, h2, h3⟩ := signed_at L C.frame.ht1 h (List.getElem?_eq_getElem hj) (List.getElem?_eq_getElem hj') (hf _ (List.getElem_mem hj)) (hmsg j)
    exact ⟨r, _, List.getElem?_eq_getElem hj', h1, h2, h3⟩
  choose rf hrf using step
  let ins : List RawIn := List.ofFn fun j : Fin t.inputs.length => rf j j.2
  have hlen : ins.length = t.inputs.length := by simp [ins]
  have hget : ∀ j (hj : j < t.inputs.length), ins[j]? = some (rf j hj) := by
    intro j hj
    simp [ins, hj]
  have hI : List.Forall₂ SignedRaw t'.inputs ins := by
    rw [List.forall₂_iff_get]
    refine ⟨by omega, ?_⟩
    intro j h1 h2
    have hj : j < t.inputs.length := by omega
    obtain ⟨i', e1, e2, _⟩ := hrf j hj
    rw [List.getElem?_eq_getElem h1] at e1
    injection e1 with e1
    have e3 := hget j hj
    rw [List.getElem?_eq_getElem h2] at e3
    injection e3 with e3
    simp only [List.get_eq_getElem]
    rw [e1, e3]; exact e2
  have hS : List.Forall₂ Coin.SpentBy (t.inputs.map f) ins := by
    rw [List.forall₂_map_left_iff, List.forall₂_iff_get]
    refine ⟨by omega, ?_⟩
    intro j h1 h2
    obtain ⟨i', _, _, e2, _⟩ := hrf j h1
    have e3 := hget j h1
    rw [List.getElem?_eq_getElem h2] at e3
    injection e3 with e3
    simp only [List.get_eq_getElem]
    rw [e3]; exact e2
  refine ⟨ins, outs, signed_hex F hI (houts ▸ ho), hS, hmade, ?_⟩
  intro j c r hc hr
  rw [List.getElem?_map, Option.map_eq_some_iff] at hc
  obtain ⟨i, hi, rfl⟩ := hc
  have hj := (List.getElem?_eq_some_iff.1 hi).1
  rw [hget j hj] at hr
  injection hr with hr; subst hr
  obtain ⟨i', _, _, _, e⟩ := hrf j hj
  have hij : t.inputs[j] = i := (List.getElem?_eq_some_iff.1 hi).2
  rw [hij] at e
  unfold signedMessage
  rw [← keepOnly_map f ui t.inputs j i hi ins ?_ (fun _ _ => rfl)]
  · exact e
  · rw [List.forall₂_iff_get]
    refine ⟨by omega, ?_⟩
    intro k h1 h2
    obtain ⟨i', _, _, ⟨e2, e4, e5⟩, _⟩ := hrf k h1
    have e3 := hget k h1
    rw [List.getElem?_eq_getElem h2] at e3
    injection e3 with e3
    simp only [List.get_eq_getElem]
    rw [e3]
    refine ⟨e2, ?_⟩
    show (rf k h1).index = leBytes 4 _
    rw [← e5]
    have := leBytes_leNat (rf k h1).index
    rw [e4] at this
    exact this.symm

end BT
