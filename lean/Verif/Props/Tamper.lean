import Verif.Props.Sign

/-! # C129: what a signature protects

Two texts that decode to transactions which pass `verify()` and contain the same scriptSig describe the same payment, or there is
a signature that is valid for two different messages. -/

namespace BT
open Spec

/-- The signature `sig` is valid under the public key `pk` for two different messages (byte strings). -/
def Spec.TwoMessages (X : Ext) (pk sig : Str) : Prop :=
  ∃ m m' : Bytes, m ≠ m' ∧ X.verifyDigest pk (hex (X.sha256 (X.sha256 m))) sig = .ok true ∧
    X.verifyDigest pk (hex (X.sha256 (X.sha256 m'))) sig = .ok true

/-- the raw data of the outputs that are spent, as a decoded transaction reconstructs them -/
def spentRaw (X : Ext) (q : RawIn × Bytes) : RawIn := { hash := q.1.hash, index := q.1.index, script := p2pkh (keyHash X q.2) }

theorem parsed_spends (X : Ext) (hr : ∀ b, (X.ripemd160 b).length = 20) (l : List (RawIn × Bytes)) (outs : List RawOut) :
    List.Forall₂ SpendsRaw (parsedTx X l outs).inputs (l.map (spentRaw X)) := by
  simp only [parsedTx, List.forall₂_map_left_iff, List.forall₂_map_right_iff]
  refine List.forall₂_same.2 fun q _ => ⟨rfl, rfl, rfl, rfl, ?_⟩
  have : (p2pkh (keyHash X q.2)).length = 25 := by simp [p2pkh, keyHash, hr]
  show some (hex [25]) = some (hex [UInt8.ofNat (p2pkh (keyHash X q.2)).length])
  rw [this]; rfl

theorem parsed_outs (X : Ext) (l : List (RawIn × Bytes)) (outs : List RawOut) :
    List.Forall₂ OutRaw (parsedTx X l outs).outputs outs := by
  simp only [parsedTx, List.forall₂_map_left_iff]
  exact List.forall₂_same.2 fun q _ => ⟨rfl, rfl, rfl⟩

theorem spent_ok (X : Ext) (hr : ∀ b, (X.ripemd160 b).length = 20) {l : List (RawIn × Bytes)} (hk : ∀ q ∈ l, KeyIn X q.1 q.2) :
    ∀ r ∈ l.map (spentRaw X), r.Ok ∧ r.script ≠ [] := by
  intro r hr'
  obtain ⟨q, hq, rfl⟩ := List.mem_map.1 hr'
  obtain ⟨⟨h1, h2, _⟩, _⟩ := hk q hq
  exact ⟨⟨h1, h2, by simp [spentRaw, p2pkh, keyHash, hr]⟩, by simp [spentRaw, p2pkh]⟩

/-- the message that input `j` of a decoded transaction signs -/
def signedMessage (X : Ext) (l : List (RawIn × Bytes)) (outs : List RawOut) (j : Nat) : Bytes :=
  txBytes (keepOnly j (l.map (spentRaw X))) outs ++ [1, 0, 0, 0]

theorem verify_zero {X : Ext} {t : Tx} (h : t.verify X = .ok 0) {j : Nat} {i : TxIn} (hi : t.inputs[j]? = some i) :
    SignatureVerdict X t j i true := by
  obtain ⟨bs, h1, h2, h3⟩ := C41_counts X t 0 h
  have hj : j < bs.length := by rw [h1]; exact (List.getElem?_eq_some_iff.1 hi).1
  have hb := h3 j i bs[j] hi (List.getElem?_eq_getElem hj)
  have : bs[j] = true := by
    cases hc : bs[j] with
    | true => rfl
    | false =>
      have : false ∈ bs := by rw [← hc]; exact List.getElem_mem hj
      have := List.count_pos_iff.2 this
      omega
  rw [this] at hb
  exact hb

/-- C129. One scriptSig in two transactions that pass the check: if the scriptSig of input `j` of one is the scriptSig of input `k`
of the other, both transactions spend the same outpoints in the same order and make the same outputs, and `j = k`; or the signature in it is valid for two messages. -/
theorem C129_signature_protects (X : Ext) (hs : ∀ b, (X.sha256 b).length = 32) (hr : ∀ b, (X.ripemd160 b).length = 20)
    (s s' : Str) (t t' : Tx) (h : Tx.fromHexSigned X s = .ok t) (h' : Tx.fromHexSigned X s' = .ok t')
    (hv : t.verify X = .ok 0) (hv' : t'.verify X = .ok 0) (j k : Nat) (i i' : TxIn)
    (hj : t.inputs[j]? = some i) (hk : t'.inputs[k]? = some i') (hsig : i.scriptSig = i'.scriptSig) :
    (j = k ∧ t.outputs = t'.outputs ∧
      t.inputs.map (fun x => (x.txid, x.prevIndexInt)) = t'.inputs.map (fun x => (x.txid, x.prevIndexInt))) ∨
    ∃ ss der pk sig, i.scriptSig = some ss ∧ scriptSigDecode X.uni ss = .ok (der, pk) ∧ signatureFromDer X der = .ok sig ∧
      TwoMessages X pk sig := by
  obtain ⟨ss, der, pk, sig, hx, dg, e1, e2, e3, e4, e5, e6⟩ := verify_zero hv hj
  obtain ⟨ss', der', pk', sig', hx', dg', f1, f2, f3, f4, f5, f6⟩ := verify_zero hv' hk
  rw [hsig, f1] at e1; injection e1 with e1; subst e1
  rw [f2] at e2; injection e2 with e2; injection e2 with e2 e2'; subst e2; subst e2'
  rw [f3] at e3; injection e3 with e3; subst e3
  obtain ⟨l, outs, rest, rfl, hK, hO, hl, hlo, rfl⟩ := (fromHexSigned_ok X hs hr).1 h
  obtain ⟨l', outs', rest', rfl, hK', hO', hl', hlo', rfl⟩ := (fromHexSigned_ok X hs hr).1 h'
  have F := parsedTx_frame X hl hlo
  have F' := parsedTx_frame X hl' hlo'
  have g := signable_hex F (parsed_spends X hr l outs) (parsed_outs X l outs) j
  have g' := signable_hex F' (parsed_spends X hr l' outs') (parsed_outs X l' outs') k
  by_cases hm : (parsedTx X l outs).toHexSignable j = (parsedTx X l' outs').toHexSignable k
  · left
    have lj := (List.getElem?_eq_some_iff.1 hj).1
    have lk := (List.getElem?_eq_some_iff.1 hk).1
    obtain ⟨c1, c2, c3, _⟩ := C32_commits _ _ F F' _ _ _ _ (parsed_spends X hr l outs) (parsed_spends X hr l' outs') (parsed_outs X l outs)
      (parsed_outs X l' outs') (spent_ok X hr hK) (spent_ok X hr hK') (fun r hr => (hO r hr).1) (fun r hr => (hO' r hr).1) j k
      (by simpa [parsedTx] using lj) (by simpa [parsedTx] using lk) hm
    refine ⟨c1, by simp only [parsedTx, c2], ?_⟩
    have := congrArg (List.map fun p : Bytes × Bytes => (hex p.1.reverse, (leNat p.2 : Int))) c3
    simpa [parsedTx, parsedIn, spentRaw, List.map_map, Function.comp_def] using this
  · right
    refine ⟨ss', der', pk', sig', by rw [hsig, f1], f2, f3, txBytes (keepOnly j (l.map (spentRaw X))) outs ++ [1, 0, 0, 0],
      txBytes (keepOnly k (l'.map (spentRaw X))) outs' ++ [1, 0, 0, 0], ?_, ?_, ?_⟩
    · intro he
      exact hm (by rw [g, g', he])
    · rw [g] at e4; injection e4 with e4; subst e4
      rw [getDoubleSha256_hex] at e5; injection e5 with e5; rw [e5]; exact e6
    · rw [g'] at f4; injection f4 with f4; subst f4
      rw [getDoubleSha256_hex] at f5; injection f5 with f5; rw [f5]; exact f6

/-- C129. A text that was changed but passes the check with the same scriptSigs decodes to the same transaction (only trailing data
can differ, see C36), or some signature in it is valid for two messages. -/
theorem C129_tamper (X : Ext) (hs : ∀ b, (X.sha256 b).length = 32) (hr : ∀ b, (X.ripemd160 b).length = 20)
    (s s' : Str) (t t' : Tx) (h : Tx.fromHexSigned X s = .ok t) (h' : Tx.fromHexSigned X s' = .ok t')
    (hv : t.verify X = .ok 0) (hv' : t'.verify X = .ok 0) (hn : t.inputs ≠ [])
    (hsig : t.inputs.map TxIn.scriptSig = t'.inputs.map TxIn.scriptSig) :
    (t' = t ∧ ∃ u rest rest', t.toHexSigned = .ok u ∧ s = u ++ rest ∧ s' = u ++ rest') ∨
    ∃ i ss der pk sig, i ∈ t.inputs ∧ i.scriptSig = some ss ∧ scriptSigDecode X.uni ss = .ok (der, pk) ∧
      signatureFromDer X der = .ok sig ∧ TwoMessages X pk sig := by
  obtain ⟨l, outs, rest, rfl, hK, hO, hl, hlo, rfl⟩ := (fromHexSigned_ok X hs hr).1 h
  obtain ⟨l', outs', rest', rfl, hK', hO', hl', hlo', rfl⟩ := (fromHexSigned_ok X hs hr).1 h'
  cases l with
  | nil => simp [parsedTx] at hn
  | cons q l =>
    cases l' with
    | nil => simp [parsedTx] at hsig
    | cons q' l' =>
      have hsig0 : (parsedIn X q.1 q.2).scriptSig = (parsedIn X q'.1 q'.2).scriptSig := by
        simp only [parsedTx, List.map_cons, List.cons.injEq] at hsig
        exact hsig.1
      rcases C129_signature_protects X hs hr _ _ _ _ h h' hv hv' 0 0 (parsedIn X q.1 q.2) (parsedIn X q'.1 q'.2) rfl rfl hsig0 with ⟨_, c2, c3⟩ | ⟨ss, der, pk, sig, r1, r2, r3, r4⟩
      · left
        have hou : outs = outs' := by
          have hf := fun l (outs : List RawOut) => (parsed_outs X l outs)
          apply List.ext_getElem?
          intro n
          have hlen : outs.length = outs'.length := by simpa [parsedTx] using congrArg List.length c2
          have c2' := congrArg (fun x : List TxOut => x[n]?) c2
          simp only [parsedTx, List.getElem?_map] at c2'
          cases h1 : outs[n]? with
          | none =>
            rw [h1] at c2'
            cases h2 : outs'[n]? with
            | none => rfl
            | some r => rw [h2] at c2'; simp at c2'
          | some r =>
            rw [h1] at c2'
            cases h2 : outs'[n]? with
            | none => rw [h2] at c2'; simp at c2'
            | some r' =>
              rw [h2] at c2'
              simp only [Option.map_some, Option.some.injEq] at c2'
              have v1 : hex r.value = hex r'.value := congrArg TxOut.value c2'
              have v2 : hex r.script = hex r'.script := congrArg TxOut.spk c2'
              rw [hex_inj_iff] at v1 v2
              obtain ⟨a, b⟩ := r
              obtain ⟨a', b'⟩ := r'
              simp only at v1 v2
              rw [v1, v2]
        have hin : q :: l = q' :: l' := by
          apply List.ext_getElem?
          intro n
          have d3 := congrArg (fun x : List (Str × Int) => x[n]?) c3
          have d4 := congrArg (fun x : List (Option Str) => x[n]?) hsig
          simp only [parsedTx, List.getElem?_map] at d3 d4
          cases h1 : (q :: l)[n]? with
          | none =>
            rw [h1] at d3
            cases h2 : (q' :: l')[n]? with
            | none => rfl
            | some r => rw [h2] at d3; simp at d3
          | some r =>
            rw [h1] at d3 d4
            cases h2 : (q' :: l')[n]? with
            | none => rw [h2] at d3; simp at d3
            | some r' =>
              rw [h2] at d3 d4
              simp only [Option.map_some, Option.some.injEq, Prod.mk.injEq] at d3 d4
              obtain ⟨k1, k2, d, k3⟩ := hK r (List.mem_of_getElem? h1)
              obtain ⟨k1', k2', d', k3'⟩ := hK' r' (List.mem_of_getElem? h2)
              have v1 : hex r.1.hash.reverse = hex r'.1.hash.reverse := d3.1
              have v2 : (leNat r.1.index : Int) = leNat r'.1.index := d3.2
              have v3 : some (hex r.1.script) = some (hex r'.1.script) := d4
              rw [hex_inj_iff, List.reverse_inj] at v1
              injection v3 with v3
              have v2' : r.1.index = r'.1.index := leNat_inj (by rw [k1.2.1, k1'.2.1]) (by exact_mod_cast v2)
              rw [v3, k3'] at k3
              injection k3 with k3
              injection k3 with _ k3
              rw [hex_inj_iff] at k3 v3
              obtain ⟨⟨a, b, c⟩, e⟩ := r
              obtain ⟨⟨a', b', c'⟩, e'⟩ := r'
              simp only at v1 v2' v3 k3
              rw [v1, v2', v3, k3]
        rw [← hin, ← hou]
        exact ⟨rfl, _, hex rest, hex rest', parsedTx_hex X hl hlo, by simp, by simp⟩
      · right
        exact ⟨_, ss, der, pk, sig, List.mem_cons_self, r1, r2, r3, r4⟩

end BT
