import Verif.Lemmas.Hist

/-! # Lemmas on histories: the bytes -/

namespace BT.Hist
open Spec

variable {X : Ext}

/-- fixed fields, inputs made by `TransactionInput.create` up to signatures, outputs made by `TransactionOutput.create` -/
structure Made (X : Ext) (t : Tx) : Prop where
  frame : Frame t
  ins : ∀ i ∈ t.inputs, ∃ a txid idx sat i0, TxIn.create X a txid idx sat = .ok i0 ∧ unsignedPart i = unsignedPart i0
  outs : ∀ o ∈ t.outputs, ∃ a sat, TxOut.create X a sat = .ok o

theorem Made.of_created {t : Tx} (C : Spec.Created X t) : Made X t :=
  ⟨C.frame, fun i hi => by
    obtain ⟨a, txid, idx, sat, h⟩ := C.ins i hi
    exact ⟨a, txid, idx, sat, i, h, rfl⟩, C.outs⟩

theorem Made.frame_same {t t0 : Tx} (M : Frame t0) (h : unsignedTx t = unsignedTx t0) : Frame t := by
  have hin : t.inputs.length = t0.inputs.length := unsigned_length h
  have e1 := congrArg Tx.version h
  have e2 := congrArg Tx.lockTime h
  have e3 := congrArg Tx.hashType4 h
  have e4 := congrArg Tx.hashType1 h
  have e5 := congrArg Tx.inputCount h
  have e6 := congrArg Tx.outputCount h
  have e7 := congrArg Tx.outputs h
  simp only [unsignedTx] at e1 e2 e3 e4 e5 e6 e7
  exact ⟨e1.trans M.version, e2.trans M.lock, e3.trans M.ht4, e4.trans M.ht1, by rw [hin]; exact e5.trans M.ic,
    by rw [e7]; exact e6.trans M.oc, by rw [hin]; exact M.icl, by rw [e7]; exact M.ocl⟩

theorem Made.same {t t0 : Tx} (M : Made X t0) (h : unsignedTx t = unsignedTx t0) : Made X t := by
  have e7 := congrArg Tx.outputs h
  simp only [unsignedTx] at e7
  refine ⟨Made.frame_same M.frame h, fun i hi => ?_, by rw [e7]; exact M.outs⟩
  obtain ⟨j, hj⟩ := List.getElem?_of_mem hi
  obtain ⟨i0, h1, h2⟩ := same_part h hj
  obtain ⟨a, txid, idx, sat, i1, h3, h4⟩ := M.ins i0 (List.mem_of_getElem? h1)
  exact ⟨a, txid, idx, sat, i1, h3, h2.trans h4⟩

/-- the bytes of an input signed in this way -/
theorem MadeBy.raw (L : X.Laws) {t0 : Tx} (ht : t0.hashType1 = py"01") {P : List Str → Option (List Str) → Prop} {j : Nat} {i : TxIn}
    (h : MadeBy X t0 P j i) {i0 c : TxIn} (h0 : t0.inputs[j]? = some i0) (hcr : ∃ a txid idx sat, TxIn.create X a txid idx sat = .ok c)
    (hc : unsignedPart i0 = unsignedPart c) :
    ∃ q : RawIn × Bytes, SignedRaw i q.1 ∧ q.1.Ok ∧ StandardSig q.1.script q.2 ∧
      dropKey (parsedIn X q.1 q.2) = dropKey (forgetAmount i) := by
  obtain ⟨i0', keys, rvs, m, i1, i2, a1, a2, a3, a4, ⟨rv, key, pk, ss, sl, n, h3, h4, h5⟩, a6, a7⟩ := h
  rw [h0] at a1; injection a1 with a1; subst a1
  have hu : unsignedPart i1 = unsignedPart c := a4.trans hc
  rw [part_prep hu] at h3
  have h5' : { i2 with publicKey := none } = { signedAs c pk ss sl n with publicKey := none } := by
    rw [h5]
    have e : ∀ x : TxIn, ({ signedAs x pk ss sl n with publicKey := none } : TxIn) =
        { unsignedPart x with scriptLen := some sl, scriptLenInt := .int n, scriptSig := some ss } := fun x => rfl
    rw [e, e, hu]
  obtain ⟨a, txid, idx, sat, hcr⟩ := hcr
  obtain ⟨tb, hb, ix, k, hbl, hh, rfl, htb, rfl, hix, rfl, hk, he⟩ := (TxIn_create_ok X L.sha_len).1 hcr
  rw [he] at h3 h5'
  obtain ⟨_, h6, h7⟩ := (signPrepare_ok X).1 h3
  obtain ⟨h8, h9, h10⟩ := keyMap_mem X keys m a3 _ _ (keyFor_mem h6)
  obtain ⟨h11, h12, h13⟩ := key_valid X L h9 h10 h7
  obtain ⟨sig, d, p, _, rfl, hp, hd, _, _, rfl, rfl, rfl⟩ := signFinish_ok X L ht h4
  simp only [publicKeyToAddress, getPublicKeyHash_hex X L.rip_len, R_bind_ok] at h13
  have hkey : keyHash X p = hb := AddressOf_hashToAddress X L.sha_len (AddressOf_of_hash X L.sha_len hh) h13 (L.rip_len _)
  have ha : addrText X hb = a := by
    have := hashToAddress_of_hash X L.sha_len hh
    rw [hashToAddress_hex X L.sha_len, Except.ok.injEq] at this
    exact this
  have hlen : (sigScript (d ++ [1]) p).length = d.length + 68 := by simp [sigScript, hp]
  have hdk : dropKey i = { signedAs (inOf a tb hb ix k) (hex p) (hex (sigScript (d ++ [1]) p)) (hex [UInt8.ofNat (sigScript (d ++ [1]) p).length])
      (sigScript (d ++ [1]) p).length with publicKey := none } := by
    rw [a7]
    exact h5'
  refine ⟨(⟨tb.reverse, leBytes 4 ix, sigScript (d ++ [1]) p⟩, p), ?_, ?_, ?_, ?_⟩
  · have f1 := congrArg TxIn.prevHash hdk
    have f2 := congrArg TxIn.prevIndex hdk
    have f3 := congrArg TxIn.sequence hdk
    have f4 := congrArg TxIn.scriptSig hdk
    have f5 := congrArg TxIn.scriptLen hdk
    exact ⟨f1, f2, f3, f4, f5⟩
  · exact ⟨by simp [htb], by simp, by simp only; omega⟩
  · exact ⟨d, [], by omega, hp, by simp [sigScript]⟩
  · have : dropKey (forgetAmount i) = forgetAmount (dropKey i) := rfl
    rw [this, hdk]
    simp only [parsedIn, forgetAmount, dropKey, signedAs, inOf, hkey, ha, List.reverse_reverse]
    rw [leNat_leBytes (by norm_num; omega)]

/-- a completely signed transaction and its bytes -/
theorem Inv.hex (L : X.Laws) {t0 t : Tx} {P : List Str → Option (List Str) → Prop} (I : Inv X t0 P t0.inputs.length t) (M : Made X t0) :
    ∃ s u, t.toHexSigned = .ok s ∧ Tx.fromHexSigned X s = .ok u ∧ u.toHexSigned = .ok s ∧ u.verify X = .ok 0 ∧
      u.inputs.map dropKey = t.inputs.map (fun i => dropKey (forgetAmount i)) ∧ u.outputs = t.outputs := by
  have hlen : t.inputs.length = t0.inputs.length := unsigned_length I.same
  have houts : t.outputs = t0.outputs := by
    have := congrArg Tx.outputs I.same; simpa [unsignedTx] using this
  have F : Frame t := Made.frame_same M.frame I.same
  obtain ⟨ps, hps⟩ := exists_forall₂ (l := t.inputs) (R := fun i (q : RawIn × Bytes) => SignedRaw i q.1 ∧ q.1.Ok ∧ StandardSig q.1.script q.2 ∧
      dropKey (parsedIn X q.1 q.2) = dropKey (forgetAmount i)) (fun i hi => by
    obtain ⟨j, hj⟩ := List.getElem?_of_mem hi
    have hjl := (List.getElem?_eq_some_iff.1 hj).1
    obtain ⟨i0, h1, h2⟩ := same_part I.same hj
    obtain ⟨a, txid, idx, sat, c, h3, h4⟩ := M.ins i0 (List.mem_of_getElem? h1)
    exact (I.done j i hj (by omega)).raw L M.frame.ht1 h1 ⟨a, txid, idx, sat, h3⟩ h4)
  obtain ⟨outs, hos⟩ := exists_forall₂ (l := t.outputs) (fun o ho => created_output X L.sha_len (M.outs o (houts ▸ ho)))
  have hi : List.Forall₂ SignedRaw t.inputs (ps.map Prod.fst) := by
    rw [List.forall₂_map_right_iff]
    exact hps.imp fun _ _ h => h.1
  have ho : List.Forall₂ OutRaw t.outputs outs := hos.imp fun _ _ h => h.1
  have hser := signed_hex F hi ho
  have hl : ps.length ≤ 252 := by have := F.icl; have := hps.length_eq; omega
  have hlo : outs.length ≤ 252 := by have := F.ocl; have := hos.length_eq; omega
  have e2 : outs.map (parsedOut X) = t.outputs := by
    have := forall₂_map_eq (f := parsedOut X) (g := id) hos fun _ _ h => h.2.2.2.1
    simpa using this
  have e1 : (parsedTx X ps outs).inputs.map dropKey = t.inputs.map (fun i => dropKey (forgetAmount i)) := by
    have := forall₂_map_eq (f := fun q : RawIn × Bytes => dropKey (parsedIn X q.1 q.2)) (g := fun i => dropKey (forgetAmount i)) hps
      fun _ _ h => h.2.2.2
    simpa [parsedTx, List.map_map, Function.comp_def] using this
  refine ⟨_, parsedTx X ps outs, hser, ?_, parsedTx_hex X hl hlo, ?_, e1, e2⟩
  · refine (fromHexSigned_ok X L.sha_len L.rip_len).2 ⟨ps, outs, [], by simp, ?_, ?_, hl, hlo, rfl⟩
    · exact forall₂_right hps fun _ _ h => keyIn_of_standard X h.2.1 h.2.2.1
    · exact forall₂_right hos fun _ _ h => ⟨h.2.1, h.2.2.1⟩
  · have hlen2 : (parsedTx X ps outs).inputs.length = t.inputs.length := by
      have := congrArg List.length e1; simpa using this
    have hG := parsedTx_frame X (l := ps) (outs := outs) hl hlo
    have f2 : (parsedTx X ps outs).inputs.map (fun i => dropKey (forgetAmount i)) = t.inputs.map (fun i => dropKey (forgetAmount i)) := by
      have := congrArg (List.map forgetAmount) e1
      simpa [List.map_map, Function.comp_def, forgetAmount, dropKey] using this
    have hsig : ∀ k, (parsedTx X ps outs).toHexSignable k = t.toHexSignable k := by
      intro k
      have g5 : (parsedTx X ps outs).inputCount = t.inputCount := by rw [hG.ic, F.ic, hlen2]
      have g7 : (parsedTx X ps outs).outputs = t.outputs := e2
      have g6 : (parsedTx X ps outs).outputCount = t.outputCount := by rw [hG.oc, F.oc, g7]
      unfold Tx.toHexSignable Tx.signableForm
      rw [← signableInputs_map' k (fun i => dropKey (forgetAmount i)) (fun _ => rfl) (fun _ => rfl) (parsedTx X ps outs).inputs,
        ← signableInputs_map' k (fun i => dropKey (forgetAmount i)) (fun _ => rfl) (fun _ => rfl) t.inputs, f2, g5, g6, g7,
        hG.version, F.version, hG.lock, F.lock, hG.ht4, F.ht4]
    obtain ⟨_, hv⟩ := I.verify L M.frame.ht1
    rw [Tx.verify, verifyLoop_ok] at hv ⊢
    obtain ⟨bs, k1, k2, k3⟩ := hv
    refine ⟨bs, k1.trans hlen2.symm, ?_, k3⟩
    intro j i hj b hb
    have hjl := (List.getElem?_eq_some_iff.1 hj).1
    have hjt : j < t.inputs.length := by omega
    have := k2 j _ (List.getElem?_eq_getElem hjt) b hb
    rw [← this]
    have hs2 : i.scriptSig = (t.inputs[j]).scriptSig := by
      have := congrArg (fun l : List TxIn => l[j]?.map TxIn.scriptSig) e1
      simp only [List.getElem?_map, hj, List.getElem?_eq_getElem hjt, Option.map_some, Option.some.injEq] at this
      exact this
    exact verifyInput_congr X (hsig _) hlen2 hs2

end BT.Hist
