import Verif.Props.Tx
import Verif.Props.Base58
import Verif.Concrete.Sample

/-! # C37-C42, C65: signing and verifying -/

namespace BT
open Spec

/-! ## C37 -/

/-- **C37**: after a successful `sign` every input is signed and `verify` finds no invalid
signature, for a correct ECDSA/DER library (`Ext.Laws`). -/
theorem C37_sign_then_verify (X : Ext) (L : X.Laws) (t t' : Tx) (ht : t.hashType1 = py"01") (keys : List Str)
    (rvs : Option (List Str)) (h : t.sign X keys rvs = (t', .ok ())) :
    t'.signed = true ∧ t'.verify X = .ok 0 := by
  rw [sign_eq] at h
  cases hc : signChecks X keys rvs with
  | error e => rw [hc] at h; simp at h
  | ok m =>
    rw [hc] at h
    simp only [Prod.mk.injEq] at h
    obtain ⟨rfl, h2⟩ := h
    obtain ⟨hl, hs⟩ := (signRest_ok X t m rvs t.inputs 0 (signRest X t m rvs 0 t.inputs).1).1 (by rw [← h2])
    have hu : unsignedTx { t with inputs := (signRest X t m rvs 0 t.inputs).1 } = unsignedTx t := by
      simp only [unsignedTx, signRest_unsigned]
    generalize (signRest X t m rvs 0 t.inputs).1 = l' at *
    have step : ∀ j i', l'[j]? = some i' → ∃ i, t.inputs[j]? = some i ∧ SignStep X t m rvs j i i' := by
      intro j i' hi'
      have hj : j < t.inputs.length := by rw [← hl]; exact (List.getElem?_eq_some_iff.1 hi').1
      refine ⟨t.inputs[j], List.getElem?_eq_getElem hj, ?_⟩
      have := hs j _ i' (List.getElem?_eq_getElem hj) hi'
      rwa [Nat.zero_add] at this
    constructor
    · simp only [Tx.signed, List.all_eq_true]
      intro i' hi'
      obtain ⟨j, hj⟩ := List.getElem?_of_mem hi'
      obtain ⟨i, _, rv, key, pk, ss, sl, n, _, _, rfl⟩ := step j i' hj
      rfl
    · rw [Tx.verify, verifyLoop_ok]
      refine ⟨List.replicate l'.length true, by simp, ?_, by rw [List.count_replicate]; rfl⟩
      intro j i' hi' b hb
      have : b = true := by
        have := List.mem_of_getElem? hb
        exact List.eq_of_mem_replicate this
      subst this
      obtain ⟨i, hi, rv, key, pk, ss, sl, n, h3, h4, rfl⟩ := step j i' hi'
      obtain ⟨_, h6, h7⟩ := (signPrepare_ok X).1 h3
      obtain ⟨_, h8, h9⟩ := keyMap_mem X keys m ((signChecks_ok X).1 hc).1 _ _ (keyFor_mem h6)
      obtain ⟨h10, h11, _⟩ := key_valid X L h8 h9 h7
      rw [Nat.zero_add]
      exact verify_step X L hu ht h4 h10 h11 rfl

/-! ## C38 -/

/-- **C38**: `sign` returns only if for every input one of the supplied keys has that input's
address; the public key recorded and the public key inside the scriptSig then have that address
too. -/
theorem C38_right_key (X : Ext) (L : X.Laws) (t t' : Tx) (ht : t.hashType1 = py"01") (keys : List Str)
    (rvs : Option (List Str)) (h : t.sign X keys rvs = (t', .ok ())) (j : Nat) (i : TxIn) (hi : t.inputs[j]? = some i) :
    ∃ key ∈ keys, privateKeyToAddress X key = .ok i.address ∧
      ∃ (i' : TxIn) (ss der pk : Str), t'.inputs[j]? = some i' ∧ i'.address = i.address ∧ i'.scriptSig = some ss ∧
        scriptSigDecode X.uni ss = .ok (der, pk) ∧ i'.publicKey = some pk ∧ X.pubKey key = .ok pk ∧
        publicKeyToAddress X pk = .ok i.address := by
  rw [sign_eq] at h
  cases hc : signChecks X keys rvs with
  | error e => rw [hc] at h; simp at h
  | ok m =>
    rw [hc] at h
    simp only [Prod.mk.injEq] at h
    obtain ⟨rfl, h2⟩ := h
    obtain ⟨hl, hs⟩ := (signRest_ok X t m rvs t.inputs 0 (signRest X t m rvs 0 t.inputs).1).1 (by rw [← h2])
    generalize (signRest X t m rvs 0 t.inputs).1 = l' at *
    have hj : j < l'.length := by rw [hl]; exact (List.getElem?_eq_some_iff.1 hi).1
    obtain ⟨rv, key, pk, ss, sl, n, h3, h4, h5⟩ := hs j i _ hi (List.getElem?_eq_getElem hj)
    obtain ⟨_, h6, h7⟩ := (signPrepare_ok X).1 h3
    obtain ⟨h8, h9, h10⟩ := keyMap_mem X keys m ((signChecks_ok X).1 hc).1 _ _ (keyFor_mem h6)
    obtain ⟨h11, h12, h13⟩ := key_valid X L h9 h10 h7
    obtain ⟨sig, d, p, _, rfl, hp, hd, _, _, rfl, _⟩ := signFinish_ok X L ht h4
    refine ⟨key, h8, h10, l'[j], hex (sigScript (d ++ [1]) p), hex d, hex p, List.getElem?_eq_getElem hj, ?_, ?_,
      scriptSigDecode_sigScript X.uni hd hp, ?_, h12, h13⟩ <;> rw [h5] <;> rfl

/-- **C38**: the 64-byte public key in the scriptSig of a signed input belongs to a supplied private key,
and the input's address is the mainnet address of its hash (with the prefix 04 of an uncompressed key). -/
theorem C38_right_address (X : Ext) (L : X.Laws) (t t' : Tx) (ht : t.hashType1 = py"01") (keys : List Str)
    (rvs : Option (List Str)) (h : t.sign X keys rvs = (t', .ok ())) (j : Nat) (i : TxIn) (hi : t.inputs[j]? = some i) :
    ∃ (key : Str) (i' : TxIn) (ss der : Str) (pk : Bytes), key ∈ keys ∧ X.pubKey key = .ok (hex pk) ∧ pk.length = 64 ∧
      t'.inputs[j]? = some i' ∧ i'.scriptSig = some ss ∧ scriptSigDecode X.uni ss = .ok (der, hex pk) ∧
      AddressOf X.sha256 i.address (X.ripemd160 (X.sha256 (4 :: pk))) := by
  obtain ⟨key, hk, _, i', ss, der, pk, h1, _, h3, h4, _, h5, h6⟩ := C38_right_key X L t t' ht keys rvs h j i hi
  obtain ⟨p1, p2⟩ := L.pub_shape key pk h5
  obtain ⟨b, rfl⟩ := isHex_exists (isHexStr_iff.1 p1)
  exact ⟨key, i', ss, der, b, hk, h5, by simp at p2; omega, h1, h3, h4, (C10_public_key_address X L b _).1 h6⟩

/-- **C38**, second half: without a key for some input, `sign` raises. -/
theorem C38_missing_key (X : Ext) (t : Tx) (keys : List Str) (rvs : Option (List Str))
    (i : TxIn) (hi : i ∈ t.inputs) (hk : ∀ key ∈ keys, privateKeyToAddress X key ≠ .ok i.address) :
    ∃ e, (t.sign X keys rvs).2 = .error e := by
  rw [sign_eq]
  cases hc : signChecks X keys rvs with
  | error e => exact ⟨e, rfl⟩
  | ok m =>
    cases h2 : (signRest X t m rvs 0 t.inputs).2 with
    | error e => exact ⟨e, rfl⟩
    | ok u =>
      exfalso
      obtain ⟨hl, hs⟩ := (signRest_ok X t m rvs t.inputs 0 (signRest X t m rvs 0 t.inputs).1).1 (by rw [← h2])
      obtain ⟨j, hj⟩ := List.getElem?_of_mem hi
      have hj' : j < (signRest X t m rvs 0 t.inputs).1.length := by rw [hl]; exact (List.getElem?_eq_some_iff.1 hj).1
      obtain ⟨rv, key, pk, ss, sl, n, h3, _⟩ := hs j i _ hj (List.getElem?_eq_getElem hj')
      obtain ⟨_, h6, _⟩ := (signPrepare_ok X).1 h3
      obtain ⟨h8, _, h10⟩ := keyMap_mem X keys m ((signChecks_ok X).1 hc).1 _ _ (keyFor_mem h6)
      exact hk key h8 h10

/-! ## C39 -/

/-- **C39**: whatever the outcome, `sign` changes nothing but signature data. -/
theorem C39_only_signatures (X : Ext) (t : Tx) (keys : List Str) (rvs : Option (List Str)) :
    unsignedTx (t.sign X keys rvs).1 = unsignedTx t := by
  rw [sign_eq]
  cases signChecks X keys rvs with
  | error e => rfl
  | ok m => simp only [unsignedTx, signRest_unsigned]

/-- **C39**: if `sign` raises, there is an input `k` such that the inputs before it are signed
with valid signatures, those after it are unchanged, and at most the public key of input `k`
was set. -/
theorem C39_failing_sign (X : Ext) (L : X.Laws) (t t' : Tx) (ht : t.hashType1 = py"01") (keys : List Str)
    (rvs : Option (List Str)) (e : Err) (h : t.sign X keys rvs = (t', .error e)) :
    ∃ k, t'.inputs.length = t.inputs.length ∧
      (∀ j i', j < k → t'.inputs[j]? = some i' → i'.signed = true ∧ t'.verifyInput X j i' = .ok true) ∧
      (∀ j, k < j → t'.inputs[j]? = t.inputs[j]?) ∧
      (∀ i, t.inputs[k]? = some i → ∃ o, t'.inputs[k]? = some { i with publicKey := o }) := by
  have hu := C39_only_signatures X t keys rvs
  rw [h] at hu
  rw [sign_eq] at h
  cases hc : signChecks X keys rvs with
  | error e' =>
    rw [hc] at h
    simp only [Prod.mk.injEq] at h
    obtain ⟨rfl, _⟩ := h
    exact ⟨0, rfl, by simp, by simp, fun i hi => ⟨i.publicKey, hi⟩⟩
  | ok m =>
    rw [hc] at h
    simp only [Prod.mk.injEq] at h
    obtain ⟨rfl, h2⟩ := h
    obtain ⟨d, hd, hl, h3, h4, h5⟩ := signRest_err X t m rvs t.inputs 0 (signRest X t m rvs 0 t.inputs).1 e (by rw [← h2])
    simp only at hu
    generalize (signRest X t m rvs 0 t.inputs).1 = l' at *
    refine ⟨d, hl, ?_, h4, fun i hi => ?_⟩
    · intro j i' hj hi'
      have hjl : j < t.inputs.length := by omega
      obtain ⟨rv, key, pk, ss, sl, n, h6, h7, h8⟩ := h3 j _ i' hj (List.getElem?_eq_getElem hjl) hi'
      obtain ⟨_, h9, h10⟩ := (signPrepare_ok X).1 h6
      obtain ⟨_, h11, h12⟩ := keyMap_mem X keys m ((signChecks_ok X).1 hc).1 _ _ (keyFor_mem h9)
      obtain ⟨h13, h14, _⟩ := key_valid X L h11 h12 h10
      rw [Nat.zero_add] at h7
      refine ⟨by rw [h8]; rfl, verify_step X L hu ht h7 h13 h14 (by rw [h8]; rfl)⟩
    · obtain ⟨o, ho, _⟩ := h5 i hi
      exact ⟨o, ho⟩

/-! ## C40 -/

/-- **C40**: random values that repeat, or are not as many as the keys, are refused with
ValueError before anything is changed. -/
theorem C40_bad_random_values (X : Ext) (t : Tx) (keys : List Str) (l : List Str) (hl : l ≠ [])
    (h : ¬ l.Nodup ∨ l.length ≠ keys.length) : t.sign X keys (some l) = (t, .error .valueError) := by
  have : signChecks X keys (some l) = .error .valueError := by
    cases l with
    | nil => exact absurd rfl hl
    | cons v vs =>
      unfold signChecks
      by_cases hn : (v :: vs).Nodup
      · have h2 : (v :: vs).length ≠ keys.length := h.resolve_left (by simpa using hn)
        simp only [hn, not_true_eq_false, if_false, ne_eq, h2, not_false_eq_true, if_true, raise_eq, R_bind_err]
      · simp only [hn, not_false_eq_true, if_true, raise_eq, R_bind_err]
  rw [sign_eq, this]

/-- **C40**: with explicit random values the signature of input `j` is made with the `j`-th
value (deterministically if that is the empty string), and the values are pairwise different. -/
theorem C40_own_random_value (X : Ext) (L : X.Laws) (t t' : Tx) (ht : t.hashType1 = py"01") (keys : List Str) (l : List Str) (hl : l ≠ [])
    (h : t.sign X keys (some l) = (t', .ok ())) :
    l.Nodup ∧ l.length = keys.length ∧ ∀ j i', t'.inputs[j]? = some i' →
      ∃ v ss der pk sig hx dg key, l[j]? = some v ∧ i'.scriptSig = some ss ∧ scriptSigDecode X.uni ss = .ok (der, pk) ∧
        signatureToDer X sig = .ok der ∧ t'.toHexSignable j = .ok hx ∧ getDoubleSha256 X hx = .ok dg ∧ X.pubKey key = .ok pk ∧
        (v ≠ [] → X.signRand key dg v = .ok sig) ∧ (v = [] → X.signDet key dg = .ok sig) := by
  have hu := C39_only_signatures X t keys (some l)
  rw [h] at hu
  rw [sign_eq] at h
  cases hc : signChecks X keys (some l) with
  | error e => rw [hc] at h; simp at h
  | ok m =>
    rw [hc] at h
    simp only [Prod.mk.injEq] at h
    obtain ⟨rfl, h2⟩ := h
    have hck := (signChecks_ok X).1 hc
    refine ⟨(hck.2 l rfl hl).1, (hck.2 l rfl hl).2, ?_⟩
    obtain ⟨hlen, hs⟩ := (signRest_ok X t m (some l) t.inputs 0 (signRest X t m (some l) 0 t.inputs).1).1 (by rw [← h2])
    simp only at hu
    generalize (signRest X t m (some l) 0 t.inputs).1 = l' at *
    intro j i' hi'
    have hj : j < t.inputs.length := by rw [← hlen]; exact (List.getElem?_eq_some_iff.1 hi').1
    obtain ⟨rv, key, pk, ss, sl, n, h3, h4, rfl⟩ := hs j _ i' (List.getElem?_eq_getElem hj) hi'
    rw [Nat.zero_add] at h3 h4
    obtain ⟨h5, h6, h7⟩ := (signPrepare_ok X).1 h3
    obtain ⟨_, h9, h10⟩ := keyMap_mem X keys m hck.1 _ _ (keyFor_mem h6)
    obtain ⟨_, h12, _⟩ := key_valid X L h9 h10 h7
    obtain ⟨sig, d, p, h13, rfl, hp, hd, h14, _, rfl, _⟩ := signFinish_ok X L ht h4
    obtain ⟨hx, dg, _, h15, h16, _, h17⟩ := createSignature_ok X h13
    obtain ⟨v, hv, rfl⟩ := (randomFor_some hl).1 h5
    refine ⟨v, _, hex d, hex p, sig, hx, dg, key, hv, rfl, scriptSigDecode_sigScript X.uni hd hp, h14, ?_, h16, h12, ?_, ?_⟩
    · rw [signable_congr hu]; exact h15
    · intro hne
      rcases h17 with ⟨v', hv', _, h17⟩ | ⟨hv', _⟩
      · simp only [Option.some.injEq] at hv'; subst hv'; exact h17
      · simp [hne] at hv'
    · intro he
      rcases h17 with ⟨v', hv', hne, h17⟩ | ⟨_, h17⟩
      · simp only [Option.some.injEq] at hv'; subst hv'; exact absurd he hne
      · exact h17

theorem signRest_signRand (X : Ext) (f : Str → Str → Str → R Str) (t : Tx) (m : List (Str × Str)) (l : List Str)
    (hf : ∀ j v, l[j]? = some v → ∀ hx dg, t.toHexSignable j = .ok hx → getDoubleSha256 X hx = .ok dg →
      ∀ key, f key dg v = X.signRand key dg v) :
    ∀ (ins : List TxIn) (k : Nat), signRest { X with signRand := f } t m (some l) k ins = signRest X t m (some l) k ins := by
  intro ins
  induction ins with
  | nil => intro k; rfl
  | cons inp ins ih =>
    intro k
    have hp : Tx.signPrepare { X with signRand := f } m (some l) k inp = Tx.signPrepare X m (some l) k inp := rfl
    simp only [signRest, hp, ih]
    cases h : Tx.signPrepare X m (some l) k inp with
    | error e => rfl
    | ok q =>
      obtain ⟨rv, key, pk⟩ := q
      obtain ⟨h5, _⟩ := (signPrepare_ok X).1 h
      have hcs : t.createSignature { X with signRand := f } k key rv = t.createSignature X k key rv := by
        unfold Tx.createSignature
        have hd : ∀ s, getDoubleSha256 { X with signRand := f } s = getDoubleSha256 X s := fun _ => rfl
        simp only [hd]
        by_cases hlt : t.inputs.length ≤ k
        · simp [hlt]
        · simp only [hlt, if_false]
          cases rv with
          | none => rfl
          | some v =>
            cases v with
            | nil => rfl
            | cons c cs =>
              cases h1 : t.toHexSignable k with
              | error e => rfl
              | ok hx =>
                simp only [R_bind_ok]
                cases h2 : getDoubleSha256 X hx with
                | error e => rfl
                | ok dg =>
                  simp only [R_bind_ok]
                  have hv : l[k]? = some (c :: cs) := by
                    have hl : l ≠ [] := by rintro rfl; simp [randomFor] at h5
                    obtain ⟨v, hv, e⟩ := (randomFor_some hl).1 h5
                    rw [hv, e]
                  rw [hf k _ hv hx dg h1 h2]
      have hfin : t.signFinish { X with signRand := f } k rv key pk = t.signFinish X k rv key pk := by
        have e1 : ∀ s, signatureToDer { X with signRand := f } s = signatureToDer X s := fun _ => rfl
        simp only [Tx.signFinish, hcs, e1]
      simp only [hfin]

/-- **C40** for the calls to the signer: `sign` behaves the same whatever the signer does on
calls other than "value `j` for the message of input `j`", so value `j` is not used for any
other message. -/
theorem C40_no_other_use (X : Ext) (t : Tx) (keys : List Str) (l : List Str) (f : Str → Str → Str → R Str)
    (hf : ∀ j v, l[j]? = some v → ∀ hx dg, t.toHexSignable j = .ok hx → getDoubleSha256 X hx = .ok dg →
      ∀ key, f key dg v = X.signRand key dg v) :
    t.sign { X with signRand := f } keys (some l) = t.sign X keys (some l) := by
  rw [sign_eq, sign_eq]
  have : signChecks { X with signRand := f } keys (some l) = signChecks X keys (some l) := by
    have hk : ∀ ks, keyMap { X with signRand := f } ks = keyMap X ks := by
      intro ks
      induction ks with
      | nil => rfl
      | cons a as ih =>
        have : privateKeyToAddress { X with signRand := f } a = privateKeyToAddress X a := rfl
        simp only [keyMap, ih, this]
    unfold signChecks
    simp only [hk]
  rw [this]
  cases signChecks X keys (some l) with
  | error e => rfl
  | ok m => simp only [signRest_signRand X f t m l hf]

/-! ## C41 -/

/-- the signature in input `j` of `t` is checked with result `b`: it is taken from the
scriptSig, and checked with the key in the scriptSig against the double SHA-256 of the signable
form of that input -/
def Spec.SignatureVerdict (X : Ext) (t : Tx) (j : Nat) (i : TxIn) (b : Bool) : Prop :=
  ∃ ss der pk sig hx dg, i.scriptSig = some ss ∧ scriptSigDecode X.uni ss = .ok (der, pk) ∧ signatureFromDer X der = .ok sig ∧
    t.toHexSignable j = .ok hx ∧ getDoubleSha256 X hx = .ok dg ∧ X.verifyDigest pk dg sig = .ok b

theorem verifyInput_verdict (X : Ext) {t : Tx} {j : Nat} {i : TxIn} {b : Bool} (h : t.verifyInput X j i = .ok b) :
    SignatureVerdict X t j i b := by
  unfold Tx.verifyInput at h
  split at h
  · simp at h
  · rename_i ss hss
    simp only [R_bind_eq_ok] at h
    obtain ⟨⟨der, pk⟩, h1, sig, h2, h3⟩ := h
    unfold Tx.verifyOne at h3
    split at h3
    · simp at h3
    · simp only [R_bind_eq_ok] at h3
      obtain ⟨hx, h4, dg, h5, _, _, h7⟩ := h3
      unfold verifySignatureDigest at h7
      simp only [R_bind_eq_ok] at h7
      obtain ⟨_, _, h8⟩ := h7
      split at h8
      · simp at h8
      · exact ⟨ss, der, pk, sig, hx, dg, hss, h1, h2, h4, h5, h8⟩

/-- **C41**: when `verify` returns `n`, every input has a verdict and `n` is the number of
inputs whose signature was rejected. -/
theorem C41_counts (X : Ext) (t : Tx) (n : Nat) (h : t.verify X = .ok n) :
    ∃ bs : List Bool, bs.length = t.inputs.length ∧ n = bs.count false ∧
      ∀ j i b, t.inputs[j]? = some i → bs[j]? = some b → SignatureVerdict X t j i b := by
  obtain ⟨bs, h1, h2, h3⟩ := (verifyLoop_ok X t t.inputs 0 0 n).1 h
  refine ⟨bs, h1, by omega, fun j i b hi hb => verifyInput_verdict X ?_⟩
  have := h2 j i hi b hb
  rwa [Nat.zero_add] at this

/-- **C41**: a verdict is unique. -/
theorem C41_verdict_unique (X : Ext) (t : Tx) (j : Nat) (i : TxIn) (b b' : Bool) (h : SignatureVerdict X t j i b)
    (h' : SignatureVerdict X t j i b') : b = b' := by
  obtain ⟨ss, der, pk, sig, hx, dg, e1, e2, e3, e4, e5, e6⟩ := h
  obtain ⟨ss', der', pk', sig', hx', dg', f1, f2, f3, f4, f5, f6⟩ := h'
  rw [e1] at f1; cases f1
  rw [e2] at f2; cases f2
  rw [e3] at f3; cases f3
  rw [e4] at f4; cases f4
  rw [e5] at f5; cases f5
  rw [e6] at f6; cases f6
  rfl

/-- **C41**: an input without scriptSig makes `verify` raise. -/
theorem C41_unsigned_raises (X : Ext) (t : Tx) (i : TxIn) (hi : i ∈ t.inputs) (hs : i.scriptSig = none) :
    ∃ e, t.verify X = .error e := by
  cases h : t.verify X with
  | error e => exact ⟨e, rfl⟩
  | ok n =>
    exfalso
    obtain ⟨bs, h1, _, h3⟩ := C41_counts X t n h
    obtain ⟨j, hj⟩ := List.getElem?_of_mem hi
    have hb : j < bs.length := by rw [h1]; exact (List.getElem?_eq_some_iff.1 hj).1
    obtain ⟨ss, _, _, _, _, _, e1, _⟩ := h3 j i _ hj (List.getElem?_eq_getElem hb)
    rw [hs] at e1; simp at e1

/-! ## C42 -/

/-- **C42**, the part that holds: for a transaction decoded from hex, the public key in each
scriptSig that `verify` uses is the one whose hash is in the script recorded for the input.
(Missing: transactions loaded from JSON, see the violation; and the script recorded is
reconstructed from that key, not looked up.) -/
theorem C42_hex_key_matches_partial (X : Ext) (hs : ∀ b, (X.sha256 b).length = 32) (hr : ∀ b, (X.ripemd160 b).length = 20)
    (s : Str) (t : Tx) (h : Tx.fromHexSigned X s = .ok t) (i : TxIn) (hi : i ∈ t.inputs) :
    ∃ ss der p, i.scriptSig = some ss ∧ scriptSigDecode X.uni ss = .ok (der, hex p) ∧ p.length = 64 ∧
      i.spk = some (hex (p2pkh (X.ripemd160 (X.sha256 (4 :: p))))) := by
  obtain ⟨hb, ib, sb, p, d, _, _, _, _, _, h1, h2, h3, _, h4, _⟩ := (C36_decoded_fields X hs hr s t h).1 i hi
  exact ⟨_, _, p, h1, h2, h3, h4⟩

/-- **C42**, the part that holds for `sign`: what `sign` produces is accepted by `verify` and
ties each key to the script of an address-consistent input. -/
theorem C42_sign_key_matches_partial (X : Ext) (L : X.Laws) (t t' : Tx) (ht : t.hashType1 = py"01") (keys : List Str)
    (rvs : Option (List Str)) (h : t.sign X keys rvs = (t', .ok ())) (j : Nat) (i : TxIn) (hi : t.inputs[j]? = some i)
    (hash : Bytes) (ha : AddressOf X.sha256 i.address hash) (hspk : i.spk = some (hex (p2pkh hash))) :
    ∃ (i' : TxIn) (ss der : Str) (p : Bytes), t'.inputs[j]? = some i' ∧ i'.scriptSig = some ss ∧
      scriptSigDecode X.uni ss = .ok (der, hex p) ∧ i'.spk = some (hex (p2pkh (X.ripemd160 (X.sha256 (4 :: p))))) := by
  obtain ⟨key, _, _, i', ss, der, pk, h1, h2, h3, h4, _, h5, h6⟩ := C38_right_key X L t t' ht keys rvs h j i hi
  obtain ⟨h7, h8⟩ := L.pub_shape _ _ h5
  obtain ⟨p, rfl⟩ := isHex_exists (isHexStr_iff.1 h7)
  have hspk' : i'.spk = i.spk := by
    have := C39_only_signatures X t keys rvs
    rw [h] at this
    have := congrArg (fun t : Tx => (t.inputs[j]?).map TxIn.spk) this
    simpa [unsignedTx, h1, hi, unsignedPart] using this
  refine ⟨i', ss, der, p, h1, h3, h4, ?_⟩
  rw [hspk', hspk]
  simp only [publicKeyToAddress, getPublicKeyHash_hex X L.rip_len, R_bind_ok] at h6
  rw [AddressOf_hashToAddress X L.sha_len ha h6 (L.rip_len _)]

/-- **C42** violated: for *every* valid private key, whatever its address, the signature it
makes for the single input of `t` can be put into the input, and then `verify` returns 0: the
key in the scriptSig is never compared with the address or script being spent. -/
theorem C42_violation (X : Ext) (L : X.Laws) (t : Tx) (ht : t.hashType1 = py"01") (i : TxIn) (hi : t.inputs = [i])
    (key pk sig : Str) (hv : X.validateKey key = .ok ()) (hk : X.pubKey key = .ok pk)
    (hs : t.createSignature X 0 key none = .ok sig) :
    ∃ (ss sl der : Str) (n : Int), scriptSigDecode X.uni ss = .ok (der, pk) ∧
      ({ t with inputs := [{ i with scriptSig := some ss, scriptLen := some sl, scriptLenInt := .int n }] } : Tx).verify X = .ok 0 := by
  obtain ⟨ss, sl, n, h⟩ := signFinish_of X L ht hk hs
  obtain ⟨_, d, p, _, rfl, hp, hd, _, _, hss, _⟩ := signFinish_ok X L ht h
  refine ⟨ss, sl, hex d, n, by rw [hss]; exact scriptSigDecode_sigScript X.uni hd hp, ?_⟩
  rw [Tx.verify, verifyLoop_ok]
  refine ⟨[true], rfl, ?_, rfl⟩
  intro j i' hi' b hb
  match j with
  | 0 =>
    simp only [List.getElem?_cons_zero, Option.some.injEq] at hi' hb
    subst hi' hb
    exact verify_step X L (by simp [unsignedTx, hi, unsignedPart]) ht h hv hk rfl
  | j + 1 => simp at hi'

/-! ## C65 -/

/-- **C65**: signing again with the same keys (deterministic signatures) changes nothing. -/
theorem C65_resign (X : Ext) (t t' : Tx) (keys : List Str) (h : t.sign X keys none = (t', .ok ())) :
    t'.sign X keys none = (t', .ok ()) := by
  have hu := C39_only_signatures X t keys none
  rw [h] at hu
  rw [sign_eq] at h ⊢
  cases hc : signChecks X keys none with
  | error e => rw [hc] at h; simp at h
  | ok m =>
    rw [hc] at h
    simp only [Prod.mk.injEq] at h
    obtain ⟨rfl, h2⟩ := h
    obtain ⟨hl, hs⟩ := (signRest_ok X t m none t.inputs 0 (signRest X t m none 0 t.inputs).1).1 (by rw [← h2])
    simp only at hu ⊢
    generalize (signRest X t m none 0 t.inputs).1 = l' at *
    have : signRest X { t with inputs := l' } m none 0 l' = (l', .ok ()) := by
      rw [signRest_ok]
      refine ⟨rfl, ?_⟩
      intro j i i' hi hi'
      rw [hi] at hi'
      simp only [Option.some.injEq] at hi'
      subst hi'
      have hj : j < t.inputs.length := by rw [← hl]; exact (List.getElem?_eq_some_iff.1 hi).1
      obtain ⟨rv, key, pk, ss, sl, n, h3, h4, rfl⟩ := hs j _ i (List.getElem?_eq_getElem hj) hi
      refine ⟨rv, key, pk, ss, sl, n, ?_, ?_, rfl⟩
      · rw [signPrepare_ok] at h3 ⊢; exact h3
      · rw [signFinish_congr X hu]; exact h4
    rw [this]

/-! ## sign, serialise, decode, verify -/

/-- what signing does to one input of a created transaction, in terms of raw bytes -/
theorem signed_created_input (X : Ext) (L : X.Laws) (t t' : Tx) (C : Created X t) (keys : List Str) (rvs : Option (List Str))
    (h : t.sign X keys rvs = (t', .ok ())) :
    ∀ i' ∈ t'.inputs, ∃ q : RawIn × Bytes, SignedRaw i' q.1 ∧ q.1.Ok ∧ StandardSig q.1.script q.2 ∧ 
      parsedIn X q.1 q.2 = forgetAmount i' ∧ q.1.script.length ≤ 140 := by
  intro i' hi'
  obtain ⟨j, hj'⟩ := List.getElem?_of_mem hi'
  rw [sign_eq] at h
  cases hc : signChecks X keys rvs with
  | error e => rw [hc] at h; simp at h
  | ok m =>
    rw [hc] at h
    simp only [Prod.mk.injEq] at h
    obtain ⟨rfl, h2⟩ := h
    obtain ⟨hl, hs⟩ := (signRest_ok X t m rvs t.inputs 0 (signRest X t m rvs 0 t.inputs).1).1 (by rw [← h2])
    simp only at hj' hi'
    generalize (signRest X t m rvs 0 t.inputs).1 = l' at *
    have hj : j < t.inputs.length := by rw [← hl]; exact (List.getElem?_eq_some_iff.1 hj').1
    obtain ⟨rv, key, pk, ss, sl, n, h3, h4, h5⟩ := hs j _ i' (List.getElem?_eq_getElem hj) hj'
    obtain ⟨a, txid, idx, sat, hcr⟩ := C.ins t.inputs[j] (List.getElem_mem hj)
    obtain ⟨tb, hb, ix, k, hbl, hh, rfl, htb, rfl, hix, rfl, hk, he⟩ := (TxIn_create_ok X L.sha_len).1 hcr
    rw [he] at h3 h5
    obtain ⟨_, h6, h7⟩ := (signPrepare_ok X).1 h3
    obtain ⟨h8, h9, h10⟩ := keyMap_mem X keys m ((signChecks_ok X).1 hc).1 _ _ (keyFor_mem h6)
    obtain ⟨h11, h12, h13⟩ := key_valid X L h9 h10 h7
    obtain ⟨sig, d, p, _, rfl, hp, hd, _, _, rfl, rfl, rfl⟩ := signFinish_ok X L C.frame.ht1 h4
    simp only [publicKeyToAddress, getPublicKeyHash_hex X L.rip_len, R_bind_ok] at h13
    have hkey : keyHash X p = hb := AddressOf_hashToAddress X L.sha_len (AddressOf_of_hash X L.sha_len hh) h13 (L.rip_len _)
    have ha : addrText X hb = a := by
      have := hashToAddress_of_hash X L.sha_len hh
      rw [hashToAddress_hex X L.sha_len, Except.ok.injEq] at this
      exact this
    have hlen : (sigScript (d ++ [1]) p).length = d.length + 68 := by simp [sigScript, hp]
    refine ⟨(⟨tb.reverse, leBytes 4 ix, sigScript (d ++ [1]) p⟩, p), ?_, ?_, ?_, ?_, by simp only; omega⟩
    · rw [h5]
      exact ⟨rfl, rfl, rfl, rfl, rfl⟩
    · exact ⟨by simp [htb], by simp, by simp only; omega⟩
    · exact ⟨d, [], by omega, hp, by simp [sigScript]⟩
    · rw [h5]
      simp only [parsedIn, forgetAmount, signedAs, inOf, hkey, ha, List.reverse_reverse]
      rw [leNat_leBytes (by norm_num; omega)]

theorem created_output (X : Ext) (hs : ∀ b, (X.sha256 b).length = 32) {o : TxOut} (h : ∃ a sat, TxOut.create X a sat = .ok o) :
    ∃ r : RawOut, OutRaw o r ∧ r.Ok ∧ leNat r.value ≤ maxMoney ∧ parsedOut X r = o ∧ r.script.length = 25 := by
  obtain ⟨a, sat, hc⟩ := h
  obtain ⟨h, n, hl, hh, rfl, hn, rfl⟩ := (TxOut_create_ok X hs).1 hc
  have h25 : (p2pkh h).length = 25 := by simp [p2pkh, hl]
  have hv : leNat (leBytes 8 n) = n := leNat_leBytes (by unfold maxMoney at hn; norm_num; omega)
  have ha : addrText X h = a := by
    have := hashToAddress_of_hash X hs hh
    rw [hashToAddress_hex X hs, Except.ok.injEq] at this
    exact this
  have hm : ((p2pkh h).drop 3).take 20 = h := by simp [p2pkh, ← hl]
  refine ⟨⟨leBytes 8 n, p2pkh h⟩, ⟨rfl, rfl, by rw [h25]; rfl⟩, ⟨by simp, by simp only; omega⟩, by simp only; omega, ?_, h25⟩
  simp only [parsedOut, outOf, hv, h25, hm, ha]
  rfl

theorem verifyInput_congr (X : Ext) {t t' : Tx} {j : Nat} {i i' : TxIn} (h1 : t.toHexSignable j = t'.toHexSignable j)
    (h2 : t.inputs.length = t'.inputs.length) (h3 : i.scriptSig = i'.scriptSig) : t.verifyInput X j i = t'.verifyInput X j i' := by
  unfold Tx.verifyInput Tx.verifyOne
  rw [h1, h2, h3]

/-- **C35** and **C37** together: a transaction made with `create`, signed, serialised with
`to_hex_signed_form` and decoded with `from_hex_signed` is the same transaction (without the
amounts of the inputs, which are not serialised, and the change address), it serialises to the
same hex and all its signatures verify. -/
theorem C35_signed_round_trip (X : Ext) (L : X.Laws) (t t' : Tx) (C : Created X t) (keys : List Str) (rvs : Option (List Str))
    (h : t.sign X keys rvs = (t', .ok ())) :
    ∃ s, t'.toHexSigned = .ok s ∧
      Tx.fromHexSigned X s = .ok { t' with inputs := t'.inputs.map forgetAmount, changeAddress := none } ∧
      ({ t' with inputs := t'.inputs.map forgetAmount, changeAddress := none } : Tx).toHexSigned = .ok s ∧
      ({ t' with inputs := t'.inputs.map forgetAmount, changeAddress := none } : Tx).verify X = .ok 0 := by
  have hu := C39_only_signatures X t keys rvs
  rw [h] at hu
  simp only at hu
  obtain ⟨ps, hps⟩ := exists_forall₂ (signed_created_input X L t t' C keys rvs h)
  have houts : t'.outputs = t.outputs := by
    have := congrArg Tx.outputs hu; simpa [unsignedTx] using this
  have hin : t'.inputs.length = t.inputs.length := unsigned_length hu
  have F : Frame t' := by
    have e1 := congrArg Tx.version hu
    have e2 := congrArg Tx.lockTime hu
    have e3 := congrArg Tx.hashType4 hu
    have e4 := congrArg Tx.hashType1 hu
    have e5 := congrArg Tx.inputCount hu
    have e6 := congrArg Tx.outputCount hu
    simp only [unsignedTx] at e1 e2 e3 e4 e5 e6
    have G := C.frame
    exact ⟨e1.trans G.version, e2.trans G.lock, e3.trans G.ht4, e4.trans G.ht1, by rw [hin]; exact e5.trans G.ic,
      by rw [houts]; exact e6.trans G.oc, by rw [hin]; exact G.icl, by rw [houts]; exact G.ocl⟩
  obtain ⟨outs, hos⟩ := exists_forall₂ (l := t'.outputs) (fun o ho => created_output X L.sha_len (C.outs o (houts ▸ ho)))
  have hi : List.Forall₂ SignedRaw t'.inputs (ps.map Prod.fst) := by
    rw [List.forall₂_map_right_iff]
    exact hps.imp fun _ _ h => h.1
  have ho : List.Forall₂ OutRaw t'.outputs outs := hos.imp fun _ _ h => h.1
  have hser := signed_hex F hi ho
  have hl : ps.length ≤ 252 := by have := F.icl; have := hps.length_eq; omega
  have hlo : outs.length ≤ 252 := by have := F.ocl; have := hos.length_eq; omega
  have hpt : parsedTx X ps outs = { t' with inputs := t'.inputs.map forgetAmount, changeAddress := none } := by
    have e1 : ps.map (fun q => parsedIn X q.1 q.2) = t'.inputs.map forgetAmount :=
      forall₂_map_eq hps fun _ _ h => h.2.2.2.1
    have e2 : outs.map (parsedOut X) = t'.outputs := by
      have := forall₂_map_eq (f := parsedOut X) (g := id) hos fun _ _ h => h.2.2.2.1
      simpa using this
    unfold parsedTx
    rw [e1, e2, ← hps.length_eq, ← hos.length_eq, ← F.ic, ← F.oc]
    simp only [F.version, F.lock, F.ht4, F.ht1]
  refine ⟨_, hser, ?_, ?_, ?_⟩
  · rw [← hpt]
    refine (fromHexSigned_ok X L.sha_len L.rip_len).2 ⟨ps, outs, [], by simp, ?_, ?_, hl, hlo, rfl⟩
    · exact forall₂_right hps fun _ _ h => keyIn_of_standard X h.2.1 h.2.2.1
    · exact forall₂_right hos fun _ _ h => ⟨h.2.1, h.2.2.1⟩
  · rw [← hpt]
    exact parsedTx_hex X hl hlo
  · have hv := (C37_sign_then_verify X L t t' C.frame.ht1 keys rvs h).2
    rw [Tx.verify, verifyLoop_ok] at hv ⊢
    obtain ⟨bs, h1, h2, h3⟩ := hv
    refine ⟨bs, by simpa using h1, ?_, h3⟩
    intro j i hi b hb
    simp only [List.getElem?_map, Option.map_eq_some_iff] at hi
    obtain ⟨i0, hi0, rfl⟩ := hi
    have := h2 j i0 hi0 b hb
    rw [← this]
    apply verifyInput_congr X ?_ (by simp) rfl
    unfold Tx.toHexSignable Tx.signableForm
    simp only
    rw [signableInputs_map' (0 + j) forgetAmount (fun _ => rfl) (fun _ => rfl)]

/-! ## the hypotheses are met -/

theorem sample_created {X : Ext} {t : Tx} (h : Concrete.sampleTx X = .ok t) : Created X t := by
  simp only [Concrete.sampleTx, R_bind_eq_ok] at h
  obtain ⟨a1, _, a2, _, i1, h1, i2, h2, o1, h3, o2, h4, h5⟩ := h
  have F := Frame_create h5
  obtain ⟨_, _, rfl⟩ := Tx_create_ok.1 h5
  refine ⟨F, ?_, ?_⟩
  · intro i hi
    simp only [List.mem_cons, List.not_mem_nil, or_false] at hi
    rcases hi with rfl | rfl
    · exact ⟨_, _, _, _, h1⟩
    · exact ⟨_, _, _, _, h2⟩
  · intro o ho
    simp only [List.mem_cons, List.not_mem_nil, or_false] at ho
    rcases ho with rfl | rfl
    · exact ⟨_, _, h3⟩
    · exact ⟨_, _, h4⟩

/-- the hypotheses of C37-C39, C65 and the combined round trip hold for the sample -/
example : ∃ t t' s, Concrete.Xtoy.Laws ∧ Created Concrete.Xtoy t ∧ t.sign Concrete.Xtoy Concrete.keys12 none = (t', .ok ()) ∧
    t'.verify Concrete.Xtoy = .ok 0 ∧ t'.toHexSigned = .ok s ∧ t'.sign Concrete.Xtoy Concrete.keys12 none = (t', .ok ()) := by
  obtain ⟨t, t', h1, h2⟩ := Concrete.sample_sign
  obtain ⟨s, h3, _⟩ := C35_signed_round_trip _ Concrete.Xtoy_laws t t' (sample_created h1) _ _ h2
  exact ⟨t, t', s, Concrete.Xtoy_laws, sample_created h1, h2,
    (C37_sign_then_verify _ Concrete.Xtoy_laws t t' (sample_created h1).frame.ht1 _ _ h2).2, h3, C65_resign _ t t' _ h2⟩

/-- every created transaction meets the hypotheses of C32 and C33 -/
theorem created_raw (X : Ext) (hs : ∀ b, (X.sha256 b).length = 32) {t : Tx} (C : Created X t) :
    ∃ ins outs, List.Forall₂ SpendsRaw t.inputs ins ∧ List.Forall₂ OutRaw t.outputs outs ∧
      (∀ r ∈ ins, r.Ok ∧ r.script ≠ []) ∧ (∀ r ∈ outs, r.Ok) := by
  obtain ⟨ins, hi⟩ := exists_forall₂ (l := t.inputs) (R := fun i r => SpendsRaw i r ∧ r.Ok ∧ r.script.length = 25)
    (fun i hi => by obtain ⟨a, x, y, z, h⟩ := C.ins i hi; exact created_spends X hs h)
  obtain ⟨outs, ho⟩ := exists_forall₂ (l := t.outputs) (fun o ho => created_output X hs (C.outs o ho))
  refine ⟨ins, outs, hi.imp fun _ _ h => h.1, ho.imp fun _ _ h => h.1, forall₂_right hi fun _ _ h => ⟨h.2.1, ?_⟩,
    forall₂_right ho fun _ _ h => h.2.1⟩
  intro hc
  have := h.2.2
  rw [hc] at this
  simp at this

/-- every signed created transaction meets the hypotheses of C34, C35, C44 -/
theorem signed_raw (X : Ext) (L : X.Laws) {t t' : Tx} (C : Created X t) {keys : List Str} {rvs : Option (List Str)}
    (h : t.sign X keys rvs = (t', .ok ())) :
    ∃ ins outs, List.Forall₂ SignedRaw t'.inputs ins ∧ List.Forall₂ OutRaw t'.outputs outs ∧
      (∀ r ∈ ins, r.Ok ∧ (∃ p, StandardSig r.script p) ∧ r.script.length ≤ 140) ∧
      (∀ r ∈ outs, r.Ok ∧ leNat r.value ≤ maxMoney ∧ r.script.length = 25) := by
  have hu := C39_only_signatures X t keys rvs
  rw [h] at hu
  have houts : t'.outputs = t.outputs := by
    have := congrArg Tx.outputs hu; simpa [unsignedTx] using this
  obtain ⟨ps, hps⟩ := exists_forall₂ (signed_created_input X L t t' C keys rvs h)
  obtain ⟨outs, hos⟩ := exists_forall₂ (l := t'.outputs) (fun o ho => created_output X L.sha_len (C.outs o (houts ▸ ho)))
  refine ⟨ps.map Prod.fst, outs, ?_, hos.imp fun _ _ h => h.1, ?_, forall₂_right hos fun _ _ h => ⟨h.2.1, h.2.2.1, h.2.2.2.2⟩⟩
  · rw [List.forall₂_map_right_iff]
    exact hps.imp fun _ _ h => h.1
  · intro r hr
    obtain ⟨q, hq, rfl⟩ := List.mem_map.1 hr
    exact forall₂_right (P := fun q : RawIn × Bytes => q.1.Ok ∧ (∃ p, StandardSig q.1.script p) ∧ q.1.script.length ≤ 140) hps
      (fun _ b h => ⟨h.2.1, ⟨b.2, h.2.2.1⟩, h.2.2.2.2⟩) q hq

/-- **C44** for signed transactions: the estimate is never exceeded by more than 2 bytes per
input. -/
theorem C44_signed_size (X : Ext) (L : X.Laws) (t t' : Tx) (C : Created X t) (keys : List Str) (rvs : Option (List Str))
    (h : t.sign X keys rvs = (t', .ok ())) :
    ∃ (b : Bytes) (e : Int), t'.toHexSigned = .ok (hex b) ∧
      estimateTransactionSize t'.inputs.length t'.outputs.length = .ok e ∧ (b.length : Int) ≤ e + 2 * t'.inputs.length := by
  obtain ⟨ins, outs, h1, h2, h3, h4⟩ := signed_raw X L C h
  have F : Frame t' := by
    have hu := C39_only_signatures X t keys rvs
    rw [h] at hu
    have e1 := congrArg Tx.version hu
    have e2 := congrArg Tx.lockTime hu
    have e3 := congrArg Tx.hashType4 hu
    have e4 := congrArg Tx.hashType1 hu
    have e5 := congrArg Tx.inputCount hu
    have e6 := congrArg Tx.outputCount hu
    have e7 := congrArg Tx.outputs hu
    simp only [unsignedTx] at e1 e2 e3 e4 e5 e6 e7
    have G := C.frame
    have hin : t'.inputs.length = t.inputs.length := unsigned_length hu
    exact ⟨e1.trans G.version, e2.trans G.lock, e3.trans G.ht4, e4.trans G.ht1, by rw [hin]; exact e5.trans G.ic,
      by rw [e7]; exact e6.trans G.oc, by rw [hin]; exact G.icl, by rw [e7]; exact G.ocl⟩
  obtain ⟨b, e, e1, e2, e3⟩ := C44_actual_size t' F ins outs h1 h2 (fun r hr => (h3 r hr).1) (fun r hr => ⟨(h4 r hr).1, (h4 r hr).2.2⟩)
  refine ⟨b, e, e1, e2, ?_⟩
  have : ∀ l : List RawIn, (∀ r ∈ l, r.script.length ≤ 140) → (l.map fun r => (r.script.length : Int) - 138).sum ≤ 2 * l.length := by
    intro l hl
    induction l with
    | nil => simp
    | cons r l ih =>
      have := ih fun r hr => hl r (by simp [hr])
      have := hl r (by simp)
      simp only [List.map_cons, List.sum_cons, List.length_cons]; push_cast; omega
  have := this ins fun r hr => (h3 r hr).2.2
  rw [e3, h1.length_eq]; omega

/-- C40: explicit random values are accepted by the sample -/
example : ((Concrete.sampleTx Concrete.Xtoy).bind fun t => (t.sign Concrete.Xtoy Concrete.keys12 (some [py"01", py"02"])).2).isOk = true := by
  decide +kernel
/-- C39: signing the sample with the first key only fails -/
example : ((Concrete.sampleTx Concrete.Xtoy).bind fun t => (t.sign Concrete.Xtoy (Concrete.keys12.take 1) none).2) = .error .valueError := by
  decide +kernel
/-- C42: the key of another address makes a signature for an input of the sample -/
example : ((Concrete.sampleTx Concrete.Xtoy).bind fun t => t.createSignature Concrete.Xtoy 0 (Concrete.hex32 2) none).isOk = true ∧
    Concrete.valKey (Concrete.hex32 2) = .ok () := by
  decide +kernel

end BT
