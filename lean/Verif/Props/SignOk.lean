import Verif.Props.Cli
import Verif.Props.CliWit
import Verif.Props.CliKeys

/-!
# When signing succeeds (C81, C82)
-/

namespace BT
open Spec

variable {X : Ext}

/-- A private key as `sign` wants it: 32 bytes of hex, accepted by the ECDSA library. -/
def GoodKey (X : Ext) (k : Str) : Prop := IsHex k ∧ k.length = 64 ∧ X.validateKey k = .ok ()

theorem goodKey_pub (L : X.Laws) {k : Str} (h : GoodKey X k) :
    ∃ pk a, privateKeyToPublicKey X k = .ok pk ∧ X.pubKey k = .ok pk ∧ privateKeyToAddress X k = .ok a := by
  obtain ⟨h1, h2, h3⟩ := h
  have hf := L.format_id k (isHexStr_iff.2 h1) h2
  obtain ⟨pk, hp⟩ := L.pub_ok k h3
  obtain ⟨p1, _⟩ := L.pub_shape k pk hp
  obtain ⟨b, rfl⟩ := isHex_exists (isHexStr_iff.1 p1)
  refine ⟨hex b, text58 ((0 :: X.ripemd160 (X.sha256 (4 :: b))) ++ checksum X.sha256 (0 :: X.ripemd160 (X.sha256 (4 :: b)))),
    by simp [privateKeyToPublicKey, hf, h3, hp], hp, ?_⟩
  simp [privateKeyToAddress, hf, h3, hp, publicKeyToAddress, getPublicKeyHash_hex X L.rip_len, hashToAddress_hex X L.sha_len]

theorem goodKey_of_address (L : X.Laws) {k a : Str} (h1 : vHexLength k 32 = .ok ()) (h2 : privateKeyToAddress X k = .ok a) : GoodKey X k := by
  obtain ⟨b, rfl, hb⟩ := vHexLength_bytes (n := 32) h1
  refine ⟨isHex_hex b, by simp [hb], ?_⟩
  have hf : X.formatKey (hex b) = .ok (hex b) := L.format_id _ (isHexStr_iff.2 (isHex_hex b)) (by simp [hb])
  simp only [privateKeyToAddress, hf, R_bind_ok, R_bind_eq_ok] at h2
  obtain ⟨_, h4, _⟩ := h2
  exact h4

theorem keyMap_total (L : X.Laws) : ∀ keys : List Str, (∀ k ∈ keys, GoodKey X k) →
    ∃ m, keyMap X keys = .ok m ∧ ∀ k ∈ keys, ∀ a, privateKeyToAddress X k = .ok a → (a, k) ∈ m := by
  intro keys
  induction keys with
  | nil => intro _; exact ⟨[], rfl, by simp⟩
  | cons k ks ih =>
    intro h
    obtain ⟨m, e, hm⟩ := ih fun x hx => h x (List.mem_cons_of_mem _ hx)
    have hk := h k (List.mem_cons_self ..)
    obtain ⟨pk, a, _, _, ha⟩ := goodKey_pub L hk
    have hv : vHexLength k 32 = .ok () := vHexLength_ok.2 ⟨hk.1, by rw [hk.2.1]; rfl⟩
    refine ⟨(a, k) :: m, by simp [keyMap, hv, ha, e], ?_⟩
    intro x hx b hb
    rcases List.mem_cons.1 hx with rfl | hx
    · rw [ha] at hb; injection hb with hb; subst hb; exact List.mem_cons_self ..
    · exact List.mem_cons_of_mem _ (hm x hx b hb)

theorem keyMap_good (L : X.Laws) : ∀ (keys : List Str) (m : List (Str × Str)), keyMap X keys = .ok m → ∀ k ∈ keys, GoodKey X k := by
  intro keys
  induction keys with
  | nil => intro m _ k hk; simp at hk
  | cons k ks ih =>
    intro m h x hx
    simp only [keyMap, R_bind_eq_ok] at h
    obtain ⟨_, h1, a, h2, m', h3, _⟩ := h
    rcases List.mem_cons.1 hx with rfl | hx
    · exact goodKey_of_address L h1 h2
    · exact ih m' h3 x hx

theorem keyFor_of_mem {m : List (Str × Str)} {a k : Str} (h : (a, k) ∈ m) : ∃ k', keyFor m a = some k' := by
  unfold keyFor
  cases hf : m.reverse.find? fun p => p.1 = a with
  | none =>
    rw [List.find?_eq_none] at hf
    have := hf (a, k) (by simpa using h)
    simp at this
  | some p => exact ⟨p.2, rfl⟩

/-- valid keys that can sign, one of them for every input, sign a created transaction -/
theorem sign_of_keys (L : X.Laws) (t : Tx) (C : Spec.Created X t) (keys : List Str) (hg : ∀ k ∈ keys, GoodKey X k)
    (hk : ∀ i ∈ t.inputs, ∃ k ∈ keys, privateKeyToAddress X k = .ok i.address)
    (hsg : ∀ k ∈ keys, ∀ d, isHexStr d = true → d.length = 64 → ∃ s, X.signDet k d = .ok s) : ∃ t', t.sign X keys none = (t', .ok ()) := by
  obtain ⟨m, hm, hmem⟩ := keyMap_total L keys hg
  have hc : signChecks X keys none = .ok m := (signChecks_ok X).2 ⟨hm, by simp⟩
  obtain ⟨ins, outs, hi, ho, _, _⟩ := created_raw X L.sha_len C
  have hstep : ∀ (j : Nat) (i : TxIn), t.inputs[j]? = some i → ∃ i', SignStep X t m none j i i' := by
    intro j i hj
    have hlt := (List.getElem?_eq_some_iff.1 hj).1
    obtain ⟨k, hkk, ha⟩ := hk i (List.mem_of_getElem? hj)
    obtain ⟨k', hk'⟩ := keyFor_of_mem (hmem k hkk _ ha)
    obtain ⟨q1, _, _⟩ := keyMap_mem X keys m hm _ _ (keyFor_mem hk')
    have hgk := hg k' q1
    obtain ⟨pk, _, e1, e2, _⟩ := goodKey_pub L hgk
    have hmsg := signable_hex C.frame hi ho j
    have hdg : ∀ b : Bytes, vHexLength (hex (X.sha256 b)) 32 = .ok () := fun b =>
      vHexLength_ok.2 ⟨isHex_hex _, by simp [L.sha_len]⟩
    obtain ⟨sig, hsig⟩ := hsg k' q1 (hex (X.sha256 (X.sha256 (txBytes (keepOnly j ins) outs ++ [1, 0, 0, 0]))))
      (isHexStr_iff.2 (isHex_hex _)) (by simp [L.sha_len])
    have hcs : t.createSignature X j k' none = .ok sig := by
      unfold Tx.createSignature
      rw [if_neg (by omega)]
      simp only [hmsg, getDoubleSha256_hex, R_bind_ok, hdg, hsig, R_pure]
    obtain ⟨ss, sl, n, hfin⟩ := signFinish_of X L C.frame.ht1 e2 hcs
    exact ⟨_, none, k', pk, ss, sl, n, (signPrepare_ok X).2 ⟨rfl, hk', e1⟩, hfin, rfl⟩
  have key : ∀ (l : List TxIn) (k : Nat), (∀ (j : Nat) (i : TxIn), l[j]? = some i → ∃ i', SignStep X t m none (k + j) i i') →
      ∃ l', signRest X t m none k l = (l', .ok ()) := by
    intro l
    induction l with
    | nil => intro k _; exact ⟨[], rfl⟩
    | cons i l ih =>
      intro k h
      obtain ⟨i', rv, key, pk, ss, sl, n, h1, h2, h3⟩ := h 0 i rfl
      rw [Nat.add_zero] at h1 h2
      obtain ⟨l', hl'⟩ := ih (k + 1) (fun j x hx => by
        obtain ⟨y, hy⟩ := h (j + 1) x hx
        exact ⟨y, by rw [show k + 1 + j = k + (j + 1) by omega]; exact hy⟩)
      refine ⟨signedAs i pk ss sl n :: l', ?_⟩
      simp only [signRest, h1, h2, hl']
  obtain ⟨l', hl'⟩ := key t.inputs 0 (by simpa using hstep)
  refine ⟨{ t with inputs := l' }, ?_⟩
  rw [sign_eq, hc]
  simp only [hl']

/-- **C81**: a created transaction can be signed exactly when every supplied private key is a valid
32-byte key and every input has a supplied key of its address. -/
theorem C81_sign_iff (L : X.Laws) (ST : X.SignTotal) (t : Tx) (C : Spec.Created X t) (keys : List Str) :
    (∃ t', t.sign X keys none = (t', .ok ())) ↔
      (∀ k ∈ keys, GoodKey X k) ∧ ∀ i ∈ t.inputs, ∃ k ∈ keys, privateKeyToAddress X k = .ok i.address := by
  constructor
  · rintro ⟨t', h⟩
    constructor
    · rw [sign_eq] at h
      cases hc : signChecks X keys none with
      | error e => rw [hc] at h; simp at h
      | ok m => exact keyMap_good L keys m ((signChecks_ok X).1 hc).1
    · intro i hi
      obtain ⟨j, hj⟩ := List.getElem?_of_mem hi
      obtain ⟨k, hk, ha, _⟩ := C38_right_key X L t t' C.frame.ht1 keys none h j i hj
      exact ⟨k, hk, ha⟩
  · rintro ⟨hg, hk⟩
    exact sign_of_keys L t C keys hg hk fun k h d h1 h2 => ST.sign_ok k d (hg k h).2.2 h1 h2

/-- **C81**: with valid keys, a missing key is reported as ValueError. -/
theorem C81_missing_key (L : X.Laws) (ST : X.SignTotal) (t : Tx) (C : Spec.Created X t) (keys : List Str) (hg : ∀ k ∈ keys, GoodKey X k)
    (i : TxIn) (hi : i ∈ t.inputs) (hk : ∀ k ∈ keys, privateKeyToAddress X k ≠ .ok i.address) :
    (t.sign X keys none).2 = .error .valueError := by
  obtain ⟨m, hm, hmem⟩ := keyMap_total L keys hg
  have hc : signChecks X keys none = .ok m := (signChecks_ok X).2 ⟨hm, by simp⟩
  obtain ⟨ins, outs, hri, ho, _, _⟩ := created_raw X L.sha_len C
  rw [sign_eq, hc]
  simp only
  have main : ∀ (l : List TxIn) (k : Nat), k + l.length = t.inputs.length → i ∈ l → (signRest X t m none k l).2 = .error .valueError := by
    intro l
    induction l with
    | nil => intro k _ h; simp at h
    | cons x l ih =>
      intro k hlen hx
      simp only [List.length_cons] at hlen
      cases hkf : keyFor m x.address with
      | none =>
        have : Tx.signPrepare X m none k x = .error .valueError := by
          unfold Tx.signPrepare; rw [hkf]; rfl
        simp only [signRest, this]
      | some k' =>
        obtain ⟨q1, q2, q3⟩ := keyMap_mem X keys m hm _ _ (keyFor_mem hkf)
        have hgk := hg k' q1
        obtain ⟨pk, _, e1, e2, _⟩ := goodKey_pub L hgk
        have hne : i ≠ x := by rintro rfl; exact hk k' q1 q3
        have hil : i ∈ l := by
          rcases List.mem_cons.1 hx with h | h
          · exact absurd h hne
          · exact h
        have hmsg := signable_hex C.frame hri ho k
        have hdg : ∀ b : Bytes, vHexLength (hex (X.sha256 b)) 32 = .ok () := fun b =>
          vHexLength_ok.2 ⟨isHex_hex _, by simp [L.sha_len]⟩
        obtain ⟨sig, hsig⟩ := ST.sign_ok k' (hex (X.sha256 (X.sha256 (txBytes (keepOnly k ins) outs ++ [1, 0, 0, 0])))) hgk.2.2
          (isHexStr_iff.2 (isHex_hex _)) (by simp [L.sha_len])
        have hcs : t.createSignature X k k' none = .ok sig := by
          unfold Tx.createSignature
          rw [if_neg (by omega)]
          simp only [hmsg, getDoubleSha256_hex, R_bind_ok, hdg, hsig, R_pure]
        obtain ⟨ss, sl, n, hfin⟩ := signFinish_of X L C.frame.ht1 e2 hcs
        have hp : Tx.signPrepare X m none k x = .ok (none, k', pk) := (signPrepare_ok X).2 ⟨rfl, hkf, e1⟩
        simp only [signRest, hp, hfin]
        exact ih (k + 1) (by omega) hil
  exact main t.inputs 0 (by simp) hi

/-- **C39**, exactly: if all keys are good and `sign` raises anyway, then at some input `k` either none of the keys
has its address and nothing of it was changed, or it got the public key of a given key of its address and nothing
else (its old signature, if any, is left in place). -/
theorem C39_failing_input (L : X.Laws) (t t' : Tx) (keys : List Str) (hg : ∀ k ∈ keys, GoodKey X k) (e : Err)
    (h : t.sign X keys none = (t', .error e)) :
    ∃ (k : Nat) (i : TxIn), t.inputs[k]? = some i ∧ (∀ j, k < j → t'.inputs[j]? = t.inputs[j]?) ∧
      (((∀ key ∈ keys, privateKeyToAddress X key ≠ .ok i.address) ∧ t'.inputs[k]? = some i ∧ e = .valueError) ∨
       ∃ key ∈ keys, ∃ pk, privateKeyToAddress X key = .ok i.address ∧ X.pubKey key = .ok pk ∧
         t'.inputs[k]? = some { i with publicKey := some pk }) := by
  obtain ⟨m, hm, hmem⟩ := keyMap_total L keys hg
  have hc : signChecks X keys none = .ok m := (signChecks_ok X).2 ⟨hm, by simp⟩
  rw [sign_eq, hc] at h
  simp only [Prod.mk.injEq] at h
  obtain ⟨rfl, h2⟩ := h
  obtain ⟨d, hd, _, _, h4, h5⟩ := signRest_err X t m none t.inputs 0 (signRest X t m none 0 t.inputs).1 e (by rw [← h2])
  refine ⟨d, t.inputs[d], List.getElem?_eq_getElem hd, h4, ?_⟩
  obtain ⟨o, ho, h6⟩ := h5 _ (List.getElem?_eq_getElem hd)
  rcases h6 with ⟨rfl, hp⟩ | ⟨rv, key, pk, hp, rfl⟩
  · refine .inl ?_
    unfold Tx.signPrepare at hp
    cases hkf : keyFor m t.inputs[d].address with
    | none =>
      refine ⟨fun key hk ha => ?_, ho, ?_⟩
      · obtain ⟨k', hk'⟩ := keyFor_of_mem (hmem key hk _ ha)
        rw [hk'] at hkf
        simp at hkf
      · rw [hkf] at hp
        simpa [randomFor, raise, eq_comm] using hp
    | some key =>
      obtain ⟨q1, q2, q3⟩ := keyMap_mem X keys m hm _ _ (keyFor_mem hkf)
      obtain ⟨pk, _, e1, _⟩ := goodKey_pub L (hg _ q1)
      rw [hkf] at hp
      simp [randomFor, e1] at hp
  · obtain ⟨_, h9, h10⟩ := (signPrepare_ok X).1 hp
    obtain ⟨q1, q2, q3⟩ := keyMap_mem X keys m hm _ _ (keyFor_mem h9)
    exact .inr ⟨key, q1, pk, q3, (key_valid X L q2 q3 h10).2.1, ho⟩

/-- **C81** for the command line: the one-shot task succeeds exactly when the request can be
fulfilled, all keys are valid and every selected input has its key. -/
theorem C81_one_shot (L : X.Laws) (ST : X.SignTotal) (a : CliArgs) (hA : AsciiAmounts (cliTxArgs a)) :
    (cliOneShot X a).2 = .ok () ↔ ∃ t a', createTransaction X (cliTxArgs a) = .ok (t, a') ∧
      (∀ k ∈ a.privateKeysHex, GoodKey X k) ∧ ∀ i ∈ t.inputs, ∃ k ∈ a.privateKeysHex, privateKeyToAddress X k = .ok i.address := by
  constructor
  · intro h
    obtain ⟨t, a', ts, s, t2, _, h1, h2, _⟩ := C59_prints X a (cliOneShot X a).1 (by rw [← h])
    obtain ⟨insO, outsO, ca, m, fee, ch, q, C⟩ := created_of L.sha_len h1
    exact ⟨t, a', h1, (C81_sign_iff L ST t (created_spec L.sha_len C) _).1 ⟨ts, h2⟩⟩
  · rintro ⟨t, a', h1, h2⟩
    obtain ⟨insO, outsO, ca, m, fee, ch, q, C⟩ := created_of L.sha_len h1
    obtain ⟨ts, h3⟩ := (C81_sign_iff L ST t (created_spec L.sha_len C) _).2 h2
    obtain ⟨s, _, h4⟩ := C59_succeeds L a h1 h3 hA
    rw [h4]

/-! ## C82: explicit random values -/

/-- **C82** violated: if one key unlocks several inputs (fewer keys than inputs), signing with
explicit random values is impossible: whatever the values, `sign` raises, because it asks for one
value per key and uses one per input. -/
theorem C82_violation (X : Ext) (t : Tx) (keys : List Str) (l : List Str) (hl : l ≠ []) (hk : keys.length < t.inputs.length) :
    ∃ e, (t.sign X keys (some l)).2 = .error e := by
  rw [sign_eq]
  cases hc : signChecks X keys (some l) with
  | error e => exact ⟨e, rfl⟩
  | ok m =>
    cases h2 : (signRest X t m (some l) 0 t.inputs).2 with
    | error e => exact ⟨e, rfl⟩
    | ok u =>
      exfalso
      have hlen := (((signChecks_ok X).1 hc).2 l rfl hl).2
      obtain ⟨hl1, hs⟩ := (signRest_ok X t m (some l) t.inputs 0 (signRest X t m (some l) 0 t.inputs).1).1 (by rw [← h2])
      have hj' : keys.length < (signRest X t m (some l) 0 t.inputs).1.length := by rw [hl1]; exact hk
      obtain ⟨rv, key, pk, ss, sl, n, h3, _⟩ := hs keys.length _ _ (List.getElem?_eq_getElem hk) (List.getElem?_eq_getElem hj')
      obtain ⟨h6, _, _⟩ := (signPrepare_ok X).1 h3
      obtain ⟨v, hv, _⟩ := (randomFor_some hl).1 h6
      have := (List.getElem?_eq_some_iff.1 hv).1
      omega

/-- **C82**, the part that holds: with as many different random values as keys, at least as many
keys as inputs, and values with which the library can sign, a created transaction is signed under
the same conditions as without random values. -/
theorem C82_random_values_partial (L : X.Laws) (t : Tx) (C : Spec.Created X t) (keys : List Str) (l : List Str) (hl : l ≠ [])
    (hn : l.Nodup) (hlen : l.length = keys.length) (hin : t.inputs.length ≤ keys.length)
    (hsign : ∀ k ∈ keys, ∀ v ∈ l, v ≠ [] ∧ ∀ d, isHexStr d = true → d.length = 64 → ∃ s, X.signRand k d v = .ok s) :
    (∃ t', t.sign X keys (some l) = (t', .ok ())) ↔
      (∀ k ∈ keys, GoodKey X k) ∧ ∀ i ∈ t.inputs, ∃ k ∈ keys, privateKeyToAddress X k = .ok i.address := by
  constructor
  · rintro ⟨t', h⟩
    constructor
    · rw [sign_eq] at h
      cases hc : signChecks X keys (some l) with
      | error e => rw [hc] at h; simp at h
      | ok m => exact keyMap_good L keys m ((signChecks_ok X).1 hc).1
    · intro i hi
      obtain ⟨j, hj⟩ := List.getElem?_of_mem hi
      obtain ⟨k, hk, ha, _⟩ := C38_right_key X L t t' C.frame.ht1 keys _ h j i hj
      exact ⟨k, hk, ha⟩
  · rintro ⟨hg, hk⟩
    obtain ⟨m, hm, hmem⟩ := keyMap_total L keys hg
    have hc : signChecks X keys (some l) = .ok m := (signChecks_ok X).2 ⟨hm, by
      intro l' hl' _; injection hl' with hl'; subst hl'; exact ⟨hn, hlen⟩⟩
    obtain ⟨ins, outs, hi, ho, _, _⟩ := created_raw X L.sha_len C
    have hstep : ∀ (j : Nat) (i : TxIn), t.inputs[j]? = some i → ∃ i', SignStep X t m (some l) j i i' := by
      intro j i hj
      have hlt := (List.getElem?_eq_some_iff.1 hj).1
      obtain ⟨k, hkk, ha⟩ := hk i (List.mem_of_getElem? hj)
      obtain ⟨k', hk'⟩ := keyFor_of_mem (hmem k hkk _ ha)
      obtain ⟨q1, _, _⟩ := keyMap_mem X keys m hm _ _ (keyFor_mem hk')
      have hgk := hg k' q1
      obtain ⟨pk, _, e1, e2, _⟩ := goodKey_pub L hgk
      have hmsg := signable_hex C.frame hi ho j
      have hdg : ∀ b : Bytes, vHexLength (hex (X.sha256 b)) 32 = .ok () := fun b =>
        vHexLength_ok.2 ⟨isHex_hex _, by simp [L.sha_len]⟩
      have hjl : j < l.length := by omega
      obtain ⟨hv, hsg⟩ := hsign k' q1 l[j] (List.getElem_mem hjl)
      obtain ⟨sig, hsig⟩ := hsg (hex (X.sha256 (X.sha256 (txBytes (keepOnly j ins) outs ++ [1, 0, 0, 0]))))
        (isHexStr_iff.2 (isHex_hex _)) (by simp [L.sha_len])
      have hcs : t.createSignature X j k' (some l[j]) = .ok sig := by
        unfold Tx.createSignature
        rw [if_neg (by omega)]
        simp only [hmsg, getDoubleSha256_hex, R_bind_ok, hdg, R_pure]
        cases hlj : l[j] with
        | nil => exact absurd hlj hv
        | cons c cs => rw [hlj] at hsig; exact hsig
      obtain ⟨ss, sl, n, hfin⟩ := signFinish_of X L C.frame.ht1 e2 hcs
      exact ⟨_, some l[j], k', pk, ss, sl, n, (signPrepare_ok X).2 ⟨(randomFor_some hl).2 ⟨_, List.getElem?_eq_getElem hjl, rfl⟩, hk', e1⟩, hfin, rfl⟩
    have key : ∀ (l' : List TxIn) (k : Nat), (∀ (j : Nat) (i : TxIn), l'[j]? = some i → ∃ i', SignStep X t m (some l) (k + j) i i') →
        ∃ l'', signRest X t m (some l) k l' = (l'', .ok ()) := by
      intro l'
      induction l' with
      | nil => intro k _; exact ⟨[], rfl⟩
      | cons i l' ih =>
        intro k h
        obtain ⟨i', rv, key, pk, ss, sl, n, h1, h2, h3⟩ := h 0 i rfl
        rw [Nat.add_zero] at h1 h2
        obtain ⟨l'', hl''⟩ := ih (k + 1) (fun j x hx => by
          obtain ⟨y, hy⟩ := h (j + 1) x hx
          exact ⟨y, by rw [show k + 1 + j = k + (j + 1) by omega]; exact hy⟩)
        refine ⟨signedAs i pk ss sl n :: l'', ?_⟩
        simp only [signRest, h1, h2, hl'']
    obtain ⟨l', hl'⟩ := key t.inputs 0 (by simpa using hstep)
    refine ⟨{ t with inputs := l' }, ?_⟩
    rw [sign_eq, hc]
    simp only [hl']

/-- two inputs of one address -/
def twoFromOne (X : Ext) : R (TxIn × TxIn × TxOut) := do
  let a1 ← privateKeyToAddress X (Concrete.hex32 1)
  let i1 ← TxIn.create X a1 (List.replicate 64 'a') 3 70000
  let i2 ← TxIn.create X a1 (List.replicate 64 'b') 0 30000
  let o1 ← TxOut.create X a1 50000
  pure (i1, i2, o1)

/-- **C82** violated on a transaction that can be signed without random values. -/
theorem C82_violation_occurs : ∃ (t t' : Tx) (keys : List Str), t.sign Concrete.Xtoy keys none = (t', .ok ()) ∧
    ∀ l, l ≠ [] → ∃ e, (t.sign Concrete.Xtoy keys (some l)).2 = .error e := by
  have h1 : (do let (i1, i2, o1) ← twoFromOne Concrete.Xtoy
                let t ← Tx.create [i1, i2] [o1]
                (t.sign Concrete.Xtoy [Concrete.hex32 1] none).2 : R Unit).isOk = true := by decide +kernel
  obtain ⟨u, hu⟩ := Concrete.isOk_exists h1
  simp only [R_bind_eq_ok] at hu
  obtain ⟨⟨i1, i2, o1⟩, _, t, ht, hs⟩ := hu
  have hl : t.inputs.length = 2 := by
    obtain ⟨_, _, rfl⟩ := Tx_create_ok.1 ht
    rfl
  exact ⟨t, _, _, Prod.ext rfl hs, fun l hl' => C82_violation _ t _ l hl' (by simp [hl])⟩

/-! ## The hypotheses are met -/

/-- the sample transaction and its keys meet both sides of C81 -/
example : ∃ t t', Spec.Created Concrete.Xtoy t ∧ t.inputs.length = 2 ∧ t.sign Concrete.Xtoy Concrete.keys12 none = (t', .ok ()) ∧
    ∀ k ∈ Concrete.keys12, GoodKey Concrete.Xtoy k := by
  obtain ⟨t, t', h1, h2⟩ := Concrete.sample_sign
  have hl : ((Concrete.sampleTx Concrete.Xtoy).bind fun t => assertR (t.inputs.length == 2)) = .ok () := by decide +kernel
  rw [h1] at hl
  have hl : assertR (t.inputs.length == 2) = .ok () := hl
  exact ⟨t, t', sample_created h1, by simpa using assertR_ok.1 hl, h2, ((C81_sign_iff Concrete.Xtoy_laws Concrete.Xtoy_signTotal t (sample_created h1) _).1 ⟨t', h2⟩).1⟩

/-- the request of the CLI witness meets C81_one_shot -/
example : (cliOneShot Concrete.Xtoy Concrete.cliFee).2 = .ok () ∧ AsciiAmounts (cliTxArgs Concrete.cliFee) := by
  obtain ⟨h, hh⟩ := Concrete.cliFee_run
  exact ⟨by rw [hh], Concrete.argsFee_ascii⟩

/-- **C39_failing_input**: both cases occur; the second one after somebody gave the transaction object a hash type that is
not hexadecimal -/
example : ((Concrete.sampleTx Concrete.Xtoy).bind fun t => let r := t.sign Concrete.Xtoy [Concrete.hex32 1] none
      assertR (decide (r.1.inputs.map TxIn.publicKey ≠ t.inputs.map TxIn.publicKey) && decide ((r.1.inputs[1]?.map TxIn.publicKey) = some none) && decide (r.2 = .error .valueError))) = .ok () ∧
    ((Concrete.sampleTx Concrete.Xtoy).bind fun t => let t := { t with hashType1 := py"z" }
      let r := t.sign Concrete.Xtoy Concrete.keys12 none
      assertR (decide (r.1.inputs.map TxIn.publicKey ≠ t.inputs.map TxIn.publicKey) && decide (r.1.inputs.map TxIn.scriptSig = [none, none]) && !r.2.isOk)) =
      .ok () := by
  decide +kernel

end BT
