import Verif.Props.CliRun

/-!
# Spare keys have no influence on signing (C134)
-/

namespace BT
open Spec

variable {X : Ext}

/-- `k` is a private key (32 bytes of hex in the valid range) that belongs to no input of `t`. -/
def SpareKey (X : Ext) (t : Tx) (k : Str) : Prop :=
  vHexLength k 32 = .ok () ∧ ∃ a, privateKeyToAddress X k = .ok a ∧ ∀ i ∈ t.inputs, i.address ≠ a

namespace Spare

theorem signRest_local (t : Tx) {m m' : List (Str × Str)} (rvs : Option (List Str)) :
    ∀ (l : List TxIn) (k : Nat), (∀ i ∈ l, keyFor m i.address = keyFor m' i.address) → signRest X t m rvs k l = signRest X t m' rvs k l := by
  intro l
  induction l with
  | nil => intro k _; rfl
  | cons i l ih =>
    intro k h
    simp only [signRest, Tx.signPrepare, h i (List.mem_cons_self ..), ih _ fun j hj => h j (List.mem_cons_of_mem _ hj)]

/-- looking up an address for which a key is in the smaller list -/
theorem keyFor_sub {keys keys' : List Str} (hs : ∀ k ∈ keys, k ∈ keys') (hc : NoCollision X keys') {m m' : List (Str × Str)}
    (hm : keyMap X keys = .ok m) (hm' : keyMap X keys' = .ok m') {a k : Str} (h : keyFor m a = some k) : keyFor m' a = some k := by
  obtain ⟨q1, _, q3⟩ := keyMap_mem X keys m hm a k (keyFor_mem h)
  obtain ⟨k2, h2⟩ := keyFor_of_mem (keyMap_has keys' m' hm' k (hs k q1) a q3)
  obtain ⟨r1, _, r3⟩ := keyMap_mem X keys' m' hm' a k2 (keyFor_mem h2)
  rw [h2, hc k (hs k q1) k2 r1 a q3 r3]

end Spare

/-- **C134**: additional private keys that belong to no input do not change what `sign` does: the same result on the same object, or both calls fail and leave it unchanged. -/
theorem C134_spare_keys (X : Ext) (t : Tx) (keys keys' : List Str) (hs : ∀ k ∈ keys, k ∈ keys') (hsp : ∀ k ∈ keys', k ∈ keys ∨ SpareKey X t k)
    (hc : NoCollision X keys') :
    t.sign X keys none = t.sign X keys' none ∨ ∃ e e', t.sign X keys none = (t, .error e) ∧ t.sign X keys' none = (t, .error e') := by
  rw [sign_eq, sign_eq]
  cases h1 : signChecks X keys none with
  | ok m =>
    obtain ⟨a1, _⟩ := (signChecks_ok X).1 h1
    obtain ⟨m', hm'⟩ := (keyMap_iff (X := X) keys').2 fun k hk => by
      rcases hsp k hk with h | ⟨h, a, ha, _⟩
      · exact (keyMap_iff keys).1 ⟨m, a1⟩ k h
      · exact ⟨h, a, ha⟩
    have h2 : signChecks X keys' none = .ok m' := (signChecks_ok X).2 ⟨hm', fun l e => by simp at e⟩
    left
    have hk : ∀ i ∈ t.inputs, keyFor m i.address = keyFor m' i.address := by
      intro i hi
      cases h : keyFor m i.address with
      | some k => exact (Spare.keyFor_sub hs hc a1 hm' h).symm
      | none =>
        cases h' : keyFor m' i.address with
        | none => rfl
        | some k' =>
          obtain ⟨q1, _, q3⟩ := keyMap_mem X keys' m' hm' _ k' (keyFor_mem h')
          rcases hsp k' q1 with hk | ⟨_, a, ha, hn⟩
          · obtain ⟨k2, h2⟩ := keyFor_of_mem (keyMap_has keys m a1 k' hk _ q3)
            rw [h2] at h; simp at h
          · rw [q3] at ha; injection ha with ha
            exact absurd ha (hn i hi)
    simp only [h2, Spare.signRest_local t none t.inputs 0 hk]
  | error e =>
    cases h2 : signChecks X keys' none with
    | error e' => exact .inr ⟨e, e', rfl, rfl⟩
    | ok m' =>
      exfalso
      obtain ⟨a1, _⟩ := (signChecks_ok X).1 h2
      obtain ⟨m, hm⟩ := (keyMap_iff (X := X) keys).2 fun k hk => (keyMap_iff keys').1 ⟨m', a1⟩ k (hs k hk)
      have : signChecks X keys none = .ok m := (signChecks_ok X).2 ⟨hm, fun l e => by simp at e⟩
      rw [this] at h1; simp at h1

/-- The random values `rvs'` extend `rvs`: both absent, or more values at the end, all different and one for each of the `n` keys. -/
def MoreValues (n : Nat) (rvs rvs' : Option (List Str)) : Prop :=
  (rvs = none ∧ rvs' = none) ∨ ∃ l l', rvs = some l ∧ l ≠ [] ∧ rvs' = some (l ++ l') ∧ (l ++ l').Nodup ∧ (l ++ l').length = n

/-- **C134**: a call of `sign` that succeeds also succeeds, with the same result, when it is given more valid keys (and, when explicit random values are used, a
further value for each further key). -/
theorem C134_more_keys (X : Ext) (t t' : Tx) (keys keys' : List Str) (rvs rvs' : Option (List Str)) (h : t.sign X keys rvs = (t', .ok ())) (hs : ∀ k ∈ keys, k ∈ keys')
    (hv : ∀ k ∈ keys', k ∈ keys ∨ vHexLength k 32 = .ok () ∧ ∃ a, privateKeyToAddress X k = .ok a) (hc : NoCollision X keys')
    (hr : MoreValues keys'.length rvs rvs') : t.sign X keys' rvs' = (t', .ok ()) := by
  rw [sign_eq] at h ⊢
  cases h1 : signChecks X keys rvs with
  | error e => rw [h1] at h; simp at h
  | ok m =>
    obtain ⟨a1, _⟩ := (signChecks_ok X).1 h1
    obtain ⟨m', hm'⟩ := (keyMap_iff (X := X) keys').2 fun k hk => by
      rcases hv k hk with h | h
      · exact (keyMap_iff keys).1 ⟨m, a1⟩ k h
      · exact h
    have h2 : signChecks X keys' rvs' = .ok m' := by
      refine (signChecks_ok X).2 ⟨hm', fun l e _ => ?_⟩
      rcases hr with ⟨_, hr⟩ | ⟨l1, l2, _, _, hr, hn, hl⟩
      · rw [hr] at e; simp at e
      · rw [hr] at e; injection e with e; subst e; exact ⟨hn, hl⟩
    have hrv : ∀ k v, randomFor rvs k = .ok v → randomFor rvs' k = .ok v := by
      intro k v hk
      rcases hr with ⟨e, e'⟩ | ⟨l1, l2, e, hne, e', _⟩
      · rw [e'] ; rw [e] at hk; exact hk
      · rw [e'] ; rw [e] at hk
        cases l1 with
        | nil => exact absurd rfl hne
        | cons x l1 =>
          simp only [randomFor, List.cons_append] at hk ⊢
          cases hg : (x :: l1)[k]? with
          | none => rw [hg] at hk; simp at hk
          | some w =>
            rw [hg] at hk
            have : (x :: (l1 ++ l2))[k]? = some w := by
              rw [← List.cons_append, List.getElem?_append_left (List.getElem?_eq_some_iff.1 hg).1]; exact hg
            rw [this]; exact hk
    rw [h1] at h
    simp only [h2] at h ⊢
    simp only [Prod.mk.injEq] at h
    obtain ⟨e1, e2⟩ := h
    have hk := (signRest_ok X t m rvs t.inputs 0 _).1 (Prod.ext rfl e2)
    have hk' := (signRest_ok X t m' rvs' t.inputs 0 (signRest X t m rvs 0 t.inputs).1).2 ⟨hk.1, fun j i i' hj hj' => by
      obtain ⟨rv, key, pk, ss, sl, n, q1, q2, q3⟩ := hk.2 j i i' hj hj'
      refine ⟨rv, key, pk, ss, sl, n, ?_, q2, q3⟩
      simp only [Tx.signPrepare, R_bind_eq_ok] at q1 ⊢
      obtain ⟨rv', q1, q4⟩ := q1
      refine ⟨rv', hrv _ _ q1, ?_⟩
      cases hf : keyFor m i.address with
      | none => rw [hf] at q4; simp [raise] at q4
      | some k0 =>
        rw [hf] at q4
        rw [Spare.keyFor_sub hs hc a1 hm' hf]
        exact q4⟩
    rw [hk']
    exact Prod.ext e1 rfl

namespace Spare

/-- a run that ends normally passes each of its steps -/
theorem bindOut_done {α : Type} {r : R α} {k : α → CliOut} {l : List Str} (h : bindOut r k = (l, .ok ())) : ∃ a, r = .ok a ∧ k a = (l, .ok ()) := by
  cases r with
  | ok a => exact ⟨a, rfl, h⟩
  | error e => simp [bindOut] at h

theorem more_task (sh : Shell) (a : CliArgs) (keys' : List Str) (hn : a.task ∉ tasksSingleKey)
    (hsign : ∀ t t' : Tx, t.sign X a.privateKeysHex none = (t', .ok ()) → t.sign X keys' none = (t', .ok ())) {l : List Str}
    (h : cliTask X sh a = (l, .ok ())) : cliTask X sh { a with privateKeysHex := keys' } = (l, .ok ()) := by
  have hJ : ∀ {l}, cliSignJson X a = (l, .ok ()) → cliSignJson X { a with privateKeysHex := keys' } = (l, .ok ()) := by
    intro l h
    unfold cliSignJson at h ⊢
    obtain ⟨js, h1, h⟩ := bindOut_done h
    obtain ⟨t, h2, h⟩ := bindOut_done h
    simp only [h1, h2, bindOut_ok]
    obtain ⟨u, h3, h4⟩ := bindOut_done h
    have := hsign t (t.sign X a.privateKeysHex none).1 (Prod.ext rfl h3)
    rw [this]
    exact h4
  have hO : ∀ {l}, cliOneShot X a = (l, .ok ()) → cliOneShot X { a with privateKeysHex := keys' } = (l, .ok ()) := by
    intro l h
    unfold cliOneShot at h ⊢
    obtain ⟨r, h1, h⟩ := bindOut_done h
    obtain ⟨js, h2, h⟩ := bindOut_done h
    obtain ⟨t2, h5, h⟩ := bindOut_done h
    have h1' : createTransaction X (cliTxArgs { a with privateKeysHex := keys' }) = .ok r := h1
    simp only [h1', h2, h5, bindOut_ok]
    obtain ⟨u, h3, h4⟩ := bindOut_done h
    have := hsign r.1 (r.1.sign X a.privateKeysHex none).1 (Prod.ext rfl h3)
    rw [this]
    exact h4
  simp only [tasksSingleKey, List.mem_cons, List.not_mem_nil, or_false, not_or] at hn
  obtain ⟨n1, n2, n3, n4⟩ := hn
  unfold cliTask at h ⊢
  by_cases hv : a.task = py"get_python_version"
  · rw [if_pos hv] at h; rw [if_pos hv]; exact h
  · rw [if_neg hv] at h; rw [if_neg hv]
    unfold cliDispatch at h ⊢
    simp only [n1, n2, n3, n4, if_false] at h ⊢
    by_cases c1 : a.task = py"hello" ∨ a.task = py"hello2"
    · rw [if_pos c1] at h ⊢; exact h
    rw [if_neg c1] at h ⊢
    by_cases c2 : a.task = py"private_key_wif_to_hex"
    · rw [if_pos c2] at h ⊢; exact h
    rw [if_neg c2] at h ⊢
    by_cases c3 : a.task = py"verify_data_signature"
    · rw [if_pos c3] at h ⊢; exact h
    rw [if_neg c3] at h ⊢
    by_cases c4 : a.task = py"create_unsigned_transaction_json"
    · rw [if_pos c4] at h ⊢; exact h
    rw [if_neg c4] at h ⊢
    by_cases c5 : a.task = py"validate_unsigned_transaction_json"
    · rw [if_pos c5] at h ⊢; exact h
    rw [if_neg c5] at h ⊢
    by_cases c6 : a.task = py"create_signed_transaction_json"
    · rw [if_pos c6] at h ⊢; exact hJ h
    rw [if_neg c6] at h ⊢
    by_cases c7 : a.task = py"verify_signed_transaction_json"
    · rw [if_pos c7] at h ⊢; exact h
    rw [if_neg c7] at h ⊢
    by_cases c8 : a.task = py"create_signed_transaction_hex"
    · rw [if_pos c8] at h ⊢
      unfold cliSignedHex at h
      obtain ⟨js, _, h⟩ := bindOut_done h
      obtain ⟨t, _, h⟩ := bindOut_done h
      obtain ⟨_, _, h⟩ := bindOut_done h
      obtain ⟨_, _, h⟩ := bindOut_done h
      simp [printThen] at h
    rw [if_neg c8] at h ⊢
    by_cases c9 : a.task = py"verify_signed_transaction_hex"
    · rw [if_pos c9] at h ⊢; exact h
    rw [if_neg c9] at h ⊢
    by_cases c10 : a.task = py"decode_signed_transaction_hex"
    · rw [if_pos c10] at h ⊢; exact h
    rw [if_neg c10] at h ⊢
    by_cases c11 : a.task = py"create_sign_and_verify_transaction_hex"
    · rw [if_pos c11] at h ⊢; exact hO h
    rw [if_neg c11] at h ⊢
    by_cases c12 : a.task = py"create_transaction"
    · rw [if_pos c12] at h ⊢; exact hO h
    rw [if_neg c12] at h ⊢
    exact h

end Spare

/-- **C134**: on the command line: a run of a task with any number of keys that ends normally prints the same, and ends normally, when further valid keys are added to it. -/
theorem C134_cli (X : Ext) (fs : FS) (sh : Shell) (setup : R Unit) (r : RawArgs) (keys more : List Str) (l : List Str) (h : cliRun X fs sh setup r = (l, .ok ()))
    (hn : r.task ∉ tasksSingleKey) (hk : loadKeys X fs r = .ok keys) (hv : ∀ k ∈ more, vHexLength k 32 = .ok () ∧ ∃ a, privateKeyToAddress X k = .ok a)
    (hc : NoCollision X (keys ++ more)) : cliRun X fs sh setup { r with privateKeyHex := r.privateKeyHex ++ [more] } = (l, .ok ()) := by
  obtain ⟨keys', hk', hmem⟩ : ∃ keys', loadKeys X fs { r with privateKeyHex := r.privateKeyHex ++ [more] } = .ok keys' ∧ ∀ k, k ∈ keys' ↔ k ∈ keys ++ more := by
    simp only [loadKeys, R_bind_eq_ok, R_pure, Except.ok.injEq] at hk ⊢
    obtain ⟨k2, h2, files, hf, k3, h3, rfl⟩ := hk
    refine ⟨_, ⟨k2, h2, files, hf, k3, h3, rfl⟩, fun k => ?_⟩
    simp only [List.flatten_append, List.flatten_cons, List.flatten_nil, List.append_nil, List.mem_append]
    tauto
  unfold cliRun at h ⊢
  obtain ⟨a, ha, h⟩ := Spare.bindOut_done h
  obtain ⟨⟨⟩, hset, h⟩ := Spare.bindOut_done h
  simp only [cliLoad, R_bind_eq_ok, R_pure, Except.ok.injEq] at ha
  obtain ⟨data, e1, keys0, e2, _, e3, files, e4, rfl⟩ := ha
  rw [hk] at e2; injection e2 with e2; subst e2
  have hck : checkRaw r.task keys' data = .ok () := by
    unfold checkRaw at e3 ⊢
    rw [if_neg hn] at e3 ⊢
    exact e3
  have hload : cliLoad X fs { r with privateKeyHex := r.privateKeyHex ++ [more] } = .ok
      { task := r.task, data := data, privateKeysHex := keys', privateKeyWif := r.privateKeyWif, publicKeyHex := r.publicKeyHex, signatureHex := r.signatureHex, inputs := files.1, design := files.2 } := by
    have e1' : loadData fs { r with privateKeyHex := r.privateKeyHex ++ [more] } = .ok data := e1
    have e4' : loadFiles X fs { r with privateKeyHex := r.privateKeyHex ++ [more] } = .ok files := e4
    simp [cliLoad, e1', hk', hck, e4']
  rw [hload, bindOut_ok, hset, bindOut_ok]
  refine Spare.more_task sh _ keys' hn (fun t t' ht => ?_) h
  refine C134_more_keys X t t' keys keys' none none ht (fun k hk => (hmem k).2 (List.mem_append_left _ hk)) (fun k hk => ?_) (fun k hk k' hk' => ?_) (.inl ⟨rfl, rfl⟩)
  · rcases List.mem_append.1 ((hmem k).1 hk) with h | h
    exacts [.inl h, .inr (hv k h)]
  · exact hc k ((hmem k).1 hk) k' ((hmem k').1 hk')

end BT
