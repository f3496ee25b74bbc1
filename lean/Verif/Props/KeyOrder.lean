import Verif.Props.SignOk
import Verif.CliRun

/-!
# The order of the private keys does not matter (C84)
-/

namespace BT
open Spec

variable {X : Ext}

/-- No two different given keys belong to the same address (a collision of RIPEMD-160 after
SHA-256 would be needed). -/
def NoCollision (X : Ext) (keys : List Str) : Prop :=
  ∀ k ∈ keys, ∀ k' ∈ keys, ∀ a, privateKeyToAddress X k = .ok a → privateKeyToAddress X k' = .ok a → k = k'

theorem keyMap_iff : ∀ keys : List Str,
    (∃ m, keyMap X keys = .ok m) ↔ ∀ k ∈ keys, vHexLength k 32 = .ok () ∧ ∃ a, privateKeyToAddress X k = .ok a := by
  intro keys
  induction keys with
  | nil => simp [keyMap]
  | cons k ks ih =>
    constructor
    · rintro ⟨m, h⟩
      simp only [keyMap, R_bind_eq_ok] at h
      obtain ⟨_, h1, a, h2, m', h3, _⟩ := h
      intro x hx
      rcases List.mem_cons.1 hx with rfl | hx
      · exact ⟨h1, a, h2⟩
      · exact ih.1 ⟨m', h3⟩ x hx
    · intro h
      obtain ⟨m, hm⟩ := ih.2 fun x hx => h x (List.mem_cons_of_mem _ hx)
      obtain ⟨h1, a, h2⟩ := h k (List.mem_cons_self ..)
      exact ⟨(a, k) :: m, by simp [keyMap, h1, h2, hm]⟩

theorem keyMap_has : ∀ (keys : List Str) (m : List (Str × Str)), keyMap X keys = .ok m →
    ∀ k ∈ keys, ∀ a, privateKeyToAddress X k = .ok a → (a, k) ∈ m := by
  intro keys
  induction keys with
  | nil => intro m _ k hk; simp at hk
  | cons x xs ih =>
    intro m h k hk a ha
    simp only [keyMap, R_bind_eq_ok, R_pure, Except.ok.injEq] at h
    obtain ⟨_, h1, a', h2, m', h3, rfl⟩ := h
    rcases List.mem_cons.1 hk with rfl | hk
    · rw [h2] at ha; injection ha with ha; subst ha; exact List.mem_cons_self ..
    · exact List.mem_cons_of_mem _ (ih m' h3 k hk a ha)

theorem keyFor_same {keys keys' : List Str} (hs : ∀ k, k ∈ keys ↔ k ∈ keys') (hc : NoCollision X keys) {m m' : List (Str × Str)}
    (hm : keyMap X keys = .ok m) (hm' : keyMap X keys' = .ok m') (a : Str) : keyFor m a = keyFor m' a := by
  cases h : keyFor m a with
  | none =>
    cases h' : keyFor m' a with
    | none => rfl
    | some k' =>
      obtain ⟨q1, _, q3⟩ := keyMap_mem X keys' m' hm' a k' (keyFor_mem h')
      obtain ⟨k2, h2⟩ := keyFor_of_mem (keyMap_has keys m hm k' ((hs k').2 q1) a q3)
      rw [h2] at h; simp at h
  | some k =>
    obtain ⟨q1, _, q3⟩ := keyMap_mem X keys m hm a k (keyFor_mem h)
    obtain ⟨k2, h2⟩ := keyFor_of_mem (keyMap_has keys' m' hm' k ((hs k).1 q1) a q3)
    obtain ⟨r1, _, r3⟩ := keyMap_mem X keys' m' hm' a k2 (keyFor_mem h2)
    rw [h2, hc k q1 k2 ((hs k2).2 r1) a q3 r3]

theorem signRest_keys (t : Tx) {m m' : List (Str × Str)} (h : ∀ a, keyFor m a = keyFor m' a) (rvs : Option (List Str)) :
    ∀ (l : List TxIn) (k : Nat), signRest X t m rvs k l = signRest X t m' rvs k l := by
  intro l
  induction l with
  | nil => intro k; rfl
  | cons i l ih =>
    intro k
    simp only [signRest, Tx.signPrepare, h, ih]

/-- **C84**: signing with the same keys in another order, or with some of them repeated (when no random
values are given), has the same effect: either the same result on the same transaction object, or both
calls fail and leave the transaction unchanged. -/
theorem C84_key_order (X : Ext) (t : Tx) (keys keys' : List Str) (rvs : Option (List Str)) (hs : ∀ k, k ∈ keys ↔ k ∈ keys')
    (hl : rvs = none ∨ keys.length = keys'.length) (hc : NoCollision X keys) :
    t.sign X keys rvs = t.sign X keys' rvs ∨
      ∃ e e', t.sign X keys rvs = (t, .error e) ∧ t.sign X keys' rvs = (t, .error e') := by
  rw [sign_eq, sign_eq]
  have hlen : ∀ l, rvs = some l → keys.length = keys'.length := by
    intro l h; rcases hl with hl | hl
    · rw [hl] at h; simp at h
    · exact hl
  cases h1 : signChecks X keys rvs with
  | ok m =>
    obtain ⟨a1, a2⟩ := (signChecks_ok X).1 h1
    obtain ⟨m', hm'⟩ := (keyMap_iff (X := X) keys').2 fun k hk => (keyMap_iff keys).1 ⟨m, a1⟩ k ((hs k).2 hk)
    have h2 : signChecks X keys' rvs = .ok m' := (signChecks_ok X).2 ⟨hm', fun l e hne => by rw [← hlen l e]; exact a2 l e hne⟩
    left
    simp only [h2, signRest_keys t (keyFor_same hs hc a1 hm')]
  | error e =>
    cases h2 : signChecks X keys' rvs with
    | error e' => exact .inr ⟨e, e', rfl, rfl⟩
    | ok m' =>
      exfalso
      obtain ⟨a1, a2⟩ := (signChecks_ok X).1 h2
      obtain ⟨m, hm⟩ := (keyMap_iff (X := X) keys).2 fun k hk => (keyMap_iff keys').1 ⟨m', a1⟩ k ((hs k).1 hk)
      have : signChecks X keys rvs = .ok m := (signChecks_ok X).2 ⟨hm, fun l e hne => by rw [hlen l e]; exact a2 l e hne⟩
      rw [this] at h1; simp at h1

end BT
