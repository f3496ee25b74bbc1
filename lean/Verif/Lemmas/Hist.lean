import Verif.HistSpec
import Verif.Props.Sign
import Verif.Props.InOut
import Verif.Props.KeyOrder

/-! # Lemmas on histories -/

namespace BT.Hist
open Spec

variable {X : Ext}

theorem after_append (t : Tx) (a b : List Call) : after X t (a ++ b) = after X (after X t a) b := by
  induction a generalizing t with
  | nil => rfl
  | cons c a ih => exact ih _

/-- `o` is the public key of a private key that a call with `P` finds for the address of `i` -/
def KeyOf (X : Ext) (P : List Str → Option (List Str) → Prop) (address : Str) (o : Option Str) : Prop :=
  ∃ keys rvs m key pk, P keys rvs ∧ keyMap X keys = .ok m ∧ keyFor m address = some key ∧ privateKeyToPublicKey X key = .ok pk ∧ o = some pk

/-- the cases of a call of `sign` -/
theorem sign_cases (t : Tx) (keys : List Str) (rvs : Option (List Str)) :
    ((t.sign X keys rvs).2 = .ok () ∧ ∃ m, keyMap X keys = .ok m ∧ (t.sign X keys rvs).1.inputs.length = t.inputs.length ∧
      ∀ j i i', t.inputs[j]? = some i → (t.sign X keys rvs).1.inputs[j]? = some i' → SignStep X t m rvs j i i') ∨
    (∃ e, (t.sign X keys rvs).2 = .error e) ∧ ((t.sign X keys rvs).1 = t ∨ ∃ m d, keyMap X keys = .ok m ∧ d < t.inputs.length ∧
      (t.sign X keys rvs).1.inputs.length = t.inputs.length ∧
      (∀ j i i', j < d → t.inputs[j]? = some i → (t.sign X keys rvs).1.inputs[j]? = some i' → SignStep X t m rvs j i i') ∧
      (∀ j, d < j → (t.sign X keys rvs).1.inputs[j]? = t.inputs[j]?) ∧
      (∀ i, t.inputs[d]? = some i → ∃ o, (t.sign X keys rvs).1.inputs[d]? = some { i with publicKey := o } ∧
        (o = i.publicKey ∨ KeyOf X (fun k r => k = keys ∧ r = rvs) i.address o))) := by
  rw [sign_eq]
  cases hc : signChecks X keys rvs with
  | error e => exact .inr ⟨⟨e, rfl⟩, .inl rfl⟩
  | ok m =>
    have hm := ((signChecks_ok X).1 hc).1
    simp only
    cases hr : signRest X t m rvs 0 t.inputs with
    | mk l' r =>
      cases r with
      | ok u =>
        obtain ⟨h1, h2⟩ := (signRest_ok X t m rvs t.inputs 0 l').1 hr
        refine .inl ⟨rfl, m, hm, h1, fun j i i' hi hi' => ?_⟩
        have := h2 j i i' hi hi'
        rwa [Nat.zero_add] at this
      | error e =>
        obtain ⟨d, h1, h2, h3, h4, h5⟩ := signRest_err X t m rvs t.inputs 0 l' e hr
        refine .inr ⟨⟨e, rfl⟩, .inr ⟨m, d, hm, h1, h2, fun j i i' hj hi hi' => ?_, h4, fun i hi => ?_⟩⟩
        · have := h3 j i i' hj hi hi'
          rwa [Nat.zero_add] at this
        · obtain ⟨o, ho, h⟩ := h5 i hi
          refine ⟨o, ho, ?_⟩
          rcases h with ⟨h, _⟩ | ⟨rv, key, pk, h, rfl⟩
          · exact .inl h
          · obtain ⟨_, h6, h7⟩ := (signPrepare_ok X).1 h
            exact .inr ⟨keys, rvs, m, key, pk, ⟨rfl, rfl⟩, hm, h6, h7, rfl⟩

/-- input `i` carries a signature for input `j` of `t0` made by a call with `P` -/
def MadeBy (X : Ext) (t0 : Tx) (P : List Str → Option (List Str) → Prop) (j : Nat) (i : TxIn) : Prop :=
  ∃ i0 keys rvs m i1 i2, t0.inputs[j]? = some i0 ∧ P keys rvs ∧ keyMap X keys = .ok m ∧ unsignedPart i1 = unsignedPart i0 ∧
    SignStep X t0 m rvs j i1 i2 ∧ KeyOf X P i0.address i.publicKey ∧ i = { i2 with publicKey := i.publicKey }

/-- the state: the first `p` inputs are signed by calls with `P`, the others not -/
structure Inv (X : Ext) (t0 : Tx) (P : List Str → Option (List Str) → Prop) (p : Nat) (t : Tx) : Prop where
  same : unsignedTx t = unsignedTx t0
  le : p ≤ t0.inputs.length
  done : ∀ j i, t.inputs[j]? = some i → j < p → MadeBy X t0 P j i
  left : ∀ j i, t.inputs[j]? = some i → p ≤ j → i.scriptSig = none

theorem SignStep.congr {t t0 : Tx} (h : unsignedTx t = unsignedTx t0) {m : List (Str × Str)} {rvs : Option (List Str)} {j : Nat} {i i' : TxIn}
    (hs : SignStep X t m rvs j i i') : SignStep X t0 m rvs j i i' := by
  obtain ⟨rv, key, pk, ss, sl, n, h1, h2, h3⟩ := hs
  exact ⟨rv, key, pk, ss, sl, n, h1, by rw [← signFinish_congr X h]; exact h2, h3⟩

theorem same_part {t t0 : Tx} (h : unsignedTx t = unsignedTx t0) {j : Nat} {i : TxIn} (hi : t.inputs[j]? = some i) :
    ∃ i0, t0.inputs[j]? = some i0 ∧ unsignedPart i = unsignedPart i0 := by
  have h1 := congrArg (fun t : Tx => t.inputs[j]?) h
  simp only [unsignedTx, List.getElem?_map, hi, Option.map_some] at h1
  cases h2 : t0.inputs[j]? with
  | none => rw [h2] at h1; simp at h1
  | some i0 => rw [h2] at h1; exact ⟨i0, rfl, by simpa using h1⟩

theorem part_address {i i0 : TxIn} (h : unsignedPart i = unsignedPart i0) : i.address = i0.address := by
  have := congrArg TxIn.address h
  exact this

theorem part_prep {i i0 : TxIn} (h : unsignedPart i = unsignedPart i0) (m : List (Str × Str)) (rvs : Option (List Str)) (j : Nat) :
    Tx.signPrepare X m rvs j i = Tx.signPrepare X m rvs j i0 := by
  unfold Tx.signPrepare
  rw [part_address h]

theorem MadeBy.of_step {t0 : Tx} {P : List Str → Option (List Str) → Prop} {j : Nat} {i0 i1 i2 : TxIn} {keys : List Str} {rvs : Option (List Str)}
    {m : List (Str × Str)} (h0 : t0.inputs[j]? = some i0) (hp : P keys rvs) (hm : keyMap X keys = .ok m)
    (hu : unsignedPart i1 = unsignedPart i0) (hs : SignStep X t0 m rvs j i1 i2) : MadeBy X t0 P j i2 := by
  refine ⟨i0, keys, rvs, m, i1, i2, h0, hp, hm, hu, hs, ?_, rfl⟩
  obtain ⟨rv, key, pk, ss, sl, n, h1, h2, rfl⟩ := hs
  obtain ⟨_, h6, h7⟩ := (signPrepare_ok X).1 h1
  rw [part_address hu] at h6
  exact ⟨keys, rvs, m, key, pk, hp, hm, h6, h7, rfl⟩

theorem MadeBy.key {t0 : Tx} {P : List Str → Option (List Str) → Prop} {j : Nat} {i : TxIn} (h : MadeBy X t0 P j i) {o : Option Str}
    {i0 : TxIn} (h0 : t0.inputs[j]? = some i0) (ho : KeyOf X P i0.address o) : MadeBy X t0 P j { i with publicKey := o } := by
  obtain ⟨i0', keys, rvs, m, i1, i2, a1, a2, a3, a4, a5, a6, a7⟩ := h
  rw [h0] at a1; injection a1 with a1; subst a1
  exact ⟨i0, keys, rvs, m, i1, i2, h0, a2, a3, a4, a5, ho, by rw [a7]⟩

theorem KeyOf.mono {P Q : List Str → Option (List Str) → Prop} (h : ∀ k r, P k r → Q k r) {a : Str} {o : Option Str} (hk : KeyOf X P a o) :
    KeyOf X Q a o := by
  obtain ⟨keys, rvs, m, key, pk, h1, h2⟩ := hk
  exact ⟨keys, rvs, m, key, pk, h _ _ h1, h2⟩

/-- one call of `sign` keeps the invariant; afterwards all inputs are signed if it returned -/
theorem Inv.sign {t0 t : Tx} {P : List Str → Option (List Str) → Prop} {p : Nat} (I : Inv X t0 P p t) {keys : List Str} {rvs : Option (List Str)}
    (hP : P keys rvs) : ∃ q, Inv X t0 P q (t.sign X keys rvs).1 ∧ p ≤ q ∧
      ((t.sign X keys rvs).2 = .ok () → q = t0.inputs.length) ∧
      (q = t0.inputs.length → p = t0.inputs.length ∨ (t.sign X keys rvs).2 = .ok ()) := by
  have hu : unsignedTx (t.sign X keys rvs).1 = unsignedTx t0 := (C39_only_signatures X t keys rvs).trans I.same
  have hlen : t.inputs.length = t0.inputs.length := unsigned_length I.same
  rcases sign_cases (X := X) t keys rvs with ⟨hok, m, hm, hl, hs⟩ | ⟨⟨e, he⟩, ht | ⟨m, d, hm, hd, hl, h1, h2, h3⟩⟩
  · refine ⟨t0.inputs.length, ⟨hu, Nat.le_refl _, ?_, ?_⟩, I.le, fun _ => rfl, fun _ => .inr hok⟩
    · intro j i hi hj
      have hj' : j < t.inputs.length := by omega
      have hs := hs j _ i (List.getElem?_eq_getElem hj') hi
      obtain ⟨i0, e0, e1⟩ := same_part I.same (List.getElem?_eq_getElem hj')
      exact MadeBy.of_step e0 hP hm e1 (SignStep.congr I.same hs)
    · intro j i hi hj
      have := (List.getElem?_eq_some_iff.1 hi).1
      omega
  · rw [ht, he]
    exact ⟨p, I, Nat.le_refl _, (fun h => by simp at h), .inl⟩
  · refine ⟨max p d, ⟨hu, by have := I.le; omega, ?_, ?_⟩, Nat.le_max_left _ _, (fun h => by rw [he] at h; simp at h), fun h => .inl (by omega)⟩
    · intro j i hi hj
      have hjl := (List.getElem?_eq_some_iff.1 hi).1
      have hj' : j < t.inputs.length := by omega
      obtain ⟨i0, e0, e1⟩ := same_part I.same (List.getElem?_eq_getElem hj')
      rcases Nat.lt_trichotomy j d with h | h | h
      · exact MadeBy.of_step e0 hP hm e1 (SignStep.congr I.same (h1 j _ i h (List.getElem?_eq_getElem hj') hi))
      · subst h
        obtain ⟨o, ho, hk⟩ := h3 _ (List.getElem?_eq_getElem hj')
        rw [ho] at hi; injection hi with hi; subst hi
        have M := I.done j _ (List.getElem?_eq_getElem hj') (by omega)
        rcases hk with rfl | hk
        · exact M
        · refine M.key e0 ?_
          rw [← part_address e1]
          exact hk.mono fun k r h => by rw [h.1, h.2]; exact hP
      · rw [h2 j h] at hi
        exact I.done j i hi (by omega)
    · intro j i hi hj
      have hjl := (List.getElem?_eq_some_iff.1 hi).1
      have hj' : j < t.inputs.length := by omega
      rcases Nat.lt_trichotomy j d with h | h | h
      · omega
      · subst h
        obtain ⟨o, ho, _⟩ := h3 _ (List.getElem?_eq_getElem hj')
        rw [ho] at hi; injection hi with hi; subst hi
        exact (I.left j t.inputs[j] (List.getElem?_eq_getElem hj') (by omega) :)
      · rw [h2 j h] at hi
        exact I.left j i hi (by omega)

/-- all calls of the history that sign satisfy `P`, and there are no others -/
def AllSign (P : List Str → Option (List Str) → Prop) (cs : List Call) : Prop :=
  ∀ c ∈ cs, match c with
    | .sign keys rvs => P keys rvs
    | .setAmount _ _ => False

/-- some call of `sign` in the history returned -/
def SomeOk (X : Ext) (t : Tx) (cs : List Call) : Prop :=
  ∃ pre keys rvs post, cs = pre ++ .sign keys rvs :: post ∧ ((after X t pre).sign X keys rvs).2 = .ok ()

theorem someOk_cons {t : Tx} {c : Call} {cs : List Call} :
    SomeOk X t (c :: cs) ↔ (∃ keys rvs, c = .sign keys rvs ∧ (t.sign X keys rvs).2 = .ok ()) ∨ SomeOk X (c.run X t).1 cs := by
  constructor
  · rintro ⟨pre, keys, rvs, post, h, hok⟩
    cases pre with
    | nil =>
      simp only [List.nil_append, List.cons.injEq] at h
      exact .inl ⟨keys, rvs, h.1, hok⟩
    | cons x pre =>
      simp only [List.cons_append, List.cons.injEq] at h
      obtain ⟨rfl, rfl⟩ := h
      exact .inr ⟨pre, keys, rvs, post, rfl, hok⟩
  · rintro (⟨keys, rvs, rfl, h⟩ | ⟨pre, keys, rvs, post, rfl, h⟩)
    · exact ⟨[], keys, rvs, cs, rfl, h⟩
    · exact ⟨c :: pre, keys, rvs, post, rfl, h⟩

theorem Inv.after {t0 : Tx} {P : List Str → Option (List Str) → Prop} (cs : List Call) :
    ∀ {t : Tx} {p : Nat}, Inv X t0 P p t → AllSign P cs → ∃ q, Inv X t0 P q (after X t cs) ∧ p ≤ q ∧
      (SomeOk X t cs → q = t0.inputs.length) ∧ (q = t0.inputs.length → p = t0.inputs.length ∨ SomeOk X t cs) := by
  induction cs with
  | nil =>
    intro t p I _
    refine ⟨p, I, Nat.le_refl _, ?_, .inl⟩
    rintro ⟨pre, _, _, _, h, _⟩
    simp at h
  | cons c cs ih =>
    intro t p I hA
    have hc := hA c (List.mem_cons_self ..)
    cases c with
    | setAmount j n => exact hc.elim
    | sign keys rvs =>
      obtain ⟨q, I1, h1, h2, h3⟩ := I.sign (keys := keys) (rvs := rvs) hc
      obtain ⟨r, I2, k1, k2, k3⟩ := ih I1 fun c' hc' => hA c' (List.mem_cons_of_mem _ hc')
      refine ⟨r, I2, by omega, ?_, ?_⟩
      · rw [someOk_cons]
        rintro (⟨keys', rvs', he, hok⟩ | hok)
        · injection he with e1 e2; subst e1 e2
          have := h2 hok
          have := I2.le
          omega
        · exact k2 hok
      · intro hr
        rw [someOk_cons]
        rcases k3 hr with h | h
        · rcases h3 h with h | h
          · exact .inl h
          · exact .inr (.inl ⟨keys, rvs, rfl, h⟩)
        · exact .inr (.inr h)

/-- an input signed in this way verifies -/
theorem MadeBy.verifies (L : X.Laws) {t0 t : Tx} (hu : unsignedTx t = unsignedTx t0) (ht : t0.hashType1 = py"01")
    {P : List Str → Option (List Str) → Prop} {j : Nat} {i : TxIn} (h : MadeBy X t0 P j i) :
    i.signed = true ∧ t.verifyInput X j i = .ok true := by
  obtain ⟨i0, keys, rvs, m, i1, i2, a1, a2, a3, a4, ⟨rv, key, pk, ss, sl, n, h3, h4, rfl⟩, a6, a7⟩ := h
  obtain ⟨_, h6, h7⟩ := (signPrepare_ok X).1 h3
  obtain ⟨_, h8, h9⟩ := keyMap_mem X keys m a3 _ _ (keyFor_mem h6)
  obtain ⟨h10, h11, _⟩ := key_valid X L h8 h9 h7
  refine ⟨by rw [a7]; rfl, ?_⟩
  exact verify_step X L hu ht h4 h10 h11 (by rw [a7]; rfl)

/-- no input is signed -/
def Blank0 (t : Tx) : Prop := ∀ i ∈ t.inputs, i.scriptSig = none

theorem Inv.start {t : Tx} {P : List Str → Option (List Str) → Prop} (h : Blank0 t) : Inv X t P 0 t :=
  ⟨rfl, Nat.zero_le _, fun _ _ _ h => absurd h (Nat.not_lt_zero _), fun _ _ hi _ => h _ (List.mem_of_getElem? hi)⟩

theorem Inv.verify (L : X.Laws) {t0 t : Tx} {P : List Str → Option (List Str) → Prop} (I : Inv X t0 P t0.inputs.length t)
    (ht : t0.hashType1 = py"01") : t.signed = true ∧ t.verify X = .ok 0 := by
  have hlen : t.inputs.length = t0.inputs.length := unsigned_length I.same
  have key : ∀ j i, t.inputs[j]? = some i → i.signed = true ∧ t.verifyInput X j i = .ok true := by
    intro j i hi
    have := (List.getElem?_eq_some_iff.1 hi).1
    exact (I.done j i hi (by omega)).verifies L I.same ht
  constructor
  · simp only [Tx.signed, List.all_eq_true]
    intro i hi
    obtain ⟨j, hj⟩ := List.getElem?_of_mem hi
    exact (key j i hj).1
  · rw [Tx.verify, verifyLoop_ok]
    refine ⟨List.replicate t.inputs.length true, by simp, ?_, by rw [List.count_replicate]; rfl⟩
    intro j i hi b hb
    have : b = true := List.eq_of_mem_replicate (List.mem_of_getElem? hb)
    subst this
    rw [Nat.zero_add]
    exact (key j i hi).2

end BT.Hist
