import Verif.Lemmas.HistHex
import Verif.Concrete.SampleCreate

/-!
# C122 - C124: histories of calls on one transaction object
-/

namespace BT
open Spec Hist

/-! ## C122: any history of signing -/

theorem allSign_any {cs : List Call} (h : ∀ c ∈ cs, c.isSign) : AllSign (fun _ _ => True) cs := by
  intro c hc
  have := h c hc
  cases c with
  | sign k r => trivial
  | setAmount j n => exact this

/-- **C122**: whatever calls of `sign` were made on an unsigned transaction, with whatever keys and random values and
however many of them raised: nothing but signatures and public keys has changed, there is a number `p` such that exactly the
first `p` inputs are signed, and all their signatures are valid. -/
theorem C122_signing_history (X : Ext) (L : X.Laws) (t : Tx) (ht : t.hashType1 = py"01") (hb : ∀ i ∈ t.inputs, i.scriptSig = none)
    (cs : List Call) (hcs : ∀ c ∈ cs, c.isSign) :
    unsignedTx (after X t cs) = unsignedTx t ∧ ∃ p ≤ t.inputs.length, ∀ (j : Nat) (i : TxIn), (after X t cs).inputs[j]? = some i →
      (i.signed = true ↔ j < p) ∧ (i.signed = true → (after X t cs).verifyInput X j i = .ok true) := by
  obtain ⟨q, I, _, _, _⟩ := Inv.after cs (Inv.start hb) (allSign_any hcs)
  refine ⟨I.same, q, I.le, fun j i hi => ?_⟩
  have h1 : i.signed = true ↔ j < q := by
    constructor
    · intro h
      by_contra hj
      have := I.left j i hi (by omega)
      simp [TxIn.signed, this] at h
    · intro h
      exact ((I.done j i hi h).verifies L I.same ht).1
  exact ⟨h1, fun h => ((I.done j i hi (h1.1 h)).verifies L I.same ht).2⟩

/-- **C122**: after any such history the transaction counts as signed exactly if one of the calls returned. -/
theorem C122_signed_iff (X : Ext) (L : X.Laws) (t : Tx) (ht : t.hashType1 = py"01") (hb : ∀ i ∈ t.inputs, i.scriptSig = none)
    (hn : t.inputs ≠ []) (cs : List Call) (hcs : ∀ c ∈ cs, c.isSign) :
    (after X t cs).signed = true ↔
      ∃ pre keys random post, cs = pre ++ .sign keys random :: post ∧ ((after X t pre).sign X keys random).2 = .ok () := by
  obtain ⟨q, I, _, h1, h2⟩ := Inv.after cs (Inv.start hb) (allSign_any hcs)
  have hlen : (after X t cs).inputs.length = t.inputs.length := unsigned_length I.same
  have h0 : t.inputs.length ≠ 0 := by simpa using hn
  constructor
  · intro h
    have : q = t.inputs.length := by
      by_contra hq
      have hle := I.le
      have hj : q < (after X t cs).inputs.length := by omega
      have := I.left q _ (List.getElem?_eq_getElem hj) (Nat.le_refl _)
      simp only [Tx.signed, List.all_eq_true] at h
      have := h _ (List.getElem_mem hj)
      simp_all [TxIn.signed]
    rcases h2 this with h | h
    · omega
    · exact h
  · intro h
    have hq := h1 h
    rw [hq] at I
    exact (I.verify L ht).1

/-- **C122**: so the keys for all inputs must be given in one call; signatures are not collected over several calls. -/
theorem C122_one_call (X : Ext) (L : X.Laws) (t : Tx) (ht : t.hashType1 = py"01") (hb : ∀ i ∈ t.inputs, i.scriptSig = none)
    (hn : t.inputs ≠ []) (cs : List Call) (hcs : ∀ c ∈ cs, c.isSign) (h : (after X t cs).signed = true) :
    ∃ keys random, Call.sign keys random ∈ cs ∧ ∀ i ∈ t.inputs, ∃ k ∈ keys, privateKeyToAddress X k = .ok i.address := by
  obtain ⟨pre, keys, random, post, rfl, hok⟩ := (C122_signed_iff X L t ht hb hn cs hcs).1 h
  have hpre : ∀ c ∈ pre, c.isSign := fun c hc => hcs c (by simp [hc])
  obtain ⟨hu, _⟩ := C122_signing_history X L t ht hb pre hpre
  refine ⟨keys, random, by simp, fun i hi => ?_⟩
  obtain ⟨j, hj⟩ := List.getElem?_of_mem hi
  obtain ⟨i', h1, h2⟩ := same_part hu.symm hj
  rcases sign_cases (X := X) (after X t pre) keys random with ⟨_, m, hm, hl, hs⟩ | ⟨⟨e, he⟩, _⟩
  · have hjl := (List.getElem?_eq_some_iff.1 h1).1
    obtain ⟨rv, key, pk, ss, sl, n, h3, _⟩ := hs j i' _ h1 (List.getElem?_eq_getElem (by omega))
    obtain ⟨_, h4, _⟩ := (signPrepare_ok X).1 h3
    obtain ⟨h5, _, h6⟩ := keyMap_mem X keys m hm _ _ (keyFor_mem h4)
    exact ⟨key, h5, by rw [h6, part_address h2]⟩
  · rw [he] at hok; simp at hok

/-- **C122**: once a call returned, whatever other calls came before and after it, the object passes `verify`, and the hex
data made from it decodes to a transaction with the same outpoints, scripts, scriptSigs and outputs that passes `verify`
too. -/
theorem C122_broadcast (X : Ext) (L : X.Laws) (t : Tx) (C : Spec.Created X t) (hb : ∀ i ∈ t.inputs, i.scriptSig = none)
    (cs : List Call) (hcs : ∀ c ∈ cs, c.isSign)
    (h : ∃ pre keys random post, cs = pre ++ .sign keys random :: post ∧ ((after X t pre).sign X keys random).2 = .ok ()) :
    (after X t cs).verify X = .ok 0 ∧ ∃ s u, (after X t cs).toHexSigned = .ok s ∧ Tx.fromHexSigned X s = .ok u ∧ u.toHexSigned = .ok s ∧
      u.verify X = .ok 0 ∧ u.inputs.map dropKey = (after X t cs).inputs.map (fun i => dropKey (forgetAmount i)) ∧
      u.outputs = t.outputs := by
  obtain ⟨q, I, _, h1, _⟩ := Inv.after cs (Inv.start hb) (allSign_any hcs)
  rw [h1 h] at I
  refine ⟨(I.verify L C.frame.ht1).2, ?_⟩
  have := I.hex L (Made.of_created C)
  have houts : (after X t cs).outputs = t.outputs := by
    have := congrArg Tx.outputs I.same; simpa [unsignedTx] using this
  rwa [houts] at this

/-! ## C123: deterministic signing does not depend on the history -/

/-- every call of `sign` in the history is made with keys of `pool` and without random values -/
def Deterministic (pool : List Str) (cs : List Call) : Prop :=
  ∀ c ∈ cs, ∃ keys, c = .sign keys none ∧ ∀ k ∈ keys, k ∈ pool

theorem det_all {pool : List Str} {cs : List Call} (h : Deterministic pool cs) :
    AllSign (fun keys rvs => rvs = none ∧ ∀ k ∈ keys, k ∈ pool) cs := by
  intro c hc
  obtain ⟨keys, rfl, hk⟩ := h c hc
  exact ⟨rfl, hk⟩

theorem MadeBy_det {X : Ext} {t : Tx} {pool : List Str} (hc : NoCollision X pool) {j : Nat} {i i' : TxIn}
    (h : MadeBy X t (fun keys rvs => rvs = none ∧ ∀ k ∈ keys, k ∈ pool) j i)
    (h' : MadeBy X t (fun keys rvs => rvs = none ∧ ∀ k ∈ keys, k ∈ pool) j i') : i = i' := by
  have same : ∀ {keys keys' m m' a key key'}, (∀ k ∈ keys, k ∈ pool) → (∀ k ∈ keys', k ∈ pool) → keyMap X keys = .ok m →
      keyMap X keys' = .ok m' → keyFor m a = some key → keyFor m' a = some key' → key = key' := by
    intro keys keys' m m' a key key' p p' hm hm' hk hk'
    obtain ⟨x1, _, x2⟩ := keyMap_mem X keys m hm _ _ (keyFor_mem hk)
    obtain ⟨y1, _, y2⟩ := keyMap_mem X keys' m' hm' _ _ (keyFor_mem hk')
    exact hc _ (p _ x1) _ (p' _ y1) a x2 y2
  obtain ⟨i0, keys, rvs, m, i1, i2, a1, ⟨rfl, a2⟩, a3, a4, ⟨rv, key, pk, ss, sl, n, h3, h4, rfl⟩, a6, a7⟩ := h
  obtain ⟨i0', keys', rvs', m', i1', i2', b1, ⟨rfl, b2⟩, b3, b4, ⟨rv', key', pk', ss', sl', n', k3, k4, rfl⟩, b6, b7⟩ := h'
  rw [a1] at b1; injection b1 with b1; subst b1
  rw [part_prep a4] at h3
  rw [part_prep b4] at k3
  obtain ⟨c1, c2, c3⟩ := (signPrepare_ok X).1 h3
  obtain ⟨d1, d2, d3⟩ := (signPrepare_ok X).1 k3
  obtain rfl := same a2 b2 a3 b3 c2 d2
  rw [c1] at d1; injection d1 with d1; subst d1
  rw [c3] at d3; injection d3 with d3; subst d3
  rw [h4] at k4
  simp only [Except.ok.injEq, Prod.mk.injEq] at k4
  obtain ⟨rfl, rfl, rfl⟩ := k4
  have hpk : i.publicKey = i'.publicKey := by
    obtain ⟨ks, _, mm, ky, q, ⟨_, e1⟩, e2, e3, e4, e5⟩ := a6
    obtain ⟨ks', _, mm', ky', q', ⟨_, f1⟩, f2, f3, f4, f5⟩ := b6
    obtain rfl := same e1 f1 e2 f2 e3 f3
    rw [e4] at f4; injection f4 with f4; subst f4
    rw [e5, f5]
  rw [a7, b7, hpk]
  have e : ∀ (x : TxIn) (o : Option Str), ({ signedAs x pk ss sl n with publicKey := o } : TxIn) =
      { unsignedPart x with publicKey := o, scriptLen := some sl, scriptLenInt := .int n, scriptSig := some ss } := fun _ _ => rfl
  rw [e, e, a4, b4]

/-- **C123**: with deterministic signatures, and no two keys for one address, all histories in which some call returned lead
to the same object, equal to the one after the first successful call on the fresh transaction. -/
theorem C123_confluent (X : Ext) (t : Tx) (hb : ∀ i ∈ t.inputs, i.scriptSig = none) (pool : List Str) (hc : NoCollision X pool)
    (cs cs' : List Call) (hd : Deterministic pool cs) (hd' : Deterministic pool cs')
    (h : ∃ pre keys random post, cs = pre ++ .sign keys random :: post ∧ ((after X t pre).sign X keys random).2 = .ok ())
    (h' : ∃ pre keys random post, cs' = pre ++ .sign keys random :: post ∧ ((after X t pre).sign X keys random).2 = .ok ()) :
    after X t cs = after X t cs' := by
  obtain ⟨q, I, _, h1, _⟩ := Inv.after cs (Inv.start (X := X) hb) (det_all hd)
  obtain ⟨q', I', _, h1', _⟩ := Inv.after cs' (Inv.start (X := X) hb) (det_all hd')
  rw [h1 h] at I
  rw [h1' h'] at I'
  have hl := unsigned_length I.same
  have hl' := unsigned_length I'.same
  have hin : (after X t cs).inputs = (after X t cs').inputs := by
    apply List.ext_getElem (by omega)
    intro j j1 j2
    exact MadeBy_det hc (I.done j _ (List.getElem?_eq_getElem j1) (by omega)) (I'.done j _ (List.getElem?_eq_getElem j2) (by omega))
  have hs : unsignedTx (after X t cs) = unsignedTx (after X t cs') := I.same.trans I'.same.symm
  have e : ∀ a b : Tx, a.inputs = b.inputs → unsignedTx a = unsignedTx b → a = b := by
    intro a b h1 h2
    have : ({ unsignedTx a with inputs := a.inputs } : Tx) = { unsignedTx b with inputs := b.inputs } := by rw [h1, h2]
    exact this
  exact e _ _ hin hs

/-- **C123**: in particular an attempt that fails does not harm a signed transaction. -/
theorem C123_failure_harmless (X : Ext) (t t' : Tx) (hb : ∀ i ∈ t.inputs, i.scriptSig = none) (pool keys : List Str)
    (hc : NoCollision X pool) (hk : ∀ k ∈ keys, k ∈ pool) (h : t.sign X keys none = (t', .ok ()))
    (cs : List Call) (hd : Deterministic pool cs) : after X t' cs = t' := by
  have hd0 : Deterministic pool [.sign keys none] := by
    intro c hc
    simp only [List.mem_singleton] at hc
    exact ⟨keys, hc, hk⟩
  have := C123_confluent X t hb pool hc (.sign keys none :: cs) [.sign keys none]
    (by intro c hcm
        rcases List.mem_cons.1 hcm with rfl | hcm
        · exact ⟨keys, rfl, hk⟩
        · exact hd c hcm) hd0
    ⟨[], keys, none, cs, rfl, by simp [after, h]⟩ ⟨[], keys, none, [], rfl, by simp [after, h]⟩
  simpa [after, Call.run, h] using this

end BT
