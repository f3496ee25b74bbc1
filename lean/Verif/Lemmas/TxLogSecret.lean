import Verif.Props.TxLog
import Verif.Props.Json
import Verif.Props.Cli

/-!
# A run is determined by the signed transaction
-/

namespace BT
open Lg Spec

/-- two signings of a transaction with the same scriptSigs have the same result -/
theorem sign_same (X : Ext) (L : X.Laws) (t : Tx) (ht : t.hashType1 = py"01") {keys keys' : List Str} {rvs rvs' : Option (List Str)} {ts ts' : Tx}
    (h : t.sign X keys rvs = (ts, .ok ())) (h' : t.sign X keys' rvs' = (ts', .ok ()))
    (hs : ts.inputs.map TxIn.scriptSig = ts'.inputs.map TxIn.scriptSig) : ts = ts' := by
  have steps : ∀ {keys : List Str} {rvs : Option (List Str)} {ts : Tx}, t.sign X keys rvs = (ts, .ok ()) →
      ∃ l : List TxIn, ts = { t with inputs := l } ∧ l.length = t.inputs.length ∧ ∀ (j : Nat) (i i' : TxIn), t.inputs[j]? = some i → l[j]? = some i' →
        ∃ d p : Bytes, d.length ≤ 72 ∧ p.length = 64 ∧ i' = signedAs i (hex p) (hex (sigScript (d ++ [1]) p))
          (hex [UInt8.ofNat (sigScript (d ++ [1]) p).length]) (sigScript (d ++ [1]) p).length := by
    intro keys rvs ts h
    rw [BT.sign_eq] at h
    cases hc : signChecks X keys rvs with
    | error e => rw [hc] at h; simp at h
    | ok m =>
      rw [hc] at h
      simp only [Prod.mk.injEq] at h
      obtain ⟨rfl, h2⟩ := h
      obtain ⟨hl, hst⟩ := (signRest_ok X t m rvs t.inputs 0 (BT.signRest X t m rvs 0 t.inputs).1).1 (by rw [← h2])
      refine ⟨_, rfl, hl, fun j i i' hi hi' => ?_⟩
      obtain ⟨rv, key, pk, ss, sl, n, _, h4, rfl⟩ := hst j i i' hi hi'
      obtain ⟨sig, d, p, _, rfl, hp, hd, _, _, rfl, rfl, rfl⟩ := signFinish_ok X L ht h4
      exact ⟨d, p, hd, hp, rfl⟩
  obtain ⟨l, rfl, e1, e2⟩ := steps h
  obtain ⟨l', rfl, f1, f2⟩ := steps h'
  simp only at hs
  congr 1
  apply List.ext_getElem (by omega)
  intro j j1 j2
  have jn : j < t.inputs.length := by omega
  obtain ⟨d, p, hd, hp, a⟩ := e2 j _ _ (List.getElem?_eq_getElem jn) (List.getElem?_eq_getElem j1)
  obtain ⟨d', p', hd', hp', b⟩ := f2 j _ _ (List.getElem?_eq_getElem jn) (List.getElem?_eq_getElem j2)
  have hi := congrArg (fun l => l[j]?) hs
  simp only [List.getElem?_map] at hi
  rw [List.getElem?_eq_getElem j1, List.getElem?_eq_getElem j2, a, b] at hi
  simp only [Option.map_some, Option.some.injEq, signedAs] at hi
  have g1 := scriptSigDecode_sigScript X.uni hd hp
  have g2 := scriptSigDecode_sigScript X.uni hd' hp'
  rw [hi, g2] at g1
  simp only [Except.ok.injEq, Prod.mk.injEq, hex_inj_iff] at g1
  rw [a, b, g1.1, g1.2]

/-- signing with the same result is the same run -/
theorem signed_same (X : Ext) (L : X.Laws) (t : Tx) (ht : t.hashType1 = py"01") {keys keys' : List Str} {ts ts' : Tx}
    (h : t.sign X keys none = (ts, .ok ())) (h' : t.sign X keys' none = (ts', .ok ()))
    (hs : ts.inputs.map TxIn.scriptSig = ts'.inputs.map TxIn.scriptSig) : Lg.signed X t keys = Lg.signed X t keys' := by
  have e : ∀ {keys : List Str} {ts : Tx}, t.sign X keys none = (ts, .ok ()) → (Lg.sign X t keys none).1 = ts ∧ (Lg.sign X t keys none).2.outcome = .ok () := by
    intro keys ts h
    have := o_sign X t keys none
    rw [h] at this
    exact Prod.mk.inj this
  obtain ⟨a1, a2⟩ := e h
  obtain ⟨b1, b2⟩ := e h'
  have hev := C117_secret X L t ht keys keys' none none a2 b2 rfl (by rw [a1, b1]; exact hs)
  have hts := sign_same X L t ht h h' hs
  rw [outcome_ok] at a2 b2
  unfold Lg.signed
  simp only
  have : (Lg.sign X t keys none) = (Lg.sign X t keys' none) := by
    apply Prod.ext
    · rw [a1, b1, hts]
    · generalize (Lg.sign X t keys none).2 = w at *
      generalize (Lg.sign X t keys' none).2 = w' at *
      obtain ⟨ev, res⟩ := w
      obtain ⟨ev', res'⟩ := w'
      simp only at *
      rw [hev, a2, b2]
  rw [this]

theorem bind_congr {α β : Type} {m : W α} {f g : α → W β} (h : ∀ a, m.outcome = .ok a → f a = g a) : (m >>= f) = (m >>= g) := by
  rw [bind_def, bind_def, W.bind, W.bind]
  cases hr : m.res with
  | error e => rfl
  | ok a => simp only [h a (outcome_ok.2 hr)]

theorem fromJson_ht1 (X : Ext) {s : Str} {t : Tx} (h : Tx.fromJson X s = .ok t) : t.hashType1 = py"01" := by
  unfold Tx.fromJson at h
  simp only [R_bind_eq_ok] at h
  obtain ⟨x, _, h⟩ := h
  obtain ⟨_, _, _, _, _, _, _, _, _, _, _, _, _, _, _, _, _, _, h⟩ := (fromData_ok X).1 h
  obtain ⟨_, _, h⟩ := Tx_create_ok.1 h
  rw [h]

/-- the printed JSON text of a signed transaction determines its scriptSigs -/
theorem json_scripts (X : Ext) {ts ts' : Tx} {s : Str} (h : ts.toJson X = .ok s) (h' : ts'.toJson X = .ok s)
    (hi : ∀ i ∈ ts.inputs, i.scriptLenInt.jsonSafe = true ∧ i.spkLenInt.jsonSafe = true)
    (hi' : ∀ i ∈ ts'.inputs, i.scriptLenInt.jsonSafe = true ∧ i.spkLenInt.jsonSafe = true) :
    ts.inputs.map TxIn.scriptSig = ts'.inputs.map TxIn.scriptSig := by
  simp only [Tx.toJson, R_bind_eq_ok, R_pure, Except.ok.injEq] at h h'
  obtain ⟨x, hx, h⟩ := h
  obtain ⟨x', hx', h'⟩ := h'
  have e1 := X.json_round x (toDict_safe hx hi)
  have e2 := X.json_round x' (toDict_safe hx' hi')
  rw [h] at e1
  rw [h', e1] at e2
  simp only [Except.ok.injEq] at e2
  subst e2
  obtain ⟨_, _, _, _, _, _, _, _, _, _, _, _, _, _, d1⟩ := toDict_ok.1 hx
  obtain ⟨_, _, _, _, _, _, _, _, _, _, _, _, _, _, d2⟩ := toDict_ok.1 hx'
  rw [d1] at d2
  simp only [PVal.dict.injEq, List.cons.injEq, Prod.mk.injEq, PVal.list.injEq, true_and] at d2
  obtain ⟨_, _, hin, _⟩ := d2
  have f : ∀ (i i' : TxIn), i.toDict = i'.toDict → i.scriptSig = i'.scriptSig := by
    intro i i' hd
    unfold TxIn.toDict at hd
    simp only [PVal.dict.injEq, List.cons.injEq, Prod.mk.injEq, true_and] at hd
    obtain ⟨_, _, _, _, _, hss, _⟩ := hd
    cases ha : i.scriptSig <;> cases hb : i'.scriptSig <;> rw [ha, hb] at hss <;> simp_all [PVal.ofOptStr]
  generalize ts.inputs = l at hin ⊢
  generalize ts'.inputs = l' at hin ⊢
  induction l generalizing l' with
  | nil => cases l' <;> simp_all
  | cons a l ih =>
    cases l' with
    | nil => simp at hin
    | cons b l' =>
      simp only [List.map_cons, List.cons.injEq] at hin ⊢
      exact ⟨f _ _ hin.1, ih _ hin.2⟩

end BT
