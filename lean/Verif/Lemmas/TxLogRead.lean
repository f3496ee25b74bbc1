import Verif.Lemmas.TxLogRuns

/-!
# The log of reading hex data
-/

namespace BT.Lg
open Spec

theorem readInput_log (X : Ext) (x : Nat) (hb : List Str) (ev : List Ev) (p : TxIn × List Str) (h : Runs (parseInput X x hb) ev p) :
    ∃ der ss pk, p.1.scriptSig = some ss ∧ p.1.publicKey = some pk ∧ BT.scriptSigDecode X.uni ss = .ok (der, pk) ∧
      ev = readInputLog x der p.1 := by
  unfold parseInput at h
  simp only [rb_run, rb_deb] at h
  obtain ⟨e1, rfl, e2, rfl, e3, rfl, b, h1, e4, rfl, n, h2, e5, rfl, e6, rfl, h⟩ := h
  rw [runs_bind] at h
  obtain ⟨q, e7, e8, h3, h4, rfl⟩ := h
  simp only [rb_run, rb_deb, runs_guard, runs_pure] at h4
  obtain ⟨k1, h5, e9, rfl, k2, h6, e10, rfl, e11, rfl, h7, i, h8, rfl, rfl⟩ := h4
  have d3 := h3.ok
  rw [o_scriptSigDecode] at d3
  rw [decode_log _ _ _ _ h3, sized_eq h5, sized_eq h6]
  simp only [ne_eq, not_not] at h7
  rw [h7]
  unfold TxIn.createFromSigned at h8
  simp only [R_bind_eq_ok] at h8
  obtain ⟨_, _, _, _, _, _, _, _, _, _, sli, h9, ⟨spk, spkLen⟩, _, spkLenInt, _, a, _, ii, _, txid, _, h10⟩ := h8
  simp only [R_pure, Except.ok.injEq] at h10
  subst h10
  rw [h2] at h9
  injection h9 with h9
  subst h9
  exact ⟨q.1, _, q.2, rfl, rfl, d3, rfl⟩

theorem readOutput_log (X : Ext) (x : Nat) (hb : List Str) (ev : List Ev) (p : TxOut × List Str) (h : Runs (parseOutput X x hb) ev p) :
    ev = readOutputLog x p.1 := by
  unfold parseOutput at h
  simp only [rb_run, rb_deb, runs_pure] at h
  obtain ⟨e1, rfl, v, h1, b, h2, e2, rfl, c, h3, e3, rfl, n, h4, e4, rfl, e5, rfl, o, h5, rfl, rfl⟩ := h
  unfold TxOut.createFromSigned at h5
  simp only [R_bind_eq_ok] at h5
  obtain ⟨sli, h6, a, _, s, h7, b', h8, h9⟩ := h5
  simp only [R_pure, Except.ok.injEq] at h9
  subst h9
  rw [h1] at h7; injection h7 with h7; subst h7
  rw [h2] at h8; injection h8 with h8; subst h8
  rw [h4] at h6; injection h6 with h6; subst h6
  rfl

theorem readMany_log {α β : Type} (f : Nat → List Str → W (α × List Str)) (P : α → β → Prop) (g : Nat → β → α → List Ev)
    (hf : ∀ x hb ev p, Runs (f x hb) ev p → ∃ d, P p.1 d ∧ ev = g x d p.1) (n : Nat) :
    ∀ (x : Nat) (hb : List Str) (ev : List Ev) (p : List α × List Str), Runs (parseMany f n x hb) ev p →
      p.1.length = n ∧ ∃ ds : List β, ds.length = n ∧ (∀ (j : Nat) (a : α) (d : β), p.1[j]? = some a → ds[j]? = some d → P a d) ∧
        ev = ((ds.zip p.1).zipIdx x).flatMap fun q => g q.2 q.1.1 q.1.2 := by
  induction n with
  | zero =>
    intro x hb ev p h
    unfold parseMany at h
    rw [runs_pure] at h
    obtain ⟨rfl, rfl⟩ := h
    exact ⟨rfl, [], rfl, by simp, rfl⟩
  | succ n ih =>
    intro x hb ev p h
    unfold parseMany at h
    rw [runs_bind] at h
    obtain ⟨a, e1, e2, h1, h2, rfl⟩ := h
    rw [runs_bind] at h2
    obtain ⟨q, e3, e4, h3, h4, rfl⟩ := h2
    rw [runs_pure] at h4
    obtain ⟨rfl, rfl⟩ := h4
    obtain ⟨l1, ds, l2, hP, rfl⟩ := ih (x + 1) a.2 e3 q h3
    obtain ⟨d, hd, rfl⟩ := hf x hb e1 a h1
    refine ⟨by simp [l1], d :: ds, by simp [l2], ?_, ?_⟩
    · intro j a' d' ha hd'
      cases j with
      | zero =>
        simp only [List.getElem?_cons_zero, Option.some.injEq] at ha hd'
        subst ha hd'
        exact hd
      | succ j => exact hP j a' d' (by simpa using ha) (by simpa using hd')
    · rw [List.zip_cons_cons, List.zipIdx_cons, List.flatMap_cons, List.append_nil]

theorem varInt_back {u : UniDB} {s : Str} {n : Int} (h : varIntToInt u s = .ok n) : 0 ≤ n ∧ n ≤ 252 ∧ intToVarInt n = .ok s := by
  have h0 := h
  unfold varIntToInt at h
  simp only [R_bind_eq_ok] at h
  obtain ⟨_, h1, _⟩ := h
  obtain ⟨b, rfl, hb⟩ := vHexLength_bytes (n := 1) h1
  match b, hb with
  | [x], _ =>
    rw [varIntToInt_hex] at h0
    split at h0
    · rename_i hx
      injection h0 with h0
      subst h0
      refine ⟨by omega, by omega, ?_⟩
      rw [intToVarInt_nat hx]
      simp
    · simp at h0

theorem read_log (X : Ext) (s : Str) (ev : List Ev) (t : Tx) (h : Runs (fromHexSigned X s) ev t) :
    ∃ ders : List Str, ders.length = t.inputs.length ∧
      (∀ (j : Nat) (i : TxIn) (d : Str), t.inputs[j]? = some i → ders[j]? = some d → ∃ ss pk, i.scriptSig = some ss ∧
        i.publicKey = some pk ∧ BT.scriptSigDecode X.uni ss = .ok (d, pk)) ∧
      ev = readLog s ders t := by
  unfold fromHexSigned at h
  simp only [rb_run, rb_deb, rb_info, runs_guard] at h
  obtain ⟨e1, rfl, e2, rfl, k, hk, e3, rfl, hv, e4, rfl, b, hb, e5, rfl, n, hn, e6, rfl, h⟩ := h
  rw [runs_bind] at h
  obtain ⟨p, e7, e8, h1, h, rfl⟩ := h
  simp only [rb_run, rb_deb, rb_info, runs_guard] at h
  obtain ⟨b2, hb2, e9, rfl, n2, hn2, e10, rfl, h⟩ := h
  rw [runs_bind] at h
  obtain ⟨q, e11, e12, h2, h, rfl⟩ := h
  simp only [rb_run, rb_deb, rb_info, runs_guard, runs_pure] at h
  obtain ⟨e13, rfl, hl, t', ht, e14, rfl, rfl, rfl⟩ := h
  simp only [ne_eq, not_not] at hv hl
  obtain ⟨l1, ders, l2, hP, rfl⟩ := readMany_log (parseInput X)
    (fun i d => ∃ ss pk, i.scriptSig = some ss ∧ i.publicKey = some pk ∧ BT.scriptSigDecode X.uni ss = .ok (d, pk))
    (fun x d i => readInputLog x d i)
    (fun x hb ev p h => by
      obtain ⟨der, ss, pk, a, b, c, d⟩ := readInput_log X x hb ev p h
      exact ⟨der, ⟨ss, pk, a, b, c⟩, d⟩) _ _ _ _ _ h1
  obtain ⟨m1, us, m2, _, rfl⟩ := readMany_log (parseOutput X) (fun _ (_ : Unit) => True) (fun x _ o => readOutputLog x o)
    (fun x hb ev p h => ⟨(), trivial, readOutput_log X x hb ev p h⟩) _ _ _ _ _ h2
  obtain ⟨n0, _, hc⟩ := varInt_back hn
  obtain ⟨n20, _, hc2⟩ := varInt_back hn2
  have ev1 : n = (p.1.length : Int) := by rw [l1]; omega
  have ev2 : n2 = (q.1.length : Int) := by rw [m1]; omega
  unfold Tx.create at ht
  rw [← ev1, hc] at ht
  simp only [R_bind_ok] at ht
  rw [← ev2, hc2] at ht
  simp only [R_bind_ok, R_pure, Except.ok.injEq] at ht
  subst ht
  refine ⟨ders, by rw [l1, l2], hP, ?_⟩
  rw [hexLen_ok] at hk
  have hz : ((us.zip q.1).zipIdx 0).flatMap (fun r => readOutputLog r.2 r.1.2) = (q.1.zipIdx 0).flatMap fun r => readOutputLog r.2 r.1 := by
    have gen : ∀ (us : List Unit) (l : List TxOut) (x : Nat), us.length = l.length →
        ((us.zip l).zipIdx x).flatMap (fun r => readOutputLog r.2 r.1.2) = (l.zipIdx x).flatMap fun r => readOutputLog r.2 r.1 := by
      intro us
      induction us with
      | nil => intro l x hl; cases l <;> simp at hl ⊢
      | cons u us ih =>
        intro l x hl
        cases l with
        | nil => simp at hl
        | cons o l => simp only [List.zip_cons_cons, List.zipIdx_cons, List.flatMap_cons, ih l (x + 1) (by simpa using hl)]
    exact gen us q.1 0 (by rw [m1, m2])
  rw [hz]
  unfold readLog
  simp only [hk.2, hv, hl, ev1, ev2, List.append_assoc]
  rfl

end BT.Lg
