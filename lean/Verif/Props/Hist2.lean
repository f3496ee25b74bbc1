import Verif.Props.Hist

/-! # C124: changing amounts and signing, in any order -/

namespace BT.Hist
open Spec

variable {X : Ext}

/-- after a call of `sign` that returned, whatever was signed before -/
theorem Inv.of_ok {t : Tx} {P : List Str → Option (List Str) → Prop} {keys : List Str} {rvs : Option (List Str)} (hP : P keys rvs)
    (h : (t.sign X keys rvs).2 = .ok ()) : Inv X t P t.inputs.length (t.sign X keys rvs).1 := by
  rcases sign_cases (X := X) t keys rvs with ⟨_, m, hm, hl, hs⟩ | ⟨⟨e, he⟩, _⟩
  · refine ⟨C39_only_signatures X t keys rvs, Nat.le_refl _, ?_, ?_⟩
    · intro j i hi hj
      exact MadeBy.of_step (List.getElem?_eq_getElem hj) hP hm rfl (hs j _ i (List.getElem?_eq_getElem hj) hi)
    · intro j i hi hj
      have := (List.getElem?_eq_some_iff.1 hi).1
      omega
  · rw [he] at h; simp at h

theorem Signs.inv {t : Tx} {cs : List Call} (h : Signs X t cs) :
    ∃ pre post, cs = pre ++ post ∧ (∀ c ∈ post, c.isSign) ∧
      Inv X (after X t pre) (fun _ _ => True) (after X t pre).inputs.length (after X t cs) := by
  obtain ⟨pre, keys, random, post, rfl, hp, hok⟩ := h
  refine ⟨pre, .sign keys random :: post, rfl, ?_, ?_⟩
  · intro c hc
    rcases List.mem_cons.1 hc with rfl | hc
    · trivial
    · exact hp c hc
  · rw [after_append]
    obtain ⟨q, I, h1, _, _⟩ := Inv.after post (Inv.of_ok (X := X) (P := fun _ _ => True) trivial hok) (allSign_any hp)
    have : q = (after X t pre).inputs.length := by have := I.le; omega
    rw [this] at I
    exact I

theorem run_ht1 (t : Tx) (c : Call) : (c.run X t).1.hashType1 = t.hashType1 := by
  cases c with
  | sign keys rvs => exact unsigned_ht1 (C39_only_signatures X t keys rvs)
  | setAmount j n =>
    simp only [Call.run]
    split <;> rfl

theorem after_ht1 (t : Tx) (cs : List Call) : (after X t cs).hashType1 = t.hashType1 := by
  induction cs generalizing t with
  | nil => rfl
  | cons c cs ih => exact (ih _).trans (run_ht1 t c)

/-- signing does not touch the outputs -/
theorem sign_outputs (t : Tx) (keys : List Str) (rvs : Option (List Str)) : (t.sign X keys rvs).1.outputs = t.outputs := by
  have := congrArg Tx.outputs (C39_only_signatures X t keys rvs)
  simpa [unsignedTx] using this

/-- what an accepted or a harmlessly refused amount does to a created output -/
theorem setSatoshi_created (L : X.Laws) {o : TxOut} (h : ∃ a sat, TxOut.create X a sat = .ok o) (n : Int) (hn : n ≤ maxMoney ∨ 2 ^ 64 ≤ n) :
    (∃ a sat, TxOut.create X a sat = .ok (o.setSatoshi X.uni n).1) ∧ (o.setSatoshi X.uni n).1.address = o.address ∧
    (o.setSatoshi X.uni n).1.satoshi = if 1 ≤ n ∧ n ≤ maxMoney then n else o.satoshi := by
  obtain ⟨a, sat, hc⟩ := h
  by_cases hok : 1 ≤ n ∧ n ≤ maxMoney
  · obtain ⟨hb, k, h1, h2, rfl, h3, rfl⟩ := (TxOut_create_ok X L.sha_len).1 hc
    obtain ⟨m, rfl⟩ : ∃ m : Nat, n = m := ⟨n.toNat, by omega⟩
    have hm : m ≤ maxMoney := by exact_mod_cast hok.2
    rw [setSatoshi_ok X.uni _ (by omega) hm, if_pos hok]
    exact ⟨⟨a, m, (TxOut_create_ok X L.sha_len).2 ⟨hb, m, h1, h2, rfl, hm, rfl⟩⟩, rfl, rfl⟩
  · have : n < 1 ∨ 256 ^ 8 ≤ n := by
      rcases hn with h | h
      · exact .inl (by omega)
      · exact .inr (by norm_num at h ⊢; exact h)
    rw [setSatoshi_bad X.uni o this, if_neg hok]
    exact ⟨⟨a, sat, hc⟩, rfl, rfl⟩

theorem run_made (L : X.Laws) {t : Tx} (M : Made X t) (c : Call) (hc : NoExcess [c]) :
    Made X (c.run X t).1 ∧ ∀ (j : Nat) (o : TxOut), t.outputs[j]? = some o → ∃ o', (c.run X t).1.outputs[j]? = some o' ∧
      o'.address = o.address ∧ o'.satoshi = amountAfter j o.satoshi [c] := by
  cases c with
  | sign keys rvs =>
    refine ⟨M.same (C39_only_signatures X t keys rvs), fun j o ho => ⟨o, ?_, rfl, rfl⟩⟩
    simp only [Call.run, sign_outputs]
    exact ho
  | setAmount k n =>
    have hn : n ≤ maxMoney ∨ 2 ^ 64 ≤ n := hc _ (List.mem_singleton.2 rfl)
    cases hk : t.outputs[k]? with
    | none =>
      have e : (Call.run X t (.setAmount k n)).1 = t := by simp [Call.run, hk]
      rw [e]
      refine ⟨M, fun j o ho => ⟨o, ho, rfl, ?_⟩⟩
      have : k ≠ j := by rintro rfl; rw [hk] at ho; simp at ho
      simp [amountAfter, this]
    | some ok =>
      have e : (Call.run X t (.setAmount k n)).1 = { t with outputs := t.outputs.set k (ok.setSatoshi X.uni n).1 } := by simp [Call.run, hk]
      rw [e]
      obtain ⟨s1, s2, s3⟩ := setSatoshi_created L (M.outs ok (List.mem_of_getElem? hk)) n hn
      have hkl := (List.getElem?_eq_some_iff.1 hk).1
      constructor
      · refine ⟨?_, M.ins, ?_⟩
        · have F := M.frame
          exact ⟨F.version, F.lock, F.ht4, F.ht1, F.ic, by simpa using F.oc, F.icl, by simpa using F.ocl⟩
        · intro o ho
          rcases List.mem_or_eq_of_mem_set ho with h | h
          · exact M.outs o h
          · rw [h]; exact s1
      · intro j o ho
        simp only [List.getElem?_set]
        by_cases hj : k = j
        · subst hj
          rw [hk] at ho; injection ho with ho; subst ho
          exact ⟨_, by simp [hkl], s2, by rw [s3]; simp [amountAfter]⟩
        · exact ⟨o, by simp [hj, ho], rfl, by simp [amountAfter, hj]⟩

theorem amountAfter_cons (j : Nat) (a : Int) (c : Call) (cs : List Call) : amountAfter j a (c :: cs) = amountAfter j (amountAfter j a [c]) cs := by
  cases c <;> rfl

theorem after_made (L : X.Laws) (cs : List Call) : ∀ {t : Tx}, Made X t → NoExcess cs →
    Made X (after X t cs) ∧ ∀ (j : Nat) (o : TxOut), t.outputs[j]? = some o → ∃ o', (after X t cs).outputs[j]? = some o' ∧
      o'.address = o.address ∧ o'.satoshi = amountAfter j o.satoshi cs := by
  induction cs with
  | nil => intro t M _; exact ⟨M, fun j o ho => ⟨o, ho, rfl, rfl⟩⟩
  | cons c cs ih =>
    intro t M hN
    obtain ⟨M1, h1⟩ := run_made L M c (fun x hx => by rw [List.mem_singleton] at hx; subst hx; exact hN _ (List.mem_cons_self ..))
    obtain ⟨M2, h2⟩ := ih M1 fun x hx => hN x (List.mem_cons_of_mem _ hx)
    refine ⟨M2, fun j o ho => ?_⟩
    obtain ⟨o1, e1, e2, e3⟩ := h1 j o ho
    obtain ⟨o2, f1, f2, f3⟩ := h2 j o1 e1
    exact ⟨o2, f1, f2.trans e2, by rw [f3, e3, ← amountAfter_cons]⟩

end BT.Hist

namespace BT
open Spec Hist

/-- **C124**: whatever happened to the object before, after a call of `sign` that returned and as long as no amount is
touched again (later calls of `sign` may return or raise) the transaction counts as signed and `verify` finds no invalid
signature. -/
theorem C124_sign_after_change (X : Ext) (L : X.Laws) (t : Tx) (ht : t.hashType1 = py"01") (cs : List Call) (h : Signs X t cs) :
    (after X t cs).signed = true ∧ (after X t cs).verify X = .ok 0 := by
  obtain ⟨pre, post, _, _, I⟩ := h.inv
  exact I.verify L ((after_ht1 t pre).trans ht)

/-- **C124** for histories without an amount between 21 million bitcoin and 2^64 satoshi: the hex data of the signed
transaction pays to each of the original addresses the last amount that was accepted for it, and verifies. -/
theorem C124_last_amounts_partial (X : Ext) (L : X.Laws) (t : Tx) (C : Spec.Created X t) (cs : List Call) (hN : NoExcess cs) (h : Signs X t cs) :
    ∃ s u, (after X t cs).toHexSigned = .ok s ∧ Tx.fromHexSigned X s = .ok u ∧ u.verify X = .ok 0 ∧
      u.outputs.length = t.outputs.length ∧
      ∀ (j : Nat) (o : TxOut), t.outputs[j]? = some o → ∃ o', u.outputs[j]? = some o' ∧ o'.address = o.address ∧
        o'.satoshi = amountAfter j o.satoshi cs := by
  obtain ⟨pre, post, rfl, hp, I⟩ := h.inv
  obtain ⟨M, _⟩ := after_made L pre (Made.of_created C) fun c hc => hN c (List.mem_append_left _ hc)
  obtain ⟨_, hA⟩ := after_made L (pre ++ post) (Made.of_created C) hN
  obtain ⟨s, u, h1, h2, _, h4, _, h6⟩ := I.hex L M
  refine ⟨s, u, h1, h2, h4, ?_, fun j o ho => ?_⟩
  · rw [h6]
    have : ∀ (cs : List Call) (t : Tx), (after X t cs).outputs.length = t.outputs.length := by
      intro cs
      induction cs with
      | nil => intro t; rfl
      | cons c cs ih =>
        intro t
        refine (ih _).trans ?_
        cases c with
        | sign keys rvs => simp [Call.run, sign_outputs]
        | setAmount k n =>
          simp only [Call.run]
          split
          · rfl
          · simp
    exact this _ _
  · rw [h6]; exact hA j o ho

/-- **C124** violated: an amount between 21 million bitcoin and 2^64 satoshi is refused with ValueError, but stored, and the
next call of `sign` that returns signs it: the hex data pays the refused amount. -/
theorem C124_violation (X : Ext) (L : X.Laws) (t : Tx) (C : Spec.Created X t) (j : Nat) (hj : j < t.outputs.length) (n : Int)
    (h1 : maxMoney < n) (h2 : n < 2 ^ 64) (keys : List Str) (random : Option (List Str)) (t' : Tx)
    (hs : ((Call.setAmount j n).run X t).1.sign X keys random = (t', .ok ())) :
    ((Call.setAmount j n).run X t).2 = .error .valueError ∧ t'.verify X = .ok 0 ∧
    ∃ (ins : List RawIn) (outs : List RawOut) (r : RawOut), t'.toHexSigned = .ok (hex (txBytes ins outs)) ∧ outs[j]? = some r ∧
      (leNat r.value : Int) = n := by
  have hk : t.outputs[j]? = some t.outputs[j] := List.getElem?_eq_getElem hj
  obtain ⟨m, rfl⟩ : ∃ m : Nat, n = m := ⟨n.toNat, by unfold maxMoney at h1; omega⟩
  have hm1 : maxMoney < m := by exact_mod_cast h1
  have hm2 : m < 256 ^ 8 := by norm_num; exact_mod_cast h2
  have hset := setSatoshi_over X.uni t.outputs[j] hm1 hm2
  have e : (Call.setAmount j (m : Int)).run X t =
      ({ t with outputs := t.outputs.set j { t.outputs[j] with value := hex (leBytes 8 m), satoshi := m } }, .error .valueError) := by
    simp only [Call.run, hk, hset]
  rw [e] at hs ⊢
  simp only at hs
  generalize ht1 : ({ t with outputs := t.outputs.set j { t.outputs[j] with value := hex (leBytes 8 m), satoshi := m } } : Tx) = t1 at hs
  have F : Frame t1 := by
    have F := C.frame
    subst ht1
    exact ⟨F.version, F.lock, F.ht4, F.ht1, F.ic, by simpa using F.oc, F.icl, by simpa using F.ocl⟩
  have hu := C39_only_signatures X t1 keys random
  rw [hs] at hu
  have hI := Inv.of_ok (X := X) (t := t1) (P := fun _ _ => True) (keys := keys) (rvs := random) trivial (by rw [hs])
  rw [hs] at hI
  have hin1 : t1.inputs = t.inputs := by subst ht1; rfl
  have ho1 : t1.outputs = t.outputs.set j { t.outputs[j] with value := hex (leBytes 8 m), satoshi := m } := by subst ht1; rfl
  refine ⟨rfl, (hI.verify L F.ht1).2, ?_⟩
  obtain ⟨ins, hins⟩ := exists_forall₂ (l := t'.inputs) (R := fun i (q : RawIn) => SignedRaw i q) (fun i hi => by
    obtain ⟨k, hk⟩ := List.getElem?_of_mem hi
    have hkl := (List.getElem?_eq_some_iff.1 hk).1
    have hl : t'.inputs.length = t1.inputs.length := unsigned_length hu
    obtain ⟨i0, q1, q2⟩ := same_part hu hk
    obtain ⟨a, txid, idx, sat, hc⟩ := C.ins i0 (hin1 ▸ List.mem_of_getElem? q1)
    obtain ⟨q, hq, _⟩ := (hI.done k i hk (by omega)).raw L F.ht1 q1 ⟨a, txid, idx, sat, hc⟩ rfl
    exact ⟨q.1, hq⟩)
  have hos : ∀ o ∈ t.outputs, ∃ r : RawOut, OutRaw o r := fun o ho => by
    obtain ⟨r, hr, _⟩ := created_output X L.sha_len (C.outs o ho)
    exact ⟨r, hr⟩
  obtain ⟨outs, houts⟩ := exists_forall₂ (l := t'.outputs) (R := fun o (r : RawOut) => OutRaw o r) (fun o ho => by
    have : t'.outputs = t1.outputs := by have := congrArg Tx.outputs hu; simpa [unsignedTx] using this
    rw [this, ho1] at ho
    rcases List.mem_or_eq_of_mem_set ho with h | h
    · exact hos o h
    · obtain ⟨r, hr⟩ := hos t.outputs[j] (List.getElem_mem hj)
      exact ⟨⟨leBytes 8 m, r.script⟩, by rw [h]; exact ⟨rfl, hr.spk, hr.len⟩⟩)
  have hout' : t'.outputs = t1.outputs := by have := congrArg Tx.outputs hu; simpa [unsignedTx] using this
  have hl := houts.length_eq
  have hjo : j < outs.length := by rw [← hl, hout', ho1]; simpa using hj
  refine ⟨ins, outs, outs[j], signed_hex (Made.frame_same F hu) hins houts, List.getElem?_eq_getElem hjo, ?_⟩
  have hr := List.Forall₂.get houts (i := j) (by rw [hl]; exact hjo) hjo
  have hv := hr.value
  have hget : t'.outputs.get ⟨j, by rw [hl]; exact hjo⟩ = { t.outputs[j] with value := hex (leBytes 8 m), satoshi := m } := by
    simp [hout', ho1]
  rw [hget] at hv
  have := hex_inj hv
  simp only [List.get_eq_getElem] at this
  rw [← this, leNat_leBytes hm2]

end BT
