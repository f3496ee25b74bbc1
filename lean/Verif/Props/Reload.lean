import Verif.Lemmas.Cli
import Verif.Props.CreateWit

/-! # C90: what the report of a reloaded transaction still says -/

namespace BT
open Spec

theorem stored_signed (t : Tx) : (stored t).signed = t.signed := by
  simp only [Tx.signed, stored, List.all_map]; rfl

theorem stored_totalInput (t : Tx) : (stored t).totalInput = t.totalInput := by
  simp only [Tx.totalInput, Tx.inputValuesKnown, stored, List.all_map, List.map_map]; rfl

theorem stored_fee (t : Tx) : (stored t).fee = t.fee := by
  simp only [Tx.fee, stored_totalInput]; rfl

theorem stored_stored (t : Tx) : stored (stored t) = stored t := by
  simp only [stored, List.map_map]
  rfl

theorem dictKeys_find {d : List (Str × PVal)} {k : Str} (h : k ∈ dictKeys d) : ∃ v, dictFind d k = some v := by
  induction d with
  | nil => simp [dictKeys] at h
  | cons p r ih =>
    obtain ⟨k', v⟩ := p
    by_cases e : k' = k
    · exact ⟨v, by simp [dictFind, e]⟩
    · simp only [dictKeys, List.map_cons, List.mem_cons, Ne.symm e, false_or] at h
      obtain ⟨w, hw⟩ := ih h
      exact ⟨w, by simp [dictFind, e, hw]⟩

/-- The report of the reloaded transaction. -/
theorem toDict_stored {u : UniDB} {t : Tx} {x : PVal} (h : t.toDict u = .ok x) : ∃ d d', x = .dict d ∧
    (stored t).toDict u = .ok (.dict d') ∧
    (∀ k, k ≠ py"change_address" → k ≠ py"change" → k ≠ py"inputs" → dictFind d' k = dictFind d k) ∧
    dictFind d py"change_address" = some (.ofOptStr t.changeAddress) ∧ dictFind d' py"change_address" = some .none ∧
    (∃ v, dictFind d' py"change" = some v ∧ NullEntry v) ∧
    dictFind d py"inputs" = some (.list (t.inputs.map TxIn.toDict)) ∧
    dictFind d' py"inputs" = some (.list ((t.inputs.map dropKey).map TxIn.toDict)) := by
  obtain ⟨size, a, b, c, e, toB, ch, s, f, h1, h2, h3, h4, h5, rfl⟩ := toDict_ok.1 h
  refine ⟨_, _, rfl, toDict_ok.2 ⟨size, a, b, c, e, toB, .dict [(py"satoshi_amount", .none), (py"bitcoin_amount", .none)], s, f,
    ?_, ?_, h3, ?_, ?_, rfl⟩, ?_, rfl, rfl, ⟨_, rfl, rfl⟩, rfl, rfl⟩
  · rw [show (stored t).inputs.length = t.inputs.length by simp [stored]]; exact h1
  · unfold Tx.knownPart at h2 ⊢
    rw [stored_totalInput]; exact h2
  · rfl
  · unfold Tx.sizePart at h5 ⊢
    rw [stored_signed, stored_hex, stored_fee]; exact h5
  · intro k hk1 hk2 hk3
    simp only [dictFind, stored_signed, stored_totalInput, stored_fee, if_neg (Ne.symm hk1), if_neg (Ne.symm hk2), if_neg (Ne.symm hk3)]
    rfl

/-- **C90** Everything a saved transaction reports is reported again after loading it, except the
change address, the change amount and the inputs' public keys, which are reported as null. -/
theorem C90_reload_partial (X : Ext) (L : X.Laws) (t : Tx) (C : Consistent X t) (s : Str) (hs : t.toJson X = .ok s) :
    ∃ d t' d', X.jsonLoads s = .ok (.dict d) ∧ Tx.fromJson X s = .ok t' ∧ t'.toDict X.uni = .ok (.dict d') ∧
      (∀ k, k ≠ py"change_address" → k ≠ py"change" → k ≠ py"inputs" → dictFind d' k = dictFind d k) ∧
      dictFind d' py"change_address" = some .none ∧ (∃ v, dictFind d' py"change" = some v ∧ NullEntry v) ∧
      ∃ l l', dictFind d py"inputs" = some (.list l) ∧ dictFind d' py"inputs" = some (.list l') ∧ l'.length = l.length ∧
        ∀ (j : Nat) (p : PVal), l[j]? = some p → ∃ e e', p = .dict e ∧ l'[j]? = some (.dict e') ∧
          (∀ k, k ≠ py"public_key_hex" → dictFind e' k = dictFind e k) ∧ dictFind e' py"public_key_hex" = some .none := by
  have hr := C29_json_round_trip X L t C s hs
  simp only [Tx.toJson, R_bind_eq_ok, R_pure, Except.ok.injEq] at hs
  obtain ⟨x, hx, rfl⟩ := hs
  have hsafe := toDict_safe hx fun i hi => by
    obtain ⟨_, _, h1, h2, _⟩ := consistent_loaded X L.sha_len (C.ins i hi)
    exact ⟨h1, h2⟩
  obtain ⟨d, d', rfl, h1, h2, _, h3, h4, h5, h6⟩ := toDict_stored hx
  refine ⟨d, stored t, d', X.json_round _ hsafe, hr, h1, h2, h3, h4, _, _, h5, h6, by simp, ?_⟩
  intro j p hp
  rw [List.getElem?_map] at hp
  cases hi : t.inputs[j]? with
  | none => rw [hi] at hp; simp at hp
  | some i =>
    rw [hi, Option.map_some, Option.some.injEq] at hp
    subst hp
    refine ⟨_, _, rfl, by rw [List.getElem?_map, List.getElem?_map, hi]; rfl, ?_, rfl⟩
    intro k hk
    simp only [dictFind, if_neg (Ne.symm hk)]
    rfl

/-- **C90** From the second time on nothing changes: what is saved after loading loads as the same
transaction. -/
theorem C90_stable (X : Ext) (L : X.Laws) (t : Tx) (C : Consistent X t) (s : Str) (hs : t.toJson X = .ok s) :
    ∃ t' s', Tx.fromJson X s = .ok t' ∧ t'.toJson X = .ok s' ∧ Tx.fromJson X s' = .ok t' := by
  have hr := C29_json_round_trip X L t C s hs
  simp only [Tx.toJson, R_bind_eq_ok, R_pure, Except.ok.injEq] at hs
  obtain ⟨x, hx, rfl⟩ := hs
  obtain ⟨d, d', rfl, h1, hkeep, _, hca, ⟨vc, hch, _⟩, hi1, hi2⟩ := toDict_stored hx
  refine ⟨stored t, X.jsonDumps (.dict d'), hr, by simp only [Tx.toJson, h1, R_bind_ok, R_pure], ?_⟩
  have hsafe := toDict_safe h1 fun i hi => by
    obtain ⟨i0, hi0, rfl⟩ := List.mem_map.1 (show i ∈ t.inputs.map dropKey from hi)
    obtain ⟨_, _, h1, h2, _⟩ := consistent_loaded X L.sha_len (C.ins i0 hi0)
    exact ⟨h1, h2⟩
  unfold Tx.fromJson
  rw [X.json_round _ hsafe, R_bind_ok]
  obtain ⟨d0, insD, outsD, he, hk, f2, f3, c1, c2, f1, f4, hins, houts, f5, f6, f7, ⟨b, f8, hb⟩, hle, ht⟩ :=
    (fromData_ok X).1 (C29_data_round_trip X L.sha_len t C _ hx)
  injection he with he
  subst he
  rw [hi1, Option.some.injEq, PVal.list.injEq] at f2
  subst f2
  have keep : ∀ k, k ≠ py"change_address" → k ≠ py"change" → k ≠ py"inputs" → ∀ {v}, dictFind d k = some v → dictFind d' k = some v :=
    fun k a b c v h => by rw [hkeep k a b c, h]
  refine (fromData_ok X).2 ⟨d', _, outsD, rfl, ?_, hi2, keep _ (by decide) (by decide) (by decide) f3, by simpa using c1, c2,
    ?_, keep _ (by decide) (by decide) (by decide) f4, ?_, houts, keep _ (by decide) (by decide) (by decide) f5,
    keep _ (by decide) (by decide) (by decide) f6, keep _ (by decide) (by decide) (by decide) f7,
    ⟨b, keep _ (by decide) (by decide) (by decide) f8, hb⟩, hle, ht⟩
  · intro k hk'
    have h0 := hk k hk'
    simp only [Tx.expectedKeys, List.mem_cons, List.not_mem_nil, or_false] at hk'
    by_cases e : k = py"inputs"
    · subst e; exact dictKeys_mem hi2
    · obtain ⟨v, hv⟩ := dictKeys_find h0
      refine dictKeys_mem (keep k ?_ ?_ e hv) <;>
      · rintro rfl; revert hk'; decide
  · have := keep _ (by decide) (by decide) (by decide) f1
    simpa using this
  · show List.Forall₂ _ ((t.inputs.map dropKey).map TxIn.toDict) (t.inputs.map dropKey)
    rw [← mapR_ok]
    have := mapR_map (f := TxIn.fromDict X) (g := TxIn.toDict) (h := id) (l := t.inputs.map dropKey) fun i hi => by
      obtain ⟨i0, hi0, rfl⟩ := List.mem_map.1 hi
      obtain ⟨⟨tb, ix, n, L⟩, _, _⟩ := consistent_loaded X L.sha_len (C.ins i0 hi0)
      exact TxIn_fromDict_toDict X (i := dropKey i0) (t := tb) (ix := ix) (n := n) ⟨L.1, L.2, L.3, L.4, L.5, L.6, L.7, L.8, L.9, L.10, L.11, L.12, L.13, L.14⟩
        (fun p hp => by simp [dropKey] at hp)
    rwa [List.map_id] at this

/-- **C90** violated by every transaction that `create_transaction` makes: its change address is
in the saved file, but the report of the loaded transaction says null, and so does the file that
is saved after loading. -/
theorem C90_violation (X : Ext) (L : X.Laws) {a a' : Args} {t : Tx} (h : createTransaction X a = .ok (t, a')) (hA : AsciiAmounts a) :
    ∃ ca s d t' d', t.changeAddress = some ca ∧ t.toJson X = .ok s ∧ X.jsonLoads s = .ok (.dict d) ∧
      dictFind d py"change_address" = some (.str ca) ∧ Tx.fromJson X s = .ok t' ∧ t'.toDict X.uni = .ok (.dict d') ∧
      dictFind d' py"change_address" = some .none ∧ t'.changeAddress = none ∧ t'.change = none := by
  have hs := L.sha_len
  obtain ⟨⟨s, h1, h2⟩, -⟩ := C58_json L h hA
  obtain ⟨ins, outs, ca, m, fee, ch, q, C⟩ := created_of hs h
  obtain ⟨hp1, hp2⟩ := C58_amounts_positive hs h hA C.req
  have hC := created_consistent hs C hp1 hp2
  have h1' := h1
  simp only [Tx.toJson, R_bind_eq_ok, R_pure, Except.ok.injEq] at h1
  obtain ⟨x, hx, rfl⟩ := h1
  have hsafe := toDict_safe hx fun i hi => by
    obtain ⟨_, _, h1, h2, _⟩ := consistent_loaded X L.sha_len (hC.ins i hi)
    exact ⟨h1, h2⟩
  obtain ⟨d, d', rfl, k1, _, k2, k3, _⟩ := toDict_stored hx
  exact ⟨ca, _, d, _, d', C.ca_addr, h1', X.json_round _ hsafe, by rw [k2, C.ca_addr]; rfl, h2, k1, k3, rfl, rfl⟩

/-- **C90** violated concretely: a created transaction with 49000 satoshi of change. -/
theorem C90_violation_occurs : ∃ (t : Tx) (a' : Args) (s : Str) (t' : Tx), createTransaction Concrete.Xtoy Concrete.argsFee = .ok (t, a') ∧
    t.toJson Concrete.Xtoy = .ok s ∧ Tx.fromJson Concrete.Xtoy s = .ok t' ∧
    t.change = some 49000 ∧ t.changeAddress = some (Concrete.toyAddr 3) ∧ t'.change = none ∧ t'.changeAddress = none := by
  have e : ∃ u, (do
      let p ← createTransaction Concrete.Xtoy Concrete.argsFee
      let s ← p.1.toJson Concrete.Xtoy
      let t' ← Tx.fromJson Concrete.Xtoy s
      assertR (p.1.change == some 49000 && p.1.changeAddress == some (Concrete.toyAddr 3) && t'.change == none &&
        t'.changeAddress == none) : R Unit) = .ok u := Concrete.isOk_exists (by decide +kernel)
  obtain ⟨u, e⟩ := e
  simp only [R_bind_eq_ok] at e
  obtain ⟨⟨t, a'⟩, h1, s, h2, t', h3, h4⟩ := e
  cases hb : (t.change == some 49000 && t.changeAddress == some (Concrete.toyAddr 3) && t'.change == none && t'.changeAddress == none) with
  | false => simp only [hb] at h4; simp [assertR, check] at h4
  | true =>
    simp only [Bool.and_eq_true, beq_iff_eq] at hb
    exact ⟨t, a', s, t', h1, h2, h3, hb.1.1.1, hb.1.1.2, hb.1.2, hb.2⟩

end BT
