import Verif.Props.InOut
import Verif.Lemmas.Json
import Verif.Props.Sign
import Verif.Concrete.Sample

/-! # C29, C30, C64, C66, C70, C71: transaction data and JSON -/

namespace BT
open Spec

namespace Spec

/-- An input made by `TransactionInput.create` from a positive amount, possibly signed
afterwards (a scriptSig of at most 252 bytes with its length fields and a 64-byte public key). -/
def ConsistentIn (X : Ext) (i : TxIn) : Prop :=
  ∃ a txid idx sat base, TxIn.create X a txid idx sat = .ok base ∧ 1 ≤ sat ∧
    (i = base ∨ ∃ f p : Bytes, f.length ≤ 252 ∧ p.length = 64 ∧
      i = { base with
        publicKey := some (hex p), scriptLen := some (hex [UInt8.ofNat f.length]),
        scriptLenInt := .int f.length, scriptSig := some (hex f) })

/-- A transaction of consistent inputs and of outputs made by `TransactionOutput.create` from
positive amounts. -/
structure Consistent (X : Ext) (t : Tx) : Prop where
  frame : Frame t
  ins : ∀ i ∈ t.inputs, ConsistentIn X i
  outs : ∀ o ∈ t.outputs, ∃ a sat, TxOut.create X a sat = .ok o ∧ 1 ≤ sat

/-- What a JSON file does not contain: the change address and the inputs' public keys. -/
def stored (t : Tx) : Tx := { t with changeAddress := none, inputs := t.inputs.map dropKey }

/-- The entry reports the amount `n` in satoshi and as a decimal number of bitcoin. -/
def AmountEntry (u : UniDB) (v : PVal) (n : Nat) : Prop :=
  ∃ b, v = .dict [(py"satoshi_amount", .int n), (py"bitcoin_amount", .str b)] ∧ AmountOf u b n

/-- The entry reports no amount. -/
def NullEntry (v : PVal) : Prop :=
  v = .dict [(py"satoshi_amount", .none), (py"bitcoin_amount", .none)]

/-- `n` is `q` rounded to an integer, ties to even. -/
def HalfEven (q : ℚ) (n : ℤ) : Prop := |q - n| ≤ 1 / 2 ∧ (|q - n| = 1 / 2 → n % 2 = 0)

/-- `s` is a decimal with exactly `k` digits after the point and no redundant leading zeros,
worth `n / 10^k`. -/
def FixedText (u : UniDB) (k : Nat) (s : Str) (n : Nat) : Prop :=
  ∃ ip fp : Str, s = ip ++ '.' :: fp ∧ fp.length = k ∧ ip ≠ [] ∧ (∀ c ∈ ip ++ fp, c ∈ digits10) ∧
    (ip = ['0'] ∨ ip.head? ≠ some '0') ∧ numeral u (ip ++ fp) = n

/-- The sum of the amounts of the inputs (unknown ones counted as 0). -/
def sumIn (t : Tx) : Int := (t.inputs.map fun i => i.satoshi.getD 0).sum

/-- The sum of the amounts of the outputs. -/
def sumOut (t : Tx) : Int := (t.outputs.map fun o => o.satoshi).sum

end Spec

theorem sumIn_eq (t : Tx) : sumIn t = inSum t := rfl
theorem sumOut_eq (t : Tx) : sumOut t = t.totalOutput := rfl

/-- a consistent input has the facts that `from_dict` checks -/
theorem consistent_loaded (X : Ext) (hs : ∀ b, (X.sha256 b).length = 32) {i : TxIn} (h : ConsistentIn X i) :
    (∃ t ix n, LoadedIn X i t ix n) ∧ (∀ p, i.publicKey = some p → ∃ b : Bytes, p = hex b ∧ b.length = 64) ∧
    i.scriptLenInt.jsonSafe = true ∧ i.spkLenInt.jsonSafe = true ∧
    (∃ n : Nat, i.satoshi = some (n : Int) ∧ 1 ≤ n) := by
  obtain ⟨a, txid, idx, sat, base, hc, h1, h⟩ := h
  obtain ⟨t, hh, ix, n, hl, hha, rfl, ht, rfl, hix, rfl, hn, rfl⟩ := (TxIn_create_ok X hs).1 hc
  have L := loaded_inOf X hl hha ht hix (n := n) (by omega) hn
  rcases h with rfl | ⟨f, p, hf, hp, rfl⟩
  · exact ⟨⟨t, ix, n, L⟩, by simp [inOf], rfl, rfl, n, rfl, by omega⟩
  · refine ⟨⟨t, ix, n, loaded_withSig X L (some (hex p)) hf⟩, ?_, rfl, rfl, n, rfl, by omega⟩
    intro q hq
    simp only [Option.some.injEq] at hq
    exact ⟨p, hq.symm, hp⟩

theorem consistent_known (X : Ext) (hs : ∀ b, (X.sha256 b).length = 32) {t : Tx} (C : Consistent X t) :
    ∀ i ∈ t.inputs, i.satoshi ≠ none := by
  intro i hi
  obtain ⟨_, _, _, _, n, hn, _⟩ := consistent_loaded X hs (C.ins i hi)
  rw [hn]; simp

/-! ## C29 -/

/-- **C29** on the level of data: if `to_dict` succeeds on a consistent transaction, loading the
data gives the transaction back (change address and public keys aside). -/
theorem C29_data_round_trip (X : Ext) (hs : ∀ b, (X.sha256 b).length = 32) (t : Tx) (C : Consistent X t) (x : PVal)
    (hx : t.toDict X.uni = .ok x) : Tx.fromData X x = .ok (stored t) := by
  obtain ⟨size, a, b, c, d, toB, ch, s, f, h1, h2, h3, h4, h5, rfl⟩ := toDict_ok.1 hx
  have hk := consistent_known X hs C
  obtain ⟨ti, fee, e1, e2, e3, e4, _⟩ := (knownPart_known hk).1 h2
  have F := C.frame
  have hins : List.Forall₂ (fun p i => TxIn.fromDict X p = .ok i) (t.inputs.map TxIn.toDict) (stored t).inputs := by
    rw [← mapR_ok]
    exact mapR_map fun i hi => by
      obtain ⟨⟨tb, ix, n, L⟩, hp, _⟩ := consistent_loaded X hs (C.ins i hi)
      exact TxIn_fromDict_toDict X L hp
  have houts : List.Forall₂ (fun p o => TxOut.fromDict X p = .ok o) (t.outputs.map TxOut.toDict) (stored t).outputs := by
    rw [← mapR_ok]
    have := mapR_map (f := TxOut.fromDict X) (g := TxOut.toDict) (h := id) (l := t.outputs) fun o ho => by
      obtain ⟨a, sat, hc, h1⟩ := C.outs o ho
      obtain ⟨h, n, hl, hh, rfl, hn, rfl⟩ := (TxOut_create_ok X hs).1 hc
      exact TxOut_fromDict_of X hl hh (by omega) hn
    rwa [List.map_id] at this
  have hsg : (stored t).signed = t.signed := by
    simp only [Tx.signed, stored, List.all_map]; rfl
  have hin : inSum (stored t) = inSum t := by
    simp only [inSum, stored, List.map_map]; rfl
  rw [fromData_ok]
  refine ⟨_, _, _, rfl, fun k hk => ?_, rfl, rfl, by simpa using F.icl, by simpa using F.ocl, ?_, ?_, hins, houts, ?_, ?_, ?_,
    ⟨t.signed, rfl, fun h => by rw [hsg]; exact h⟩, ?_, ?_⟩
  · have e : ∀ k ∈ Tx.expectedKeys, k ∈ (Tx.expectedKeys : List Str) := fun _ h => h
    have := e k hk
    simp only [Tx.expectedKeys, List.mem_cons, List.not_mem_nil, or_false] at this
    rcases this with rfl | rfl | rfl | rfl | rfl | rfl | rfl | rfl | rfl <;> exact dictKeys_mem rfl
  · simp only [List.length_map]; rw [← F.ic]; rfl
  · simp only [List.length_map]; rw [← F.oc]; rfl
  · rw [← F.lock]; rfl
  · rw [← F.ht4]; rfl
  · rw [← F.ht1]; rfl
  · rw [hin]
    have : t.totalOutput ≤ inSum t := by omega
    exact this
  · rw [Tx_create_ok]
    refine ⟨by simpa [stored] using F.icl, F.ocl, ?_⟩
    obtain ⟨v, ic, ins, oc, outs, lt, h4', h1', ca⟩ := t
    obtain ⟨f1, f2, f3, f4, f5, f6, _, _⟩ := F
    simp only at f1 f2 f3 f4 f5 f6
    subst f1 f2 f3 f4
    simp only [stored, List.length_map, f5, f6]

/-- **C29**: `from_json(t.to_json())`, given that the `json` module reads back what it wrote. -/
theorem C29_json_round_trip (X : Ext) (hL : X.Laws) (t : Tx) (C : Consistent X t) (s : Str)
    (hx : t.toJson X = .ok s) : Tx.fromJson X s = .ok (stored t) := by
  simp only [Tx.toJson, R_bind_eq_ok, R_pure, Except.ok.injEq] at hx
  obtain ⟨x, hx, rfl⟩ := hx
  have hsafe := toDict_safe hx fun i hi => by
    obtain ⟨_, _, h1, h2, _⟩ := consistent_loaded X hL.sha_len (C.ins i hi)
    exact ⟨h1, h2⟩
  unfold Tx.fromJson
  rw [X.json_round x hsafe, R_bind_ok]
  exact C29_data_round_trip X hL.sha_len t C x hx

theorem sum_filter_le {l : List TxOut} (h : ∀ o ∈ l, 0 ≤ o.satoshi) (p : TxOut → Bool) :
    0 ≤ ((l.filter p).map TxOut.satoshi).sum ∧ ((l.filter p).map TxOut.satoshi).sum ≤ (l.map TxOut.satoshi).sum := by
  induction l with
  | nil => simp
  | cons o l ih =>
    have h0 := h o (by simp)
    have := ih fun x hx => h x (by simp [hx])
    by_cases hp : p o
    · simp [hp]; omega
    · simp [hp]; omega

theorem changePart_ok (u : UniDB) {t : Tx} (h : ∀ o ∈ t.outputs, 0 ≤ o.satoshi) (hm : t.totalOutput ≤ maxMoney) :
    ∃ c, t.changePart u = .ok c := by
  unfold Tx.changePart
  cases hc : t.change with
  | none => exact ⟨_, rfl⟩
  | some c =>
    have hb : 0 ≤ c ∧ c ≤ maxMoney := by
      unfold Tx.change at hc
      split at hc
      · simp at hc
      · simp only [Option.some.injEq] at hc
        have := sum_filter_le h fun o => some o.address == t.changeAddress
        unfold Tx.totalOutput at hm
        constructor <;> omega
    obtain ⟨n, rfl⟩ : ∃ n : Nat, c = n := ⟨c.toNat, by omega⟩
    simp only [satoshiToBitcoin_nat u (n := n) (by exact_mod_cast hb.2)]
    exact ⟨_, rfl⟩

/-- **C29**: `to_dict` (hence `to_json`) succeeds on a consistent transaction exactly when it does
not spend more than it receives and receives at most 21 million bitcoin. -/
theorem C29_to_dict_succeeds (X : Ext) (hs : ∀ b, (X.sha256 b).length = 32) (t : Tx) (C : Consistent X t)
    (hser : t.signed = true → ∃ b : Bytes, t.toHexSigned = .ok (hex b)) :
    (∃ x, t.toDict X.uni = .ok x) ↔ sumOut t ≤ sumIn t ∧ sumIn t ≤ maxMoney := by
  have hk := consistent_known X hs C
  have ho : ∀ o ∈ t.outputs, 0 ≤ o.satoshi := by
    intro o hoo
    obtain ⟨a, sat, hc, h1⟩ := C.outs o hoo
    obtain ⟨h, n, hl, hh, rfl, hn, rfl⟩ := (TxOut_create_ok X hs).1 hc
    simp [outOf]
  have hsum : 0 ≤ t.totalOutput := by
    have := sum_filter_le ho fun _ => false
    simp at this
    exact this
  rw [sumOut_eq, sumIn_eq]
  constructor
  · rintro ⟨x, hx⟩
    obtain ⟨size, a, b, c, d, toB, ch, s, f, h1, h2, h3, h4, h5, rfl⟩ := toDict_ok.1 hx
    obtain ⟨ti, fee, e1, e2, e3, e4, _⟩ := (knownPart_known hk).1 h2
    constructor <;> omega
  · rintro ⟨hle, hm⟩
    obtain ⟨ti, hti⟩ : ∃ n : Nat, inSum t = n := ⟨(inSum t).toNat, by omega⟩
    obtain ⟨tov, hto⟩ : ∃ n : Nat, t.totalOutput = n := ⟨t.totalOutput.toNat, by omega⟩
    obtain ⟨fee, hfee⟩ : ∃ n : Nat, inSum t - t.totalOutput = n := ⟨(inSum t - t.totalOutput).toNat, by omega⟩
    obtain ⟨ch, hch⟩ := changePart_ok X.uni ho (by omega)
    obtain ⟨s, f, hsf⟩ : ∃ s f, t.sizePart = .ok (s, f) := by
      unfold Tx.sizePart
      cases hsg : t.signed with
      | false => exact ⟨_, _, rfl⟩
      | true =>
        obtain ⟨b, hb⟩ := hser hsg
        simp only [hb, R_bind_ok, hexLen_hex, if_true]
        cases t.fee <;> exact ⟨_, _, rfl⟩
    refine ⟨_, toDict_ok.2 ⟨10 + 179 * t.inputs.length + 34 * t.outputs.length, _, _, _, _, btcText tov, ch, s, f, ?_,
      (knownPart_known hk).2 ⟨ti, fee, hti, by omega, hfee, by omega, rfl, rfl, rfl, rfl⟩, ?_, hch, hsf, rfl⟩⟩
    · rw [C44_estimate, if_pos]
      have := C.frame.icl; have := C.frame.ocl; omega
    · rw [hto]; exact satoshiToBitcoin_nat _ (by omega)

/-! ## C30 -/

/-- **C30**: a loaded transaction has known positive input amounts, spends at most what it
receives, has one input (output) for each entry of the data and the counts written there, and is
completely signed if the data says so. -/
theorem C30_from_data (X : Ext) (x : PVal) (t : Tx) (h : Tx.fromData X x = .ok t) :
    (∀ i ∈ t.inputs, ∃ n : Nat, i.satoshi = some (n : Int) ∧ 1 ≤ n) ∧ sumOut t ≤ sumIn t ∧ Frame t ∧
    ∃ d insD outsD, x = .dict d ∧
      dictFind d py"inputs" = some (.list insD) ∧ insD.length = t.inputs.length ∧
      dictFind d py"outputs" = some (.list outsD) ∧ outsD.length = t.outputs.length ∧
      dictFind d py"input_count" = some (.str t.inputCount) ∧
      dictFind d py"output_count" = some (.str t.outputCount) ∧
      (∀ (k : Nat) (p : PVal) (i : TxIn), insD[k]? = some p → t.inputs[k]? = some i → TxIn.fromDict X p = .ok i) ∧
      (∀ (k : Nat) (p : PVal) (o : TxOut), outsD[k]? = some p → t.outputs[k]? = some o → TxOut.fromDict X p = .ok o) ∧
      (∃ b, dictFind d py"signed" = some (.bool b)) ∧
      (dictFind d py"signed" = some (.bool true) → ∀ i ∈ t.inputs, i.scriptSig.isSome = true ∧ i.scriptLen.isSome = true) := by
  obtain ⟨d, insD, outsD, rfl, hk, f2, f3, c1, c2, f1, f4, hins, houts, f5, f6, f7, ⟨b, f8, hb⟩, hle, ht⟩ := (fromData_ok X).1 h
  have F := Frame_create ht
  refine ⟨?_, hle, F, d, insD, outsD, rfl, f2, hins.length_eq, f3, houts.length_eq, ?_, ?_, ?_, ?_, ⟨b, f8⟩, ?_⟩
  · have : ∀ (l : List PVal) (l' : List TxIn), List.Forall₂ (fun p i => TxIn.fromDict X p = .ok i) l l' →
        ∀ i ∈ l', ∃ n : Nat, i.satoshi = some (n : Int) ∧ 1 ≤ n := by
      intro l l' H
      induction H with
      | nil => simp
      | cons h1 _ ih =>
        intro i hi
        rcases List.mem_cons.1 hi with rfl | hi
        · obtain ⟨d, _, E, _, _, _, _, n, L⟩ := (TxIn_fromDict_ok X).1 h1
          exact ⟨n, L.sat, L.npos⟩
        · exact ih i hi
    exact this _ _ hins
  · rw [f1, F.ic, hins.length_eq]
  · rw [f4, F.oc, houts.length_eq]
  · intro k p i hp hi
    rw [List.forall₂_iff_get] at hins
    obtain ⟨hk1, rfl⟩ := List.getElem?_eq_some_iff.1 hp
    obtain ⟨hk2, rfl⟩ := List.getElem?_eq_some_iff.1 hi
    exact hins.2 k hk1 hk2
  · intro k p i hp hi
    rw [List.forall₂_iff_get] at houts
    obtain ⟨hk1, rfl⟩ := List.getElem?_eq_some_iff.1 hp
    obtain ⟨hk2, rfl⟩ := List.getElem?_eq_some_iff.1 hi
    exact houts.2 k hk1 hk2
  · intro hs i hi
    rw [f8] at hs
    simp only [Option.some.injEq, PVal.bool.injEq] at hs
    have := signed_iff.1 (hb hs) i hi
    exact ⟨this.2, this.1⟩

/-- **C30** for `from_json`. -/
theorem C30_from_json (X : Ext) (s : Str) (t : Tx) (h : Tx.fromJson X s = .ok t) :
    sumOut t ≤ sumIn t ∧ (∀ i ∈ t.inputs, ∃ n : Nat, i.satoshi = some (n : Int) ∧ 1 ≤ n) := by
  simp only [Tx.fromJson, R_bind_eq_ok] at h
  obtain ⟨x, _, h⟩ := h
  obtain ⟨h1, h2, _⟩ := C30_from_data X x t h
  exact ⟨h2, h1⟩

/-- **C30**, in terms of the bytes that get broadcast: the 8-byte values of the outputs add up to
at most the amounts of the inputs. -/
theorem C30_bytes (X : Ext) (hs : ∀ b, (X.sha256 b).length = 32) (s : Str) (t : Tx) (h : Tx.fromJson X s = .ok t) :
    ∃ vals : List Bytes, List.Forall₂ (fun (o : TxOut) v => o.value = hex v ∧ v.length = 8) t.outputs vals ∧
      (((vals.map leNat).sum : Nat) : Int) ≤ sumIn t := by
  simp only [Tx.fromJson, R_bind_eq_ok] at h
  obtain ⟨x, _, h⟩ := h
  obtain ⟨d, insD, outsD, _, _, _, _, _, _, _, _, _, houts, _, _, _, _, hle, _⟩ := (fromData_ok X).1 h
  have key : ∀ (l : List PVal) (l' : List TxOut), List.Forall₂ (fun p o => TxOut.fromDict X p = .ok o) l l' →
      ∃ vals : List Bytes, List.Forall₂ (fun (o : TxOut) v => o.value = hex v ∧ v.length = 8) l' vals ∧
        (((vals.map leNat).sum : Nat) : Int) = (l'.map TxOut.satoshi).sum := by
    intro l l' H
    induction H with
    | nil => exact ⟨[], .nil, rfl⟩
    | cons hab _ ih =>
      obtain ⟨vals, h1, h2⟩ := ih
      obtain ⟨_, ⟨n, _, _, hn⟩, _⟩ := C26_cross_checks X hs _ _ hab
      obtain ⟨⟨v, h4, h5, h6⟩, h3, _⟩ := hn
      refine ⟨v :: vals, .cons ⟨h4, h5⟩ h1, ?_⟩
      simp only [List.map_cons, List.sum_cons, Nat.cast_add, h2, h3, h6]
  obtain ⟨vals, h1, h2⟩ := key _ _ houts
  exact ⟨vals, h1, by rw [h2]; exact hle⟩

/-! ## C70 -/

theorem dictFind_set_ne {d : List (Str × PVal)} {k k' : Str} {v : PVal} (h : k' ≠ k) :
    dictFind (dictSet d k v) k' = dictFind d k' := by
  induction d with
  | nil => simp [dictSet, dictFind, h.symm]
  | cons p d ih =>
    obtain ⟨j, w⟩ := p
    unfold dictSet
    by_cases hj : j = k
    · subst hj; simp [dictFind, h.symm]
    · rw [if_neg hj]
      by_cases hj' : j = k'
      · simp [dictFind, hj']
      · simp [dictFind, hj', ih]

theorem dictFind_set_eq {d : List (Str × PVal)} {k : Str} {v : PVal} :
    dictFind (dictSet d k v) k = some v := by
  induction d with
  | nil => simp [dictSet, dictFind]
  | cons p d ih =>
    obtain ⟨j, w⟩ := p
    unfold dictSet
    by_cases hj : j = k
    · subst hj; simp [dictFind]
    · rw [if_neg hj]; simp [dictFind, hj, ih]

theorem dictKeys_iff {d : List (Str × PVal)} {k : Str} : k ∈ dictKeys d ↔ ∃ v, dictFind d k = some v := by
  constructor
  · intro h
    induction d with
    | nil => simp [dictKeys] at h
    | cons p d ih =>
      obtain ⟨j, w⟩ := p
      by_cases hj : j = k
      · exact ⟨w, by simp [dictFind, hj]⟩
      · simp only [dictKeys, List.map_cons, List.mem_cons] at h
        rcases h with h | h
        · exact absurd h.symm hj
        · obtain ⟨v, hv⟩ := ih h
          exact ⟨v, by simp [dictFind, hj, hv]⟩
  · rintro ⟨v, hv⟩; exact dictKeys_mem hv

/-- **C70** (what holds): the version of a loaded transaction is always 1, whatever the data
says. -/
theorem C70_version_partial (X : Ext) (x : PVal) (t : Tx) (h : Tx.fromData X x = .ok t) : t.version = py"01000000" :=
  (C30_from_data X x t h).2.2.1.version

/-- **C70** violated: replacing the `version` entry of accepted data by any value whatsoever
(another version number, null, a list ...) changes nothing. -/
theorem C70_violation (X : Ext) (d : List (Str × PVal)) (t : Tx) (h : Tx.fromData X (.dict d) = .ok t) (v : PVal) :
    Tx.fromData X (.dict (dictSet d py"version" v)) = .ok t := by
  obtain ⟨d', insD, outsD, he, hk, f2, f3, c1, c2, f1, f4, hins, houts, f5, f6, f7, ⟨b, f8, hb⟩, hle, ht⟩ := (fromData_ok X).1 h
  injection he with he
  subst he
  have ne : ∀ k, k ≠ py"version" → dictFind (dictSet d py"version" v) k = dictFind d k := fun k hk => dictFind_set_ne hk
  refine (fromData_ok X).2 ⟨_, insD, outsD, rfl, ?_, (ne _ (by decide)).trans f2, (ne _ (by decide)).trans f3, c1, c2,
    (ne _ (by decide)).trans f1, (ne _ (by decide)).trans f4, hins, houts, (ne _ (by decide)).trans f5,
    (ne _ (by decide)).trans f6, (ne _ (by decide)).trans f7, ⟨b, (ne _ (by decide)).trans f8, hb⟩, hle, ht⟩
  intro k hkk
  rw [dictKeys_iff]
  by_cases hv : k = py"version"
  · subst hv; exact ⟨v, dictFind_set_eq⟩
  · rw [ne _ hv, ← dictKeys_iff]; exact hk k hkk

/-! ## C64 -/

/-- **C64**: the totals reported by `to_dict`. -/
theorem C64_totals (u : UniDB) (t : Tx) (x : PVal) (hx : t.toDict u = .ok x) :
    ∃ (d : List (Str × PVal)) (tot : Nat) (vo vi vf vc ve : PVal), x = .dict d ∧
      dictFind d py"total_output" = some vo ∧ dictFind d py"total_input" = some vi ∧ dictFind d py"fee" = some vf ∧
      dictFind d py"change" = some vc ∧ dictFind d py"estimated_fee_rate" = some ve ∧
      dictFind d py"signed" = some (.bool (t.inputs.all fun i => i.scriptLen.isSome && i.scriptSig.isSome)) ∧
      (tot : Int) = sumOut t ∧ AmountEntry u vo tot ∧
      ((∀ i ∈ t.inputs, i.satoshi ≠ none) → ∃ ti fee : Nat, (ti : Int) = sumIn t ∧ (fee : Int) = sumIn t - sumOut t ∧
        AmountEntry u vi ti ∧ AmountEntry u vf fee) ∧
      ((∃ i ∈ t.inputs, i.satoshi = none) → NullEntry vi ∧ NullEntry vf ∧
        ve = .dict [(py"satoshi_per_byte", .none), (py"bitcoin_per_byte", .none)]) ∧
      (∀ a, t.changeAddress = some a → a ≠ [] → ∃ c : Nat,
        (c : Int) = ((t.outputs.filter fun o => o.address = a).map fun o => o.satoshi).sum ∧ AmountEntry u vc c) ∧
      (t.changeAddress = none ∨ t.changeAddress = some [] → NullEntry vc) := by
  obtain ⟨size, a, b, c, d, toB, ch, s, f, h1, h2, h3, h4, h5, rfl⟩ := toDict_ok.1 hx
  obtain ⟨tov, e1, e2, rfl⟩ := (satoshiToBitcoin_ok u).1 h3
  refine ⟨_, tov, _, _, _, _, _, rfl, rfl, rfl, rfl, rfl, rfl, rfl, e1.symm, ⟨btcText tov, by rw [e1], btcText_amount u tov⟩, ?_, ?_, ?_, ?_⟩
  · intro hk
    obtain ⟨ti, fee, g1, g2, g3, g4, rfl, rfl, rfl, rfl⟩ := (knownPart_known hk).1 h2
    refine ⟨ti, fee, g1.symm, g3.symm, ⟨_, ?_, btcText_amount u ti⟩, ⟨_, ?_, btcText_amount u fee⟩⟩
    · rw [totalInput_known hk, g1]; rfl
    · simp only [Tx.fee, totalInput_known hk, g3]; rfl
  · intro hk
    rw [knownPart_unknown hk] at h2
    simp only [Except.ok.injEq, Prod.mk.injEq] at h2
    obtain ⟨rfl, rfl, rfl, rfl⟩ := h2
    refine ⟨?_, ?_, rfl⟩
    · rw [totalInput_unknown hk]; rfl
    · simp only [Tx.fee, totalInput_unknown hk]; rfl
  · intro adr ha hne
    cases adr with
    | nil => exact absurd rfl hne
    | cons c cs =>
      simp only [Tx.changePart, change_some ha, R_bind_eq_ok, satoshiToBitcoin_ok, R_pure, Except.ok.injEq] at h4
      obtain ⟨_, ⟨k, hk, hkm, rfl⟩, rfl⟩ := h4
      exact ⟨k, hk.symm, ⟨_, by rw [hk], btcText_amount u k⟩⟩
  · intro hn
    simp only [Tx.changePart, change_none hn, R_pure, Except.ok.injEq] at h4
    exact h4.symm

/-! ## C66, C71 -/

theorem rhe_halfEven (q : ℚ) : HalfEven q (rhe q) := by
  have h1 := rhe_le q
  have h2 := rhe_ge q
  refine ⟨by rw [abs_le]; constructor <;> linarith, ?_⟩
  unfold rhe
  simp only
  have g1 := Int.floor_le q
  have g2 := Int.lt_floor_add_one q
  split
  · rename_i h
    intro he
    rw [abs_of_nonneg (by linarith)] at he
    linarith
  · split
    · rename_i h
      intro he
      push_cast at he
      rw [abs_of_nonpos (by linarith)] at he
      linarith
    · split
      · intro _; assumption
      · intro _; omega

theorem halfEven_unique {q : ℚ} {m n : ℤ} (hm : HalfEven q m) (hn : HalfEven q n) : m = n := by
  obtain ⟨m1, m2⟩ := hm
  obtain ⟨n1, n2⟩ := hn
  rw [abs_le] at m1 n1
  by_contra hne
  rcases lt_or_gt_of_ne hne with h | h
  · have h' : (m : ℚ) + 1 ≤ n := by exact_mod_cast h
    have e1 : q - m = 1 / 2 := by linarith
    have e2 : q - n = -(1 / 2) := by linarith
    have := m2 (by rw [e1]; norm_num)
    have := n2 (by rw [e2]; norm_num)
    have : n = m + 1 := by
      have : (n : ℚ) = m + 1 := by linarith
      exact_mod_cast this
    omega
  · have h' : (n : ℚ) + 1 ≤ m := by exact_mod_cast h
    have e1 : q - n = 1 / 2 := by linarith
    have e2 : q - m = -(1 / 2) := by linarith
    have := n2 (by rw [e1]; norm_num)
    have := m2 (by rw [e2]; norm_num)
    have : m = n + 1 := by
      have : (m : ℚ) = n + 1 := by linarith
      exact_mod_cast this
    omega

theorem fmtFixed_text (u : UniDB) {k : Nat} (hk : 0 < k) (q : ℚ) : FixedText u k (fmtFixed k q) (rhe (q * 10 ^ k)).toNat := by
  obtain ⟨ip, fp, h1, h2, h3, h4, h5, h6⟩ := fmtFixed_form hk q
  exact ⟨ip, fp, h1, h2, h3, fun c hc => isDig_iff.1 (h4 c hc), h6, h5 u⟩

theorem rhe_nonneg {q : ℚ} (h : 0 ≤ q) : 0 ≤ rhe q := by
  have := rhe_mono h
  have e : rhe 0 = 0 := by exact_mod_cast rhe_int 0
  omega

/-- the two strings printed for a fee and a size -/
theorem rate_strings (u : UniDB) {fee size : Nat} (hf : fee ≤ maxMoney) (h1 : 1 ≤ size) (h2 : size ≤ 10 ^ 6) :
    ∃ m k : Nat, FixedText u 4 (fmtFixed 4 (decDiv fee size)) m ∧ HalfEven ((fee : ℚ) / size * 10 ^ 4) m ∧
      FixedText u 8 (feeRateBitcoin (round4 (decDiv fee size))) k ∧ HalfEven ((m : ℚ) / 10 ^ 4) k := by
  have hr := decDiv_round4 (fee := fee) (size := size) (by unfold maxMoney at hf; omega) h1 h2
  have hx : (0 : ℚ) ≤ (fee : ℚ) / size * 10 ^ 4 := by positivity
  have h0 := rhe_nonneg hx
  have hlt : rhe ((fee : ℚ) / size * 10 ^ 4) < 10 ^ 21 := by
    have hle : (fee : ℚ) / size * 10 ^ 4 ≤ ((10 ^ 20 : ℤ) : ℚ) := by
      have a : (fee : ℚ) / size ≤ fee := div_le_self (by positivity) (by exact_mod_cast h1)
      have b : (fee : ℚ) ≤ maxMoney := by exact_mod_cast hf
      have c : ((maxMoney : ℕ) : ℚ) ≤ 10 ^ 16 := by unfold maxMoney; norm_num
      push_cast
      nlinarith
    have := rhe_mono hle
    rw [rhe_int] at this
    omega
  obtain ⟨m, hm⟩ : ∃ m : Nat, rhe ((fee : ℚ) / size * 10 ^ 4) = m := ⟨_, (Int.toNat_of_nonneg h0).symm⟩
  have e := feeRateBitcoin_round4 (decDiv fee size) (by rw [hr]; exact h0) (by rw [hr]; exact hlt)
  have t1 := fmtFixed_text u (k := 4) (by norm_num) (decDiv fee size)
  rw [hr, hm] at t1
  have he := rhe_halfEven ((fee : ℚ) / size * 10 ^ 4)
  rw [hm] at he
  rw [hr, hm] at e
  have t2 := fmtFixed_text u (k := 8) (by norm_num) (((m : ℤ) : ℚ) / 10 ^ 12)
  have e8 : (((m : ℤ) : ℚ) / 10 ^ 12) * 10 ^ 8 = (m : ℚ) / 10 ^ 4 := by push_cast; ring
  rw [e8] at t2
  have h02 := rhe_nonneg (q := (m : ℚ) / 10 ^ 4) (by positivity)
  obtain ⟨k, hk⟩ : ∃ k : Nat, rhe ((m : ℚ) / 10 ^ 4) = k := ⟨_, (Int.toNat_of_nonneg h02).symm⟩
  have he2 := rhe_halfEven ((m : ℚ) / 10 ^ 4)
  rw [hk] at he2 t2
  exact ⟨m, k, by simpa using t1, by exact_mod_cast he, by rw [e]; simpa using t2, by exact_mod_cast he2⟩

/-- **C66** for the estimated fee rate: `satoshi_per_byte` is fee / estimated size rounded half
to even to 4 decimals. -/
theorem C66_estimated_rate (u : UniDB) (t : Tx) (x : PVal) (hx : t.toDict u = .ok x) (hk : ∀ i ∈ t.inputs, i.satoshi ≠ none) :
    ∃ (d : List (Str × PVal)) (s b : Str) (size m : Nat), x = .dict d ∧
      dictFind d py"estimated_size_bytes" = some (.int size) ∧
      size = 10 + 179 * t.inputs.length + 34 * t.outputs.length ∧
      dictFind d py"estimated_fee_rate" = some (.dict [(py"satoshi_per_byte", .str s), (py"bitcoin_per_byte", .str b)]) ∧
      FixedText u 4 s m ∧ HalfEven (((sumIn t - sumOut t : ℤ) : ℚ) / size * 10 ^ 4) m := by
  obtain ⟨size, a, b, c, d, toB, ch, s, f, h1, h2, h3, h4, h5, rfl⟩ := toDict_ok.1 hx
  obtain ⟨ti, fee, g1, g2, g3, g4, rfl, rfl, rfl, rfl⟩ := (knownPart_known hk).1 h2
  rw [C44_estimate] at h1
  split at h1
  · rename_i hle
    simp only [Except.ok.injEq] at h1
    obtain ⟨n, rfl⟩ : ∃ n : Nat, size = n := ⟨size.toNat, by omega⟩
    obtain ⟨m, k, r1, r2, _, _⟩ := rate_strings u g4 (size := n) (by omega) (by omega)
    refine ⟨_, _, _, n, m, rfl, rfl, by omega, rfl, r1, ?_⟩
    rw [sumIn_eq, sumOut_eq, g3]
    rw [Int.cast_natCast]; exact r2
  · simp at h1

/-- **C66** for the actual fee rate of a signed transaction: `size_bytes` is the length of the
serialisation and `satoshi_per_byte` is fee / size rounded half to even to 4 decimals. -/
theorem C66_actual_rate (u : UniDB) (t : Tx) (F : Frame t) (ins : List RawIn) (outs : List RawOut)
    (hi : List.Forall₂ SignedRaw t.inputs ins) (ho : List.Forall₂ OutRaw t.outputs outs)
    (oki : ∀ r ∈ ins, r.Ok) (oko : ∀ r ∈ outs, r.Ok) (x : PVal) (hx : t.toDict u = .ok x)
    (hk : ∀ i ∈ t.inputs, i.satoshi ≠ none) :
    ∃ (d : List (Str × PVal)) (s b : Str) (m : Nat), x = .dict d ∧
      dictFind d py"size_bytes" = some (.int (txBytes ins outs).length) ∧
      dictFind d py"fee_rate" = some (.dict [(py"satoshi_per_byte", .str s), (py"bitcoin_per_byte", .str b)]) ∧
      FixedText u 4 s m ∧ HalfEven (((sumIn t - sumOut t : ℤ) : ℚ) / (txBytes ins outs).length * 10 ^ 4) m := by
  obtain ⟨size, a, b, c, d, toB, ch, s, f, h1, h2, h3, h4, h5, rfl⟩ := toDict_ok.1 hx
  obtain ⟨ti, fee, g1, g2, g3, g4, rfl, rfl, rfl, rfl⟩ := (knownPart_known hk).1 h2
  have hsg : t.signed = true := by
    rw [signed_iff]
    intro i hii
    have : ∀ (l : List TxIn) (l' : List RawIn), List.Forall₂ SignedRaw l l' → ∀ i ∈ l, i.scriptLen.isSome = true ∧ i.scriptSig.isSome = true := by
      intro l l' H
      induction H with
      | nil => simp
      | cons h _ ih =>
        intro i hi
        rcases List.mem_cons.1 hi with rfl | hi
        · rw [h.sigLen, h.sig]; simp
        · exact ih i hi
    exact this _ _ hi i hii
  have hfee : t.fee = some (fee : Int) := by simp only [Tx.fee, totalInput_known hk, g3]
  have hlen := txBytes_length ins outs oki oko
  have b1 : (ins.map fun r => 41 + r.script.length).sum ≤ 293 * ins.length := by
    have : ∀ l : List RawIn, (∀ r ∈ l, r.Ok) → (l.map fun r => 41 + r.script.length).sum ≤ 293 * l.length := by
      intro l hl
      induction l with
      | nil => simp
      | cons r l ih =>
        have := ih fun r hr => hl r (by simp [hr])
        have := (hl r (by simp)).2.2
        simp only [List.map_cons, List.sum_cons, List.length_cons]; omega
    exact this ins oki
  have b2 : (outs.map fun r => 9 + r.script.length).sum ≤ 261 * outs.length := by
    have : ∀ l : List RawOut, (∀ r ∈ l, r.Ok) → (l.map fun r => 9 + r.script.length).sum ≤ 261 * l.length := by
      intro l hl
      induction l with
      | nil => simp
      | cons r l ih =>
        have := ih fun r hr => hl r (by simp [hr])
        have := (hl r (by simp)).2
        simp only [List.map_cons, List.sum_cons, List.length_cons]; omega
    exact this outs oko
  have l1 := F.icl
  have l2 := F.ocl
  rw [hi.length_eq] at l1
  rw [ho.length_eq] at l2
  obtain ⟨m, k, r1, r2, _, _⟩ := rate_strings u g4 (size := (txBytes ins outs).length) (by omega) (by omega)
  simp only [Tx.sizePart, hsg, if_true, signed_hex F hi ho, R_bind_ok, hexLen_hex, hfee, R_pure, Except.ok.injEq, Prod.mk.injEq] at h5
  obtain ⟨rfl, rfl⟩ := h5
  refine ⟨_, _, _, m, rfl, rfl, rfl, r1, ?_⟩
  rw [sumIn_eq, sumOut_eq, g3]
  rw [Int.cast_natCast]; exact r2

/-- **C71** (what holds): `bitcoin_per_byte` is the rounding (half to even, to 8 decimals) of the
4-decimal `satoshi_per_byte` value, not of the fee rate itself. -/
theorem C71_bitcoin_rate_partial (u : UniDB) (t : Tx) (x : PVal) (hx : t.toDict u = .ok x)
    (hk : ∀ i ∈ t.inputs, i.satoshi ≠ none) :
    ∃ (d : List (Str × PVal)) (s b : Str) (m k : Nat), x = .dict d ∧
      dictFind d py"estimated_fee_rate" = some (.dict [(py"satoshi_per_byte", .str s), (py"bitcoin_per_byte", .str b)]) ∧
      FixedText u 4 s m ∧ FixedText u 8 b k ∧ HalfEven ((m : ℚ) / 10 ^ 4) k := by
  obtain ⟨size, a, b, c, d, toB, ch, s, f, h1, h2, h3, h4, h5, rfl⟩ := toDict_ok.1 hx
  obtain ⟨ti, fee, g1, g2, g3, g4, rfl, rfl, rfl, rfl⟩ := (knownPart_known hk).1 h2
  rw [C44_estimate] at h1
  split at h1
  · rename_i hle
    simp only [Except.ok.injEq] at h1
    obtain ⟨n, rfl⟩ : ∃ n : Nat, size = n := ⟨size.toNat, by omega⟩
    obtain ⟨m, k, r1, r2, r3, r4⟩ := rate_strings u g4 (size := n) (by omega) (by omega)
    exact ⟨_, _, _, m, k, rfl, rfl, r1, r3, r4⟩
  · simp at h1

/-- `FixedText` determines the number -/
theorem fixedText_unique {u : UniDB} {k m n : Nat} {s : Str} (h1 : FixedText u k s m) (h2 : FixedText u k s n) : m = n := by
  obtain ⟨a, b, e1, l1, _, _, _, rfl⟩ := h1
  obtain ⟨c, d, e2, l2, _, _, _, rfl⟩ := h2
  rw [e1] at e2
  have hl := congrArg List.length e2
  simp at hl
  obtain ⟨rfl, e3⟩ := List.append_inj e2 (by omega)
  simp only [List.cons.injEq, true_and] at e3
  rw [e3]

/-- **C71** violated: a fee of 15370 satoshi for an estimated size of 10247 bytes (57 inputs,
1 output) is 1.49995... satoshi per byte, so 0.00000001 bitcoin per byte; the dict says
0.00000002. -/
theorem C71_violation (u : UniDB) (t : Tx) (x : PVal) (hx : t.toDict u = .ok x)
    (hk : ∀ i ∈ t.inputs, i.satoshi ≠ none) (hi : t.inputs.length = 57) (ho : t.outputs.length = 1)
    (hf : sumIn t - sumOut t = 15370) :
    ∃ (d : List (Str × PVal)) (s b : Str) (k : Nat), x = .dict d ∧
      dictFind d py"estimated_fee_rate" = some (.dict [(py"satoshi_per_byte", .str s), (py"bitcoin_per_byte", .str b)]) ∧
      dictFind d py"estimated_size_bytes" = some (.int 10247) ∧
      FixedText u 8 b k ∧ k = 2 ∧ ¬ HalfEven (((sumIn t - sumOut t : ℤ) : ℚ) / 10247) k := by
  obtain ⟨d, s, b, m, k, rfl, h1, h2, h3, h4⟩ := C71_bitcoin_rate_partial u t x hx hk
  obtain ⟨d', s', b', size, m', he, h5, h6, h7, h8, h9⟩ := C66_estimated_rate u t _ hx hk
  injection he with he
  subst he
  rw [h1] at h7
  simp only [Option.some.injEq, PVal.dict.injEq, List.cons.injEq, Prod.mk.injEq, PVal.str.injEq, true_and, and_true] at h7
  obtain ⟨rfl, rfl⟩ := h7
  rw [hi, ho] at h6
  have e : size = 10247 := by omega
  subst e
  have hm : m = m' := fixedText_unique h2 h8
  subst hm
  have hm : (m : ℤ) = 15000 := by
    refine halfEven_unique h9 ⟨?_, ?_⟩
    · rw [hf, abs_le]; constructor <;> norm_num
    · intro; norm_num
  have hm' : m = 15000 := by omega
  subst hm'
  have hk2 : (k : ℤ) = 2 := by
    refine halfEven_unique h4 ⟨?_, ?_⟩
    · rw [abs_le]; constructor <;> norm_num
    · intro; norm_num
  have hk' : k = 2 := by omega
  subst hk'
  refine ⟨d, s, b, 2, rfl, h1, h5, h3, rfl, ?_⟩
  rintro ⟨h, _⟩
  rw [hf, abs_le] at h
  norm_num at h

/-! ## Consistent transactions: where they come from -/

/-- A transaction made by the constructors from positive amounts is consistent. -/
theorem consistent_of_created {X : Ext} {t : Tx} (C : Created X t) (hi : ∀ i ∈ t.inputs, i.satoshi ≠ some 0)
    (ho : ∀ o ∈ t.outputs, o.satoshi ≠ 0) (hs : ∀ b, (X.sha256 b).length = 32) : Consistent X t := by
  refine ⟨C.frame, ?_, ?_⟩
  · intro i hii
    obtain ⟨a, txid, idx, sat, hc⟩ := C.ins i hii
    refine ⟨a, txid, idx, sat, i, hc, ?_, .inl rfl⟩
    have := hi i hii
    obtain ⟨t, hh, ix, n, hl, hha, rfl, ht, rfl, hix, rfl, hn, rfl⟩ := (TxIn_create_ok X hs).1 hc
    simp only [inOf, ne_eq, Option.some.injEq] at this
    omega
  · intro o hoo
    obtain ⟨a, sat, hc⟩ := C.outs o hoo
    refine ⟨a, sat, hc, ?_⟩
    have := ho o hoo
    obtain ⟨h, n, hl, hh, rfl, hn, rfl⟩ := (TxOut_create_ok X hs).1 hc
    simp only [outOf] at this
    omega

/-- **C29**: signing keeps a transaction consistent, so signed transactions can be saved and
loaded as well. -/
theorem C29_signing_keeps_consistency (X : Ext) (L : X.Laws) (t t' : Tx) (C : Consistent X t) (keys : List Str)
    (rvs : Option (List Str)) (h : t.sign X keys rvs = (t', .ok ())) : Consistent X t' := by
  rw [sign_eq] at h
  cases hc : signChecks X keys rvs with
  | error e => rw [hc] at h; simp at h
  | ok m =>
    rw [hc] at h
    simp only [Prod.mk.injEq] at h
    obtain ⟨rfl, h2⟩ := h
    obtain ⟨hl, hs⟩ := (signRest_ok X t m rvs t.inputs 0 (signRest X t m rvs 0 t.inputs).1).1 (by rw [← h2])
    have F := C.frame
    refine ⟨⟨F.1, F.2, F.3, F.4, ?_, F.6, ?_, F.8⟩, ?_, C.outs⟩
    · simp only [hl]; exact F.ic
    · simp only [hl]; exact F.icl
    · simp only
      generalize (signRest X t m rvs 0 t.inputs).1 = l' at *
      intro i' hi'
      obtain ⟨j, hj'⟩ := List.getElem?_of_mem hi'
      have hj : j < t.inputs.length := by rw [← hl]; exact (List.getElem?_eq_some_iff.1 hj').1
      obtain ⟨rv, key, pk, ss, sl, n, h3, h4, rfl⟩ := hs j _ i' (List.getElem?_eq_getElem hj) hj'
      obtain ⟨sig, d, p, _, rfl, hp, hd, _, _, rfl, rfl, rfl⟩ := signFinish_ok X L F.ht1 h4
      obtain ⟨a, txid, idx, sat, base, hcr, h1, h⟩ := C.ins t.inputs[j] (List.getElem_mem hj)
      refine ⟨a, txid, idx, sat, base, hcr, h1, .inr ⟨sigScript (d ++ [1]) p, p, ?_, hp, ?_⟩⟩
      · simp [sigScript]; omega
      · rcases h with h | ⟨f, q, _, _, h⟩ <;> rw [h] <;> rfl

/-! ## Witnesses -/

theorem sample_consistent {t : Tx} (h : Concrete.sampleTx Concrete.Xtoy = .ok t) : Consistent Concrete.Xtoy t := by
  have C := sample_created h
  refine consistent_of_created C ?_ ?_ Concrete.Xtoy_laws.sha_len
  all_goals
    simp only [Concrete.sampleTx, R_bind_eq_ok] at h
    obtain ⟨a1, _, a2, _, i1, h1, i2, h2, o1, h3, o2, h4, h5⟩ := h
    obtain ⟨_, _, rfl⟩ := Tx_create_ok.1 h5
  · intro i hi
    simp only [List.mem_cons, List.not_mem_nil, or_false] at hi
    rcases hi with rfl | rfl
    · obtain ⟨t, hh, ix, n, hl, hha, _, ht, _, hix, hn', hn, rfl⟩ := (TxIn_create_ok _ Concrete.Xtoy_laws.sha_len).1 h1
      simp only [inOf, ne_eq, Option.some.injEq]; omega
    · obtain ⟨t, hh, ix, n, hl, hha, _, ht, _, hix, hn', hn, rfl⟩ := (TxIn_create_ok _ Concrete.Xtoy_laws.sha_len).1 h2
      simp only [inOf, ne_eq, Option.some.injEq]; omega
  · intro o ho
    simp only [List.mem_cons, List.not_mem_nil, or_false] at ho
    rcases ho with rfl | rfl
    · obtain ⟨h, n, hl, hh, hn', hn, rfl⟩ := (TxOut_create_ok _ Concrete.Xtoy_laws.sha_len).1 h3
      simp only [outOf]; omega
    · obtain ⟨h, n, hl, hh, hn', hn, rfl⟩ := (TxOut_create_ok _ Concrete.Xtoy_laws.sha_len).1 h4
      simp only [outOf]; omega

/-- a two-input, two-output transaction is saved and loaded, unsigned and signed -/
example : ∃ t s t' s', Consistent Concrete.Xtoy t ∧ t.toJson Concrete.Xtoy = .ok s ∧
    Tx.fromJson Concrete.Xtoy s = .ok (stored t) ∧ t.sign Concrete.Xtoy Concrete.keys12 none = (t', .ok ()) ∧
    t'.toJson Concrete.Xtoy = .ok s' ∧ Tx.fromJson Concrete.Xtoy s' = .ok (stored t') := by
  have e1 : ∃ s, (do let t ← Concrete.sampleTx Concrete.Xtoy; t.toJson Concrete.Xtoy : R Str) = .ok s :=
    Concrete.isOk_exists (by decide +kernel)
  have e2 : ∃ s, (do let t ← Concrete.sampleSigned Concrete.Xtoy; t.toJson Concrete.Xtoy : R Str) = .ok s :=
    Concrete.isOk_exists (by decide +kernel)
  obtain ⟨s, e1⟩ := e1
  obtain ⟨s', e2⟩ := e2
  simp only [Concrete.sampleSigned, R_bind_eq_ok, R_pure, Except.ok.injEq] at e1 e2
  obtain ⟨t, h1, h2⟩ := e1
  obtain ⟨t', ⟨t'', h3, _, h4, rfl⟩, h5⟩ := e2
  rw [h1, Except.ok.injEq] at h3
  subst h3
  have C := sample_consistent h1
  have hs : t.sign Concrete.Xtoy Concrete.keys12 none = ((t.sign Concrete.Xtoy Concrete.keys12 none).1, .ok ()) := by rw [← h4]
  exact ⟨t, s, _, s', C, h2, C29_json_round_trip _ Concrete.Xtoy_laws t C s h2, hs, h5,
    C29_json_round_trip _ Concrete.Xtoy_laws _ (C29_signing_keeps_consistency _ Concrete.Xtoy_laws t _ C _ _ hs) s' h5⟩

/-- the case of `C71_violation` occurs: 57 inputs of 1000 satoshi, one output -/
def manyInputs (X : Ext) : R Tx := do
  let a ← privateKeyToAddress X (Concrete.hex32 1)
  let ins ← mapR (fun k : Nat => TxIn.create X a (List.replicate 64 'a') k 1000) (List.range 57)
  let o ← TxOut.create X a (57000 - 15370)
  Tx.create ins [o]

example : ((do let t ← manyInputs Concrete.Xtoy; let _ ← t.toDict Concrete.Xtoy.uni
               assertR (t.inputs.length == 57 && t.outputs.length == 1 && t.fee == some 15370 && t.inputValuesKnown)) : R Unit).isOk =
    true := by decide +kernel

end BT
