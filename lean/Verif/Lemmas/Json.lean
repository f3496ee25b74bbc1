import Verif.Lemmas.JsonText
import Verif.Lemmas.Dict
import Verif.Lemmas.Ser
import Verif.Lemmas.Decimal
import Verif.Props.Tx

namespace BT
open Spec

/-! # `to_dict`, `to_json`, `from_json` of transactions -/

theorem mapR_ok {α β : Type} {f : α → R β} {l : List α} {l' : List β} :
    mapR f l = .ok l' ↔ List.Forall₂ (fun a b => f a = .ok b) l l' := by
  induction l generalizing l' with
  | nil => simp [mapR, eq_comm]
  | cons a l ih =>
    simp only [mapR, R_bind_eq_ok, ih, R_pure, Except.ok.injEq]
    constructor
    · rintro ⟨b, hb, bs, hbs, rfl⟩; exact .cons hb hbs
    · intro h
      cases h with
      | cons h1 h2 => exact ⟨_, h1, _, h2, rfl⟩

theorem mapR_map {α β γ : Type} {f : β → R γ} {g : α → β} {h : α → γ} {l : List α} (H : ∀ a ∈ l, f (g a) = .ok (h a)) :
    mapR f (l.map g) = .ok (l.map h) := by
  rw [mapR_ok]
  induction l with
  | nil => exact .nil
  | cons a l ih => exact .cons (H a (by simp)) (ih fun x hx => H x (by simp [hx]))

/-- the sum of the known input amounts -/
def inSum (t : Tx) : Int := (t.inputs.map fun i => i.satoshi.getD 0).sum

theorem known_iff {t : Tx} : t.inputValuesKnown = true ↔ ∀ i ∈ t.inputs, i.satoshi ≠ none := by
  simp [Tx.inputValuesKnown, Option.isSome_iff_ne_none]

theorem totalInput_known {t : Tx} (h : ∀ i ∈ t.inputs, i.satoshi ≠ none) : t.totalInput = some (inSum t) := by
  have := known_iff.2 h
  simp [Tx.totalInput, this, inSum]

theorem totalInput_unknown {t : Tx} (h : ∃ i ∈ t.inputs, i.satoshi = none) : t.totalInput = none := by
  have : t.inputValuesKnown = false := by
    rw [Bool.eq_false_iff, ne_eq, known_iff]
    push Not; exact h
  simp [Tx.totalInput, this]

theorem totalInput_some {t : Tx} {n : Int} (h : t.totalInput = some n) :
    (∀ i ∈ t.inputs, i.satoshi ≠ none) ∧ n = inSum t := by
  by_cases hk : ∀ i ∈ t.inputs, i.satoshi ≠ none
  · rw [totalInput_known hk] at h; exact ⟨hk, (Option.some.inj h).symm⟩
  · push Not at hk
    rw [totalInput_unknown hk] at h; simp at h

theorem signed_iff {t : Tx} : t.signed = true ↔ ∀ i ∈ t.inputs, i.scriptLen.isSome = true ∧ i.scriptSig.isSome = true := by
  simp [Tx.signed, TxIn.signed]

/-- the entries of the dict made by `to_dict` -/
theorem toDict_ok {u : UniDB} {t : Tx} {x : PVal} : t.toDict u = .ok x ↔
    ∃ size tiB feeB rateS rateB toB change sizeB feeRate,
      estimateTransactionSize t.inputs.length t.outputs.length = .ok size ∧
      t.knownPart u size = .ok (tiB, feeB, rateS, rateB) ∧
      satoshiToBitcoin u t.totalOutput = .ok toB ∧ t.changePart u = .ok change ∧ t.sizePart = .ok (sizeB, feeRate) ∧
      x = .dict [
        (py"version", .str t.version),
        (py"input_count", .str t.inputCount),
        (py"inputs", .list (t.inputs.map TxIn.toDict)),
        (py"output_count", .str t.outputCount),
        (py"outputs", .list (t.outputs.map TxOut.toDict)),
        (py"block_lock_time", .str t.lockTime),
        (py"hash_type_4_byte", .str t.hashType4),
        (py"hash_type_1_byte", .str t.hashType1),
        (py"signed", .bool t.signed),
        (py"total_input", .dict [(py"satoshi_amount", .ofOptInt t.totalInput),
          (py"bitcoin_amount", tiB)]),
        (py"total_output", .dict [(py"satoshi_amount", .int t.totalOutput),
          (py"bitcoin_amount", .str toB)]),
        (py"fee", .dict [(py"satoshi_amount", .ofOptInt t.fee), (py"bitcoin_amount", feeB)]),
        (py"change_address", .ofOptStr t.changeAddress),
        (py"change", change),
        (py"estimated_size_bytes", .int size),
        (py"estimated_fee_rate", .dict [(py"satoshi_per_byte", rateS),
          (py"bitcoin_per_byte", rateB)]),
        (py"size_bytes", sizeB),
        (py"fee_rate", feeRate)] := by
  simp only [Tx.toDict, R_bind_eq_ok, R_pure, Except.ok.injEq]
  constructor
  · rintro ⟨size, h1, ⟨a, b, c, d⟩, h2, toB, h3, ch, h4, ⟨s, f⟩, h5, rfl⟩
    exact ⟨size, a, b, c, d, toB, ch, s, f, h1, h2, h3, h4, h5, rfl⟩
  · rintro ⟨size, a, b, c, d, toB, ch, s, f, h1, h2, h3, h4, h5, rfl⟩
    exact ⟨size, h1, ⟨a, b, c, d⟩, h2, toB, h3, ch, h4, ⟨s, f⟩, h5, rfl⟩

theorem knownPart_known {u : UniDB} {t : Tx} {size : Int} {a b c d : PVal} (hk : ∀ i ∈ t.inputs, i.satoshi ≠ none) :
    t.knownPart u size = .ok (a, b, c, d) ↔ ∃ ti fee : Nat, inSum t = ti ∧ ti ≤ maxMoney ∧ inSum t - t.totalOutput = fee ∧
      fee ≤ maxMoney ∧ a = .str (btcText ti) ∧ b = .str (btcText fee) ∧ c = .str (fmtFixed 4 (decDiv fee size)) ∧
      d = .str (feeRateBitcoin (round4 (decDiv fee size))) := by
  simp only [Tx.knownPart, totalInput_known hk, R_bind_eq_ok, satoshiToBitcoin_ok, R_pure, Except.ok.injEq, Prod.mk.injEq]
  constructor
  · rintro ⟨_, ⟨ti, h1, h2, rfl⟩, _, ⟨fee, h3, h4, rfl⟩, rfl, rfl, rfl, rfl⟩
    exact ⟨ti, fee, h1, h2, h3, h4, rfl, rfl, by rw [h3], by rw [h3]⟩
  · rintro ⟨ti, fee, h1, h2, h3, h4, rfl, rfl, rfl, rfl⟩
    exact ⟨_, ⟨ti, h1, h2, rfl⟩, _, ⟨fee, h3, h4, rfl⟩, rfl, rfl, by rw [h3], by rw [h3]⟩

theorem knownPart_unknown {u : UniDB} {t : Tx} {size : Int} (hk : ∃ i ∈ t.inputs, i.satoshi = none) :
    t.knownPart u size = .ok (.none, .none, .none, .none) := by
  simp [Tx.knownPart, totalInput_unknown hk]

/-- the outputs that pay an address -/
def paidTo (t : Tx) (a : Str) : Int := ((t.outputs.filter fun o => o.address = a).map TxOut.satoshi).sum

theorem change_some {t : Tx} {c : Char} {cs : Str} (h : t.changeAddress = some (c :: cs)) : t.change = some (paidTo t (c :: cs)) := by
  have e : ∀ o : TxOut, (some o.address == t.changeAddress) = decide (o.address = c :: cs) := by
    intro o
    rw [h, Bool.eq_iff_iff]
    simp
  simp only [Tx.change, Tx.hasChangeAddress, h, paidTo]
  simp only [← h, e]
  simp

theorem change_none {t : Tx} (h : t.changeAddress = none ∨ t.changeAddress = some []) : t.change = none := by
  rcases h with h | h <;> simp [Tx.change, Tx.hasChangeAddress, h]

/-! ## jsonSafe -/

theorem jsonSafeL_of {l : List PVal} (h : ∀ x ∈ l, x.jsonSafe = true) : PVal.jsonSafeL l = true := by
  induction l with
  | nil => rfl
  | cons x l ih => simp [PVal.jsonSafeL, h x (by simp), ih fun y hy => h y (by simp [hy])]

theorem jsonSafe_ofOptStr (o : Option Str) : (PVal.ofOptStr o).jsonSafe = true := by
  cases o <;> rfl

theorem jsonSafe_ofOptInt (o : Option Int) : (PVal.ofOptInt o).jsonSafe = true := by
  cases o <;> rfl

theorem jsonSafe_in {i : TxIn} (h1 : i.scriptLenInt.jsonSafe = true) (h2 : i.spkLenInt.jsonSafe = true) :
    i.toDict.jsonSafe = true := by
  simp [TxIn.toDict, PVal.jsonSafe, PVal.jsonSafeD, jsonSafe_ofOptInt, jsonSafe_ofOptStr, h1, h2]

theorem jsonSafe_out (o : TxOut) : o.toDict.jsonSafe = true := by
  simp [TxOut.toDict, PVal.jsonSafe, PVal.jsonSafeD]

theorem knownPart_safe {u : UniDB} {t : Tx} {size : Int} {a b c d : PVal} (h : t.knownPart u size = .ok (a, b, c, d)) :
    a.jsonSafe = true ∧ b.jsonSafe = true ∧ c.jsonSafe = true ∧ d.jsonSafe = true := by
  by_cases hk : ∀ i ∈ t.inputs, i.satoshi ≠ none
  · obtain ⟨_, _, _, _, _, _, rfl, rfl, rfl, rfl⟩ := (knownPart_known hk).1 h
    exact ⟨rfl, rfl, rfl, rfl⟩
  · push Not at hk
    rw [knownPart_unknown hk] at h
    simp only [Except.ok.injEq, Prod.mk.injEq] at h
    obtain ⟨rfl, rfl, rfl, rfl⟩ := h
    exact ⟨rfl, rfl, rfl, rfl⟩

theorem changePart_safe {u : UniDB} {t : Tx} {c : PVal} (h : t.changePart u = .ok c) : c.jsonSafe = true := by
  unfold Tx.changePart at h
  split at h
  · simp at h; subst h; decide
  · simp only [R_bind_eq_ok, R_pure, Except.ok.injEq] at h
    obtain ⟨b, _, rfl⟩ := h
    simp [PVal.jsonSafe, PVal.jsonSafeD]

theorem sizePart_safe {t : Tx} {a b : PVal} (h : t.sizePart = .ok (a, b)) : a.jsonSafe = true ∧ b.jsonSafe = true := by
  unfold Tx.sizePart at h
  split at h
  · simp only [R_bind_eq_ok] at h
    obtain ⟨x, _, n, _, h⟩ := h
    split at h <;>
    · simp only [R_pure, Except.ok.injEq, Prod.mk.injEq] at h
      obtain ⟨rfl, rfl⟩ := h
      simp [PVal.jsonSafe, PVal.jsonSafeD]
  · simp only [R_pure, Except.ok.injEq, Prod.mk.injEq] at h
    obtain ⟨rfl, rfl⟩ := h
    simp [PVal.jsonSafe, PVal.jsonSafeD]

theorem toDict_safe {u : UniDB} {t : Tx} {x : PVal} (h : t.toDict u = .ok x)
    (hi : ∀ i ∈ t.inputs, i.scriptLenInt.jsonSafe = true ∧ i.spkLenInt.jsonSafe = true) : x.jsonSafe = true := by
  obtain ⟨size, a, b, c, d, toB, ch, s, f, h1, h2, h3, h4, h5, rfl⟩ := toDict_ok.1 h
  obtain ⟨k1, k2, k3, k4⟩ := knownPart_safe h2
  have k5 := changePart_safe h4
  obtain ⟨k6, k7⟩ := sizePart_safe h5
  have e1 : PVal.jsonSafeL (t.inputs.map TxIn.toDict) = true := by
    apply jsonSafeL_of
    intro x hx
    obtain ⟨i, hi', rfl⟩ := List.mem_map.1 hx
    exact jsonSafe_in (hi i hi').1 (hi i hi').2
  have e2 : PVal.jsonSafeL (t.outputs.map TxOut.toDict) = true := by
    apply jsonSafeL_of
    intro x hx
    obtain ⟨o, _, rfl⟩ := List.mem_map.1 hx
    exact jsonSafe_out o
  simp [PVal.jsonSafe, PVal.jsonSafeD, jsonSafe_ofOptInt, jsonSafe_ofOptStr, k1, k2, k3, k4, k5, k6, k7, e1, e2]

/-! ## loading -/

theorem fromData_ok (X : Ext) {x : PVal} {t : Tx} : Tx.fromData X x = .ok t ↔
    ∃ d insD outsD, x = .dict d ∧ (∀ k ∈ Tx.expectedKeys, k ∈ dictKeys d) ∧
      dictFind d py"inputs" = some (.list insD) ∧ dictFind d py"outputs" = some (.list outsD) ∧
      insD.length ≤ 252 ∧ outsD.length ≤ 252 ∧
      dictFind d py"input_count" = some (.str (hex [UInt8.ofNat insD.length])) ∧
      dictFind d py"output_count" = some (.str (hex [UInt8.ofNat outsD.length])) ∧
      List.Forall₂ (fun p i => TxIn.fromDict X p = .ok i) insD t.inputs ∧
      List.Forall₂ (fun p o => TxOut.fromDict X p = .ok o) outsD t.outputs ∧
      dictFind d py"block_lock_time" = some (.str py"00000000") ∧
      dictFind d py"hash_type_4_byte" = some (.str py"01000000") ∧
      dictFind d py"hash_type_1_byte" = some (.str py"01") ∧
      (∃ b, dictFind d py"signed" = some (.bool b) ∧ (b = true → t.signed = true)) ∧
      (t.outputs.map TxOut.satoshi).sum ≤ inSum t ∧ Tx.create t.inputs t.outputs = .ok t := by
  have vb : ∀ (p : PVal) (b : Bool), vBoolean p = .ok b ↔ p = .bool b := by
    intro p b; cases p <;> simp [vBoolean]
  have vl : ∀ (p : PVal) (b : List PVal), vList p = .ok b ↔ p = .list b := by
    intro p b; cases p <;> simp [vList]
  have count : ∀ (z : UInt8) (n : Nat), z.toNat ≤ 252 → ((z.toNat : Int) = n ↔ n ≤ 252 ∧ z = UInt8.ofNat n) := by
    intro z n hz
    constructor
    · intro h
      have : z.toNat = n := by omega
      exact ⟨by omega, by rw [← this, UInt8.ofNat_toNat]⟩
    · rintro ⟨h1, rfl⟩
      rw [UInt8.toNat_ofNat', Nat.mod_eq_of_lt (by omega)]
  simp only [Tx.fromData, R_bind_eq_ok, asDict_ok, dictGet_ok, vHexP_ok, vb, vl, assertR_ok, beq_iff_eq, eqStr_iff,
    varIntToIntP_ok, varIntToInt_ok, mapR_ok, vListContains_ok, decide_eq_true_eq]
  constructor
  · rintro ⟨d, rfl, _, hk, _, f1, _, ⟨rfl, _⟩, _, f2, insD, rfl, _, f3, outsD, rfl, _, ⟨z, rfl, hz, rfl⟩, _, hc, _, f4, _,
      ⟨_, rfl, w, rfl, hw, rfl⟩, _, hc2, ins, hins, outs, houts, _, f5, _, rfl, _, f6, _, rfl, _, f7, _, rfl, _, f8, b, rfl, _, hle,
      t', ht', hfin⟩
    have ht : t' = t := by
      cases b
      · simpa using hfin
      · simp only [if_true, R_bind_eq_ok, assertR_ok] at hfin
        obtain ⟨_, _, h⟩ := hfin
        simpa using h
    have hb : b = true → t.signed = true := by
      rintro rfl
      simp only [if_true, R_bind_eq_ok, assertR_ok] at hfin
      obtain ⟨_, h, _⟩ := hfin
      rw [← ht]; exact h
    subst ht
    obtain ⟨c1, rfl⟩ := (count z _ hz).1 hc
    obtain ⟨c2, rfl⟩ := (count w _ hw).1 hc2
    obtain ⟨_, _, rfl⟩ := Tx_create_ok.1 ht'
    exact ⟨d, insD, outsD, rfl, hk, f2, f3, c1, c2, f1, f4, hins, houts, f5, f6, f7, ⟨b, f8, hb⟩, hle, ht'⟩
  · rintro ⟨d, insD, outsD, rfl, hk, f2, f3, c1, c2, f1, f4, hins, houts, f5, f6, f7, ⟨b, f8, hb⟩, hle, ht⟩
    have e : ∀ n : Nat, n ≤ 252 → (UInt8.ofNat n).toNat = n := by
      intro n hn; rw [UInt8.toNat_ofNat', Nat.mod_eq_of_lt (by omega)]
    refine ⟨d, rfl, (), hk, _, f1, _, ⟨rfl, isHex_hex _⟩, _, f2, insD, rfl, _, f3, outsD, rfl, _,
      ⟨_, rfl, by rw [e _ c1]; exact c1, rfl⟩, (), by rw [e _ c1], _, f4, _, ⟨_, rfl, _, rfl, by rw [e _ c2]; exact c2, rfl⟩, (),
      by rw [e _ c2], _, hins, _, houts, _, f5, (), rfl, _, f6, (), rfl, _, f7, (), rfl, _, f8, b, rfl, (), hle, t, ht, ?_⟩
    cases b
    · simp
    · simp [assertR, check, hb rfl]

end BT
