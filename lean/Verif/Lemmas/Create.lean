import Verif.CreateSpec
import Verif.Lemmas.InOut
import Verif.Lemmas.Json
import Verif.Lemmas.Validate

/-! # Lemmas about the first half of `create_transaction` (`prepare`) -/

namespace BT
open Spec

theorem vList_ok {x : PVal} {l : List PVal} : vList x = .ok l ↔ x = .list l := by
  cases x <;> simp [vList]

theorem vListsIdentical_ok {l1 l2 : List Str} {x : Unit} : vListsIdentical l1 l2 = .ok x ↔ l1.Perm l2 := by
  rw [vListsIdentical_eq]; split <;> simp_all

/-- the amount checks of one entry -/
def GoodAmount (u : UniDB) (s : Str) (sat : Nat) : Prop :=
  AmountOf u s sat ∧ sat ≤ maxMoney ∧ ∃ c ∈ s, c ≠ '0' ∧ c ≠ '.'

theorem vPositiveP_ok {u : UniDB} {x : PVal} {s : Str} :
    vPositiveBitcoinAmountP u x = .ok s ↔ x = .str s ∧ ∃ sat, GoodAmount u s sat := by
  simp only [vPositiveBitcoinAmountP, R_bind_eq_ok, vString_ok, R_pure, Except.ok.injEq]
  constructor
  · rintro ⟨t, rfl, _, h, rfl⟩; exact ⟨rfl, (vPositive_ok u).1 h⟩
  · rintro ⟨rfl, h⟩; exact ⟨s, rfl, (), (vPositive_ok u).2 h, rfl⟩

theorem dictKeys_set {d : List (Str × PVal)} {k : Str} {v w : PVal} (h : dictFind d k = some w) :
    dictKeys (dictSet d k v) = dictKeys d := by
  induction d with
  | nil => simp [dictFind] at h
  | cons p d ih =>
    obtain ⟨j, x⟩ := p
    unfold dictFind at h
    unfold dictSet
    by_cases e : j = k
    · rw [if_pos e]; simp [dictKeys, e]
    · rw [if_neg e] at h ⊢
      have := ih h
      simp only [dictKeys, List.map_cons] at this ⊢
      rw [this]

theorem find_set_ne {d : List (Str × PVal)} {k k' : Str} {v : PVal} (h : k' ≠ k) :
    dictFind (dictSet d k v) k' = dictFind d k' := by
  induction d with
  | nil => simp [dictSet, dictFind, h.symm]
  | cons p d ih =>
    obtain ⟨j, w⟩ := p
    unfold dictSet
    by_cases e : j = k
    · rw [if_pos e]; simp only [dictFind, e, h.symm, if_false]
    · rw [if_neg e]; simp only [dictFind, ih]

theorem find_set_eq {d : List (Str × PVal)} {k : Str} {v : PVal} :
    dictFind (dictSet d k v) k = some v := by
  induction d with
  | nil => simp [dictSet, dictFind]
  | cons p d ih =>
    obtain ⟨j, w⟩ := p
    unfold dictSet
    by_cases e : j = k
    · rw [if_pos e]; simp [dictFind]
    · rw [if_neg e]; simp only [dictFind, e, if_false, ih]

theorem set_set {d : List (Str × PVal)} {k : Str} {v w : PVal} : dictSet (dictSet d k v) k w = dictSet d k w := by
  induction d with
  | nil => simp [dictSet]
  | cons p d ih =>
    obtain ⟨j, x⟩ := p
    by_cases e : j = k
    · simp [dictSet, e]
    · simp [dictSet, e, ih]

theorem forall₂_comp {α β γ : Type} {P : α → β → Prop} {Q : β → γ → Prop} {l : List α} {n : List γ} :
    List.Forall₂ (fun a c => ∃ b, P a b ∧ Q b c) l n ↔ ∃ m, List.Forall₂ P l m ∧ List.Forall₂ Q m n := by
  constructor
  · intro h
    induction h with
    | nil => exact ⟨[], .nil, .nil⟩
    | cons h _ ih =>
      obtain ⟨b, h1, h2⟩ := h
      obtain ⟨m, h3, h4⟩ := ih
      exact ⟨b :: m, .cons h1 h3, .cons h2 h4⟩
  · rintro ⟨m, h1, h2⟩
    induction h1 generalizing n with
    | nil => cases h2; exact .nil
    | cons h _ ih =>
      cases h2 with
      | cons h' h2 => exact .cons ⟨_, h, h'⟩ (ih h2)

/-! ## the inputs -/

def inKeys : List Str := [py"address", py"transaction_id", py"previous_output_index", py"bitcoin_amount"]
def outKeys : List Str := [py"address", py"bitcoin_amount"]

/-- adjust, validate and mark one input dict -/
def InStep (X : Ext) (x z : PVal) : Prop :=
  ∃ (d : List (Str × PVal)) (a txid : Str) (v : PVal) (idx : Int) (s : Str) (sat : Nat),
    x = .dict d ∧ (dictKeys d).Perm inKeys ∧ dictFind d py"address" = some (.str a) ∧ vBitcoinAddress X a = .ok () ∧
    dictFind d py"transaction_id" = some (.str txid) ∧ vHexLength txid 32 = .ok () ∧
    dictFind d py"previous_output_index" = some v ∧ v.toInt X.uni = .ok idx ∧ 0 ≤ idx ∧
    dictFind d py"bitcoin_amount" = some (.str s) ∧ GoodAmount X.uni s sat ∧
    z = .dict (dictSet (dictSet d py"previous_output_index" (.int idx)) py"satoshi_amount" (.int sat))

theorem vWholeNumber_int {n : Int} {x : Unit} : vWholeNumber (.int n) = .ok x ↔ 0 ≤ n := by
  unfold vWholeNumber vPositiveInteger vInteger
  simp only [PVal.eqInt, PVal.asInt, R_pure, R_bind_ok, raise_eq]
  by_cases h0 : n = 0
  · simp [h0]
  · by_cases h1 : n < 1
    · simp [h0, h1]; omega
    · simp [h0, h1]; omega

theorem inStep_iff {X : Ext} {x z : PVal} :
    (∃ y, adjustInput X.uni x = .ok y ∧ validateInput X y = .ok () ∧ addSatoshi X.uni y = .ok z) ↔ InStep X x z := by
  constructor
  · rintro ⟨y, h1, h2, h3⟩
    unfold adjustInput at h1
    cases x with
    | dict d =>
      simp only [R_bind_eq_ok, dictGet_ok, R_pure, Except.ok.injEq] at h1
      obtain ⟨v, hv, idx, hi, rfl⟩ := h1
      simp only [validateInput, PVal.asDict, R_bind_ok, R_bind_eq_ok, vListsIdentical_ok, dictGet_ok, vBitcoinAddressP_ok,
        vHexLengthP_ok, vPositiveP_ok, find_set_ne (show py"address" ≠ py"previous_output_index" by decide),
        find_set_ne (show py"transaction_id" ≠ py"previous_output_index" by decide),
        find_set_ne (show py"bitcoin_amount" ≠ py"previous_output_index" by decide), find_set_eq,
        dictKeys_set hv] at h2
      obtain ⟨_, hk, _, ha, a, ⟨rfl, hav⟩, _, ht, txid, ⟨rfl, htv⟩, p, hp, _, hw, _, hb, s, ⟨rfl, sat, hs⟩, _⟩ := h2
      injection hp with hp; subst hp
      rw [vWholeNumber_int] at hw
      simp only [addSatoshi, PVal.asDict, R_bind_ok, R_bind_eq_ok, dictGet_ok, vString_ok,
        find_set_ne (show py"bitcoin_amount" ≠ py"previous_output_index" by decide), R_pure, Except.ok.injEq] at h3
      obtain ⟨_, hb', s', rfl, n, hn, rfl⟩ := h3
      rw [hb] at hb'; injection hb' with hb'; injection hb' with hb'; subst hb'
      obtain ⟨sat', g1, g2, rfl, _⟩ := (bitcoinToSatoshi_ok X.uni).1 hn
      obtain rfl := AmountOf_unique hs.1 g1
      exact ⟨d, a, txid, v, idx, s, sat, rfl, hk, ha, hav, ht, htv, hv, hi, hw, hb, hs, rfl⟩
    | _ => simp at h1
  · rintro ⟨d, a, txid, v, idx, s, sat, rfl, hk, ha, hav, ht, htv, hv, hi, hw, hb, hs, rfl⟩
    refine ⟨.dict (dictSet d py"previous_output_index" (.int idx)), ?_, ?_, ?_⟩
    · simp only [adjustInput, R_bind_eq_ok, dictGet_ok, R_pure, Except.ok.injEq]
      exact ⟨v, hv, idx, hi, rfl⟩
    · simp only [validateInput, PVal.asDict, R_bind_ok, R_bind_eq_ok, vListsIdentical_ok, dictGet_ok, vBitcoinAddressP_ok,
        vHexLengthP_ok, vPositiveP_ok, find_set_ne (show py"address" ≠ py"previous_output_index" by decide),
        find_set_ne (show py"transaction_id" ≠ py"previous_output_index" by decide),
        find_set_ne (show py"bitcoin_amount" ≠ py"previous_output_index" by decide), find_set_eq,
        dictKeys_set hv]
      exact ⟨(), hk, _, ha, a, ⟨rfl, hav⟩, _, ht, txid, ⟨rfl, htv⟩, _, rfl, (), vWholeNumber_int.2 hw, _, hb, s, ⟨rfl, sat, hs⟩, rfl⟩
    · simp only [addSatoshi, PVal.asDict, R_bind_ok, R_bind_eq_ok, dictGet_ok, vString_ok,
        find_set_ne (show py"bitcoin_amount" ≠ py"previous_output_index" by decide), R_pure, Except.ok.injEq]
      exact ⟨_, hb, s, rfl, sat, (bitcoinToSatoshi_ok X.uni).2 ⟨sat, hs.1, hs.2.1, rfl, hs.2.2⟩, rfl⟩

theorem inStep_mk {X : Ext} {x z : PVal} (h : InStep X x z) (i : TxIn) : mkInput X z = .ok i ↔ Offers X x i := by
  obtain ⟨d, a, txid, v, idx, s, sat, rfl, hk, ha, hav, ht, htv, hv, hi, hw, hb, hs, rfl⟩ := h
  simp only [mkInput, PVal.asDict, R_bind_ok, R_bind_eq_ok, dictGet_ok, vString_ok, find_set_eq,
    find_set_ne (show py"address" ≠ py"satoshi_amount" by decide),
    find_set_ne (show py"transaction_id" ≠ py"satoshi_amount" by decide),
    find_set_ne (show py"previous_output_index" ≠ py"satoshi_amount" by decide),
    find_set_ne (show py"address" ≠ py"previous_output_index" by decide),
    find_set_ne (show py"transaction_id" ≠ py"previous_output_index" by decide)]
  constructor
  · rintro ⟨_, ha', a', rfl, _, ht', t', rfl, p, hp, i', hi', p2, hp2, n, hn, hc⟩
    rw [ha] at ha'; injection ha' with ha'; injection ha' with ha'; subst ha'
    rw [ht] at ht'; injection ht' with ht'; injection ht' with ht'; subst ht'
    injection hp with hp; subst hp
    injection hp2 with hp2; subst hp2
    simp only [vInteger, PVal.asInt, Except.ok.injEq] at hi' hn
    subst hi'; subst hn
    exact ⟨a, txid, v, idx, s, sat, ha, ht, hv, hi, hb, hs.1, hc⟩
  · rintro ⟨a', t', v', idx', s', sat', ha', ht', hv', hi', hb', hs', hc⟩
    simp only [entry] at ha' ht' hv' hb'
    rw [ha] at ha'; injection ha' with ha'; injection ha' with ha'; subst ha'
    rw [ht] at ht'; injection ht' with ht'; injection ht' with ht'; subst ht'
    rw [hv] at hv'; injection hv' with hv'; subst hv'
    rw [hb] at hb'; injection hb' with hb'; injection hb' with hb'; subst hb'
    rw [hi] at hi'; injection hi' with hi'; subst hi'
    obtain rfl := AmountOf_unique hs.1 hs'
    exact ⟨_, ha, a, rfl, _, ht, txid, rfl, _, rfl, _, rfl, _, rfl, _, rfl, hc⟩

/-! ## the outputs -/

/-- validate, pad and mark one output dict -/
def OutStep (X : Ext) (x z : PVal) : Prop :=
  ∃ (d : List (Str × PVal)) (a s s8 : Str) (sat : Nat),
    x = .dict d ∧ (dictKeys d).Perm outKeys ∧ dictFind d py"address" = some (.str a) ∧ vBitcoinAddress X a = .ok () ∧
    dictFind d py"bitcoin_amount" = some (.str s) ∧ GoodAmount X.uni s sat ∧ ensure8 s = .ok s8 ∧
    z = .dict (dictSet (dictSet d py"bitcoin_amount" (.str s8)) py"satoshi_amount" (.int sat))

theorem goodAmount_ensure8 {u : UniDB} {s s8 : Str} {sat : Nat} (h : GoodAmount u s sat) (h8 : ensure8 s = .ok s8) :
    GoodAmount u s8 sat := by
  obtain ⟨h1, h2, c, hc, hc0, hcd⟩ := h
  obtain ⟨t, g1, g2, g3⟩ := ensure8_amount u h1
  rw [h8] at g1; injection g1 with g1; subst g1
  refine ⟨g2, h2, c, ?_, hc0, hcd⟩
  obtain ⟨ip, fp, hs, _, h8', hd, _⟩ := h1
  have hi : '.' ∉ ip := dot_not_mem u fun c hc => hd c (by simp [hc])
  have hf : '.' ∉ fp := dot_not_mem u fun c hc => hd c (by simp [hc])
  rw [ensure8_form hi hf hs, if_pos h8'] at h8
  injection h8 with h8
  rw [← h8]
  rcases hs with rfl | ⟨rfl, rfl⟩
  · simp only [List.mem_append, List.mem_cons] at hc ⊢
    tauto
  · simp [hc]

theorem outStep_iff {X : Ext} {x z : PVal} :
    (∃ y, validateOutput X x = .ok y ∧ addSatoshi X.uni y = .ok z) ↔ OutStep X x z := by
  constructor
  · rintro ⟨y, h1, h2⟩
    simp only [validateOutput, R_bind_eq_ok, asDict_ok, vListsIdentical_ok, dictGet_ok, vBitcoinAddressP_ok,
      vPositiveP_ok, R_pure, Except.ok.injEq] at h1
    obtain ⟨d, rfl, _, hk, _, ha, a, ⟨rfl, hav⟩, _, hb, s, ⟨rfl, sat, hs⟩, s8, h8, rfl⟩ := h1
    simp only [addSatoshi, PVal.asDict, R_bind_ok, R_bind_eq_ok, dictGet_ok, vString_ok, find_set_eq, R_pure, Except.ok.injEq] at h2
    obtain ⟨_, hb', s', rfl, n, hn, rfl⟩ := h2
    injection hb' with hb'; injection hb' with hb'; subst hb'
    obtain ⟨sat', g1, g2, rfl, _⟩ := (bitcoinToSatoshi_ok X.uni).1 hn
    obtain rfl := AmountOf_unique (goodAmount_ensure8 hs h8).1 g1
    exact ⟨d, a, s, s8, sat, rfl, hk, ha, hav, hb, hs, h8, rfl⟩
  · rintro ⟨d, a, s, s8, sat, rfl, hk, ha, hav, hb, hs, h8, rfl⟩
    refine ⟨.dict (dictSet d py"bitcoin_amount" (.str s8)), ?_, ?_⟩
    · simp only [validateOutput, R_bind_eq_ok, asDict_ok, vListsIdentical_ok, dictGet_ok, vBitcoinAddressP_ok,
        vPositiveP_ok, R_pure, Except.ok.injEq]
      exact ⟨d, rfl, (), hk, _, ha, a, ⟨rfl, hav⟩, _, hb, s, ⟨rfl, sat, hs⟩, s8, h8, rfl⟩
    · simp only [addSatoshi, PVal.asDict, R_bind_ok, R_bind_eq_ok, dictGet_ok, vString_ok, find_set_eq, R_pure, Except.ok.injEq]
      have g := goodAmount_ensure8 hs h8
      exact ⟨_, rfl, s8, rfl, sat, (bitcoinToSatoshi_ok X.uni).2 ⟨sat, g.1, g.2.1, rfl, g.2.2⟩, rfl⟩

theorem outStep_mk {X : Ext} {x z : PVal} (h : OutStep X x z) (o : TxOut) : mkOutput X z = .ok o ↔ Asks X x o := by
  obtain ⟨d, a, s, s8, sat, rfl, hk, ha, hav, hb, hs, h8, rfl⟩ := h
  simp only [mkOutput, PVal.asDict, R_bind_ok, R_bind_eq_ok, dictGet_ok, vString_ok, find_set_eq,
    find_set_ne (show py"address" ≠ py"satoshi_amount" by decide),
    find_set_ne (show py"address" ≠ py"bitcoin_amount" by decide)]
  constructor
  · rintro ⟨_, ha', a', rfl, p2, hp2, n, hn, hc⟩
    rw [ha] at ha'; injection ha' with ha'; injection ha' with ha'; subst ha'
    injection hp2 with hp2; subst hp2
    simp only [vInteger, PVal.asInt, Except.ok.injEq] at hn
    subst hn
    exact ⟨a, s, sat, ha, hb, hs.1, hc⟩
  · rintro ⟨a', s', sat', ha', hb', hs', hc⟩
    simp only [entry] at ha' hb'
    rw [ha] at ha'; injection ha' with ha'; injection ha' with ha'; subst ha'
    rw [hb] at hb'; injection hb' with hb'; injection hb' with hb'; subst hb'
    obtain rfl := AmountOf_unique hs.1 hs'
    exact ⟨_, ha, a, rfl, _, rfl, _, rfl, hc⟩

/-! ## the design -/

/-- a string is converted to an int, anything else stays -/
def Adjusted (u : UniDB) (o o' : Option PVal) : Prop :=
  (∃ s n, o = some (.str s) ∧ pyInt u 10 s = .ok n ∧ o' = some (.int n)) ∨ ((∀ s, o ≠ some (.str s)) ∧ o' = o)

/-- an int is converted to a string, anything else stays -/
def strIfInt (v : PVal) : PVal := match strOfInt v with
  | some s => .str s
  | none => v

theorem adjustFee_ok {u : UniDB} {d d' : List (Str × PVal)} (h : adjustFee u d = .ok d') :
    (∀ k, k ≠ py"fee" → dictFind d' k = dictFind d k) ∧ Adjusted u (dictFind d py"fee") (dictFind d' py"fee") ∧
    dictKeys d' = dictKeys d := by
  unfold adjustFee at h
  split at h
  · rename_i s hs
    simp only [R_bind_eq_ok, R_pure, Except.ok.injEq] at h
    obtain ⟨n, hn, rfl⟩ := h
    exact ⟨fun k hk => find_set_ne hk, .inl ⟨s, n, hs, hn, find_set_eq⟩, dictKeys_set hs⟩
  · rename_i hs
    simp only [R_pure, Except.ok.injEq] at h
    subst h
    exact ⟨fun k hk => rfl, .inr ⟨hs, rfl⟩, rfl⟩

theorem adjustMaxFee_ok {u : UniDB} {d d' : List (Str × PVal)} (h : adjustMaxFee u d = .ok d') :
    (∀ k, k ≠ py"max_fee" → dictFind d' k = dictFind d k) ∧ Adjusted u (dictFind d py"max_fee") (dictFind d' py"max_fee") ∧
    dictKeys d' = dictKeys d := by
  unfold adjustMaxFee at h
  split at h
  · rename_i s hs
    simp only [R_bind_eq_ok, R_pure, Except.ok.injEq] at h
    obtain ⟨n, hn, rfl⟩ := h
    exact ⟨fun k hk => find_set_ne hk, .inl ⟨s, n, hs, hn, find_set_eq⟩, dictKeys_set hs⟩
  · rename_i hs
    simp only [R_pure, Except.ok.injEq] at h
    subst h
    exact ⟨fun k hk => rfl, .inr ⟨hs, rfl⟩, rfl⟩

theorem adjustFeeRate_find (d : List (Str × PVal)) :
    (∀ k, k ≠ py"fee_rate" → dictFind (adjustFeeRate d) k = dictFind d k) ∧
    dictFind (adjustFeeRate d) py"fee_rate" = (dictFind d py"fee_rate").map strIfInt ∧
    dictKeys (adjustFeeRate d) = dictKeys d := by
  unfold adjustFeeRate strIfInt
  cases h : dictFind d py"fee_rate" with
  | none => exact ⟨fun _ _ => rfl, by simp [h], rfl⟩
  | some v =>
    simp only [Option.map_some]
    cases hv : strOfInt v with
    | none => exact ⟨fun _ _ => rfl, by simp [h], rfl⟩
    | some s => exact ⟨fun k hk => find_set_ne hk, by simp [find_set_eq], dictKeys_set h⟩

theorem adjustDesign_ok {u : UniDB} {d d' : List (Str × PVal)} (h : adjustDesign u d = .ok d') :
    (∀ k, k ≠ py"fee" → k ≠ py"fee_rate" → k ≠ py"max_fee" → dictFind d' k = dictFind d k) ∧
    Adjusted u (dictFind d py"fee") (dictFind d' py"fee") ∧
    dictFind d' py"fee_rate" = (dictFind d py"fee_rate").map strIfInt ∧
    Adjusted u (dictFind d py"max_fee") (dictFind d' py"max_fee") ∧ dictKeys d' = dictKeys d := by
  simp only [adjustDesign, R_bind_eq_ok] at h
  obtain ⟨d1, h1, h2⟩ := h
  obtain ⟨a1, a2, a3⟩ := adjustFee_ok h1
  obtain ⟨b1, b2, b3⟩ := adjustFeeRate_find d1
  obtain ⟨c1, c2, c3⟩ := adjustMaxFee_ok h2
  refine ⟨?_, ?_, ?_, ?_, by rw [c3, b3, a3]⟩
  · intro k k1 k2 k3; rw [c1 k k3, b1 k k2, a1 k k1]
  · rw [c1 _ (by decide), b1 _ (by decide)]; exact a2
  · rw [c1 _ (by decide), b2, a1 _ (by decide)]
  · rw [b1 _ (by decide), a1 _ (by decide)] at c2; exact c2

theorem adjustDesign_total {u : UniDB} {d : List (Str × PVal)}
    (h1 : ∀ s, dictFind d py"fee" = some (.str s) → ∃ n, pyInt u 10 s = .ok n)
    (h2 : ∀ s, dictFind d py"max_fee" = some (.str s) → ∃ n, pyInt u 10 s = .ok n) :
    ∃ d', adjustDesign u d = .ok d' := by
  have hA : ∃ d1, adjustFee u d = .ok d1 := by
    unfold adjustFee
    split
    · rename_i s hs
      obtain ⟨n, hn⟩ := h1 s hs
      exact ⟨_, by rw [hn]; rfl⟩
    · exact ⟨_, rfl⟩
  obtain ⟨d1, hd1⟩ := hA
  obtain ⟨a1, _, _⟩ := adjustFee_ok hd1
  obtain ⟨b1, _, _⟩ := adjustFeeRate_find d1
  have hB : ∃ d', adjustMaxFee u (adjustFeeRate d1) = .ok d' := by
    unfold adjustMaxFee
    split
    · rename_i s hs
      rw [b1 _ (by decide), a1 _ (by decide)] at hs
      obtain ⟨n, hn⟩ := h2 s hs
      exact ⟨_, by rw [hn]; rfl⟩
    · exact ⟨_, rfl⟩
  obtain ⟨d', hd'⟩ := hB
  exact ⟨d', by simp only [adjustDesign, hd1, R_bind_ok, hd']⟩

theorem validateDesign_ok {X : Ext} {d d' : List (Str × PVal)} : validateDesign X d = .ok d' ↔
    ∃ ca mf msp f n outsD outs', dictFind d py"change_address" = some (.str ca) ∧ vBitcoinAddress X ca = .ok () ∧
      dictFind d py"max_fee" = some mf ∧ vWholeNumber mf = .ok () ∧
      dictFind d py"max_spend_percentage" = some msp ∧ msp.toFloat X.uni = .ok f ∧ f.trunc = .ok n ∧ 0 ≤ n ∧ n ≤ 100 ∧
      dictFind d py"outputs" = some (.list outsD) ∧ mapR (validateOutput X) outsD = .ok outs' ∧
      validateFees X.uni (dictOpt d py"fee") (dictOpt d py"fee_rate") = .ok () ∧
      validateApproaches (dictOpt d py"input_selection_approaches") = .ok () ∧
      d' = dictSet d py"outputs" (.list outs') := by
  simp only [validateDesign, R_bind_eq_ok, vListContains_ok, dictGet_ok, vBitcoinAddressP_ok, vList_ok, R_pure,
    Except.ok.injEq, vIntegerDomain_ok (show (0 : Int) ≤ 100 by norm_num)]
  constructor
  · rintro ⟨_, hk, _, h1, mf, h2, msp, h3, _, h4, ca, ⟨rfl, h5⟩, _, h6, f, h7, n, h8, _, ⟨h9, h10⟩, outsD, rfl, outs', h11, _, h12, _, h13, rfl⟩
    exact ⟨ca, mf, msp, f, n, outsD, outs', h1, h5, h2, h6, h3, h7, h8, h9, h10, h4, h11, h12, h13, rfl⟩
  · rintro ⟨ca, mf, msp, f, n, outsD, outs', h1, h5, h2, h6, h3, h7, h8, h9, h10, h4, h11, h12, h13, rfl⟩
    refine ⟨(), ?_, _, h1, mf, h2, msp, h3, _, h4, ca, ⟨rfl, h5⟩, (), h6, f, h7, n, h8, (), ⟨h9, h10⟩, outsD, rfl, outs', h11, (), h12, (), h13, rfl⟩
    have hm : ∀ k v, dictFind d k = some v → k ∈ dictKeys d := by
      intro k v h
      clear h1 h5 h2 h6 h3 h7 h8 h9 h10 h4 h11 h12 h13
      induction d with
      | nil => simp [dictFind] at h
      | cons p d ih =>
        obtain ⟨j, w⟩ := p
        unfold dictFind at h
        by_cases e : j = k
        · simp [dictKeys, e]
        · rw [if_neg e] at h
          have := ih h
          simp only [dictKeys, List.map_cons, List.mem_cons] at this ⊢
          exact .inr this
    intro x hx
    simp only [List.mem_cons, List.not_mem_nil, or_false] at hx
    rcases hx with rfl | rfl | rfl | rfl
    exacts [hm _ _ h1, hm _ _ h2, hm _ _ h3, hm _ _ h4]

/-- `validate_options` -/
theorem validateOptions_ok {p q : PVal} {x : Unit} : validateOptions p q = .ok x ↔
    (p.isNone = true ∨ ∃ b, p = .bool b) ∧ (q.isNone = true ∨ vWholeNumber q = .ok ()) := by
  unfold validateOptions
  cases p <;> cases q <;> simp [PVal.isNone, vBoolean]

/-- what `prepare` does -/
theorem prepare_ok {X : Ext} {a : Args} {p : Plan} : prepare X a = .ok p ↔
    ∃ insD d d1 insZ outsD outsZ ca mf msp n,
      a.inputs = some (.list insD) ∧ a.design = some (.dict d) ∧ adjustDesign X.uni d = .ok d1 ∧
      List.Forall₂ (InStep X) insD insZ ∧
      dictFind d1 py"change_address" = some (.str ca) ∧ vBitcoinAddress X ca = .ok () ∧
      dictFind d1 py"max_fee" = some mf ∧ vWholeNumber mf = .ok () ∧
      dictFind d1 py"max_spend_percentage" = some msp ∧ msp.toFloat X.uni = .ok p.pct ∧ p.pct.trunc = .ok n ∧ 0 ≤ n ∧ n ≤ 100 ∧
      dictFind d1 py"outputs" = some (.list outsD) ∧ List.Forall₂ (OutStep X) outsD outsZ ∧
      validateFees X.uni (dictOpt d1 py"fee") (dictOpt d1 py"fee_rate") = .ok () ∧
      validateApproaches (dictOpt d1 py"input_selection_approaches") = .ok () ∧
      validateOptions (a.allowDup.getD .none) (a.changeIdx.getD .none) = .ok () ∧
      feeKind X.uni (dictOpt d1 py"fee") (dictOpt d1 py"fee_rate") = .ok p.kind ∧
      List.Forall₂ (fun z i => mkInput X z = .ok i) insZ p.ins ∧
      List.Forall₂ (fun z o => mkOutput X z = .ok o) outsZ p.outs ∧
      p.approaches = (dictFind d1 py"input_selection_approaches").getD (.list [.str py"largest_first"]) ∧
      p.maxFee = mf ∧ p.changeAddress = ca ∧ p.allowDup = (a.allowDup.getD .none).truthy ∧
      p.changeIdx = a.changeIdx.getD .none ∧
      p.after = { a with
        inputs := some (.list insZ), design := some (.dict (dictSet d1 py"outputs" (.list outsZ))) } := by
  have e1 : ∀ (d : List (Str × PVal)) v k, k ≠ py"outputs" → dictOpt (dictSet d py"outputs" v) k = dictOpt d k := by
    intro d v k hk; unfold dictOpt; rw [find_set_ne hk]
  constructor
  · intro h
    simp only [prepare, R_bind_eq_ok, vListContains_ok, asDict_ok, validateDesign_ok, R_pure, Except.ok.injEq] at h
    obtain ⟨_, hk, d, hd, d1, hadj, ins1, hins1, _, hval, d2, ⟨ca, mf, msp, f, n, outsD, outs', h1, h2, h3, h4, h5, h6, h7, h8, h9, h10, h11, h12, h13, rfl⟩,
      _, hopt, outsP, ho, outsL, hol, cap, hca, ca', hca', mf', hmf, msp', hmsp, pct, hpct, kind, hkind, insZ, hinsZ, outsZ, houtsZ, ins, hins, outs, houts, rfl⟩ := h
    simp only [dictGet_ok, find_set_eq, find_set_ne (show py"change_address" ≠ py"outputs" by decide),
      find_set_ne (show py"max_fee" ≠ py"outputs" by decide), find_set_ne (show py"max_spend_percentage" ≠ py"outputs" by decide),
      Option.some.injEq] at ho hca hmf hmsp
    subst ho
    rw [vList_ok] at hol; injection hol with hol; subst hol
    rw [h1] at hca; injection hca with hca; subst hca
    rw [vString_ok] at hca'; injection hca' with hca'; subst hca'
    rw [h3] at hmf; injection hmf with hmf; subst hmf
    rw [h5] at hmsp; injection hmsp with hmsp; subst hmsp
    rw [h6] at hpct; injection hpct with hpct; subst hpct
    rw [e1 _ _ _ (by decide), e1 _ _ _ (by decide)] at hkind
    have hdes : a.design = some (.dict d) := by
      cases hh : a.design with
      | none => rw [hh] at hd; simp at hd
      | some v => rw [hh] at hd; simp at hd; rw [hd]
    obtain ⟨insD, hinsD⟩ : ∃ insD, a.inputs = some (.list insD) := by
      cases hh : a.inputs with
      | none => rw [hh] at hins1; simp [adjustInputs] at hins1
      | some v =>
        rw [hh] at hins1
        cases v with
        | list l => exact ⟨l, rfl⟩
        | _ => simp [adjustInputs] at hins1
    rw [hinsD] at hins1
    simp only [Option.getD_some, adjustInputs, mapR_ok] at hins1
    simp only [validateInputs, R_bind_eq_ok, mapR_ok] at hval
    obtain ⟨vs, hvs, _⟩ := hval
    rw [mapR_ok] at hinsZ houtsZ hins houts h11
    refine ⟨insD, d, d1, insZ, outsD, outsZ, ca, mf, msp, n, hinsD, hdes, hadj, ?_, h1, h2, h3, h4, h5, h6, h7, h8, h9, h10, ?_, h12, h13, hopt, hkind, hins, houts, ?_, rfl, rfl, rfl, rfl, by rw [set_set]⟩
    · have hv : List.Forall₂ (fun y z => validateInput X y = .ok () ∧ addSatoshi X.uni y = .ok z) ins1 insZ := by
        clear hins1 hins
        induction hinsZ generalizing vs with
        | nil => exact .nil
        | cons h _ ih =>
          cases hvs with
          | cons h' hvs => exact .cons ⟨h', h⟩ (ih _ hvs)
      have := forall₂_comp.2 ⟨_, hins1, hv⟩
      exact this.imp fun x z hxz => inStep_iff.1 hxz
    · have := forall₂_comp.2 ⟨_, h11, houtsZ⟩
      exact this.imp fun x z hxz => outStep_iff.1 hxz
    · show (dictFind (dictSet d1 _ _) _).getD _ = _
      rw [find_set_ne (by decide)]
  · rintro ⟨insD, d, d1, insZ, outsD, outsZ, ca, mf, msp, n, hinsD, hdes, hadj, hinZ, h1, h2, h3, h4, h5, h6, h7, h8, h9, h10, houtZ, h12, h13, hopt, hkind, hins, houts, ha, rfl, rfl, hdup, hidx, hafter⟩
    obtain ⟨ins1, a1, a2⟩ := forall₂_comp.1 (hinZ.imp fun x z hxz => inStep_iff.2 hxz)
    obtain ⟨outs1, b1, b2⟩ := forall₂_comp.1 (houtZ.imp fun x z hxz => outStep_iff.2 hxz)
    have hval : validateInputs X ins1 = .ok () := by
      have : List.Forall₂ (fun y (_ : Unit) => validateInput X y = .ok ()) ins1 (ins1.map fun _ => ()) := by
        clear a1 hins hinZ hafter
        induction a2 with
        | nil => exact .nil
        | cons h _ ih => exact .cons h.1 ih
      simp only [validateInputs, R_bind_eq_ok, mapR_ok]
      exact ⟨_, this.imp fun _ _ h => h, rfl⟩
    simp only [prepare, R_bind_eq_ok, vListContains_ok, asDict_ok, validateDesign_ok, R_pure, Except.ok.injEq]
    refine ⟨(), ?_, d, by rw [hdes]; rfl, d1, hadj, ins1, ?_, (), hval, _, ⟨p.changeAddress, p.maxFee, msp, p.pct, n, outsD, outs1, h1, h2, h3, h4, h5, h6, h7, h8, h9, h10, ?_, h12, h13, rfl⟩,
      (), hopt, .list outs1, ?_, outs1, ?_, .str p.changeAddress, ?_, p.changeAddress, ?_, p.maxFee, ?_, msp, ?_, _, h6, p.kind, ?_, insZ, ?_, outsZ, ?_, p.ins, ?_, p.outs, ?_, ?_⟩
    · intro k hk
      simp only [List.mem_cons, List.not_mem_nil, or_false] at hk
      rcases hk with rfl | rfl <;> simp [Args.keys, hinsD, hdes]
    · rw [hinsD]; simp only [Option.getD_some, adjustInputs, mapR_ok]; exact a1
    · rw [mapR_ok]; exact b1
    · rw [dictGet_ok, find_set_eq]
    · rw [vList_ok]
    · rw [dictGet_ok, find_set_ne (by decide)]; exact h1
    · rfl
    · rw [dictGet_ok, find_set_ne (by decide)]; exact h3
    · rw [dictGet_ok, find_set_ne (by decide)]; exact h5
    · rw [e1 _ _ _ (by decide), e1 _ _ _ (by decide)]; exact hkind
    · rw [mapR_ok]; exact a2.imp fun _ _ h => h.2
    · rw [mapR_ok]; exact b2
    · rw [mapR_ok]; exact hins
    · rw [mapR_ok]; exact houts
    · rw [find_set_ne (by decide), set_set, ← ha, ← hdup, ← hidx, ← hafter]

end BT
