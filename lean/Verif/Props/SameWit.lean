import Verif.Props.Same3
import Verif.Props.RetryWit

/-! # Concrete cases for C130-C133 -/

namespace BT
open Spec Concrete Same

/-- `argsFee` in other words: other spellings of the numbers, other orders of the keys, defaults written out, a note -/
def argsOther : Args :=
  { inputs := some (.list [
      .dict [(py"bitcoin_amount", .str py"00.00070"), (py"address", .str (toyAddr 1)), (py"previous_output_index", .str py" 3"),
        (py"transaction_id", .str (List.replicate 64 'a'))],
      inD 2 'b' (.int 0) py"0.0003000", inD 1 'c' (.str py"01") py"0.00090000"])
    design := some (.dict [(py"note", .str py"rent"), (py"fee", .str py"1_000"), (py"outputs", .list [outD 2 py"0.00050", outD 1 py"0.00060000"]),
      (py"max_spend_percentage", .int 100), (py"max_fee", .str py"250000"), (py"change_address", .str (toyAddr 3)),
      (py"input_selection_approaches", .list [.str py"largest_first"])])
    allowDup := some (.bool false)
    changeIdx := some .none }

theorem amt7' : AmountOf Xtoy.uni py"00.00070" 70000 := ⟨py"00", py"00070", .inl rfl, by decide, by decide, by decide +kernel, by decide +kernel⟩
theorem amt3' : AmountOf Xtoy.uni py"0.0003000" 30000 := ⟨py"0", py"0003000", .inl rfl, by decide, by decide, by decide +kernel, by decide +kernel⟩
theorem amt9' : AmountOf Xtoy.uni py"0.00090000" 90000 := ⟨py"0", py"00090000", .inl rfl, by decide, by decide, by decide +kernel, by decide +kernel⟩
theorem amt5' : AmountOf Xtoy.uni py"0.00050" 50000 := ⟨py"0", py"00050", .inl rfl, by decide, by decide, by decide +kernel, by decide +kernel⟩
theorem amt6' : AmountOf Xtoy.uni py"0.00060000" 60000 := ⟨py"0", py"00060000", .inl rfl, by decide, by decide, by decide +kernel, by decide +kernel⟩

/-- the objects of the sample -/
theorem sample_objects : ∃ i1 i2 i3 o1 o2, TxIn.create Xtoy (toyAddr 1) (List.replicate 64 'a') 3 70000 = .ok i1 ∧
    TxIn.create Xtoy (toyAddr 2) (List.replicate 64 'b') 0 30000 = .ok i2 ∧ TxIn.create Xtoy (toyAddr 1) (List.replicate 64 'c') 1 90000 = .ok i3 ∧
    TxOut.create Xtoy (toyAddr 2) 50000 = .ok o1 ∧ TxOut.create Xtoy (toyAddr 1) 60000 = .ok o2 ∧
    (∀ i ∈ [i1, i2, i3], 0 < i.satoshi.getD 0) ∧ (∀ o ∈ [o1, o2], 0 < o.satoshi) ∧ o1.satoshi = 50000 ∧ o2.satoshi = 60000 ∧
    o1.address = toyAddr 2 ∧ o2.address = toyAddr 1 := by
  obtain ⟨i1, h1⟩ := isOk_exists (x := TxIn.create Xtoy (toyAddr 1) (List.replicate 64 'a') 3 70000) (by decide +kernel)
  obtain ⟨i2, h2⟩ := isOk_exists (x := TxIn.create Xtoy (toyAddr 2) (List.replicate 64 'b') 0 30000) (by decide +kernel)
  obtain ⟨i3, h3⟩ := isOk_exists (x := TxIn.create Xtoy (toyAddr 1) (List.replicate 64 'c') 1 90000) (by decide +kernel)
  obtain ⟨o1, g1⟩ := isOk_exists (x := TxOut.create Xtoy (toyAddr 2) 50000) (by decide +kernel)
  obtain ⟨o2, g2⟩ := isOk_exists (x := TxOut.create Xtoy (toyAddr 1) 60000) (by decide +kernel)
  have s1 := (create_satoshi toy_sha g1).1
  have s2 := (create_satoshi toy_sha g2).1
  obtain ⟨_, _, _, _, _, _, _, _, _, _, _, _, _, _, _, _, _, _, t1, _⟩ := C24_create Xtoy toy_sha _ _ _ _ _ h1
  obtain ⟨_, _, _, _, _, _, _, _, _, _, _, _, _, _, _, _, _, _, t2, _⟩ := C24_create Xtoy toy_sha _ _ _ _ _ h2
  obtain ⟨_, _, _, _, _, _, _, _, _, _, _, _, _, _, _, _, _, _, t3, _⟩ := C24_create Xtoy toy_sha _ _ _ _ _ h3
  exact ⟨i1, i2, i3, o1, o2, h1, h2, h3, g1, g2, by simp [t1, t2, t3], by simp [s1, s2], s1, s2, ((C24_output Xtoy toy_sha _ _).1 o1 g1).1, ((C24_output Xtoy toy_sha _ _).1 o2 g2).1⟩

theorem forall_mem3 {P : PVal → Prop} {a b c : PVal} (h1 : P a) (h2 : P b) (h3 : P c) : ∀ x ∈ [a, b, c], P x := by
  intro x hx
  simp only [List.mem_cons, List.not_mem_nil, or_false] at hx
  rcases hx with rfl | rfl | rfl <;> assumption

theorem forall_mem2 {P : PVal → Prop} {a b : PVal} (h1 : P a) (h2 : P b) : ∀ x ∈ [a, b], P x := by
  intro x hx
  simp only [List.mem_cons, List.not_mem_nil, or_false] at hx
  rcases hx with rfl | rfl <;> assumption

theorem rate100 : GoodRate Xtoy.uni (.str py"100.00") 100 :=
  .inr ⟨py"100", py"00", by decide, .inl ⟨rfl, by decide⟩, by decide +kernel, by
    have : numeral Xtoy.uni (py"100" ++ py"00") = 10000 := by decide +kernel
    rw [this]; norm_num⟩

/-- **C130**: the two ways of asking give the same transaction, with inputs of 90000 and 70000 satoshi -/
theorem C130_example : ∃ t a' b', createTransaction Xtoy argsFee = .ok (t, a') ∧ createTransaction Xtoy argsOther = .ok (t, b') ∧
    (t.inputs.map fun i => i.satoshi.getD 0) = [90000, 70000] := by
  obtain ⟨i1, i2, i3, o1, o2, h1, h2, h3, g1, g2, hp, hq, _⟩ := sample_objects
  obtain ⟨t, a', h, _, hv, _⟩ := view_ok argsFee_run
  have ha : PositiveRequest Xtoy argsFee [i1, i2, i3] [o1, o2] :=
    ⟨_, _, rfl, rfl, .cons ⟨_, _, _, _, _, _, rfl, rfl, rfl, rfl, rfl, amt7, h1⟩ (.cons ⟨_, _, _, _, _, _, rfl, rfl, rfl, by decide +kernel, rfl, amt3, h2⟩
      (.cons ⟨_, _, _, _, _, _, rfl, rfl, rfl, rfl, rfl, amt9, h3⟩ .nil)),
      .cons ⟨_, _, _, rfl, rfl, amt5, g1⟩ (.cons ⟨_, _, _, rfl, rfl, amt6, g2⟩ .nil),
      forall_mem3 ⟨_, rfl, List.Perm.refl _⟩ ⟨_, rfl, List.Perm.refl _⟩ ⟨_, rfl, List.Perm.refl _⟩,
      forall_mem2 ⟨_, rfl, List.Perm.refl _⟩ ⟨_, rfl, List.Perm.refl _⟩, hp, hq⟩
  have hb : PositiveRequest Xtoy argsOther [i1, i2, i3] [o1, o2] :=
    ⟨_, _, rfl, rfl, .cons ⟨_, _, _, _, _, _, rfl, rfl, rfl, by decide +kernel, rfl, amt7', h1⟩ (.cons ⟨_, _, _, _, _, _, rfl, rfl, rfl, rfl, rfl, amt3', h2⟩
      (.cons ⟨_, _, _, _, _, _, rfl, rfl, rfl, by decide +kernel, rfl, amt9', h3⟩ .nil)),
      .cons ⟨_, _, _, rfl, rfl, amt5', g1⟩ (.cons ⟨_, _, _, rfl, rfl, amt6', g2⟩ .nil),
      forall_mem3 ⟨_, rfl, by decide⟩ ⟨_, rfl, List.Perm.refl _⟩ ⟨_, rfl, List.Perm.refl _⟩,
      forall_mem2 ⟨_, rfl, List.Perm.refl _⟩ ⟨_, rfl, List.Perm.refl _⟩, hp, hq⟩
  have hS : SameSettings Xtoy.uni argsFee argsOther :=
    { change := rfl
      fee := .inr ⟨_, _, 1000, rfl, rfl, .inl rfl, .inr ⟨_, rfl, by decide +kernel⟩⟩
      cap := .inr ⟨_, _, 250000, rfl, rfl, .inl rfl, .inr ⟨_, rfl, by decide +kernel⟩⟩
      rate := .inl rfl
      pct := .inr ⟨_, _, 100, rfl, rfl, rate100, .inl ⟨100, rfl, by norm_num⟩⟩
      mode := rfl
      dup := .inr ⟨.inl rfl, .inr rfl⟩
      idx := rfl }
  obtain ⟨b', hb'⟩ := C130_success toy_sha ha hb hS h
  exact ⟨t, a', b', h, hb', hv⟩

/-- the sample with its payments listed backwards -/
def argsBackwards : Args :=
  argsOf [inD 1 'a' (.int 3) py"0.0007", inD 2 'b' (.str py"0") py"0.0003", inD 1 'c' (.int 1) py"0.0009"]
    [outD 1 py"0.0006", outD 2 py"0.0005"] [(py"fee", .int 1000)]

theorem sameSettings_refl (u : UniDB) (a b : Args) (h : ∀ k, k ≠ py"outputs" → setting a k = setting b k) (h1 : a.allowDup = b.allowDup) (h2 : a.changeIdx = b.changeIdx) :
    SameSettings u a b where
  change := h _ (by decide)
  fee := .inl (h _ (by decide))
  cap := .inl (h _ (by decide))
  rate := .inl (h _ (by decide))
  pct := .inl (h _ (by decide))
  mode := by unfold SameMode; rw [h _ (by decide)]
  dup := .inl (by unfold SameOption; rw [h1])
  idx := by unfold SameOption; rw [h2]

theorem argsOf_same (u : UniDB) (ins outs outs' : List PVal) (more : List (Str × PVal)) : SameSettings u (argsOf ins outs more) (argsOf ins outs' more) := by
  refine sameSettings_refl u _ _ (fun k hk => ?_) rfl rfl
  have hk' : ¬ py"outputs" = k := fun e => hk e.symm
  simp only [setting, argsOf, Option.bind_some, entry, List.cons_append, List.nil_append]
  generalize toyAddr 3 = z
  simp only [dictFind, hk', if_false]

/-- **C131**: the same inputs, and the payments of 50000 and 60000 satoshi and the change of 49000 in some order -/
theorem C131_example : ∃ t t' a' b', createTransaction Xtoy argsFee = .ok (t, a') ∧ createTransaction Xtoy argsBackwards = .ok (t', b') ∧
    t'.inputs = t.inputs ∧ t'.outputs.Perm t.outputs ∧ (t.outputs.map fun o => (o.address, o.satoshi)) = [(toyAddr 3, 49000), (toyAddr 2, 50000), (toyAddr 1, 60000)] := by
  obtain ⟨i1, i2, i3, o1, o2, h1, h2, h3, g1, g2, hp, hq, _, _, ad1, ad2⟩ := sample_objects
  obtain ⟨t, a', h, _, _, hv⟩ := view_ok argsFee_run
  have hI : List.Forall₂ (Offers Xtoy) [inD 1 'a' (.int 3) py"0.0007", inD 2 'b' (.str py"0") py"0.0003", inD 1 'c' (.int 1) py"0.0009"] [i1, i2, i3] :=
    .cons ⟨_, _, _, _, _, _, rfl, rfl, rfl, rfl, rfl, amt7, h1⟩ (.cons ⟨_, _, _, _, _, _, rfl, rfl, rfl, by decide +kernel, rfl, amt3, h2⟩
      (.cons ⟨_, _, _, _, _, _, rfl, rfl, rfl, rfl, rfl, amt9, h3⟩ .nil))
  have ha : PositiveRequest Xtoy argsFee [i1, i2, i3] [o1, o2] :=
    ⟨_, _, rfl, rfl, hI, .cons ⟨_, _, _, rfl, rfl, amt5, g1⟩ (.cons ⟨_, _, _, rfl, rfl, amt6, g2⟩ .nil),
      forall_mem3 ⟨_, rfl, List.Perm.refl _⟩ ⟨_, rfl, List.Perm.refl _⟩ ⟨_, rfl, List.Perm.refl _⟩,
      forall_mem2 ⟨_, rfl, List.Perm.refl _⟩ ⟨_, rfl, List.Perm.refl _⟩, hp, hq⟩
  have hb : PositiveRequest Xtoy argsBackwards [i1, i2, i3] [o2, o1] :=
    ⟨_, _, rfl, rfl, hI, .cons ⟨_, _, _, rfl, rfl, amt6, g2⟩ (.cons ⟨_, _, _, rfl, rfl, amt5, g1⟩ .nil),
      forall_mem3 ⟨_, rfl, List.Perm.refl _⟩ ⟨_, rfl, List.Perm.refl _⟩ ⟨_, rfl, List.Perm.refl _⟩,
      forall_mem2 ⟨_, rfl, List.Perm.refl _⟩ ⟨_, rfl, List.Perm.refl _⟩, hp, fun o ho => hq o ((List.Perm.swap o1 o2 []).mem_iff.1 ho)⟩
  obtain ⟨t', b', hr, hperm, he⟩ := C131_any_order (ca := toyAddr 3) toy_sha h ha hb (List.Perm.swap _ _ _)
    (argsOf_same _ _ _ _ _) rfl
    (by
      have n1 : ¬ toyAddr 2 = toyAddr 3 := by decide +kernel
      have n2 : ¬ toyAddr 1 = toyAddr 3 := by decide +kernel
      simp [List.filter_cons, ad1, ad2, n1, n2])
  exact ⟨t, t', a', b', h, hr, by rw [he], hperm, hv⟩

/-- the sample without its second payment -/
def argsLess : Args :=
  argsOf [inD 1 'a' (.int 3) py"0.0007", inD 2 'b' (.str py"0") py"0.0003", inD 1 'c' (.int 1) py"0.0009"] [outD 2 py"0.0005"] [(py"fee", .int 1000)]

/-- **C133**, **C132**: the sample succeeds without its second payment; the coin of 90000 satoshi is spent in both cases, that of 70000 only for both payments -/
theorem C133_example : ∃ t t' a' b' f', createTransaction Xtoy argsFee = .ok (t, a') ∧ createTransaction Xtoy argsLess = .ok (t', b') ∧
    t'.fee = some f' ∧ f' ≤ 1000 ∧ t'.inputs <+: t.inputs ∧ (t.inputs.map fun i => i.satoshi.getD 0) = [90000, 70000] := by
  obtain ⟨i1, i2, i3, o1, o2, h1, h2, h3, g1, g2, hp, hq, s1, s2, ad1, ad2⟩ := sample_objects
  obtain ⟨t, a', h, hf, hv, _⟩ := view_ok argsFee_run
  have n1 : ¬ toyAddr 2 = toyAddr 3 := by decide +kernel
  have n2 : ¬ toyAddr 1 = toyAddr 3 := by decide +kernel
  have hI : List.Forall₂ (Offers Xtoy) [inD 1 'a' (.int 3) py"0.0007", inD 2 'b' (.str py"0") py"0.0003", inD 1 'c' (.int 1) py"0.0009"] [i1, i2, i3] :=
    .cons ⟨_, _, _, _, _, _, rfl, rfl, rfl, rfl, rfl, amt7, h1⟩ (.cons ⟨_, _, _, _, _, _, rfl, rfl, rfl, by decide +kernel, rfl, amt3, h2⟩
      (.cons ⟨_, _, _, _, _, _, rfl, rfl, rfl, rfl, rfl, amt9, h3⟩ .nil))
  have hIk := forall_mem3 (P := KeysAre [py"address", py"transaction_id", py"previous_output_index", py"bitcoin_amount"]) (a := inD 1 'a' (.int 3) py"0.0007")
    (b := inD 2 'b' (.str py"0") py"0.0003") (c := inD 1 'c' (.int 1) py"0.0009") ⟨_, rfl, List.Perm.refl _⟩ ⟨_, rfl, List.Perm.refl _⟩ ⟨_, rfl, List.Perm.refl _⟩
  have ha : PositiveRequest Xtoy argsFee [i1, i2, i3] [o1, o2] :=
    ⟨_, _, rfl, rfl, hI, .cons ⟨_, _, _, rfl, rfl, amt5, g1⟩ (.cons ⟨_, _, _, rfl, rfl, amt6, g2⟩ .nil), hIk,
      forall_mem2 ⟨_, rfl, List.Perm.refl _⟩ ⟨_, rfl, List.Perm.refl _⟩, hp, hq⟩
  have hb : PositiveRequest Xtoy argsLess [i1, i2, i3] [o1] :=
    ⟨_, _, rfl, rfl, hI, .cons ⟨_, _, _, rfl, rfl, amt5, g1⟩ .nil, hIk,
      fun x hx => by simp only [List.mem_cons, List.not_mem_nil, or_false] at hx; subst hx; exact ⟨_, rfl, List.Perm.refl _⟩, hp,
      fun o ho => hq o (List.mem_cons.2 (.inl (List.mem_singleton.1 ho)))⟩
  obtain ⟨t', b', f', hr, hf', hle, hpre⟩ := C133_asking_less_partial (ca := toyAddr 3) toy_sha h ha hb (argsOf_same _ _ _ _ _) rfl
    (by intro o ho; simp only [List.mem_cons, List.not_mem_nil, or_false] at ho; rcases ho with rfl | rfl
        · rw [ad1]; exact n1
        · rw [ad2]; exact n2)
    (by intro o ho; simp only [List.mem_cons, List.not_mem_nil, or_false] at ho; subst ho; rw [ad1]; exact n1)
    (by simp [outTotal, s1, s2]) (by simp) (by simp) (.inl (by simp)) hf
  exact ⟨t, t', a', b', f', h, hr, hf', hle, hpre, hv⟩

/-- **C132** met: the call that needs 111000 satoshi and the one that needs 51000 -/
example : ∃ t t' a' b', createTransaction Xtoy argsLess = .ok (t, a') ∧ createTransaction Xtoy argsFee = .ok (t', b') ∧ t.inputs <+: t'.inputs := by
  obtain ⟨i1, i2, i3, o1, o2, h1, h2, h3, g1, g2, hp, hq, s1, s2, ad1, ad2⟩ := sample_objects
  obtain ⟨t', b', h', hf', _, _⟩ := view_ok argsFee_run
  have run : view (createTransaction Xtoy argsLess) = some (some 1000, [90000], [(toyAddr 3, 39000), (toyAddr 2, 50000)]) := by decide +kernel
  obtain ⟨t, a', h, hf, _, _⟩ := view_ok run
  have hI : List.Forall₂ (Offers Xtoy) [inD 1 'a' (.int 3) py"0.0007", inD 2 'b' (.str py"0") py"0.0003", inD 1 'c' (.int 1) py"0.0009"] [i1, i2, i3] :=
    .cons ⟨_, _, _, _, _, _, rfl, rfl, rfl, rfl, rfl, amt7, h1⟩ (.cons ⟨_, _, _, _, _, _, rfl, rfl, rfl, by decide +kernel, rfl, amt3, h2⟩
      (.cons ⟨_, _, _, _, _, _, rfl, rfl, rfl, rfl, rfl, amt9, h3⟩ .nil))
  refine ⟨t, t', a', b', h, h', C132_more_spends_more (ins := [i1, i2, i3]) (outs := [o1]) (outs' := [o1, o2]) (m := py"largest_first") toy_sha h h'
    ⟨_, _, rfl, rfl, hI, .cons ⟨_, _, _, rfl, rfl, amt5, g1⟩ .nil⟩
    ⟨_, _, rfl, rfl, hI, .cons ⟨_, _, _, rfl, rfl, amt5, g1⟩ (.cons ⟨_, _, _, rfl, rfl, amt6, g2⟩ .nil)⟩ (.inr ⟨rfl, rfl⟩) (.inr ⟨rfl, rfl⟩) hf hf' (by simp [outTotal, s1, s2])⟩

/-- coins of 50000 and 20000 satoshi, payments of 40000 to the change address, of 9000, and possibly of 10000; at most 30% may be spent -/
def argsBack (outs : List PVal) : Args :=
  { inputs := some (.list [inD 1 'a' (.int 3) py"0.0005", inD 2 'b' (.int 0) py"0.0002"])
    design := some (.dict [(py"change_address", .str (toyAddr 3)), (py"max_fee", .int 250000), (py"max_spend_percentage", .int 30), (py"outputs", .list outs), (py"fee", .int 1000)]) }

theorem argsBack_run : view (createTransaction Xtoy (argsBack ([outD 3 py"0.0004", outD 2 py"0.00009"] ++ [outD 1 py"0.0001"]))) =
    some (some 1000, [50000, 20000], [(toyAddr 3, 50000), (toyAddr 2, 9000), (toyAddr 1, 10000)]) := by decide +kernel

theorem argsBack_less : Retry.errOf (createTransaction Xtoy (argsBack [outD 3 py"0.0004", outD 2 py"0.00009"])) = some .valueError := by decide +kernel

/-- **C133 fails** when a payment goes to the change address: without the payment of 10000 satoshi one coin suffices exactly, no change is due, and then the 40000 satoshi that go back to
the change address count as spent: the spending limit refuses the smaller request. -/
theorem C133_violation_occurs : ∃ (outs : List PVal) (x : PVal) (t : Tx) (a' : Args), createTransaction Xtoy (argsBack (outs ++ [x])) = .ok (t, a') ∧
    (t.outputs.map fun o => (o.address, o.satoshi)) = [(toyAddr 3, 50000), (toyAddr 2, 9000), (toyAddr 1, 10000)] ∧
    createTransaction Xtoy (argsBack outs) = .error .valueError := by
  obtain ⟨t, a', h, _, _, hv⟩ := view_ok argsBack_run
  exact ⟨_, _, t, a', h, hv, Retry.errOf_some argsBack_less⟩

end BT
