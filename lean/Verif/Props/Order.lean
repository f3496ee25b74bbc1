import Verif.Lemmas.Order
import Verif.Props.CreateWit

/-!
# The list of available inputs (C99, C100)

`inputs.json` is a list of coins; the order in which the coins are listed, and coins that are not
spent, should not matter.
-/

namespace BT
open Spec Concrete

variable {X : Ext}

/-! ## C99: the order of the available inputs -/

/-- **C99**: when the available inputs are listed in another order, `create_transaction` again
succeeds; the transaction has the same outputs, version, change address and so on, and its inputs
have the same amounts in the same order. -/
theorem C99_any_order (hs : ∀ b, (X.sha256 b).length = 32) {a b a' : Args} {t : Tx} (h : createTransaction X a = .ok (t, a'))
    (hd : b.design = a.design) (h1 : b.allowDup = a.allowDup) (h2 : b.changeIdx = a.changeIdx)
    {l l' : List PVal} (hl : a.inputs = some (.list l)) (hl' : b.inputs = some (.list l')) (hp : l'.Perm l) :
    ∃ t' b', createTransaction X b = .ok (t', b') ∧ t' = { t with inputs := t'.inputs } ∧
      (t'.inputs.map fun i => i.satoshi.getD 0) = t.inputs.map fun i => i.satoshi.getD 0 := by
  obtain ⟨p, m, fee, sel, outs', ch, q, hpp, B, rfl⟩ := (create_ok hs).1 h
  obtain ⟨insD, e1, e2⟩ := prepare_entries hpp
  rw [hl] at e1; injection e1 with e1; injection e1 with e1; subst e1
  obtain ⟨ins, f1, f2⟩ := List.perm_comp_forall₂ hp e2
  obtain ⟨b', hb⟩ := prepare_other hpp ⟨hd.symm, h1.symm, h2.symm⟩ hl' f1
  obtain ⟨sel', B', hsel, _⟩ := built_perm B f2 b'
  refine ⟨reInput t sel', _, (create_ok hs).2 ⟨_, m, fee, sel', outs', ch, q, hb, B', rfl⟩, rfl, ?_⟩
  show sel'.map TxIn.amount = t.inputs.map TxIn.amount
  rw [hsel, B.tx_eq]

/-- **C99**: if moreover no two available inputs have the same amount, the very same transaction is
made. -/
theorem C99_same_transaction (hs : ∀ b, (X.sha256 b).length = 32) {a b a' : Args} {t : Tx} (h : createTransaction X a = .ok (t, a'))
    (hd : b.design = a.design) (h1 : b.allowDup = a.allowDup) (h2 : b.changeIdx = a.changeIdx)
    {l l' : List PVal} (hl : a.inputs = some (.list l)) (hl' : b.inputs = some (.list l')) (hp : l'.Perm l)
    {ins : List TxIn} {outs : List TxOut} (R : Request X a ins outs) (hn : (ins.map fun i => i.satoshi.getD 0).Nodup) :
    ∃ b', createTransaction X b = .ok (t, b') := by
  obtain ⟨p, m, fee, sel, outs', ch, q, hpp, B, rfl⟩ := (create_ok hs).1 h
  obtain ⟨insD, e1, e2⟩ := prepare_entries hpp
  rw [hl] at e1; injection e1 with e1; injection e1 with e1; subst e1
  obtain ⟨ins', f1, f2⟩ := List.perm_comp_forall₂ hp e2
  obtain ⟨b', hb⟩ := prepare_other hpp ⟨hd.symm, h1.symm, h2.symm⟩ hl' f1
  obtain ⟨sel', B', _, hsel⟩ := built_perm B f2 b'
  obtain ⟨hi, _⟩ := request_unique R (prepare_request hpp)
  have : sel' = sel := by
    rw [hsel, B.sel_eq, arranged_unique f2.symm (by rw [hi]; exact hn)]
  subst this
  have ht : reInput t sel' = t := by rw [B.tx_eq]; rfl
  rw [ht] at B'
  exact ⟨_, (create_ok hs).2 ⟨_, m, fee, sel', outs', ch, q, hb, B', rfl⟩⟩

/-- the sample with its inputs listed backwards -/
example : ∃ t a' b', createTransaction Xtoy argsFee = .ok (t, a') ∧
    createTransaction Xtoy (argsOf [inD 1 'c' (.int 1) py"0.0009", inD 2 'b' (.str py"0") py"0.0003", inD 1 'a' (.int 3) py"0.0007"]
      [outD 2 py"0.0005", outD 1 py"0.0006"] [(py"fee", .int 1000)]) = .ok (t, b') ∧ (t.inputs.map fun i => i.satoshi.getD 0) = [90000, 70000] := by
  obtain ⟨t, a', h, _, h2, _⟩ := view_ok argsFee_run
  obtain ⟨i1, g1, s1⟩ := inD_offers (k := 1) (c := 'a') (v := .int 3) (idx := 3) rfl amt7 (by decide +kernel)
  obtain ⟨i2, g2, s2⟩ := inD_offers (k := 2) (c := 'b') (v := .str py"0") (idx := 0) (by decide +kernel) amt3 (by decide +kernel)
  obtain ⟨i3, g3, s3⟩ := inD_offers (k := 1) (c := 'c') (v := .int 1) (idx := 1) rfl amt9 (by decide +kernel)
  obtain ⟨o1, k1, _⟩ := outD_asks (k := 2) amt5 (by decide +kernel)
  obtain ⟨o2, k2, _⟩ := outD_asks (k := 1) amt6 (by decide +kernel)
  have R : Request Xtoy argsFee [i1, i2, i3] [o1, o2] := ⟨_, _, rfl, rfl, .cons g1 (.cons g2 (.cons g3 .nil)), .cons k1 (.cons k2 .nil)⟩
  obtain ⟨b', hb⟩ := C99_same_transaction toy_sha h
    (b := argsOf [inD 1 'c' (.int 1) py"0.0009", inD 2 'b' (.str py"0") py"0.0003", inD 1 'a' (.int 3) py"0.0007"] [outD 2 py"0.0005", outD 1 py"0.0006"] [(py"fee", .int 1000)])
    rfl rfl rfl (l := [inD 1 'a' (.int 3) py"0.0007", inD 2 'b' (.str py"0") py"0.0003", inD 1 'c' (.int 1) py"0.0009"])
    (l' := [inD 1 'c' (.int 1) py"0.0009", inD 2 'b' (.str py"0") py"0.0003", inD 1 'a' (.int 3) py"0.0007"]) rfl rfl
    (List.reverse_perm [inD 1 'a' (.int 3) py"0.0007", inD 2 'b' (.str py"0") py"0.0003", inD 1 'c' (.int 1) py"0.0009"]) R
    (by simp [s1, s2, s3])
  exact ⟨t, a', b', h, hb, h2⟩

/-! ## C100: coins that are not spent -/

/-- The keys an entry of `inputs` must have. -/
def InputKeys (x : PVal) : Prop :=
  ∃ d, x = .dict d ∧ (dictKeys d).Perm [py"address", py"transaction_id", py"previous_output_index", py"bitcoin_amount"]

/-- **C100** (what does hold): with an explicit fee and the approach `largest_first` or
`smallest_first`, further coins at the end of the list that are all smaller (larger) than every
coin spent so far change nothing, as long as there are at most 252 coins and the total stays below 21
million bitcoin. (They are not spent, and the spending limit of at most 100% cannot shrink.) -/
theorem C100_unspent_coins_partial (hs : ∀ b, (X.sha256 b).length = 32) {a b a' : Args} {t : Tx} (h : createTransaction X a = .ok (t, a'))
    (hd : b.design = a.design) (h1 : b.allowDup = a.allowDup) (h2 : b.changeIdx = a.changeIdx)
    {l e : List PVal} (hl : a.inputs = some (.list l)) (hl' : b.inputs = some (.list (l ++ e)))
    {ins more : List TxIn} {outs : List TxOut} (R : Request X a ins outs) (he : List.Forall₂ (Offers X) e more) (hk : ∀ x ∈ e, InputKeys x)
    (hpos : ∀ i ∈ ins ++ more, 0 < i.satoshi.getD 0) (hn : (ins ++ more).length ≤ 252) (ht : inTotal (ins ++ more) ≤ 2100000000000000)
    {v w : PVal} {fee : Int} (hf : setting a py"fee" = some v) (hfv : NumberOf X.uni v fee) (hf0 : fee ≠ 0)
    {pct : ℚ} (hw : setting a py"max_spend_percentage" = some w) (hpc : GoodRate X.uni w pct) (h100 : pct ≤ 100)
    (hm : (Mode a py"largest_first" ∧ ∀ x ∈ more, ∀ s ∈ t.inputs, x.satoshi.getD 0 < s.satoshi.getD 0) ∨
      (Mode a py"smallest_first" ∧ ∀ x ∈ more, ∀ s ∈ t.inputs, s.satoshi.getD 0 < x.satoshi.getD 0)) :
    ∃ b', createTransaction X b = .ok (t, b') := by
  obtain ⟨p, m, fee', sel, outs', ch, q, hpp, B, rfl⟩ := (create_ok hs).1 h
  obtain ⟨insD, e1, e2⟩ := prepare_entries hpp
  rw [hl] at e1; injection e1 with e1; injection e1 with e1; subst e1
  obtain ⟨hi, ho⟩ := request_unique R (prepare_request hpp)
  obtain ⟨_, _, _, ⟨w', g1, g2⟩, g3, g4, _⟩ := prepare_settings hpp
  -- the entries added are good
  have hE : List.Forall₂ (EntryOk X) e more := by
    have hpm : ∀ i ∈ more, 0 < i.satoshi.getD 0 := fun i hi => hpos i (by simp [hi])
    clear hl' hm hn ht hpos
    induction he with
    | nil => exact .nil
    | cons hx _ ih =>
      rename_i x i e' more' _
      refine .cons ?_ (ih (fun y hy => hk y (by simp [hy])) fun j hj => hpm j (by simp [hj]))
      obtain ⟨ad, txid, v, idx, s, sat, e1, e2, e3, e4, e5, e6, e7⟩ := hx
      obtain ⟨dd, rfl, hkk⟩ := hk x (by simp)
      obtain ⟨t, h, ix, n, g1, g2, g3, g4, g5, g6, g7, g8, g9⟩ := (TxIn_create_ok X hs).1 e7
      have hp := hpm i (by simp)
      rw [g9] at hp
      have hsat : sat = n := by omega
      subst hsat
      refine ⟨_, ⟨dd, ad, txid, v, idx, s, sat, rfl, hkk, e1, addr_valid g2, e2, ?_, e3, e4, by omega, e5, amount_pos_good e6 g8 (by simpa [inOf] using hp), rfl⟩, ?_⟩
      · rw [g3, vHexLength_hex, if_pos (by omega)]
      · have c1 : dictFind dd py"address" = some (.str ad) := e1
        have c2 : dictFind dd py"transaction_id" = some (.str txid) := e2
        simp only [mkInput, PVal.asDict, R_bind_ok, dictGet, find_set_ne (show py"address" ≠ py"satoshi_amount" by decide),
          find_set_ne (show py"address" ≠ py"previous_output_index" by decide), find_set_ne (show py"transaction_id" ≠ py"satoshi_amount" by decide),
          find_set_ne (show py"transaction_id" ≠ py"previous_output_index" by decide), find_set_ne (show py"previous_output_index" ≠ py"satoshi_amount" by decide),
          find_set_eq, c1, c2, vString, vInteger]
        exact e7
  have hall : List.Forall₂ (EntryOk X) (l ++ e) (p.ins ++ more) := List.rel_append e2 hE
  obtain ⟨b', hb⟩ := prepare_other hpp ⟨hd.symm, h1.symm, h2.symm⟩ hl' hall
  -- the percentage
  rw [hw] at g1; injection g1 with g1; subst g1
  have hfl := goodRate_float hpc h100
  have hq : rndQ pct = q := by
    have := hfl.symm.trans g2
    rw [B.pct] at this
    simpa using this
  have hq0 : 0 ≤ q := by rw [← hq]; exact rndQ_nonneg (goodRate_rateOf hpc).2
  have hq1 : q ≤ 100 := by
    have : rndQ 100 = 100 := by exact_mod_cast rndQ_nat (n := 100) (by norm_num)
    rw [← hq, ← this]; exact rndQ_mono h100
  -- the fee
  obtain ⟨v', hkind⟩ : ∃ v', p.kind = .inl v' := by
    rcases g4 with ⟨v', _, h, _⟩ | ⟨_, _, _, _, _, _, h⟩
    · exact ⟨v', h⟩
    · exact absurd (h v fee hf hfv) hf0
  -- the mode
  have hmode : Mode a m := by
    have := B.appr
    rw [g3] at this
    cases hh : setting a py"input_selection_approaches" with
    | none => rw [hh] at this; simp at this; exact .inr ⟨hh, this.symm⟩
    | some y => rw [hh] at this; simp at this; subst this; exact .inl hh
  have hti : t.inputs = sel := by rw [B.tx_eq]
  rw [hti] at hm
  have hB := built_more B (e := more) b' hkind ?_ (by rw [hi]; exact hpos) (by rw [hi]; exact hn) (by rw [hi]; exact ht) hq0 hq1 ?_
  · exact ⟨_, (create_ok hs).2 ⟨_, m, fee', sel, outs', ch, q, hb, hB, rfl⟩⟩
  · rcases hm with ⟨hm, _⟩ | ⟨hm, _⟩
    · rw [mode_unique hm hmode]; decide
    · rw [mode_unique hm hmode]; decide
  · intro x hx s hs
    rcases hm with ⟨hm, hlt⟩ | ⟨hm, hlt⟩
    · rw [if_neg (by rw [mode_unique hm hmode]; decide)]; exact hlt x hx s hs
    · rw [if_pos (mode_unique hm hmode)]; exact hlt x hx s hs

/-- **C100 fails** with a fee rate: the fee is computed from the number of all available coins. If
two calls differ in the number of available coins and both succeed, with a whole-number rate `r` the
second transaction pays `179 * r` satoshi more for every coin more, whether or not any of them is
spent. -/
theorem C100_violation_rate (hs : ∀ b, (X.sha256 b).length = 32) {a b a' b' : Args} {t t' : Tx} (h : createTransaction X a = .ok (t, a'))
    (h' : createTransaction X b = .ok (t', b')) (hd : b.design = a.design) {ins ins' : List TxIn} {outs outs' : List TxOut}
    (R : Request X a ins outs) (R' : Request X b ins' outs') {v : PVal} {r : Int}
    (hf : ∀ w n, setting a py"fee" = some w → NumberOf X.uni w n → n = 0) (hv : setting a py"fee_rate" = some v) (hr : RateOf X.uni v r) :
    ∃ f f' : Int, t.fee = some f ∧ t'.fee = some f' ∧ f' = f + 179 * r * (ins'.length - ins.length) := by
  have hset : ∀ k, setting b k = setting a k := fun k => by unfold setting; rw [hd]
  have g1 := C47_whole hs h R hf hv hr
  have g3 := C47_whole hs h' R' (fun w n => by rw [hset]; exact hf w n) (by rw [hset]; exact hv) hr
  have ho : outs' = outs := by
    obtain ⟨_, o1, _, k1, _, k2⟩ := R
    obtain ⟨_, o2, _, k3, _, k4⟩ := R'
    rw [hset, k1] at k3; injection k3 with k3; injection k3 with k3; subst k3
    exact forall₂_unique (P := Asks X) (fun _ _ _ x y => asks_unique x y) k4 k2
  subst ho
  refine ⟨_, _, g1, g3, ?_⟩
  unfold estSize; ring

/-- the arguments of `argsRate` with a second coin that is never spent -/
def argsRate2 : Args :=
  argsOf [inD 1 'a' (.int 3) py"0.0007", inD 2 'b' (.str py"0") py"0.0003"] [outD 2 py"0.0005"] [(py"fee_rate", .str py"1")]

theorem argsRate2_run : view (createTransaction Xtoy argsRate2) =
    some (some 402, [70000], [(toyAddr 3, 19598), (toyAddr 2, 50000)]) := by decide +kernel

/-- **C100** violated: one coin of 0.0007 bitcoin is spent in both cases, but when a coin of 0.0003
bitcoin is available too, and not spent, the fee is 402 instead of 223 satoshi. -/
theorem C100_violation_occurs : ∃ (a b a' b' : Args) (l e : List PVal) (t t' : Tx), a.inputs = some (.list l) ∧ b = { a with inputs := some (.list (l ++ e)) } ∧
    createTransaction Xtoy a = .ok (t, a') ∧ createTransaction Xtoy b = .ok (t', b') ∧
    (t.inputs.map fun i => i.satoshi.getD 0) = [70000] ∧ (t'.inputs.map fun i => i.satoshi.getD 0) = [70000] ∧ t.fee = some 223 ∧ t'.fee = some 402 := by
  obtain ⟨t, a', h, h1, h2, _⟩ := view_ok argsRate_run
  obtain ⟨t', b', h', h1', h2', _⟩ := view_ok argsRate2_run
  exact ⟨argsRate, argsRate2, a', b', _, [inD 2 'b' (.str py"0") py"0.0003"], t, t', rfl, rfl, h, h', h2, h2', h1, h1'⟩

/-- a coin of 0.0003 bitcoin more in the sample with an explicit fee: the same transaction -/
example : ∃ t a' b', createTransaction Xtoy (argsOf [inD 1 'a' (.int 3) py"0.0007", inD 1 'c' (.int 1) py"0.0009"]
      [outD 2 py"0.0005", outD 1 py"0.0006"] [(py"fee", .int 1000)]) = .ok (t, a') ∧
    createTransaction Xtoy (argsOf ([inD 1 'a' (.int 3) py"0.0007", inD 1 'c' (.int 1) py"0.0009"] ++ [inD 2 'b' (.str py"0") py"0.0003"])
      [outD 2 py"0.0005", outD 1 py"0.0006"] [(py"fee", .int 1000)]) = .ok (t, b') := by
  have run : view (createTransaction Xtoy (argsOf [inD 1 'a' (.int 3) py"0.0007", inD 1 'c' (.int 1) py"0.0009"] [outD 2 py"0.0005", outD 1 py"0.0006"] [(py"fee", .int 1000)])) =
    some (some 1000, [90000, 70000], [(toyAddr 3, 49000), (toyAddr 2, 50000), (toyAddr 1, 60000)]) := by decide +kernel
  obtain ⟨t, a', h, _, h2, _⟩ := view_ok run
  obtain ⟨i1, g1, s1⟩ := inD_offers (k := 1) (c := 'a') (v := .int 3) (idx := 3) rfl amt7 (by decide +kernel)
  obtain ⟨i2, g2, s2⟩ := inD_offers (k := 2) (c := 'b') (v := .str py"0") (idx := 0) (by decide +kernel) amt3 (by decide +kernel)
  obtain ⟨i3, g3, s3⟩ := inD_offers (k := 1) (c := 'c') (v := .int 1) (idx := 1) rfl amt9 (by decide +kernel)
  obtain ⟨o1, k1, _⟩ := outD_asks (k := 2) amt5 (by decide +kernel)
  obtain ⟨o2, k2, _⟩ := outD_asks (k := 1) amt6 (by decide +kernel)
  have hn : numeral Xtoy.uni (py"100" ++ py"00") = 10000 := by decide +kernel
  obtain ⟨b', hb⟩ := C100_unspent_coins_partial toy_sha h
    (b := argsOf ([inD 1 'a' (.int 3) py"0.0007", inD 1 'c' (.int 1) py"0.0009"] ++ [inD 2 'b' (.str py"0") py"0.0003"]) [outD 2 py"0.0005", outD 1 py"0.0006"] [(py"fee", .int 1000)])
    rfl rfl rfl rfl rfl (ins := [i1, i3]) (more := [i2]) (outs := [o1, o2])
    ⟨_, _, rfl, rfl, .cons g1 (.cons g3 .nil), .cons k1 (.cons k2 .nil)⟩ (.cons g2 .nil)
    (by intro x hx; simp only [List.mem_cons, List.not_mem_nil, or_false] at hx; subst hx; exact ⟨_, rfl, List.Perm.refl _⟩)
    (by simp [s1, s2, s3]) (by simp) (by simp [inTotal, s1, s2, s3]) (v := .int 1000) (fee := 1000) rfl (.inl rfl) (by norm_num)
    (w := .str py"100.00") (pct := 100) rfl
    (.inr ⟨py"100", py"00", by decide, .inl ⟨rfl, by decide⟩, by decide +kernel, by rw [hn]; norm_num⟩) le_rfl
    (.inl ⟨.inr ⟨rfl, rfl⟩, by
      intro x hx s hs
      simp only [List.mem_cons, List.not_mem_nil, or_false] at hx; subst hx
      have : s.satoshi.getD 0 ∈ t.inputs.map fun i => i.satoshi.getD 0 := List.mem_map_of_mem hs
      rw [h2] at this
      simp only [List.mem_cons, List.not_mem_nil, or_false] at this
      rw [s2]; simp only [Option.getD_some]
      rcases this with h | h <;> rw [h] <;> norm_num⟩)
  exact ⟨t, a', b', h, hb⟩

end BT
