import Verif.Props.LedgerWitB

/-!
# A history of two runs (witness for C135 - C139)

The first run spends two of three coins; the second one spends the coin that was left and the change of the first.
-/

namespace BT.LedgerWit
open BT BT.Spec BT.Concrete

/-- everything that is computed -/
def HistoryCheck : Prop :=
  exitStatus (cliRun Xtoy use1.fs use1.sh use1.setup use1.args) = 0 ∧
  (cliRun Xtoy use1.fs use1.sh use1.setup use1.args).1 = [hex (txBytes tx1.1 tx1.2)] ∧ Wire tx1.1 tx1.2 ∧
  exitStatus (cliRun Xtoy use2.fs use2.sh use2.setup use2.args) = 0 ∧
  (cliRun Xtoy use2.fs use2.sh use2.setup use2.args).1 = [hex (txBytes tx2.1 tx2.2)] ∧ Wire tx2.1 tx2.2 ∧
  (∀ o ∈ tx1.2, Payment.MadeBy ⟨leNat o.value, (o.script.drop 3).take 20⟩ o) ∧ (∀ o ∈ tx2.2, Payment.MadeBy ⟨leNat o.value, (o.script.drop 3).take 20⟩ o) ∧
  coinB ∈ ledger1 ∧ change1 ∈ ledger1 ∧ coinB ≠ change1 ∧ (∀ c ∈ ledger0, c.txid ≠ id1 ∧ c.txid ≠ id2) ∧ id1 ≠ id2 ∧ id1.length = 32 ∧
  tx1.1.map RawIn.point = [coinC.point, coinA.point] ∧ tx2.1.map RawIn.point = [change1.point, coinB.point] ∧ coinTotal ledger2 = 188000

theorem rest_check : hex (txBytes tx1.1 tx1.2) = raw1 ∧ Wire tx1.1 tx1.2 ∧ hex (txBytes tx2.1 tx2.2) = raw2 ∧ Wire tx2.1 tx2.2 ∧
  (∀ o ∈ tx1.2, Payment.MadeBy ⟨leNat o.value, (o.script.drop 3).take 20⟩ o) ∧ (∀ o ∈ tx2.2, Payment.MadeBy ⟨leNat o.value, (o.script.drop 3).take 20⟩ o) ∧
  coinB ∈ ledger1 ∧ change1 ∈ ledger1 ∧ coinB ≠ change1 ∧ (∀ c ∈ ledger0, c.txid ≠ id1 ∧ c.txid ≠ id2) ∧ id1 ≠ id2 ∧ id1.length = 32 ∧
  tx1.1.map RawIn.point = [coinC.point, coinA.point] ∧ tx2.1.map RawIn.point = [change1.point, coinB.point] ∧ coinTotal ledger2 = 188000 := by decide +kernel

theorem history_check : HistoryCheck := by
  obtain ⟨h1, h2, h3, h4, h5⟩ := rest_check
  exact ⟨run1_check.1, by rw [h1]; exact run1_check.2, h2, run2_check.1, by rw [h3]; exact run2_check.2, h4, h5⟩

theorem ledger0_distinct : Distinct ledger0 := by decide +kernel

attribute [local irreducible] unhex cutTx ownerOf

theorem payments_made {outs : List RawOut} (h : ∀ o ∈ outs, Payment.MadeBy ⟨leNat o.value, (o.script.drop 3).take 20⟩ o) :
    List.Forall₂ Payment.MadeBy (payments outs) outs := by
  unfold payments
  induction outs with
  | nil => exact .nil
  | cons o os ih => exact .cons (h o (List.mem_cons_self ..)) (ih fun x hx => h x (List.mem_cons_of_mem _ hx))

theorem described_in (k : Nat) (c : Char) (v : PVal) (s : Str) (coin : Coin) (h1 : coin.txid.length = 32) (h2 : List.replicate 64 c = hex coin.txid)
    (h3 : v.toInt Xtoy.uni = .ok (coin.index : Int)) (h4 : AmountOf Xtoy.uni s coin.sat) (h5 : AddressOf Xtoy.sha256 (toyAddr k) coin.owner) :
    coin.Described Xtoy (inD k c v s) :=
  ⟨h1, by rw [← h2]; rfl, ⟨v, rfl, h3⟩, ⟨s, rfl, h4⟩, _, rfl, h5⟩

theorem describedA : coinA.Described Xtoy (inD 1 'a' (.int 3) py"0.0007") :=
  described_in 1 'a' (.int 3) py"0.0007" coinA (by decide +kernel) (by decide +kernel) rfl amt7 owner1
theorem describedB : coinB.Described Xtoy (inD 2 'b' (.str py"0") py"0.0003") :=
  described_in 2 'b' (.str py"0") py"0.0003" coinB (by decide +kernel) (by decide +kernel) (by decide +kernel) amt3 owner2
theorem describedC : coinC.Described Xtoy (inD 1 'c' (.int 1) py"0.0009") :=
  described_in 1 'c' (.int 1) py"0.0009" coinC (by decide +kernel) (by decide +kernel) rfl amt9 owner1

/-- an input file as the program reads it -/
theorem file_is {fs : FS} {r : RawArgs} {f : Str} {x : PVal} {insD : List PVal} (hf : r.inputFile = some f) (hr : fs.read f = .ok (Xtoy.jsonDumps x)) (hx : x.jsonSafe = true) :
    ∀ fi ti l, r.inputFile = some fi → fs.read fi = .ok ti → Xtoy.jsonLoads ti = .ok (.list l) → x = .list insD → l = insD := by
  intro fi ti l h1 h2 h3 h4
  rw [hf] at h1; injection h1 with h1; subst h1
  rw [hr] at h2; injection h2 with h2; subst h2
  rw [Xtoy.json_round x hx, h4] at h3
  injection h3 with h3; injection h3 with h3; exact h3.symm

theorem amt49 : AmountOf Xtoy.uni py"0.00049" 49000 := ⟨py"0", py"00049", .inl rfl, by decide, by decide, by decide +kernel, by decide +kernel⟩

theorem lists1 : ListsCoins Xtoy use1.fs use1.args ledger0 := by
  intro fi ti insD h1 h2 h3
  have e := file_is (insD := [inD 1 'a' (.int 3) py"0.0007", inD 2 'b' (.str py"0") py"0.0003", inD 1 'c' (.int 1) py"0.0009"]) (f := py"inputs.json")
    (x := asPVal argsFee.inputs) (fs := use1.fs) (r := use1.args) rfl rfl (by rfl) fi ti insD h1 h2 h3 rfl
  rw [e]
  exact ⟨ledger0, .cons describedA (.cons describedB (.cons describedC .nil)), List.Perm.subperm (List.Perm.refl _)⟩

theorem lists2 : ListsCoins Xtoy use2.fs use2.args ledger1 := by
  obtain ⟨_, _, _, _, _, _, _, _, c1, c2, c3, _, _, c4, _⟩ := history_check
  intro fi ti insD h1 h2 h3
  have e := file_is (insD := [inD 2 'b' (.str py"0") py"0.0003", .dict [(py"address", .str (toyAddr 3)), (py"transaction_id", .str (hex id1)),
    (py"previous_output_index", .int 0), (py"bitcoin_amount", .str py"0.00049")]]) (f := py"inputs.json")
    (x := asPVal args2.inputs) (fs := use2.fs) (r := use2.args) rfl rfl (by rfl) fi ti insD h1 h2 h3 rfl
  rw [e]
  refine ⟨[coinB, change1], .cons describedB (.cons ⟨c4, rfl, ⟨_, rfl, rfl⟩, ⟨_, rfl, amt49⟩, _, rfl, owner3⟩ .nil), ?_⟩
  refine List.subperm_of_subset (by simp [c3]) ?_
  intro c hc
  simp only [List.mem_cons, List.not_mem_nil, or_false] at hc
  rcases hc with rfl | rfl
  exacts [c1, c2]

theorem cap_is {fs : FS} {r : RawArgs} {f : Str} {x : PVal} (hf : r.designFile = some f) (hr : fs.read f = .ok (Xtoy.jsonDumps x)) (hx : x.jsonSafe = true)
    (he : entry x py"max_fee" = some (.int 250000)) : CapIs Xtoy fs r 250000 :=
  ⟨f, _, x, _, hf, hr, Xtoy.json_round x hx, he, .inl rfl⟩

theorem cap1 : CapIs Xtoy use1.fs use1.args 250000 := cap_is (f := py"design.json") (x := asPVal argsFee.design) rfl rfl (by rfl) rfl
theorem cap2 : CapIs Xtoy use2.fs use2.args 250000 := cap_is (f := py"design.json") (x := asPVal args2.design) rfl rfl (by rfl) rfl

/-- the history of the two runs -/
theorem history2 : History Xtoy ledger0 ledger2 ([] ++ [use1] ++ [use2]) ([] ++ [tx1] ++ [tx2]) (0 + 250000 + 250000) := by
  obtain ⟨a1, a2, a3, b1, b2, b3, p1, p2, _⟩ := history_check
  refine .step (.step .start lists1 cap1 ⟨.inl rfl, a1, a2, a3⟩ ?_) lists2 cap2 ⟨.inl rfl, b1, b2, b3⟩ ?_
  · exact ⟨_, payments_made p1, rfl⟩
  · exact ⟨_, payments_made p2, rfl⟩

/-- the hypotheses of C136 are met by it: the second transaction spends the change of the first, and the fees are lost -/
theorem history_example : ∃ L0 L us txs caps, History Xtoy L0 L us txs caps ∧ Distinct L0 ∧ NewIds Xtoy L0 txs ∧ coinTotal L0 = 190000 ∧ coinTotal L = 188000 ∧
    txs.length = 2 ∧ (txs.flatMap fun t => t.1.map RawIn.point) = [coinC.point, coinA.point, change1.point, coinB.point] := by
  obtain ⟨_, _, _, _, _, _, _, _, _, _, _, n1, n2, _, q1, q2, q3⟩ := history_check
  refine ⟨_, _, _, _, _, history2, ledger0_distinct, ⟨fun t ht c hc => ?_, fun t ht t' ht' e => ?_⟩, rfl, q3, rfl, ?_⟩
  · simp only [List.nil_append, List.cons_append, List.mem_cons, List.not_mem_nil, or_false] at ht
    rcases ht with rfl | rfl
    exacts [(n1 c hc).1, (n1 c hc).2]
  · simp only [List.nil_append, List.cons_append, List.mem_cons, List.not_mem_nil, or_false] at ht ht'
    rcases ht with rfl | rfl <;> rcases ht' with rfl | rfl
    · rfl
    · exact absurd e n2
    · exact absurd e.symm n2
    · rfl
  · simp [q1, q2]

/-- the hypotheses of C135 are met -/
example : Distinct ledger0 ∧ ListsCoins Xtoy use1.fs use1.args ledger0 ∧ exitStatus (cliRun Xtoy use1.fs use1.sh use1.setup use1.args) = 0 :=
  ⟨ledger0_distinct, lists1, history_check.1⟩

end BT.LedgerWit
