import Verif.Props.Report

/-!
# C109 (continued), C110: the listings and the statements in the report
-/

namespace BT
open Spec Report

variable {E : Msg.Env} {X : Ext}

theorem btc_in {u : UniDB} {n : Nat} (h : n ≤ maxMoney) : InBitcoin u n (btcText n) := by
  have := (satoshiToBitcoin_ok u).2 ⟨n, rfl, h, rfl⟩
  exact ((C19_satoshi_to_bitcoin u n _).1 this).2.2

theorem listed_of {α : Type} {P : Nat → α → Str → Prop} {f : Nat → α → Str} {l : List α} (h : ∀ n, ∀ x ∈ l, P n x (f n x)) (n : Nat) :
    Listed P n l (numbered f n l) := by
  induction l generalizing n with
  | nil => exact .nil n
  | cons x xs ih => exact .cons n x xs _ _ (h n x (by simp)) (ih (fun m y hy => h m y (by simp [hy])) _)

theorem joined_of {α : Type} {P : α → Str → Prop} {f : α → Str} {l : List α} (h : ∀ x ∈ l, P x (f x)) : Joined P l (l.flatMap f) := by
  induction l with
  | nil => exact .nil
  | cons x xs ih => exact .cons x xs _ _ (h x (by simp)) (ih fun y hy => h y (by simp [hy]))

theorem addrTotals_keys (l : List (Str × Int)) :
    ((addrTotals l).map Prod.fst).Nodup ∧ ∀ k, k ∈ (addrTotals l).map Prod.fst ↔ k ∈ l.map Prod.fst := by
  induction l with
  | nil => simp [addrTotals]
  | cons q r ih =>
    obtain ⟨a, n⟩ := q
    obtain ⟨h1, h2⟩ := ih
    unfold addrTotals
    constructor
    · rw [List.map_cons, List.nodup_cons]
      constructor
      · simp
      · exact h1.sublist (List.filter_sublist.map _)
    · intro k
      simp only [List.map_cons, List.mem_cons]
      by_cases hk : k = a
      · simp [hk]
      · simp only [hk, false_or]
        rw [← h2 k]
        simp only [List.mem_map, List.mem_filter]
        constructor
        · rintro ⟨x, ⟨hx, _⟩, rfl⟩; exact ⟨x, hx, rfl⟩
        · rintro ⟨x, hx, rfl⟩; exact ⟨x, ⟨hx, by simpa using hk⟩, rfl⟩

theorem addrTotals_val (l : List (Str × Int)) : ∀ k v, (k, v) ∈ addrTotals l → v = ((l.filter fun p => p.1 = k).map Prod.snd).sum := by
  induction l with
  | nil => simp [addrTotals]
  | cons q r ih =>
    obtain ⟨a, n⟩ := q
    intro k v h
    unfold addrTotals at h
    simp only [List.mem_cons, Prod.mk.injEq, List.mem_filter] at h
    rcases h with ⟨rfl, rfl⟩ | ⟨h, hk⟩
    · simp
    · have := ih k v h
      rw [this]
      have hne : a ≠ k := by
        rintro rfl; simp at hk
      simp [hne]

theorem addrTotals_totals (l : List (Str × Int)) : Totals l (addrTotals l) :=
  ⟨(addrTotals_keys l).1, (addrTotals_keys l).2, addrTotals_val l⟩

theorem totals_perm {l m T : List (Str × Int)} (h : l.Perm m) (ht : Totals l T) : Totals m T := by
  refine ⟨ht.1, fun k => (ht.2.1 k).trans (h.map _).mem_iff, fun k v hv => ?_⟩
  rw [ht.2.2 k v hv]
  exact ((h.filter _).map _).sum_eq

section
variable {a a' : Args} {t : Tx} {log : List Str}

/-- C109: after the header "Report inputs (now sorted) and outputs." the report lists all offered inputs, in the order in
which they are taken, and then all designed outputs, each with its number, address and amount (and txid and index). -/
theorem C109_listing (hs : ∀ b, (X.sha256 b).length = 32) (h : Report.create E X a = ⟨log, .ok (t, a')⟩)
    {ins : List TxIn} {outs : List TxOut} (hr : Request X a ins outs) :
    ∃ pre sorted li lo post, sorted.Perm ins ∧ t.inputs <+: sorted ∧ Listed (InputShown X.uni) 0 sorted li ∧ Listed (OutputShown X.uni) 0 outs lo ∧
      log = pre ++ py"Report inputs (now sorted) and outputs." :: (li ++ lo ++ post) := by
  obtain ⟨p, l1, l2, hp, h1, h2, rfl, rfl⟩ := create_log h
  obtain ⟨x, sorted, fee, ch, k, rate, ms, r1, r2, B⟩ := build_log h2
  have hreq := prepare_request hp
  obtain ⟨rfl, rfl⟩ := request_unique hreq hr
  have hperm : sorted.Perm p.ins := by
    rcases sortInputs_ok.1 B.sorted with ⟨m, _, _, rfl⟩
    exact arranged_perm m p.ins
  obtain ⟨s1, s2, s3, s4, s5, s6, s7⟩ := selectInputs_ok.1 B.sel
  obtain ⟨insD, outsD, _, _, hI, hO⟩ := hreq
  obtain ⟨post, hpost⟩ : ∃ post, l2 = (pyStr sorted.length ++ py" inputs sorted according to the input selection approach: " ++ str E p.approaches) ::
      py"Report inputs (now sorted) and outputs." :: (numbered sortedInput 0 sorted ++ numbered sortedOutput 0 p.outs ++ post) := by
    rw [B.log_eq]
    simp only [List.append_assoc, List.cons_append, List.nil_append]
    exact ⟨_, rfl⟩
  refine ⟨l1 ++ [pyStr sorted.length ++ py" inputs sorted according to the input selection approach: " ++ str E p.approaches], sorted,
    numbered sortedInput 0 sorted, numbered sortedOutput 0 p.outs, post, hperm, ?_, listed_of ?_ 0, listed_of ?_ 0, ?_⟩
  · rw [s6]; exact chosen_prefix _ _ _
  · intro n i hi
    obtain ⟨d, _, hd⟩ := forall₂_mem_right hI i (hperm.mem_iff.1 hi)
    obtain ⟨ad, tt, hh, ix, m, _, _, _, g, _, rfl⟩ := offers_shape hs hd
    refine ⟨btcText m, ?_, ?_⟩
    · exact btc_in g
    · rfl
  · intro n o ho
    obtain ⟨d, _, hd⟩ := forall₂_mem_right hO o ho
    obtain ⟨ad, hh, m, _, _, g, rfl⟩ := asks_shape hs hd
    exact ⟨btcText m, btc_in g, rfl⟩
  · rw [hpost]
    exact (List.append_assoc l1 [_] _).symm

/-- C109: the report gives for each address among the offered inputs the total value and the number of its inputs, and for
each address among the designed outputs the total value sent to it; each address once. -/
theorem C109_addresses (hs : ∀ b, (X.sha256 b).length = 32) (h : Report.create E X a = ⟨log, .ok (t, a')⟩)
    {ins : List TxIn} {outs : List TxOut} (hr : Request X a ins outs) :
    ∃ T U s s', Totals (ins.map fun i => (i.address, i.satoshi.getD 0)) T ∧ Totals (outs.map fun o => (o.address, o.satoshi)) U ∧
      Joined (fun p e => ∃ am, Amount X.uni p.2 am ∧ e = py"\n- " ++ p.1 ++ py": " ++ am ++ py", " ++
        pyStr (ins.filter fun i => i.address = p.1).length ++ py" input" ++
        (if (ins.filter fun i => i.address = p.1).length > 1 then py"s" else []) ++ py".") T s ∧
      Joined (fun p e => ∃ am, Amount X.uni p.2 am ∧ e = py"\n- " ++ p.1 ++ py": " ++ am) U s' ∧
      about py"Input addresses" log = [py"Input addresses and the value that they each contain:" ++ s] ∧
      about py"Output addresses" log = [py"Output addresses, with total value to be sent to each:" ++ s'] := by
  obtain ⟨p, x, ins', fee, ch, k, rate, ms, r1, r2, l2, F⟩ := facts hs h
  obtain ⟨rfl, rfl⟩ := request_unique F.req hr
  have hin : ∀ q ∈ addrTotals (ins'.map fun i => (i.address, i.amount)), Money q.2 := by
    refine addr_money_in (fun i hi => F.ok.ins_nn i (F.perm.mem_iff.1 hi)) ?_
    rw [inTotal_perm F.perm]
    exact (spent_money F).1
  have hout : ∀ q ∈ addrTotals (p.outs.map fun i => (i.address, i.satoshi)), Money q.2 :=
    addr_money_out F.ok.outs_nn (spent_money F).2.1
  refine ⟨addrTotals (ins'.map fun i => (i.address, i.amount)), addrTotals (p.outs.map fun o => (o.address, o.satoshi)),
    (addrTotals (ins'.map fun i => (i.address, i.amount))).flatMap (fun q => inputAddressLine ins' (q, inBitcoin X.uni q.2)),
    (addrTotals (p.outs.map fun o => (o.address, o.satoshi))).flatMap (fun q => outputAddressLine (q, inBitcoin X.uni q.2)),
    totals_perm (F.perm.map _) (addrTotals_totals _), addrTotals_totals _, joined_of fun q hq => ?_, joined_of fun q hq => ?_, ?_, ?_⟩
  · have hc : (ins'.map TxIn.address).count q.1 = (p.ins.filter fun i => i.address = q.1).length := by
      rw [← (F.perm.filter _).length_eq, List.count_eq_countP, List.countP_map, List.countP_eq_length_filter]
      congr 1
      apply List.filter_congr
      intro y _
      by_cases hh : y.address = q.1 <;> simp [hh]
    refine ⟨amt X.uni q.2, amount_of (hin q hq), ?_⟩
    unfold inputAddressLine
    rw [hc]
    rfl
  · exact ⟨amt X.uni q.2, amount_of (hout q hq), rfl⟩
  · have hq : Label py"Input addresses" := ⟨_, _, rfl, by decide, by decide⟩
    have hd : ∀ (n : Nat) s, (py"Input addresses").isPrefixOf (py"Input " ++ (pyStr n ++ s)) = false := fun n s => by
      show (py"addresses").isPrefixOf (pyStr n ++ s) = false
      exact about_digits ⟨_, _, rfl, by decide, by decide⟩ n s
    rw [F.all _ hq hd (fun _ _ => rfl),
      about_surplus hq (fun _ => rfl) (fun _ => rfl) (fun _ => rfl) (fun _ => rfl) (fun _ => rfl)]
    unfold feeLog selectLog addressLog
    cases p.kind <;> (repeat' split) <;> rfl
  · have hq : Label py"Output addresses" := ⟨_, _, rfl, by decide, by decide⟩
    have hd : ∀ (n : Nat) s, (py"Output addresses").isPrefixOf (py"Output " ++ (pyStr n ++ s)) = false := fun n s => by
      show (py"addresses").isPrefixOf (pyStr n ++ s) = false
      exact about_digits ⟨_, _, rfl, by decide, by decide⟩ n s
    rw [F.all _ hq (fun _ _ => rfl) hd,
      about_surplus hq (fun _ => rfl) (fun _ => rfl) (fun _ => rfl) (fun _ => rfl) (fun _ => rfl)]
    unfold feeLog selectLog addressLog
    cases p.kind <;> (repeat' split) <;> rfl

/-- C110 (partial): if there is a surplus among the offered inputs, "Selected inputs: " is the number of inputs of the
returned transaction.  Without a surplus it is 0, see `C110_selected_exact`. -/
theorem C110_selected_partial (hs : ∀ b, (X.sha256 b).length = 32) (h : Report.create E X a = ⟨log, .ok (t, a')⟩)
    {ins : List TxIn} {outs : List TxOut} (hr : Request X a ins outs)
    (hne : inTotal ins ≠ outTotal outs + (inTotal t.inputs - outTotal t.outputs)) :
    Tells log py"Selected inputs: " (pyStr t.inputs.length) := by
  obtain ⟨p, x, ins', fee, ch, k, rate, ms, r1, r2, l2, F⟩ := facts hs h
  obtain ⟨rfl, rfl⟩ := request_unique F.req hr
  have e : inTotal t.inputs - outTotal t.outputs = fee := by rw [F.fee_eq]; omega
  rw [e] at hne
  unfold Tells
  have hq : Label py"Selected inputs: " := ⟨_, _, rfl, by decide, by decide⟩
  rw [F.lines _ hq (fun _ => rfl) (fun _ => rfl),
    about_surplus hq (fun _ => rfl) (fun _ => rfl) (fun _ => rfl) (fun _ => rfl) (fun _ => rfl)]
  unfold feeLog selectLog
  rw [if_neg hne]
  cases p.kind <;> (repeat' split) <;> rfl

/-- C110: if all offered inputs are needed exactly, all of them are inputs of the returned transaction, but the report
says "Selected inputs: 0". -/
theorem C110_selected_exact (hs : ∀ b, (X.sha256 b).length = 32) (h : Report.create E X a = ⟨log, .ok (t, a')⟩)
    {ins : List TxIn} {outs : List TxOut} (hr : Request X a ins outs)
    (he : inTotal ins = outTotal outs + (inTotal t.inputs - outTotal t.outputs)) :
    Tells log py"Selected inputs: " py"0" ∧ t.inputs.Perm ins := by
  obtain ⟨p, x, ins', fee, ch, k, rate, ms, r1, r2, l2, F⟩ := facts hs h
  obtain ⟨rfl, rfl⟩ := request_unique F.req hr
  have e : inTotal t.inputs - outTotal t.outputs = fee := by rw [F.fee_eq]; omega
  rw [e] at he
  constructor
  · unfold Tells
    have hq : Label py"Selected inputs: " := ⟨_, _, rfl, by decide, by decide⟩
    rw [F.lines _ hq (fun _ => rfl) (fun _ => rfl),
      about_surplus hq (fun _ => rfl) (fun _ => rfl) (fun _ => rfl) (fun _ => rfl) (fun _ => rfl)]
    unfold feeLog selectLog
    rw [if_pos he]
    cases p.kind <;> (repeat' split) <;> rfl
  · obtain ⟨s1, s2, s3, s4, s5, s6, s7⟩ := selectInputs_ok.1 F.build.sel
    have : t.inputs = ins' := by
      rw [s6]
      unfold chosen
      rw [if_pos (by rw [inTotal_perm F.perm]; exact he)]
    rw [this]
    exact F.perm

theorem mem_about {s : Str} {l : List Str} : s ∈ l ↔ s ∈ about s l := by
  simp [about]

/-- C110: the three statements about the offered inputs.  The first is logged by every run that succeeds although all it
establishes is the opposite inequality; the others are right. -/
theorem C110_available (hs : ∀ b, (X.sha256 b).length = 32) (h : Report.create E X a = ⟨log, .ok (t, a')⟩)
    {ins : List TxIn} {outs : List TxOut} (hr : Request X a ins outs) :
    py"Total available input value is less than or equal to total output value." ∈ log ∧ outTotal outs ≤ inTotal ins ∧
    (py"Total available input value exactly matches total output + fee value." ∈ log ↔
      inTotal ins = outTotal outs + (inTotal t.inputs - outTotal t.outputs)) ∧
    (inTotal ins ≠ outTotal outs + (inTotal t.inputs - outTotal t.outputs) →
      Reports X.uni log py"Total available input value is greater than total output + fee value.\n- Surplus value: "
        (inTotal ins - (outTotal outs + (inTotal t.inputs - outTotal t.outputs)))) := by
  obtain ⟨p, x, ins', fee, ch, k, rate, ms, r1, r2, l2, F⟩ := facts hs h
  obtain ⟨rfl, rfl⟩ := request_unique F.req hr
  obtain ⟨m1, m2, m3, m5, m4, m6, m7⟩ := spent_money F
  have e : inTotal t.inputs - outTotal t.outputs = fee := by rw [F.fee_eq]; omega
  rw [e]
  obtain ⟨s1, s2, s3, s4, s5, s6, s7⟩ := selectInputs_ok.1 F.build.sel
  rw [inTotal_perm F.perm] at s3
  have hq : ∀ s, Label ('T' :: s) := fun s => ⟨_, _, rfl, by decide, by decide⟩
  refine ⟨?_, s3, ?_, fun hne => ⟨amt X.uni _, amount_of ⟨by omega, ?_⟩, ?_⟩⟩
  · rw [mem_about, F.lines _ (hq _) (fun _ => rfl) (fun _ => rfl),
      about_surplus (hq _) (fun _ => rfl) (fun _ => rfl) (fun _ => rfl) (fun _ => rfl) (fun _ => rfl)]
    unfold feeLog selectLog
    cases p.kind <;> (repeat' split) <;> exact List.mem_singleton.2 rfl
  · rw [mem_about, F.lines _ (hq _) (fun _ => rfl) (fun _ => rfl),
      about_surplus (hq _) (fun _ => rfl) (fun _ => rfl) (fun _ => rfl) (fun _ => rfl) (fun _ => rfl)]
    unfold feeLog selectLog
    by_cases he : inTotal p.ins = outTotal p.outs + fee
    · rw [if_pos he]
      refine ⟨fun _ => he, fun _ => ?_⟩
      cases p.kind <;> (repeat' split) <;> exact List.mem_singleton.2 rfl
    · rw [if_neg he]
      refine ⟨fun hm => ?_, fun hm => absurd hm he⟩
      exfalso
      revert hm
      cases p.kind <;> (repeat' split) <;> exact List.not_mem_nil
  · have := m1.2
    have := m3.1
    omega
  · rw [F.lines _ (hq _) (fun _ => rfl) (fun _ => rfl),
      about_surplus (hq _) (fun _ => rfl) (fun _ => rfl) (fun _ => rfl) (fun _ => rfl) (fun _ => rfl)]
    unfold feeLog selectLog
    rw [if_neg hne]
    cases p.kind <;> (repeat' split) <;> rfl

/-- C110: the totals after the change was allocated are those of the returned transaction. -/
theorem C110_new_totals (hs : ∀ b, (X.sha256 b).length = 32) (h : Report.create E X a = ⟨log, .ok (t, a')⟩)
    {ins : List TxIn} {outs : List TxOut} (hr : Request X a ins outs) (hne : outTotal t.outputs ≠ outTotal outs) :
    Reports X.uni log py"New total output value: " (outTotal t.outputs) ∧
    Reports X.uni log py"New total output + fee value: " (inTotal t.inputs) := by
  obtain ⟨p, x, ins', fee, ch, k, rate, ms, r1, r2, l2, F⟩ := facts hs h
  obtain ⟨rfl, rfl⟩ := request_unique F.req hr
  obtain ⟨m1, m2, m3, m5, m4, m6, m7⟩ := spent_money F
  have hfe := F.fee_eq
  have hne' : inTotal t.inputs ≠ outTotal p.outs + fee := fun hh => hne (by omega)
  refine ⟨⟨amt X.uni _, amount_of ?_, ?_⟩, ⟨amt X.uni _, amount_of m4, ?_⟩⟩
  · rcases (handleChange_ok hs F.ok.idx).1 F.build.chg with ⟨g, _⟩ | ⟨_, _, c, _, _, g, _⟩
    · exact absurd g hne'
    · exact g
  · have hq : Label py"New total output value: " := ⟨_, _, rfl, by decide, by decide⟩
    rw [F.lines _ hq (fun _ => rfl) (fun _ => rfl),
      about_surplus hq (fun _ => rfl) (fun _ => rfl) (fun _ => rfl) (fun _ => rfl) (fun _ => rfl)]
    unfold feeLog selectLog
    rw [if_neg hne']
    cases p.kind <;> (repeat' split) <;> rfl
  · have hq : Label py"New total output + fee value: " := ⟨_, _, rfl, by decide, by decide⟩
    rw [F.lines _ hq (fun _ => rfl) (fun _ => rfl),
      about_surplus hq (fun _ => rfl) (fun _ => rfl) (fun _ => rfl) (fun _ => rfl) (fun _ => rfl)]
    unfold feeLog selectLog
    rw [if_neg hne', hfe]
    cases p.kind <;> (repeat' split) <;> rfl

/-- C110: the report says "New output created to send change to change address." exactly if the returned transaction has one
more output than designed, and then "New number of outputs: " is the number of its outputs. -/
theorem C110_new_output (hs : ∀ b, (X.sha256 b).length = 32) (h : Report.create E X a = ⟨log, .ok (t, a')⟩)
    {ins : List TxIn} {outs : List TxOut} (hr : Request X a ins outs) :
    (py"New output created to send change to change address." ∈ log ↔ t.outputs.length = outs.length + 1) ∧
    about py"New number of outputs: " log =
      if t.outputs.length = outs.length then [] else [py"New number of outputs: " ++ pyStr t.outputs.length] := by
  obtain ⟨p, x, ins', fee, ch, k, rate, ms, r1, r2, l2, F⟩ := facts hs h
  obtain ⟨rfl, rfl⟩ := request_unique F.req hr
  have hC := (handleChange_ok hs F.ok.idx).1 F.build.chg
  have hlen : (inTotal t.inputs = outTotal p.outs + fee ∧ t.outputs.length = p.outs.length) ∨
      (inTotal t.inputs ≠ outTotal p.outs + fee ∧ 1 ≤ (p.outs.filter fun o => o.address = p.changeAddress).length ∧
        t.outputs.length = p.outs.length) ∨
      (inTotal t.inputs ≠ outTotal p.outs + fee ∧ (p.outs.filter fun o => o.address = p.changeAddress).length = 0 ∧
        t.outputs.length = p.outs.length + 1) := by
    rcases hC with ⟨e1, e2, _⟩ | ⟨e1, _, c, h2, _⟩
    · exact .inl ⟨e1, by rw [e2]⟩
    · right
      rcases h2 with ⟨k1, k2, k3⟩ | ⟨pre, o, post, k, k1, k2, k3, k4, k5, k6, k7⟩
      · exact .inr ⟨e1, by rw [k1]; rfl, by rw [k3]; rfl⟩
      · refine .inl ⟨e1, ?_, by rw [k6, k1]; simp⟩
        rcases k7 with k7 | ⟨k7, _⟩ <;> omega
  have surp : ∀ q : Str, (∀ (n : Nat) s, q.isPrefixOf (pyStr n ++ s) = false) → (∀ s, q.isPrefixOf (py"Total selected" ++ s) = false) →
      (∀ s, q.isPrefixOf (py"Change a" ++ s) = false) → (∀ s, q.isPrefixOf (py"New total" ++ s) = false) →
      about q (surplusLog E X.uni (inTotal t.inputs) p.outs t.outputs fee p.changeAddress p.changeIdx k ch) =
        if t.outputs.length = p.outs.length then [] else
          about q [py"New output created to send change to change address.", py"New number of outputs: " ++ pyStr t.outputs.length] := by
    intro q g1 g2 g3 g4
    have c1 : ∀ (s : Str) (l : List Str), about q ((py"Total selected" ++ s) :: l) = about q l := fun s l => about_cons_neg l (g2 s)
    have c2 : ∀ (s : Str) (l : List Str), about q ((py"Change a" ++ s) :: l) = about q l := fun s l => about_cons_neg l (g3 s)
    have c3 : ∀ (s : Str) (l : List Str), about q ((py"New total" ++ s) :: l) = about q l := fun s l => about_cons_neg l (g4 s)
    unfold surplusLog changeLog
    simp only
    rcases hlen with ⟨e1, e2⟩ | ⟨e1, e2, e3⟩ | ⟨e1, e2, e3⟩
    · rw [if_pos e1, if_pos e2]
      exact (c1 _ _).trans (c2 _ _)
    · rw [if_neg e1, if_pos e3]
      have hx : ∀ (s : Str) (l : List Str), about q (s :: l) = about q l → about q l = [] → about q (s :: l) = [] := fun _ _ h1 h2 => h1.trans h2
      split
      · refine hx _ _ (c1 _ _) ?_
        refine hx _ _ (about_cons_neg _ ?_) (hx _ _ (c3 _ _) (hx _ _ (c3 _ _) (c2 _ _)))
        simp only [List.append_assoc]
        exact g1 _ _
      · rw [if_pos (by omega)]
        exact hx _ _ (c1 _ _) (hx _ _ (c2 _ _) (hx _ _ (c3 _ _) (hx _ _ (c3 _ _) (c2 _ _))))
    · rw [if_neg e1, if_neg (by omega), if_neg (by omega), if_neg (by omega)]
      have hx : ∀ (s : Str) (l m : List Str), about q (s :: l) = about q l → about q l = m → about q (s :: l) = m := fun _ _ _ h1 h2 => h1.trans h2
      refine hx _ _ _ (c1 _ _) ?_
      rw [e3]
      refine (about_append q [_, _] _).trans ?_
      have hr : ∀ (u v : List Str), v = [] → u ++ v = u := fun u v h => by rw [h, List.append_nil]
      exact hr _ _ (hx _ _ _ (c3 _ _) (hx _ _ _ (c3 _ _) (c2 _ _)))
  constructor
  · have hq : Label py"New output created to send change to change address." := ⟨_, _, rfl, by decide, by decide⟩
    rw [mem_about, F.lines _ hq (fun _ => rfl) (fun _ => rfl),
      surp _ (fun n s => about_digits hq n s) (fun _ => rfl) (fun _ => rfl) (fun _ => rfl)]
    unfold feeLog selectLog
    by_cases hl : t.outputs.length = p.outs.length
    · rw [if_pos hl]
      refine ⟨fun hm => ?_, fun hm => by omega⟩
      exfalso
      revert hm
      cases p.kind <;> (repeat' split) <;> exact List.not_mem_nil
    · rw [if_neg hl]
      refine ⟨fun _ => by omega, fun _ => ?_⟩
      cases p.kind <;> (repeat' split) <;> exact List.mem_singleton.2 rfl
  · have hq : Label py"New number of outputs: " := ⟨_, _, rfl, by decide, by decide⟩
    rw [F.lines _ hq (fun _ => rfl) (fun _ => rfl),
      surp _ (fun n s => about_digits hq n s) (fun _ => rfl) (fun _ => rfl) (fun _ => rfl)]
    unfold feeLog selectLog
    by_cases hl : t.outputs.length = p.outs.length
    · rw [if_pos hl, if_pos hl]
      cases p.kind <;> (repeat' split) <;> rfl
    · rw [if_neg hl, if_neg hl]
      cases p.kind <;> (repeat' split) <;> rfl

end

end BT
