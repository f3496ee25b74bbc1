import Verif.Lemmas.ReportFacts

/-!
# C109: the figures in the report of `create_transaction`

`Report.create E X a` (Verif/Report.lean) is a call of `create_transaction` together with the lines it logs.
The vocabulary (`Reports`, `Tells`, `ChangeIs`, `about`) is in Verif/ReportSpec.lean, the reading of the arguments
(`Request`, `setting`) in Verif/CreateSpec.lean.
-/

namespace BT
open Spec Report

variable {E : Msg.Env} {X : Ext}

/-- C109: the report does not change what `create_transaction` does. -/
theorem C109_agrees (E : Msg.Env) (X : Ext) (a : Args) :
    (match (Report.create E X a).res with
      | .ok r => Except.ok r
      | .error e => Except.error e.1) = createTransaction X a := by
  have h := erase_create E X a
  unfold erase at h
  rw [← h]
  cases (Report.create E X a).res <;> rfl

theorem amount_of {u : UniDB} {n : Int} (h : Money n) : Amount u n (amt u n) := by
  obtain ⟨s, hs⟩ := s2b_ok.2 h
  refine ⟨s, ((C19_satoshi_to_bitcoin u n s).1 hs).2.2, ?_⟩
  rw [← both_of hs]; rfl

theorem spent_money {a : Args} {t : Tx} {log : List Str} {p : Plan} {x : PVal} {ins : List TxIn} {fee ch : Int} {k : Nat} {rate : PyFloat}
    {ms : Int} {r1 r2 : PyFloat} {l2 : List Str} (F : Facts E X a t log p x ins fee ch k rate ms r1 r2 l2) :
    Money (inTotal p.ins) ∧ Money (outTotal p.outs) ∧ Money (outTotal p.outs + fee) ∧ outTotal p.outs + fee ≤ inTotal p.ins ∧
      Money (inTotal t.inputs) ∧ outTotal p.outs + fee ≤ inTotal t.inputs ∧ inTotal t.inputs ≤ inTotal p.ins := by
  obtain ⟨s1, s2, s3, s4, s5, s6, s7⟩ := selectInputs_ok.1 F.build.sel
  have htot := inTotal_perm F.perm
  have hnn : ∀ i ∈ ins, 0 ≤ i.amount := fun i hi => F.ok.ins_nn i (F.perm.mem_iff.1 hi)
  have hp : t.inputs <+: ins := by rw [s6]; exact chosen_prefix _ _ _
  refine ⟨htot ▸ s1, s2, s4, htot ▸ s5, s7, ?_, by rw [← htot]; exact prefix_total hp hnn⟩
  rw [s6]; exact chosen_reach s5

section
variable {a a' : Args} {t : Tx} {log : List Str}

/-- C109: the one line "Transaction fee: " gives the fee that the returned transaction pays, the value of its inputs
less the value of its outputs. -/
theorem C109_fee (hs : ∀ b, (X.sha256 b).length = 32) (h : Report.create E X a = ⟨log, .ok (t, a')⟩) :
    Tells log py"Transaction fee: " (pyStr (inTotal t.inputs - outTotal t.outputs) ++ py" satoshi") := by
  obtain ⟨p, x, ins, fee, ch, k, rate, ms, r1, r2, l2, F⟩ := facts hs h
  unfold Tells
  have hq : Label py"Transaction fee: " := ⟨_, _, rfl, by decide, by decide⟩
  rw [F.lines _ hq (fun _ => rfl) (fun _ => rfl)]
  have e : inTotal t.inputs - outTotal t.outputs = fee := by rw [F.fee_eq]; omega
  rw [e, about_surplus hq (fun _ => rfl) (fun _ => rfl) (fun _ => rfl) (fun _ => rfl) (fun _ => rfl)]
  unfold feeLog selectLog
  cases p.kind <;> (repeat' split) <;> rfl

/-- C109: "Total available input value: " is the value of all offered inputs, "Total output value: " that of the
designed outputs, "Total output + fee value: " the latter and the fee, "Total selected input value: " the value of the
inputs of the returned transaction. -/
theorem C109_totals (hs : ∀ b, (X.sha256 b).length = 32) (h : Report.create E X a = ⟨log, .ok (t, a')⟩)
    {ins : List TxIn} {outs : List TxOut} (hr : Request X a ins outs) :
    Reports X.uni log py"Total available input value: " (inTotal ins) ∧
    Reports X.uni log py"Total output value: " (outTotal outs) ∧
    Reports X.uni log py"Total output + fee value: " (outTotal outs + (inTotal t.inputs - outTotal t.outputs)) ∧
    Reports X.uni log py"Total selected input value: " (inTotal t.inputs) := by
  obtain ⟨p, x, ins', fee, ch, k, rate, ms, r1, r2, l2, F⟩ := facts hs h
  obtain ⟨rfl, rfl⟩ := request_unique F.req hr
  obtain ⟨m1, m2, m3, _, m4, _⟩ := spent_money F
  have e : inTotal t.inputs - outTotal t.outputs = fee := by rw [F.fee_eq]; omega
  rw [e]
  refine ⟨⟨_, amount_of m1, ?_⟩, ⟨_, amount_of m2, ?_⟩, ⟨_, amount_of m3, ?_⟩, ⟨_, amount_of m4, ?_⟩⟩
  all_goals
    have hq : ∀ s, Label ('T' :: s) := fun s => ⟨_, _, rfl, by decide, by decide⟩
    rw [F.lines _ (hq _) (fun _ => rfl) (fun _ => rfl),
      about_surplus (hq _) (fun _ => rfl) (fun _ => rfl) (fun _ => rfl) (fun _ => rfl) (fun _ => rfl)]
    unfold feeLog selectLog
    cases p.kind <;> (repeat' split) <;> rfl

/-- C109: "Number of inputs: " and "Number of outputs: " count the offered inputs and the designed outputs, "Estimated
transaction size: " is the estimate for these numbers. -/
theorem C109_counts (hs : ∀ b, (X.sha256 b).length = 32) (h : Report.create E X a = ⟨log, .ok (t, a')⟩)
    {ins : List TxIn} {outs : List TxOut} (hr : Request X a ins outs) :
    Tells log py"Number of inputs: " (pyStr ins.length) ∧ Tells log py"Number of outputs: " (pyStr outs.length) ∧
    Tells log py"Estimated transaction size: " (pyStr (10 + 179 * ins.length + 34 * outs.length) ++ py" bytes") := by
  obtain ⟨p, x, ins', fee, ch, k, rate, ms, r1, r2, l2, F⟩ := facts hs h
  obtain ⟨rfl, rfl⟩ := request_unique F.req hr
  unfold Tells
  refine ⟨?_, ?_, ?_⟩
  · have hq : Label py"Number of inputs: " := ⟨_, _, rfl, by decide, by decide⟩
    rw [F.lines _ hq (fun _ => rfl) (fun _ => rfl),
      about_surplus hq (fun _ => rfl) (fun _ => rfl) (fun _ => rfl) (fun _ => rfl) (fun _ => rfl)]
    unfold feeLog selectLog
    cases p.kind <;> (repeat' split) <;> rfl
  · have hq : Label py"Number of outputs: " := ⟨_, _, rfl, by decide, by decide⟩
    rw [F.lines _ hq (fun _ => rfl) (fun _ => rfl),
      about_surplus hq (fun _ => rfl) (fun _ => rfl) (fun _ => rfl) (fun _ => rfl) (fun _ => rfl)]
    unfold feeLog selectLog
    cases p.kind <;> (repeat' split) <;> rfl
  · have hq : Label py"Estimated transaction size: " := ⟨_, _, rfl, by decide, by decide⟩
    rw [F.lines _ hq (fun _ => rfl) (fun _ => rfl),
      about_surplus hq (fun _ => rfl) (fun _ => rfl) (fun _ => rfl) (fun _ => rfl) (fun _ => rfl)]
    unfold feeLog selectLog
    cases p.kind <;> (repeat' split) <;> rfl

/-- C109: "Change amount: " is the amount `c` of the output that receives the change (0 without change), and "Spend
amount: " is the value of the selected inputs less `c`. -/
theorem C109_change (hs : ∀ b, (X.sha256 b).length = 32) (h : Report.create E X a = ⟨log, .ok (t, a')⟩)
    {ins : List TxIn} {outs : List TxOut} (hr : Request X a ins outs) :
    ∃ ca c, setting a py"change_address" = some (.str ca) ∧ ChangeIs ca outs t.outputs c ∧
      Reports X.uni log py"Change amount: " c ∧ Reports X.uni log py"Spend amount: " (inTotal t.inputs - c) := by
  obtain ⟨p, x, ins', fee, ch, k, rate, ms, r1, r2, l2, F⟩ := facts hs h
  obtain ⟨rfl, rfl⟩ := request_unique F.req hr
  obtain ⟨s1, _⟩ := prepare_settings F.prep
  obtain ⟨m1, m2, m3, m5, m4, m6, m7⟩ := spent_money F
  have hC := (handleChange_ok hs F.ok.idx).1 F.build.chg
  have hch : Money ch := by
    rcases hC with ⟨_, _, rfl⟩ | ⟨e1, _, c, e2, rfl, e3, e4⟩
    · exact ⟨le_rfl, by norm_num⟩
    · exact (e2.address hs).2.2
  refine ⟨p.changeAddress, ch, s1, F.change, ⟨_, amount_of hch, ?_⟩, ⟨_, amount_of F.build.money.2.1, ?_⟩⟩
  · have hq : Label py"Change amount: " := ⟨_, _, rfl, by decide, by decide⟩
    rw [F.lines _ hq (fun _ => rfl) (fun _ => rfl),
      about_surplus hq (fun _ => rfl) (fun _ => rfl) (fun _ => rfl) (fun _ => rfl) (fun _ => rfl)]
    unfold feeLog selectLog
    cases p.kind <;> (repeat' split) <;> rfl
  · have hq : Label py"Spend amount: " := ⟨_, _, rfl, by decide, by decide⟩
    rw [F.lines _ hq (fun _ => rfl) (fun _ => rfl),
      about_surplus hq (fun _ => rfl) (fun _ => rfl) (fun _ => rfl) (fun _ => rfl) (fun _ => rfl)]
    unfold feeLog selectLog
    cases p.kind <;> (repeat' split) <;> rfl

end

end BT
