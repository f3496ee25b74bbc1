import Verif.Lemmas.ReportLog
import Verif.Lemmas.Amount
import Verif.ReportSpec
import Verif.Props.Amount

/-!
# Which lines of the report begin with a label


-/

namespace BT.Report
open BT.Spec

/-! ## which lines begin with a label -/

theorem about_append (p : Str) (a b : List Str) : about p (a ++ b) = about p a ++ about p b := by
  simp [about]

theorem about_numbered {α : Type} {p : Str} {f : Nat → α → Str} (h : ∀ n x, p.isPrefixOf (f n x) = false) (n : Nat) (l : List α) :
    about p (numbered f n l) = [] := by
  induction l generalizing n with
  | nil => rfl
  | cons x xs ih =>
    unfold numbered about
    rw [List.filter_cons, h n x]
    exact ih _

theorem pyStr_head (n : Nat) : ∃ c r, pyStr (n : Int) = c :: r ∧ c ∈ digits10 := by
  rw [pyStr_nat]
  obtain ⟨c, r, h⟩ := List.exists_cons_of_ne_nil (natDigits_ne_nil n)
  refine ⟨c, r, h, ?_⟩
  have := natDigits_dig n c (by rw [h]; simp)
  exact isDig_iff.1 this

/-- A label: it begins with a letter. -/
def Label (p : Str) : Prop := ∃ c r, p = c :: r ∧ c ∉ digits10 ∧ c ≠ '['

theorem about_digits {p : Str} (hp : Label p) (n : Nat) (s : Str) : p.isPrefixOf (pyStr (n : Int) ++ s) = false := by
  obtain ⟨c, r, h, hc⟩ := pyStr_head n
  obtain ⟨d, q, rfl, hd, _⟩ := hp
  rw [h]
  simp only [List.cons_append, List.isPrefixOf]
  have : (d == c) = false := by
    rw [beq_eq_false_iff_ne]
    rintro rfl
    exact hd hc
  rw [this]; rfl

theorem about_list {p : Str} (hp : Label p) (E : Msg.Env) (xs : List PVal) : p.isPrefixOf (Msg.repr E (.list xs)) = false := by
  obtain ⟨d, q, rfl, _, hd⟩ := hp
  have : ∃ s, Msg.repr E (.list xs) = '[' :: s := by
    cases xs with
    | nil => exact ⟨_, by rw [Msg.repr]⟩
    | cons x xs => exact ⟨_, by rw [Msg.repr]⟩
  obtain ⟨s, hs⟩ := this
  rw [hs]
  simp only [List.isPrefixOf]
  rw [beq_eq_false_iff_ne.2 hd]; rfl

theorem about_cons_neg {q s : Str} (l : List Str) (h : q.isPrefixOf s = false) : about q (s :: l) = about q l := by
  unfold about
  rw [List.filter_cons, h]; rfl

theorem about_change {q : Str} (hq : Label q) (h1 : ∀ s, q.isPrefixOf (py"Change address found" ++ s) = false)
    (h2 : ∀ s, q.isPrefixOf (py"New output created" ++ s) = false) (h3 : ∀ s, q.isPrefixOf (py"New number of outputs: " ++ s) = false)
    (E : Msg.Env) (u : UniDB) (outs : List TxOut) (addr : Str) (idx : PVal) (k : Nat) : about q (changeLog E u outs addr idx k) = [] := by
  unfold changeLog
  simp only
  split
  · simp only [List.append_assoc]
    rw [about_cons_neg _ (about_digits hq _ _)]; rfl
  · split
    · exact about_cons_neg [] (h1 (py" within outputs.\n- Old change amount: " ++ amt u (oldAmount addr 0 outs)))
    · exact (about_cons_neg _ (h2 py" to send change to change address.")).trans (about_cons_neg [] (h3 _))

theorem about_surplus {q : Str} (hq : Label q) (h1 : ∀ s, q.isPrefixOf (py"Change address found" ++ s) = false)
    (h2 : ∀ s, q.isPrefixOf (py"New output created" ++ s) = false) (h3 : ∀ s, q.isPrefixOf (py"New number of outputs: " ++ s) = false)
    (h4 : ∀ s, q.isPrefixOf (py"Total selected input value exactly" ++ s) = false)
    (h5 : ∀ s, q.isPrefixOf (py"Total selected input value is greater" ++ s) = false)
    (E : Msg.Env) (u : UniDB) (sel : Int) (outs outs' : List TxOut) (fee : Int) (addr : Str) (idx : PVal) (k : Nat) (ch : Int) :
    about q (surplusLog E u sel outs outs' fee addr idx k ch) =
      (if sel = outTotal outs + fee then [] else about q [py"New total output value: " ++ amt u (outTotal outs'),
        py"New total output + fee value: " ++ amt u (outTotal outs' + fee)]) ++ about q [py"Change amount: " ++ amt u ch] := by
  unfold surplusLog
  rw [about_append]
  congr 1
  split
  · exact about_cons_neg [] (h4 py" matches total output + fee value.")
  · rw [about_append, about_append, about_change hq h1 h2 h3]
    simp only [List.append_assoc]
    have e := about_cons_neg [] (h5 (py" than total output + fee value.\n- Surplus value: " ++ (amt u (sel - (outTotal outs + fee)) ++
      (py"\n- This extra value will be sent to the change address.\n- Change address: " ++ addr))))
    rw [List.nil_append]
    exact congrArg (fun y => y ++ _) e

/-- Everything known about a run that succeeds. -/
structure Facts (E : Msg.Env) (X : Ext) (a : Args) (t : Tx) (log : List Str) (p : Plan) (x : PVal) (ins : List TxIn) (fee ch : Int) (k : Nat)
    (rate : PyFloat) (ms : Int) (r1 r2 : PyFloat) (l2 : List Str) : Prop where
  prep : BT.prepare X a = .ok p
  ok : PlanOk p
  build : BuildLog E X p t l2 x ins fee ch k rate ms r1 r2
  req : Request X a p.ins p.outs
  perm : ins.Perm p.ins
  fee_eq : inTotal t.inputs = outTotal t.outputs + fee
  change : ChangeIs p.changeAddress p.outs t.outputs ch
  all : ∀ q, Label q → (∀ (n : Nat) s, q.isPrefixOf (py"Input " ++ (pyStr n ++ s)) = false) →
    (∀ (n : Nat) s, q.isPrefixOf (py"Output " ++ (pyStr n ++ s)) = false) →
    about q log =
      about q [py"All arguments validated. No problems found.", py"Report supplied data for inputs and outputs."] ++
      (about q [py"Number of inputs: " ++ pyStr p.ins.length, py"Number of outputs: " ++ pyStr p.outs.length,
        py"Report inputs (now sorted) and outputs."] ++
      (about q (addressLog X.uni ins p.outs) ++
      (about q (feeLog E p.kind (estSize p.ins.length p.outs.length) fee rate p.maxFee) ++
      (about q (selectLog E X.uni (inTotal p.ins) (outTotal p.outs) (outTotal p.outs + fee) (inTotal t.inputs) t.inputs.length p.approaches) ++
      (about q (surplusLog E X.uni (inTotal t.inputs) p.outs t.outputs fee p.changeAddress p.changeIdx k ch) ++
      (about q (spendLog X.uni p.pct ms (inTotal t.inputs - ch) (r1.mul (.fin 100)) (r2.mul (.fin 100))) ++
      about q [py"Transaction created."]))))))

theorem Facts.lines {E : Msg.Env} {X : Ext} {a : Args} {t : Tx} {log : List Str} {p : Plan} {x : PVal} {ins : List TxIn} {fee ch : Int} {k : Nat}
    {rate : PyFloat} {ms : Int} {r1 r2 : PyFloat} {l2 : List Str} (F : Facts E X a t log p x ins fee ch k rate ms r1 r2 l2)
    (q : Str) (hq : Label q) (hi : ∀ s, q.isPrefixOf (py"Input " ++ s) = false) (ho : ∀ s, q.isPrefixOf (py"Output " ++ s) = false) :
    about q log =
      about q [py"All arguments validated. No problems found.", py"Report supplied data for inputs and outputs."] ++
      (about q [py"Number of inputs: " ++ pyStr p.ins.length, py"Number of outputs: " ++ pyStr p.outs.length,
        py"Report inputs (now sorted) and outputs."] ++
      (about q (feeLog E p.kind (estSize p.ins.length p.outs.length) fee rate p.maxFee) ++
      (about q (selectLog E X.uni (inTotal p.ins) (outTotal p.outs) (outTotal p.outs + fee) (inTotal t.inputs) t.inputs.length p.approaches) ++
      (about q (surplusLog E X.uni (inTotal t.inputs) p.outs t.outputs fee p.changeAddress p.changeIdx k ch) ++
      (about q (spendLog X.uni p.pct ms (inTotal t.inputs - ch) (r1.mul (.fin 100)) (r2.mul (.fin 100))) ++
      about q [py"Transaction created."]))))) := by
  have e1 : about q (addressLog X.uni ins p.outs) = [] := by
    unfold addressLog about
    have h1 := hi (py"addresses and the value that they each contain:" ++
      (addrTotals (ins.map fun i => (i.address, i.amount))).flatMap fun p => inputAddressLine ins (p, inBitcoin X.uni p.2))
    have h2 := ho (py"addresses, with total value to be sent to each:" ++
      (addrTotals (p.outs.map fun o => (o.address, o.satoshi))).flatMap fun p => outputAddressLine (p, inBitcoin X.uni p.2))
    rw [List.filter_cons, if_neg (by rw [Bool.not_eq_true]; exact h1), List.filter_cons, if_neg (by rw [Bool.not_eq_true]; exact h2)]
    rfl
  rw [F.all q hq (fun _ _ => hi _) (fun _ _ => ho _), e1]
  rfl

theorem facts {E : Msg.Env} {X : Ext} (hs : ∀ b, (X.sha256 b).length = 32) {a a' : Args} {t : Tx} {log : List Str}
    (h : create E X a = ⟨log, .ok (t, a')⟩) :
    ∃ p x ins fee ch k rate ms r1 r2 l2, Facts E X a t log p x ins fee ch k rate ms r1 r2 l2 := by
  obtain ⟨p, l1, l2, hp, h1, h2, rfl, rfl⟩ := create_log h
  obtain ⟨x, ins, fee, ch, k, rate, ms, r1, r2, B⟩ := build_log h2
  have hok := prepare_planOk hs hp
  have hperm : ins.Perm p.ins := by
    rcases sortInputs_ok.1 B.sorted with ⟨m, _, _, rfl⟩
    exact arranged_perm m p.ins
  have hC := (handleChange_ok hs hok.idx).1 B.chg
  have htot := inTotal_perm hperm
  obtain ⟨s1, s2, s3, s4, s5, s6, s7⟩ := selectInputs_ok.1 B.sel
  have hreach : outTotal p.outs + fee ≤ inTotal t.inputs := by rw [s6]; exact chosen_reach s5
  refine ⟨p, x, ins, fee, ch, k, rate, ms, r1, r2, l2, hp, hok, B, prepare_request hp, hperm, ?_, ?_, ?_⟩
  · rcases hC with ⟨e1, e2, _⟩ | ⟨_, _, c, e2, _⟩
    · rw [e1, e2]
    · rw [e2.total hs]; omega
  · rcases hC with ⟨e1, e2, e3⟩ | ⟨e1, _, c, h2, h3, _⟩
    · exact .inl ⟨e2, e3⟩
    · obtain ⟨g1, g2, _⟩ := h2.address hs
      right
      rcases h2 with ⟨_, k2, k3⟩ | ⟨pre, o, post, k, k1, k2, k3, k4, k5, k6, k7⟩
      · exact ⟨[], c, p.outs, by rw [k3]; rfl, g1, h3.symm, .inl ⟨rfl, rfl⟩⟩
      · refine ⟨pre, c, post, k6, g1, h3.symm, .inr ⟨o, k1, k2, ?_⟩⟩
        obtain ⟨j, j1, j2, j3, rfl⟩ := setSatoshi_iff.1 k5
        rw [h3]
        simp only
        omega
  · intro q hq hi ho
    obtain ⟨l0, insD, outsD, hl0, _, _, rfl⟩ := prepare_log h1
    rw [B.log_eq]
    have e0 : about q l0 = [] := by
      rcases hl0 with rfl | ⟨xs, _, rfl⟩
      · rfl
      · unfold about
        rw [List.filter_cons, about_list hq]; rfl
    have eI : ∀ i a b c d e, q.isPrefixOf (inputLine i a b c d e) = false := by
      intro i a b c d e; unfold inputLine; simp only [List.append_assoc]; exact hi _ _
    have eO : ∀ i a b c, q.isPrefixOf (outputLine i a b c) = false := by
      intro i a b c; unfold outputLine; simp only [List.append_assoc]; exact ho _ _
    have e2 : about q [pyStr ins.length ++ py" inputs sorted according to the input selection approach: " ++ str E p.approaches,
        py"Report inputs (now sorted) and outputs."] = about q [py"Report inputs (now sorted) and outputs."] := by
      unfold about
      rw [List.filter_cons, List.append_assoc, about_digits hq]; rfl
    simp only [about_append, e0, e2, about_numbered (fun n x => eI n _ _ _ _ _), about_numbered (fun n x => eO n _ _ _),
      suppliedInput, suppliedOutput, sortedInput, sortedOutput]
    rw [htot]
    have e3 : ∀ a b c : Str, about q [a, b, c] = about q [a, b] ++ about q [c] := fun a b c => about_append q [a, b] [c]
    rw [e3]
    have n1 : about q (numbered (suppliedInput E) 0 insD) = [] := about_numbered (fun n x => eI n _ _ _ _ _) _ _
    have n2 : about q (numbered (suppliedOutput E) 0 outsD) = [] := about_numbered (fun n x => eO n _ _ _) _ _
    have n3 : about q (numbered sortedInput 0 ins) = [] := about_numbered (fun n x => eI n _ _ _ _ _) _ _
    have n4 : about q (numbered sortedOutput 0 p.outs) = [] := about_numbered (fun n x => eO n _ _ _) _ _
    rw [n1, n2, n3, n4]
    simp only [List.append_assoc, List.nil_append, List.append_nil]

end BT.Report
