import Verif.Lemmas.ReportErr
import Verif.Lemmas.ReportFacts

/-! # "Transaction created." is logged at the end only -/

namespace BT.Report
open BT.Spec

variable {E : Msg.Env} {X : Ext}

/-- The line that announces success. -/
def doneLine : Str := py"Transaction created."

/-- A run that does not announce success. -/
structure Silent {α : Type} (m : L α) : Prop where
  not_mem : doneLine ∉ m.log

theorem Silent.bind {α β : Type} {m : L α} {f : α → L β} (h : Silent m) (g : ∀ a, Silent (f a)) : Silent (m >>= f) := by
  constructor
  show doneLine ∉ (L.bind m f).log
  unfold L.bind
  cases m.res with
  | error e => exact h.not_mem
  | ok a =>
    simp only [List.mem_append, not_or]
    exact ⟨h.not_mem, (g a).not_mem⟩

theorem Silent.bind_ok {α β : Type} {m : L α} {f : α → L β} (h : Silent m) (g : ∀ a, m.res = .ok a → Silent (f a)) : Silent (m >>= f) := by
  constructor
  show doneLine ∉ (L.bind m f).log
  unfold L.bind
  cases hm : m.res with
  | error e => exact h.not_mem
  | ok a =>
    simp only [List.mem_append, not_or]
    exact ⟨h.not_mem, (g a hm).not_mem⟩

theorem Silent.run {α : Type} (r : R α) : Silent (Report.run r) := ⟨by unfold Report.run; cases r <;> simp⟩
theorem Silent.say {s : Str} (h : doneLine ≠ s) : Silent (Report.say s) := ⟨by unfold Report.say; simpa using h⟩
theorem Silent.pure {α : Type} (a : α) : Silent (Pure.pure a : L α) := ⟨by show doneLine ∉ ([] : List Str); simp⟩
theorem Silent.refuse {α : Type} (e : Err) (t : Str) : Silent (Report.refuse e t : L α) := ⟨by unfold Report.refuse; simp⟩
theorem Silent.refuseIf (c : Prop) [Decidable c] (e : Err) (t : Str) : Silent (Report.refuseIf c e t) := by
  unfold Report.refuseIf
  split
  · exact Silent.refuse e t
  · exact Silent.pure ()
theorem Silent.each {α : Type} {f : Nat → α → Str} (h : ∀ n x, doneLine ≠ f n x) (n : Nat) (l : List α) : Silent (sayEach f n l) := by
  induction l generalizing n with
  | nil => exact Silent.pure ()
  | cons x xs ih => exact Silent.bind (Silent.say (h n x)) fun _ => ih _
theorem Silent.ite {α : Type} {c : Prop} [Decidable c] {m n : L α} (h : Silent m) (g : Silent n) : Silent (if c then m else n) := by
  split
  · exact h
  · exact g

theorem done_digits (n : Nat) (s : Str) : doneLine ≠ pyStr (n : Int) ++ s := by
  obtain ⟨c, r, h, hc⟩ := pyStr_head n
  rw [h]
  intro hx
  have : 'T' = c := (List.cons.inj hx).1
  subst this
  revert hc; decide

/-- A line that begins otherwise. -/
theorem done_pre {p : Str} (h : p.isPrefixOf doneLine = false) (s : Str) : doneLine ≠ p ++ s := by
  intro e
  rw [e, ← Bool.not_eq_true, List.isPrefixOf_iff_prefix] at h
  exact h (List.prefix_append p s)

macro "other" : tactic => `(tactic| first
  | exact done_pre (by decide) _ | decide
  | (simp only [List.append_assoc, both]; exact done_pre (by decide) _))

macro "silent" : tactic => `(tactic| repeat' first
  | with_reducible apply Silent.bind | with_reducible apply Silent.run | with_reducible apply Silent.pure
  | with_reducible apply Silent.refuse | with_reducible apply Silent.refuseIf
  | with_reducible apply Silent.ite | intro _)

theorem silent_validateDesign {d : List (Str × PVal)} (h : (dictOpt d py"input_selection_approaches").truthy = true →
    doneLine ≠ str E (dictOpt d py"input_selection_approaches")) : Silent (validateDesign E X d) := by
  by_cases ht : (dictOpt d py"input_selection_approaches").truthy = true
  · unfold validateDesign
    simp only [ht, if_true]
    silent
    exact Silent.say (h ht)
  · rw [Bool.not_eq_true] at ht
    unfold validateDesign
    simp only [ht, Bool.false_eq_true, if_false]
    silent

theorem silent_prepare {a : Args} (h : ∀ v, setting a py"input_selection_approaches" = some v → doneLine ≠ str E v) : Silent (prepare E X a) := by
  unfold prepare
  refine Silent.bind_ok (Silent.run _) fun _ _ => ?_
  refine Silent.bind_ok (Silent.run _) fun d hd => ?_
  refine Silent.bind_ok (Silent.run _) fun d1 hd1 => ?_
  rw [res_run_ok] at hd hd1
  have hv : (dictOpt d1 py"input_selection_approaches").truthy = true → doneLine ≠ str E (dictOpt d1 py"input_selection_approaches") := by
    intro ht
    have hdes : a.design = some (.dict d) := by
      cases hh : a.design with
      | none => rw [hh] at hd; simp [PVal.asDict] at hd
      | some v => rw [hh] at hd; have := asDict_ok.1 hd; simp only [Option.getD_some] at this; rw [this]
    obtain ⟨a1, _⟩ := adjustDesign_ok hd1
    unfold dictOpt at ht ⊢
    have a2 := (a1 py"input_selection_approaches" (by decide) (by decide) (by decide)).trans (setting_eq hdes _).symm
    rw [a2] at ht ⊢
    cases hs : setting a py"input_selection_approaches" with
    | none => rw [hs] at ht; simp [PVal.truthy] at ht
    | some v => exact h v hs
  silent
  · exact silent_validateDesign hv
  · exact Silent.say (by other)
  · exact Silent.say (by other)
  · exact Silent.each (fun n x => by unfold suppliedInput inputLine; other) _ _
  · exact Silent.each (fun n x => by unfold suppliedOutput outputLine; other) _ _
  · exact Silent.say (by other)
  · exact Silent.say (by other)

theorem silent_sorting (v : PVal) (l : List TxIn) : Silent (sorting E v l) := by
  unfold sorting
  refine Silent.bind (Silent.run _) fun _ => ?_
  split
  · silent
    exact Silent.say (by rw [List.append_assoc]; exact done_digits _ _)
  · silent
    exact Silent.say (by rw [List.append_assoc]; exact done_digits _ _)

theorem silent_addresses (u : UniDB) (ins : List TxIn) (outs : List TxOut) (b : Bool) : Silent (addresses u ins outs b) := by
  unfold addresses
  silent
  · exact Silent.say (by other)
  · exact Silent.say (by other)
  · split <;> silent

theorem silent_fees (u : UniDB) (kind : PVal ⊕ PyFloat) (size : Int) (maxFee : PVal) : Silent (fees E u kind size maxFee) := by
  unfold fees
  cases kind <;> silent <;> refine Silent.say ?_ <;> other

theorem silent_selection (u : UniDB) (ins : List TxIn) (outs : List TxOut) (fee : Int) (ap : PVal) (all : Bool) :
    Silent (selection E u ins outs fee ap all) := by
  unfold selection
  silent <;> refine Silent.say ?_ <;> other

theorem silent_choosing (idx : PVal) (n : Nat) (ca : Str) : Silent (choosing E idx n ca) := by
  unfold choosing
  split <;> silent

theorem silent_change (outs : List TxOut) (ca : Str) (idx : PVal) (s : Int) : Silent (change E X outs ca idx s) := by
  unfold change
  silent
  · apply silent_choosing
  · exact Silent.say (by simp only [List.append_assoc]; exact done_digits _ _)
  · exact Silent.say (by other)
  · exact Silent.say (by other)
  · exact Silent.say (by other)

theorem silent_surplus (n : Int) (outs : List TxOut) (fee : Int) (ca : Str) (idx : PVal) : Silent (surplus E X n outs fee ca idx) := by
  unfold surplus
  silent
  all_goals first | apply silent_change | (refine Silent.say ?_; other)

theorem silent_changeSection (sel : List TxIn) (outs : List TxOut) (fee : Int) (ca : Str) (idx : PVal) :
    Silent (changeSection E X sel outs fee ca idx) := by
  unfold changeSection
  silent
  all_goals first | apply silent_surplus | (refine Silent.say ?_; other)

theorem silent_spending (u : UniDB) (p : PyFloat) (a b c : Int) : Silent (spending u p a b c) := by
  unfold spending
  silent
  all_goals (refine Silent.say ?_; other)

/-- A run that announces success exactly when it succeeds. -/
structure Ends {α : Type} (m : L α) : Prop where
  iff : doneLine ∈ m.log ↔ ∃ t, m.res = .ok t

theorem Ends.bind {α β : Type} {m : L α} {f : α → L β} (h : Silent m) (g : ∀ a, Ends (f a)) : Ends (m >>= f) := by
  constructor
  show doneLine ∈ (L.bind m f).log ↔ ∃ t, (L.bind m f).res = .ok t
  unfold L.bind
  cases m.res with
  | error e => simp [h.not_mem]
  | ok a =>
    simp only [List.mem_append, h.not_mem, false_or]
    exact (g a).iff

theorem Ends.last {α β : Type} (r : R α) (f : α → β) : Ends (do
    let t ← Report.run r
    Report.say doneLine
    Pure.pure (f t)) := by
  constructor
  cases r with
  | error e => 
    show doneLine ∈ ([] : List Str) ↔ ∃ t, (Except.error (e, none) : Except Exc β) = .ok t
    simp
  | ok a => 
    show doneLine ∈ [doneLine] ↔ ∃ t, (Except.ok (f a) : Except Exc β) = .ok t
    simp

theorem build_done {p : Plan} : Ends (build E X p) := by
  unfold build
  refine Ends.bind (silent_sorting _ _) fun ⟨x, ins⟩ => ?_
  refine Ends.bind (Silent.say (by other)) fun _ => ?_
  refine Ends.bind (Silent.each (fun n x => by unfold sortedInput inputLine; other) _ _) fun _ => ?_
  refine Ends.bind (Silent.each (fun n x => by unfold sortedOutput outputLine; other) _ _) fun _ => ?_
  refine Ends.bind (silent_addresses _ _ _ _) fun _ => ?_
  refine Ends.bind (Silent.run _) fun _ => ?_
  refine Ends.bind (silent_fees _ _ _ _) fun _ => ?_
  refine Ends.bind (silent_selection _ _ _ _ _ _) fun _ => ?_
  refine Ends.bind (silent_changeSection _ _ _ _ _) fun ⟨_, _⟩ => ?_
  refine Ends.bind (silent_spending _ _ _ _ _) fun _ => ?_
  exact Ends.last _ fun t : Tx => { t with changeAddress := some p.changeAddress }

theorem create_done {a : Args} (h : ∀ v, setting a py"input_selection_approaches" = some v → doneLine ≠ str E v) : Ends (create E X a) := by
  unfold create
  refine Ends.bind (silent_prepare h) fun p => ?_
  constructor
  show doneLine ∈ (L.bind (build E X p) _).log ↔ ∃ t, (L.bind (build E X p) _).res = .ok t
  have := (build_done (E := E) (X := X) (p := p)).iff
  unfold L.bind
  cases hb : (build E X p).res with
  | error e =>
    rw [hb] at this
    simpa using this
  | ok t =>
    rw [hb] at this
    show doneLine ∈ (build E X p).log ++ [] ↔ ∃ t', (Except.ok (t, p.after) : Except Exc (Tx × Args)) = .ok t'
    rw [List.append_nil, this]
    simp

end BT.Report
