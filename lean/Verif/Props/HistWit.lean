import Verif.Props.Hist2

/-! # Witnesses for C122 - C124 -/

namespace BT.Concrete
open BT BT.Spec Hist

/-- the key of the second input alone fails at once, that of the first after one input, both succeed, then both failures again -/
def signCalls : List Call :=
  [.sign [hex32 2] none, .sign [hex32 1] none, .sign keys12 none, .sign [hex32 1] none, .sign [] none]

theorem signCalls_sign : ∀ c ∈ signCalls, c.isSign := by
  intro c hc
  simp only [signCalls, List.mem_cons, List.not_mem_nil, or_false] at hc
  rcases hc with rfl | rfl | rfl | rfl | rfl <;> trivial

/-- which inputs are signed after each prefix of the history -/
def trace (t : Tx) (cs : List Call) : List (List Bool) :=
  (List.range (cs.length + 1)).map fun k => (after Xtoy t (cs.take k)).inputs.map TxIn.signed

/-- the hypotheses of C122 are met, and the states are those described -/
theorem history_sample : ∃ t, Spec.Created Xtoy t ∧ t.hashType1 = py"01" ∧ (∀ i ∈ t.inputs, i.scriptSig = none) ∧ t.inputs ≠ [] ∧
    ((after Xtoy t (signCalls.take 2)).sign Xtoy keys12 none).2 = .ok () ∧ (t.sign Xtoy keys12 none).2 = .ok () ∧
    trace t signCalls = [[false, false], [false, false], [true, false], [true, true], [true, true], [true, true]] := by
  have h : (do let t ← sampleTx Xtoy
               assertR (t.inputs.all fun i => i.scriptSig.isNone)
               assertR (!t.inputs.isEmpty)
               assertR ((after Xtoy t (signCalls.take 2)).sign Xtoy keys12 none).2.isOk
               assertR (t.sign Xtoy keys12 none).2.isOk
               assertR (trace t signCalls == [[false, false], [false, false], [true, false], [true, true], [true, true], [true, true]])
               : R Unit).isOk = true := by
    decide +kernel
  obtain ⟨u, hu⟩ := isOk_exists h
  simp only [R_bind_eq_ok, assertR_ok, beq_iff_eq, Bool.not_eq_true', List.isEmpty_eq_false_iff, List.all_eq_true, Option.isNone_iff_eq_none] at hu
  obtain ⟨t, h0, _, h1, _, h2, _, h3, _, h4, h5⟩ := hu
  obtain ⟨⟨⟩, h3⟩ := isOk_exists h3
  obtain ⟨⟨⟩, h4⟩ := isOk_exists h4
  exact ⟨t, sample_created h0, (sample_created h0).frame.ht1, h1, h2, h3, h4, h5⟩

/-- the hypotheses of `C122_broadcast` are met -/
example : ∃ t, Spec.Created Xtoy t ∧ (∀ i ∈ t.inputs, i.scriptSig = none) ∧ (∀ c ∈ signCalls, c.isSign) ∧
    ∃ pre keys random post, signCalls = pre ++ .sign keys random :: post ∧ ((after Xtoy t pre).sign Xtoy keys random).2 = .ok () := by
  obtain ⟨t, h1, _, h2, _, h3, _⟩ := history_sample
  exact ⟨t, h1, h2, signCalls_sign, signCalls.take 2, keys12, none, _, rfl, h3⟩

/-- the hypotheses of `C123_confluent` and `C123_failure_harmless` are met: one history is the failing and succeeding calls above, the other a single call -/
example : ∃ t, (∀ i ∈ t.inputs, i.scriptSig = none) ∧ NoCollision Xtoy keys12 ∧ Deterministic keys12 signCalls ∧ Deterministic keys12 [.sign keys12 none] ∧
    (∃ pre keys random post, signCalls = pre ++ .sign keys random :: post ∧ ((after Xtoy t pre).sign Xtoy keys random).2 = .ok ()) ∧
    (∃ pre keys random post, [Call.sign keys12 none] = pre ++ .sign keys random :: post ∧ ((after Xtoy t pre).sign Xtoy keys random).2 = .ok ()) := by
  obtain ⟨t, _, _, h2, _, h3, h4, _⟩ := history_sample
  refine ⟨t, h2, ?_, ?_, ?_, ⟨signCalls.take 2, keys12, none, _, rfl, h3⟩, ⟨[], keys12, none, [], rfl, h4⟩⟩
  · have hne : (match privateKeyToAddress Xtoy (hex32 1), privateKeyToAddress Xtoy (hex32 2) with
      | .ok a, .ok b => a != b
      | _, _ => false) = true := by decide +kernel
    intro k hk k' hk' a ha ha'
    simp only [keys12, List.mem_cons, List.not_mem_nil, or_false] at hk hk'
    rcases hk with rfl | rfl <;> rcases hk' with rfl | rfl
    · rfl
    · rw [ha, ha'] at hne; simp at hne
    · rw [ha, ha'] at hne; simp at hne
    · rfl
  · intro c hc
    simp only [signCalls, List.mem_cons, List.not_mem_nil, or_false] at hc
    rcases hc with rfl | rfl | rfl | rfl | rfl <;> exact ⟨_, rfl, by simp [keys12]⟩
  · intro c hc
    simp only [List.mem_singleton] at hc
    exact ⟨_, hc, fun k hk => hk⟩

/-- amounts changed after signing; a refused amount; signed again; and a failing call at the end -/
def editCalls : List Call :=
  [.sign keys12 none, .setAmount 0 40000, .sign [hex32 1] none, .setAmount 1 0, .setAmount 7 5, .setAmount 1 (2 ^ 64), .setAmount 0 41000,
    .sign keys12 none, .sign [hex32 2] none]

/-- the hypotheses of `C124_sign_after_change` and `C124_last_amounts_partial` are met; the amounts that are paid -/
example : ∃ t, Spec.Created Xtoy t ∧ NoExcess editCalls ∧ Signs Xtoy t editCalls ∧
    (t.outputs.zipIdx.map fun p => amountAfter p.2 p.1.satoshi editCalls) = [41000, 49000] := by
  have h : (do let t ← sampleTx Xtoy
               assertR ((after Xtoy t (editCalls.take 7)).sign Xtoy keys12 none).2.isOk
               assertR ((t.outputs.zipIdx.map fun p => amountAfter p.2 p.1.satoshi editCalls) == [41000, 49000]) : R Unit).isOk = true := by
    decide +kernel
  obtain ⟨u, hu⟩ := isOk_exists h
  simp only [R_bind_eq_ok, assertR_ok, beq_iff_eq] at hu
  obtain ⟨t, h0, _, h1, h2⟩ := hu
  obtain ⟨⟨⟩, h1⟩ := isOk_exists h1
  refine ⟨t, sample_created h0, ?_, ⟨editCalls.take 7, keys12, none, [.sign [hex32 2] none], rfl, ?_, h1⟩, h2⟩
  · intro c hc
    simp only [editCalls, List.mem_cons, List.not_mem_nil, or_false] at hc
    rcases hc with rfl | rfl | rfl | rfl | rfl | rfl | rfl | rfl | rfl <;> simp [maxMoney]
  · intro c hc
    simp only [List.mem_singleton] at hc
    subst hc; trivial

/-- `C124_violation` occurs -/
example : ∃ t t', Spec.Created Xtoy t ∧ 0 < t.outputs.length ∧
    ((Call.setAmount 0 (2 ^ 63)).run Xtoy t).1.sign Xtoy keys12 none = (t', .ok ()) := by
  have h : (do let t ← sampleTx Xtoy
               assertR (0 < t.outputs.length)
               assertR (((Call.setAmount 0 (2 ^ 63)).run Xtoy t).1.sign Xtoy keys12 none).2.isOk : R Unit).isOk = true := by
    decide +kernel
  obtain ⟨u, hu⟩ := isOk_exists h
  simp only [R_bind_eq_ok, assertR_ok, decide_eq_true_eq] at hu
  obtain ⟨t, h0, _, h1, h2⟩ := hu
  obtain ⟨⟨⟩, h2⟩ := isOk_exists h2
  exact ⟨t, _, sample_created h0, h1, by rw [← h2]⟩

end BT.Concrete
