import Verif.Lemmas.ReportLog
import Verif.Lemmas.Errors
import Verif.ReportSpec

/-! # The texts of the exceptions of `create_transaction` -/

namespace BT.Report
open BT.Spec

variable {α β : Type}

theorem res_bind {m : L α} {f : α → L β} {x : Exc} :
    (m >>= f).res = .error x ↔ m.res = .error x ∨ ∃ a, m.res = .ok a ∧ (f a).res = .error x := by
  show (L.bind m f).res = _ ↔ _
  obtain ⟨log, res⟩ := m
  unfold L.bind
  cases res <;> simp

theorem res_run {r : R α} {e : Err} {t : Str} : (run r).res = .error (e, some t) ↔ False := by
  unfold run; cases r <;> simp

theorem res_run_ok {r : R α} {a : α} : (run r).res = .ok a ↔ r = .ok a := by
  unfold run; cases r <;> simp

theorem res_run_none {r : R α} {e : Err} : (run r).res = .error (e, none) ↔ r = .error e := by
  unfold run; cases r <;> simp

theorem res_say {s : Str} {x : Exc} : (say s).res = .error x ↔ False := by simp [say]
theorem res_say_ok {s : Str} {a : Unit} : (say s).res = .ok a ↔ True := by simp [say]
theorem res_pure {a : α} {x : Exc} : (pure a : L α).res = .error x ↔ False := by
  show (Except.ok a : Except Exc α) = _ ↔ _
  simp
theorem res_pure_ok {a b : α} : (pure a : L α).res = .ok b ↔ a = b := by
  show (Except.ok a : Except Exc α) = _ ↔ _
  simp
theorem res_refuse {e : Err} {t : Str} {x : Exc} : (refuse e t : L α).res = .error x ↔ x = (e, some t) := by
  simp [refuse, eq_comm]
theorem res_refuse_ok {e : Err} {t : Str} {a : α} : (refuse e t : L α).res = .ok a ↔ False := by
  simp [refuse]
theorem res_refuseIf {c : Prop} [Decidable c] {e : Err} {t : Str} {x : Exc} :
    (refuseIf c e t).res = .error x ↔ c ∧ x = (e, some t) := by
  unfold refuseIf; split <;> simp_all [res_refuse, res_pure]
theorem res_refuseIf_ok {c : Prop} [Decidable c] {e : Err} {t : Str} {a : Unit} : (refuseIf c e t).res = .ok a ↔ ¬ c := by
  unfold refuseIf; split <;> simp_all [res_refuse_ok, res_pure_ok]
theorem res_each {f : Nat → α → Str} {n : Nat} {l : List α} {x : Exc} : (sayEach f n l).res = .error x ↔ False := by
  rw [sayEach_eq]; simp
theorem res_each_ok {f : Nat → α → Str} {n : Nat} {l : List α} {a : Unit} : (sayEach f n l).res = .ok a ↔ True := by
  rw [sayEach_eq]; simp
theorem res_ok {m : L α} {a : α} : m.res = .ok a ↔ erase m = .ok a := by
  unfold erase; cases m.res <;> simp

/-! ## the sections -/

theorem sorting_text {E : Msg.Env} {ap : PVal} {ins : List TxIn} {e : Err} {t : Str} (h : (sorting E ap ins).res = .error (e, some t)) :
    ∃ x, firstApproach ap = .ok x ∧ sortInputs x ins = .error e ∧ t = py"Unrecognised input_selection_approach: " ++ str E x := by
  unfold sorting at h
  rw [res_bind] at h
  simp only [res_run, res_run_ok, false_or] at h
  obtain ⟨x, hx, h⟩ := h
  cases hs : sortInputs x ins with
  | ok l =>
    rw [hs] at h
    simp only [res_bind, res_pure, res_say, res_say_ok, res_pure_ok, false_or, and_false, exists_const] at h
  | error e' =>
    rw [hs] at h
    simp only [res_bind, res_refuse, res_refuse_ok, false_and, exists_const, or_false, Prod.mk.injEq, Option.some.injEq] at h
    obtain ⟨rfl, rfl⟩ := h
    exact ⟨x, hx, hs, rfl⟩

theorem addresses_text {u : UniDB} {ins : List TxIn} {outs : List TxOut} {b : Bool} {e : Err} {t : Str}
    (h : (addresses u ins outs b).res = .error (e, some t)) :
    b = false ∧ e = .duplicateOutputAddress ∧ ∃ ad, 1 < (outs.map TxOut.address).count ad ∧
      t = py"Multiple outputs (" ++ pyStr ((outs.map TxOut.address).count ad) ++ py") send to this address: " ++ ad := by
  unfold addresses at h
  simp only [res_bind, res_run, res_run_ok, res_say, res_say_ok, false_or, true_and] at h
  obtain ⟨_, _, _, _, _, _, h⟩ := h
  split at h
  · simp only [res_pure] at h
  · rename_i ad had
    simp only [res_refuseIf, Prod.mk.injEq, Option.some.injEq] at h
    obtain ⟨h1, h2, h3⟩ := h
    have := List.find?_some had
    exact ⟨h1, h2, ad, by simpa using this, h3⟩

theorem fees_text {E : Msg.Env} {u : UniDB} {kind : PVal ⊕ PyFloat} {size : Int} {maxFee : PVal} {e : Err} {t : Str}
    (hw : vWholeNumber maxFee = .ok ()) (h : (fees E u kind size maxFee).res = .error (e, some t)) :
    e = .valueError ∧ ∃ fee : Int, FeeP kind size (.int fee) ∧ Money fee ∧ capOf maxFee < fee ∧
      t = py"The fee (" ++ pyStr fee ++ py" satoshi) is greater than the specified maximum fee (" ++ str E maxFee ++ py" satoshi)." := by
  unfold fees at h
  simp only [res_bind, res_run, res_run_ok, res_say, res_say_ok, false_or, true_and, exists_const] at h
  obtain ⟨feeP, hP, fee, hf, _, _, _, _, _, _, h⟩ := h
  have h' : ∃ b, satoshiToBitcoinP u feeP = .ok b ∧ overFee maxFee fee = true ∧ e = .valueError ∧
      t = py"The fee (" ++ str E feeP ++ py" satoshi) is greater than the specified maximum fee (" ++ str E maxFee ++ py" satoshi)." := by
    rcases h with h | ⟨_, _, h⟩
    · cases kind <;> simp only [res_say, res_pure] at h
    · simp only [res_refuseIf, res_pure, and_false, exists_false, or_false, Prod.mk.injEq, Option.some.injEq] at h
      obtain ⟨b, hb, h1, h2, h3⟩ := h
      exact ⟨b, hb, h1, h2, h3⟩
  obtain ⟨b, hb, ho, rfl, rfl⟩ := h'
  obtain ⟨k, rfl, hk, _⟩ := satoshiToBitcoinP_ok.1 hb
  have hfe : fee = k := by simpa [vInteger, PVal.asInt] using hf.symm
  subst hfe
  refine ⟨rfl, k, ?_, ⟨by omega, by unfold maxMoney at hk; omega⟩, ?_, rfl⟩
  · cases kind with
    | inl p => left; simp only [R_pure, Except.ok.injEq] at hP; rw [hP]
    | inr r =>
      right
      simp only [R_bind_eq_ok, R_pure, Except.ok.injEq] at hP
      obtain ⟨n, h1, h2⟩ := hP
      exact ⟨r, n, rfl, h1, h2.symm⟩
  · by_contra hc
    have := (overFee_false hw).2 (not_lt.1 hc)
    rw [this] at ho
    cases ho

theorem selection_text {E : Msg.Env} {u : UniDB} {ins : List TxIn} {outs : List TxOut} {fee : Int} {ap : PVal} {all : Bool} {e : Err} {t : Str}
    (h : (selection E u ins outs fee ap all).res = .error (e, some t)) :
    (e = .outputValueNotCovered ∧ inTotal ins < outTotal outs ∧ Money (outTotal outs - inTotal ins) ∧
      t = py"Total available input value is less than total output value.\n- Shortfall: " ++ amt u (outTotal outs - inTotal ins)) ∨
    (e = .outputAndFeeValueNotCovered ∧ outTotal outs ≤ inTotal ins ∧ inTotal ins < outTotal outs + fee ∧
      Money (outTotal outs + fee - inTotal ins) ∧
      t = py"Total available input value is less than total output + fee value.\n- Shortfall: " ++ amt u (outTotal outs + fee - inTotal ins)) := by
  unfold selection at h
  simp only [inTotal_eq, outTotal_eq] at h
  simp only [res_bind, res_run, res_run_ok, res_say, res_say_ok, false_or, true_and, exists_const] at h
  obtain ⟨_, _, _, _, h⟩ := h
  by_cases hlt : inTotal ins < outTotal outs
  · left
    simp only [hlt, if_true] at h
    simp only [res_bind, res_run, res_run_ok, res_refuse, res_refuse_ok, false_or, false_and, exists_const, and_false, or_false,
      Prod.mk.injEq, Option.some.injEq] at h
    obtain ⟨b, hb, rfl, rfl⟩ := h
    rw [both_of hb]
    exact ⟨rfl, hlt, s2b_ok.1 ⟨b, hb⟩, rfl⟩
  · right
    simp only [hlt, if_false] at h
    simp only [res_bind, res_run, res_run_ok, res_pure, res_pure_ok, res_say, res_say_ok, false_or, true_and, exists_const] at h
    obtain ⟨_, _, h⟩ := h
    by_cases hlt2 : inTotal ins < outTotal outs + fee
    · simp only [hlt2, if_true] at h
      simp only [res_bind, res_run, res_run_ok, res_refuse, res_refuse_ok, false_or, false_and, exists_const, and_false, or_false,
        Prod.mk.injEq, Option.some.injEq] at h
      obtain ⟨b, hb, rfl, rfl⟩ := h
      rw [both_of hb]
      exact ⟨rfl, not_lt.1 hlt, hlt2, s2b_ok.1 ⟨b, hb⟩, rfl⟩
    · exfalso
      simp only [hlt2, if_false] at h
      by_cases he : inTotal ins = outTotal outs + fee
      · simp only [he, if_true] at h
        simp only [res_bind, res_run, res_run_ok, res_pure, res_pure_ok, res_say, res_say_ok, false_or, or_false, and_false,
          exists_const] at h
      · simp only [he, if_false] at h
        simp only [res_bind, res_run, res_run_ok, res_pure, res_pure_ok, res_say, res_say_ok, false_or, or_false, and_false,
          exists_const] at h

theorem choosing_text {E : Msg.Env} {idx : PVal} {n : Nat} {ca : Str} {e : Err} {t : Str} (h : (choosing E idx n ca).res = .error (e, some t)) :
    e = .valueError ∧ ((idx = .none ∧ t = py"Multiple outputs (" ++ pyStr n ++ py") send to the change address: " ++ ca) ∨
      (∃ i, idx.asInt = some i ∧ (n : Int) ≤ i ∧ idx ≠ .none ∧
        t = py"change_output_index (" ++ str E idx ++ py") must be less than the number of change outputs (" ++ pyStr n ++ py").")) := by
  unfold choosing at h
  split at h
  · simp only [res_pure] at h
  · rename_i hc
    simp only [res_refuse, Prod.mk.injEq, Option.some.injEq] at h
    obtain ⟨rfl, rfl⟩ := h
    refine ⟨rfl, ?_⟩
    cases idx with
    | none => exact .inl ⟨rfl, rfl⟩
    | int i =>
      right
      simp only [chooseChange, PVal.asInt] at hc
      by_cases hi : i < (n : Int)
      · simp [hi] at hc
      · exact ⟨i, rfl, not_lt.1 hi, by simp, rfl⟩
    | bool v =>
      right
      cases v
      · by_cases hi : (0 : Int) < (n : Int)
        · simp [chooseChange, PVal.asInt] at hc; omega
        · exact ⟨0, rfl, not_lt.1 hi, by simp, rfl⟩
      · by_cases hi : (1 : Int) < (n : Int)
        · simp [chooseChange, PVal.asInt] at hc; omega
        · exact ⟨1, rfl, not_lt.1 hi, by simp, rfl⟩
    | _ => simp [chooseChange, PVal.asInt] at hc
  · simp only [res_run] at h

theorem change_text {E : Msg.Env} {X : Ext} {outs : List TxOut} {ca : Str} {idx : PVal} {s : Int} {e : Err} {t : Str}
    (h : (change E X outs ca idx s).res = .error (e, some t)) :
    1 < (outs.filter fun o => o.address = ca).length ∧ (choosing E idx (outs.filter fun o => o.address = ca).length ca).res = .error (e, some t) := by
  unfold change at h
  simp only at h
  split at h
  · rename_i hn
    rw [res_bind] at h
    rcases h with h | ⟨_, _, h⟩
    · exact ⟨hn, h⟩
    · simp only [res_bind, res_run, res_run_ok, res_say, res_say_ok, res_pure, false_or, and_false, exists_false] at h
  · split at h
    · simp only [res_bind, res_run, res_run_ok, res_say, res_say_ok, res_pure, false_or, and_false, exists_false] at h
    · simp only [res_bind, res_run, res_run_ok, res_say, res_say_ok, res_pure, false_or, and_false, exists_false] at h

theorem changeSection_text {E : Msg.Env} {X : Ext} (hs : ∀ b, (X.sha256 b).length = 32) {sel : List TxIn} {outs : List TxOut} {fee : Int}
    {ca : Str} {idx : PVal} {e : Err} {t : Str} (hw : idx.isNone = true ∨ vWholeNumber idx = .ok ())
    (h : (changeSection E X sel outs fee ca idx).res = .error (e, some t)) :
    inTotal sel ≠ outTotal outs + fee ∧ 1 < (outs.filter fun o => o.address = ca).length ∧
      (choosing E idx (outs.filter fun o => o.address = ca).length ca).res = .error (e, some t) := by
  unfold changeSection at h
  simp only [inTotal_eq, outTotal_eq] at h
  rw [res_bind] at h
  simp only [res_run, res_run_ok, false_or] at h
  obtain ⟨_, _, h⟩ := h
  rw [res_bind] at h
  rcases h with h | ⟨r, hr, h⟩
  · unfold surplus at h
    simp only [outTotal_eq] at h
    by_cases he : inTotal sel = outTotal outs + fee
    · simp only [he, if_true] at h
      simp only [res_bind, res_say, res_say_ok, res_pure, false_or, and_false, exists_false] at h
    · simp only [he, if_false] at h
      simp only [res_bind, res_run, res_run_ok, res_say, res_say_ok, false_or, true_and, exists_const, res_pure, and_false, exists_false,
        or_false] at h
      obtain ⟨_, _, h⟩ := h
      exact ⟨he, change_text h⟩
  · exfalso
    rw [res_bind] at h
    rcases h with h | ⟨_, _, h⟩
    · have hne := (res_refuseIf.1 h).1
      rw [res_ok, erase_surplus] at hr
      unfold spendSurplus at hr
      simp only [outTotal_eq] at hr hne
      by_cases he : inTotal sel = outTotal outs + fee
      · simp only [he, if_true, R_pure, Except.ok.injEq] at hr
        subst hr
        exact hne he
      · simp only [he, if_false, R_bind_eq_ok, R_pure, Except.ok.injEq] at hr
        obtain ⟨_, _, ⟨o', c⟩, hc, _, _, _, _, rfl⟩ := hr
        have := ((changeStep_ok hw).1 hc).total hs
        simp only at hne
        omega
    · simp only [res_bind, res_run, res_run_ok, res_say, res_say_ok, res_pure, false_or, and_false, exists_false,
      or_false] at h

theorem spending_text {u : UniDB} {pct : PyFloat} {ti ts ch : Int} {e : Err} {t : Str} (h : (spending u pct ti ts ch).res = .error (e, some t)) :
    e = .valueError ∧ ∃ ms sF tF r, maxSpend pct ti = .ok ms ∧ Money ms ∧ Money (ts - ch) ∧ ms < ts - ch ∧
      PyFloat.ofInt (ts - ch) = .ok sF ∧ PyFloat.ofInt ti = .ok tF ∧ sF.div tF = .ok r ∧
      t = py"Spend amount (" ++ inBitcoin u (ts - ch) ++ py" bitcoin) is greater than the maximum permitted spend amount (" ++ inBitcoin u ms ++
        py" bitcoin). To spend this amount, you will need to increase the --max-spend-percentage value from " ++ fmtFloat 0 pct ++
        py" to " ++ (match (r.mul (.fin 100)).trunc with
          | .ok n => pyStr (n + 1)
          | .error _ => []) ++ py"." := by
  unfold spending at h
  simp only [res_bind, res_run, res_run_ok, res_say, res_say_ok, false_or, true_and, exists_const] at h
  obtain ⟨ms, hms, b1, h1, b2, h2, sF, h3, tF, h4, r, h5, h⟩ := h
  split at h
  · simp only [res_bind, res_run, res_run_ok, res_say, res_say_ok, false_or, or_false, and_false, exists_const, exists_false] at h
  · rename_i hle
    simp only [res_refuse, Prod.mk.injEq, Option.some.injEq] at h
    obtain ⟨rfl, rfl⟩ := h
    refine ⟨rfl, ms, sF, tF, r, hms, s2b_ok.1 ⟨_, h1⟩, s2b_ok.1 ⟨_, h2⟩, not_le.1 hle, h3, h4, h5, ?_⟩
    rw [inBitcoin_of h1, inBitcoin_of h2]
    rfl

/-! ## the whole call -/

theorem validateDesign_text {E : Msg.Env} {X : Ext} {d : List (Str × PVal)} {e : Err} {t : Str} :
    (validateDesign E X d).res ≠ .error (e, some t) := by
  intro h
  unfold validateDesign at h
  simp only [res_bind, res_run, res_run_ok, false_or] at h
  obtain ⟨_, _, _, _, _, _, _, _, _, _, _, _, _, _, _, _, _, _, _, _, _, _, _, _, _, _, h⟩ := h
  split at h
  · simp only [res_bind, res_run, res_run_ok, res_say, res_say_ok, res_pure, false_or, and_false, exists_false] at h
  · simp only [res_bind, res_run, res_run_ok, res_say, res_say_ok, res_pure, false_or, and_false, exists_false] at h

theorem prepare_text {E : Msg.Env} {X : Ext} {a : Args} {e : Err} {t : Str} : (prepare E X a).res ≠ .error (e, some t) := by
  intro h
  unfold prepare at h
  simp only [res_bind, res_run, res_run_ok, res_say, res_say_ok, res_each, res_each_ok, res_pure, false_or, and_false, exists_false, or_false,
    validateDesign_text] at h

/-- The exceptions with a text of the second half. -/
inductive BuildText (E : Msg.Env) (X : Ext) (p : Plan) : Err → Str → Prop
  | approach (x : PVal) : firstApproach p.approaches = .ok x → sortInputs x p.ins = .error .notImplementedError →
      BuildText E X p .notImplementedError (py"Unrecognised input_selection_approach: " ++ str E x)
  | duplicate (ad : Str) : p.allowDup = false → 1 < (p.outs.map TxOut.address).count ad →
      BuildText E X p .duplicateOutputAddress (py"Multiple outputs (" ++ pyStr ((p.outs.map TxOut.address).count ad) ++
        py") send to this address: " ++ ad)
  | cap (fee : Int) : p.ins.length ≤ 252 → p.outs.length ≤ 252 → FeeP p.kind (10 + 179 * p.ins.length + 34 * p.outs.length) (.int fee) →
      Money fee → capOf p.maxFee < fee →
      BuildText E X p .valueError (py"The fee (" ++ pyStr fee ++ py" satoshi) is greater than the specified maximum fee (" ++
        str E p.maxFee ++ py" satoshi).")
  | outputs : inTotal p.ins < outTotal p.outs → Money (outTotal p.outs - inTotal p.ins) →
      BuildText E X p .outputValueNotCovered (py"Total available input value is less than total output value.\n- Shortfall: " ++
        amt X.uni (outTotal p.outs - inTotal p.ins))
  | outputsFee (fee : Int) : p.ins.length ≤ 252 → p.outs.length ≤ 252 → FeeP p.kind (10 + 179 * p.ins.length + 34 * p.outs.length) (.int fee) →
      Money fee → outTotal p.outs ≤ inTotal p.ins → inTotal p.ins < outTotal p.outs + fee → Money (outTotal p.outs + fee - inTotal p.ins) →
      BuildText E X p .outputAndFeeValueNotCovered (py"Total available input value is less than total output + fee value.\n- Shortfall: " ++
        amt X.uni (outTotal p.outs + fee - inTotal p.ins))
  | change (e : Err) (t : Str) : 1 < (p.outs.filter fun o => o.address = p.changeAddress).length →
      (choosing E p.changeIdx (p.outs.filter fun o => o.address = p.changeAddress).length p.changeAddress).res = .error (e, some t) →
      BuildText E X p e t
  | spend (m : Str) (fee : Int) (sel : List TxIn) (outs' : List TxOut) (ch : Int) (e : Err) (t : Str) : p.ins.length ≤ 252 → p.outs.length ≤ 252 →
      FeeP p.kind (10 + 179 * p.ins.length + 34 * p.outs.length) (.int fee) → Money fee → fee ≤ capOf p.maxFee →
      p.approaches = .list [.str m] → Implemented m → (p.allowDup = true ∨ (p.outs.map TxOut.address).Nodup) →
      selectInputs X.uni (arranged m p.ins) p.outs fee ((PVal.str m).eqStr py"all") = .ok sel →
      handleChange X sel p.outs fee p.changeAddress p.changeIdx = .ok (outs', ch) →
      (spending X.uni p.pct (inTotal p.ins) (inTotal sel) ch).res = .error (e, some t) →
      BuildText E X p e t

theorem build_text {E : Msg.Env} {X : Ext} (hs : ∀ b, (X.sha256 b).length = 32) {p : Plan} (hp : PlanOk p) {e : Err} {t : Str}
    (h : (build E X p).res = .error (e, some t)) : BuildText E X p e t := by
  unfold build at h
  rw [res_bind] at h
  rcases h with h | ⟨⟨x, ins⟩, hx, h⟩
  · obtain ⟨x, h1, h2, rfl⟩ := sorting_text h
    have : e = .notImplementedError := by
      unfold sortInputs at h2
      split at h2
      · cases h2
      · split at h2
        · cases h2
        · split at h2
          · cases h2
          · injection h2 with h2; exact h2.symm
    subst this
    exact .approach x h1 h2
  rw [res_ok, erase_sorting] at hx
  simp only [R_bind_eq_ok, R_pure, Except.ok.injEq, Prod.mk.injEq] at hx
  obtain ⟨x', hx1, l, hx2, rfl, rfl⟩ := hx
  obtain ⟨m, hap, rfl, hm, rfl⟩ := approach_ok.1 ⟨hx1, hx2⟩
  have htot := inTotal_perm (arranged_perm m p.ins)
  have hlen := (arranged_perm m p.ins).length_eq
  simp only [res_bind, res_run, res_run_ok, res_say, res_say_ok, res_each, res_each_ok, false_or, true_and, exists_const] at h
  rcases h with h | ⟨_, had, size, hsize, h⟩
  · obtain ⟨h1, rfl, ad, h2, rfl⟩ := addresses_text h
    exact .duplicate ad h1 h2
  rw [res_ok, erase_addresses] at had
  obtain ⟨_, _, hdup⟩ := reportAddresses_ok.1 had
  obtain ⟨n1, n2, rfl⟩ := estimate_ok.1 hsize
  rcases h with h | ⟨fee, hfee, h⟩
  · obtain ⟨rfl, fee, h1, h2, h3, rfl⟩ := fees_text hp.cap h
    exact .cap fee (by omega) n2 (by rw [← hlen]; exact h1) h2 h3
  rw [res_ok, erase_fees] at hfee
  obtain ⟨f1, f2, f3⟩ := (finalFee_ok hp.cap (by omega)).1 hfee
  rw [hlen] at f1
  rcases h with h | ⟨sel, hsel, h⟩
  · rcases selection_text h with ⟨rfl, h1, h2, rfl⟩ | ⟨rfl, h1, h2, h3, rfl⟩
    · rw [htot] at *
      exact .outputs h1 h2
    · rw [htot] at *
      exact .outputsFee fee (by omega) n2 f1 f2 h1 h2 h3
  rw [res_ok, erase_selection] at hsel
  rcases h with h | ⟨⟨outs', ch⟩, hch, h⟩
  · obtain ⟨_, h1, h2⟩ := changeSection_text hs hp.idx h
    exact .change e t h1 h2
  rw [res_ok, erase_changeSection] at hch
  simp only [inTotal_eq, res_bind, res_run, res_run_ok, res_say, res_say_ok, res_pure, false_or, and_false, exists_false, or_false] at h
  rw [htot] at h
  exact .spend m fee sel outs' ch e t (by omega) n2 f1 f2 f3 hap hm hdup hsel hch h

theorem create_text {E : Msg.Env} {X : Ext} (hs : ∀ b, (X.sha256 b).length = 32) {a : Args} {e : Err} {t : Str}
    (h : (create E X a).res = .error (e, some t)) : ∃ p, BT.prepare X a = .ok p ∧ PlanOk p ∧ BuildText E X p e t := by
  unfold create at h
  rw [res_bind] at h
  rcases h with h | ⟨p, hp, h⟩
  · exact absurd h prepare_text
  rw [res_ok, erase_prepare] at hp
  simp only [res_bind, res_pure, and_false, exists_false, or_false] at h
  have hP := prepare_planOk hs hp
  exact ⟨p, hp, hP, build_text hs hP h⟩

end BT.Report
