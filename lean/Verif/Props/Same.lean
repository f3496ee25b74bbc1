import Verif.Lemmas.Same
import Verif.SameSpec
import Verif.Props.CreateWit

/-! # C130: only the meaning of the arguments counts -/

namespace BT
open Spec Same

variable {X : Ext}

namespace Same

theorem adjNum_same {u : UniDB} {x y : Option PVal} (h : SameNumber u x y) : adjNum u x = adjNum u y := by
  have one : ∀ {v n}, NumberOf u v n → adjNum u (some v) = .ok (some (.int n)) := by
    rintro v n (rfl | ⟨s, rfl, hn⟩)
    · rfl
    · simp only [adjNum, hn]; rfl
  rcases h with rfl | ⟨v, w, n, rfl, rfl, hv, hw⟩
  · rfl
  · rw [one hv, one hw]

theorem pctOf_good {u : UniDB} {v : PVal} {q : ℚ} (h : GoodRate u v q) : pctOf u v = (do
    let n ← (rnd64 q).trunc
    vIntegerDomain n 0 100
    pure (rnd64 q)) := by
  unfold pctOf
  obtain ⟨s, g1, g2, g3, g4⟩ := goodRate_ok h
  rcases h with ⟨n, rfl, rfl⟩ | ⟨ip, fp, _, h2, _, _⟩
  · have : PVal.toFloat u (.int n) = PyFloat.ofInt n := rfl
    rw [this]
    unfold PyFloat.ofInt
    have hc : ((n : Int) : ℚ) = (n : ℚ) := by push_cast; rfl
    rw [hc]
    cases hr : rnd64 (n : ℚ) with
    | fin r => rfl
    | inf b => rfl
    | nan =>
      exfalso
      unfold rnd64 at hr
      simp only at hr
      by_cases c1 : 2 ^ 1024 ≤ rndQ (n : ℚ)
      · simp only [c1, if_true] at hr; cases hr
      · by_cases c2 : rndQ (n : ℚ) ≤ -2 ^ 1024
        · simp only [c1, c2, if_true, if_false] at hr; cases hr
        · simp only [c1, c2, if_false] at hr; cases hr
  · have hv : v = .str s := by rcases h2 with ⟨rfl, _⟩ | ⟨rfl, _⟩ <;> exact g1
    subst hv
    have : PVal.toFloat u (.str s) = pyFloatStr u s := rfl
    rw [this, g4]
    rfl

/-- after the adjustment, a rate is either the same value or a text with the same float -/
theorem rate_same {u : UniDB} {x y : Option PVal} (h : SameRate u x y) :
    x = y ∨ ∃ s s' f, (x.map strIfInt).getD .none = .str s ∧ (y.map strIfInt).getD .none = .str s' ∧ s ≠ [] ∧ s' ≠ [] ∧
      vStrWholeOrDecimal u none s = .ok () ∧ vStrWholeOrDecimal u none s' = .ok () ∧ pyFloatStr u s = .ok f ∧ pyFloatStr u s' = .ok f := by
  rcases h with rfl | ⟨v, w, q, rfl, rfl, hv, hw⟩
  · exact .inl rfl
  · obtain ⟨s, g1, g2, g3, g4⟩ := goodRate_ok hv
    obtain ⟨s', g1', g2', g3', g4'⟩ := goodRate_ok hw
    exact .inr ⟨s, s', _, by simp [g1], by simp [g1'], g2, g2', g3, g3', g4, g4'⟩

theorem fees_same {u : UniDB} {x y : Option PVal} (h : SameRate u x y) (fee : PVal) :
    validateFees u fee ((x.map strIfInt).getD .none) = validateFees u fee ((y.map strIfInt).getD .none) ∧
    feeKind u fee ((x.map strIfInt).getD .none) = feeKind u fee ((y.map strIfInt).getD .none) := by
  rcases rate_same h with rfl | ⟨s, s', f, h1, h2, h3, h4, h5, h6, h7, h8⟩
  · exact ⟨rfl, rfl⟩
  · rw [h1, h2]
    have t1 : PVal.truthy (.str s) = true := by cases s <;> simp_all [PVal.truthy]
    have t2 : PVal.truthy (.str s') = true := by cases s' <;> simp_all [PVal.truthy]
    refine ⟨?_, ?_⟩
    · unfold validateFees
      simp only [t1, t2, vString, R_bind_ok, h5, h6, PVal.isNone]
    · unfold feeKind
      simp only [PVal.toFloat, h7, h8]

theorem pct_same {u : UniDB} {x y : Option PVal} (h : SameRate u x y) : x.isNone = y.isNone ∧ pctOf u (x.getD .none) = pctOf u (y.getD .none) := by
  rcases h with rfl | ⟨v, w, q, rfl, rfl, hv, hw⟩
  · exact ⟨rfl, rfl⟩
  · exact ⟨rfl, by simp only [Option.getD_some]; rw [pctOf_good hv, pctOf_good hw]⟩

theorem mode_same {x y : Option PVal} (h : SameMode x y) : validateApproaches (x.getD .none) = validateApproaches (y.getD .none) := by
  have d0 : validateApproaches .none = validateApproaches (.list [.str py"largest_first"]) := by rfl
  unfold SameMode at h
  cases x <;> cases y <;> simp only [Option.getD_some, Option.getD_none] at h ⊢
  · rw [← h]; exact d0
  · rw [h]; exact d0.symm
  · rw [h]

theorem flag_same {x y : Option PVal} (h : SameFlag x y) (idx : PVal) :
    validateOptions (x.getD .none) idx = validateOptions (y.getD .none) idx ∧ (x.getD .none).truthy = (y.getD .none).truthy := by
  rcases h with h | ⟨h1, h2⟩
  · rw [h]; exact ⟨rfl, rfl⟩
  · rcases h1 with h1 | h1 <;> rcases h2 with h2 | h2 <;> rw [h1, h2] <;> exact ⟨rfl, rfl⟩

theorem core_same {ca ca' fee fee' mf mf' rate rate' pct pct' ap ap' dup dup' idx idx' : Option PVal} {ins : List TxIn} {outs : List TxOut}
    (h1 : ca = ca') (h2 : SameNumber X.uni fee fee') (h3 : SameNumber X.uni mf mf') (h4 : SameRate X.uni rate rate') (h5 : SameRate X.uni pct pct')
    (h6 : SameMode ap ap') (h7 : SameFlag dup dup') (h8 : SameOption idx idx') :
    core X ca fee mf rate pct ap (dup.getD .none) (idx.getD .none) ins outs =
      core X ca' fee' mf' rate' pct' ap' (dup'.getD .none) (idx'.getD .none) ins outs := by
  subst h1
  unfold SameOption at h8
  unfold SameMode at h6
  unfold core
  simp only [adjNum_same h2, adjNum_same h3, (fees_same h4 _).1, (fees_same h4 _).2, (pct_same h5).1, (pct_same h5).2, mode_same h6, h8,
    (flag_same h7 _).1, (flag_same h7 .none).2, h6]

theorem request_core (hs : ∀ b, (X.sha256 b).length = 32) {a : Args} {ins : List TxIn} {outs : List TxOut} (h : PositiveRequest X a ins outs) :
    ∃ d, a.design = some (.dict d) ∧ (prepare X a).map blank = core X (dictFind d py"change_address") (dictFind d py"fee") (dictFind d py"max_fee") (dictFind d py"fee_rate")
      (dictFind d py"max_spend_percentage") (dictFind d py"input_selection_approaches") (a.allowDup.getD .none) (a.changeIdx.getD .none) ins outs := by
  obtain ⟨insD, outsD, h1, h2, h3, h4, h5, h6, h7, h8⟩ := h
  have hI : List.Forall₂ (EntryOk X) insD ins := by
    clear h1
    induction h3 with
    | nil => exact .nil
    | cons h _ ih => exact .cons (entryOk_of hs h (h5 _ (by simp)) (h7 _ (by simp))) (ih (fun x hx => h5 x (by simp [hx])) fun i hi => h7 i (by simp [hi]))
  have hO : List.Forall₂ (OutEntryOk X) outsD outs := by
    clear h2
    induction h4 with
    | nil => exact .nil
    | cons h _ ih => exact .cons (outEntryOk_of hs h (h6 _ (by simp)) (h8 _ (by simp))) (ih (fun x hx => h6 x (by simp [hx])) fun i hi => h8 i (by simp [hi]))
  cases hd : a.design with
  | none => simp [setting, hd] at h2
  | some x =>
    cases x with
    | dict d =>
      simp only [setting, hd, Option.bind_some, entry] at h2
      exact ⟨d, rfl, prepare_core hd h1 h2 hI hO⟩
    | _ => simp [setting, hd, entry] at h2

end Same

/-- **C130**: two calls of `create_transaction` whose arguments mean the same have the same outcome, a transaction or an exception. It does not
matter how amounts, indexes, fees, rates and percentages are written (as long as the amounts are positive), in which order the keys of the entries and of the design
come, whether default settings are written out, and which further keys the design has. -/
theorem C130_same_meaning (hs : ∀ b, (X.sha256 b).length = 32) {a b : Args} {ins : List TxIn} {outs : List TxOut}
    (ha : PositiveRequest X a ins outs) (hb : PositiveRequest X b ins outs) (h : SameSettings X.uni a b) :
    outcome (createTransaction X a) = outcome (createTransaction X b) := by
  obtain ⟨d, hd, ca⟩ := request_core hs ha
  obtain ⟨d', hd', cb⟩ := request_core hs hb
  unfold outcome
  rw [create_core ca, create_core cb]
  have e : ∀ k, setting a k = dictFind d k := fun k => by unfold setting; rw [hd]; rfl
  have e' : ∀ k, setting b k = dictFind d' k := fun k => by unfold setting; rw [hd']; rfl
  obtain ⟨h1, h2, h3, h4, h5, h6, h7, h8⟩ := h
  rw [e, e'] at h1 h2 h3 h4 h5 h6
  rw [core_same h1 h2 h3 h4 h5 h6 h7 h8]

/-- **C130**: in particular a success is a success with the same transaction. -/
theorem C130_success (hs : ∀ b, (X.sha256 b).length = 32) {a b a' : Args} {t : Tx} {ins : List TxIn} {outs : List TxOut}
    (ha : PositiveRequest X a ins outs) (hb : PositiveRequest X b ins outs) (h : SameSettings X.uni a b)
    (hr : createTransaction X a = .ok (t, a')) : ∃ b', createTransaction X b = .ok (t, b') := by
  have := C130_same_meaning hs ha hb h
  rw [hr] at this
  cases hb : createTransaction X b with
  | error e => rw [hb] at this; simp [outcome, Except.map] at this
  | ok r =>
    obtain ⟨t', b'⟩ := r
    rw [hb] at this
    simp only [outcome, Except.map, Except.ok.injEq] at this
    subst this
    exact ⟨b', rfl⟩

end BT
