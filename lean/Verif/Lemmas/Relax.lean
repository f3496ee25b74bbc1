import Verif.Lemmas.RetrySame
import Verif.Lemmas.Repeat
import Verif.Lemmas.Summary
import Verif.Lemmas.Decide
import Verif.Lemmas.Order
import Verif.Lemmas.WellFormed

/-! # What the limits (`max_fee`, `max_spend_percentage`, the duplicate option) and the form of the fee have to do with the result -/

namespace BT.Relax
open Spec Retry

variable {X : Ext}

/-- a plan with other limits -/
def withLimits (p : Plan) (m : PVal) (f : PyFloat) (b : Bool) : Plan := { p with maxFee := m, pct := f, allowDup := b }

theorem adjustDesign_setMax {u : UniDB} {d d1 : List (Str × PVal)} {v w m : PVal} (hv : dictFind d py"max_fee" = some v)
    (h : adjustDesign u d = .ok d1) (hw : Adjusted u (some w) (some m)) :
    adjustDesign u (dictSet d py"max_fee" w) = .ok (dictSet d1 py"max_fee" m) := by
  unfold adjustDesign at h ⊢
  rw [adjustFee_set (by decide) hv]
  obtain ⟨d2, h2, h3⟩ := R_bind_eq_ok.1 h
  have f1 : dictFind d2 py"max_fee" = some v := by rw [(adjustFee_ok h2).1 _ (by decide)]; exact hv
  rw [h2]
  simp only [R_bind_ok, R_pure]
  rw [adjustFeeRate_set (by decide) f1]
  generalize adjustFeeRate d2 = d3 at h3
  have h1 : dictSet d1 py"max_fee" m = dictSet d3 py"max_fee" m := by
    unfold adjustMaxFee at h3
    split at h3
    · simp only [R_bind_eq_ok, R_pure, Except.ok.injEq] at h3
      obtain ⟨n, _, rfl⟩ := h3
      rw [set_set]
    · simp only [R_pure, Except.ok.injEq] at h3
      rw [h3]
  rw [h1]
  unfold adjustMaxFee
  rw [find_set_eq]
  rcases hw with ⟨s, n, hs, hn, he⟩ | ⟨hs, he⟩
  · simp only [Option.some.injEq] at hs he
    subst hs; subst he
    simp only [hn, R_bind_ok, R_pure, set_set]
  · simp only [Option.some.injEq] at he
    subst he
    cases m with
    | str s => exact absurd rfl (hs s)
    | _ => rfl

/-- the preparation with other limits -/
theorem prepare_limits {a : Args} {p : Plan} {d : List (Str × PVal)} {w m wp : PVal} {f : PyFloat} {n : Int} {o : Option PVal}
    (h : prepare X a = .ok p) (hd : a.design = some (.dict d)) (hm : Adjusted X.uni (some w) (some m)) (hw : vWholeNumber m = .ok ())
    (hf : wp.toFloat X.uni = .ok f) (hn : f.trunc = .ok n) (h0 : 0 ≤ n) (h1 : n ≤ 100)
    (ho : (o.getD .none).isNone = true ∨ ∃ b, o.getD .none = .bool b) :
    ∃ af, prepare X { a with design := some (.dict (dictSet (dictSet d py"max_fee" w) py"max_spend_percentage" wp)), allowDup := o } =
      .ok { withLimits p m f (o.getD .none).truthy with after := af } := by
  obtain ⟨insD, d', d1, insZ, outsD, outsZ, ca, mf, msp, n', k1, k2, k3, k4, k5, k6, k7, k8, k9, k10, k11, k12, k13, k14, k15, k16, k17, k18, k19, k20, k21, k22, k23, k24, k25, k26, k27⟩ := prepare_ok.1 h
  rw [hd] at k2
  injection k2 with k2; injection k2 with k2; subst k2
  obtain ⟨a1, a2, a3, a4, a5⟩ := adjustDesign_ok k3
  have fm : ∃ v, dictFind d py"max_fee" = some v := by
    rw [k7] at a4
    rcases a4 with ⟨s, _, hs, _⟩ | ⟨_, hs⟩
    · exact ⟨_, hs⟩
    · exact ⟨_, hs.symm⟩
  obtain ⟨v, fm⟩ := fm
  have fp : dictFind d py"max_spend_percentage" = some msp := by rw [← a1 _ (by decide) (by decide) (by decide)]; exact k9
  have hadj : adjustDesign X.uni (dictSet (dictSet d py"max_fee" w) py"max_spend_percentage" wp) =
      .ok (dictSet (dictSet d1 py"max_fee" m) py"max_spend_percentage" wp) := by
    rw [adjustDesign_set (w := msp) (by decide) (by decide) (by decide) (by rw [find_set_ne (by decide)]; exact fp),
      adjustDesign_setMax fm k3 hm]
    rfl
  have ne : ∀ k, k ≠ py"max_fee" → k ≠ py"max_spend_percentage" →
      dictFind (dictSet (dictSet d1 py"max_fee" m) py"max_spend_percentage" wp) k = dictFind d1 k := by
    intro k h1 h2; rw [find_set_ne h2, find_set_ne h1]
  have opt : ∀ k, k ≠ py"max_fee" → k ≠ py"max_spend_percentage" →
      dictOpt (dictSet (dictSet d1 py"max_fee" m) py"max_spend_percentage" wp) k = dictOpt d1 k := by
    intro k h1 h2; unfold dictOpt; rw [ne k h1 h2]
  refine ⟨_, prepare_ok.2 ⟨insD, _, _, insZ, outsD, outsZ, ca, m, wp, n, k1, rfl, hadj, k4, ?_, k6, ?_, hw, find_set_eq, hf, hn, h0, h1, ?_, k15, ?_, ?_, ?_, ?_, k20, k21, ?_, rfl, k24, rfl, k26, rfl⟩⟩
  · rw [ne _ (by decide) (by decide)]; exact k5
  · rw [find_set_ne (by decide), find_set_eq]
  · rw [ne _ (by decide) (by decide)]; exact k14
  · rw [opt _ (by decide) (by decide), opt _ (by decide) (by decide)]; exact k16
  · rw [opt _ (by decide) (by decide)]; exact k17
  · exact validateOptions_ok.2 ⟨ho, (validateOptions_ok.1 k18).2⟩
  · rw [opt _ (by decide) (by decide), opt _ (by decide) (by decide)]; exact k19
  · show p.approaches = _
    rw [ne _ (by decide) (by decide)]; exact k22

theorem built_after {p : Plan} {t : Tx} {m : Str} {fee : Int} {sel : List TxIn} {outs' : List TxOut} {ch : Int} {q : ℚ} {af : Args} :
    Built X { p with after := af } t m fee sel outs' ch q ↔ Built X p t m fee sel outs' ch q := by
  constructor
  · rintro ⟨h1, h2, h3, h4, h5, h6, h7, h8, h9, h10, h11, h12, h13, h14, h15, h16, h17, h18, h19, h20⟩
    exact ⟨h1, h2, h3, h4, h5, h6, h7, h8, h9, h10, h11, h12, h13, h14, h15, h16, h17, h18, h19, h20⟩
  · rintro ⟨h1, h2, h3, h4, h5, h6, h7, h8, h9, h10, h11, h12, h13, h14, h15, h16, h17, h18, h19, h20⟩
    exact ⟨h1, h2, h3, h4, h5, h6, h7, h8, h9, h10, h11, h12, h13, h14, h15, h16, h17, h18, h19, h20⟩

/-- other limits, if the result keeps them -/
theorem built_limits {p : Plan} {t : Tx} {m : Str} {fee : Int} {sel : List TxIn} {outs' : List TxOut} {ch : Int} {q : ℚ}
    (B : Built X p t m fee sel outs' ch q) {mf : PVal} {q' : ℚ} {b : Bool} (hb : b = true ∨ (p.outs.map TxOut.address).Nodup)
    (hf : fee ≤ capOf mf) (hm : Money (limitOf q' (inTotal p.ins))) (hl : inTotal sel - ch ≤ limitOf q' (inTotal p.ins))
    (h0 : limitOf q' (inTotal p.ins) ≠ 0) : Built X (withLimits p mf (.fin q') b) t m fee sel outs' ch q' :=
  ⟨B.appr, B.impl, hb, B.nin, B.nout, B.fee_of, B.fee_money, hf, B.in_money, B.covered, B.sel_eq, B.outs_eq, rfl, hm, B.spend_nn, B.in_ne, hl, h0,
    B.nout', B.tx_eq⟩

theorem built_spend {p : Plan} {t : Tx} {m : Str} {fee : Int} {sel : List TxIn} {outs' : List TxOut} {ch : Int} {q : ℚ}
    (hs : ∀ b, (X.sha256 b).length = 32) (hp : PlanOk p) (B : Built X p t m fee sel outs' ch q) : inTotal sel - ch ≤ inTotal p.ins := by
  have hpre : sel <+: arranged m p.ins := by rw [B.sel_eq]; exact chosen_prefix ..
  have hselle : inTotal sel ≤ inTotal p.ins := by
    rw [← inTotal_perm (arranged_perm m p.ins)]
    exact prefix_total hpre fun i hi => hp.ins_nn i ((arranged_perm m p.ins).mem_iff.1 hi)
  have hch0 : 0 ≤ ch := by
    rcases B.outs_eq with ⟨_, _, h⟩ | ⟨_, c, hc, h⟩
    · omega
    · have := (hc.address hs).2.2; unfold Money at this; omega
  omega

/-- without limits -/
theorem built_free {p : Plan} {t : Tx} {m : Str} {fee : Int} {sel : List TxIn} {outs' : List TxOut} {ch : Int} {q : ℚ}
    (hs : ∀ b, (X.sha256 b).length = 32) (hp : PlanOk p) (B : Built X p t m fee sel outs' ch q) :
    Built X (withLimits p (.int maxMoney) (.fin 100) true) t m fee sel outs' ch 100 := by
  have hf := limitOf_full B.in_money
  refine built_limits B (.inl rfl) ?_ (by rw [hf]; exact B.in_money) (by rw [hf]; exact built_spend hs hp B) (by rw [hf]; exact B.in_ne)
  have := B.fee_money
  unfold Money at this
  show fee ≤ (maxMoney : Int)
  unfold maxMoney
  push_cast
  omega

theorem free_planOk {p : Plan} (hp : PlanOk p) : PlanOk (withLimits p (.int maxMoney) (.fin 100) true) :=
  ⟨hp.ins_nn, hp.outs_nn, ⟨100, rfl, by norm_num, by norm_num⟩, (by decide : vWholeNumber (.int maxMoney) = .ok ()), hp.idx⟩

/-- the result does not depend on the limits -/
theorem built_same {p : Plan} {t t' : Tx} {m m' : Str} {fee fee' : Int} {sel sel' : List TxIn} {outs' outs'' : List TxOut} {ch ch' : Int} {q q' : ℚ}
    (hs : ∀ b, (X.sha256 b).length = 32) (hp : PlanOk p) (B : Built X p t m fee sel outs' ch q) {mf : PVal} {f : PyFloat} {b : Bool}
    (hp' : PlanOk (withLimits p mf f b)) (B' : Built X (withLimits p mf f b) t' m' fee' sel' outs'' ch' q') : t' = t := by
  have e1 := (buildTx_ok hs (free_planOk hp)).2 ⟨_, _, _, _, _, _, built_free hs hp B⟩
  have e2 := (buildTx_ok hs (free_planOk hp')).2 ⟨_, _, _, _, _, _, built_free hs hp' B'⟩
  have e2' : buildTx X p.ins p.outs p.approaches p.kind (.int maxMoney) (.fin 100) p.changeAddress true p.changeIdx = .ok t' := e2
  have e1' : buildTx X p.ins p.outs p.approaches p.kind (.int maxMoney) (.fin 100) p.changeAddress true p.changeIdx = .ok t := e1
  rw [e1'] at e2'
  injection e2' with e2'
  exact e2'.symm

end BT.Relax
