import Verif.Lemmas.WellFormed
import Verif.Lemmas.Summary

/-! # The order and the number of the offered inputs -/

namespace BT
open Spec

variable {X : Ext}

/-- two argument objects that differ at most in `inputs` -/
def SameButInputs (a b : Args) : Prop := a.design = b.design ∧ a.allowDup = b.allowDup ∧ a.changeIdx = b.changeIdx

/-- everything between an entry of `inputs` and the input object -/
def EntryOk (X : Ext) (x : PVal) (i : TxIn) : Prop := ∃ z, InStep X x z ∧ mkInput X z = .ok i

theorem forall₂_split {α β γ : Type} {P : α → γ → Prop} {Q : γ → β → Prop} {l : List α} {m : List β}
    (h : List.Forall₂ (fun x y => ∃ z, P x z ∧ Q z y) l m) : ∃ n, List.Forall₂ P l n ∧ List.Forall₂ Q n m := by
  induction h with
  | nil => exact ⟨[], .nil, .nil⟩
  | cons h _ ih =>
    obtain ⟨z, h1, h2⟩ := h
    obtain ⟨n, h3, h4⟩ := ih
    exact ⟨z :: n, .cons h1 h3, .cons h2 h4⟩

theorem forall₂_join {α β γ : Type} {P : α → γ → Prop} {Q : γ → β → Prop} {l : List α} {n : List γ} {m : List β}
    (h : List.Forall₂ P l n) (h' : List.Forall₂ Q n m) : List.Forall₂ (fun x y => ∃ z, P x z ∧ Q z y) l m := by
  induction h generalizing m with
  | nil => cases h'; exact .nil
  | cons h _ ih =>
    cases h' with
    | cons h1 h2 => exact .cons ⟨_, h, h1⟩ (ih h2)

/-- the inputs of a plan come from the entries -/
theorem prepare_entries {a : Args} {p : Plan} (h : prepare X a = .ok p) :
    ∃ insD, a.inputs = some (.list insD) ∧ List.Forall₂ (EntryOk X) insD p.ins := by
  obtain ⟨insD, d, d1, insZ, outsD, outsZ, ca, mf, msp, n, h1, h2, h3, h4, h5, h6, h7, h8, h9, h10, h11, h12, h13, h14, h15, h16, h17, h18, h19, h20, _⟩ := prepare_ok.1 h
  exact ⟨insD, h1, forall₂_join h4 h20⟩

/-- other inputs, the same rest -/
theorem prepare_other {a b : Args} {p : Plan} (h : prepare X a = .ok p) (hab : SameButInputs a b) {insD : List PVal} {ins : List TxIn}
    (hb : b.inputs = some (.list insD)) (hi : List.Forall₂ (EntryOk X) insD ins) : ∃ b', prepare X b = .ok { p with ins := ins, after := b' } := by
  obtain ⟨insD0, d, d1, insZ0, outsD, outsZ, ca, mf, msp, n, h1, h2, h3, h4, h5, h6, h7, h8, h9, h10, h11, h12, h13, h14, h15, h16, h17, h18, h19, h20, h21, h22, h23, h24, h25, h26, h27⟩ := prepare_ok.1 h
  obtain ⟨insZ, hz1, hz2⟩ := forall₂_split hi
  obtain ⟨e1, e2, e3⟩ := hab
  refine ⟨{ b with inputs := some (.list insZ), design := some (.dict (dictSet d1 py"outputs" (.list outsZ))) }, prepare_ok.2 ?_⟩
  exact ⟨insD, d, d1, insZ, outsD, outsZ, ca, mf, msp, n, hb, by rw [← e1]; exact h2, h3, hz1, h5, h6, h7, h8, h9, h10, h11, h12, h13, h14, h15, h16, h17,
    by rw [← e2, ← e3]; exact h18, h19, hz2, h21, h22, h23, h24, by rw [← e2]; exact h25, by rw [← e3]; exact h26, rfl⟩

theorem arranged_amounts {m : Str} {l l' : List TxIn} (h : l.Perm l') : (arranged m l).map TxIn.amount = (arranged m l').map TxIn.amount := by
  have hp : ((arranged m l).map TxIn.amount).Perm ((arranged m l').map TxIn.amount) :=
    (((arranged_perm m l).trans h).trans (arranged_perm m l').symm).map _
  unfold arranged at *
  split
  · rename_i hm
    simp only [hm, if_true] at hp
    refine hp.eq_of_pairwise (fun a b _ _ h1 h2 => le_antisymm h1 h2) ?_ ?_ <;>
      exact List.pairwise_map.2 (sortSmallest_sorted _)
  · rename_i hm
    simp only [hm, if_false] at hp
    refine hp.eq_of_pairwise (le := fun a b => b ≤ a) (fun a b _ _ h1 h2 => le_antisymm h2 h1) ?_ ?_ <;>
      exact List.pairwise_map.2 (sortLargest_sorted _)

theorem selectLoop_amounts {target tot : Int} {all : Bool} {l l' : List TxIn} (h : l.map TxIn.amount = l'.map TxIn.amount) :
    (selectLoop target all tot l).map TxIn.amount = (selectLoop target all tot l').map TxIn.amount := by
  induction l generalizing l' tot with
  | nil => cases l' with
    | nil => rfl
    | cons _ _ => simp at h
  | cons x l ih => cases l' with
    | nil => simp at h
    | cons y l' =>
      simp only [List.map_cons, List.cons.injEq] at h
      unfold selectLoop
      simp only [h.1]
      split
      · simp [h.1]
      · simp [h.1, ih h.2]

theorem inTotal_amounts {l l' : List TxIn} (h : l.map TxIn.amount = l'.map TxIn.amount) : inTotal l = inTotal l' := by
  show (l.map TxIn.amount).sum = (l'.map TxIn.amount).sum
  rw [h]

theorem chosen_amounts {target : Int} {all : Bool} {l l' : List TxIn} (h : l.map TxIn.amount = l'.map TxIn.amount) :
    (chosen target all l).map TxIn.amount = (chosen target all l').map TxIn.amount := by
  unfold chosen
  rw [inTotal_amounts h]
  split
  · exact h
  · exact selectLoop_amounts h

/-- lists with pairwise different amounts are determined by their amounts -/
theorem arranged_unique {m : Str} {l l' : List TxIn} (h : l.Perm l') (hd : (l.map TxIn.amount).Nodup) : arranged m l = arranged m l' := by
  have hp := ((arranged_perm m l).trans h).trans (arranged_perm m l').symm
  have hinj : ∀ i ∈ l, ∀ j ∈ l, i.amount = j.amount → i = j := fun i hi j hj e => List.inj_on_of_nodup_map hd hi hj e
  have hm1 := fun i => (arranged_perm m l).mem_iff (a := i)
  have hm2 := fun i => ((arranged_perm m l').trans h.symm).mem_iff (a := i)
  revert hp hm1 hm2
  unfold arranged
  split
  · intro hp hm1 hm2
    refine hp.eq_of_pairwise (fun a b ha hb h1 h2 => hinj a ((hm1 a).1 ha) b ((hm2 b).1 hb) (le_antisymm h1 h2)) ?_ ?_ <;> exact sortSmallest_sorted _
  · intro hp hm1 hm2
    refine hp.eq_of_pairwise (fun a b ha hb h1 h2 => hinj a ((hm1 a).1 ha) b ((hm2 b).1 hb) (le_antisymm h2 h1)) ?_ ?_ <;> exact sortLargest_sorted _

/-- the transaction with other inputs of the same amounts -/
def reInput (t : Tx) (sel : List TxIn) : Tx := { t with inputs := sel }

/-- building with the inputs in another order -/
theorem built_perm {p : Plan} {t : Tx} {m : Str} {fee : Int} {sel : List TxIn} {outs' : List TxOut} {ch : Int} {q : ℚ}
    (B : Built X p t m fee sel outs' ch q) {ins : List TxIn} (hp : ins.Perm p.ins) (b' : Args) :
    ∃ sel', Built X { p with ins := ins, after := b' } (reInput t sel') m fee sel' outs' ch q ∧ sel'.map TxIn.amount = sel.map TxIn.amount ∧
      sel' = chosen (outTotal p.outs + fee) (decide (m = py"all")) (arranged m ins) := by
  have htot := inTotal_perm hp
  have hlen := hp.length_eq
  have hsel : (chosen (outTotal p.outs + fee) (decide (m = py"all")) (arranged m ins)).map TxIn.amount = sel.map TxIn.amount := by
    rw [B.sel_eq]; exact chosen_amounts (arranged_amounts hp)
  have hst := inTotal_amounts hsel
  have hsl : (chosen (outTotal p.outs + fee) (decide (m = py"all")) (arranged m ins)).length = sel.length := by
    have := congrArg List.length hsel; simpa using this
  refine ⟨_, ⟨B.appr, B.impl, B.dup, by rw [hlen]; exact B.nin, B.nout, by rw [hlen]; exact B.fee_of, B.fee_money, B.fee_cap, by rw [htot]; exact B.in_money,
    by rw [htot]; exact B.covered, rfl, ?_, B.pct, by rw [htot]; exact B.lim_money, by rw [hst]; exact B.spend_nn, by rw [htot]; exact B.in_ne, by rw [hst, htot]; exact B.spend_le,
    by rw [htot]; exact B.lim_ne, B.nout', ?_⟩, hsel, rfl⟩
  · simp only
    rw [hst]; exact B.outs_eq
  · rw [B.tx_eq]; simp only [reInput]; rw [hsl]

/-! ## more coins than before -/

/-- sorted lists with the same elements of every amount, in the same order, are equal -/
theorem sorted_stable_unique (k : TxIn → Int) : ∀ L L' : List TxIn, L.Pairwise (fun a b => k a ≤ k b) → L'.Pairwise (fun a b => k a ≤ k b) →
    (∀ v, (L.filter fun i => k i = v) = L'.filter fun i => k i = v) → L = L' := by
  intro L
  induction L with
  | nil =>
    intro L' _ _ h
    cases L' with
    | nil => rfl
    | cons y r => have := h (k y); simp at this
  | cons x r ih =>
    intro L' h1 h2 h
    cases L' with
    | nil => have := h (k x); simp at this
    | cons y r' =>
      have hx : k y ≤ k x := by
        have : x ∈ (y :: r').filter fun i => k i = k x := by rw [← h]; simp
        simp only [List.mem_filter, List.mem_cons] at this
        rcases this.1 with rfl | hm
        · exact le_refl _
        · exact (List.pairwise_cons.1 h2).1 x hm
      have hy : k x ≤ k y := by
        have : y ∈ (x :: r).filter fun i => k i = k y := by rw [h]; simp
        simp only [List.mem_filter, List.mem_cons] at this
        rcases this.1 with rfl | hm
        · exact le_refl _
        · exact (List.pairwise_cons.1 h1).1 y hm
      have e : k x = k y := le_antisymm hy hx
      have hh := h (k x)
      rw [List.filter_cons_of_pos (by simp), List.filter_cons_of_pos (by simp [e])] at hh
      simp only [List.cons.injEq] at hh
      obtain ⟨rfl, _⟩ := hh
      refine congrArg (x :: ·) (ih r' (List.pairwise_cons.1 h1).2 (List.pairwise_cons.1 h2).2 fun v => ?_)
      have hv := h v
      by_cases hc : k x = v
      · rw [List.filter_cons_of_pos (by simp [hc]), List.filter_cons_of_pos (by simp [hc])] at hv
        simpa using hv
      · rw [List.filter_cons_of_neg (by simp [hc]), List.filter_cons_of_neg (by simp [hc])] at hv
        exact hv

theorem filter_split_sorted (k : TxIn → Int) (v : Int) : ∀ L : List TxIn, L.Pairwise (fun a b => k a ≤ k b) →
    L = (L.filter fun i => k i < v) ++ L.filter fun i => ¬ k i < v := by
  intro L
  induction L with
  | nil => intro _; rfl
  | cons x r ih =>
    intro h
    by_cases hx : k x < v
    · rw [List.filter_cons_of_pos (by simpa using hx), List.filter_cons_of_neg (by simpa using hx), List.cons_append, ← ih (List.pairwise_cons.1 h).2]
    · have : ∀ i ∈ x :: r, ¬ k i < v := by
        intro i hi
        rcases List.mem_cons.1 hi with rfl | hi
        · exact hx
        · have := (List.pairwise_cons.1 h).1 i hi; omega
      rw [(List.filter_eq_nil_iff (p := fun i => decide (k i < v))).2 (by simpa using this), List.nil_append]
      exact (List.filter_eq_self.2 (by simpa using this)).symm

/-- elements that come later do not disturb a prefix -/
theorem sorted_prefix (k : TxIn → Int) {l e A B S R : List TxIn} (hA : A.Pairwise (fun a b => k a ≤ k b)) (hB : B.Pairwise (fun a b => k a ≤ k b))
    (hAs : ∀ v, (A.filter fun i => k i = v) = l.filter fun i => k i = v) (hBs : ∀ v, (B.filter fun i => k i = v) = (l ++ e).filter fun i => k i = v)
    (hS : A = S ++ R) (he : ∀ x ∈ e, ∀ s ∈ S, k s < k x) : S <+: B := by
  rcases S.eq_nil_or_concat with rfl | ⟨S0, z, rfl⟩
  · exact List.nil_prefix
  · have hb : ∀ s ∈ S0.concat z, k s < k z + 1 := by
      intro s hs
      rw [List.concat_eq_append] at hs hS
      have h1 : (S0 ++ [z]).Pairwise (fun a b => k a ≤ k b) := by
        rw [hS] at hA; exact (List.pairwise_append.1 hA).1
      rcases List.mem_append.1 hs with h | h
      · have := (List.pairwise_append.1 h1).2.2 s h z (by simp); omega
      · simp at h; subst h; omega
    have hez : ∀ x ∈ e, ¬ k x < k z + 1 := by
      intro x hx
      have := he x hx z (by simp); omega
    have key : (A.filter fun i => k i < k z + 1) = B.filter fun i => k i < k z + 1 := by
      refine sorted_stable_unique k _ _ (hA.sublist List.filter_sublist) (hB.sublist List.filter_sublist) fun v => ?_
      rw [List.filter_filter, List.filter_filter]
      by_cases hv : v < k z + 1
      · have e1 : ∀ M : List TxIn, (M.filter fun i => decide (k i = v) && decide (k i < k z + 1)) = M.filter fun i => k i = v := by
          intro M
          congr 1
          funext i
          by_cases hi : k i = v <;> simp [hi, hv]
        rw [e1, e1, hAs, hBs, List.filter_append, (List.filter_eq_nil_iff (l := e)).2, List.append_nil]
        intro x hx
        have := hez x hx
        simp; omega
      · have e1 : ∀ M : List TxIn, (M.filter fun i => decide (k i = v) && decide (k i < k z + 1)) = [] := by
          intro M
          rw [List.filter_eq_nil_iff]
          intro x _
          simp; omega
        rw [e1, e1]
    rw [filter_split_sorted k (k z + 1) B hB, ← key, hS, List.filter_append, List.filter_eq_self.2 (by simpa using hb), List.append_assoc]
    exact List.prefix_append _ _

theorem arranged_prefix {m : Str} {l e S R : List TxIn} (hS : arranged m l = S ++ R)
    (he : ∀ x ∈ e, ∀ s ∈ S, if m = py"smallest_first" then s.amount < x.amount else x.amount < s.amount) : S <+: arranged m (l ++ e) := by
  have hst := arranged_stable m l
  have hst' := arranged_stable m (l ++ e)
  unfold arranged at *
  by_cases hm : m = py"smallest_first"
  · simp only [hm, if_true] at *
    exact sorted_prefix TxIn.amount (sortSmallest_sorted l) (sortSmallest_sorted _) hst hst' hS he
  · simp only [hm, if_false] at *
    refine sorted_prefix (l := l) (fun i => - i.amount) ((sortLargest_sorted l).imp fun h => by omega) ((sortLargest_sorted _).imp fun h => by omega) ?_ ?_ hS
      (fun x hx s hs => by have := he x hx s hs; omega)
    · intro v
      have : ∀ M : List TxIn, (M.filter fun i => decide (- i.amount = v)) = M.filter fun i => i.amount = -v := by
        intro M; congr 1; funext i; exact Bool.eq_iff_iff.2 (by simp; omega)
      rw [this, this]; exact hst (-v)
    · intro v
      have : ∀ M : List TxIn, (M.filter fun i => decide (- i.amount = v)) = M.filter fun i => i.amount = -v := by
        intro M; congr 1; funext i; exact Bool.eq_iff_iff.2 (by simp; omega)
      rw [this, this]; exact hst' (-v)

theorem selectLoop_append (target : Int) : ∀ (S R : List TxIn) (tot : Int), S ≠ [] → target ≤ tot + inTotal S →
    (∀ P, P <+: S → P ≠ [] → P.length < S.length → tot + inTotal P < target) → selectLoop target false tot (S ++ R) = S := by
  intro S
  induction S with
  | nil => intro R tot h; simp at h
  | cons x S ih =>
    intro R tot _ h hP
    unfold selectLoop
    simp only [List.cons_append]
    rw [inTotal_cons] at h
    by_cases hS : S = []
    · subst hS
      rw [if_pos ⟨by simp [inTotal] at h; omega, by trivial⟩]
    · have h1 := hP [x] ⟨S, rfl⟩ (by simp) (by simpa using List.length_pos_iff.2 hS)
      simp only [inTotal_cons] at h1
      have h0 : inTotal ([] : List TxIn) = 0 := rfl
      rw [if_neg (by rintro ⟨h2, _⟩; omega)]
      refine congrArg (x :: ·) (ih R (tot + x.amount) hS (by omega) fun P hp hne hl => ?_)
      have := hP (x :: P) (List.cons_prefix_cons.2 ⟨rfl, hp⟩) (by simp) (by simpa using hl)
      rw [inTotal_cons] at this; omega

theorem inTotal_pos {l : List TxIn} (h : ∀ i ∈ l, 0 < i.amount) (hne : l ≠ []) : 0 < inTotal l := by
  cases l with
  | nil => simp at hne
  | cons x l =>
    rw [inTotal_cons]
    have h1 := h x (by simp)
    have h2 := inTotal_nonneg (l := l) fun i hi => (h i (by simp [hi])).le
    omega

/-- what is chosen does not change when coins that come later are added -/
theorem chosen_more {m : Str} {target : Int} {l e : List TxIn} (hm : m ≠ py"all") (hpos : ∀ i ∈ l ++ e, 0 < i.amount) (hl : l ≠ [])
    (hcov : target ≤ inTotal l)
    (he : ∀ x ∈ e, ∀ s ∈ chosen target (decide (m = py"all")) (arranged m l), if m = py"smallest_first" then s.amount < x.amount else x.amount < s.amount) :
    chosen target (decide (m = py"all")) (arranged m (l ++ e)) = chosen target (decide (m = py"all")) (arranged m l) := by
  by_cases hee : e = []
  · subst hee; simp
  have hf : decide (m = py"all") = false := by simpa using hm
  rw [hf] at he ⊢
  have htot := inTotal_perm (arranged_perm m l)
  have htot' := inTotal_perm (arranged_perm m (l ++ e))
  set S := chosen target false (arranged m l) with hSdef
  obtain ⟨R, hR⟩ := chosen_prefix target false (arranged m l)
  rw [← hSdef] at hR
  obtain ⟨R', hR'⟩ := arranged_prefix hR.symm he
  have hep := inTotal_pos (fun i hi => hpos i (by simp [hi])) hee
  have hne : inTotal (arranged m (l ++ e)) ≠ target := by
    rw [htot', inTotal_append]; omega
  have hgoal : chosen target false (arranged m (l ++ e)) = selectLoop target false 0 (S ++ R') := by
    unfold chosen; rw [if_neg hne, hR']
  rw [hgoal]
  have hSp : ∀ i ∈ S, 0 < i.amount := fun i hi =>
    hpos i (by simp [(arranged_perm m l).mem_iff.1 ((chosen_prefix _ _ _).subset hi)])
  have harr : arranged m l ≠ [] := by
    intro h
    have := (arranged_perm m l).length_eq
    rw [h] at this
    exact hl (List.length_eq_zero_iff.1 this.symm)
  have hS0 : S ≠ [] := by
    rw [hSdef]; unfold chosen; split
    · exact harr
    · exact selectLoop_ne _ _ _ harr
  have hreach : target ≤ inTotal S := by rw [hSdef]; exact chosen_reach (by rw [htot]; exact hcov)
  refine selectLoop_append target S R' 0 hS0 (by omega) fun P hp h0 hlt => ?_
  by_cases hex : inTotal (arranged m l) = target
  · have hSe : S = arranged m l := by rw [hSdef]; unfold chosen; rw [if_pos hex]
    obtain ⟨Q, hQ⟩ := hp
    have hQ0 : Q ≠ [] := by rintro rfl; simp at hQ; rw [hQ] at hlt; omega
    have := inTotal_pos (l := Q) (fun i hi => hSp i (by rw [← hQ]; simp [hi])) hQ0
    have h3 := inTotal_append P Q
    rw [hQ, hSe, hex] at h3
    omega
  · have hSe : S = selectLoop target false 0 (arranged m l) := by rw [hSdef]; unfold chosen; rw [if_neg hex]
    rw [hSe] at hp hlt
    exact selectLoop_min target 0 _ hp h0 hlt

theorem limitOf_le_total {q : ℚ} {t : Int} (h0 : 0 ≤ q) (h1 : q ≤ 100) (ht : Money t) : 0 ≤ limitOf q t ∧ limitOf q t ≤ t := by
  have hf := limitOf_full ht
  have ht0 : (0 : ℚ) ≤ t := by exact_mod_cast ht.1
  constructor
  · unfold limitOf
    have : 0 ≤ rndQ (rndQ (q / 100) * t) := rndQ_nonneg (mul_nonneg (rndQ_nonneg (by positivity)) ht0)
    exact_mod_cast Int.ceil_nonneg this
  · conv_rhs => rw [← hf]
    unfold limitOf
    refine Int.ceil_mono (rndQ_mono (mul_le_mul_of_nonneg_right (rndQ_mono ?_) ht0))
    linarith

theorem limitOf_grows {q : ℚ} {t t' : Int} (h0 : 0 ≤ q) (h : t ≤ t') : limitOf q t ≤ limitOf q t' := by
  unfold limitOf
  refine Int.ceil_mono (rndQ_mono (mul_le_mul_of_nonneg_left ?_ (rndQ_nonneg (by positivity))))
  exact_mod_cast h

/-- building with more coins and an explicit fee -/
theorem built_more {p : Plan} {t : Tx} {m : Str} {fee : Int} {sel : List TxIn} {outs' : List TxOut} {ch : Int} {q : ℚ}
    (B : Built X p t m fee sel outs' ch q) {e : List TxIn} (b' : Args) {v : PVal} (hk : p.kind = .inl v) (hm : m ≠ py"all") (hpos : ∀ i ∈ p.ins ++ e, 0 < i.amount)
    (hn : (p.ins ++ e).length ≤ 252) (ht : inTotal (p.ins ++ e) ≤ 2100000000000000) (h0 : 0 ≤ q) (h1 : q ≤ 100)
    (he : ∀ x ∈ e, ∀ s ∈ sel, if m = py"smallest_first" then s.amount < x.amount else x.amount < s.amount) :
    Built X { p with ins := p.ins ++ e, after := b' } t m fee sel outs' ch q := by
  have hne : p.ins ≠ [] := by
    intro h; apply B.in_ne; rw [h]; rfl
  have hge : inTotal p.ins ≤ inTotal (p.ins ++ e) := by
    rw [inTotal_append]
    have := inTotal_nonneg (l := e) fun i hi => (hpos i (by simp [hi])).le
    omega
  have hin := B.in_money
  have hmo : Money (inTotal (p.ins ++ e)) := by unfold Money at *; omega
  have hl := limitOf_le_total h0 h1 hmo
  have hlm := limitOf_grows h0 hge
  have hlp := limitOf_le_total h0 h1 hin
  have hin_ne := B.in_ne
  have hlne := B.lim_ne
  have hsp := B.spend_le
  have hcov := B.covered
  refine ⟨B.appr, B.impl, B.dup, hn, B.nout, ?_, B.fee_money, B.fee_cap, hmo, ?_, ?_, B.outs_eq, B.pct, ?_, B.spend_nn, ?_, ?_, ?_, B.nout', B.tx_eq⟩
  · have := B.fee_of
    unfold FeeP at this ⊢
    simp only [hk] at this ⊢
    rcases this with h | ⟨_, _, h, _⟩
    · exact .inl h
    · simp at h
  · simp only; omega
  · rw [B.sel_eq]
    refine (chosen_more hm hpos hne B.covered ?_).symm
    rw [← B.sel_eq]; exact he
  · simp only; unfold Money at *; omega
  · simp only; unfold Money at *; omega
  · simp only; omega
  · simp only; omega

end BT
