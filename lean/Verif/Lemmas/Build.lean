import Verif.Lemmas.Create

/-! # Lemmas about the second half of `create_transaction` (`buildTx`) -/

namespace BT
open Spec

theorem inTotal_eq (l : List TxIn) : (l.map TxIn.amount).sum = inTotal l := rfl
theorem outTotal_eq (l : List TxOut) : (l.map TxOut.satoshi).sum = outTotal l := rfl

/-- representable amounts -/
def Money (n : Int) : Prop := 0 ≤ n ∧ n ≤ 2100000000000000

theorem s2b_ok {u : UniDB} {n : Int} : (∃ s, satoshiToBitcoin u n = .ok s) ↔ Money n := by
  unfold Money
  constructor
  · rintro ⟨s, h⟩
    obtain ⟨k, rfl, hk, _⟩ := (satoshiToBitcoin_ok u).1 h
    unfold maxMoney at hk; omega
  · rintro ⟨h1, h2⟩
    obtain ⟨k, rfl⟩ : ∃ k : Nat, n = k := ⟨n.toNat, by omega⟩
    exact ⟨_, satoshiToBitcoin_nat u (by unfold maxMoney; omega)⟩

theorem s2b_bind {α : Type} {u : UniDB} {n : Int} {f : R α} {a : α} :
    ((satoshiToBitcoin u n >>= fun _ => f) = .ok a) ↔ Money n ∧ f = .ok a := by
  rw [R_bind_eq_ok, ← s2b_ok (u := u)]
  constructor
  · rintro ⟨s, h1, h2⟩; exact ⟨⟨s, h1⟩, h2⟩
  · rintro ⟨⟨s, h1⟩, h2⟩; exact ⟨s, h1, h2⟩

theorem s2b_err {u : UniDB} {n : Int} {e : Err} (h : satoshiToBitcoin u n = .error e) : e = .valueError ∧ ¬ Money n := by
  have hm : ¬ Money n := by
    intro hm
    obtain ⟨s, hs⟩ := (s2b_ok (u := u)).2 hm
    rw [hs] at h; simp at h
  refine ⟨?_, hm⟩
  rw [satoshiToBitcoin_out u (by unfold Money at hm; unfold maxMoney; omega)] at h
  simpa using h.symm

/-! ## selection -/

/-- the selected inputs -/
def chosen (target : Int) (all : Bool) (ins : List TxIn) : List TxIn :=
  if inTotal ins = target then ins else selectLoop target all 0 ins

theorem selectInputs_ok {u : UniDB} {ins : List TxIn} {outs : List TxOut} {fee : Int} {all : Bool} {sel : List TxIn} :
    selectInputs u ins outs fee all = .ok sel ↔ Money (inTotal ins) ∧ Money (outTotal outs) ∧ outTotal outs ≤ inTotal ins ∧
      Money (outTotal outs + fee) ∧ outTotal outs + fee ≤ inTotal ins ∧ sel = chosen (outTotal outs + fee) all ins ∧
      Money (inTotal sel) := by
  simp only [selectInputs, s2b_bind, inTotal_eq, outTotal_eq, raise_eq, R_pure]
  by_cases h1 : inTotal ins < outTotal outs
  · have : ∀ s : R Str, ∀ f : Unit → R (List TxIn), ((s >>= fun _ => (Except.error Err.outputValueNotCovered : R Unit)) >>= f) ≠ .ok sel := by
      intro s f; cases s <;> simp
    simp only [h1, if_true]
    constructor
    · rintro ⟨_, _, h⟩
      rw [R_bind_eq_ok] at h
      obtain ⟨_, _, h⟩ := h
      simp at h
    · rintro ⟨_, _, h, _⟩; omega
  · simp only [h1, if_false, R_bind_ok, s2b_bind]
    by_cases h2 : inTotal ins < outTotal outs + fee
    · simp only [h2, if_true]
      constructor
      · rintro ⟨_, _, _, h⟩
        rw [R_bind_eq_ok] at h
        obtain ⟨_, _, h⟩ := h
        simp at h
      · rintro ⟨_, _, _, _, h, _⟩; omega
    · simp only [h2, if_false]
      unfold chosen
      by_cases h3 : inTotal ins = outTotal outs + fee
      · simp only [h3, if_true, R_bind_ok, s2b_bind, Except.ok.injEq]
        constructor
        · rintro ⟨a, b, c, d, rfl⟩; exact ⟨a, b, by omega, c, le_rfl, rfl, by rw [h3]; exact d⟩
        · rintro ⟨a, b, c, d, e, rfl, f⟩; exact ⟨a, b, d, a, rfl⟩
      · simp only [h3, if_false, s2b_bind, Except.ok.injEq]
        constructor
        · rintro ⟨a, b, c, d, e, rfl⟩; exact ⟨a, b, by omega, c, by omega, rfl, e⟩
        · rintro ⟨a, b, c, d, e, rfl, f⟩
          exact ⟨a, b, d, by unfold Money at *; omega, f, rfl⟩

/-! ## the selection loop -/

theorem selectLoop_all (target tot : Int) (l : List TxIn) : selectLoop target true tot l = l := by
  induction l generalizing tot with
  | nil => rfl
  | cons x l ih => simp [selectLoop, ih]

theorem selectLoop_prefix (target tot : Int) (all : Bool) (l : List TxIn) : selectLoop target all tot l <+: l := by
  induction l generalizing tot with
  | nil => exact List.prefix_rfl
  | cons x l ih =>
    unfold selectLoop
    simp only
    split
    · exact ⟨l, rfl⟩
    · exact (List.cons_prefix_cons).2 ⟨rfl, ih _⟩

theorem inTotal_cons (x : TxIn) (l : List TxIn) : inTotal (x :: l) = x.amount + inTotal l := by simp [inTotal, TxIn.amount]

/-- every non-empty proper prefix of the selection misses the target -/
theorem selectLoop_min (target tot : Int) (l : List TxIn) {P : List TxIn} (hP : P <+: selectLoop target false tot l)
    (h0 : P ≠ []) (hlt : P.length < (selectLoop target false tot l).length) : tot + inTotal P < target := by
  induction l generalizing tot P with
  | nil => simp [selectLoop] at hlt
  | cons x l ih =>
    unfold selectLoop at hP hlt
    simp only at hP hlt
    by_cases hc : tot + x.amount ≥ target
    · simp only [hc, true_and, if_true] at hP hlt
      cases P with
      | nil => simp at h0
      | cons y P => simp at hlt
    · simp only [hc, false_and, if_false] at hP hlt
      cases P with
      | nil => simp at h0
      | cons y P =>
        obtain ⟨rfl, hP⟩ := List.cons_prefix_cons.1 hP
        rw [inTotal_cons]
        by_cases hp : P = []
        · subst hp; simp [inTotal]; omega
        · have := ih (tot + y.amount) hP hp (by simpa using hlt)
          omega

/-- the selection reaches the target if the whole list does -/
theorem selectLoop_reach (target tot : Int) (l : List TxIn) (h : target ≤ tot + inTotal l) :
    target ≤ tot + inTotal (selectLoop target false tot l) := by
  induction l generalizing tot with
  | nil => simpa [selectLoop] using h
  | cons x l ih =>
    unfold selectLoop
    simp only
    rw [inTotal_cons] at h
    by_cases hc : tot + x.amount ≥ target
    · simp only [hc, true_and, if_true]; simpa [inTotal, TxIn.amount] using hc
    · simp only [hc, false_and, if_false, inTotal_cons]
      have := ih (tot + x.amount) (by omega)
      omega

theorem selectLoop_ne (target tot : Int) (all : Bool) {l : List TxIn} (h : l ≠ []) : selectLoop target all tot l ≠ [] := by
  cases l with
  | nil => simp at h
  | cons x l => unfold selectLoop; simp only; split <;> simp

/-! ## sorting -/

theorem sortLargest_perm (l : List TxIn) : (sortLargest l).Perm l := List.perm_insertionSort _ _
theorem sortSmallest_perm (l : List TxIn) : (sortSmallest l).Perm l := List.perm_insertionSort _ _

theorem sortLargest_sorted (l : List TxIn) : (sortLargest l).Pairwise (fun a b => a.amount ≥ b.amount) := by
  have : Std.Total (fun a b : TxIn => a.amount ≥ b.amount) := ⟨fun a b => by omega⟩
  have : IsTrans TxIn (fun a b : TxIn => a.amount ≥ b.amount) := ⟨fun a b c h1 h2 => by omega⟩
  exact List.pairwise_insertionSort _ _

theorem sortSmallest_sorted (l : List TxIn) : (sortSmallest l).Pairwise (fun a b => a.amount ≤ b.amount) := by
  have : Std.Total (fun a b : TxIn => a.amount ≤ b.amount) := ⟨fun a b => by omega⟩
  have : IsTrans TxIn (fun a b : TxIn => a.amount ≤ b.amount) := ⟨fun a b c h1 h2 => by omega⟩
  exact List.pairwise_insertionSort _ _

theorem filter_pairwise_eq (l : List TxIn) (v : Int) (r : TxIn → TxIn → Prop) (hr : ∀ a b : TxIn, a.amount = b.amount → r a b) :
    (l.filter fun i => i.amount = v).Pairwise r := by
  rw [List.pairwise_iff_forall_sublist]
  intro a b h
  have ha := h.subset (show a ∈ [a, b] by simp)
  have hb := h.subset (show b ∈ [a, b] by simp)
  simp at ha hb
  exact hr a b (by omega)

theorem stable_of (L l : List TxIn) (v : Int) (hp : L.Perm l) (hs : List.Sublist (l.filter fun i => i.amount = v) L) :
    (L.filter fun i => i.amount = v) = l.filter fun i => i.amount = v := by
  have h1 := hs.filter (fun i => decide (i.amount = v))
  rw [List.filter_filter] at h1
  simp only [Bool.and_self] at h1
  exact (h1.eq_of_length_le ((hp.filter _).length_eq.le)).symm

theorem sortLargest_stable (l : List TxIn) (v : Int) :
    ((sortLargest l).filter fun i => i.amount = v) = l.filter fun i => i.amount = v := by
  apply stable_of _ _ _ (sortLargest_perm l)
  have : Std.Total (fun a b : TxIn => a.amount ≥ b.amount) := ⟨fun a b => by omega⟩
  have : IsTrans TxIn (fun a b : TxIn => a.amount ≥ b.amount) := ⟨fun a b c h1 h2 => by omega⟩
  exact List.sublist_insertionSort (filter_pairwise_eq l v _ fun a b h => by omega) List.filter_sublist

theorem sortSmallest_stable (l : List TxIn) (v : Int) :
    ((sortSmallest l).filter fun i => i.amount = v) = l.filter fun i => i.amount = v := by
  apply stable_of _ _ _ (sortSmallest_perm l)
  have : Std.Total (fun a b : TxIn => a.amount ≤ b.amount) := ⟨fun a b => by omega⟩
  have : IsTrans TxIn (fun a b : TxIn => a.amount ≤ b.amount) := ⟨fun a b c h1 h2 => by omega⟩
  exact List.sublist_insertionSort (filter_pairwise_eq l v _ fun a b h => by omega) List.filter_sublist

/-- the order of an approach -/
def arranged (m : Str) (l : List TxIn) : List TxIn := if m = py"smallest_first" then sortSmallest l else sortLargest l

theorem arranged_perm (m : Str) (l : List TxIn) : (arranged m l).Perm l := by
  unfold arranged; split
  exacts [sortSmallest_perm l, sortLargest_perm l]

theorem arranged_stable (m : Str) (l : List TxIn) (v : Int) :
    ((arranged m l).filter fun i => i.amount = v) = l.filter fun i => i.amount = v := by
  unfold arranged; split
  exacts [sortSmallest_stable l v, sortLargest_stable l v]

/-- the three approaches that are implemented -/
def Implemented (m : Str) : Prop := m = py"largest_first" ∨ m = py"smallest_first" ∨ m = py"all"

theorem sortInputs_ok {x : PVal} {l l' : List TxIn} : sortInputs x l = .ok l' ↔
    ∃ m, x = .str m ∧ Implemented m ∧ l' = arranged m l := by
  have key : ∀ k, Implemented k → sortInputs (.str k) l = .ok (arranged k l) := by
    rintro k (rfl | rfl | rfl) <;> simp [sortInputs, arranged, PVal.eqStr]
  constructor
  · intro h
    have hx : ∃ m, x = .str m ∧ Implemented m := by
      simp only [sortInputs] at h
      by_cases h1 : x.eqStr py"largest_first" = true
      · exact ⟨_, eqStr_iff.1 h1, .inl rfl⟩
      · by_cases h2 : x.eqStr py"smallest_first" = true
        · exact ⟨_, eqStr_iff.1 h2, .inr (.inl rfl)⟩
        · by_cases h3 : x.eqStr py"all" = true
          · exact ⟨_, eqStr_iff.1 h3, .inr (.inr rfl)⟩
          · rw [if_neg h1, if_neg h2, if_neg h3] at h; simp at h
    obtain ⟨m, rfl, hm⟩ := hx
    rw [key m hm] at h; injection h with h
    exact ⟨m, rfl, hm, h.symm⟩
  · rintro ⟨m, rfl, hm, rfl⟩; exact key m hm

/-- approach lookup and sorting together -/
theorem approach_ok {ap : PVal} {l l' : List TxIn} {x : PVal} :
    firstApproach ap = .ok x ∧ sortInputs x l = .ok l' ↔
      ∃ m, ap = .list [.str m] ∧ x = .str m ∧ Implemented m ∧ l' = arranged m l := by
  rw [sortInputs_ok]
  constructor
  · rintro ⟨h, m, rfl, hm, rfl⟩
    refine ⟨m, ?_, rfl, hm, rfl⟩
    cases ap with
    | list l =>
      cases l with
      | nil => simp [firstApproach] at h
      | cons y l =>
        cases l with
        | nil => simp [firstApproach] at h; rw [h]
        | cons => simp [firstApproach] at h
    | str s =>
      exfalso
      cases s with
      | nil => simp [firstApproach] at h
      | cons c s =>
        simp [firstApproach] at h
        rcases hm with rfl | rfl | rfl <;> simp at h
    | dict d => exfalso; simp only [firstApproach] at h; split at h <;> simp at h
    | _ => simp [firstApproach] at h
  · rintro ⟨m, rfl, rfl, hm, rfl⟩
    exact ⟨by simp [firstApproach], m, rfl, hm, rfl⟩

/-! ## the address report -/

theorem mapR_all {α β : Type} {f : α → R β} {l : List α} : (∃ l', mapR f l = .ok l') ↔ ∀ x ∈ l, ∃ y, f x = .ok y := by
  constructor
  · rintro ⟨l', h⟩
    rw [mapR_ok] at h
    induction h with
    | nil => simp
    | cons h _ ih =>
      intro x hx
      rcases List.mem_cons.1 hx with rfl | hx
      · exact ⟨_, h⟩
      · exact ih x hx
  · intro h
    induction l with
    | nil => exact ⟨[], rfl⟩
    | cons a l ih =>
      obtain ⟨y, hy⟩ := h a (by simp)
      obtain ⟨l', hl⟩ := ih fun x hx => h x (by simp [hx])
      exact ⟨y :: l', mapR_ok.2 (.cons hy (mapR_ok.1 hl))⟩

theorem all_count (l : List Str) : (l.all fun a => !(1 < l.count a)) = true ↔ l.Nodup := by
  rw [List.nodup_iff_count_le_one]
  simp only [List.all_eq_true, Bool.not_eq_true', decide_eq_false_iff_not]
  constructor
  · intro h a
    by_cases ha : a ∈ l
    · have := h a ha; omega
    · rw [List.count_eq_zero.2 ha]; omega
  · intro h a _; have := h a; omega

theorem reportAddresses_ok {u : UniDB} {ins : List TxIn} {outs : List TxOut} {dup : Bool} {x : Unit} :
    reportAddresses u ins outs dup = .ok x ↔
      (∀ p ∈ addrTotals (ins.map fun i => (i.address, i.amount)), Money p.2) ∧
      (∀ p ∈ addrTotals (outs.map fun o => (o.address, o.satoshi)), Money p.2) ∧
      (dup = true ∨ (outs.map TxOut.address).Nodup) := by
  have hA : ∀ l : List (Str × Int), (∀ p ∈ l, Money p.2) ↔ ∃ l', mapR (fun p : Str × Int => satoshiToBitcoin u p.2) l = .ok l' := by
    intro l
    rw [mapR_all]
    exact forall₂_congr fun p _ => s2b_ok.symm
  rw [hA, hA]
  simp only [reportAddresses, R_bind_eq_ok, raise_eq]
  constructor
  · rintro ⟨l1, h1, l2, h2, h3⟩
    refine ⟨⟨l1, h1⟩, ⟨l2, h2⟩, ?_⟩
    by_cases hc : ((outs.map TxOut.address).all fun a => !(1 < (outs.map TxOut.address).count a)) = true
    · exact .inr ((all_count _).1 hc)
    · left
      rw [Bool.not_eq_true] at hc
      rw [hc] at h3
      cases dup
      · simp at h3
      · rfl
  · rintro ⟨⟨l1, h1⟩, ⟨l2, h2⟩, h3⟩
    refine ⟨l1, h1, l2, h2, ?_⟩
    rcases h3 with rfl | h3
    · simp
    · rw [← all_count] at h3
      rw [h3]; rfl

theorem reportAddresses_err {u : UniDB} {ins : List TxIn} {outs : List TxOut} {dup : Bool} {e : Err}
    (h : reportAddresses u ins outs dup = .error e) :
    e = .valueError ∨ e = .duplicateOutputAddress ∧ dup = false ∧ ¬ (outs.map TxOut.address).Nodup := by
  have hA : ∀ l : List (Str × Int), ∀ e, mapR (fun p : Str × Int => satoshiToBitcoin u p.2) l = .error e → e = .valueError := by
    intro l
    induction l with
    | nil => intro e h; simp [mapR] at h
    | cons p l ih =>
      intro e h
      simp only [mapR, R_bind_eq_err] at h
      rcases h with h | ⟨_, _, h | ⟨_, _, h⟩⟩
      · exact (s2b_err h).1
      · exact ih e h
      · simp at h
  simp only [reportAddresses, R_bind_eq_err, raise_eq] at h
  rcases h with h | ⟨_, _, h | ⟨_, _, h⟩⟩
  · exact .inl (hA _ _ h)
  · exact .inl (hA _ _ h)
  · right
    by_cases hc : ((outs.map TxOut.address).all fun a => !(1 < (outs.map TxOut.address).count a)) = true
    · rw [hc] at h; simp at h
    · rw [Bool.not_eq_true] at hc
      rw [hc] at h
      cases dup
      · simp at h
        refine ⟨h.symm, rfl, ?_⟩
        rw [← all_count, hc]; simp
      · simp at h

theorem addrTotals_le {l : List (Str × Int)} (h : ∀ p ∈ l, 0 ≤ p.2) :
    ∀ p ∈ addrTotals l, 0 ≤ p.2 ∧ p.2 ≤ (l.map Prod.snd).sum := by
  induction l with
  | nil => simp [addrTotals]
  | cons q l ih =>
    obtain ⟨a, n⟩ := q
    have h0 := h (a, n) (by simp)
    have hl : ∀ p ∈ l, 0 ≤ p.2 := fun p hp => h p (by simp [hp])
    have hf : ∀ f : Str × Int → Bool, 0 ≤ ((l.filter f).map Prod.snd).sum ∧ ((l.filter f).map Prod.snd).sum ≤ (l.map Prod.snd).sum := by
      intro f
      clear ih h
      induction l with
      | nil => simp
      | cons p l ih =>
        have h1 := hl p (by simp)
        have h2 := ih fun p hp => hl p (by simp [hp])
        by_cases hc : f p = true
        · rw [List.filter_cons_of_pos hc]; simp only [List.map_cons, List.sum_cons]; omega
        · rw [List.filter_cons_of_neg hc]; simp only [List.map_cons, List.sum_cons]; omega
    intro p hp
    simp only [addrTotals, List.mem_cons] at hp
    simp only [List.map_cons, List.sum_cons]
    rcases hp with rfl | hp
    · have := hf fun p => decide (p.1 = a)
      simp only at h0 ⊢
      omega
    · have := ih hl p (List.mem_filter.1 hp).1
      simp only at h0
      omega

/-! ## the fee -/

/-- numeric value of a validated `max_fee` -/
def capOf (v : PVal) : Int := v.asInt.getD 0

/-- `final_fee > max_fee` -/
def overFee (maxFee : PVal) (fee : Int) : Bool := match maxFee with
  | .float (.fin q) => decide (q < (fee : ℚ))
  | p => decide ((p.asInt).getD 0 < fee)

theorem overFee_false {v : PVal} {fee : Int} (h : vWholeNumber v = .ok ()) : overFee v fee = false ↔ fee ≤ capOf v := by
  cases v with
  | float f =>
    cases f with
    | fin q =>
      have hq : q = 0 := by
        unfold vWholeNumber vPositiveInteger vInteger at h
        by_contra hq
        simp [PVal.eqInt, PVal.asInt, hq] at h
      subst hq
      simp [overFee, capOf, PVal.asInt]
    | _ => simp [overFee, capOf]
  | _ => simp [overFee, capOf]

theorem money_float {n : Int} (h : Money n) : PyFloat.ofInt n = .ok (.fin n) :=
  ofInt_small (by unfold Money at h; rw [abs_of_nonneg h.1]; have := h.2; norm_num; omega)

/-- the fee value of the design -/
def FeeP (kind : PVal ⊕ PyFloat) (size : Int) (v : PVal) : Prop :=
  kind = .inl v ∨ ∃ r n, kind = .inr r ∧ feeFromRate size r = .ok n ∧ v = .int n

theorem finalFee_eq (u : UniDB) (kind : PVal ⊕ PyFloat) (size : Int) (maxFee : PVal) : finalFee u kind size maxFee = (do
    let feeP ← match kind with
      | .inl p => pure p
      | .inr r => do
        let n ← feeFromRate size r
        pure (PVal.int n)
    let fee ← vInteger feeP
    let feeF ← PyFloat.ofInt fee
    let sizeF ← PyFloat.ofInt size
    let _ ← feeF.div sizeF
    let _ ← satoshiToBitcoinP u feeP
    if overFee maxFee fee then raise .valueError
    pure fee) := rfl

theorem finalFee_ok {u : UniDB} {kind : PVal ⊕ PyFloat} {size fee : Int} {maxFee : PVal} (hw : vWholeNumber maxFee = .ok ())
    (hs : 0 < size ∧ size < 2 ^ 53) :
    finalFee u kind size maxFee = .ok fee ↔ FeeP kind size (.int fee) ∧ Money fee ∧ fee ≤ capOf maxFee := by
  have hsf : PyFloat.ofInt size = .ok (.fin size) := ofInt_small (by rw [abs_of_pos hs.1]; omega)
  have hfee : ∀ v : PVal, (do
      let fee ← vInteger v
      let feeF ← PyFloat.ofInt fee
      let sizeF ← PyFloat.ofInt size
      let _ ← feeF.div sizeF
      let _ ← satoshiToBitcoinP u v
      if overFee maxFee fee then raise .valueError
      pure fee : R Int) = .ok fee ↔ v = .int fee ∧ Money fee ∧ fee ≤ capOf maxFee := by
    intro v
    simp only [R_bind_eq_ok, hsf, Except.ok.injEq, raise_eq, R_pure]
    constructor
    · rintro ⟨f, hf, feeF, hfF, _, rfl, q, hq, s, hs', hx⟩
      cases v with
      | int n =>
        simp only [vInteger, PVal.asInt, Except.ok.injEq] at hf
        subst hf
        simp only [satoshiToBitcoinP] at hs'
        by_cases ho : overFee maxFee n = true
        · rw [if_pos ho] at hx; simp at hx
        · rw [if_neg ho] at hx
          injection hx with hx
          subst hx
          refine ⟨rfl, s2b_ok.1 ⟨s, hs'⟩, ?_⟩
          rw [← overFee_false hw]
          simpa using ho
      | bool b => simp [satoshiToBitcoinP] at hs'
      | _ => simp [satoshiToBitcoinP] at hs'
    · rintro ⟨rfl, hm, hc⟩
      obtain ⟨s, hs'⟩ := (s2b_ok (u := u)).2 hm
      have hne : ¬ ((size : ℤ) : ℚ) = 0 := by have := hs.1; exact_mod_cast (by omega : size ≠ 0)
      have ho := (overFee_false hw).2 hc
      exact ⟨fee, rfl, _, money_float hm, _, rfl, rnd64 (fee / size), by simp [PyFloat.div, hne], s, hs', by rw [ho]; rfl⟩
  rw [finalFee_eq]
  unfold FeeP
  cases kind with
  | inl p =>
    simp only [R_pure, R_bind_ok]
    have := hfee p
    simp only [R_pure] at this
    rw [this]
    simp
  | inr r =>
    simp only [R_pure]
    cases hr : feeFromRate size r with
    | error e => simp [hr]
    | ok n =>
      simp only [R_bind_ok]
      have := hfee (.int n)
      simp only [R_pure] at this
      rw [this]
      simp [hr, eq_comm]

end BT
