import Verif.Lemmas.Summary
import Verif.Concrete.Sample

/-!
# Properties of `create_transaction` (C45-C58)

`Request X a ins outs`, `setting`, `Mode`, `NumberOf`, `RateOf`, `WithChange`, `estSize` are the
vocabulary of `CreateSpec.lean`.  `hs` is the assumption that SHA-256 digests have 32 bytes.
-/

namespace BT
open Spec

variable {X : Ext}

/-- the request described by an argument object is unique -/
theorem C45_request_unique {a : Args} {ins ins' : List TxIn} {outs outs' : List TxOut}
    (h : Request X a ins outs) (h' : Request X a ins' outs') : ins' = ins ∧ outs' = outs :=
  request_unique h h'

/-- **C45**: a returned transaction comes from a request the arguments describe. -/
theorem C45_request (hs : ∀ b, (X.sha256 b).length = 32) {a a' : Args} {t : Tx} (h : createTransaction X a = .ok (t, a')) :
    ∃ ins outs, Request X a ins outs := by
  obtain ⟨ins, outs, ca, m, fee, ch, q, C⟩ := created_of hs h
  exact ⟨ins, outs, C.req⟩

theorem chosen_subset {target : Int} {all : Bool} {m : Str} {ins : List TxIn} {i : TxIn} (h : i ∈ chosen target all (arranged m ins)) : i ∈ ins :=
  (arranged_perm m ins).mem_iff.1 ((chosen_prefix _ _ _).subset h)

theorem created_fee (hs : ∀ b, (X.sha256 b).length = 32) {a : Args} {t : Tx} {ins : List TxIn} {outs : List TxOut} {ca m : Str} {fee ch : Int} {q : ℚ}
    (C : Created X a t ins outs ca m fee ch q) : t.fee = some fee := by
  have hk : ∀ i ∈ t.inputs, ∃ n, i.satoshi = some n := by
    intro i hi
    rw [C.sel] at hi
    obtain ⟨_, _, _, _, hI, _⟩ := C.req
    obtain ⟨x, _, hx⟩ := forall₂_mem_right hI i (chosen_subset hi)
    obtain ⟨a, t, h, ix, n, _, _, _, _, _, rfl⟩ := offers_shape hs hx
    exact ⟨n, rfl⟩
  have hv : t.inputValuesKnown = true := by
    unfold Tx.inputValuesKnown
    rw [List.all_eq_true]
    intro i hi
    obtain ⟨n, hn⟩ := hk i hi
    simp [hn]
  unfold Tx.fee Tx.totalInput
  simp only [hv, Bool.not_true]
  show some (inTotal t.inputs - outTotal t.outputs) = _
  rw [C.fee_eq]
  congr 1; omega

/-- **C45**: value is conserved: the fee is the difference between the input and the output
total, it is not negative, and it is what the design says: the given fee, or the one computed
from the rate. -/
theorem C45_conservation (hs : ∀ b, (X.sha256 b).length = 32) {a a' : Args} {t : Tx} (h : createTransaction X a = .ok (t, a')) :
    ∃ fee : Int, 0 ≤ fee ∧ t.fee = some fee ∧ inTotal t.inputs = outTotal t.outputs + fee ∧
      ((∃ v, setting a py"fee" = some v ∧ NumberOf X.uni v fee) ∨ ∃ v q, setting a py"fee_rate" = some v ∧ RateOf X.uni v q) := by
  obtain ⟨ins, outs, ca, m, fee, ch, q, C⟩ := created_of hs h
  refine ⟨fee, C.fee_money.1, created_fee hs C, C.fee_eq, ?_⟩
  rcases C.fee_rule with ⟨v, h1, h2, _⟩ | ⟨_, v, q, h1, h2, _⟩
  · exact .inl ⟨v, h1, h2⟩
  · exact .inr ⟨v, q, h1, h2⟩

/-- **C45**: a non-zero `fee` of the design is paid exactly. -/
theorem C45_exact_fee (hs : ∀ b, (X.sha256 b).length = 32) {a a' : Args} {t : Tx} (h : createTransaction X a = .ok (t, a'))
    {v : PVal} {n : Int} (hv : setting a py"fee" = some v) (hn : NumberOf X.uni v n) (h0 : n ≠ 0) :
    inTotal t.inputs = outTotal t.outputs + n ∧ t.fee = some n := by
  obtain ⟨ins, outs, ca, m, fee, ch, q, C⟩ := created_of hs h
  have hf : fee = n := by
    rcases C.fee_rule with ⟨w, h1, h2, _⟩ | ⟨h1, _⟩
    · rw [hv] at h1; injection h1 with h1; subst h1
      rcases hn with rfl | ⟨s, rfl, hn⟩ <;> rcases h2 with h2 | ⟨s', h2, h3⟩ <;> simp at h2
      · exact h2.symm
      · subst h2; rw [hn] at h3; injection h3 with h3; exact h3.symm
    · exact absurd (h1 v n hv hn) h0
  subst hf
  exact ⟨C.fee_eq, created_fee hs C⟩

/-! ## C46 -/

theorem vWholeNumber_cap {v : PVal} (h : vWholeNumber v = .ok ()) :
    (∃ n, v = .int n ∧ capOf v = n) ∨ (∃ b, v = .bool b ∧ capOf v = if b then 1 else 0) ∨ (v = .float (.fin 0) ∧ capOf v = 0) := by
  cases v with
  | int n => exact .inl ⟨n, rfl, rfl⟩
  | bool b => exact .inr (.inl ⟨b, rfl, rfl⟩)
  | float f =>
    refine .inr (.inr ?_)
    unfold vWholeNumber vPositiveInteger vInteger at h
    cases f with
    | fin q =>
      by_cases hq : q = 0
      · subst hq; exact ⟨rfl, rfl⟩
      · simp [PVal.eqInt, PVal.asInt, hq] at h
    | _ => simp [PVal.eqInt, PVal.asInt] at h
  | _ => simp [vWholeNumber, vPositiveInteger, vInteger, PVal.eqInt, PVal.asInt] at h

/-- **C46**: the fee never exceeds `max_fee`, which is an `int`, a string of digits, a `bool`
or the float 0.0. -/
theorem C46_max_fee (hs : ∀ b, (X.sha256 b).length = 32) {a a' : Args} {t : Tx} (h : createTransaction X a = .ok (t, a')) :
    ∃ v fee, setting a py"max_fee" = some v ∧ t.fee = some fee ∧
      ((∃ n, NumberOf X.uni v n ∧ fee ≤ n) ∨ (∃ b, v = .bool b ∧ fee ≤ if b then 1 else 0) ∨ (v = .float (.fin 0) ∧ fee ≤ 0)) := by
  obtain ⟨ins, outs, ca, m, fee, ch, q, C⟩ := created_of hs h
  obtain ⟨v, w, h1, h2, h3, h4⟩ := C.cap
  refine ⟨v, fee, h1, created_fee hs C, ?_⟩
  have same : (∀ n, w ≠ .int n) → v = w := by
    intro hw
    rcases h2 with ⟨s, n, _, _, h⟩ | ⟨_, h⟩
    · injection h with h; exact absurd h (hw n)
    · injection h with h; exact h.symm
  rcases vWholeNumber_cap h3 with ⟨n, rfl, hc⟩ | ⟨b, rfl, hc⟩ | ⟨rfl, hc⟩
  · exact .inl ⟨n, adjusted_int h2, hc ▸ h4⟩
  · exact .inr (.inl ⟨b, same (by simp), hc ▸ h4⟩)
  · exact .inr (.inr ⟨same (by simp), hc ▸ h4⟩)

/-! ## C47 -/

theorem created_rate {a : Args} {t : Tx} {ins : List TxIn} {outs : List TxOut} {ca m : Str} {fee ch : Int} {q r : ℚ}
    (C : Created X a t ins outs ca m fee ch q) {v : PVal} (hf : ∀ w n, setting a py"fee" = some w → NumberOf X.uni w n → n = 0)
    (hv : setting a py"fee_rate" = some v) (hr : RateOf X.uni v r) : 0 ≤ r ∧ fee = feeOf (estSize ins.length outs.length) r := by
  rcases C.fee_rule with ⟨w, h1, h2, h3⟩ | ⟨_, w, q, h1, h2, h3, h4⟩
  · exact absurd (hf w fee h1 h2) h3
  · rw [hv] at h1; injection h1 with h1; subst h1
    obtain rfl := rateOf_unique hr h2
    exact ⟨h3, h4⟩

theorem estSize_nat (n m : Nat) : estSize n m = ((10 + 179 * n + 34 * m : Nat) : Int) := by unfold estSize; push_cast; ring

/-- **C47**: with a fee rate `r` (and no `fee`, or a zero one) the fee is `⌈size * r⌉` up to one
satoshi, where the size is estimated for all offered inputs and the designed outputs. -/
theorem C47_rate (hs : ∀ b, (X.sha256 b).length = 32) {a a' : Args} {t : Tx} (h : createTransaction X a = .ok (t, a'))
    {ins : List TxIn} {outs : List TxOut} (R : Request X a ins outs) {v : PVal} {r : ℚ}
    (hf : ∀ w n, setting a py"fee" = some w → NumberOf X.uni w n → n = 0) (hv : setting a py"fee_rate" = some v) (hr : RateOf X.uni v r) :
    0 ≤ r ∧ ∃ fee, t.fee = some fee ∧ |fee - ⌈(estSize ins.length outs.length : ℚ) * r⌉| ≤ 1 := by
  obtain ⟨ins', outs', ca, m, fee, ch, q, C⟩ := created_of hs h
  obtain ⟨rfl, rfl⟩ := request_unique R C.req
  obtain ⟨h0, rfl⟩ := created_rate C hf hv hr
  refine ⟨h0, _, created_fee hs C, ?_⟩
  have := C.nin; have := C.nout
  rw [estSize_nat, Int.cast_natCast]
  have hm := C.fee_money.2
  rw [estSize_nat] at hm
  exact feeOf_close h0 (by omega) hm

/-- **C47**: for a whole-number rate the fee is exactly `size * rate`. -/
theorem C47_whole (hs : ∀ b, (X.sha256 b).length = 32) {a a' : Args} {t : Tx} (h : createTransaction X a = .ok (t, a'))
    {ins : List TxIn} {outs : List TxOut} (R : Request X a ins outs) {v : PVal} {r : Int}
    (hf : ∀ w n, setting a py"fee" = some w → NumberOf X.uni w n → n = 0) (hv : setting a py"fee_rate" = some v) (hr : RateOf X.uni v r) :
    t.fee = some (estSize ins.length outs.length * r) := by
  obtain ⟨ins', outs', ca, m, fee, ch, q, C⟩ := created_of hs h
  obtain ⟨rfl, rfl⟩ := request_unique R C.req
  obtain ⟨h0, hfee⟩ := created_rate C hf hv hr
  obtain ⟨k, rfl⟩ : ∃ k : Nat, r = k := ⟨r.toNat, by have : (0 : ℤ) ≤ r := by exact_mod_cast h0
                                                     omega⟩
  rw [created_fee hs C, hfee]
  have hm := C.fee_money.2
  rw [hfee] at hm
  rw [estSize_nat, Int.cast_natCast] at *
  rw [feeOf_whole (by omega) hm]

/-- **C47**: a higher rate never gives a lower fee (same numbers of inputs and outputs). -/
theorem C47_monotone (hs : ∀ b, (X.sha256 b).length = 32) {a₁ a₁' a₂ a₂' : Args} {t₁ t₂ : Tx}
    (h₁ : createTransaction X a₁ = .ok (t₁, a₁')) (h₂ : createTransaction X a₂ = .ok (t₂, a₂'))
    {ins₁ ins₂ : List TxIn} {outs₁ outs₂ : List TxOut} (R₁ : Request X a₁ ins₁ outs₁) (R₂ : Request X a₂ ins₂ outs₂)
    (hi : ins₁.length ≤ ins₂.length) (ho : outs₁.length ≤ outs₂.length) {v₁ v₂ : PVal} {r₁ r₂ : ℚ}
    (hf₁ : ∀ w n, setting a₁ py"fee" = some w → NumberOf X.uni w n → n = 0) (hf₂ : ∀ w n, setting a₂ py"fee" = some w → NumberOf X.uni w n → n = 0)
    (hv₁ : setting a₁ py"fee_rate" = some v₁) (hr₁ : RateOf X.uni v₁ r₁)
    (hv₂ : setting a₂ py"fee_rate" = some v₂) (hr₂ : RateOf X.uni v₂ r₂) (hle : r₁ ≤ r₂) :
    ∃ f₁ f₂, t₁.fee = some f₁ ∧ t₂.fee = some f₂ ∧ f₁ ≤ f₂ := by
  obtain ⟨ins', outs', ca, m, fee, ch, q, C⟩ := created_of hs h₁
  obtain ⟨rfl, rfl⟩ := request_unique R₁ C.req
  obtain ⟨ins'', outs'', ca', m', fee', ch', q', C'⟩ := created_of hs h₂
  obtain ⟨rfl, rfl⟩ := request_unique R₂ C'.req
  obtain ⟨h0, rfl⟩ := created_rate C hf₁ hv₁ hr₁
  obtain ⟨h0', rfl⟩ := created_rate C' hf₂ hv₂ hr₂
  refine ⟨_, _, created_fee hs C, created_fee hs C', ?_⟩
  rw [estSize_nat, estSize_nat]
  exact feeOf_mono (by omega) hle h0

/-! ## C48 -/

/-- **C48** (what does hold): the fee is at most one satoshi below the rate times the estimated
size of the returned transaction without one 34-byte output; if no change output was added or
some offered input was left out, the full estimated size is paid for (up to one satoshi). -/
theorem C48_rate_paid_partial (hs : ∀ b, (X.sha256 b).length = 32) {a a' : Args} {t : Tx} (h : createTransaction X a = .ok (t, a'))
    {ins : List TxIn} {outs : List TxOut} (R : Request X a ins outs) {v : PVal} {r : ℚ}
    (hf : ∀ w n, setting a py"fee" = some w → NumberOf X.uni w n → n = 0) (hv : setting a py"fee_rate" = some v) (hr : RateOf X.uni v r) :
    ∃ fee, t.fee = some fee ∧ ((estSize t.inputs.length t.outputs.length : ℚ) - 34) * r - 1 ≤ fee ∧
      (t.outputs.length = outs.length ∨ t.inputs.length < ins.length →
        (estSize t.inputs.length t.outputs.length : ℚ) * r - 1 ≤ fee) := by
  obtain ⟨h0, fee, hfee, hc⟩ := C47_rate hs h R hf hv hr
  obtain ⟨ins', outs', ca, m, fee', ch, q, C⟩ := created_of hs h
  obtain ⟨rfl, rfl⟩ := request_unique R C.req
  have h1 := Int.le_ceil ((estSize ins'.length outs'.length : ℚ) * r)
  have h2 : ((⌈(estSize ins'.length outs'.length : ℚ) * r⌉ : ℤ) : ℚ) - 1 ≤ fee := by
    rw [abs_le] at hc
    have : ⌈(estSize ins'.length outs'.length : ℚ) * r⌉ - 1 ≤ fee := by omega
    exact_mod_cast this
  have hin : t.inputs.length ≤ ins'.length := by
    rw [C.sel]
    have := (chosen_prefix (outTotal outs' + fee') (decide (m = py"all")) (arranged m ins')).length_le
    rw [(arranged_perm m ins').length_eq] at this
    exact this
  have hout : t.outputs.length ≤ outs'.length + 1 := by
    have hc := C.change
    generalize t.outputs = o' at hc
    cases hc <;> simp
  have key : ∀ z : ℚ, z ≤ estSize ins'.length outs'.length → z * r - 1 ≤ fee := by
    intro z hz
    have := mul_le_mul_of_nonneg_right hz h0
    linarith
  have e : ∀ n m : Nat, ((estSize n m : ℤ) : ℚ) = 10 + 179 * n + 34 * m := by intro n m; unfold estSize; push_cast; ring
  have c1 : (t.inputs.length : ℚ) ≤ ins'.length := by exact_mod_cast hin
  have c2 : (t.outputs.length : ℚ) ≤ outs'.length + 1 := by exact_mod_cast hout
  refine ⟨fee, hfee, key _ ?_, fun hc => key _ ?_⟩
  · rw [e, e]; linarith
  · rw [e, e]
    rcases hc with hc | hc
    · rw [hc]; linarith
    · have : (t.inputs.length : ℚ) + 1 ≤ ins'.length := by exact_mod_cast hc
      linarith

/-- **C48 fails**: whenever every offered input is used and a change output is added, a
whole-number rate is underpaid by exactly 34 bytes. -/
theorem C48_violation_shortfall (hs : ∀ b, (X.sha256 b).length = 32) {a a' : Args} {t : Tx} (h : createTransaction X a = .ok (t, a'))
    {ins : List TxIn} {outs : List TxOut} (R : Request X a ins outs) {v : PVal} {r : Int}
    (hf : ∀ w n, setting a py"fee" = some w → NumberOf X.uni w n → n = 0) (hv : setting a py"fee_rate" = some v) (hr : RateOf X.uni v r)
    (hi : t.inputs.length = ins.length) (ho : t.outputs.length = outs.length + 1) :
    t.fee = some ((estSize t.inputs.length t.outputs.length - 34) * r) := by
  rw [C47_whole hs h R hf hv hr, hi, ho]
  unfold estSize
  congr 2; push_cast; ring

/-! ## C49 -/

/-- **C49**: the inputs are a prefix of a stable sorting of the offered inputs (largest first,
or smallest first); with `all` they are all of it; they reach outputs + fee; and, unless `all`
is asked for, no shorter non-empty prefix does (for positive amounts). -/
theorem C49_selection (hs : ∀ b, (X.sha256 b).length = 32) {a a' : Args} {t : Tx} (h : createTransaction X a = .ok (t, a'))
    {ins : List TxIn} {outs : List TxOut} (R : Request X a ins outs) :
    ∃ (m : Str) (sorted : List TxIn) (fee : Int), Mode a m ∧ t.fee = some fee ∧ sorted.Perm ins ∧
      (m = py"smallest_first" → sorted.Pairwise fun i j => i.satoshi.getD 0 ≤ j.satoshi.getD 0) ∧
      (m = py"largest_first" ∨ m = py"all" → sorted.Pairwise fun i j => j.satoshi.getD 0 ≤ i.satoshi.getD 0) ∧
      (m = py"smallest_first" ∨ m = py"largest_first" ∨ m = py"all") ∧
      (∀ n : Int, (sorted.filter fun i => i.satoshi.getD 0 = n) = ins.filter fun i => i.satoshi.getD 0 = n) ∧
      t.inputs <+: sorted ∧ outTotal outs + fee ≤ inTotal t.inputs ∧
      (m = py"all" → t.inputs = sorted) ∧
      (m ≠ py"all" → (∀ i ∈ ins, 0 < i.satoshi.getD 0) →
        ∀ P, P <+: sorted → P ≠ [] → P.length < t.inputs.length → inTotal P < outTotal outs + fee) := by
  obtain ⟨ins', outs', ca, m, fee, ch, q, C⟩ := created_of hs h
  obtain ⟨rfl, rfl⟩ := request_unique R C.req
  have hpre : t.inputs <+: arranged m ins' := by rw [C.sel]; exact chosen_prefix ..
  refine ⟨m, arranged m ins', fee, C.mode, created_fee hs C, arranged_perm m ins', ?_, ?_, ?_, arranged_stable m ins', hpre, ?_, ?_, ?_⟩
  · rintro rfl
    unfold arranged; rw [if_pos rfl]
    exact sortSmallest_sorted ins'
  · intro hm
    unfold arranged
    rw [if_neg (by rcases hm with rfl | rfl <;> decide)]
    exact sortLargest_sorted ins'
  · rcases C.impl with h | h | h <;> simp [h]
  · rw [C.sel]
    exact chosen_reach (by rw [inTotal_perm (arranged_perm m ins')]; exact C.covered)
  · rintro rfl
    rw [C.sel]
    unfold chosen
    split
    · rfl
    · simp only [decide_true]; rw [selectLoop_all]
  · intro hm hpos P hP hne hlt
    have hsel := C.sel
    rw [decide_eq_false hm] at hsel
    unfold chosen at hsel
    split at hsel
    · rename_i heq
      rw [hsel] at hlt
      obtain ⟨r, hr⟩ := hP
      have hrne : r ≠ [] := by rintro rfl; rw [← hr] at hlt; simp at hlt
      have hmem : ∀ i ∈ r, 0 < i.amount := fun i hi => hpos i ((arranged_perm m ins').mem_iff.1 (by rw [← hr]; simp [hi]))
      have : 0 < inTotal r := by
        cases r with
        | nil => simp at hrne
        | cons x r =>
          rw [inTotal_cons]
          have h1 := hmem x (by simp)
          have h2 := inTotal_nonneg (l := r) fun i hi => (hmem i (by simp [hi])).le
          omega
      rw [← hr, inTotal_append] at heq
      omega
    · rw [hsel] at hlt
      have hP' : P <+: selectLoop (outTotal outs' + fee) false 0 (arranged m ins') :=
        List.prefix_of_prefix_length_le hP (selectLoop_prefix ..) hlt.le
      have := selectLoop_min _ _ _ hP' hne hlt
      omega

/-- **C49**: no input is used twice or invented: the selected inputs together with the unused
ones are a rearrangement of the offered inputs. -/
theorem C49_no_invention (hs : ∀ b, (X.sha256 b).length = 32) {a a' : Args} {t : Tx} (h : createTransaction X a = .ok (t, a'))
    {ins : List TxIn} {outs : List TxOut} (R : Request X a ins outs) : ∃ unused, (t.inputs ++ unused).Perm ins ∧ t.inputs ≠ [] := by
  obtain ⟨ins', outs', ca, m, fee, ch, q, C⟩ := created_of hs h
  obtain ⟨rfl, rfl⟩ := request_unique R C.req
  obtain ⟨r, hr⟩ := chosen_prefix (outTotal outs' + fee) (decide (m = py"all")) (arranged m ins')
  refine ⟨r, ?_, ?_⟩
  · rw [C.sel, hr]; exact arranged_perm m ins'
  · rw [C.sel]
    have hne : arranged m ins' ≠ [] := by
      intro he
      have := inTotal_perm (arranged_perm m ins')
      rw [he] at this
      exact C.in_pos this.symm
    unfold chosen
    split
    · exact hne
    · exact selectLoop_ne _ _ _ hne

/-! ## C50 -/

theorem inTotal_take_le {L : List TxIn} (hL : L.Pairwise fun i j => j.amount ≤ i.amount) (hn : ∀ i ∈ L, 0 ≤ i.amount) {S : List TxIn}
    (hS : S.Sublist L) : inTotal S ≤ inTotal (L.take S.length) := by
  have step : ∀ (L : List TxIn) (x : TxIn), (∀ i ∈ L, i.amount ≤ x.amount) → 0 ≤ x.amount → ∀ k, inTotal (L.take (k + 1)) ≤ x.amount + inTotal (L.take k) := by
    intro L x hx hx0 k
    by_cases hk : k < L.length
    · rw [List.take_succ_eq_append_getElem hk, inTotal_append, inTotal_cons]
      have := hx _ (List.getElem_mem hk)
      simp only [inTotal, List.map_nil, List.sum_nil] at *
      omega
    · rw [List.take_of_length_le (by omega), List.take_of_length_le (by omega)]
      omega
  induction hS with
  | slnil => simp
  | cons x h ih =>
    rename_i S L
    rw [List.pairwise_cons] at hL
    have h1 := ih hL.2 fun i hi => hn i (by simp [hi])
    cases S with
    | nil => simp [inTotal]
    | cons y S =>
      have h2 := step L x hL.1 (hn x (by simp)) S.length
      simp only [List.length_cons, List.take_succ_cons] at h1 ⊢
      rw [inTotal_cons x]
      omega
  | cons_cons x h ih =>
    rename_i S L
    rw [List.pairwise_cons] at hL
    have h1 := ih hL.2 fun i hi => hn i (by simp [hi])
    simp only [List.length_cons, List.take_succ_cons, inTotal_cons]
    omega

/-- **C50**: with `largest_first` and positive amounts, no non-empty selection of fewer offered
inputs covers outputs + fee. -/
theorem C50_fewest_inputs (hs : ∀ b, (X.sha256 b).length = 32) {a a' : Args} {t : Tx} (h : createTransaction X a = .ok (t, a'))
    {ins : List TxIn} {outs : List TxOut} (R : Request X a ins outs) (hm : Mode a py"largest_first")
    (hpos : ∀ i ∈ ins, 0 < i.satoshi.getD 0) {fee : Int} (hfee : t.fee = some fee)
    (S : List TxIn) (hS : S.Subperm ins) (hne : S ≠ []) (hcov : outTotal outs + fee ≤ inTotal S) :
    t.inputs.length ≤ S.length := by
  obtain ⟨m, sorted, fee', h1, h2, h3, h4, h5, h6, h7, h8, h9, h10, h11⟩ := C49_selection hs h R
  obtain rfl := mode_unique hm h1
  rw [hfee] at h2; injection h2 with h2; subst h2
  by_contra hlt
  push Not at hlt
  obtain ⟨S', hp, hsub⟩ := hS.trans h3.symm.subperm
  have hl := hp.length_eq
  have htot := inTotal_perm hp
  have hT := inTotal_take_le (L := sorted) (h5 (.inl rfl)) (fun i hi => (hpos i (h3.mem_iff.1 hi)).le) hsub
  have hlen := hsub.length_le
  have hS0 : 0 < S.length := List.length_pos_iff.2 hne
  have := h11 (by decide) hpos (sorted.take S'.length) (List.take_prefix _ _)
    (by intro he
        have := congrArg List.length he
        rw [List.length_take, List.length_nil] at this
        omega)
    (by rw [List.length_take]; omega)
  omega

/-- **C50**: if something is to be paid, the empty selection does not cover it. -/
theorem C50_empty_covers_nothing {outs : List TxOut} {fee : Int} (h : 0 < outTotal outs + fee) : ¬ outTotal outs + fee ≤ inTotal [] := by
  simp [inTotal]; omega

/-! ## C51 -/

/-- **C51**: the outputs are the designed ones, in order, with the surplus (inputs - designed
outputs - fee) given to the change address as `WithChange` describes. -/
theorem C51_payments (hs : ∀ b, (X.sha256 b).length = 32) {a a' : Args} {t : Tx} (h : createTransaction X a = .ok (t, a'))
    {ins : List TxIn} {outs : List TxOut} (R : Request X a ins outs) :
    ∃ ca fee, setting a py"change_address" = some (.str ca) ∧ t.changeAddress = some ca ∧ t.fee = some fee ∧
      WithChange X ca a.changeIdx (inTotal t.inputs - outTotal outs - fee) outs t.outputs := by
  obtain ⟨ins', outs', ca, m, fee, ch, q, C⟩ := created_of hs h
  obtain ⟨rfl, rfl⟩ := request_unique R C.req
  refine ⟨ca, fee, C.ca_set, C.ca_addr, created_fee hs C, ?_⟩
  have := C.change
  rwa [show inTotal t.inputs - (outTotal outs' + fee) = inTotal t.inputs - outTotal outs' - fee by ring] at this

/-- **C51**: every designed output to another address is paid unchanged. -/
theorem C51_others_unchanged (hs : ∀ b, (X.sha256 b).length = 32) {a a' : Args} {t : Tx} (h : createTransaction X a = .ok (t, a'))
    {ins : List TxIn} {outs : List TxOut} (R : Request X a ins outs) {ca : Str} (hca : setting a py"change_address" = some (.str ca)) :
    (t.outputs.filter fun o => o.address ≠ ca) = outs.filter fun o => o.address ≠ ca := by
  obtain ⟨ca', fee, h1, _, _, h2⟩ := C51_payments hs h R
  rw [hca] at h1; injection h1 with h1; injection h1 with h1; subst h1
  generalize t.outputs = o' at h2
  cases h2 with
  | exact _ => rfl
  | new _ c h1 h2 h3 =>
    have := (create_satoshi hs h3).2.1
    rw [List.filter_cons_of_neg (by simpa using this)]
  | raised pre o post c h1 h2 h3 h4 =>
    have := (create_satoshi hs h3).2.1
    rw [List.filter_append, List.filter_append, List.filter_cons_of_neg (by simpa using this), List.filter_cons_of_neg (by simpa using h2)]

/-! ## C53 (first part) -/

/-- **C53**: without permission, two designed outputs to one address are never accepted. -/
theorem C53_no_duplicates (hs : ∀ b, (X.sha256 b).length = 32) {a : Args} {ins : List TxIn} {outs : List TxOut} (R : Request X a ins outs)
    (hd : a.allowDup ≠ some (.bool true)) (hn : ¬ (outs.map TxOut.address).Nodup) (r : Tx × Args) : createTransaction X a ≠ .ok r := by
  intro h
  obtain ⟨t, a'⟩ := r
  obtain ⟨ins', outs', ca, m, fee, ch, q, C⟩ := created_of hs h
  obtain ⟨rfl, rfl⟩ := request_unique R C.req
  rcases C.dup with h | h
  · exact hd h
  · exact hn h

/-! ## C54 -/

/-- **C54**: what is not sent to the change output (the output that received the surplus) is at
most the spending limit: the percentage of the available total, rounded up (the float
arithmetic adds at most one satoshi). -/
theorem C54_spending_limit (hs : ∀ b, (X.sha256 b).length = 32) {a a' : Args} {t : Tx} (h : createTransaction X a = .ok (t, a'))
    {ins : List TxIn} {outs : List TxOut} (R : Request X a ins outs) :
    ∃ (ca : Str) (v : PVal) (q : ℚ) (change : Int), setting a py"change_address" = some (.str ca) ∧
      setting a py"max_spend_percentage" = some v ∧ v.toFloat X.uni = .ok (.fin q) ∧ 0 ≤ q ∧ q < 101 ∧
      ((t.outputs = outs ∧ change = 0) ∨
        ∃ pre c post, t.outputs = pre ++ c :: post ∧ c.address = ca ∧ change = c.satoshi ∧
          ((pre = [] ∧ outs = post) ∨ ∃ o, outs = pre ++ o :: post ∧ o.address = ca ∧ o.satoshi < c.satoshi)) ∧
      inTotal t.inputs - change ≤ ⌈q / 100 * inTotal ins⌉ + 1 := by
  obtain ⟨ins', outs', ca, m, fee, ch, q, C⟩ := created_of hs h
  obtain ⟨rfl, rfl⟩ := request_unique R C.req
  obtain ⟨v, hv, hq⟩ := C.pct
  have hq0 : 0 ≤ q := by
    by_contra h0
    push Not at h0
    have hm := C.lim_money.1
    have hn := C.lim_ne
    have : limitOf q (inTotal ins') ≤ 0 := by
      unfold limitOf
      apply Int.ceil_le.2
      have e0 : rndQ 0 = 0 := by simp [rndQ]
      have h1 : rndQ (q / 100) ≤ 0 := by
        conv_rhs => rw [← e0]
        exact rndQ_mono (by linarith)
      have h2 : (0 : ℚ) ≤ inTotal ins' := by exact_mod_cast C.in_money.1
      have h3 : rndQ (rndQ (q / 100) * inTotal ins') ≤ 0 := by
        conv_rhs => rw [← e0]
        exact rndQ_mono (mul_nonpos_of_nonpos_of_nonneg h1 h2)
      simpa using h3
    omega
  refine ⟨ca, v, q, ch, C.ca_set, hv, hq, hq0, C.q_hi, ?_, ?_⟩
  · rcases C.change_is with ⟨h1, h2, h3⟩ | h
    · exact .inl ⟨h1, h2⟩
    · exact .inr h
  · have := limitOf_close hq0 C.in_money C.lim_money.2
    have h2 := C.spend
    rw [abs_le] at this
    omega

/-- **C54**: a percentage of 0 always blocks. -/
theorem C54_zero_blocks (hs : ∀ b, (X.sha256 b).length = 32) {a : Args} (h0 : setting a py"max_spend_percentage" = some (.int 0))
    (r : Tx × Args) : createTransaction X a ≠ .ok r := by
  intro h
  obtain ⟨t, a'⟩ := r
  obtain ⟨ins', outs', ca, m, fee, ch, q, C⟩ := created_of hs h
  obtain ⟨v, hv, hq⟩ := C.pct
  rw [h0] at hv; injection hv with hv; subst hv
  have : q = 0 := by
    have e : PVal.toFloat X.uni (.int 0) = .ok (.fin 0) := by
      have := ofInt_small (n := 0) (by norm_num)
      rw [Int.cast_zero] at this
      exact this
    have h2 := e.symm.trans hq
    simp only [Except.ok.injEq, PyFloat.fin.injEq] at h2
    exact h2.symm
  subst this
  apply C.lim_ne
  unfold limitOf
  simp [rndQ]

end BT
