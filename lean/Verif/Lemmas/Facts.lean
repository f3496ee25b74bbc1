import Verif.Lemmas.Whole
import Verif.Props.Validate

/-! # The settings of the design, as `create_transaction` reads them -/

namespace BT
open Spec

theorem offers_unique {X : Ext} {x : PVal} {i j : TxIn} (h : Offers X x i) (h' : Offers X x j) : i = j := by
  obtain ⟨a, txid, v, idx, s, sat, h1, h2, h3, h4, h5, h6, h7⟩ := h
  obtain ⟨a', txid', v', idx', s', sat', g1, g2, g3, g4, g5, g6, g7⟩ := h'
  rw [h1] at g1; injection g1 with g1; injection g1 with g1; subst g1
  rw [h2] at g2; injection g2 with g2; injection g2 with g2; subst g2
  rw [h3] at g3; injection g3 with g3; subst g3
  rw [h4] at g4; injection g4 with g4; subst g4
  rw [h5] at g5; injection g5 with g5; injection g5 with g5; subst g5
  obtain rfl := AmountOf_unique h6 g6
  rw [h7] at g7; injection g7

theorem asks_unique {X : Ext} {x : PVal} {i j : TxOut} (h : Asks X x i) (h' : Asks X x j) : i = j := by
  obtain ⟨a, s, sat, h1, h5, h6, h7⟩ := h
  obtain ⟨a', s', sat', g1, g5, g6, g7⟩ := h'
  rw [h1] at g1; injection g1 with g1; injection g1 with g1; subst g1
  rw [h5] at g5; injection g5 with g5; injection g5 with g5; subst g5
  obtain rfl := AmountOf_unique h6 g6
  rw [h7] at g7; injection g7

theorem forall₂_unique {α β : Type} {P : α → β → Prop} (hP : ∀ a b c, P a b → P a c → b = c) {l : List α} {m n : List β}
    (h1 : List.Forall₂ P l m) (h2 : List.Forall₂ P l n) : m = n := by
  induction h1 generalizing n with
  | nil => cases h2; rfl
  | cons h _ ih =>
    cases h2 with
    | cons h' h2 => rw [hP _ _ _ h h', ih h2]

theorem request_unique {X : Ext} {a : Args} {ins ins' : List TxIn} {outs outs' : List TxOut}
    (h : Request X a ins outs) (h' : Request X a ins' outs') : ins' = ins ∧ outs' = outs := by
  obtain ⟨i, o, h1, h2, h3, h4⟩ := h
  obtain ⟨i', o', g1, g2, g3, g4⟩ := h'
  rw [h1] at g1; injection g1 with g1; injection g1 with g1; subst g1
  rw [h2] at g2; injection g2 with g2; injection g2 with g2; subst g2
  exact ⟨forall₂_unique (P := Offers X) (fun _ _ _ x y => offers_unique x y) g3 h3, forall₂_unique (P := Asks X) (fun _ _ _ x y => asks_unique x y) g4 h4⟩

theorem mode_unique {a : Args} {m m' : Str} (h : Mode a m) (h' : Mode a m') : m' = m := by
  rcases h with h | ⟨h, rfl⟩ <;> rcases h' with h' | ⟨h', rfl⟩ <;> rw [h] at h'
  · simp at h'; exact h'.symm
  · simp at h'
  · simp at h'

/-! ## the fee rate -/

theorem decimalText_float {u : UniDB} {s : Str} {q : ℚ} (h : DecimalText u s q) : pyFloatStr u s = .ok (rnd64 q) ∧ 0 ≤ q := by
  obtain ⟨ip, fp, hs, hne, hd, rfl⟩ := h
  exact ⟨pyFloat_ok u hs hne hd, by positivity⟩

theorem decimalText_valid {u : UniDB} {s : Str} {f : PyFloat} (hv : vStrWholeOrDecimal u none s = .ok ()) (hf : pyFloatStr u s = .ok f)
    (hne : s ≠ []) : ∃ q, DecimalText u s q := by
  have hdd : ∀ c, isDigitChar u c = true → c ≠ '.' := by
    rintro c h rfl
    have : '.'.toNat < 128 := by decide
    unfold isDigitChar at h; rw [if_pos this] at h; revert h; decide
  unfold vStrWholeOrDecimal at hv
  have hshape : ∃ ip fp : Str, (s = ip ++ '.' :: fp ∨ (s = ip ∧ fp = [])) ∧ ip ++ fp ≠ [] ∧ ∀ c ∈ ip ++ fp, isDigitChar u c = true := by
    split at hv
    · rename_i hw
      refine ⟨s, [], .inr ⟨rfl, rfl⟩, by simpa using hne, ?_⟩
      unfold vStrWholeNumber vStrPositiveInteger at hw
      by_cases h0 : s = py"0"
      · subst h0
        intro c hc
        simp at hc; subst hc
        unfold isDigitChar; rw [if_pos (by decide)]; decide
      · rw [if_neg h0, if_neg h0] at hw
        simp only [R_pure, raise_eq, R_bind_ok] at hw
        by_cases hall : s.all (isDigitChar u) = true
        · rw [List.append_nil]; exact List.all_eq_true.1 hall
        · simp [hall] at hw
    · rename_i hd
      obtain ⟨ip, fp, rfl, h1, h2, h3⟩ := (C69_decimal u s).1 (by rw [hd])
      exact ⟨ip, fp, .inl rfl, by simp [h1], h3⟩
    · simp at hv
  obtain ⟨ip, fp, hs, hn, hdig⟩ := hshape
  have hrem : ∀ c, c ∈ removeC '.' s ↔ c ∈ ip ++ fp := by
    intro c
    simp only [removeC, List.mem_filter, bne_iff_ne, ne_eq, decide_eq_true_eq]
    constructor
    · rintro ⟨h1, h2⟩
      rcases hs with rfl | ⟨rfl, rfl⟩
      · simp only [List.mem_append, List.mem_cons] at h1 ⊢
        tauto
      · simpa using h1
    · intro h
      refine ⟨?_, hdd c (hdig c h)⟩
      rcases hs with rfl | ⟨rfl, rfl⟩
      · simp only [List.mem_append, List.mem_cons] at h ⊢
        tauto
      · simpa using h
  have := pyFloat_bad u (s := s) (f := f) (fun c hc => hdig c ((hrem c).1 hc)) hf
  exact ⟨_, ip, fp, hs, hn, fun c hc => this c ((hrem c).2 hc), rfl⟩

theorem pyStr_nat (n : Nat) : pyStr (n : Int) = natDigits 10 n := by
  unfold pyStr; rw [if_neg (by omega)]; simp

theorem pyStr_ne (n : Int) : pyStr n ≠ [] := by
  unfold pyStr
  split
  · simp
  · exact natDigits_ne_nil _

theorem decimalText_unique {u : UniDB} {s : Str} {q q' : ℚ} (h : DecimalText u s q) (h' : DecimalText u s q') : q = q' := by
  obtain ⟨ip, fp, hs, _, hd, rfl⟩ := h
  obtain ⟨ip', fp', hs', _, hd', rfl⟩ := h'
  have a1 : '.' ∉ ip := dot_not_mem u fun c hc => hd c (by simp [hc])
  have a2 : '.' ∉ ip' := dot_not_mem u fun c hc => hd' c (by simp [hc])
  rcases hs with rfl | ⟨rfl, rfl⟩ <;> rcases hs' with hs' | ⟨hs', rfl⟩
  · have := congrArg (fun l => l.takeWhile (· ≠ '.')) hs'
    have e : ∀ l r : Str, '.' ∉ l → (l ++ '.' :: r).takeWhile (· ≠ '.') = l := by
      intro l r hl
      rw [List.takeWhile_append_of_pos]
      · simp
      · intro c hc; simp; rintro rfl; exact hl hc
    simp only [e _ _ a1, e _ _ a2] at this
    subst this
    have := List.append_cancel_left hs'
    injection this with _ this
    subst this; rfl
  · rw [← hs'] at a2; simp at a2
  · rw [hs'] at a1; simp at a1
  · subst hs'; rfl

theorem decimalText_pyStr (u : UniDB) (n : Nat) : DecimalText u (pyStr n) n := by
  rw [pyStr_nat]
  refine ⟨natDigits 10 n, [], .inr ⟨rfl, rfl⟩, by simpa using natDigits_ne_nil n, ?_, by simp [natDigits_numeral]⟩
  intro c hc
  rw [List.append_nil] at hc
  exact (natDigits_dig n c hc).decVal

theorem decimalText_pyStr_int {u : UniDB} {n : Int} {q : ℚ} (h : DecimalText u (pyStr n) q) : 0 ≤ n ∧ q = n := by
  by_cases hn : n < 0
  · obtain ⟨ip, fp, hs, _, hd, _⟩ := h
    have hm : '-' ∈ ip ++ fp := by
      have : '-' ∈ pyStr n := by unfold pyStr; rw [if_pos hn]; simp
      rcases hs with hs | ⟨hs, rfl⟩
      · rw [hs] at this; simp at this; simp [this]
      · rw [hs] at this; simp [this]
    have := hd _ hm
    rw [decVal_ascii u (by decide), show asciiDigit '-' = none by decide] at this
    simp at this
  · obtain ⟨k, rfl⟩ : ∃ k : Nat, n = k := ⟨n.toNat, by omega⟩
    exact ⟨by omega, by rw [decimalText_unique h (decimalText_pyStr u k)]; simp⟩

/-! ## the settings -/

theorem setting_eq {a : Args} {d : List (Str × PVal)} (h : a.design = some (.dict d)) (k : Str) : setting a k = dictFind d k := by
  rw [setting, h]; rfl

theorem strIfInt_str {v : PVal} {s : Str} (h : strIfInt v = .str s) : v = .str s ∨ (∃ n, v = .int n ∧ s = pyStr n) ∨ ∃ b, v = .bool b ∧ s = (if b then py"True" else py"False") := by
  unfold strIfInt strOfInt at h
  cases v with
  | int n => simp at h; exact .inr (.inl ⟨n, rfl, h.symm⟩)
  | bool b => cases b <;> simp at h <;> exact .inr (.inr ⟨_, rfl, by simp [← h]⟩)
  | str t => simp at h; exact .inl (by rw [h])
  | _ => simp at h

theorem strIfInt_float {v : PVal} {f : PyFloat} (h : strIfInt v = .float f) : v = .float f := by
  unfold strIfInt strOfInt at h
  cases v with
  | bool b => cases b <;> simp at h
  | float g => simpa using h
  | _ => simp at h

theorem validateFees_ok {u : UniDB} {fee rate : PVal} : validateFees u fee rate = .ok () ↔
    ¬ (fee.truthy = true ∧ rate.truthy = true) ∧ ¬ (fee.isNone = true ∧ rate.isNone = true) ∧
    (fee.truthy = true → vWholeNumber fee = .ok ()) ∧
    (rate.truthy = true → ∃ s, rate = .str s ∧ vStrWholeOrDecimal u none s = .ok ()) := by
  unfold validateFees
  by_cases h0 : ((fee.truthy && rate.truthy) || (fee.isNone && rate.isNone)) = true
  · simp only [h0, if_true, raise_eq, R_bind_err]
    constructor
    · intro h; cases h
    · rintro ⟨h1, h2, _⟩
      simp only [Bool.or_eq_true, Bool.and_eq_true] at h0
      rcases h0 with h0 | h0
      · exact absurd h0 h1
      · exact absurd h0 h2
  · simp only [h0]
    have h1 : ¬ (fee.truthy = true ∧ rate.truthy = true) ∧ ¬ (fee.isNone = true ∧ rate.isNone = true) := by
      constructor <;> intro h <;> apply h0 <;> simp [h.1, h.2]
    by_cases ht : fee.truthy = true
    · have hr : ¬ rate.truthy = true := fun h => h1.1 ⟨ht, h⟩
      simp only [ht, hr, if_true, Bool.false_eq_true, if_false, R_bind_eq_ok]
      constructor
      · rintro ⟨_, h, _⟩
        exact ⟨by simp, h1.2, fun _ => h, by simp⟩
      · rintro ⟨_, _, h, _⟩
        exact ⟨(), h trivial, rfl⟩
    · by_cases hr : rate.truthy = true
      · simp only [ht, hr, if_true, Bool.false_eq_true, if_false, R_bind_eq_ok, vString_ok]
        constructor
        · intro h
          refine ⟨by simp, h1.2, by simp, fun _ => h⟩
        · rintro ⟨_, _, _, h⟩; exact h trivial
      · simp only [ht, hr, Bool.false_eq_true, if_false]
        constructor
        · intro _; exact ⟨by simp, h1.2, by simp, by simp⟩
        · intro _; rfl

/-- the fee settings -/
theorem kind_ok {X : Ext} {d d1 : List (Str × PVal)} {kind : PVal ⊕ PyFloat} (hadj : adjustDesign X.uni d = .ok d1)
    (hv : validateFees X.uni (dictOpt d1 py"fee") (dictOpt d1 py"fee_rate") = .ok ())
    (hk : feeKind X.uni (dictOpt d1 py"fee") (dictOpt d1 py"fee_rate") = .ok kind) :
    (∃ v v0, kind = .inl v ∧ v.truthy = true ∧ vWholeNumber v = .ok () ∧ dictFind d py"fee" = some v0 ∧
      Adjusted X.uni (some v0) (some v)) ∨
    (∃ v q, kind = .inr (rnd64 q) ∧ 0 ≤ q ∧ dictFind d py"fee_rate" = some v ∧ RateOf X.uni v q ∧
      (dictOpt d1 py"fee").truthy = false) := by
  obtain ⟨_, hfee, hrate, _, _⟩ := adjustDesign_ok hadj
  unfold feeKind at hk
  by_cases ht : (dictOpt d1 py"fee").truthy = true
  · left
    rw [if_pos ht] at hk
    injection hk with hk
    unfold dictOpt at ht hk hv
    cases hf : dictFind d1 py"fee" with
    | none => rw [hf] at ht; simp [PVal.truthy] at ht
    | some v =>
      rw [hf] at ht hk hv hfee
      simp only [Option.getD_some] at ht hk hv
      have hw : vWholeNumber v = .ok () := by
        exact (validateFees_ok.1 hv).2.2.1 ht
      cases h0 : dictFind d py"fee" with
      | none => rw [h0] at hfee; rcases hfee with ⟨s, n, h, _⟩ | ⟨_, h⟩ <;> simp at h
      | some v0 => rw [h0] at hfee; exact ⟨v, v0, hk.symm, ht, hw, rfl, hfee⟩
  · right
    rw [if_neg ht] at hk
    simp only [R_bind_eq_ok, R_pure, Except.ok.injEq] at hk
    obtain ⟨r, hr, rfl⟩ := hk
    unfold dictOpt at hr hv
    rw [hrate] at hr hv
    cases h0 : dictFind d py"fee_rate" with
    | none => rw [h0] at hr; simp [PVal.toFloat] at hr
    | some v =>
      rw [h0] at hr hv
      simp only [Option.map_some, Option.getD_some] at hr hv
      have hval : (strIfInt v).truthy = true → ∃ s, strIfInt v = .str s ∧ vStrWholeOrDecimal X.uni none s = .ok () := by
        intro htr
        exact (validateFees_ok.1 hv).2.2.2 htr
      have htf : (dictOpt d1 py"fee").truthy = false := by simpa using ht
      have hdec : ∀ s, strIfInt v = .str s → pyFloatStr X.uni s = .ok r → ∃ q, r = rnd64 q ∧ 0 ≤ q ∧ DecimalText X.uni s q := by
        intro s hs hf
        have hne : s ≠ [] := by
          rintro rfl
          have e : pyFloatStr X.uni [] = .error .valueError := rfl
          rw [e] at hf; cases hf
        obtain ⟨s', hs', hvs⟩ := hval (by rw [hs]; simp [PVal.truthy, hne])
        rw [hs] at hs'; injection hs' with hs'; subst hs'
        obtain ⟨q, hq⟩ := decimalText_valid hvs hf hne
        obtain ⟨h1, h2⟩ := decimalText_float hq
        rw [hf] at h1; injection h1 with h1
        exact ⟨q, h1, h2, hq⟩
      cases hsv : strIfInt v with
      | str s =>
        rw [hsv] at hr
        obtain ⟨q, rfl, hq0, hq⟩ := hdec s hsv hr
        refine ⟨v, q, rfl, hq0, rfl, ?_, htf⟩
        rcases strIfInt_str hsv with rfl | ⟨n, rfl, rfl⟩ | ⟨b, rfl, rfl⟩
        · exact .inr (.inl ⟨s, rfl, hq⟩)
        · exact .inl ⟨n, rfl, (decimalText_pyStr_int hq).2⟩
        · exfalso
          obtain ⟨ip, fp, hs, _, hd, _⟩ := hq
          have hm : 'e' ∈ ip ++ fp := by
            have : 'e' ∈ (if b then py"True" else py"False") := by cases b <;> decide
            rcases hs with hs | ⟨hs, rfl⟩
            · rw [hs] at this; simp at this; simp [this]
            · rw [hs] at this; simp [this]
          have := hd _ hm
          rw [decVal_ascii X.uni (by decide), show asciiDigit 'e' = none by decide] at this
          simp at this
      | float f =>
        rw [hsv] at hr
        simp only [PVal.toFloat, Except.ok.injEq] at hr
        subst hr
        by_cases htr : (strIfInt v).truthy = true
        · obtain ⟨s, hs, _⟩ := hval htr
          rw [hsv] at hs; simp at hs
        · rw [hsv] at htr
          cases f with
          | fin q =>
            simp [PVal.truthy] at htr
            subst htr
            exact ⟨v, 0, by rw [rnd64_zero], le_rfl, rfl, .inr (.inr ⟨strIfInt_float hsv, rfl⟩), htf⟩
          | _ => simp [PVal.truthy] at htr
      | int n => unfold strIfInt strOfInt at hsv; cases v with
        | bool b => cases b <;> simp at hsv
        | _ => simp at hsv
      | bool b => unfold strIfInt strOfInt at hsv; cases v with
        | bool b => cases b <;> simp at hsv
        | _ => simp at hsv
      | none => rw [hsv] at hr; simp [PVal.toFloat] at hr
      | list l => rw [hsv] at hr; simp [PVal.toFloat] at hr
      | dict l => rw [hsv] at hr; simp [PVal.toFloat] at hr

end BT
