import Verif.Lemmas.Errors

/-! # Well-formed arguments are always prepared successfully -/

namespace BT
open Spec

theorem goodRate_rateOf {u : UniDB} {v : PVal} {q : ℚ} (h : GoodRate u v q) : RateOf u v q ∧ 0 ≤ q := by
  rcases h with ⟨n, rfl, rfl⟩ | ⟨ip, fp, h1, h2, h3, rfl⟩
  · exact ⟨.inl ⟨n, rfl, by simp⟩, by positivity⟩
  · refine ⟨.inr (.inl ?_), by positivity⟩
    rcases h2 with ⟨rfl, h2⟩ | ⟨rfl, h2⟩
    · exact ⟨_, rfl, ip, fp, .inl rfl, by simp [h1], h3, rfl⟩
    · exact ⟨_, rfl, ip, fp, .inr ⟨rfl, h2⟩, by simp [h1], h3, rfl⟩

theorem decVal_digit {u : UniDB} {c : Char} (h : (decVal u c).isSome = true) : isDigitChar u c = true := by
  unfold decVal at h; unfold isDigitChar
  split <;> simp_all

theorem whole_digits {u : UniDB} {s : Str} (h : ∀ c ∈ s, (decVal u c).isSome = true) : vStrWholeNumber u s = .ok () := by
  unfold vStrWholeNumber
  split
  · rfl
  · rename_i h0
    unfold vStrPositiveInteger
    have : s.all (isDigitChar u) = true := List.all_eq_true.2 fun c hc => decVal_digit (h c hc)
    simp [h0, this]

/-- a documented fee rate passes the checks and is converted to the nearest float -/
theorem goodRate_ok {u : UniDB} {v : PVal} {q : ℚ} (h : GoodRate u v q) :
    ∃ s, strIfInt v = .str s ∧ s ≠ [] ∧ vStrWholeOrDecimal u none s = .ok () ∧ pyFloatStr u s = .ok (rnd64 q) := by
  have whole : ∀ s : Str, s ≠ [] → (∀ c ∈ s, (decVal u c).isSome = true) →
      vStrWholeOrDecimal u none s = .ok () := by
    intro s _ hd
    unfold vStrWholeOrDecimal
    rw [whole_digits hd]
  rcases h with ⟨n, rfl, rfl⟩ | ⟨ip, fp, h1, h2, h3, rfl⟩
  · refine ⟨pyStr n, rfl, pyStr_ne _, whole _ (pyStr_ne _) ?_, ?_⟩
    · rw [pyStr_nat]; intro c hc; exact (natDigits_dig n c hc).decVal
    · exact (decimalText_float (decimalText_pyStr u n)).1
  · rcases h2 with ⟨rfl, h2⟩ | ⟨rfl, rfl⟩
    · refine ⟨_, rfl, by simp, ?_, pyFloat_ok u (.inl rfl) (by simp [h1]) h3⟩
      unfold vStrWholeOrDecimal
      rw [(C69_decimal u _).2 ⟨ip, fp, rfl, h1, h2, fun c hc => decVal_digit (h3 c hc)⟩]
      cases vStrWholeNumber u (ip ++ '.' :: fp) <;> rfl
    · exact ⟨_, rfl, h1, whole _ h1 (by simpa using h3), pyFloat_ok u (.inr ⟨rfl, rfl⟩) (by simpa using h1) h3⟩

/-- a documented percentage is converted to the nearest float -/
theorem goodRate_float {u : UniDB} {v : PVal} {q : ℚ} (h : GoodRate u v q) (h1 : q ≤ 100) : v.toFloat u = .ok (.fin (rndQ q)) := by
  have h0 := (goodRate_rateOf h).2
  have h100 : rndQ 100 = 100 := by exact_mod_cast rndQ_nat (n := 100) (by norm_num)
  have hr1 : rndQ q ≤ 100 := by rw [← h100]; exact rndQ_mono h1
  have big : (100 : ℚ) < 2 ^ 1024 := by decide +kernel
  obtain ⟨s, g1, g2, g3, g4⟩ := goodRate_ok h
  rcases h with ⟨n, rfl, rfl⟩ | ⟨ip, fp, _, h2, _, _⟩
  · have hn : n ≤ 100 := by exact_mod_cast h1
    have := ofInt_small (n := (n : Int)) (by rw [abs_of_nonneg (by omega)]; omega)
    rw [Int.cast_natCast] at this
    rw [rndQ_nat (by omega)]
    exact this
  · rw [rnd64_fin (by rw [abs_of_nonneg (rndQ_nonneg h0)]; exact hr1.trans_lt big)] at g4
    rcases h2 with ⟨rfl, _⟩ | ⟨rfl, _⟩ <;> (cases g1; exact g4)

theorem amount_pos_good {u : UniDB} {s : Str} {sat : Nat} (h : AmountOf u s sat) (hm : sat ≤ maxMoney) (h0 : 0 < sat) : GoodAmount u s sat := by
  refine ⟨h, hm, ?_⟩
  obtain ⟨ip, fp, hs, hne, h8, hd, rfl⟩ := h
  by_contra hc
  push Not at hc
  have hz : ∀ c ∈ ip ++ fp, c = '0' := by
    intro c hcm
    by_contra h1
    have hmem : c ∈ s := by
      rcases hs with rfl | ⟨rfl, rfl⟩
      · simp only [List.mem_append, List.mem_cons] at hcm ⊢; tauto
      · simpa using hcm
    have := hc c hmem h1
    subst this
    have := hd _ hcm
    rw [decVal_ascii u (by decide), show asciiDigit '.' = none by decide] at this
    simp at this
  have hnum : ∀ l : Str, (∀ c ∈ l, c = '0') → numeral u l = 0 := by
    intro l hl
    induction l with
    | nil => rfl
    | cons c l ih =>
      have hc0 := hl c (by simp)
      subst hc0
      simp only [numeral, ih fun c hc => hl c (by simp [hc]), decVal_ascii u (show '0'.toNat < 128 by decide)]
      simp [show asciiDigit '0' = some 0 by decide]
  rw [hnum _ hz] at h0
  simp at h0

theorem number_adjusted {u : UniDB} {v : PVal} {n : Int} {o : Option PVal} (h : NumberOf u v n) (ha : Adjusted u (some v) o) : o = some (.int n) := by
  rcases h with rfl | ⟨s, rfl, hs⟩
  · rcases ha with ⟨s, n', h, _⟩ | ⟨_, h⟩
    · simp at h
    · exact h
  · rcases ha with ⟨s', n', h, hn', h'⟩ | ⟨h, _⟩
    · simp at h; subst h
      rw [hs] at hn'; injection hn' with hn'; subst hn'; exact h'
    · exact absurd rfl (h s)

theorem adjusted_none {u : UniDB} {o : Option PVal} (ha : Adjusted u none o) : o = none := by
  rcases ha with ⟨s', n', h, _⟩ | ⟨_, h⟩
  · simp at h
  · exact h

theorem forall₂_exists {α β γ : Type} {P : α → β → Prop} {l : List α} {m : List β} (h : List.Forall₂ P l m) {Q : α → γ → Prop}
    (hQ : ∀ a ∈ l, ∀ b ∈ m, P a b → ∃ c, Q a c) : ∃ n, List.Forall₂ Q l n := by
  induction h with
  | nil => exact ⟨[], .nil⟩
  | cons hab _ ih =>
    obtain ⟨c, hc⟩ := hQ _ (by simp) _ (by simp) hab
    obtain ⟨n, hn⟩ := ih fun a ha b hb => hQ a (by simp [ha]) b (by simp [hb])
    exact ⟨c :: n, .cons hc hn⟩

theorem forall₂_mid {α β γ : Type} {P : α → β → Prop} {Q : α → γ → Prop} {T : γ → β → Prop} {l : List α} {m : List β} {n : List γ}
    (h1 : List.Forall₂ P l m) (h2 : List.Forall₂ Q l n) (h : ∀ a b c, P a b → Q a c → T c b) : List.Forall₂ T n m := by
  induction h1 generalizing n with
  | nil => cases h2; exact .nil
  | cons hab _ ih =>
    cases h2 with
    | cons hac h2 => exact .cons (h _ _ _ hab hac) (ih h2)

theorem validateApproaches_one {m : Str} (h : Implemented m) : validateApproaches (.list [.str m]) = .ok () := by
  rcases h with rfl | rfl | rfl <;> decide +kernel

theorem addr_valid {X : Ext} {a : Str} {h : Bytes} (hh : addressToHash X a = .ok (hex h)) : vBitcoinAddress X a = .ok () :=
  (vBitcoinAddress_ok X).2 ⟨_, hh⟩

/-- `prepare` succeeds for well-formed arguments, with the expected result -/
theorem wf_prepare {X : Ext} (hs : ∀ b, (X.sha256 b).length = 32) {a : Args} {ins : List TxIn} {outs : List TxOut} {ca m : Str} {cap : Nat} {pct : ℚ}
    (W : WellFormed X a ins outs ca m cap pct) :
    ∃ p, prepare X a = .ok p ∧ p.ins = ins ∧ p.outs = outs ∧ p.approaches = .list [.str m] ∧ p.maxFee = .int cap ∧ p.pct = .fin (rndQ pct) ∧
      p.changeAddress = ca ∧ (p.allowDup = true ↔ a.allowDup = some (.bool true)) ∧ p.changeIdx = a.changeIdx.getD .none ∧
      ((∃ v n, setting a py"fee" = some v ∧ NumberOf X.uni v n ∧ 0 < n ∧ n ≤ 2100000000000000 ∧ p.kind = .inl (.int n)) ∨
       (∃ v q, setting a py"fee" = none ∧ setting a py"fee_rate" = some v ∧ GoodRate X.uni v q ∧
        (estSize ins.length outs.length : ℚ) * q ≤ 2099999999999999 ∧ p.kind = .inr (rnd64 q))) := by
  obtain ⟨insD, outsD, hI, hO, hOff, hAsk⟩ := W.request
  obtain ⟨d, hd⟩ : ∃ d, a.design = some (.dict d) := by
    have := W.change
    unfold setting at this
    cases hh : a.design with
    | none => rw [hh] at this; simp at this
    | some v =>
      rw [hh] at this
      cases v with
      | dict d => exact ⟨d, rfl⟩
      | _ => simp [entry] at this
  have hset := setting_eq hd
  obtain ⟨mf, hmf, hcap⟩ := W.cap_set
  have hfeestr : ∀ s, dictFind d py"fee" = some (.str s) → ∃ n, pyInt X.uni 10 s = .ok n := by
    intro s h
    rw [← hset] at h
    rcases W.fee_set with ⟨v, n, h1, h2, _⟩ | ⟨v, q, h1, _⟩
    · rw [h] at h1; injection h1 with h1; subst h1
      rcases h2 with h2 | ⟨s', h2, h3⟩
      · simp at h2
      · injection h2 with h2; subst h2; exact ⟨n, h3⟩
    · rw [h] at h1; simp at h1
  have hmaxstr : ∀ s, dictFind d py"max_fee" = some (.str s) → ∃ n, pyInt X.uni 10 s = .ok n := by
    intro s h
    rw [← hset, hmf] at h; injection h with h; subst h
    rcases hcap with h2 | ⟨s', h2, h3⟩
    · simp at h2
    · injection h2 with h2; subst h2; exact ⟨cap, h3⟩
  obtain ⟨d1, hadj⟩ := adjustDesign_total hfeestr hmaxstr
  obtain ⟨a1, a2, a3, a4, a5⟩ := adjustDesign_ok hadj
  simp only [← hset] at a1 a2 a3 a4
  rw [hmf] at a4
  have hmax := number_adjusted hcap a4
  -- inputs and outputs
  obtain ⟨insZ, hinsZ⟩ : ∃ insZ, List.Forall₂ (InStep X) insD insZ := by
    refine forall₂_exists hOff ?_
    rintro x hx i hi ⟨ad, txid, v, idx, s, sat, e1, e2, e3, e4, e5, e6, e7⟩
    obtain ⟨dd, rfl, hk⟩ := W.in_keys _ hI x hx
    obtain ⟨t, h, ix, n, g1, g2, g3, g4, g5, g6, g7, g8, g9⟩ := (TxIn_create_ok X hs).1 e7
    have hp := W.ins_pos i hi
    rw [g9] at hp
    have hsat : sat = n := by omega
    subst hsat
    refine ⟨_, dd, ad, txid, v, idx, s, sat, rfl, hk, e1, addr_valid g2, e2, ?_, e3, e4, by omega, e5, amount_pos_good e6 g8 (by simpa [inOf] using hp), rfl⟩
    rw [g3]
    rw [vHexLength_hex, if_pos (by omega)]
  obtain ⟨outsZ, houtsZ⟩ : ∃ outsZ, List.Forall₂ (OutStep X) outsD outsZ := by
    refine forall₂_exists hAsk ?_
    rintro x hx o ho ⟨ad, s, sat, e1, e5, e6, e7⟩
    obtain ⟨dd, rfl, hk⟩ := W.out_keys _ hO x hx
    obtain ⟨h, n, g1, g2, g7, g8, g9⟩ := (TxOut_create_ok X hs).1 e7
    have hp := W.outs_pos o ho
    rw [g9] at hp
    have hsat : sat = n := by omega
    subst hsat
    obtain ⟨s8, h8, _⟩ := ensure8_amount X.uni e6
    exact ⟨_, dd, ad, s, s8, sat, rfl, hk, e1, addr_valid g2, e5, amount_pos_good e6 g8 (by simpa [outOf] using hp), h8, rfl⟩
  -- the fee
  have hfees : ∃ kind, validateFees X.uni (dictOpt d1 py"fee") (dictOpt d1 py"fee_rate") = .ok () ∧
      feeKind X.uni (dictOpt d1 py"fee") (dictOpt d1 py"fee_rate") = .ok kind ∧
      ((∃ v n, setting a py"fee" = some v ∧ NumberOf X.uni v n ∧ 0 < n ∧ n ≤ 2100000000000000 ∧ kind = .inl (.int n)) ∨
       (∃ v q, setting a py"fee" = none ∧ setting a py"fee_rate" = some v ∧ GoodRate X.uni v q ∧
        (estSize ins.length outs.length : ℚ) * q ≤ 2099999999999999 ∧ kind = .inr (rnd64 q))) := by
    unfold dictOpt
    rcases W.fee_set with ⟨v, n, h1, h2, h3, h3', h4⟩ | ⟨v, q, h1, h2, h3, h4⟩
    · rw [h1] at a2
      have hf := number_adjusted h2 a2
      rw [h4] at a3
      rw [hf, a3]
      have hne : n ≠ 0 := by omega
      refine ⟨.inl (.int n), ?_, ?_, .inl ⟨v, n, h1, h2, h3, h3', rfl⟩⟩
      · rw [validateFees_ok]
        simp only [Option.getD_some, Option.map_none, Option.getD_none, PVal.truthy, PVal.isNone]
        refine ⟨by simp, by simp, fun _ => vWholeNumber_int.2 (by omega), by simp⟩
      · unfold feeKind; simp [PVal.truthy, hne]
    · rw [h1] at a2
      have hf := adjusted_none a2
      rw [h2] at a3
      rw [hf, a3]
      obtain ⟨s, g1, g2, g3, g4⟩ := goodRate_ok h3
      refine ⟨.inr (rnd64 q), ?_, ?_, .inr ⟨v, q, h1, h2, h3, h4, rfl⟩⟩
      · rw [validateFees_ok]
        simp only [Option.map_some, Option.getD_some, Option.getD_none, g1, PVal.truthy, PVal.isNone]
        exact ⟨by simp, by simp, by simp, fun _ => ⟨s, rfl, g3⟩⟩
      · unfold feeKind
        simp only [Option.map_some, Option.getD_some, Option.getD_none, g1, PVal.truthy, Bool.false_eq_true, if_false, PVal.toFloat, g4]
        rfl
  obtain ⟨kind, hvf, hfk, hkind⟩ := hfees
  have happ : validateApproaches (dictOpt d1 py"input_selection_approaches") = .ok () ∧
      (dictFind d1 py"input_selection_approaches").getD (.list [.str py"largest_first"]) = .list [.str m] := by
    unfold dictOpt
    rw [a1 _ (by decide) (by decide) (by decide)]
    rcases W.mode with h | ⟨h, rfl⟩
    · rw [h]; exact ⟨validateApproaches_one W.mode_impl, rfl⟩
    · rw [h]; exact ⟨rfl, rfl⟩
  obtain ⟨pv, hpv, hgood⟩ := W.pct_set
  have hq0 := (goodRate_rateOf hgood).2
  have h100 : rndQ 100 = 100 := by exact_mod_cast rndQ_nat (n := 100) (by norm_num)
  have hr0 := rndQ_nonneg hq0
  have hr1 : rndQ pct ≤ 100 := by rw [← h100]; exact rndQ_mono W.pct_le
  have hpct : PVal.toFloat X.uni pv = .ok (.fin (rndQ pct)) := goodRate_float hgood W.pct_le
  have htr : PyFloat.trunc (.fin (rndQ pct)) = .ok ⌊rndQ pct⌋ := by
    show Except.ok _ = _
    rw [if_neg (not_lt.2 hr0)]
  have hfl : 0 ≤ ⌊rndQ pct⌋ ∧ ⌊rndQ pct⌋ ≤ 100 :=
    ⟨Int.floor_nonneg.2 hr0, by have := Int.floor_mono hr1; simpa using this⟩
  refine ⟨{ ins := ins, outs := outs, approaches := .list [.str m], kind := kind, maxFee := .int cap, pct := .fin (rndQ pct), changeAddress := ca, allowDup := (a.allowDup.getD .none).truthy, changeIdx := a.changeIdx.getD .none,
            after := { a with inputs := some (.list insZ), design := some (.dict (dictSet d1 py"outputs" (.list outsZ))) } },
    prepare_ok.2 ⟨insD, d, d1, insZ, outsD, outsZ, ca, .int cap, pv, ⌊rndQ pct⌋, hI, hd, hadj, hinsZ, ?_, ?_, hmax, vWholeNumber_int.2 (by omega), ?_, hpct, htr, hfl.1, hfl.2, ?_, houtsZ, hvf, happ.1, ?_, hfk, ?_, ?_, happ.2.symm, rfl, rfl, rfl, rfl, rfl⟩,
    rfl, rfl, rfl, rfl, rfl, rfl, ?_, rfl, hkind⟩
  · rw [a1 _ (by decide) (by decide) (by decide)]; exact W.change
  · obtain ⟨h, ⟨b1, b2⟩, x, hx, hx0⟩ := W.change_valid
    refine (vBitcoinAddress_ok X).2 ⟨hex h, (addressToHash_ok X hs).2 ⟨h, b1, rfl, ?_⟩⟩
    rw [← denotes_text58 b2]
    exact decode_encode X hs _ fun hz => hx0 (hz.1 x (by simp [hx]))
  · rw [a1 _ (by decide) (by decide) (by decide)]; exact hpv
  · rw [a1 _ (by decide) (by decide) (by decide)]; exact hO
  · rw [validateOptions_ok]
    constructor
    · rcases W.dup_set with h | ⟨b, h⟩ <;> rw [h] <;> simp [PVal.isNone]
    · rcases W.idx_set with h | ⟨b, h⟩ <;> rw [h]
      · simp [PVal.isNone]
      · right; exact vWholeNumber_int.2 (by omega)
  · exact forall₂_mid hOff hinsZ fun x i z h1 h2 => (inStep_mk h2 i).2 h1
  · exact forall₂_mid hAsk houtsZ fun x i z h1 h2 => (outStep_mk h2 i).2 h1
  · show (a.allowDup.getD .none).truthy = true ↔ _
    rcases W.dup_set with h | ⟨b, h⟩ <;> rw [h] <;> simp [PVal.truthy]

end BT
