import Verif.Lemmas.AmountMsg
import Verif.Props.Messages

/-! # Texts about refused amounts (C126) -/

namespace BT

open Msg Spec

/-! ## The model with texts rejects the same values as the model without -/

theorem C126_agrees_amount (E : Env) (u : UniDB) (x : PVal) :
    forget (Msg.vBitcoinAmount E u x) = (do let s ← vString x; vBitcoinAmount u s) := by
  unfold Msg.vBitcoinAmount
  rw [forget_bind, C104_agrees_string]
  cases vString x with
  | error e => rfl
  | ok s => exact amountText_agrees E u s

theorem C126_agrees_positive (E : Env) (u : UniDB) (x : PVal) :
    forget (Msg.vPositiveBitcoinAmount E u x) = vPositiveBitcoinAmountP u x := by
  unfold Msg.vPositiveBitcoinAmount vPositiveBitcoinAmountP vPositiveBitcoinAmount
  cases x with
  | str s =>
    by_cases h : removeC '0' (removeC '.' s) = []
    · simp only [Msg.vString, vString, M_bind_ok, R_bind_ok, h, if_true, M_throw, M_bind_err, forget_err]; rfl
    · simp only [Msg.vString, vString, M_bind_ok, R_bind_ok, h, if_false]
      have := C126_agrees_amount E u (.str s)
      simp only [vString, R_bind_ok] at this
      rw [← this]
      cases Msg.vBitcoinAmount E u (.str s) <;> rfl
  | _ => rfl

theorem Msg.satoshiDigits_agrees (s : Str) : forget (satoshiDigits s) =
    (if s.count '.' = 0 then pure (s ++ List.replicate 8 '0')
    else if s.count '.' = 1 then
      match splitC '.' s with
      | [_, s2] =>
        let m : Int := 8 - (s2.length : Int)
        pure (removeC '.' s ++ List.replicate m.toNat '0')
      | _ => raise .valueError
    else raise .valueError : R Str) := by
  unfold satoshiDigits
  by_cases h0 : s.count '.' = 0
  · rw [if_pos h0, if_pos h0]; rfl
  · rw [if_neg h0, if_neg h0]
    by_cases h1 : s.count '.' = 1
    · rw [if_pos h1, if_pos h1]
      obtain ⟨ip, fp, hs, hi, hf⟩ := count_one_split h1
      rw [hs, splitC_one hi hf]; rfl
    · rw [if_neg h1, if_neg h1]; rfl

theorem Msg.intStr_agrees (E : Env) (u : UniDB) (s : Str) : forget (intStr E u s) = pyInt u 10 s := by
  unfold intStr
  cases pyInt u 10 s <;> rfl

theorem C126_agrees_satoshi (E : Env) (u : UniDB) (x : PVal) :
    forget (Msg.bitcoinToSatoshi E u x) = (do let s ← vString x; bitcoinToSatoshi u s) := by
  unfold Msg.bitcoinToSatoshi
  rw [forget_bind, C126_agrees_amount]
  cases x with
  | str s =>
    unfold bitcoinToSatoshi
    simp only [vString, Msg.vString, R_bind_ok, M_bind_ok]
    cases vBitcoinAmount u s with
    | error e => rfl
    | ok _ =>
      simp only [R_bind_ok, forget_bind, satoshiDigits_agrees, intStr_agrees, C104_agrees_whole]
      by_cases h0 : s.count '.' = 0
      · simp only [h0, if_true]; rfl
      · by_cases h1 : s.count '.' = 1
        · obtain ⟨ip, fp, hs, hi, hf⟩ := count_one_split h1
          simp only [h0, h1, if_false, if_true, one_ne_zero]
          rw [hs, splitC_one hi hf]; rfl
        · simp only [h0, h1, if_false]; rfl
  | _ => rfl

theorem C126_agrees_bitcoin (E : Env) (u : UniDB) (x : PVal) :
    forget (Msg.satoshiToBitcoin E u x) = satoshiToBitcoinP u x := by
  unfold Msg.satoshiToBitcoin satoshiToBitcoinP
  cases x with
  | int n =>
    unfold satoshiToBitcoin
    simp only [Msg.vInteger, PVal.asInt, M_bind_ok, forget_bind, (C104_agrees_lists n 0 (21 * 10 ^ 6 * 10 ^ 8) [] [] []).1,
      C126_agrees_amount, vString, R_bind_ok, strOfInt]
    rfl
  | bool b =>
    have hbad : ∀ t : Str, t.count '.' ≤ 1 → 'e' ∈ t → Msg.vBitcoinAmount E u (.str t) =
        .error (.valueError, py"Apart from an optional period ('.'), amount can contain only digits. Amount: " ++ t) := by
      intro t h1 h2
      refine amountText_chars E u h1 (not_isDigitStr.2 (.inr ⟨'e', h2, by decide, ?_⟩))
      unfold isDigitChar; rw [if_pos (by decide)]; rfl
    cases b with
    | true =>
      have hd : Msg.vIntegerDomain 1 0 (21 * 10 ^ 6 * 10 ^ 8) = .ok () := by decide
      have hv : Msg.vInteger E (.bool true) none none = .ok 1 := rfl
      simp only [hv, hd, M_bind_ok, strOfInt]
      rw [hbad _ (by decide) (by decide)]; rfl
    | false =>
      have hd : Msg.vIntegerDomain 0 0 (21 * 10 ^ 6 * 10 ^ 8) = .ok () := by decide
      have hv : Msg.vInteger E (.bool false) none none = .ok 0 := rfl
      simp only [hv, hd, M_bind_ok, strOfInt]
      rw [hbad _ (by decide) (by decide)]; rfl
  | _ => rfl

theorem C126_agrees_ensure8 (s : Str) : forget (Msg.ensure8 s) = ensure8 s := by
  unfold Msg.ensure8 ensure8 secondPart
  simp only
  cases (splitC '.' (if s.count '.' = 0 then s ++ py"." else s))[1]? with
  | none => rfl
  | some p =>
    simp only [M_bind_ok]
    by_cases h : (8 - (p.length : Int)) < 0
    · simp only [h, if_true]; rfl
    · simp only [h, if_false]; rfl

theorem Msg.padBytes_hex (E : Env) {x : Str} (h : IsHex x) (k : Int) : padBytes E (.str x) (.int k) =
    if k < ((x.length / 2 : Nat) : Int) then .error (.valueError, py"Hex value is already longer than desired padded length. Hex value: " ++ x)
    else .ok (x, k - ((x.length / 2 : Nat) : Int)) := by
  have hv : Msg.vHex E (.str x) none none = .ok x := by
    have := C104_agrees_hex E (.str x) none none (some py"hex")
    rw [vHexP_ok.2 ⟨rfl, h⟩] at this
    cases hm : Msg.vHex E (.str x) none none with
    | error e => rw [hm] at this; cases e; simp at this
    | ok y => rw [hm] at this; simp only [forget_ok, Except.ok.injEq] at this; rw [this]
  unfold padBytes
  simp only [hv, M_bind_ok, Msg.vInteger, PVal.asInt]
  by_cases hk : k < ((x.length / 2 : Nat) : Int)
  · simp only [hk, if_true]; rfl
  · simp only [hk, if_false]; rfl

theorem C126_agrees_pad (E : Env) (x : Str) (k : Int) :
    forget (Msg.padHex E (.str x) (.int k)) = padHex x k ∧ forget (Msg.padHexLe E (.str x) (.int k)) = padHexLe x k := by
  by_cases h : IsHex x
  · have hv := (vHex_ok (x := ())).2 h
    have hl : hexLen x = .ok (x.length / 2) := hexLen_ok.2 ⟨h, rfl⟩
    unfold Msg.padHex Msg.padHexLe padHex padHexLe
    simp only [padBytes_hex E h, hv, hl, R_bind_ok]
    by_cases hk : k < ((x.length / 2 : Nat) : Int)
    · simp only [hk, if_true]; exact ⟨rfl, rfl⟩
    · simp only [hk, if_false, M_bind_ok]
      by_cases hm : k - ((x.length / 2 : Nat) : Int) > 0
      · simp only [hm, if_true]; exact ⟨rfl, rfl⟩
      · simp only [hm, if_false]; exact ⟨rfl, rfl⟩
  · have hv : vHex x = .error .valueError := by
      cases hx : vHex x with
      | error e => rw [vHex_VE x e hx]
      | ok y => exact absurd (vHex_ok.1 hx) h
    have hm : forget (Msg.vHex E (.str x) none none) = .error .valueError := by
      rw [C104_agrees_hex]; unfold vHexP; simp only [vString, R_bind_ok, hv]; rfl
    have hp : forget (padBytes E (.str x) (.int k)) = .error .valueError := by
      unfold padBytes; rw [forget_bind, hm]; rfl
    unfold Msg.padHex Msg.padHexLe padHex padHexLe
    rw [forget_bind, forget_bind, hp, hv]
    exact ⟨rfl, rfl⟩

/-! ## The text is that of the fault, and of no other -/

/-- `validate_bitcoin_amount` raises an exception with the text `m` exactly if `m` states a fault of the amount. -/
theorem C126_amount (E : Env) (u : UniDB) (s : Str) (e : Err) (m : Str) :
    Msg.vBitcoinAmount E u (.str s) = .error (e, m) ↔ e = .valueError ∧ AmountFault E u s m :=
  amountText_error E u

/-- A value that is not a string gets the usual text. -/
theorem C126_not_string (E : Env) (u : UniDB) (x : PVal) (hx : ∀ s, x ≠ .str s) (e : Err) (m : Str)
    (h : Msg.vBitcoinAmount E u x = .error (e, m)) :
    e = .typeError ∧ Explains E x none none (some py"string") (py"which has type '" ++ typeName x ++ py"', not 'str'.") m := by
  have := explains E x none none (some py"string") (wrongType x py"str")
  cases x with
  | str s => exact absurd rfl (hx s)
  | _ =>
    simp only [Msg.vBitcoinAmount, Msg.vString, M_bind_err, Except.error.injEq, Prod.mk.injEq] at h
    rw [← h.1, ← h.2]
    exact ⟨rfl, by simpa [wrongType] using this⟩

theorem removeC_zero_dot {s : Str} : removeC '0' (removeC '.' s) = [] ↔ ∀ c ∈ s, c = '0' ∨ c = '.' := by
  unfold removeC
  simp only [List.filter_eq_nil_iff, List.mem_filter, bne_iff_ne, ne_eq, not_not]
  constructor
  · intro h c hc
    by_cases hd : c = '.'
    · exact .inr hd
    · exact .inl (h c ⟨hc, hd⟩)
  · rintro h c ⟨hc, hd⟩
    exact (h c hc).resolve_right hd

/-- `validate_positive_bitcoin_amount`: the text "cannot be 0" exactly for texts of zeros and periods, otherwise as above. -/
theorem C126_positive_partial (E : Env) (u : UniDB) (s : Str) (e : Err) (m : Str) :
    Msg.vPositiveBitcoinAmount E u (.str s) = .error (e, m) ↔
      e = .valueError ∧
        (((∀ c ∈ s, c = '0' ∨ c = '.') ∧ m = py"Amount ('" ++ s ++ py"') cannot be 0.") ∨
         ((∃ c ∈ s, c ≠ '0' ∧ c ≠ '.') ∧ AmountFault E u s m)) := by
  unfold Msg.vPositiveBitcoinAmount
  simp only [Msg.vString, M_bind_ok]
  by_cases hz : ∀ c ∈ s, c = '0' ∨ c = '.'
  · have hn : ¬ ∃ c ∈ s, c ≠ '0' ∧ c ≠ '.' := by
      rintro ⟨c, hc, h1, h2⟩; rcases hz c hc with h | h <;> contradiction
    simp only [removeC_zero_dot.2 hz, if_true, M_throw, M_bind_err, Except.error.injEq, Prod.mk.injEq]
    constructor
    · rintro ⟨rfl, rfl⟩; exact ⟨rfl, .inl ⟨hz, rfl⟩⟩
    · rintro ⟨rfl, ⟨_, rfl⟩ | ⟨h, _⟩⟩
      · exact ⟨rfl, rfl⟩
      · exact absurd h hn
  · have hn : ∃ c ∈ s, c ≠ '0' ∧ c ≠ '.' := by push Not at hz; exact hz
    have hr : ¬ removeC '0' (removeC '.' s) = [] := fun h => hz (removeC_zero_dot.1 h)
    simp only [hr, if_false, hz, false_and, false_or, hn, true_and]
    rw [← C126_amount]
    cases Msg.vBitcoinAmount E u (.str s) <;> simp

/-- The text of the integer conversion never occurs except for zeros, and does not show the amount. -/
theorem C126_satoshi_partial (E : Env) (u : UniDB) (s : Str) (e : Err) (m : Str) :
    Msg.bitcoinToSatoshi E u (.str s) = .error (e, m) ↔
      e = .valueError ∧
        (AmountFault E u s m ∨
         ((∃ sat, AmountOf u s sat ∧ sat ≤ maxMoney) ∧ (∀ c ∈ s, c = '0' ∨ c = '.') ∧
           m = py"invalid literal for int() with base 10: ''")) := by
  have hag := C126_agrees_satoshi E u (.str s)
  simp only [vString, R_bind_ok] at hag
  rcases fault_or_amount E u s with ⟨m', hf⟩ | ⟨sat, hs, hm⟩
  · have hx : Msg.bitcoinToSatoshi E u (.str s) = .error (.valueError, m') := by
      unfold Msg.bitcoinToSatoshi
      rw [(C126_amount E u s .valueError m').2 ⟨rfl, hf⟩]; rfl
    rw [hx]
    simp only [Except.error.injEq, Prod.mk.injEq]
    constructor
    · rintro ⟨rfl, rfl⟩; exact ⟨rfl, .inl hf⟩
    · rintro ⟨rfl, h | ⟨⟨sat, hs, hm⟩, _⟩⟩
      · have h1 := fault_error E u hf
        rw [fault_error E u h] at h1
        simp only [Except.error.injEq, Prod.mk.injEq, true_and] at h1
        exact ⟨rfl, h1.symm⟩
      · have h1 := fault_error E u hf
        rw [amountText_value E u hs, if_neg (by omega)] at h1; simp at h1
  · have hnf : ¬ AmountFault E u s m := by
      intro h
      have h1 := fault_error E u h
      rw [amountText_value E u hs, if_neg (by omega)] at h1; simp at h1
    have hA : (∃ sat, AmountOf u s sat ∧ sat ≤ maxMoney) := ⟨sat, hs, hm⟩
    simp only [hnf, false_or, hA, true_and]
    rw [bitcoinToSatoshi_amount u hs hm] at hag
    by_cases hz : ∀ c ∈ s, c = '0' ∨ c = '.'
    · have hx : Msg.bitcoinToSatoshi E u (.str s) = .error (.valueError, py"invalid literal for int() with base 10: ''") := by
        unfold Msg.bitcoinToSatoshi
        have hok : Msg.vBitcoinAmount E u (.str s) = .ok () := by
          show amountText E u s = _
          rw [amountText_value E u hs, if_neg (by omega)]
        obtain ⟨ip, fp, hform, hne, h8, hd, rfl⟩ := hs
        have hi : '.' ∉ ip := dot_not_mem u fun c hc => hd c (by simp [hc])
        have hfp : '.' ∉ fp := dot_not_mem u fun c hc => hd c (by simp [hc])
        have hdig : ∃ t, satoshiDigits s = .ok t ∧ ∀ c ∈ t, c = '0' := by
          unfold satoshiDigits
          rcases hform with hs | ⟨hs, h0⟩
          · have hc : s.count '.' = 1 := by rw [hs]; exact count_split hi hfp
            refine ⟨_, by rw [if_neg (by omega), if_pos hc, hs, splitC_one hi hfp]; rfl, ?_⟩
            intro c hc
            rw [removeC_one hi hfp] at hc
            rcases List.mem_append.1 hc with hc | hc
            · have hcs : c ∈ s := by rw [hs]; rcases List.mem_append.1 hc with h | h <;> simp [h]
              refine (hz c hcs).resolve_right fun e => ?_
              rcases List.mem_append.1 hc with h | h
              · exact hi (e ▸ h)
              · exact hfp (e ▸ h)
            · exact List.eq_of_mem_replicate hc
          · have hc : s.count '.' = 0 := by rw [hs]; exact List.count_eq_zero.2 hi
            refine ⟨_, by rw [if_pos hc]; rfl, ?_⟩
            intro c hc
            rcases List.mem_append.1 hc with hc | hc
            · exact (hz c hc).resolve_right fun e => hi (by rw [← hs]; exact e ▸ hc)
            · exact List.eq_of_mem_replicate hc
        obtain ⟨t, ht, h0⟩ := hdig
        rw [hok]
        simp only [M_bind_ok, Msg.vString, ht, lstrip_eq_nil.2 h0]
        rfl
      rw [hx]
      simp only [Except.error.injEq, Prod.mk.injEq]
      constructor
      · rintro ⟨rfl, rfl⟩; exact ⟨rfl, hz, rfl⟩
      · rintro ⟨rfl, _, rfl⟩; exact ⟨rfl, rfl⟩
    · rw [if_neg hz] at hag
      cases hx : Msg.bitcoinToSatoshi E u (.str s) with
      | error e' => rw [hx] at hag; cases e'; simp at hag
      | ok n => simp [hz]

/-- Two texts that the code can print never occur. -/
theorem C126_never (E : Env) (u : UniDB) (s t : Str) (e : Err) :
    Msg.bitcoinToSatoshi E u (.str s) ≠ .error (e, py"The minimum possible amount is 0.00000000. Amount: " ++ t) ∧
    Msg.bitcoinToSatoshi E u (.str s) ≠ .error (e, py"Bitcoin amount should contain 0 or 1 decimal points. Amount received: " ++ t) := by
  have hmin : ∀ m, AmountFault E u s m → m ≠ py"The minimum possible amount is 0.00000000. Amount: " ++ t := by
    intro m h e
    cases h <;> simp at e
  have htwo : ∀ m, AmountFault E u s m → m ≠ py"Bitcoin amount should contain 0 or 1 decimal points. Amount received: " ++ t := by
    intro m h e
    cases h <;> simp at e
  constructor <;> intro h
  · rw [C126_satoshi_partial] at h
    rcases h.2 with h | ⟨_, _, h⟩
    · exact hmin _ h rfl
    · simp at h
  · rw [C126_satoshi_partial] at h
    rcases h.2 with h | ⟨_, _, h⟩
    · exact htwo _ h rfl
    · simp at h

end BT
