import Verif.LogTextSpec
import Verif.Lemmas.TxLogOnly
import Verif.Lemmas.ReportDone
import Verif.Lemmas.Messages

/-!
# Texts without stray line breaks
-/

namespace BT.LT
open Spec Lg

/-- no line break -/
def NoNl (s : Str) : Prop := '\n' ∉ s

/-- the text begins with '-' or a small letter -/
def okNext : Str → Bool
  | d :: _ => d == '-' || (decide (97 ≤ d.toNat) && decide (d.toNat ≤ 122))
  | [] => false

/-- `Harmless` as a computation -/
def harm : Str → Bool
  | [] => true
  | c :: r => (c != '\n' || okNext r) && harm r

theorem harm_iff (s : Str) : harm s = true ↔ Harmless s := by
  induction s with
  | nil =>
    simp only [harm, true_iff]
    intro p q h
    simp at h
  | cons c r ih =>
    rw [harm, Bool.and_eq_true, ih]
    constructor
    · rintro ⟨h1, h2⟩ p q h
      cases p with
      | nil =>
        simp only [List.nil_append, List.cons.injEq] at h
        obtain ⟨rfl, rfl⟩ := h
        cases r with
        | nil => simp [okNext] at h1
        | cons d r =>
          simp only [okNext, bne_self_eq_false, Bool.false_or, Bool.or_eq_true, beq_iff_eq, Bool.and_eq_true, decide_eq_true_eq] at h1
          exact ⟨d, r, rfl, h1⟩
      | cons x p =>
        simp only [List.cons_append, List.cons.injEq] at h
        exact h2 p q h.2
    · intro h
      refine ⟨?_, fun p q e => h (c :: p) q (by rw [e]; rfl)⟩
      by_cases hc : c = '\n'
      · obtain ⟨d, u, e, hd⟩ := h [] r (by rw [hc]; rfl)
        subst e
        simp only [okNext, hc, bne_self_eq_false, Bool.false_or, Bool.or_eq_true, beq_iff_eq, Bool.and_eq_true, decide_eq_true_eq]
        exact hd
      · simp [hc]

theorem harm_append {a b : Str} (ha : harm a = true) (hb : harm b = true) : harm (a ++ b) = true := by
  induction a with
  | nil => exact hb
  | cons c r ih =>
    rw [harm, Bool.and_eq_true] at ha
    rw [List.cons_append, harm, Bool.and_eq_true]
    refine ⟨?_, ih ha.2⟩
    cases r with
    | nil =>
      have : (c != '\n') = true := by simpa [okNext] using ha.1
      simp [this]
    | cons d r => exact ha.1

theorem H.app {a b : Str} (ha : Harmless a) (hb : Harmless b) : Harmless (a ++ b) :=
  (harm_iff _).1 (harm_append ((harm_iff _).2 ha) ((harm_iff _).2 hb))

theorem H.lit {a : Str} (h : harm a = true) : Harmless a := (harm_iff _).1 h

theorem H.nn {a : Str} (h : NoNl a) : Harmless a := by
  intro p q e
  exact absurd (by rw [e]; simp) h

theorem H.flatMap {α : Type} {f : α → Str} {l : List α} (h : ∀ x ∈ l, Harmless (f x)) : Harmless (l.flatMap f) := by
  induction l with
  | nil => exact H.lit rfl
  | cons x l ih =>
    rw [List.flatMap_cons]
    exact H.app (h x (by simp)) (ih fun y hy => h y (by simp [hy]))

theorem nn_app {a b : Str} (ha : NoNl a) (hb : NoNl b) : NoNl (a ++ b) := by
  unfold NoNl at *
  simp [ha, hb]

theorem nn_cons {c : Char} {b : Str} (hc : c ≠ '\n') (hb : NoNl b) : NoNl (c :: b) := by
  unfold NoNl at *
  simp [hb, Ne.symm hc]

theorem nn_digits (n : Nat) : NoNl (natDigits 10 n) := by
  intro h
  have := natDigits_dig n _ h
  revert this; unfold IsDig; decide

theorem nn_pyStr (n : Int) : NoNl (pyStr n) := by
  unfold pyStr
  by_cases h : n < 0
  · rw [if_pos h]; exact nn_cons (by decide) (nn_digits _)
  · rw [if_neg h]; exact nn_digits _

theorem nn_replicate (k : Nat) {c : Char} (hc : c ≠ '\n') : NoNl (List.replicate k c) := by
  intro h
  exact hc (List.eq_of_mem_replicate h).symm

theorem nn_btcText (n : Nat) : NoNl (btcText n) := by
  unfold btcText
  exact nn_app (nn_digits _) (nn_cons (by decide) (nn_app (nn_replicate _ (by decide)) (nn_digits _)))

theorem nn_btc {u : UniDB} {n : Int} {s : Str} (h : satoshiToBitcoin u n = .ok s) : NoNl s := by
  obtain ⟨k, _, _, rfl⟩ := (satoshiToBitcoin_ok u).1 h
  exact nn_btcText k

theorem nn_fmtFixed (k : Nat) (q : ℚ) : NoNl (fmtFixed k q) := by
  unfold fmtFixed padDigits
  exact nn_app (nn_app (nn_digits _) (nn_cons (by decide) (by simp [NoNl]))) (nn_app (nn_replicate _ (by decide)) (nn_digits _))

theorem nn_fmtFloat (k : Nat) (f : PyFloat) : NoNl (Report.fmtFloat k f) := by
  have hd : ∀ r : ℚ, NoNl (if k = 0 then natDigits 10 (rhe r).toNat else fmtFixed k r) := by
    intro r
    by_cases h : k = 0
    · rw [if_pos h]; exact nn_digits _
    · rw [if_neg h]; exact nn_fmtFixed _ _
  unfold Report.fmtFloat
  cases f with
  | nan => show '\n' ∉ py"nan"; decide
  | inf b =>
    cases b
    · show '\n' ∉ py"inf"; decide
    · show '\n' ∉ py"-inf"; decide
  | fin q =>
    simp only
    by_cases h : q < 0
    · rw [if_pos h]; exact nn_cons (by decide) (hd _)
    · rw [if_neg h]; exact hd _

section
variable {E : Msg.Env} (hE : ∀ f, '\n' ∉ E.floatRepr f)

theorem nn_reprStr (E : Msg.Env) (s : Str) : NoNl (Msg.reprStr E s) := by
  intro h
  have := Msg.visible_reprStr E s _ h
  rcases this with h | h
  · revert h; decide
  · revert h; simp

include hE

mutual
theorem nn_repr : ∀ x : PVal, NoNl (Msg.repr E x)
  | .none => by rw [Msg.repr]; unfold NoNl; decide
  | .bool true => by rw [Msg.repr]; unfold NoNl; decide
  | .bool false => by rw [Msg.repr]; unfold NoNl; decide
  | .int n => by rw [Msg.repr]; exact nn_pyStr n
  | .float f => by rw [Msg.repr]; exact hE f
  | .str s => by rw [Msg.repr]; exact nn_reprStr E s
  | .list [] => by rw [Msg.repr]; unfold NoNl; decide
  | .list (x :: xs) => by
    rw [Msg.repr]
    exact nn_cons (by decide) (nn_app (nn_app (nn_repr x) (nn_reprL xs)) (by unfold NoNl; decide))
  | .dict [] => by rw [Msg.repr]; unfold NoNl; decide
  | .dict ((k, x) :: r) => by
    rw [Msg.repr]
    exact nn_cons (by decide) (nn_app (nn_app (nn_app (nn_app (nn_reprStr E k) (by unfold NoNl; decide)) (nn_repr x)) (nn_reprD r))
      (by unfold NoNl; decide))
theorem nn_reprL : ∀ l : List PVal, NoNl (Msg.reprL E l)
  | [] => by rw [Msg.reprL]; unfold NoNl; decide
  | x :: xs => by
    rw [Msg.reprL]
    exact nn_app (nn_app (by unfold NoNl; decide) (nn_repr x)) (nn_reprL xs)
theorem nn_reprD : ∀ l : List (Str × PVal), NoNl (Msg.reprD E l)
  | [] => by rw [Msg.reprD]; unfold NoNl; decide
  | (k, x) :: r => by
    rw [Msg.reprD]
    exact nn_app (nn_app (nn_app (nn_app (by unfold NoNl; decide) (nn_reprStr E k)) (by unfold NoNl; decide)) (nn_repr x)) (nn_reprD r)
end

theorem nn_str {v : PVal} (h : ∀ s, v = .str s → NoNl s) : NoNl (Report.str E v) := by
  cases v with
  | str s => exact h s rfl
  | _ => unfold Report.str; exact nn_repr hE _

end

theorem nn_hex {s : Str} (h : IsHex s) : NoNl s := by
  intro hm
  have := h.2 _ hm
  revert this; decide

theorem nn_addr {X : Ext} {s x : Str} (h : addressToHash X s = .ok x) : NoNl s := by
  intro hm
  by_cases hc : ∃ c ∈ s, c ∉ alphabet58
  · have := base58checkToHex_char X hc
    simp only [addressToHash, this] at h
    cases h
  · push Not at hc
    have := hc _ hm
    revert this; decide

theorem nn_vaddr {X : Ext} {s : Str} {x : Unit} (h : vBitcoinAddress X s = .ok x) : NoNl s := by
  obtain ⟨y, hy⟩ := (vBitcoinAddress_ok X).1 h
  exact nn_addr hy

theorem nn_amount {u : UniDB} {s : Str} {n : Nat} (h : AmountOf u s n) : NoNl s := by
  obtain ⟨ip, fp, hs, _, _, hd, _⟩ := h
  have hn : ∀ c ∈ ip ++ fp, c ≠ '\n' := by
    rintro c hc rfl
    have := hd _ hc
    rw [decVal, if_pos (by decide)] at this
    revert this; decide
  intro hm
  rcases hs with rfl | ⟨rfl, _⟩
  · simp only [List.mem_append, List.mem_cons] at hm
    rcases hm with hm | hm | hm
    · exact hn _ (by simp [hm]) rfl
    · revert hm; decide
    · exact hn _ (by simp [hm]) rfl
  · exact hn _ (by simp [hm]) rfl

/-- texts put together from harmless pieces -/
macro "harmless_" : tactic => `(tactic| repeat' first
  | assumption
  | with_reducible apply H.app
  | exact H.nn (nn_pyStr _)
  | (with_reducible apply H.lit; decide; done))

end BT.LT
