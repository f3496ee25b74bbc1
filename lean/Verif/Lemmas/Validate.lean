import Verif.Lemmas.Hex
import Verif.Lemmas.Amount

namespace BT
open Spec

/-! # Lemmas about the validators -/

theorem char_toNat_inj {a b : Char} (h : a.toNat = b.toNat) : a = b := Char.ext (UInt32.toNat_inj.1 h)

theorem strLe_refl (a : Str) : strLe a a = true := by
  induction a with
  | nil => rfl
  | cons x r ih => simp [strLe, ih]

theorem strLe_total (a b : Str) : strLe a b = true ∨ strLe b a = true := by
  induction a generalizing b with
  | nil => simp [strLe]
  | cons x r ih =>
    cases b with
    | nil => simp [strLe]
    | cons y t =>
      simp only [strLe, Bool.or_eq_true, decide_eq_true_eq, Bool.and_eq_true, beq_iff_eq]
      rcases lt_trichotomy x.toNat y.toNat with h | h | h
      · exact .inl (.inl h)
      · rcases ih t with h' | h'
        · exact .inl (.inr ⟨h, h'⟩)
        · exact .inr (.inr ⟨h.symm, h'⟩)
      · exact .inr (.inl h)

theorem strLe_trans {a b c : Str} (h1 : strLe a b = true) (h2 : strLe b c = true) : strLe a c = true := by
  induction a generalizing b c with
  | nil => simp [strLe]
  | cons x r ih =>
    cases b with
    | nil => simp [strLe] at h1
    | cons y t =>
      cases c with
      | nil => simp [strLe] at h2
      | cons z w =>
        simp only [strLe, Bool.or_eq_true, decide_eq_true_eq, Bool.and_eq_true, beq_iff_eq] at *
        rcases h1 with h1 | ⟨h1, h1'⟩ <;> rcases h2 with h2 | ⟨h2, h2'⟩
        · left; omega
        · left; omega
        · left; omega
        · right; exact ⟨by omega, ih h1' h2'⟩

theorem strLe_antisymm {a b : Str} (h1 : strLe a b = true) (h2 : strLe b a = true) : a = b := by
  induction a generalizing b with
  | nil => cases b with
    | nil => rfl
    | cons y t => simp [strLe] at h2
  | cons x r ih =>
    cases b with
    | nil => simp [strLe] at h1
    | cons y t =>
      simp only [strLe, Bool.or_eq_true, decide_eq_true_eq, Bool.and_eq_true, beq_iff_eq] at *
      rcases h1 with h1 | ⟨h1, h1'⟩ <;> rcases h2 with h2 | ⟨h2, h2'⟩
      · omega
      · omega
      · omega
      · rw [char_toNat_inj h1, ih h1' h2']

instance : Std.Total (fun a b : Str => strLe a b = true) := ⟨strLe_total⟩
instance : IsTrans Str (fun a b : Str => strLe a b = true) := ⟨fun _ _ _ => strLe_trans⟩
instance : Std.Antisymm (fun a b : Str => strLe a b = true) := ⟨fun _ _ => strLe_antisymm⟩

theorem sortStr_eq_iff {l1 l2 : List Str} : sortStr l1 = sortStr l2 ↔ l1.Perm l2 := by
  unfold sortStr
  constructor
  · intro h
    have h1 := List.perm_insertionSort (fun a b => strLe a b = true) l1
    rw [h] at h1
    exact h1.symm.trans (List.perm_insertionSort _ l2)
  · intro h
    apply List.Perm.eq_of_pairwise' (r := fun a b => strLe a b = true)
    · exact List.pairwise_insertionSort _ _
    · exact List.pairwise_insertionSort _ _
    · exact ((List.perm_insertionSort _ l1).trans h).trans (List.perm_insertionSort _ l2).symm

theorem vListsIdentical_eq (l1 l2 : List Str) :
    vListsIdentical l1 l2 = if l1.Perm l2 then .ok () else .error .valueError := by
  unfold vListsIdentical
  by_cases h : l1.Perm l2
  · rw [if_pos h, if_neg (not_not.2 (sortStr_eq_iff.2 h))]
  · rw [if_neg h, if_pos (fun e => h (sortStr_eq_iff.1 e))]

theorem vListContains_eq (l items : List Str) :
    vListContains l items = if (∀ x ∈ items, x ∈ l) then .ok () else .error .valueError := by
  unfold vListContains
  simp only [List.length_eq_zero_iff, List.filter_eq_nil_iff]
  congr 1
  simp

theorem vListContains_ok {l items : List Str} {x : Unit} :
    vListContains l items = .ok x ↔ ∀ x ∈ items, x ∈ l := by
  rw [vListContains_eq]; split <;> simp_all

theorem permitted_iff (c : Char) :
    c ∈ permittedChars ↔ (0x20 ≤ c.toNat ∧ c.toNat ≤ 0x7e) ∨ c = '\t' ∨ c = '\n' := by
  constructor
  · have : ∀ c ∈ permittedChars, (0x20 ≤ c.toNat ∧ c.toNat ≤ 0x7e) ∨ c = '\t' ∨ c = '\n' := by decide +kernel
    exact this c
  · rintro (⟨h1, h2⟩ | rfl | rfl)
    · have : ∀ n, n ≤ 0x7e → 0x20 ≤ n → Char.ofNat n ∈ permittedChars := by decide +kernel
      have := this c.toNat h2 h1
      rwa [Char.ofNat_toNat] at this
    · decide +kernel
    · decide +kernel

/-! ## decimals -/

theorem reDecimal_iff (u : UniDB) (k : Nat) {ip fp : Str} (hi : '.' ∉ ip) (hf : '.' ∉ fp)
    (hfne : fp ≠ []) :
    reDecimal u k (ip ++ '.' :: fp) = true ↔
      fp.length = k ∧ ∀ c ∈ ip ++ fp, (decVal u c).isSome = true := by
  have hdot := dot_not_digit u
  have hfl : 0 < fp.length := List.length_pos_of_ne_nil hfne
  set s := ip ++ '.' :: fp with hs
  have hlen : s.length = ip.length + 1 + fp.length := by simp [hs]; omega
  unfold reDecimal
  simp only [Bool.and_eq_true, decide_eq_true_eq, List.all_eq_true, bne_iff_ne, ne_eq]
  constructor
  · rintro ⟨⟨⟨h1, h2⟩, h3⟩, h4⟩
    have hk : fp.length = k := by
      rcases lt_trichotomy fp.length k with h | h | h
      · exfalso
        have : '.' ∈ s.drop (s.length - k) := by
          rw [hs, List.drop_append_of_le_length (by rw [← hs, hlen]; omega)]
          simp
        have := h4 _ this
        rw [hdot] at this; simp at this
      · exact h
      · exfalso
        have : '.' ∈ s.take (s.length - k - 1) := by
          rw [hs, List.take_append, ← hs]
          have : s.length - k - 1 - ip.length = (s.length - k - 1 - ip.length - 1) + 1 := by omega
          rw [this, List.take_succ_cons]
          simp
        have := h2 _ this
        rw [hdot] at this; simp at this
    refine ⟨hk, ?_⟩
    have e1 : s.take (s.length - k - 1) = ip := by
      rw [show s.length - k - 1 = ip.length by omega, hs]; simp
    have e2 : s.drop (s.length - k) = fp := by
      rw [show s.length - k = ip.length + 1 by omega, hs]
      rw [show ip ++ '.' :: fp = (ip ++ ['.']) ++ fp by simp, List.drop_left' (by simp)]
    rw [e1] at h2; rw [e2] at h4
    intro c hc
    rcases List.mem_append.1 hc with hc | hc
    · exact h2 c hc
    · exact h4 c hc
  · rintro ⟨hk, hd⟩
    have e1 : s.take (s.length - k - 1) = ip := by
      rw [show s.length - k - 1 = ip.length by omega, hs]; simp
    have e2 : s.drop (s.length - k) = fp := by
      rw [show s.length - k = ip.length + 1 by omega, hs]
      rw [show ip ++ '.' :: fp = (ip ++ ['.']) ++ fp by simp, List.drop_left' (by simp)]
    have e3 : s.drop (s.length - k - 1) = '.' :: fp := by
      rw [show s.length - k - 1 = ip.length by omega, hs]; simp
    rw [e1, e2, e3]
    refine ⟨⟨⟨by omega, fun c hc => hd c (by simp [hc])⟩, by simp⟩, fun c hc => hd c (by simp [hc])⟩

end BT
