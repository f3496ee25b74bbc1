import Verif.Props.Met
import Verif.Props.Relax

/-!
# More coins never hurt (C144)

True where the design names the fee; with a fee rate a further coin can turn a request that was met into one that is refused, because the fee is estimated for all the
coins that are available, not for those that are spent.
-/

namespace BT
open Spec

variable {X : Ext}

/-- The design names the fee `k`. -/
def Spec.FixedFee (X : Ext) (design : PVal) (k : Int) : Prop := ∃ v, entry design py"fee" = some v ∧ NumberOf X.uni v k ∧ 0 < k

/-- The design names no fee but the whole fee rate `r` (satoshi per byte). -/
def Spec.WholeRate (X : Ext) (design : PVal) (r : Nat) : Prop := entry design py"fee" = none ∧ entry design py"fee_rate" = some (.int r)

namespace MoreCoins

theorem fee_fixed {design : PVal} {k : Int} (h : FixedFee X design k) (n m : Nat) (f : Int) : DesignFee X design n m f ↔ f = k := by
  obtain ⟨v, h1, h2, h3⟩ := h
  constructor
  · rintro (⟨w, e1, e2, _⟩ | ⟨e, _⟩)
    · have : entry design py"fee" = some w := e1
      rw [h1] at this; injection this with this; subst this
      exact Relax.numberOf_unique e2 h2
    · have := e v k h1 h2; omega
  · rintro rfl
    exact .inl ⟨v, h1, h2, by omega⟩

theorem fee_rate {design : PVal} {r : Nat} (h : WholeRate X design r) (n m : Nat) (f : Int) : DesignFee X design n m f ↔ f = estSize n m * r := by
  obtain ⟨h1, h2⟩ := h
  constructor
  · rintro (⟨w, e1, _⟩ | ⟨_, v, q, e1, e2, _, _, e3⟩)
    · have : entry design py"fee" = some w := e1
      rw [h1] at this; simp at this
    · have : entry design py"fee_rate" = some v := e1
      rw [h2] at this; injection this with this; subst this
      refine e3 r ?_
      rcases e2 with ⟨k, hk, hq⟩ | ⟨s, hk, _⟩ | ⟨hk, _⟩
      · injection hk with hk; rw [hq, ← hk]
      · simp at hk
      · simp at hk
  · rintro rfl
    refine .inr ⟨fun w k e => ?_, .int r, r, h2, .inl ⟨r, rfl, by simp⟩, by positivity, ?_, ?_⟩
    · have : entry design py"fee" = some w := e
      rw [h1] at this; simp at this
    · have : ((estSize n m : ℚ) * (r : ℚ)) = ((estSize n m * r : Int) : ℚ) := by push_cast; rfl
      rw [this, Int.ceil_intCast]; simp
    · intro r' hr'
      have : (r : Int) = r' := by exact_mod_cast hr'
      rw [this]

/-- what success says -/
theorem of_success (W : X.Laws) {u : Use} {coins : List Coin} {asked : List Payment} {design : PVal} {cap : Nat} {pct : ℚ} (O : Order X u coins asked design cap pct) {fee : Int}
    (hfee : ∀ f, DesignFee X design coins.length asked.length f ↔ f = fee) (h0 : exitStatus (cliRun X u.fs u.sh u.setup u.args) = 0) :
    (asked.map Payment.owner).Nodup ∧ payTotal asked + fee ≤ coinTotal coins ∧ fee ≤ cap := by
  by_contra hc
  have := (C140_refused W u coins asked design cap pct O (by
    by_cases hd : (asked.map Payment.owner).Nodup
    · right
      intro f hf
      rw [(hfee f).1 hf]
      by_contra hn
      exact hc ⟨hd, by omega, by omega⟩
    · exact .inl hd)).1
  omega

theorem total_le {a b : List Coin} (h : a.Subperm b) : coinTotal a ≤ coinTotal b := by
  obtain ⟨c, hp, hs⟩ := h
  rw [← Ledger.coinTotal_perm hp]
  unfold coinTotal
  exact (hs.map _).sum_le_sum (by simp)

end MoreCoins

/-- **C144** (where the design names the fee): more coins never hurt, and neither do smaller payments, a smaller fee or a greater cap. Suppose a use of the program succeeded for a request
in good order. Take another request in good order, with at least the coins of the first one, payments to different addresses that amount to no more, a fee that is no greater and a cap that
is no smaller, all of whose coins may be spent and have their keys. It succeeds as well. -/
theorem C144_more_partial (W : X.Laws) (u u' : Use) (coins coins' : List Coin) (asked asked' : List Payment) (design design' : PVal) (cap cap' : Nat) (pct : ℚ) (fee fee' : Int)
    (O : Order X u coins asked design cap pct) (O' : Order X u' coins' asked' design' cap' 100) (hf : FixedFee X design fee) (hf' : FixedFee X design' fee')
    (hs : CanSign X u') (hk : ∀ c ∈ coins', HoldsKey X u' c.owner) (hd : (asked'.map Payment.owner).Nodup)
    (hcoins : coins.Subperm coins') (hpay : payTotal asked' ≤ payTotal asked) (hfee : fee' ≤ fee) (hcap : cap ≤ cap')
    (h : exitStatus (cliRun X u.fs u.sh u.setup u.args) = 0) : exitStatus (cliRun X u'.fs u'.sh u'.setup u'.args) = 0 := by
  obtain ⟨_, h1, h2⟩ := MoreCoins.of_success W O (MoreCoins.fee_fixed hf _ _) h
  have hle := MoreCoins.total_le hcoins
  refine Met.met W O' hs hk hd fun f hff => ?_
  rw [(MoreCoins.fee_fixed hf' _ _ f).1 hff]
  exact ⟨by omega, by omega, .inl rfl⟩

/-- **C144** (with a fee rate): further coins, each of which is worth at least the 179 bytes it may add to the transaction, never hurt as long as the estimated fee does not exceed the cap. -/
theorem C144_worth (W : X.Laws) (u u' : Use) (coins coins' more : List Coin) (asked : List Payment) (design : PVal) (cap : Nat) (pct : ℚ) (r : Nat)
    (O : Order X u coins asked design cap pct) (O' : Order X u' coins' asked design cap 100) (hr : WholeRate X design r)
    (hs : CanSign X u') (hk : ∀ c ∈ coins', HoldsKey X u' c.owner) (hcoins : coins'.Perm (coins ++ more)) (hworth : ∀ c ∈ more, 179 * r ≤ c.sat)
    (hcap : estSize coins'.length asked.length * r ≤ cap)
    (h : exitStatus (cliRun X u.fs u.sh u.setup u.args) = 0) : exitStatus (cliRun X u'.fs u'.sh u'.setup u'.args) = 0 := by
  obtain ⟨hd, h1, h2⟩ := MoreCoins.of_success W O (MoreCoins.fee_rate hr _ _) h
  have hle : coinTotal coins' = coinTotal coins + coinTotal more := by rw [Ledger.coinTotal_perm hcoins, Ledger.coinTotal_append]
  have hl : coins'.length = coins.length + more.length := by rw [hcoins.length_eq, List.length_append]
  have hm : more.length * (179 * r) ≤ coinTotal more := by
    clear hcoins hle hl
    unfold coinTotal
    induction more with
    | nil => simp
    | cons c l ih =>
      have a1 := hworth c (List.mem_cons_self ..)
      have a2 := ih fun c hc => hworth c (List.mem_cons_of_mem _ hc)
      simp only [List.length_cons, List.map_cons, List.sum_cons]
      rw [Nat.add_mul]; omega
  refine Met.met W O' hs hk hd fun f hff => ?_
  rw [(MoreCoins.fee_rate hr _ _ f).1 hff]
  refine ⟨?_, hcap, .inl rfl⟩
  have hm' : (more.length : Int) * (179 * r) ≤ coinTotal more := by exact_mod_cast hm
  have e : estSize coins'.length asked.length * r = estSize coins.length asked.length * r + more.length * (179 * r) := by
    unfold estSize; rw [hl]; push_cast; ring
  rw [e, hle]; push_cast; omega

end BT
