import Verif.Props.Met

/-!
# All the coins can be moved at once (C141)
-/

namespace BT
open Spec Ledger

variable {X : Ext}

theorem all_of_total {spent coins : List Coin} (h : spent.Subperm coins) (hp : ∀ c ∈ coins, 0 < c.sat) (ht : coinTotal coins ≤ coinTotal spent) : spent.Perm coins := by
  obtain ⟨l, hl, hs⟩ := h
  obtain ⟨rest, hr⟩ := hs.exists_perm_append
  have e : coinTotal coins = coinTotal spent + coinTotal rest := by
    rw [coinTotal_perm hr, coinTotal_append, coinTotal_perm hl]
  have hz : rest = [] := by
    cases rest with
    | nil => rfl
    | cons c cs =>
      exfalso
      have := hp c (hr.symm.subset (List.mem_append_right _ (List.mem_cons_self ..)))
      simp only [coinTotal, List.map_cons, List.sum_cons] at e ht
      omega
  subst hz
  rw [List.append_nil] at hr
  exact hl.symm.trans hr.symm

/-- **C141**: no coin gets stuck. Whoever has valid keys for the owners of coins of the ledger can move all of them at once: a request in good order that lists these coins and asks
for one payment of everything except a fee that is allowed leads to a transaction that the network accepts, and after it all the listed coins are replaced by one coin
of the payee, of exactly that amount (unless the ECDSA library cannot sign). -/
theorem C141_sweep (W : X.Laws) (L coins : List Coin) (u : Use) (amount : Nat) (payee : Bytes) (design : PVal) (cap : Nat) (fee : Int)
    (O : Order X u coins [⟨amount, payee⟩] design cap 100) (hs : CanSign X u) (hk : ∀ c ∈ coins, HoldsKey X u c.owner) (hD : Distinct L) (hL : coins.Subperm L)
    (hfee : ∀ f, DesignFee X design coins.length 1 f ↔ f = fee) (hcap : fee ≤ cap) (hsum : (amount : Int) + fee = coinTotal coins) :
    ∃ ins outs, Prints X u ins outs ∧ Valid X L ins outs ∧ ∀ L', Applied X L ins outs L' ↔
      L' = ⟨idOf X (txBytes ins outs), 0, amount, payee⟩ :: L.filter fun c => c.point ∉ coins.map Coin.point := by
  have hst := Met.met W O hs hk (by simp) fun f hf => by
    rw [(hfee f).1 hf]
    exact ⟨by simp only [payTotal, List.map_cons, List.map_nil, List.sum_cons, List.sum_nil]; omega, hcap, .inl rfl⟩
  obtain ⟨fi, ti, insD, f1, f2, f3, f4, f5, f6⟩ := O.inputs
  obtain ⟨fd, td, outsD, g1, g2, g3, g4, g5, g6, g7⟩ := O.outputs
  have hlist : ListsCoins X u.fs u.args L := by
    intro fi' ti' insD' e1 e2 e3
    rw [f1] at e1; injection e1 with e1; subst e1
    rw [f3] at e2; injection e2 with e2; subst e2
    rw [f4] at e3; injection e3 with e3; injection e3 with e3; subst e3
    exact ⟨coins, f5, hL⟩
  obtain ⟨ins, outs, spent, rest, paid, fee', asked, owner, p1, p2, p3, p4, p5, p6, p7, p8, p9, p10, p11, _, _, p12⟩ := step_full W hlist O.task hst
  obtain ⟨s1, s2⟩ := p12 coins design ⟨fi, ti, insD, f1, f3, f4, f5⟩ ⟨fd, td, g1, g3, g4⟩
  have hasked : asked = [⟨amount, payee⟩] := by
    obtain ⟨fd', td', design', outsD', ca, e1, e2, e3, e4, e5, _⟩ := p9
    rw [g1] at e1; injection e1 with e1; subst e1
    rw [g3] at e2; injection e2 with e2; subst e2
    rw [g4] at e3; injection e3 with e3; subst e3
    rw [g5] at e4; injection e4 with e4; injection e4 with e4; subst e4
    exact paid_list e5 g6
  subst hasked
  have hfe := (hfee fee').1 s2
  have ht : payTotal [⟨amount, payee⟩] = amount := by simp [payTotal]
  rw [ht] at p10 p11
  have hperm := all_of_total s1 (fun c hc => (O.coin_ok c hc).1) (by omega)
  have hz : coinTotal spent - amount - fee' = 0 := by have := coinTotal_perm hperm; omega
  have hpaid : paid = [⟨amount, payee⟩] := by
    rw [hz] at p10
    generalize hq : ([⟨amount, payee⟩] : List Payment) = q at p10
    cases p10 with
    | exact _ => rfl
    | new _ h => exact absurd h (by omega)
    | raised _ _ _ h => exact absurd h (by omega)
  subst hpaid
  refine ⟨ins, outs, p1, valid_of hD p2 p3 p4 p5 p6 p8, fun L' => ?_⟩
  have hpts : ∀ x, x ∈ ins.map RawIn.point ↔ x ∈ coins.map Coin.point := fun x => by
    rw [spentBy_points p3]; exact (hperm.map _).mem_iff
  have hfil : (L.filter fun c => c.point ∉ ins.map RawIn.point) = L.filter fun c => c.point ∉ coins.map Coin.point :=
    List.filter_congr fun c _ => by simp only [hpts]
  unfold Applied
  constructor
  · rintro ⟨paid', h1, rfl⟩
    obtain rfl := madeBy_list h1 p5
    rw [hfil]; rfl
  · rintro rfl
    exact ⟨_, p5, by rw [hfil]; rfl⟩

end BT
