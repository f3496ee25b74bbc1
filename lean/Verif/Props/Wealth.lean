import Verif.Props.Ledger

/-!
# What the runs do to the owners of coins (C138, C139)
-/

namespace BT
open Spec Ledger

variable {X : Ext}

namespace Ledger

theorem worth_append (h : Bytes) (a b : List Coin) : worth h (a ++ b) = worth h a + worth h b := by
  simp [worth, coinTotal]

theorem worth_perm (h : Bytes) {a b : List Coin} (p : a.Perm b) : worth h a = worth h b :=
  coinTotal_perm (p.filter _)

theorem askedFor_cons (h : Bytes) (d : Payment) (l : List Payment) : askedFor h (d :: l) = (if d.owner = h then d.sat else 0) + askedFor h l := by
  by_cases e : d.owner = h <;> simp [askedFor, payTotal, e]

theorem askedFor_append (h : Bytes) (a b : List Payment) : askedFor h (a ++ b) = askedFor h a + askedFor h b := by
  simp [askedFor, payTotal]

theorem worth_cons (h : Bytes) (c : Coin) (l : List Coin) : worth h (c :: l) = (if c.owner = h then c.sat else 0) + worth h l := by
  by_cases e : c.owner = h <;> simp [worth, coinTotal, e]

theorem worth_made_from (h id : Bytes) : ∀ (paid : List Payment) (k : Nat), worth h (paid.mapIdx fun j d => ⟨id, j + k, d.sat, d.owner⟩) = askedFor h paid := by
  intro paid
  induction paid with
  | nil => intro k; rfl
  | cons d l ih =>
    intro k
    have := ih (k + 1)
    rw [List.mapIdx_cons, worth_cons, askedFor_cons]
    simp only [Nat.add_assoc, Nat.add_comm 1 k] at this ⊢
    rw [this]

theorem worth_made (h id : Bytes) (paid : List Payment) : worth h (made id paid) = askedFor h paid := worth_made_from h id paid 0

/-- what the change does -/
theorem changeTo_askedFor {owner : Bytes} {s : Nat} {asked paid : List Payment} (c : ChangeTo owner s asked paid) (h : Bytes) :
    askedFor h paid = askedFor h asked + if h = owner then s else 0 := by
  cases c with
  | exact _ hs => subst hs; simp
  | new _ _ _ =>
    rw [askedFor_cons]
    by_cases e : h = owner
    · subst e; simp; omega
    · simp [e, Ne.symm e]
  | raised pre n post _ _ =>
    simp only [askedFor_append, askedFor_cons]
    by_cases e : h = owner
    · subst e; simp; omega
    · simp [e, Ne.symm e]

theorem asksFor_unique {u : Use} {asked asked' : List Payment} {owner owner' : Bytes} (h : AsksFor X u asked owner) (h' : AsksFor X u asked' owner') :
    asked = asked' ∧ owner = owner' := by
  obtain ⟨fd, td, design, outsD, ca, a1, a2, a3, a4, a5, a6, a7⟩ := h
  obtain ⟨fd', td', design', outsD', ca', b1, b2, b3, b4, b5, b6, b7⟩ := h'
  rw [a1] at b1; injection b1 with b1; subst b1
  rw [a2] at b2; injection b2 with b2; subst b2
  rw [a3] at b3; injection b3 with b3; subst b3
  rw [a4] at b4; injection b4 with b4; injection b4 with b4; subst b4
  rw [a6] at b6; injection b6 with b6; injection b6 with b6; subst b6
  exact ⟨paid_list a5 b5, addressOf_unique a7 b7⟩

/-- one use and the owners -/
theorem step_worth (W : X.Laws) {L L' : List Coin} {u : Use} {ins : List RawIn} {outs : List RawOut} (hD : Distinct L) (hL : ListsCoins X u.fs u.args L)
    (hp : Prints X u ins outs) (ha : Applied X L ins outs L') :
    ∃ asked owner fee, AsksFor X u asked owner ∧ payTotal asked + fee ≤ coinTotal (spentFrom L ins) ∧
      (∀ h, worth h L' + worth h (spentFrom L ins) = worth h L + askedFor h asked + if h = owner then coinTotal (spentFrom L ins) - payTotal asked - fee else 0) ∧
      (∀ c ∈ spentFrom L ins, HoldsKey X u c.owner ∧ Listed X u c) ∧ (∀ c ∈ L, c ∉ spentFrom L ins → c ∈ L') ∧ coinTotal L = coinTotal L' + fee := by
  obtain ⟨ins', outs', spent, rest, paid, fee, asked, owner, g1, g2, g3, g4, g5, g6, g7, g8, g9, g10, g11, g12, g13, _⟩ := step_full W hL hp.task hp.status
  obtain ⟨e1, e2⟩ := prints_unique g1 hp
  subst e1 e2
  have hperm := applied_of hD g2 g3 g5 ha
  obtain ⟨s1, s2⟩ := split_filter hD g2 g3
  change (spentFrom L ins').Perm spent at s1
  have ht := coinTotal_perm s1
  refine ⟨asked, owner, fee, g9, by omega, fun h => ?_, fun c hc => ⟨g12 c (s1.subset hc), g13 c (s1.subset hc)⟩, fun c hc hn => ?_, ?_⟩
  · rw [worth_perm h hperm, worth_append, worth_made, worth_perm h s1, ← worth_perm h g2, worth_append, changeTo_askedFor g10 h, ht]
    omega
  · rcases List.mem_append.1 (g2.symm.subset hc) with h | h
    · exact absurd (s1.symm.subset h) hn
    · exact hperm.symm.subset (List.mem_append_right _ h)
  · rw [coinTotal_perm hperm, ← coinTotal_perm g2, coinTotal_append, coinTotal_append, made_total]; omega

end Ledger

/-- **C138**: what a run does to everybody. Suppose the input file lists unspent coins, the design file asks for the payments `asked` with the change to `owner`, and
the transaction that was printed is put on the ledger. Then for every public key hash `h`, what `h` has afterwards together with what was taken from `h` is what `h` had
before together with the payments to `h` (and the change, if `h` is the owner of the change address), and together they lose exactly the fee. -/
theorem C138_everybody (W : X.Laws) (L : List Coin) (u : Use) (ins : List RawIn) (outs : List RawOut) (asked : List Payment) (owner : Bytes) (hD : Distinct L)
    (hL : ListsCoins X u.fs u.args L) (hA : AsksFor X u asked owner) (hp : Prints X u ins outs) (L' : List Coin) (ha : Applied X L ins outs L') :
    ∃ fee, payTotal asked + fee ≤ coinTotal (spentFrom L ins) ∧ coinTotal L = coinTotal L' + fee ∧
      ∀ h, worth h L' + worth h (spentFrom L ins) =
        worth h L + askedFor h asked + if h = owner then coinTotal (spentFrom L ins) - payTotal asked - fee else 0 := by
  obtain ⟨asked', owner', fee, h1, h2, h3, _, _, h4⟩ := step_worth W hD hL hp ha
  obtain ⟨rfl, rfl⟩ := asksFor_unique h1 hA
  exact ⟨fee, h2, h4, h3⟩

/-- **C138**: a coin is taken only if the input file lists it and a private key of its owner was given to the run; every other coin of the ledger stays. -/
theorem C138_untouched (W : X.Laws) (L : List Coin) (u : Use) (ins : List RawIn) (outs : List RawOut) (hD : Distinct L) (hL : ListsCoins X u.fs u.args L)
    (hp : Prints X u ins outs) (L' : List Coin) (ha : Applied X L ins outs L') (c : Coin) (hc : c ∈ L) (h : ¬ HoldsKey X u c.owner ∨ ¬ Listed X u c) : c ∈ L' := by
  obtain ⟨_, _, _, _, _, _, h1, h2, _⟩ := step_worth W hD hL hp ha
  exact h2 c hc fun hs => h.elim (· (h1 c hs).1) (· (h1 c hs).2)

/-- **C138**: who is asked to be paid is richer by exactly these payments, if no key of his was given to the run and he does not own the change address. -/
theorem C138_payee (W : X.Laws) (L : List Coin) (u : Use) (ins : List RawIn) (outs : List RawOut) (asked : List Payment) (owner : Bytes) (hD : Distinct L)
    (hL : ListsCoins X u.fs u.args L) (hA : AsksFor X u asked owner) (hp : Prints X u ins outs) (L' : List Coin) (ha : Applied X L ins outs L') (h : Bytes)
    (hk : ¬ HoldsKey X u h) (ho : h ≠ owner) : worth h L' = worth h L + askedFor h asked := by
  obtain ⟨asked', owner', fee, h1, _, h3, h4, _⟩ := step_worth W hD hL hp ha
  obtain ⟨rfl, rfl⟩ := asksFor_unique h1 hA
  have e := h3 h
  have z : worth h (spentFrom L ins) = 0 := by
    have : (spentFrom L ins).filter (fun c => c.owner = h) = [] := by
      rw [List.filter_eq_nil_iff]
      intro c hc hch
      exact hk (by simpa [of_decide_eq_true hch] using (h4 c hc).1)
    simp [worth, coinTotal, this]
  rw [if_neg ho, z] at e
  omega

/-- **C139**: whoever's private keys are never given to the program loses nothing, whatever is done with it: in every history of runs each of his coins of the beginning
is still there, and the total of his coins has not become smaller. -/
theorem C139_bystander (W : X.Laws) (L0 L : List Coin) (us : List Use) (txs : List (List RawIn × List RawOut)) (caps : Nat)
    (h : History X L0 L us txs caps) (hD : Distinct L0) (hN : NewIds X L0 txs) (owner : Bytes) (hk : ∀ u ∈ us, ¬ HoldsKey X u owner) :
    (∀ c ∈ L0, c.owner = owner → c ∈ L) ∧ worth owner L0 ≤ worth owner L := by
  induction h with
  | start => exact ⟨fun c hc _ => hc, le_rfl⟩
  | @step L L' us txs caps cap u ins outs h1 h2 h3 h4 h5 ih =>
    obtain ⟨i1, i2⟩ := ih (NewIds.pre hN) fun u hu => hk u (List.mem_append_left _ hu)
    have I := history_inv W h1 hD (NewIds.pre hN)
    have hu := hk u (List.mem_append_right _ (List.mem_singleton.2 rfl))
    obtain ⟨asked, ow, fee, _, _, g3, g4, g5, _⟩ := step_worth W I.distinct h2 h4 h5
    refine ⟨fun c hc ho => g5 c (i1 c hc ho) fun hs => hu (ho ▸ (g4 c hs).1), ?_⟩
    have e := g3 owner
    have z : worth owner (spentFrom L ins) = 0 := by
      have : (spentFrom L ins).filter (fun c => c.owner = owner) = [] := by
        rw [List.filter_eq_nil_iff]
        intro c hc hch
        exact hu (by simpa [of_decide_eq_true hch] using (g4 c hc).1)
      simp [worth, coinTotal, this]
    omega

/-- **C139**: no coin disappears in a history except as an input of a transaction that was printed by a run to which a private key of its owner was given and whose input
file listed it. -/
theorem C139_accounted (W : X.Laws) (L0 L : List Coin) (us : List Use) (txs : List (List RawIn × List RawOut)) (caps : Nat)
    (h : History X L0 L us txs caps) (hD : Distinct L0) (hN : NewIds X L0 txs) (c : Coin) (hc : c ∈ L0) :
    c ∈ L ∨ ∃ u ∈ us, HoldsKey X u c.owner ∧ Listed X u c ∧ ∃ ins outs, Prints X u ins outs ∧ (ins, outs) ∈ txs ∧ c.point ∈ ins.map RawIn.point := by
  induction h with
  | start => exact .inl hc
  | @step L L' us txs caps cap u ins outs h1 h2 h3 h4 h5 ih =>
    rcases ih (NewIds.pre hN) with i1 | ⟨u', m1, m2, m3, ins', outs', m4, m5, m6⟩
    · have I := history_inv W h1 hD (NewIds.pre hN)
      obtain ⟨_, _, _, _, _, _, g4, g5, _⟩ := step_worth W I.distinct h2 h4 h5
      by_cases hs : c ∈ spentFrom L ins
      · right
        refine ⟨u, List.mem_append_right _ (List.mem_singleton.2 rfl), (g4 c hs).1, (g4 c hs).2, ins, outs, h4, List.mem_append_right _ (List.mem_singleton.2 rfl), ?_⟩
        simpa [spentFrom] using (List.mem_filter.1 hs).2
      · exact .inl (g5 c i1 hs)
    · exact .inr ⟨u', List.mem_append_left _ m1, m2, m3, ins', outs', m4, List.mem_append_left _ m5, m6⟩

end BT
