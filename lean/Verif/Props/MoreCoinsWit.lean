import Verif.Props.MoreCoins
import Verif.Props.MetWit

/-!
# A further coin that hurts (C144)
-/

namespace BT.LedgerWit
open BT BT.Spec BT.Concrete

attribute [local irreducible] LedgerWit.unhex LedgerWit.cutTx LedgerWit.ownerOf

def designG (os : List PVal) (kv : Str × PVal) : PVal := asPVal (argsOf [] os [kv]).design

def diskG (is os : List PVal) (kv : Str × PVal) : FS where
  read f :=
    if f = py"inputs.json" then .ok (Xtoy.jsonDumps (.list is))
    else if f = py"design.json" then .ok (Xtoy.jsonDumps (designG os kv))
    else if f = py"b.txt" then .ok (hex32 2 ++ py"\n")
    else .error .osError
  listDir _ := .error .osError

def useG (is os : List PVal) (kv : Str × PVal) : Use := ⟨diskG is os kv, shell0, .ok (), runF⟩

theorem keysG {is os : List PVal} {kv : Str × PVal} {key : Str} (h : KeyGiven Xtoy (useG is os kv).fs (useG is os kv).args key) : key = hex32 1 ∨ key = hex32 2 := by
  rcases h with ⟨l, hl, h⟩ | ⟨l, hl, f, hf, s, hs, rfl⟩ | ⟨d, names, h1, _⟩
  · simp only [useG, runF, List.mem_singleton] at hl
    subst hl
    exact .inl (List.mem_singleton.1 h)
  · simp only [useG, runF, List.mem_singleton] at hl
    subst hl
    obtain rfl := List.mem_singleton.1 hf
    have : (Except.ok (hex32 2 ++ py"\n") : R Str) = .ok s := hs
    injection this with this; subst this
    right; decide +kernel
  · simp [useG, runF] at h1

/-- the coins and the way they are written in the input file -/
def Listed (is : List PVal) (cs : List Coin) : Prop :=
  List.Forall₂ (fun p c => (p = inD 1 'a' (.int 3) py"0.0007" ∧ c = coinA) ∨ (p = inD 2 'b' (.str py"0") py"0.0003" ∧ c = coinB) ∨
    (p = inD 1 'c' (.int 1) py"0.0009" ∧ c = coinC)) is cs

theorem listed_described {is : List PVal} {cs : List Coin} (h : Listed is cs) : List.Forall₂ (Coin.Described Xtoy) is cs ∧ (∀ p ∈ is, TidyInput p) ∧
    (∀ c ∈ cs, c = coinA ∨ c = coinB ∨ c = coinC) ∧ (∀ p ∈ is, p.jsonSafe = true) := by
  have ha : ∀ s ∈ [py"0.0007", py"0.0003", py"0.0009"], ∀ c ∈ s, c.toNat < 128 := by decide
  induction h with
  | nil => exact ⟨.nil, by simp, by simp, by simp⟩
  | @cons p c is cs h _ ih =>
    obtain ⟨i1, i2, i3, i4⟩ := ih
    have key : c.Described Xtoy p ∧ TidyInput p ∧ (c = coinA ∨ c = coinB ∨ c = coinC) ∧ p.jsonSafe = true := by
      rcases h with ⟨rfl, rfl⟩ | ⟨rfl, rfl⟩ | ⟨rfl, rfl⟩
      · refine ⟨describedA, ⟨⟨_, rfl, List.Perm.refl _⟩, fun s hs => ha s ?_⟩, .inl rfl, by rfl⟩
        have : some (PVal.str py"0.0007") = some (.str s) := hs
        injection this with this; injection this with this; subst this; simp
      · refine ⟨describedB, ⟨⟨_, rfl, List.Perm.refl _⟩, fun s hs => ha s ?_⟩, .inr (.inl rfl), by rfl⟩
        have : some (PVal.str py"0.0003") = some (.str s) := hs
        injection this with this; injection this with this; subst this; simp
      · refine ⟨describedC, ⟨⟨_, rfl, List.Perm.refl _⟩, fun s hs => ha s ?_⟩, .inr (.inr rfl), by rfl⟩
        have : some (PVal.str py"0.0009") = some (.str s) := hs
        injection this with this; injection this with this; subst this; simp
    refine ⟨.cons key.1 i1, ?_, ?_, ?_⟩ <;> intro x hx <;> rcases List.mem_cons.1 hx with rfl | hx
    exacts [key.2.1, i2 x hx, key.2.2.1, i3 x hx, key.2.2.2, i4 x hx]

/-- requests in good order -/
theorem orderG (is os : List PVal) (cs : List Coin) (ps : List Payment) (kv : Str × PVal) (hl : Listed is cs) (hsafe : (PVal.list is).jsonSafe = true)
    (hset : Settings Xtoy (designG os kv) 250000 100 cs.length ps.length) (hout : entry (designG os kv) py"outputs" = some (.list os))
    (hca : entry (designG os kv) py"change_address" = some (.str (toyAddr 3)))
    (hos : List.Forall₂ (Payment.Described Xtoy) os ps) (ht : ∀ p ∈ os, TidyOutput p) (hj : (designG os kv).jsonSafe = true)
    (hp : ∀ d ∈ ps, 0 < d.sat ∧ NotZero d.owner) (hne : ps ≠ []) (hn : cs.length ≤ 252 ∧ ps.length ≤ 251)
    (hm : coinTotal cs ≤ 2100000000000000 ∧ payTotal ps ≤ 2100000000000000) : Order Xtoy (useG is os kv) cs ps (designG os kv) 250000 100 where
  task := .inl rfl
  setup := rfl
  data := by intro f hf; simp [useG, runF] at hf
  inputs := ⟨py"inputs.json", _, is, rfl, by decide, rfl, Xtoy.json_round _ hsafe, (listed_described hl).1, (listed_described hl).2.1⟩
  outputs := ⟨py"design.json", _, os, rfl, by decide, rfl, Xtoy.json_round _ hj, hout, hos, ht⟩
  change := ⟨toyAddr 3, ownerOf 3, hca, owner3, nonzero_facts.2.2⟩
  settings := hset
  coin_ok := by
    intro c hc
    rcases (listed_described hl).2.2.1 c hc with rfl | rfl | rfl
    exacts [⟨by decide, by decide, nonzero_facts.1⟩, ⟨by decide, by decide, nonzero_facts.2.1⟩, ⟨by decide, by decide, nonzero_facts.1⟩]
  pay_ok := hp
  some_pay := hne
  few := hn
  money := hm
  readable := by
    refine ⟨fun l hl f hf => ?_, fun d hd => by simp [useG, runF] at hd⟩
    simp only [useG, runF, List.mem_singleton] at hl
    subst hl
    obtain rfl := List.mem_singleton.1 hf
    exact ⟨_, rfl⟩
  keys_ok := by
    have h := valid_keys
    simp only [Bool.and_eq_true, decide_eq_true_eq] at h
    obtain ⟨⟨⟨⟨⟨v1, v2⟩, v3⟩, v4⟩, v5⟩, v6⟩ := h
    intro key hk
    rcases keysG hk with rfl | rfl
    · obtain ⟨_, hv⟩ := isOk_exists v1; exact ⟨isHexStr_iff.1 v3, v5, hv⟩
    · obtain ⟨_, hv⟩ := isOk_exists v2; exact ⟨isHexStr_iff.1 v4, v6, hv⟩

theorem canSignG (is os : List PVal) (kv : Str × PVal) : CanSign Xtoy (useG is os kv) := by
  have h := valid_keys
  simp only [Bool.and_eq_true, decide_eq_true_eq] at h
  obtain ⟨⟨⟨⟨⟨v1, v2⟩, _⟩, _⟩, _⟩, _⟩ := h
  intro key d hk h2 h3
  rcases keysG hk with rfl | rfl
  · obtain ⟨_, hv⟩ := isOk_exists v1; exact Xtoy_signTotal.sign_ok _ d hv (isHexStr_iff.2 h2) h3
  · obtain ⟨_, hv⟩ := isOk_exists v2; exact Xtoy_signTotal.sign_ok _ d hv (isHexStr_iff.2 h2) h3

theorem holdsG {is os : List PVal} {cs : List Coin} (kv : Str × PVal) (hl : Listed is cs) : ∀ c ∈ cs, HoldsKey Xtoy (useG is os kv) c.owner := by
  have g1 : HoldsKey Xtoy (useG is os kv) (ownerOf 1) := ⟨hex32 1, .inl ⟨_, List.mem_singleton.2 rfl, List.mem_singleton.2 rfl⟩, keyOf_hash hash_facts.1⟩
  have g2 : HoldsKey Xtoy (useG is os kv) (ownerOf 2) := by
    refine ⟨hex32 2, .inr (.inl ⟨_, List.mem_singleton.2 rfl, _, List.mem_singleton.2 rfl, hex32 2 ++ py"\n", rfl, by decide +kernel⟩), keyOf_hash hash_facts2⟩
  intro c hc
  rcases (listed_described hl).2.2.1 c hc with rfl | rfl | rfl
  exacts [g1, g2, g1]

/-- a payment of 40000 satoshi at 200 satoshi per byte -/
def outsG : List PVal := [outD 2 py"0.0004"]
def rateG : Str × PVal := (py"fee_rate", .int 200)
def paymentG : List Payment := [⟨40000, ownerOf 2⟩]

theorem amt4 : AmountOf Xtoy.uni py"0.0004" 40000 := ⟨py"0", py"0004", .inl rfl, by decide, by decide, by decide +kernel, by decide +kernel⟩

theorem settingsG (kv : Str × PVal) (n : Nat) (h1 : entry (designG outsG kv) py"max_fee" = some (.int 250000))
    (h2 : entry (designG outsG kv) py"max_spend_percentage" = some (.str py"100.00")) (h3 : entry (designG outsG kv) py"input_selection_approaches" = none)
    (h4 : (∃ v k, entry (designG outsG kv) py"fee" = some v ∧ NumberOf Xtoy.uni v k ∧ 0 < k ∧ k ≤ 2100000000000000 ∧ entry (designG outsG kv) py"fee_rate" = none) ∨
      (∃ v q, entry (designG outsG kv) py"fee" = none ∧ entry (designG outsG kv) py"fee_rate" = some v ∧ GoodRate Xtoy.uni v q ∧ (estSize n 1 : ℚ) * q ≤ 2099999999999999)) :
    Settings Xtoy (designG outsG kv) 250000 100 n 1 := by
  have hn : numeral Xtoy.uni (py"100" ++ py"00") = 10000 := by decide +kernel
  exact ⟨⟨_, h1, .inl rfl⟩, ⟨_, h2, .inr ⟨py"100", py"00", by decide, .inl ⟨rfl, by decide⟩, by decide +kernel, by rw [hn]; norm_num⟩⟩, le_refl _, .inl h3, h4⟩

theorem order_of (is : List PVal) (cs : List Coin) (kv : Str × PVal) (hl : Listed is cs) (hsafe : (PVal.list is).jsonSafe = true)
    (hset : Settings Xtoy (designG outsG kv) 250000 100 cs.length 1) (hout : entry (designG outsG kv) py"outputs" = some (.list outsG))
    (hca : entry (designG outsG kv) py"change_address" = some (.str (toyAddr 3))) (hj : (designG outsG kv).jsonSafe = true) (hn : cs.length ≤ 252)
    (hm : coinTotal cs ≤ 2100000000000000) : Order Xtoy (useG is outsG kv) cs paymentG (designG outsG kv) 250000 100 := by
  refine orderG is outsG cs paymentG kv hl hsafe hset hout hca (.cons ⟨⟨_, rfl, amt4⟩, _, rfl, owner2⟩ .nil) ?_ hj ?_ (by simp [paymentG]) ⟨hn, by decide⟩
    ⟨hm, by simp [payTotal, paymentG]⟩
  · intro p hp
    obtain rfl := List.mem_singleton.1 hp
    refine ⟨⟨_, rfl, List.Perm.refl _⟩, fun s hs => ?_⟩
    have : some (PVal.str py"0.0004") = some (.str s) := hs
    injection this with this; injection this with this; subst this; decide
  · intro d hd
    obtain rfl := List.mem_singleton.1 hd
    exact ⟨by decide, nonzero_facts.2.1⟩

def isC : List PVal := [inD 1 'c' (.int 1) py"0.0009"]
def isCB : List PVal := [inD 1 'c' (.int 1) py"0.0009", inD 2 'b' (.str py"0") py"0.0003"]
def isCA : List PVal := [inD 1 'c' (.int 1) py"0.0009", inD 1 'a' (.int 3) py"0.0007"]

theorem listC : Listed isC [coinC] := .cons (.inr (.inr ⟨rfl, rfl⟩)) .nil
theorem listCB : Listed isCB [coinC, coinB] := .cons (.inr (.inr ⟨rfl, rfl⟩)) (.cons (.inr (.inl ⟨rfl, rfl⟩)) .nil)
theorem listCA : Listed isCA [coinC, coinA] := .cons (.inr (.inr ⟨rfl, rfl⟩)) (.cons (.inl ⟨rfl, rfl⟩) .nil)

theorem orderRate (is : List PVal) (cs : List Coin) (hl : Listed is cs) (hsafe : (PVal.list is).jsonSafe = true) (hn : cs.length ≤ 252) (hm : coinTotal cs ≤ 2100000000000000) :
    Order Xtoy (useG is outsG rateG) cs paymentG (designG outsG rateG) 250000 100 := by
  refine order_of is cs rateG hl hsafe (settingsG rateG _ rfl rfl rfl (.inr ⟨_, 200, rfl, rfl, .inl ⟨200, rfl, by norm_num⟩, ?_⟩)) rfl rfl (by rfl) hn hm
  have : (cs.length : ℚ) ≤ 252 := by exact_mod_cast hn
  unfold estSize; push_cast; linarith

theorem wholeG : WholeRate Xtoy (designG outsG rateG) 200 := ⟨rfl, rfl⟩

/-- the coin of 90000 alone is enough -/
theorem alone : exitStatus (cliRun Xtoy (useG isC outsG rateG).fs (useG isC outsG rateG).sh (useG isC outsG rateG).setup (useG isC outsG rateG).args) = 0 := by
  rw [C140_exactly Xtoy_laws _ [coinC] paymentG _ 250000 (orderRate isC _ listC (by rfl) (by decide) (by decide)) (canSignG _ _ _) (holdsG _ listC) 44600
    (by intro f; rw [MoreCoins.fee_rate wholeG]; rfl)]
  exact ⟨by simp [paymentG], by decide, by decide⟩

/-- with a further coin of 30000 the program refuses -/
theorem with_more : exitStatus (cliRun Xtoy (useG isCB outsG rateG).fs (useG isCB outsG rateG).sh (useG isCB outsG rateG).setup (useG isCB outsG rateG).args) = 1 :=
  (C140_refused Xtoy_laws _ [coinC, coinB] paymentG _ 250000 100 (orderRate isCB _ listCB (by rfl) (by decide) (by decide))
    (.inr fun f hf => by rw [(MoreCoins.fee_rate wholeG _ _ f).1 hf]; left; decide)).1

/-- C144_worth applied: a further coin of 70000 is worth more than 179 * 200 satoshi -/
theorem worth_example : exitStatus (cliRun Xtoy (useG isCA outsG rateG).fs (useG isCA outsG rateG).sh (useG isCA outsG rateG).setup (useG isCA outsG rateG).args) = 0 :=
  C144_worth Xtoy_laws _ _ [coinC] [coinC, coinA] [coinA] paymentG _ 250000 100 200 (orderRate isC _ listC (by rfl) (by decide) (by decide))
    (orderRate isCA _ listCA (by rfl) (by decide) (by decide)) wholeG (canSignG _ _ _) (holdsG _ listCA) (List.Perm.refl _) (by decide) (by decide) alone

def feeG : Str × PVal := (py"fee", .int 50000)

theorem orderFee (is : List PVal) (cs : List Coin) (hl : Listed is cs) (hsafe : (PVal.list is).jsonSafe = true) (hn : cs.length ≤ 252) (hm : coinTotal cs ≤ 2100000000000000) :
    Order Xtoy (useG is outsG feeG) cs paymentG (designG outsG feeG) 250000 100 :=
  order_of is cs feeG hl hsafe (settingsG feeG _ rfl rfl rfl (.inl ⟨_, 50000, rfl, .inl rfl, by norm_num, by norm_num, rfl⟩)) rfl rfl (by rfl) hn hm

theorem fixedG : FixedFee Xtoy (designG outsG feeG) 50000 := ⟨_, rfl, .inl rfl, by norm_num⟩

/-- C144_more_partial applied: with a fee of 50000 the coin of 30000 does no harm -/
theorem more_example : exitStatus (cliRun Xtoy (useG isCB outsG feeG).fs (useG isCB outsG feeG).sh (useG isCB outsG feeG).setup (useG isCB outsG feeG).args) = 0 := by
  refine C144_more_partial Xtoy_laws (useG isC outsG feeG) _ [coinC] [coinC, coinB] paymentG paymentG _ _ 250000 250000 100 50000 50000
    (orderFee isC _ listC (by rfl) (by decide) (by decide)) (orderFee isCB _ listCB (by rfl) (by decide) (by decide)) fixedG fixedG (canSignG _ _ _) (holdsG _ listCB)
    (by simp [paymentG]) (List.Sublist.subperm (by simp)) (le_refl _) (le_refl _) (le_refl _) ?_
  rw [C140_exactly Xtoy_laws _ [coinC] paymentG _ 250000 (orderFee isC _ listC (by rfl) (by decide) (by decide)) (canSignG _ _ _) (holdsG _ listC) 50000
    (MoreCoins.fee_fixed fixedG _ _)]
  exact ⟨by simp [paymentG], by decide, by decide⟩

end BT.LedgerWit

namespace BT
open Spec LedgerWit Concrete

/-- **C144 fails** with a fee rate: two requests in good order, with the same payments, the same settings, and keys for all coins, that differ only in that the second one
makes a further coin available; the first one is met, the second one is refused. -/
theorem C144_violation : ∃ (u u' : Use) (coins coins' : List Coin) (asked : List Payment) (design : PVal) (cap : Nat),
    Order Xtoy u coins asked design cap 100 ∧ Order Xtoy u' coins' asked design cap 100 ∧ coins.Subperm coins' ∧ CanSign Xtoy u' ∧ (∀ c ∈ coins', HoldsKey Xtoy u' c.owner) ∧
    exitStatus (cliRun Xtoy u.fs u.sh u.setup u.args) = 0 ∧ exitStatus (cliRun Xtoy u'.fs u'.sh u'.setup u'.args) = 1 :=
  ⟨_, _, _, _, _, _, _, orderRate isC _ listC (by rfl) (by decide) (by decide), orderRate isCB _ listCB (by rfl) (by decide) (by decide), List.Sublist.subperm (by simp),
    canSignG _ _ _, holdsG _ listCB, alone, with_more⟩

end BT
