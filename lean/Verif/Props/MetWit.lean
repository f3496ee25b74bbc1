import Verif.Props.Sweep
import Verif.Props.WealthWit

/-!
# Requests in good order (witness for C140, C141)

Three coins of 190000 together; the payments and the fee are parameters.
-/

namespace BT.LedgerWit
open BT BT.Spec BT.Concrete

attribute [local irreducible] LedgerWit.unhex LedgerWit.cutTx LedgerWit.ownerOf

def insF : List PVal := [inD 1 'a' (.int 3) py"0.0007", inD 2 'b' (.str py"0") py"0.0003", inD 1 'c' (.int 1) py"0.0009"]
def outsF : List PVal := [outD 2 py"0.0005", outD 1 py"0.0006"]
def argsF (os : List PVal) (k : Int) : Args := argsOf insF os [(py"fee", .int k)]
def designF (os : List PVal) (k : Int) : PVal := asPVal (argsF os k).design
def paymentsF : List Payment := [⟨50000, ownerOf 2⟩, ⟨60000, ownerOf 1⟩]

def diskF (os : List PVal) (k : Int) : FS where
  read f :=
    if f = py"inputs.json" then .ok (Xtoy.jsonDumps (.list insF))
    else if f = py"design.json" then .ok (Xtoy.jsonDumps (designF os k))
    else if f = py"b.txt" then .ok (hex32 2 ++ py"\n")
    else .error .osError
  listDir _ := .error .osError

def runF : RawArgs :=
  { task := py"create_transaction", privateKeyHex := [[hex32 1]], privateKeyFile := [[py"b.txt"]], inputFile := some py"inputs.json",
    designFile := some py"design.json" }

def useF (os : List PVal) (k : Int) : Use := ⟨diskF os k, shell0, .ok (), runF⟩

theorem keysF {os : List PVal} {k : Int} {key : Str} (h : KeyGiven Xtoy (useF os k).fs (useF os k).args key) : key = hex32 1 ∨ key = hex32 2 := by
  rcases h with ⟨l, hl, h⟩ | ⟨l, hl, f, hf, s, hs, rfl⟩ | ⟨d, names, h1, _⟩
  · simp only [useF, runF, List.mem_singleton] at hl
    subst hl
    exact .inl (List.mem_singleton.1 h)
  · simp only [useF, runF, List.mem_singleton] at hl
    subst hl
    obtain rfl := List.mem_singleton.1 hf
    have : (Except.ok (hex32 2 ++ py"\n") : R Str) = .ok s := hs
    injection this with this; subst this
    right; decide +kernel
  · simp [useF, runF] at h1

theorem valid_keys : ((Xtoy.validateKey (hex32 1)).isOk && (Xtoy.validateKey (hex32 2)).isOk && isHexStr (hex32 1) && isHexStr (hex32 2) && decide ((hex32 1).length = 64) &&
    decide ((hex32 2).length = 64)) = true := by decide +kernel

theorem hash_facts2 : hashOf (hex32 2) = some (ownerOf 2) := by decide +kernel

theorem nonzero_facts : (∃ x ∈ ownerOf 1, x ≠ 0) ∧ (∃ x ∈ ownerOf 2, x ≠ 0) ∧ ∃ x ∈ ownerOf 3, x ≠ 0 := by decide +kernel

theorem distinct_owners : (paymentsF.map Payment.owner).Nodup := by decide +kernel

/-- the request is in good order, whatever the fee -/
theorem orderF (os : List PVal) (ps : List Payment) (k : Int) (h0 : 0 < k) (h1 : k ≤ 2100000000000000) (hos : List.Forall₂ (Payment.Described Xtoy) os ps)
    (ht : ∀ p ∈ os, TidyOutput p) (hj : (designF os k).jsonSafe = true) (hp : ∀ d ∈ ps, 0 < d.sat ∧ NotZero d.owner) (hne : ps ≠ []) (hl : ps.length ≤ 251)
    (hm : payTotal ps ≤ 2100000000000000) : Order Xtoy (useF os k) ledger0 ps (designF os k) 250000 100 where
  task := .inl rfl
  setup := rfl
  data := by intro f hf; simp [useF, runF] at hf
  inputs := by
    refine ⟨py"inputs.json", _, insF, rfl, by decide, rfl, Xtoy.json_round _ (by rfl), .cons describedA (.cons describedB (.cons describedC .nil)), ?_⟩
    intro p hp
    have ha : ∀ s ∈ [py"0.0007", py"0.0003", py"0.0009"], ∀ c ∈ s, c.toNat < 128 := by decide
    simp only [insF, List.mem_cons, List.not_mem_nil, or_false] at hp
    rcases hp with rfl | rfl | rfl <;> refine ⟨⟨_, rfl, List.Perm.refl _⟩, fun s hs => ha s ?_⟩
    · have : some (PVal.str py"0.0007") = some (.str s) := hs
      injection this with this; injection this with this; subst this; simp
    · have : some (PVal.str py"0.0003") = some (.str s) := hs
      injection this with this; injection this with this; subst this; simp
    · have : some (PVal.str py"0.0009") = some (.str s) := hs
      injection this with this; injection this with this; subst this; simp
  outputs := ⟨py"design.json", _, os, rfl, by decide, rfl, Xtoy.json_round _ hj, rfl, hos, ht⟩
  change := ⟨toyAddr 3, ownerOf 3, rfl, owner3, nonzero_facts.2.2⟩
  settings := by
    have hn : numeral Xtoy.uni (py"100" ++ py"00") = 10000 := by decide +kernel
    exact ⟨⟨_, rfl, .inl rfl⟩, ⟨_, rfl, .inr ⟨py"100", py"00", by decide, .inl ⟨rfl, by decide⟩, by decide +kernel, by rw [hn]; norm_num⟩⟩, le_refl _, .inl rfl,
      .inl ⟨_, k, rfl, .inl rfl, h0, h1, rfl⟩⟩
  coin_ok := by
    intro c hc
    simp only [ledger0, List.mem_cons, List.not_mem_nil, or_false] at hc
    rcases hc with rfl | rfl | rfl
    exacts [⟨by decide, by decide, nonzero_facts.1⟩, ⟨by decide, by decide, nonzero_facts.2.1⟩, ⟨by decide, by decide, nonzero_facts.1⟩]
  pay_ok := hp
  some_pay := hne
  few := ⟨by decide, hl⟩
  money := ⟨by show coinTotal ledger0 ≤ _; simp [coinTotal, ledger0, coinA, coinB, coinC], hm⟩
  readable := by
    refine ⟨fun l hl f hf => ?_, fun d hd => by simp [useF, runF] at hd⟩
    simp only [useF, runF, List.mem_singleton] at hl
    subst hl
    obtain rfl := List.mem_singleton.1 hf
    exact ⟨_, rfl⟩
  keys_ok := by
    have h := valid_keys
    simp only [Bool.and_eq_true, decide_eq_true_eq] at h
    obtain ⟨⟨⟨⟨⟨v1, v2⟩, v3⟩, v4⟩, v5⟩, v6⟩ := h
    intro key hk
    rcases keysF hk with rfl | rfl
    · obtain ⟨_, hv⟩ := isOk_exists v1; exact ⟨isHexStr_iff.1 v3, v5, hv⟩
    · obtain ⟨_, hv⟩ := isOk_exists v2; exact ⟨isHexStr_iff.1 v4, v6, hv⟩

/-- the given keys can sign -/
theorem canSignF (os : List PVal) (k : Int) : CanSign Xtoy (useF os k) := by
  have h := valid_keys
  simp only [Bool.and_eq_true, decide_eq_true_eq] at h
  obtain ⟨⟨⟨⟨⟨v1, v2⟩, _⟩, _⟩, _⟩, _⟩ := h
  intro key d hk h2 h3
  rcases keysF hk with rfl | rfl
  · obtain ⟨_, hv⟩ := isOk_exists v1; exact Xtoy_signTotal.sign_ok _ d hv (isHexStr_iff.2 h2) h3
  · obtain ⟨_, hv⟩ := isOk_exists v2; exact Xtoy_signTotal.sign_ok _ d hv (isHexStr_iff.2 h2) h3

theorem keyOf_hash {key : Str} {h : Bytes} (e : hashOf key = some h) : KeyOf Xtoy key h := by
  unfold hashOf at e
  cases hp : Xtoy.pubKey key with
  | error _ => simp [hp] at e
  | ok s =>
    obtain ⟨p1, _⟩ := Xtoy_laws.pub_shape _ _ hp
    obtain ⟨b, rfl⟩ := isHex_exists (isHexStr_iff.1 p1)
    simp only [hp, fromHex_hex, Option.some.injEq] at e
    exact ⟨b, hp, e⟩

/-- every coin has its key -/
theorem holdsF (os : List PVal) (k : Int) : ∀ c ∈ ledger0, HoldsKey Xtoy (useF os k) c.owner := by
  have g1 : HoldsKey Xtoy (useF os k) (ownerOf 1) := ⟨hex32 1, .inl ⟨_, List.mem_singleton.2 rfl, List.mem_singleton.2 rfl⟩, keyOf_hash hash_facts.1⟩
  have g2 : HoldsKey Xtoy (useF os k) (ownerOf 2) := by
    refine ⟨hex32 2, .inr (.inl ⟨_, List.mem_singleton.2 rfl, _, List.mem_singleton.2 rfl, hex32 2 ++ py"\n", rfl, by decide +kernel⟩), keyOf_hash hash_facts2⟩
  intro c hc
  simp only [ledger0, List.mem_cons, List.not_mem_nil, or_false] at hc
  rcases hc with rfl | rfl | rfl
  exacts [g1, g2, g1]

/-- the fee is certain -/
theorem feeF (os : List PVal) (k : Int) (h0 : 0 < k) (n m : Nat) (f : Int) : DesignFee Xtoy (designF os k) n m f ↔ f = k := by
  constructor
  · rintro (⟨v, h1, h2, _⟩ | ⟨h1, _⟩)
    · have : some (PVal.int k) = some v := h1
      injection this with this; subst this
      rcases h2 with h2 | ⟨s, h2, _⟩
      · injection h2 with h2; exact h2.symm
      · simp at h2
    · have := h1 (.int k) k rfl (.inl rfl)
      omega
  · rintro rfl
    exact .inl ⟨_, rfl, .inl rfl, by omega⟩

theorem tidyF : ∀ p ∈ outsF, TidyOutput p := by
  intro p hp
  have ha : ∀ s ∈ [py"0.0005", py"0.0006"], ∀ c ∈ s, c.toNat < 128 := by decide
  simp only [outsF, List.mem_cons, List.not_mem_nil, or_false] at hp
  rcases hp with rfl | rfl <;> refine ⟨⟨_, rfl, List.Perm.refl _⟩, fun s hs => ha s ?_⟩
  · have : some (PVal.str py"0.0005") = some (.str s) := hs
    injection this with this; injection this with this; subst this; simp
  · have : some (PVal.str py"0.0006") = some (.str s) := hs
    injection this with this; injection this with this; subst this; simp

theorem orderF2 (k : Int) (h0 : 0 < k) (h1 : k ≤ 2100000000000000) : Order Xtoy (useF outsF k) ledger0 paymentsF (designF outsF k) 250000 100 := by
  refine orderF outsF paymentsF k h0 h1 (.cons ⟨⟨_, rfl, amt5⟩, _, rfl, owner2⟩ (.cons ⟨⟨_, rfl, amt6⟩, _, rfl, owner1⟩ .nil)) tidyF (by rfl) ?_ (by simp [paymentsF]) (by decide)
    (by simp [payTotal, paymentsF])
  intro c hc
  simp only [paymentsF, List.mem_cons, List.not_mem_nil, or_false] at hc
  rcases hc with rfl | rfl
  exacts [⟨by decide, nonzero_facts.2.1⟩, ⟨by decide, nonzero_facts.1⟩]

/-- C140 applied: the program succeeds for a fee of up to 80000 and fails for every greater fee -/
theorem met_example (k : Int) (h0 : 0 < k) (h1 : k ≤ 2100000000000000) :
    exitStatus (cliRun Xtoy (useF outsF k).fs (useF outsF k).sh (useF outsF k).setup (useF outsF k).args) = 0 ↔ k ≤ 80000 := by
  rw [C140_exactly Xtoy_laws (useF outsF k) ledger0 paymentsF (designF outsF k) 250000 (orderF2 k h0 h1) (canSignF _ k) (holdsF _ k) k (feeF _ k h0 _ _)]
  have e1 : payTotal paymentsF = 110000 := rfl
  have e2 : coinTotal ledger0 = 190000 := rfl
  rw [e1, e2]
  exact ⟨fun h => by have := h.2.1; push_cast at this; omega, fun h => ⟨distinct_owners, by push_cast; omega, by push_cast; omega⟩⟩

theorem amt189 : AmountOf Xtoy.uni py"0.00189" 189000 := ⟨py"0", py"00189", .inl rfl, by decide, by decide, by decide +kernel, by decide +kernel⟩

/-- C141 applied: all three coins become one coin of the second owner -/
theorem sweep_example : ∃ ins outs, Prints Xtoy (useF [outD 2 py"0.00189"] 1000) ins outs ∧ Valid Xtoy ledger0 ins outs ∧
    ∀ L', Applied Xtoy ledger0 ins outs L' ↔ L' = [⟨idOf Xtoy (txBytes ins outs), 0, 189000, ownerOf 2⟩] := by
  have O : Order Xtoy (useF [outD 2 py"0.00189"] 1000) ledger0 [⟨189000, ownerOf 2⟩] (designF [outD 2 py"0.00189"] 1000) 250000 100 := by
    refine orderF _ _ 1000 (by norm_num) (by norm_num) (.cons ⟨⟨_, rfl, amt189⟩, _, rfl, owner2⟩ .nil) ?_ (by rfl) ?_ (by simp) (by decide) (by simp [payTotal])
    · intro p hp
      obtain rfl := List.mem_singleton.1 hp
      refine ⟨⟨_, rfl, List.Perm.refl _⟩, fun s hs => ?_⟩
      have : some (PVal.str py"0.00189") = some (.str s) := hs
      injection this with this; injection this with this; subst this; decide
    · intro d hd
      obtain rfl := List.mem_singleton.1 hd
      exact ⟨by decide, nonzero_facts.2.1⟩
  obtain ⟨ins, outs, h1, h2, h3⟩ := C141_sweep Xtoy_laws ledger0 ledger0 _ 189000 (ownerOf 2) _ 250000 1000 O (canSignF _ _) (holdsF _ _) ledger0_distinct (List.Perm.refl _).subperm
    (feeF _ 1000 (by norm_num) _ _) (by norm_num) rfl
  refine ⟨ins, outs, h1, h2, fun L' => ?_⟩
  rw [h3 L']
  have : (ledger0.filter fun c => c.point ∉ ledger0.map Coin.point) = [] := by
    rw [List.filter_eq_nil_iff]
    intro c hc hn
    exact (of_decide_eq_true hn) (List.mem_map_of_mem hc)
  rw [this]

end BT.LedgerWit
