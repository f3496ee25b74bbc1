import Verif.Props.LedgerWit

/-!
# The owners in the first run of the sample history (witness for C138, C139)
-/

namespace BT.LedgerWit
open BT BT.Spec BT.Concrete

attribute [local irreducible] LedgerWit.unhex LedgerWit.cutTx LedgerWit.ownerOf

/-- the first run asks for two payments, with the change to key 3 -/
theorem asks1 : AsksFor Xtoy use1 [⟨50000, ownerOf 2⟩, ⟨60000, ownerOf 1⟩] (ownerOf 3) :=
  ⟨py"design.json", _, asPVal argsFee.design, [outD 2 py"0.0005", outD 1 py"0.0006"], toyAddr 3, rfl, rfl, Xtoy.json_round _ (by rfl), rfl,
    .cons ⟨⟨_, rfl, amt5⟩, _, rfl, owner2⟩ (.cons ⟨⟨_, rfl, amt6⟩, _, rfl, owner1⟩ .nil), rfl, owner3⟩

/-- the hash of the public key of a private key -/
def hashOf (key : Str) : Option Bytes :=
  match Xtoy.pubKey key with
  | .ok s => match fromHex s with
    | .ok pk => some (Xtoy.ripemd160 (Xtoy.sha256 (4 :: pk)))
    | _ => none
  | _ => none

theorem hashOf_of {key : Str} {h : Bytes} (k : KeyOf Xtoy key h) : hashOf key = some h := by
  obtain ⟨pk, h1, rfl⟩ := k
  simp only [hashOf, h1, fromHex_hex]

theorem keys_given {key : Str} (h : KeyGiven Xtoy use1.fs use1.args key) : key = hex32 1 ∨ key = hex32 2 := by
  rcases h with ⟨l, hl, _⟩ | ⟨l, hl, _⟩ | ⟨d, names, h1, _, h2, n, hn, ht, s, hs, rfl⟩
  · simp [use1, runCreate] at hl
  · simp [use1, runCreate] at hl
  · have e1 : d = py"keys" := by simpa [use1, runCreate, eq_comm] using h1
    subst e1
    have e2 : names = order1 := by
      have : (Except.ok order1 : R (List Str)) = .ok names := h2
      injection this with this; exact this.symm
    subst e2
    simp only [order1, List.mem_cons, List.not_mem_nil, or_false] at hn
    rcases hn with rfl | rfl | rfl | rfl
    · left
      have : (Except.ok (hex32 1 ++ py"\n") : R Str) = .ok s := hs
      injection this with this; subst this; decide +kernel
    · exact absurd ht (by decide)
    · right
      have : (Except.ok (py" " ++ hex32 2 ++ py"\r\n") : R Str) = .ok s := hs
      injection this with this; subst this; decide +kernel
    · exact absurd ht (by decide)

theorem hash_facts : hashOf (hex32 1) = some (ownerOf 1) ∧ hashOf (hex32 1) ≠ some (ownerOf 3) ∧ hashOf (hex32 2) ≠ some (ownerOf 3) := by decide +kernel

/-- the owner of the change address has no part in the first run -/
theorem bystander3 : ¬ HoldsKey Xtoy use1 (ownerOf 3) := by
  rintro ⟨key, h1, h2⟩
  rcases keys_given h1 with rfl | rfl
  exacts [hash_facts.2.1 (hashOf_of h2), hash_facts.2.2 (hashOf_of h2)]

theorem pub1 : ∃ pk, Xtoy.pubKey (hex32 1) = .ok (hex pk) := by
  have h : hashOf (hex32 1) ≠ none := by rw [hash_facts.1]; simp
  obtain ⟨s, hs⟩ : ∃ s, Xtoy.pubKey (hex32 1) = .ok s := by
    cases e : Xtoy.pubKey (hex32 1) with
    | ok s => exact ⟨s, rfl⟩
    | error _ => simp [hashOf, e] at h
  obtain ⟨p1, _⟩ := Xtoy_laws.pub_shape _ _ hs
  obtain ⟨b, rfl⟩ := isHex_exists (isHexStr_iff.1 p1)
  exact ⟨b, hs⟩

/-- a key of the first owner was given -/
theorem holds1 : HoldsKey Xtoy use1 (ownerOf 1) := by
  obtain ⟨pk, h⟩ := pub1
  refine ⟨hex32 1, .inr (.inr ⟨py"keys", order1, rfl, by decide, rfl, py"a.txt", List.mem_cons_self .., by decide, hex32 1 ++ py"\n", rfl, by decide +kernel⟩), pk, h, ?_⟩
  have := hash_facts.1
  simp only [hashOf, h, fromHex_hex, Option.some.injEq] at this
  exact this

/-- after the first run: owner 1 has lost 160000 and got 60000, owner 2 got 50000, owner 3 the change, and 1000 is the fee -/
theorem worth_facts : worth (ownerOf 1) ledger0 = 160000 ∧ worth (ownerOf 1) ledger1 = 60000 ∧ worth (ownerOf 2) ledger0 = 30000 ∧ worth (ownerOf 2) ledger1 = 80000 ∧
    worth (ownerOf 3) ledger0 = 0 ∧ worth (ownerOf 3) ledger1 = 49000 ∧ coinTotal ledger0 = 190000 ∧ coinTotal ledger1 = 189000 := by decide +kernel

/-- the hypotheses of C138 are met -/
theorem everybody_example : Distinct ledger0 ∧ ListsCoins Xtoy use1.fs use1.args ledger0 ∧ AsksFor Xtoy use1 [⟨50000, ownerOf 2⟩, ⟨60000, ownerOf 1⟩] (ownerOf 3) ∧
    Prints Xtoy use1 tx1.1 tx1.2 ∧ Applied Xtoy ledger0 tx1.1 tx1.2 ledger1 := by
  obtain ⟨a1, a2, a3, _, _, _, p1, _⟩ := history_check
  exact ⟨ledger0_distinct, lists1, asks1, ⟨.inl rfl, a1, a2, a3⟩, _, payments_made p1, rfl⟩

/-- the hypotheses of C139 are met: a history in which no key of owner 3 is given -/
theorem bystander_example : History Xtoy ledger0 ledger1 [use1] [tx1] 250000 ∧ NewIds Xtoy ledger0 [tx1] ∧ ∀ u ∈ [use1], ¬ HoldsKey Xtoy u (ownerOf 3) := by
  obtain ⟨_, _, _, hp, ha⟩ := everybody_example
  obtain ⟨_, _, _, _, _, _, _, _, _, _, _, n1, _⟩ := history_check
  have := History.step (.start (X := Xtoy) (L0 := ledger0)) lists1 cap1 hp ha
  refine ⟨by simpa using this, ⟨fun t ht c hc => ?_, fun t ht t' ht' _ => ?_⟩, fun u hu => ?_⟩
  · rw [List.mem_singleton.1 ht]; exact (n1 c hc).1
  · rw [List.mem_singleton.1 ht, List.mem_singleton.1 ht']
  · rw [List.mem_singleton.1 hu]; exact bystander3

end BT.LedgerWit
