import Verif.Props.Cli
import Verif.Props.CreateWit

/-! # The hypotheses of C59, C60, C74 and C75 are met -/

namespace BT.Concrete
open BT BT.Spec

/-- three offered inputs, two outputs, explicit fee, both keys -/
def cliFee : CliArgs :=
  { task := py"create_transaction", privateKeysHex := keys12, inputs := argsFee.inputs, design := argsFee.design }

theorem cliFee_args : cliTxArgs cliFee = argsFee := rfl

theorem cliFee_run : ∃ h, cliOneShot Xtoy cliFee = ([h], .ok ()) := by
  have h1 : ((cliOneShot Xtoy cliFee).2.isOk && (cliOneShot Xtoy cliFee).1.length == 1) = true := by decide +kernel
  rw [Bool.and_eq_true] at h1
  obtain ⟨u, hu⟩ := isOk_exists h1.1
  obtain ⟨h, hh⟩ := List.length_eq_one_iff.1 (by simpa using h1.2)
  refine ⟨h, ?_⟩
  rw [← hh, ← hu]

theorem cliFee_main : cliMain Xtoy cliFee = cliOneShot Xtoy cliFee := C59_main Xtoy cliFee (.inl rfl) rfl rfl

theorem argsFee_ascii : AsciiAmounts argsFee := by
  have e1 : argsFee.inputs = some (.list [inD 1 'a' (.int 3) py"0.0007", inD 2 'b' (.str py"0") py"0.0003", inD 1 'c' (.int 1) py"0.0009"]) := rfl
  have e2 : setting argsFee py"outputs" = some (.list [outD 2 py"0.0005", outD 1 py"0.0006"]) := by rfl
  intro l hl p hp s hs
  have hlist : ∀ s ∈ [py"0.0007", py"0.0003", py"0.0009", py"0.0005", py"0.0006"], ∀ c ∈ s, c.toNat < 128 := by decide
  apply hlist
  rcases hl with hl | hl
  · rw [e1] at hl
    injection hl with hl; injection hl with hl; subst hl
    simp only [List.mem_cons, List.not_mem_nil, or_false] at hp
    rcases hp with rfl | rfl | rfl
    · have : some (PVal.str py"0.0007") = some (.str s) := hs
      injection this with this; injection this with this; subst this; simp
    · have : some (PVal.str py"0.0003") = some (.str s) := hs
      injection this with this; injection this with this; subst this; simp
    · have : some (PVal.str py"0.0009") = some (.str s) := hs
      injection this with this; injection this with this; subst this; simp
  · rw [e2] at hl
    injection hl with hl; injection hl with hl; subst hl
    simp only [List.mem_cons, List.not_mem_nil, or_false] at hp
    rcases hp with rfl | rfl
    · have : some (PVal.str py"0.0005") = some (.str s) := hs
      injection this with this; injection this with this; subst this; simp
    · have : some (PVal.str py"0.0006") = some (.str s) := hs
      injection this with this; injection this with this; subst this; simp

/-- the hypotheses of C59, C74 and C75 are met -/
example : ∃ h t a' ts, Xtoy.Laws ∧ cliOneShot Xtoy cliFee = ([h], .ok ()) ∧ AsciiAmounts (cliTxArgs cliFee) ∧
    createTransaction Xtoy (cliTxArgs cliFee) = .ok (t, a') ∧ t.sign Xtoy cliFee.privateKeysHex none = (ts, .ok ()) := by
  obtain ⟨h, hh⟩ := cliFee_run
  obtain ⟨t, a', ts, _, _, _, h1, h2, _⟩ := C59_prints _ _ _ hh
  exact ⟨h, t, a', ts, Xtoy_laws, hh, argsFee_ascii, h1, h2⟩

/-- the signed sample with its outputs exchanged: the signatures do not match any more -/
def swapped : R Str := do
  let t ← sampleSigned Xtoy
  Tx.toJson Xtoy { t with outputs := t.outputs.reverse }

end BT.Concrete

namespace BT
open BT.Concrete

/-- **C60** violated: the hex of a transaction with two invalid signatures is printed. -/
theorem C60_violation_occurs : ∃ (a : CliArgs) (js : Str) (t : Tx) (h : Str), a.data = some js ∧ Tx.fromJson Xtoy js = .ok t ∧
    t.verify Xtoy = .ok 2 ∧ cliSignedHex Xtoy a = ([h], .error .nameError) := by
  have h1 : (do let js ← swapped; let t ← Tx.fromJson Xtoy js; let n ← t.verify Xtoy; let _ ← t.toHexSigned; assertR (n == 2) : R Unit).isOk = true := by
    decide +kernel
  obtain ⟨u, hu⟩ := isOk_exists h1
  simp only [R_bind_eq_ok, assertR_ok, beq_iff_eq] at hu
  obtain ⟨js, e1, t, e2, n, e3, h, e4, e5⟩ := hu
  subst e5
  exact ⟨{ task := [], data := some js }, js, t, h, rfl, e2, e3, C60_violation_prints _ _ js h t 2 rfl e2 e3 e4⟩

end BT
