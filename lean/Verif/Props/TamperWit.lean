import Verif.Props.Tamper
import Verif.Concrete.Sample
import Verif.Props.HistWit

/-! # Concrete cases for C129 -/

namespace BT.Concrete
open BT BT.Spec

/-- the hypotheses of `C129_tamper` are met by a signed text and the same text with data behind it -/
example : ∃ s s' t, s ≠ s' ∧ Tx.fromHexSigned Xtoy s = .ok t ∧ Tx.fromHexSigned Xtoy s' = .ok t ∧ t.verify Xtoy = .ok 0 ∧ t.inputs ≠ [] := by
  have h : (do let t ← sampleSigned Xtoy
               let s ← t.toHexSigned
               let t' ← Tx.fromHexSigned Xtoy s
               let n ← t'.verify Xtoy
               assertR (n == 0 && !t'.inputs.isEmpty) : R Unit).isOk = true := by decide +kernel
  obtain ⟨u, hu⟩ := isOk_exists h
  simp only [R_bind_eq_ok, assertR_ok, Bool.and_eq_true, beq_iff_eq, Bool.not_eq_true', List.isEmpty_eq_false_iff] at hu
  obtain ⟨t, _, s, h1, t', h2, n, h3, rfl, h4⟩ := hu
  exact ⟨s, s ++ hex [7], t', by simp; decide, h2, C36_violation Xtoy Xtoy_laws.sha_len Xtoy_laws.rip_len s t' h2 [7], h3, h4⟩

/-- a changed amount or outpoint is noticed: the text decodes, but both signatures are found invalid -/
example : (do let t ← sampleSigned Xtoy
              let s ← ({ t with outputs := t.outputs.map fun o => { o with value := py"51c3000000000000" } } : Tx).toHexSigned
              let t' ← Tx.fromHexSigned Xtoy s
              let n ← t'.verify Xtoy
              assertR (n == 2) : R Unit).isOk = true := by decide +kernel

example : (do let t ← sampleSigned Xtoy
              let s ← ({ t with inputs := t.inputs.map fun i => { i with prevIndex := py"03000000" } } : Tx).toHexSigned
              let t' ← Tx.fromHexSigned Xtoy s
              let n ← t'.verify Xtoy
              assertR (n == 2) : R Unit).isOk = true := by decide +kernel

end BT.Concrete
