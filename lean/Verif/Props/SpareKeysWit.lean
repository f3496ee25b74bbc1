import Verif.Props.SpareKeys
import Verif.Props.CliRunWit
import Verif.Props.HistWit

/-! # Witnesses for C134 -/

namespace BT.Concrete
open BT BT.Spec

/-- three keys; the third belongs to no input of the sample transaction -/
def keys123 : List Str := keys12 ++ [hex32 3]

theorem keys123_apart : NoCollision Xtoy keys123 := by
  have h : (match privateKeyToAddress Xtoy (hex32 1), privateKeyToAddress Xtoy (hex32 2), privateKeyToAddress Xtoy (hex32 3) with
    | .ok a, .ok b, .ok c => a != b && a != c && b != c | _, _, _ => false) = true := by decide +kernel
  cases h1 : privateKeyToAddress Xtoy (hex32 1) with
  | error e => rw [h1] at h; simp at h
  | ok a1 =>
  cases h2 : privateKeyToAddress Xtoy (hex32 2) with
  | error e => rw [h1, h2] at h; simp at h
  | ok a2 =>
  cases h3 : privateKeyToAddress Xtoy (hex32 3) with
  | error e => rw [h1, h2, h3] at h; simp at h
  | ok a3 =>
  rw [h1, h2, h3] at h
  simp only [Bool.and_eq_true, bne_iff_ne, ne_eq] at h
  obtain ⟨⟨n1, n2⟩, n3⟩ := h
  intro k hk k' hk' a g1 g2
  simp only [keys123, keys12, List.mem_append, List.mem_cons, List.not_mem_nil, or_false] at hk hk'
  rcases hk with (rfl | rfl) | rfl <;> rcases hk' with (rfl | rfl) | rfl <;> first
    | rfl
    | (exfalso; simp only [h1, h2, h3, Except.ok.injEq] at g1 g2; first
        | exact n1 (g1.trans g2.symm)
        | exact n1 (g2.trans g1.symm)
        | exact n2 (g1.trans g2.symm)
        | exact n2 (g2.trans g1.symm)
        | exact n3 (g1.trans g2.symm)
        | exact n3 (g2.trans g1.symm))

/-- the hypotheses of `C134_spare_keys` and `C134_more_keys` are met: a transaction of two inputs, its two keys, and a third one -/
example : ∃ t, t.inputs.length = 2 ∧ SpareKey Xtoy t (hex32 3) ∧ (t.sign Xtoy keys12 none).2 = .ok () ∧ (∀ k ∈ keys12, k ∈ keys123) ∧
    (∀ k ∈ keys123, k ∈ keys12 ∨ SpareKey Xtoy t k) ∧ NoCollision Xtoy keys123 := by
  have h : (do let t ← sampleTx Xtoy
               assertR (t.inputs.length == 2)
               assertR (t.sign Xtoy keys12 none).2.isOk
               vHexLength (hex32 3) 32
               let a ← privateKeyToAddress Xtoy (hex32 3)
               assertR (t.inputs.all fun i => i.address != a)
               : R Unit).isOk = true := by
    decide +kernel
  obtain ⟨u, hu⟩ := isOk_exists h
  simp only [R_bind_eq_ok, assertR_ok, beq_iff_eq, List.all_eq_true, bne_iff_ne, ne_eq] at hu
  obtain ⟨t, _, _, h1, _, h2, ⟨⟩, h3, a, h4, h5⟩ := hu
  obtain ⟨⟨⟩, h2⟩ := isOk_exists h2
  have hsp : SpareKey Xtoy t (hex32 3) := ⟨h3, a, h4, h5⟩
  refine ⟨t, h1, hsp, h2, fun k hk => List.mem_append_left _ hk, fun k hk => ?_, keys123_apart⟩
  rcases List.mem_append.1 hk with hk | hk
  · exact .inl hk
  · rw [List.mem_singleton.1 hk]; exact .inr hsp

/-- explicit random values are extended as `C134_more_keys` wants -/
example : MoreValues keys123.length (some [hex32 5, hex32 6]) (some ([hex32 5, hex32 6] ++ [hex32 7])) :=
  .inr ⟨_, _, rfl, by simp, rfl, by decide +kernel, rfl⟩

/-- the hypotheses of `C134_cli` are met by the run that creates a transaction from files -/
example : ∃ l, cliRun Xtoy (disk order1) shell0 (.ok ()) { runCreate with privateKeyHex := runCreate.privateKeyHex ++ [[hex32 3]] } = (l, .ok ()) := by
  have h := runCreate_ok
  have hv : (do vHexLength (hex32 3) 32; let _ ← privateKeyToAddress Xtoy (hex32 3); pure () : R Unit).isOk = true := by decide +kernel
  obtain ⟨u, hv⟩ := isOk_exists hv
  simp only [R_bind_eq_ok] at hv
  obtain ⟨⟨⟩, v1, a, v2, _⟩ := hv
  cases hr : cliRun Xtoy (disk order1) shell0 (.ok ()) runCreate with
  | mk l res =>
    rw [hr] at h
    cases res with
    | error e => simp [exitStatus] at h
    | ok u =>
      refine ⟨l, C134_cli Xtoy _ _ _ runCreate keys12 [hex32 3] l hr (by decide) disk_keys (fun k hk => ?_) keys123_apart⟩
      rw [List.mem_singleton.1 hk]; exact ⟨v1, a, v2⟩

end BT.Concrete
