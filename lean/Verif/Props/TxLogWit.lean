import Verif.Props.TxLog3
import Verif.Props.CliWit
import Verif.Props.CliRunWit

/-!
# Witnesses for C115 - C121

Runs on the sample transaction that meet the hypotheses, and what they log.
-/

namespace BT.Concrete
open BT BT.Spec Lg

/-- an environment for the examples -/
def logEnv : Msg.Env := ⟨fun _ => py"1.5", fun _ => false⟩

/-- a list of texts is a prefix of what is visible -/
def startsWith (a b : List Str) : Bool := a == b.take a.length

/-! ## C116 -/

/-- the signed sample passes: two valid signatures -/
example : ∃ t, (Lg.verify Xtoy t).outcome = .ok 0 ∧ visible 20 (Lg.verify Xtoy t).ev = [py"Transaction verified: 2 valid signatures"] := by
  have h : (do let t ← sampleSigned Xtoy
               let k ← (Lg.verify Xtoy t).outcome
               assertR (k == 0 && visible 20 (Lg.verify Xtoy t).ev == [py"Transaction verified: 2 valid signatures"]) : R Unit).isOk = true := by
    decide +kernel
  obtain ⟨u, hu⟩ := isOk_exists h
  simp only [R_bind_eq_ok, assertR_ok, Bool.and_eq_true, beq_iff_eq] at hu
  obtain ⟨t, _, k, h1, h2, h3⟩ := hu
  subst h2
  exact ⟨t, h1, h3⟩

/-- `C116_violation` occurs: the sample with its outputs exchanged after signing.  Both signatures are reported to be
invalid, and the summary counts two valid signatures. -/
theorem bad_log : ∃ t, (Lg.verify Xtoy t).outcome = .ok 2 ∧ visible 20 (Lg.verify Xtoy t).ev =
    [py"Signature 1 of 2 is invalid!", py"Signature 2 of 2 is invalid!", py"Transaction verified: 2 valid signatures"] := by
  have h : (do let t0 ← sampleSigned Xtoy
               let t : Tx := { t0 with outputs := t0.outputs.reverse }
               let k ← (Lg.verify Xtoy t).outcome
               assertR (k == 2 && visible 20 (Lg.verify Xtoy t).ev == [py"Signature 1 of 2 is invalid!", py"Signature 2 of 2 is invalid!",
                 py"Transaction verified: 2 valid signatures"]) : R Unit).isOk = true := by
    decide +kernel
  obtain ⟨u, hu⟩ := isOk_exists h
  simp only [R_bind_eq_ok, assertR_ok, Bool.and_eq_true, beq_iff_eq] at hu
  obtain ⟨t, _, k, h1, h2, h3⟩ := hu
  subst h2
  exact ⟨_, h1, h3⟩

example : ∃ (t : Tx) (k : Nat), (Lg.verify Xtoy t).outcome = .ok k ∧ k ≠ 0 := by
  obtain ⟨t, h, _⟩ := bad_log
  exact ⟨t, 2, h, by decide⟩

/-- the hypotheses of `C116_reported` are met by a check that raises: the scriptSig of the second input was removed.  The
verdict on the first is reported, and the run ends without a summary. -/
example : ∃ t, (Lg.verify Xtoy t).outcome.isOk = false ∧ 1 ≤ t.inputs.length ∧
    (∀ (j : Nat) (i : TxIn), j < 1 → t.inputs[j]? = some i → ∃ b, t.verifyInput Xtoy j i = .ok b) ∧
    (visible 10 (Lg.verify Xtoy t).ev).length = 10 := by
  have h : (do let t0 ← sampleSigned Xtoy
               let t : Tx := { t0 with inputs := (t0.inputs.take 1) ++ (t0.inputs.drop 1).map fun i => { i with scriptSig := none } }
               assertR (!(Lg.verify Xtoy t).outcome.isOk)
               assertR (1 ≤ t.inputs.length)
               assertR ((t.inputs[0]?.map fun i => (t.verifyInput Xtoy 0 i).isOk) == some true)
               assertR ((visible 10 (Lg.verify Xtoy t).ev).length == 10) : R Unit).isOk = true := by
    decide +kernel
  obtain ⟨u, hu⟩ := isOk_exists h
  simp only [R_bind_eq_ok, assertR_ok, beq_iff_eq, decide_eq_true_eq, Bool.not_eq_true', Option.map_eq_some_iff] at hu
  obtain ⟨t, _, _, h1, _, h2, _, ⟨i, h3, h4⟩, h5⟩ := hu
  refine ⟨_, h1, h2, ?_, h5⟩
  intro j i' hj hi'
  obtain rfl : j = 0 := by omega
  rw [h3] at hi'
  injection hi' with hi'; subst hi'
  exact isOk_exists h4

/-! ## C117 -/

/-- the hypotheses of `C117_exact` and `C117_secret` are met: the keys in two orders, the same signatures -/
theorem sign_logs : ∃ t, t.hashType1 = py"01" ∧ keys12 ≠ keys12.reverse ∧ (Lg.sign Xtoy t keys12 none).2.outcome = .ok () ∧
    (Lg.sign Xtoy t keys12.reverse none).2.outcome = .ok () ∧
    (Lg.sign Xtoy t keys12 none).1.inputs.map TxIn.scriptSig = (Lg.sign Xtoy t keys12.reverse none).1.inputs.map TxIn.scriptSig ∧
    visible 20 (Lg.sign Xtoy t keys12 none).2.ev = [
      py"Creating deterministic signature 1 of 2. Source address = " ++ toyAddr 1,
      py"Creating deterministic signature 2 of 2. Source address = " ++ toyAddr 2,
      py"Transaction signed with 2 signatures."] := by
  have h : (do let t ← sampleTx Xtoy
               assertR (t.hashType1 == py"01")
               let u1 ← (Lg.sign Xtoy t keys12 none).2.outcome
               let u2 ← (Lg.sign Xtoy t keys12.reverse none).2.outcome
               assertR ((Lg.sign Xtoy t keys12 none).1.inputs.map TxIn.scriptSig == (Lg.sign Xtoy t keys12.reverse none).1.inputs.map TxIn.scriptSig)
               assertR (visible 20 (Lg.sign Xtoy t keys12 none).2.ev == [
                 py"Creating deterministic signature 1 of 2. Source address = " ++ toyAddr 1,
                 py"Creating deterministic signature 2 of 2. Source address = " ++ toyAddr 2,
                 py"Transaction signed with 2 signatures."]) : R Unit).isOk = true := by
    decide +kernel
  obtain ⟨u, hu⟩ := isOk_exists h
  simp only [R_bind_eq_ok, assertR_ok, beq_iff_eq] at hu
  obtain ⟨t, _, _, h1, u1, h2, u2, h3, _, h4, h5⟩ := hu
  exact ⟨t, h1, by decide +kernel, h2, h3, h4, h5⟩

/-- `C117_violation` occurs -/
example : ∃ (t : Tx) (i : TxIn) (is : List TxIn), t.inputs = i :: is ∧ (Lg.sign Xtoy t keys12 (some [])).2.outcome = .ok () ∧
    visible 20 (Lg.sign Xtoy t keys12 (some [])).2.ev = [
      py"Creating non-deterministic signature 1 of 2. Source address = " ++ toyAddr 1,
      py"Creating non-deterministic signature 2 of 2. Source address = " ++ toyAddr 2,
      py"Transaction signed with 2 signatures."] := by
  have h : (do let t ← sampleTx Xtoy
               assertR (t.inputs ≠ [])
               let u1 ← (Lg.sign Xtoy t keys12 (some [])).2.outcome
               assertR (visible 20 (Lg.sign Xtoy t keys12 (some [])).2.ev == [
                 py"Creating non-deterministic signature 1 of 2. Source address = " ++ toyAddr 1,
                 py"Creating non-deterministic signature 2 of 2. Source address = " ++ toyAddr 2,
                 py"Transaction signed with 2 signatures."]) : R Unit).isOk = true := by
    decide +kernel
  obtain ⟨u, hu⟩ := isOk_exists h
  simp only [R_bind_eq_ok, assertR_ok, beq_iff_eq, decide_eq_true_eq] at hu
  obtain ⟨t, _, _, h1, u1, h2, h3⟩ := hu
  obtain ⟨i, is, hi⟩ := List.exists_cons_of_ne_nil h1
  exact ⟨t, i, is, hi, h2, h3⟩

/-! ## C118 -/

/-- the hypotheses of `C118_exact` are met by the hex of the signed sample -/
example : ∃ s t, (Lg.fromHexSigned Xtoy s).outcome = .ok t ∧ t.inputs.length = 2 ∧ (visible 10 (Lg.fromHexSigned Xtoy s).ev).length = 50 := by
  have h : (do let t0 ← sampleSigned Xtoy
               let s ← t0.toHexSigned
               let t ← (Lg.fromHexSigned Xtoy s).outcome
               assertR (t.inputs.length == 2)
               assertR ((visible 10 (Lg.fromHexSigned Xtoy s).ev).length == 50) : R Unit).isOk = true := by
    decide +kernel
  obtain ⟨u, hu⟩ := isOk_exists h
  simp only [R_bind_eq_ok, assertR_ok, beq_iff_eq] at hu
  obtain ⟨_, _, s, _, t, h1, _, h2, h3⟩ := hu
  exact ⟨s, t, h1, h2, h3⟩

/-! ## C119, C120 -/

theorem cliFee_task (sh : Shell) : Lg.task logEnv Xtoy sh cliFee = Lg.cliOneShot logEnv Xtoy cliFee := rfl

/-- the hypotheses of `C119_one_shot`, `C120_success` and `C120_default` are met: the keys in two orders, the same output -/
example (sh : Shell) : cliFee.task ∈ [py"create_sign_and_verify_transaction_hex", py"create_transaction"] ∧
    cliFee.task ≠ py"verify_signed_transaction_json" ∧
    (Lg.task logEnv Xtoy sh cliFee).outcome = .ok () ∧
    (Lg.task logEnv Xtoy sh { cliFee with privateKeysHex := keys12.reverse }).outcome = .ok () ∧
    prints (Lg.task logEnv Xtoy sh cliFee).ev = prints (Lg.task logEnv Xtoy sh { cliFee with privateKeysHex := keys12.reverse }).ev := by
  have e2 : Lg.task logEnv Xtoy sh { cliFee with privateKeysHex := keys12.reverse } =
    Lg.cliOneShot logEnv Xtoy { cliFee with privateKeysHex := keys12.reverse } := rfl
  rw [cliFee_task, e2]
  obtain ⟨h, hh⟩ := cliFee_run
  have h2 : (cliOneShot Xtoy { cliFee with privateKeysHex := keys12.reverse } == cliOneShot Xtoy cliFee) = true := by decide +kernel
  have h2 := eq_of_beq h2
  rw [hh] at h2
  have p1 := out_oneShot logEnv Xtoy cliFee
  have p2 := out_oneShot logEnv Xtoy { cliFee with privateKeysHex := keys12.reverse }
  rw [hh] at p1
  rw [h2] at p2
  simp only [W.out, Prod.mk.injEq] at p1 p2
  exact ⟨by decide, by decide, p1.2, p2.2, p1.1.trans p2.1.symm⟩

/-- setting up all loggers succeeds, and there are loggers configured by it (hypotheses of `C120_console`, `C120_default`) -/
example : ∃ lg : Str → Logger,
    (setupAll (.str py"error") (.bool false) .none .none (loggerNames.map fun n => (n, false, {}))).2 = .ok () ∧
    loggerNames.map lg = (setupAll (.str py"error") (.bool false) .none .none (loggerNames.map fun n => (n, false, {}))).1 := by
  refine ⟨fun n => ((loggerNames.zip (setupAll (.str py"error") (.bool false) .none .none (loggerNames.map fun n => (n, false, {}))).1).lookup n).getD {},
    C79_setup_succeeds py"error" false .none _ (by decide) (.inl rfl), by decide +kernel⟩

/-- with level "info" the console shows one line of the task `hello` -/
example (sh : Shell) : visible 20 (Lg.task logEnv Xtoy sh { task := py"hello" }).ev = [py"Log statement at INFO level"] := rfl

/-! ## C121 -/

/-- the hypotheses of `C121_verify_hex` and `C121_decode_hex` are met by the sample with its outputs exchanged -/
example : ∃ (a : CliArgs) (t : Tx) (js : Str), HexWith Xtoy a t 2 ∧ t.toJson Xtoy = .ok js ∧
    invalidMessage 2 t.inputs.length = py"Signed transaction: 2 invalid signatures detected! Please re-run using the --debug flag." := by
  have h : (do let t0 ← sampleSigned Xtoy
               let s ← Tx.toHexSigned { t0 with outputs := t0.outputs.reverse }
               let d ← dataStripped Xtoy { task := py"", data := some s }
               let t ← Tx.fromHexSigned Xtoy d
               let k ← t.verify Xtoy
               assertR (k == 2)
               assertR (t.inputs.length == 2)
               let js ← t.toJson Xtoy
               pure () : R Unit).isOk = true := by
    decide +kernel
  obtain ⟨u, hu⟩ := isOk_exists h
  simp only [R_bind_eq_ok, assertR_ok, beq_iff_eq] at hu
  obtain ⟨t0, _, s, _, d, h1, t, h2, k, h3, _, h4, _, h5, js, h6, _⟩ := hu
  subst h4
  exact ⟨_, t, js, ⟨d, h1, h2, h3⟩, h6, by rw [h5]; decide +kernel⟩

/-- and a single input: one signature, "1 invalid signature" -/
example : invalidMessage 1 1 = py"Signed transaction: 1 invalid signature detected! Please re-run using the --debug flag." := by
  decide +kernel

end BT.Concrete
