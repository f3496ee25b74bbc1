import Verif.Props.LogText
import Verif.Props.ReportWit
import Verif.Props.CreateWit

/-!
# Witnesses for C142
-/

namespace BT.Concrete
open BT BT.Spec Lg LT

/-- records at line 7 of a function `f`, without time -/
def placeAll (l : List (Str × Nat × Str)) : List Rec := l.map fun r => ⟨none, r.2.1, r.1, 7, py"f", r.2.2⟩

theorem written_placeAll {lev : Nat} {ev : List Ev} (h : ((records ev).filter fun r => lev ≤ r.2.1).all
    (fun r => loggerNames.contains r.1 && [10, 20, 30, 40, 50].contains r.2.1) = true) :
    LogOf lev ev (placeAll ((records ev).filter fun r => lev ≤ r.2.1)) := by
  refine ⟨?_, ?_⟩
  · unfold placeAll
    rw [List.map_map]
    exact List.map_id'' (fun r => rfl) _
  · intro r hr
    unfold placeAll at hr
    obtain ⟨x, hx, rfl⟩ := List.mem_map.1 hr
    have := List.all_eq_true.1 h x hx
    simp only [Bool.and_eq_true, List.contains_iff_mem] at this
    exact ⟨by rintro t ⟨⟩, this.2, this.1, by show ')' ∉ py"f" ∧ '\n' ∉ py"f"; decide⟩

theorem written_ex {lev : Nat} {ev : List Ev} (h1 : ((records ev).filter fun r => lev ≤ r.2.1).all
    (fun r => loggerNames.contains r.1 && [10, 20, 30, 40, 50].contains r.2.1) = true) (h2 : 30 ≤ ((records ev).filter fun r => lev ≤ r.2.1).length)
    (h3 : (((records ev).filter fun r => lev ≤ r.2.1).any fun r => r.2.2.contains '\n') = true) :
    ∃ rs, LogOf lev ev rs ∧ 30 ≤ rs.length ∧ ∃ r ∈ rs, '\n' ∈ r.text := by
  refine ⟨_, written_placeAll h1, ?_, ?_⟩
  · unfold placeAll; rw [List.length_map]; exact h2
  · obtain ⟨r, hr, h⟩ := List.any_eq_true.1 h3
    exact ⟨_, List.mem_map.2 ⟨r, hr, rfl⟩, List.contains_iff_mem.1 h⟩

/-- a request of two coins and a payment -/
def logArgs : CliArgs :=
  { task := py"create_unsigned_transaction_json", inputs := argsFee.inputs, design := argsFee.design }

theorem logArgs_task (sh : Shell) : task exE Xtoy sh logArgs = Lg.cliCreateUnsigned exE Xtoy logArgs := rfl

/-- what that run logs -/
def logRecs : List Ev := setupEv ++ (Lg.cliCreateUnsigned exE Xtoy logArgs).ev

theorem logRecs_ok : ∃ rs, LogOf 10 logRecs rs ∧ 30 ≤ rs.length ∧ ∃ r ∈ rs, '\n' ∈ r.text := by
  have h : ∀ l : List (Str × Nat × Str), l = (records logRecs).filter (fun r => 10 ≤ r.2.1) →
      ((l.all fun r => loggerNames.contains r.1 && [10, 20, 30, 40, 50].contains r.2.1) && decide (30 ≤ l.length) &&
        l.any fun r => r.2.2.contains '\n') = true → ∃ rs, LogOf 10 logRecs rs ∧ 30 ≤ rs.length ∧ ∃ r ∈ rs, '\n' ∈ r.text := by
    rintro l rfl h
    simp only [Bool.and_eq_true, decide_eq_true_eq] at h
    exact written_ex h.1.1 h.1.2 h.2
  exact h _ rfl (by decide +kernel)

/-- the hypotheses of `C142_log_of_run` and `C142_normal` are met: a run that creates a transaction and logs, besides the set-up, texts of several lines -/
theorem log_example (sh : Shell) : (∀ f, '\n' ∉ exE.floatRepr f) ∧ (∀ b, (Xtoy.sha256 b).length = 32) ∧
    (task exE Xtoy sh logArgs).outcome = .ok () ∧ (∃ rs, LogOf 10 (programEv exE Xtoy sh logArgs) rs ∧ 30 ≤ rs.length ∧ ∃ r ∈ rs, '\n' ∈ r.text) := by
  refine ⟨fun _ => by show '\n' ∉ py"1.5"; decide, toy_sha, ?_, ?_⟩
  · rw [logArgs_task]
    decide +kernel
  · have e : programEv exE Xtoy sh logArgs = logRecs := by
      unfold programEv; rw [logArgs_task]; rfl
    rw [e]
    exact logRecs_ok

/-- the text of such a log -/
example : logText (placeAll [(lCli, 20, py"Log statement at INFO level"), (lTx, 40, py"Signature 1 of 2 is invalid!")]) =
    py"INFO     [cli: 7 (f)] Log statement at INFO level\nERROR    [bitcoin_toolset.code.transaction: 7 (f)] Signature 1 of 2 is invalid!\n" := by
  decide

/-- `C142_harmless_partial`: a record that is not harmless, and why -/
example (sh : Shell) : ∃ s, (lTx, 10, s) ∈ records (task exE Xtoy sh { task := py"decode_signed_transaction_hex", data := some py"zz\nERROR    oops" }).ev ∧
    ¬ Harmless s := by
  refine ⟨py"hex received: zz\nERROR    oops", ?_, ?_⟩
  · show _ ∈ records (Lg.cliDecodeHex Xtoy _).ev
    decide +kernel
  · rw [← harm_iff]; decide

/-- the hypotheses of `C142_forged_violation` are met by "Transaction verified: 2 valid signatures" -/
example : ∃ (r : Rec) (p : Str) (c : Char), Placed r ∧ r.text = p ++ [c] ∧ isSpaceChar' Xtoy.uni.space c = false ∧
    isSpaceChar' Xtoy.uni.space 'x' = false :=
  ⟨⟨none, 20, lTx, 519, py"verify", py"Transaction verified: 2 valid signatures"⟩, py"Transaction verified: 2 valid signature", 's',
    ⟨(by rintro t ⟨⟩), by decide, by decide, by decide⟩, rfl, by decide +kernel, by decide +kernel⟩

end BT.Concrete

namespace BT
open Spec Lg Concrete

/-- the design file of a request whose input selection approach is `s` -/
def forgedArgs (s : Str) : CliArgs :=
  { task := py"create_transaction"
    inputs := (argsOf [inD 1 'a' (.int 3) py"0.0007"] [outD 2 py"0.0005"] [(py"fee", .int 20000), (py"input_selection_approaches", .str s)]).inputs
    design := (argsOf [inD 1 'a' (.int 3) py"0.0007"] [outD 2 py"0.0005"] [(py"fee", .int 20000), (py"input_selection_approaches", .str s)]).design }

theorem forgedArgs_task (sh : Shell) (s : Str) : task exE Xtoy sh (forgedArgs s) = Lg.cliOneShot exE Xtoy (forgedArgs s) := rfl

/-- C142 fails here as well: a design file can contain a record that is written to the log as it is.  The run logs one record and fails; the text of
the log is that of two records. -/
theorem C142_forged2_violation (sh : Shell) (r : Rec) (hr : r.text =
      py"x\nINFO     [bitcoin_toolset.code.create_transaction: 561 (create_transaction)] Transaction created.") :
    (task exE Xtoy sh (forgedArgs r.text)).outcome = .error .typeError ∧
    records (task exE Xtoy sh (forgedArgs r.text)).ev = [(py"bitcoin_toolset.code.create_transaction", 20, r.text)] ∧
    logText [r] = logText [{ r with text := py"x" },
      ⟨none, 20, py"bitcoin_toolset.code.create_transaction", 561, py"create_transaction", py"Transaction created."⟩] := by
  refine ⟨?_, ?_, ?_⟩
  · rw [hr, forgedArgs_task]
    decide +kernel
  · rw [hr, forgedArgs_task]
    decide +kernel
  · simp only [logText_cons, Rec.shown, hr, List.append_assoc]
    cases r.time <;> simp [logText] <;> decide

end BT
