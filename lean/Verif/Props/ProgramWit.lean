import Verif.Props.Program
import Verif.Props.RealWit
import Verif.Concrete.Toy
import Verif.Conformance.Args

/-! # The hypotheses of C94-C98 are met -/

namespace BT.Concrete
open BT BT.Spec BT.Conformance

/-- **C94, C96**: an accepted command line with abbreviations, `=`, glued and bundled letters -/
example : parseArgs uniSample [py"-dt", py"sign_data", py"--private-key-h", py"aa", py"bb", py"--private-key-hex=cc", py"--data=-x y", py"-linfo"] =
    .ok (meaning [.debug, .task py"sign_data", .keyHex [py"aa", py"bb"], .keyHex [py"cc"], .data py"-x y", .logLevel py"info"]) := by
  decide +kernel

/-- **C95**: the same settings, written out -/
example : List.Forall₂ Written [.debug, .task py"sign_data", .keyHex [py"aa", py"bb"], .data py"-x y", .logLevel py"info"]
    [[py"-d"], [py"-t", py"sign_data"], [py"--private-key-h", py"aa", py"bb"], [py"--data" ++ '=' :: py"-x y"], [py"-linfo"]] :=
  .cons (.shortWords _ rfl (by simp [Setting.values])) (.cons (.shortWords (s := .task _) _ rfl (by simp [Setting.values, NoDash]))
    (.cons (.words (s := .keyHex [py"aa", py"bb"]) _ (.inr ⟨by decide, by decide⟩) (by simp [Setting.values, NoDash]))
      (.cons (.equals _ _ (.inl rfl) rfl) (.cons (.glued (s := .logLevel _) py"-l" 'i' py"nfo" rfl rfl (by decide)) .nil))))

/-- **C95_clash**: two sources of keys -/
example : Clash (.keyHex [py"aa"]) (.keyWif py"K") ∧
    parseArgs uniSample [py"--private-key-hex", py"aa", py"--private-key-wif", py"K"] = .usage :=
  ⟨⟨true, 0, 3, rfl, rfl, by decide⟩, by decide +kernel⟩

/-- `setup` that succeeds, as the real one does without a log file -/
def okSetup : Str → Bool → Bool → Option Str → R Unit := cliSetup true true fun _ _ _ _ => .ok ()

example : okSetup py"error" false false none = .ok () := rfl

/-- **C97_get_address**: a key, and both orders of the options -/
example : (hex32 1 = hex (List.replicate 31 0 ++ [1])) ∧ 1 ≤ beNat (List.replicate 31 0 ++ [1]) ∧ beNat (List.replicate 31 0 ++ [1]) < nP ∧
    List.Forall₂ Written [.keyHex [hex32 1], .task py"get_address"] [[py"--private-key-hex", hex32 1], [py"-t", py"get_address"]] :=
  ⟨by decide +kernel, by decide +kernel, by decide +kernel,
    .cons (.words (s := .keyHex [hex32 1]) _ (.inl rfl) (by simp only [Setting.values, List.mem_singleton, forall_eq, NoDash]; decide +kernel))
      (.cons (.shortWords (s := .task _) _ rfl (by simp [Setting.values, NoDash])) .nil)⟩

/-- the settings of the run of `RealWit` -/
def realSettings : List Setting :=
  [.task py"create_transaction", .keyFile [py"a.txt", py"b.txt"], .inputFile py"inputs.json", .designFile py"design.json"]

theorem real_written : List.Forall₂ Written realSettings [[py"--task", py"create_transaction"], [py"--private-key-file", py"a.txt", py"b.txt"],
    [py"--input-file", py"inputs.json"], [py"--design-file" ++ '=' :: py"design.json"]] :=
  .cons (.words (s := .task _) _ (.inl rfl) (by simp [Setting.values, NoDash]))
    (.cons (.words (s := .keyFile [py"a.txt", py"b.txt"]) _ (.inl rfl) (by simp [Setting.values, NoDash]))
      (.cons (.words (s := .inputFile _) _ (.inl rfl) (by simp [Setting.values, NoDash])) (.cons (.equals _ _ (.inl rfl) rfl) .nil)))

/-- **C97_transaction**: a command line that makes a transaction -/
example (help : Str) : ∃ out, cliProgram Xreal realDisk (fun _ => (py"Python 3.8.10", [], 0)) help okSetup
    [py"--task", py"create_transaction", py"--private-key-file", py"a.txt", py"b.txt", py"--input-file", py"inputs.json",
      py"--design-file=design.json"] = (out, 0) := by
  have h := program_settings Xreal realDisk (fun _ => (py"Python 3.8.10", [], 0)) help okSetup _ _ real_written
    (by simp [realSettings, Setting.Allowed]) (by simp [realSettings, Clash, Setting.source])
  have hm : (meaning realSettings).toRawArgs = realArgs := rfl
  have hs : okSetup (meaning realSettings).logLevel (meaning realSettings).debug (meaning realSettings).logTimestamp
      (if (meaning realSettings).logToFile then some (meaning realSettings).logFile else none) = .ok () := rfl
  rw [hm, hs, real_run] at h
  exact ⟨_, h⟩

/-- **C97_log_directory**: the directory of the log file cannot be made -/
example : cliProgram Xtoy realDisk (fun _ => ([], [], 0)) [] (cliSetup false true fun _ _ _ _ => .ok ()) [py"-x", py"-t", py"hello"] = ([], 1) := by
  decide +kernel

/-- **C98**: a text with a dash in front, in both forms -/
example : exitStatus (([] : List Str), (.ok () : R Unit)) = 0 ∧
    (cliProgram Xtoy realDisk (fun _ => ([], [], 0)) [] okSetup
      [py"--task", py"sign_data", py"--private-key-hex", hex32 5, py"--data=-hello"]).2 = 0 ∧
    (cliProgram Xtoy realDisk (fun _ => ([], [], 0)) [] okSetup
      [py"--task", py"sign_data", py"--private-key-hex", hex32 5, py"--data", py"-hello"]) = ([], 2) := by
  decide +kernel

end BT.Concrete
