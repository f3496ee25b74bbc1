import Verif.StartMsg
import Verif.Props.CliRun

/-!
# A missing argument is named (C145)
-/

namespace BT
open Spec

variable {X : Ext}

namespace Start

/-- forgetting the texts -/
def erase {α : Type} : T α → R α
  | .ok a => .ok a
  | .error e => .error e.1

theorem erase_other {α : Type} (r : R α) : erase (other r) = r := by cases r <;> rfl

theorem erase_bind {α β : Type} (t : T α) (k : α → T β) : erase (t >>= k) = (erase t >>= fun a => erase (k a)) := by cases t <;> rfl

theorem erase_check (task : Str) (keys : List Str) (data : Option Str) : erase (checkRaw task keys data) = BT.checkRaw task keys data := by
  unfold checkRaw BT.checkRaw
  by_cases h1 : task ∈ tasksSingleKey <;> by_cases h2 : task ∈ tasksRequireData <;> simp only [h1, h2, if_true, if_false]
  · rw [erase_bind, erase_other]
    congr 1; funext _
    cases given data <;> rfl
  · rw [erase_bind, erase_other]; congr 1
  · cases given data <;> rfl
  · rfl

theorem erase_files (fs : FS) (r : RawArgs) : erase (loadFiles X fs r) = BT.loadFiles X fs r := by
  unfold loadFiles BT.loadFiles
  by_cases h : r.task ∈ tasksRequireFiles <;> simp only [h, if_true, if_false]
  · cases given r.inputFile with
    | none => cases given r.designFile <;> rfl
    | some i =>
      cases given r.designFile with
      | none => rfl
      | some d =>
        simp only
        rw [erase_bind, erase_other]; congr 1; funext x
        rw [erase_bind, erase_other]; rfl
  · rfl

theorem erase_load (fs : FS) (r : RawArgs) : erase (load X fs r) = cliLoad X fs r := by
  unfold load cliLoad
  rw [erase_bind, erase_other]; congr 1; funext data
  rw [erase_bind, erase_other]; congr 1; funext keys
  rw [erase_bind, erase_check]; congr 1; funext _
  rw [erase_bind, erase_files]; rfl

/-- the outcome without the texts -/
def eraseOut (o : Out) : CliOut := (o.1, erase o.2)

theorem erase_quiet (o : CliOut) : eraseOut (quiet o) = o := by
  unfold eraseOut quiet; rw [erase_other]

theorem erase_local (sh : Shell) (cmd : Str) (k : Str → Int → Out) : eraseOut (runLocal sh cmd k) = BT.runLocal sh cmd fun o c => eraseOut (k o c) := by
  unfold runLocal BT.runLocal
  split <;> rfl

theorem erase_version (sh : Shell) : eraseOut (pythonVersion X sh) = cliPythonVersion X sh := by
  unfold pythonVersion cliPythonVersion
  rw [erase_local]; congr 1; funext _ code
  split
  · rfl
  · rw [erase_local]; congr 1; funext _ code2
    split <;> rfl

theorem erase_run (fs : FS) (sh : Shell) (setup : R Unit) (r : RawArgs) : eraseOut (run X fs sh setup r) = cliRun X fs sh setup r := by
  unfold run cliRun
  rw [← erase_load]
  cases load X fs r with
  | error e => rfl
  | ok a =>
    cases setup with
    | error e => rfl
    | ok _ =>
      simp only [erase, bindOut, cliTask]
      split
      · exact erase_version sh
      · exact erase_quiet _

theorem check_text {task : Str} {keys : List Str} {data : Option Str} {e : Err} {t : Str} :
    checkRaw task keys data = .error (e, some t) ↔ e = .valueError ∧ t = textData ∧ (task ∈ tasksSingleKey → keys.length = 1) ∧ task ∈ tasksRequireData ∧ given data = none := by
  unfold checkRaw
  by_cases h1 : task ∈ tasksSingleKey <;> by_cases h2 : task ∈ tasksRequireData <;> by_cases h3 : keys.length = 1 <;> cases hg : given data <;>
    simp [h1, h2, h3, other, assertR, check, raise, throw, throwThe, MonadExceptOf.throw, bind, Except.bind, pure, Except.pure] <;>
    exact ⟨fun h => ⟨h.1.symm, h.2.symm⟩, fun h => ⟨h.1.symm, h.2.symm⟩⟩

theorem files_text {fs : FS} {r : RawArgs} {e : Err} {t : Str} :
    loadFiles X fs r = .error (e, some t) ↔ e = .valueError ∧ r.task ∈ tasksRequireFiles ∧
      ((t = textInput ∧ given r.inputFile = none) ∨ (t = textDesign ∧ (∃ i, given r.inputFile = some i) ∧ given r.designFile = none)) := by
  unfold loadFiles
  by_cases h1 : r.task ∈ tasksRequireFiles <;> simp only [h1, if_true, if_false]
  · cases given r.inputFile with
    | none => simp [eq_comm (a := e), eq_comm (a := t)]
    | some i =>
      cases given r.designFile with
      | none => simp [eq_comm (a := e), eq_comm (a := t)]
      | some d =>
        cases hi : loadJson X fs i <;> cases hd : loadJson X fs d <;> simp [hi, hd, other, bind, Except.bind, pure, Except.pure]
  · simp

theorem given_none {o : Option Str} : given o = none ↔ ∀ s, o = some s → s = [] := by
  rcases o with _ | _ | ⟨c, cs⟩ <;> simp [given]

theorem given_some {o : Option Str} : (∃ s, given o = some s) ↔ ∃ s, o = some s ∧ s ≠ [] := by
  rcases o with _ | _ | ⟨c, cs⟩ <;> simp [given]

theorem load_text {fs : FS} {r : RawArgs} {e : Err} {t : Str} (h : load X fs r = .error (e, some t)) :
    ∃ data keys, loadData fs r = .ok data ∧ loadKeys X fs r = .ok keys ∧
      (checkRaw r.task keys data = .error (e, some t) ∨ loadFiles X fs r = .error (e, some t)) := by
  unfold load at h
  cases hd : loadData fs r with
  | error _ => simp [hd, other, bind, Except.bind] at h
  | ok data =>
    cases hk : loadKeys X fs r with
    | error _ => simp [hd, hk, other, bind, Except.bind] at h
    | ok keys =>
      refine ⟨data, keys, rfl, rfl, ?_⟩
      simp only [hd, hk, other, bind, Except.bind] at h
      cases hc : checkRaw r.task keys data with
      | error x => rw [hc] at h; simp only [Except.error.injEq] at h; exact .inl (by rw [h])
      | ok _ =>
        rw [hc] at h
        simp only at h
        cases hf : loadFiles X fs r with
        | error x => rw [hf] at h; simp only [Except.error.injEq] at h; exact .inr (by rw [h])
        | ok _ => rw [hf] at h; simp [pure, Except.pure] at h

theorem version_text {sh : Shell} {p : List Str} {e : Err} {t : Str} (h : pythonVersion X sh = (p, .error (e, some t))) :
    p = [] ∧ e = .valueError ∧ ((t = textTool ∧ (sh py"command -v python3").2.2 ≠ 0) ∨ (t = textCode (sh py"python3 --version").2.2 ∧ (sh py"python3 --version").2.2 ≠ 0)) := by
  unfold pythonVersion runLocal at h
  generalize sh py"command -v python3" = o1 at h ⊢
  generalize sh py"python3 --version" = o2 at h ⊢
  by_cases h1 : o1.2.1 = []
  · by_cases h2 : o1.2.2 = 0
    · by_cases h3 : o2.2.1 = []
      · by_cases h4 : o2.2.2 = 0
        · simp [h1, h2, h3, h4] at h
        · simp only [h1, h2, h3, h4, ne_eq, not_true_eq_false, not_false_eq_true, if_true, if_false, Prod.mk.injEq, Except.error.injEq, Option.some.injEq] at h
          exact ⟨h.1.symm, h.2.1.symm, .inr ⟨h.2.2.symm, h4⟩⟩
      · simp [h1, h2, h3] at h
    · simp only [h1, h2, ne_eq, not_true_eq_false, not_false_eq_true, if_true, if_false, Prod.mk.injEq, Except.error.injEq, Option.some.injEq] at h
      exact ⟨h.1.symm, h.2.1.symm, .inl ⟨h.2.2.symm, h2⟩⟩
  · simp [h1] at h

theorem run_text {fs : FS} {sh : Shell} {setup : R Unit} {r : RawArgs} {p : List Str} {e : Err} {t : Str} (h : run X fs sh setup r = (p, .error (e, some t))) :
    p = [] ∧ (load X fs r = .error (e, some t) ∨ (r.task = py"get_python_version" ∧ pythonVersion X sh = ([], .error (e, some t)))) := by
  unfold run at h
  cases hl : load X fs r with
  | error x =>
    rw [hl] at h; simp only [Prod.mk.injEq, Except.error.injEq] at h
    exact ⟨h.1.symm, .inl (by rw [h.2])⟩
  | ok a =>
    rw [hl] at h
    have ha : a.task = r.task := by
      have := congrArg erase hl
      rw [erase_load] at this
      unfold cliLoad at this
      simp only [erase] at this
      cases h1 : loadData fs r <;> simp only [h1, R_bind_ok, R_bind_err, reduceCtorEq] at this
      cases h2 : loadKeys X fs r <;> simp only [h2, R_bind_ok, R_bind_err, reduceCtorEq] at this
      rename_i data keys
      cases h3 : BT.checkRaw r.task keys data <;> simp only [h3, R_bind_ok, R_bind_err, reduceCtorEq] at this
      cases h4 : BT.loadFiles X fs r <;> simp only [h4, R_bind_ok, R_bind_err, reduceCtorEq] at this
      injection this with this
      rw [← this]
    cases setup with
    | error x => simp at h
    | ok _ =>
      simp only at h
      split at h
      · rename_i ht
        have hp2 : p = [] := (version_text h).1
        subst hp2
        exact ⟨rfl, .inr ⟨ha ▸ ht, h⟩⟩
      · exfalso
        have := congrArg Prod.snd h
        unfold quiet at this
        cases hq : (cliDispatch X a).2 <;> simp [hq, other] at this

end Start

open Start

/-- An option was supplied: it is there and is not the empty text. -/
def Spec.Supplied (o : Option Str) : Prop := ∃ s, o = some s ∧ s ≠ []

namespace Start
theorem given_none' {o : Option Str} : given o = none ↔ ¬ Supplied o := by
  rw [given_none]; unfold Supplied; push Not; rfl
theorem given_some' {o : Option Str} : (∃ s, given o = some s) ↔ Supplied o := given_some
end Start

/-- **C145** (the model of the texts): forgetting the texts, the program with texts is the program. -/
theorem C145_agrees (X : Ext) (fs : FS) (sh : Shell) (setup : R Unit) (r : RawArgs) :
    (Start.run X fs sh setup r).1 = (cliRun X fs sh setup r).1 ∧
      ∀ e, (∃ t, (Start.run X fs sh setup r).2 = .error (e, t)) ↔ (cliRun X fs sh setup r).2 = .error e := by
  have h := erase_run (X := X) fs sh setup r
  unfold eraseOut at h
  rw [← h]
  refine ⟨rfl, fun e => ?_⟩
  cases (Start.run X fs sh setup r).2 with
  | ok _ => simp [erase]
  | error x => obtain ⟨a, b⟩ := x; simp [erase]

/-- **C145** (a missing argument is named): provided that the data file and the key files can be read, nothing is printed, the program ends with a ValueError, and the text
names the missing argument: the data of sign_data (with one key) and of validate_unsigned_transaction_json, the input file and, if that is given, the design file of the three tasks that create
transactions. -/
theorem C145_named_partial (X : Ext) (fs : FS) (sh : Shell) (setup : R Unit) (r : RawArgs) (data : Option Str) (keys : List Str)
    (hd : loadData fs r = .ok data) (hk : loadKeys X fs r = .ok keys) :
    ((r.task = py"sign_data" ∧ keys.length = 1) ∨ r.task = py"validate_unsigned_transaction_json" → ¬ Supplied data →
      Start.run X fs sh setup r = ([], .error (.valueError, some py"One of these arguments must be supplied: --data <data_string> --data-file <file_path>"))) ∧
    (r.task = py"create_unsigned_transaction_json" ∨ r.task = py"create_sign_and_verify_transaction_hex" ∨ r.task = py"create_transaction" →
      (¬ Supplied r.inputFile → Start.run X fs sh setup r = ([], .error (.valueError, some py"This argument must be supplied: --input-file '<input_file>'"))) ∧
      (Supplied r.inputFile → ¬ Supplied r.designFile →
        Start.run X fs sh setup r = ([], .error (.valueError, some py"This argument must be supplied: --design-file '<design_file>'")))) := by
  have key : ∀ x, (Start.checkRaw r.task keys data = .error x ∨ (Start.checkRaw r.task keys data = .ok () ∧ Start.loadFiles X fs r = .error x)) → Start.run X fs sh setup r = ([], .error x) := by
    intro x hx
    have : load X fs r = .error x := by
      unfold load
      simp only [hd, hk, other, bind, Except.bind]
      rcases hx with h | ⟨h1, h2⟩
      · rw [h]
      · rw [h1]; simp only; rw [h2]
    unfold Start.run; rw [this]
  refine ⟨fun ht hs => key _ (.inl ?_), fun ht => ?_⟩
  · refine check_text.2 ⟨rfl, rfl, ?_, ?_, given_none'.2 hs⟩
    · rcases ht with ⟨_, h⟩ | h
      · exact fun _ => h
      · rw [h]; intro hm; exact absurd hm (by decide)
    · rcases ht with ⟨h, _⟩ | h <;> rw [h] <;> decide
  · have h1 : Start.checkRaw r.task keys data = .ok () := by
      have m1 : r.task ∉ tasksSingleKey := by rcases ht with h | h | h <;> rw [h] <;> decide
      have m2 : r.task ∉ tasksRequireData := by rcases ht with h | h | h <;> rw [h] <;> decide
      unfold Start.checkRaw; rw [if_neg m1, if_neg m2]; rfl
    have m3 : r.task ∈ tasksRequireFiles := by rcases ht with h | h | h <;> rw [h] <;> decide
    exact ⟨fun hs => key _ (.inr ⟨h1, files_text.2 ⟨rfl, m3, .inl ⟨rfl, given_none'.2 hs⟩⟩⟩),
      fun hi hs => key _ (.inr ⟨h1, files_text.2 ⟨rfl, m3, .inr ⟨rfl, given_some'.2 hi, given_none'.2 hs⟩⟩⟩)⟩

/-- **C145** (the texts are true): whenever the program gives such a text, nothing has been printed, the class is ValueError, and what the text says is the case: the named argument is missing
(or empty, for the data also the data file), the tool cannot be found, or the command ended with that exit code. So the same text does not come back once the argument is given. -/
theorem C145_true (X : Ext) (fs : FS) (sh : Shell) (setup : R Unit) (r : RawArgs) (p : List Str) (e : Err) (t : Str) (h : Start.run X fs sh setup r = (p, .error (e, some t))) :
    p = [] ∧ e = .valueError ∧
    ((t = py"One of these arguments must be supplied: --data <data_string> --data-file <file_path>" ∧ (r.task = py"sign_data" ∨ r.task = py"validate_unsigned_transaction_json") ∧
        ((¬ Supplied r.dataFile ∧ ¬ Supplied r.data) ∨ ∃ f, r.dataFile = some f ∧ fs.read f = .ok [])) ∨
      (t = py"This argument must be supplied: --input-file '<input_file>'" ∧ ¬ Supplied r.inputFile) ∨
      (t = py"This argument must be supplied: --design-file '<design_file>'" ∧ ¬ Supplied r.designFile) ∨
      (t = py"Can't find 'python3' tool in bash shell'" ∧ (sh py"command -v python3").2.2 ≠ 0) ∨
      (t = py"Ran command = 'python3 --version', but got exit code = " ++ pyStr (sh py"python3 --version").2.2 ∧ (sh py"python3 --version").2.2 ≠ 0)) := by
  obtain ⟨h0, h1 | ⟨_, h1⟩⟩ := run_text h
  · obtain ⟨data, keys, hd, _, h2 | h2⟩ := load_text h1
    · obtain ⟨rfl, rfl, _, hm, hg⟩ := check_text.1 h2
      refine ⟨h0, rfl, .inl ⟨rfl, by simpa [tasksRequireData] using hm, ?_⟩⟩
      unfold loadData at hd
      rcases hf : given r.dataFile with _ | f
      · rw [hf] at hd
        simp only [Except.ok.injEq] at hd
        subst hd
        exact .inl ⟨given_none'.1 hf, given_none'.1 hg⟩
      · rw [hf] at hd
        simp only at hd
        have hff : r.dataFile = some f := by
          rcases ho : r.dataFile with _ | _ | ⟨c, cs⟩ <;> rw [ho] at hf <;> simp [given] at hf
          rw [← hf]
        cases hr : fs.read f with
        | error _ => rw [hr] at hd; simp at hd
        | ok s =>
          rw [hr] at hd
          simp only [R_bind_ok, R_pure, Except.ok.injEq] at hd
          subst hd
          refine .inr ⟨f, hff, ?_⟩
          rw [given_none.1 hg s rfl] at hr; exact hr
    · obtain ⟨rfl, _, ⟨rfl, hg⟩ | ⟨rfl, _, hg⟩⟩ := files_text.1 h2
      · exact ⟨h0, rfl, .inr (.inl ⟨rfl, given_none'.1 hg⟩)⟩
      · exact ⟨h0, rfl, .inr (.inr (.inl ⟨rfl, given_none'.1 hg⟩))⟩
  · obtain ⟨_, h2, ⟨rfl, h3⟩ | ⟨rfl, h3⟩⟩ := version_text h1
    · exact ⟨h0, h2, .inr (.inr (.inr (.inl ⟨rfl, h3⟩)))⟩
    · exact ⟨h0, h2, .inr (.inr (.inr (.inr ⟨rfl, h3⟩)))⟩

/-- **C145 fails** for the other tasks: without data the tasks for signed hex end with an AttributeError and those for signed JSON and signatures of data with a TypeError; without a WIF text
private_key_wif_to_hex ends with a TypeError; without a key (or with several) the tasks that need one key end with an AssertionError. None of these texts names the missing argument. -/
theorem C145_violation (X : Ext) (fs : FS) (sh : Shell) (r : RawArgs) (keys : List Str) (hk : loadKeys X fs r = .ok keys) (hf : r.dataFile = none) :
    (r.task ∈ [py"verify_signed_transaction_hex", py"decode_signed_transaction_hex"] → r.data = none → cliRun X fs sh (.ok ()) r = ([], .error .attributeError)) ∧
    (r.task ∈ [py"create_signed_transaction_json", py"verify_signed_transaction_json", py"create_signed_transaction_hex", py"verify_data_signature"] → r.data = none →
      cliRun X fs sh (.ok ()) r = ([], .error .typeError)) ∧
    (r.task = py"private_key_wif_to_hex" → r.privateKeyWif = none → cliRun X fs sh (.ok ()) r = ([], .error .typeError)) ∧
    (r.task ∈ [py"get_private_key_wif", py"get_public_key", py"get_address", py"sign_data"] → keys.length ≠ 1 → cliRun X fs sh (.ok ()) r = ([], .error .assertionError)) := by
  have hd : loadData fs r = .ok r.data := by unfold loadData; rw [hf]; rfl
  have plain : r.task ∉ tasksSingleKey → r.task ∉ tasksRequireData → r.task ∉ tasksRequireFiles → r.task ≠ py"get_python_version" →
      cliRun X fs sh (.ok ()) r = cliDispatch X { task := r.task, data := r.data, privateKeysHex := keys, privateKeyWif := r.privateKeyWif, publicKeyHex := r.publicKeyHex, signatureHex := r.signatureHex, inputs := none, design := none } := by
    intro m1 m2 m3 m4
    unfold cliRun cliLoad
    simp only [hd, hk, BT.checkRaw, BT.loadFiles, m1, m2, m3, if_false, R_bind_ok, R_pure, bindOut, cliTask, m4]
  refine ⟨fun ht hn => ?_, fun ht hn => ?_, fun ht hn => ?_, fun ht hn => ?_⟩
  · simp only [List.mem_cons, List.not_mem_nil, or_false] at ht
    rw [plain (by rcases ht with h | h <;> rw [h] <;> decide) (by rcases ht with h | h <;> rw [h] <;> decide) (by rcases ht with h | h <;> rw [h] <;> decide)
      (by rcases ht with h | h <;> rw [h] <;> decide), hn]
    rcases ht with h | h <;> rw [h] <;> rfl
  · simp only [List.mem_cons, List.not_mem_nil, or_false] at ht
    rw [plain (by rcases ht with h | h | h | h <;> rw [h] <;> decide) (by rcases ht with h | h | h | h <;> rw [h] <;> decide)
      (by rcases ht with h | h | h | h <;> rw [h] <;> decide) (by rcases ht with h | h | h | h <;> rw [h] <;> decide), hn]
    rcases ht with h | h | h | h <;> rw [h] <;> rfl
  · rw [plain (by rw [ht]; decide) (by rw [ht]; decide) (by rw [ht]; decide) (by rw [ht]; decide), hn, ht]
    rfl
  · have m : r.task ∈ tasksSingleKey := ht
    unfold cliRun cliLoad
    simp [hd, hk, BT.checkRaw, m, hn, assertR, check, bindOut, bind, Except.bind]

/-! The hypotheses are met. -/

namespace StartWit

/-- a file system with one empty file -/
def fs0 : FS where
  read f := if f = py"empty.txt" then .ok [] else .error .osError
  listDir _ := .error .osError

def sh0 : Shell := fun _ => ([], [], 127)

/-- no input file -/
example (X : Ext) : Start.run X fs0 sh0 (.ok ()) { task := py"create_transaction", designFile := some py"d.json" } =
    ([], .error (.valueError, some py"This argument must be supplied: --input-file '<input_file>'")) :=
  ((C145_named_partial X fs0 sh0 (.ok ()) { task := py"create_transaction", designFile := some py"d.json" } none [] rfl rfl).2 (.inr (.inr rfl))).1
    (by rintro ⟨s, h, _⟩; simp at h)

/-- no design file -/
example (X : Ext) : Start.run X fs0 sh0 (.ok ()) { task := py"create_unsigned_transaction_json", inputFile := some py"i.json", designFile := some [] } =
    ([], .error (.valueError, some py"This argument must be supplied: --design-file '<design_file>'")) :=
  ((C145_named_partial X fs0 sh0 (.ok ()) { task := py"create_unsigned_transaction_json", inputFile := some py"i.json", designFile := some [] } none [] rfl rfl).2 (.inl rfl)).2
    ⟨_, rfl, by decide⟩ (by rintro ⟨s, h, hn⟩; exact hn (by injection h with h; exact h.symm))

/-- an empty data file -/
example (X : Ext) : Start.run X fs0 sh0 (.ok ()) { task := py"validate_unsigned_transaction_json", dataFile := some py"empty.txt" } =
    ([], .error (.valueError, some py"One of these arguments must be supplied: --data <data_string> --data-file <file_path>")) :=
  (C145_named_partial X fs0 sh0 (.ok ()) { task := py"validate_unsigned_transaction_json", dataFile := some py"empty.txt" } (some []) [] rfl rfl).1 (.inr rfl)
    (by rintro ⟨s, h, hn⟩; exact hn (by injection h with h; exact h.symm))

/-- no python3 -/
example (X : Ext) : Start.run X fs0 sh0 (.ok ()) { task := py"get_python_version" } = ([], .error (.valueError, some py"Can't find 'python3' tool in bash shell'")) := rfl

/-- no data for a signed transaction, no key for an address -/
example (X : Ext) : cliRun X fs0 sh0 (.ok ()) { task := py"decode_signed_transaction_hex" } = ([], .error .attributeError) ∧
    cliRun X fs0 sh0 (.ok ()) { task := py"get_address" } = ([], .error .assertionError) :=
  ⟨(C145_violation X fs0 sh0 { task := py"decode_signed_transaction_hex" } [] rfl rfl).1 (by decide) rfl,
    (C145_violation X fs0 sh0 { task := py"get_address" } [] rfl rfl).2.2.2 (by decide) (by decide)⟩

end StartWit

end BT
