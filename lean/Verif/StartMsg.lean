import Verif.CliRun

/-!
# Texts of the exceptions with which `cli.py` refuses to start a task

`CliRun.lean` models which command lines are refused; here are the texts that `cli.py` itself gives to these exceptions.  The text of an exception that comes from elsewhere
(the operating system, `json`, an `assert`, a task) is `none`.  `C145_agrees` proves that the two models agree.
-/

namespace BT.Start

/-- The outcome of a step, with the text of the exception if `cli.py` wrote it. -/
abbrev T (α : Type) := Except (Err × Option Str) α

/-- a step whose exceptions are not given a text by `cli.py` -/
def other {α : Type} : R α → T α
  | .ok a => .ok a
  | .error e => .error (e, none)

/-- cli.py:224-225 -/
def textData : Str := py"One of these arguments must be supplied: --data <data_string> --data-file <file_path>"

/-- cli.py:238-239 -/
def textInput : Str := py"This argument must be supplied: --input-file '<input_file>'"

/-- cli.py:242-243 -/
def textDesign : Str := py"This argument must be supplied: --design-file '<design_file>'"

/-- The checks between loading the keys and loading the files (cli.py:207-226). -/
def checkRaw (task : Str) (keys : List Str) (data : Option Str) : T Unit := do
  if task ∈ tasksSingleKey then other (assertR (keys.length == 1))
  if task ∈ tasksRequireData then
    if (given data).isNone then throw (.valueError, some textData)

/-- The two transaction files (cli.py:228-252). -/
def loadFiles (X : Ext) (fs : FS) (r : RawArgs) : T (Option PVal × Option PVal) :=
  if r.task ∈ tasksRequireFiles then
    match given r.inputFile with
    | none => .error (.valueError, some textInput)
    | some i =>
      match given r.designFile with
      | none => .error (.valueError, some textDesign)
      | some d => do
        let x ← other (loadJson X fs i)
        let y ← other (loadJson X fs d)
        pure (some x, some y)
  else .ok (none, none)

/-- Everything before the logger set-up (cli.py:183-252). -/
def load (X : Ext) (fs : FS) (r : RawArgs) : T CliArgs := do
  let data ← other (loadData fs r)
  let keys ← other (loadKeys X fs r)
  checkRaw r.task keys data
  let files ← loadFiles X fs r
  pure { task := r.task, data := data, privateKeysHex := keys, privateKeyWif := r.privateKeyWif,
         publicKeyHex := r.publicKeyHex, signatureHex := r.signatureHex, inputs := files.1,
         design := files.2 }

/-- What is printed, and the outcome. -/
abbrev Out := List Str × T Unit

/-- a task whose exceptions are not given a text here -/
def quiet (o : CliOut) : Out := (o.1, other o.2)

/-- cli.py:324 -/
def textTool : Str := py"Can't find 'python3' tool in bash shell'"

/-- cli.py:329 -/
def textCode (code : Int) : Str := py"Ran command = 'python3 --version', but got exit code = " ++ pyStr code

/-- `run_local_cmd` (misc.py:31-40), as `runLocal`. -/
def runLocal (sh : Shell) (cmd : Str) (k : Str → Int → Out) : Out :=
  if (sh cmd).2.1 ≠ [] then
    ([py"COMMAND FAILED" ++ '\n' :: py"$ " ++ cmd ++ '\n' :: (sh cmd).2.1], .ok ())
  else k (sh cmd).1 (sh cmd).2.2

/-- `get_python_version` (cli.py:318-331) with `shell_tool_exists` (misc.py:21-26). -/
def pythonVersion (X : Ext) (sh : Shell) : Out :=
  runLocal sh py"command -v python3" fun _ code =>
  if code ≠ 0 then ([], .error (.valueError, some textTool)) else
  runLocal sh py"python3 --version" fun out code2 =>
  if code2 ≠ 0 then ([], .error (.valueError, some (textCode code2))) else ([pyStrip' X.uni.space out], .ok ())

/-- The whole program after `parse_args` (cli.py:183-293). -/
def run (X : Ext) (fs : FS) (sh : Shell) (setup : R Unit) (r : RawArgs) : Out :=
  match load X fs r with
  | .error e => ([], .error e)
  | .ok a =>
    match setup with
    | .error e => ([], .error (e, none))
    | .ok _ => if a.task = py"get_python_version" then pythonVersion X sh else quiet (cliDispatch X a)

end BT.Start
