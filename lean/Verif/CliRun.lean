import Verif.Cli

/-!
# `cli.py`: from the command line to the exit status

The whole of `main` (cli.py:73-293) after `parser.parse_args()`: loading data, keys and files,
the checks, logger set-up and the call of the task.  The file system is a parameter.
`argparse` itself (option syntax, mutually exclusive groups, exit status 2) is modelled in `Argparse.lean`.
-/

namespace BT

/-- The file system as far as `cli.py` reads it: `open(path).read()` (text mode) and
`os.listdir(path)`, each of which may raise. -/
structure FS where
  read : Str → R Str
  listDir : Str → R (List Str)

/-- The result of `parser.parse_args()` (cli.py:77-174).  The two options with `nargs='+'` and
`action='append'` give lists of lists; an absent option is the empty list here (`None` in the
code, equally falsy). -/
structure RawArgs where
  task : Str := py"hello"
  privateKeyHex : List (List Str) := []
  privateKeyFile : List (List Str) := []
  privateKeyDir : Option Str := none
  privateKeyWif : Option Str := none
  publicKeyHex : Option Str := none
  signatureHex : Option Str := none
  data : Option Str := none
  dataFile : Option Str := none
  inputFile : Option Str := none
  designFile : Option Str := none

/-- `if s:` for an optional string: present and not empty. -/
def given : Option Str → Option Str
  | some (c :: cs) => some (c :: cs)
  | _ => none

/-- `os.path.splitext(x)[1] == '.txt'` (cli.py:204) for a name without a slash: it ends in
`.txt` and something other than dots comes before. -/
def isTxt (x : Str) : Bool :=
  lastK 4 x == py".txt" && (dropLastK 4 x).any fun c => c != '.'

/-- `os.path.join(d, x)` (cli.py:204) for a name that does not start with a slash. -/
def pathJoin (d x : Str) : Str :=
  if d = [] ∨ d.getLast? = some '/' then d ++ x else d ++ '/' :: x

/-- `open(x).read().strip()` (cli.py:200,205). -/
def readKey (X : Ext) (fs : FS) (x : Str) : R Str := do
  let s ← fs.read x
  pure (pyStrip' X.uni.space s)

/-- The `.txt` files of the key directory (cli.py:203-205). -/
def keyFilesOfDir (fs : FS) (dir : Option Str) : R (List Str) :=
  match given dir with
  | none => .ok []
  | some d => do
    let l ← fs.listDir d
    pure ((l.filter isTxt).map (pathJoin d))

/-- Loading the private keys (cli.py:190-205): the keys of `--private-key-hex`, then those of
`--private-key-file`, then those of `--private-key-dir`. -/
def loadKeys (X : Ext) (fs : FS) (r : RawArgs) : R (List Str) := do
  let k2 ← mapR (readKey X fs) r.privateKeyFile.flatten
  let files ← keyFilesOfDir fs r.privateKeyDir
  let k3 ← mapR (readKey X fs) files
  pure (r.privateKeyHex.flatten ++ k2 ++ k3)

/-- Loading the data (cli.py:187-188). -/
def loadData (fs : FS) (r : RawArgs) : R (Option Str) :=
  match given r.dataFile with
  | none => .ok r.data
  | some f => do
    let s ← fs.read f
    pure (some s)

/-- `json.load(open(path))` (cli.py:246,250). -/
def loadJson (X : Ext) (fs : FS) (path : Str) : R PVal := do
  let s ← fs.read path
  X.jsonLoads s

/-- The two transaction files (cli.py:228-252): both options are checked before either file is
read. -/
def loadFiles (X : Ext) (fs : FS) (r : RawArgs) : R (Option PVal × Option PVal) :=
  if r.task ∈ tasksRequireFiles then
    match given r.inputFile, given r.designFile with
    | some i, some d => do
      let x ← loadJson X fs i
      let y ← loadJson X fs d
      pure (some x, some y)
    | _, _ => .error .valueError
  else .ok (none, none)

/-- The checks between loading the keys and loading the files (cli.py:207-226). -/
def checkRaw (task : Str) (keys : List Str) (data : Option Str) : R Unit := do
  if task ∈ tasksSingleKey then assertR (keys.length == 1)
  if task ∈ tasksRequireData then check (given data).isSome .valueError

/-- Everything before the logger set-up (cli.py:183-252). -/
def cliLoad (X : Ext) (fs : FS) (r : RawArgs) : R CliArgs := do
  let data ← loadData fs r
  let keys ← loadKeys X fs r
  checkRaw r.task keys data
  let files ← loadFiles X fs r
  pure { task := r.task, data := data, privateKeysHex := keys, privateKeyWif := r.privateKeyWif,
         publicKeyHex := r.publicKeyHex, signatureHex := r.signatureHex, inputs := files.1,
         design := files.2 }

/-- What a shell command does: standard output, standard error (both already decoded as ASCII)
and exit code (misc.py:32-36). -/
abbrev Shell := Str → Str × Str × Int

/-- `run_local_cmd` (misc.py:31-40): if the command writes to standard error, a message is
printed and the program ends (`sys.exit()` without a status, misc.py:45-49). -/
def runLocal (sh : Shell) (cmd : Str) (k : Str → Int → CliOut) : CliOut :=
  if (sh cmd).2.1 ≠ [] then
    ([py"COMMAND FAILED" ++ '\n' :: py"$ " ++ cmd ++ '\n' :: (sh cmd).2.1], .ok ())
  else k (sh cmd).1 (sh cmd).2.2

/-- `get_python_version` (cli.py:318-331) with `shell_tool_exists` (misc.py:21-26). -/
def cliPythonVersion (X : Ext) (sh : Shell) : CliOut :=
  runLocal sh py"command -v python3" fun _ code =>
  if code ≠ 0 then ([], .error .valueError) else
  runLocal sh py"python3 --version" fun out code2 =>
  if code2 ≠ 0 then ([], .error .valueError) else ([pyStrip' X.uni.space out], .ok ())

/-- The task (cli.py:284-293). -/
def cliTask (X : Ext) (sh : Shell) (a : CliArgs) : CliOut :=
  if a.task = py"get_python_version" then cliPythonVersion X sh else cliDispatch X a

/-- `main` after `parse_args` (cli.py:183-293).  `setup` is the outcome of configuring the
loggers (cli.py:258-263). -/
def cliRun (X : Ext) (fs : FS) (sh : Shell) (setup : R Unit) (r : RawArgs) : CliOut :=
  bindOut (cliLoad X fs r) fun a =>
  bindOut setup fun _ =>
  cliTask X sh a

/-- Exit status of the interpreter: 1 after an uncaught exception; 0 after a normal end and
also after `stop(...)`, which calls `sys.exit()` without a status (cli.py:527-531). -/
def exitStatus (o : CliOut) : Nat :=
  match o.2 with
  | .ok _ => 0
  | .error _ => 1

end BT
