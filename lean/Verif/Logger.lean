import Verif.PVal
import Verif.Tx

/-!
# `bitcoin_toolset/util/module_logger.py`
-/

namespace BT

/-- A handler that was added to the logger. -/
inductive Handler
  | console (level : Nat)
  | file (path : Str) (level : Nat)
  deriving DecidableEq

/-- State of a `logging.Logger` as far as `configure_module_logger` touches it.  Handlers
added elsewhere (the NullHandler) are not listed. -/
structure Logger where
  initialised : Bool := false
  propagate : Bool := true
  /-- `logging.ERROR` = 40 (set at module import, e.g. basic.py:27) -/
  level : Nat := 40
  levelStr : Option Str := none
  handlers : List Handler := []
  deriving DecidableEq

/-- The `levels` dict (module_logger.py:56-61). -/
def levelOf (s : Str) : Option Nat :=
  if s = py"error" then some 40
  else if s = py"warning" then some 30
  else if s = py"info" then some 20
  else if s = py"debug" then some 10
  else none

/-- `validate_string` (validate.py:374-378) on an argument. -/
def logStr : PVal → R Str
  | .str s => .ok s
  | _ => .error .typeError

/-- `validate_boolean` (validate.py:273-277) on an argument. -/
def logBool : PVal → R Bool
  | .bool b => .ok b
  | _ => .error .typeError

/-- The checks of module_logger.py:45-51. -/
def validateLoggerArgs (name logLevel debug timestamp logFile : PVal) : R (Str × Bool) := do
  let _ ← logStr name
  let ls ← logStr logLevel
  let db ← logBool debug
  let _ ← (if timestamp.isNone then .ok false else logBool timestamp)
  let _ ← (if logFile.isNone then .ok [] else logStr logFile)
  pure (ls, db)

/-- `configure_module_logger` (module_logger.py:33-164).  `fsOk` says whether creating the log
directory succeeds (module_logger.py:148-151); an `OSError` there leaves the console handler
in place and `initialised` unset.  Formats and colours are not modelled. -/
def Logger.configure (fsOk : Bool) (l : Logger) (name logLevel debug timestamp logFile : PVal) :
    Logger × R Unit :=
  if l.initialised then (l, .ok ())
  else match validateLoggerArgs name logLevel debug timestamp logFile with
  | .error e => (l, .error e)
  | .ok (ls, db) =>
    let l := { l with propagate := false }
    let lstr := if db then py"debug" else ls
    match levelOf lstr with
    | none => (l, .error .keyError)
    | some lev =>
      let l := { l with level := lev, levelStr := some lstr }
      let l := { l with handlers := l.handlers ++ [Handler.console lev] }
      match logFile with
      | .str (c :: cs) =>
        if !fsOk then (l, .error .osError)
        else
          let l := { l with handlers := l.handlers ++ [Handler.file (c :: cs) lev] }
          ({ l with initialised := true }, .ok ())
      | _ => ({ l with initialised := true }, .ok ())

/-- The convenience method `setLevelStr` (module_logger.py:68-73); the attribute exists once a
call of `configure_module_logger` got as far as setting the level. -/
def Logger.setLevelStr (l : Logger) (s : Str) : Logger × R Unit :=
  if l.levelStr = none then (l, .error .attributeError)
  else match levelOf s with
  | none => (l, .error .keyError)
  | some lev => ({ l with level := lev, levelStr := some s }, .ok ())

/-- Level of a handler (module_logger.py:134,140,155). -/
def Handler.level : Handler → Nat
  | .console n => n
  | .file _ n => n

/-- The handlers that write a message of level `n` (`logging.Logger.isEnabledFor` and
`callHandlers` of the standard library; only the handlers added by `configure_module_logger`
are listed, propagation to parents is off after configuration). -/
def Logger.writes (l : Logger) (n : Nat) : List Handler :=
  if n < l.level then [] else l.handlers.filter fun h => h.level ≤ n

/-- A use of a logger: `configure_module_logger` (with the outcome of creating the log
directory) or `setLevelStr`. -/
inductive LogCall
  | configure (fsOk : Bool) (name logLevel debug timestamp logFile : PVal)
  | setLevel (s : Str)

/-- One use of a logger. -/
def Logger.step (l : Logger) : LogCall → Logger × R Unit
  | .configure fs n lv d ts f => l.configure fs n lv d ts f
  | .setLevel s => l.setLevelStr s

/-- A history of uses, exceptions caught by the caller: final state and outcomes. -/
def Logger.run (l : Logger) : List LogCall → Logger × List (R Unit)
  | [] => (l, [])
  | c :: cs => ((Logger.run (l.step c).1 cs).1, (l.step c).2 :: (Logger.run (l.step c).1 cs).2)

/-- `setup` of a package with its modules in the order in which they are configured
(`bitcoin_toolset/__init__.py:25-53`, `code/__init__.py:29-82`, `submodules/__init__.py:26-61`,
`cli.py:43-68`): the first exception ends it.  `fsOk k` is the outcome of creating the log
directory for module `k`. -/
def setupAll (logLevel debug timestamp logFile : PVal) : List (Str × Bool × Logger) → List Logger × R Unit
  | [] => ([], .ok ())
  | (name, fs, l) :: rest =>
    match l.configure fs (.str name) logLevel debug timestamp logFile with
    | (l', .error e) => (l' :: rest.map fun x => x.2.2, .error e)
    | (l', .ok ()) =>
      ((l' :: (setupAll logLevel debug timestamp logFile rest).1), (setupAll logLevel debug timestamp logFile rest).2)

/-- The loggers in the order in which `setup` of `cli.py` configures them (cli.py:43-68,
bitcoin_toolset/__init__.py:25-53, code/__init__.py:29-82, submodules/__init__.py:26-61). -/
def loggerNames : List Str :=
  [py"cli", py"bitcoin_toolset", py"bitcoin_toolset.code", py"bitcoin_toolset.code.hello", py"bitcoin_toolset.code.basic",
   py"bitcoin_toolset.code.create_transaction", py"bitcoin_toolset.code.transaction", py"bitcoin_toolset.code.transaction_input",
   py"bitcoin_toolset.code.transaction_output", py"bitcoin_toolset.submodules"]

/-- One `configure_module_logger` followed by `deb('Setup complete.')`, which opens the log file if the level
lets it through (`FileHandler` with `delay=True`; `openOk` says whether opening succeeds). -/
def setupOne (dirOk openOk : Bool) (name logLevel : Str) (debug timestamp : Bool) (logFile : Option Str) : R Unit :=
  let r := Logger.configure dirOk {} (.str name) (.str logLevel) (.bool debug) (.bool timestamp)
    (match logFile with | some f => .str f | none => .none)
  match r.2 with
  | .error e => .error e
  | .ok () =>
    if (r.1.writes 10).any (fun | .file _ _ => !openOk | .console _ => false) then .error .osError else .ok ()

/-- `setup` of `cli.py` on loggers that were not used before: the ten loggers in order, then the three
packages outside the repository (`submodules/`; their `setup` is the parameter `sub`). -/
def cliSetup (dirOk openOk : Bool) (sub : Str → Bool → Bool → Option Str → R Unit) (logLevel : Str) (debug timestamp : Bool)
    (logFile : Option Str) : R Unit := do
  let _ ← mapR (fun n => setupOne dirOk openOk n logLevel debug timestamp logFile) loggerNames
  sub logLevel debug timestamp logFile

end BT
