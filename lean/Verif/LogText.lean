import Verif.TxLog
import Verif.Logger

/-!
# The text of the log

How a record becomes text on the console and in the log file (module_logger.py:74-91), without colours (`colorlog` not installed).
-/

namespace BT.Lg

/-- A record as the `logging` library has it: besides logger, level and text the function and line of the code where it was logged, and the time of
the record if `log_timestamp` is set. -/
structure Rec where
  time : Option Str
  level : Nat
  logger : Str
  line : Nat
  func : Str
  text : Str
  deriving DecidableEq

/-- `%(levelname)s` (`logging.getLevelName`). -/
def levelName (n : Nat) : Str :=
  if n = 10 then py"DEBUG" else if n = 20 then py"INFO" else if n = 30 then py"WARNING" else if n = 40 then py"ERROR"
  else if n = 50 then py"CRITICAL" else py"Level " ++ pyStr n

/-- `%-8s` -/
def pad8 (s : Str) : Str := s ++ List.replicate (8 - s.length) ' '

/-- `'%(asctime)s %(levelname)-8s [NAME: %(lineno)s (%(funcName)s)] %(message)s'`, the time only if `log_timestamp` is set (module_logger.py:74-87).
The records are logged without arguments, so a `%` in a text stays as it is; the names of the loggers contain none. -/
def Rec.shown (r : Rec) : Str :=
  (match r.time with
    | some t => t ++ py" "
    | none => []) ++ (pad8 (levelName r.level) ++ (py" [" ++ (r.logger ++ (py": " ++ (pyStr r.line ++ (py" (" ++ (r.func ++ (py")] " ++ r.text))))))))

/-- The text of the log: every record is followed by a line break (`StreamHandler.terminator`; module_logger.py:130-160). -/
def logText (rs : List Rec) : Str := rs.flatMap fun r => r.shown ++ py"\n"

/-- "Setup complete." of each `setup`, in the order of the loggers (cli.py:59, bitcoin_toolset/__init__.py:40, code/__init__.py:44, hello.py:44, basic.py:49,
create_transaction.py:52, transaction.py:51, transaction_input.py:46, transaction_output.py:46, submodules/__init__.py:41), if no `setup` fails. -/
def setupEv : List Ev := loggerNames.map fun n => .log n 10 py"Setup complete."

/-- All that the program logs and prints: the lines of the set-up, then those of the task (cli.py:258-293). -/
def programEv (E : Msg.Env) (X : Ext) (sh : Shell) (a : CliArgs) : List Ev := setupEv ++ (task E X sh a).ev

end BT.Lg
