import Verif.Argparse

/-!
# Command lines, as the help text describes them

A command line is a list of settings, each written in one of the usual ways.  The meaning of a
list of settings is the record the tasks receive.
-/

namespace BT.Spec

/-- What one option of the command line says. -/
inductive Setting
  | task (v : Str) | keyHex (vs : List Str) | keyFile (vs : List Str) | keyDir (v : Str) | keyWif (v : Str)
  | publicKey (v : Str) | signature (v : Str) | data (v : Str) | dataFile (v : Str) | inputFile (v : Str) | designFile (v : Str)
  | logLevel (v : Str) | debug | logTimestamp | logToFile | logFile (v : Str)

/-- The long name of the option (README.md, `--help`). -/
def Setting.long : Setting → Str
  | .task _ => py"--task"
  | .keyHex _ => py"--private-key-hex"
  | .keyFile _ => py"--private-key-file"
  | .keyDir _ => py"--private-key-dir"
  | .keyWif _ => py"--private-key-wif"
  | .publicKey _ => py"--public-key-hex"
  | .signature _ => py"--signature-hex"
  | .data _ => py"--data"
  | .dataFile _ => py"--data-file"
  | .inputFile _ => py"--input-file"
  | .designFile _ => py"--design-file"
  | .logLevel _ => py"--log-level"
  | .debug => py"--debug"
  | .logTimestamp => py"--log-timestamp"
  | .logToFile => py"--log-to-file"
  | .logFile _ => py"--log-file"

/-- The one-letter name, if there is one. -/
def Setting.short : Setting → Option Str
  | .task _ => some py"-t"
  | .logLevel _ => some py"-l"
  | .debug => some py"-d"
  | .logTimestamp => some py"-s"
  | .logToFile => some py"-x"
  | .logFile _ => some py"-z"
  | _ => none

/-- The values. -/
def Setting.values : Setting → List Str
  | .task v | .keyDir v | .keyWif v | .publicKey v | .signature v | .data v | .dataFile v | .inputFile v | .designFile v
  | .logLevel v | .logFile v => [v]
  | .keyHex vs | .keyFile vs => vs
  | .debug | .logTimestamp | .logToFile => []

/-- All long names. -/
def longNames : List Str :=
  [py"--help", py"--task", py"--private-key-hex", py"--private-key-file", py"--private-key-dir", py"--private-key-wif",
   py"--public-key-hex", py"--signature-hex", py"--data", py"--data-file", py"--input-file", py"--design-file", py"--log-level",
   py"--debug", py"--log-timestamp", py"--log-to-file", py"--log-file"]

/-- `n` names the option with the long name `full`: it is that name, or the beginning of it and of no other name. -/
def Abbreviates (n full : Str) : Prop := n = full ∨ (n <+: full ∧ ∀ m ∈ longNames, n <+: m → m = full)

/-- A value that does not begin with a dash. -/
def NoDash (v : Str) : Prop := v.head? ≠ some '-'

/-- The ways to write a setting on the command line. -/
inductive Written (s : Setting) : List Str → Prop
  /-- the name and the values as separate words -/
  | words (n : Str) : Abbreviates n s.long → (∀ v ∈ s.values, NoDash v) → Written s (n :: s.values)
  /-- `--name=value`; the value is arbitrary -/
  | equals (n v : Str) : Abbreviates n s.long → s.values = [v] → Written s [n ++ '=' :: v]
  /-- the one-letter name and the value as separate words -/
  | shortWords (n : Str) : s.short = some n → (∀ v ∈ s.values, NoDash v) → Written s (n :: s.values)
  /-- `-n=value` -/
  | shortEquals (n v : Str) : s.short = some n → s.values = [v] → Written s [n ++ '=' :: v]
  /-- `-nvalue` -/
  | glued (n : Str) (c : Char) (v : Str) : s.short = some n → s.values = [c :: v] → c ≠ '=' → Written s [n ++ c :: v]

/-- The setting is one the help text allows: at least one key or key file, one of the four log levels. -/
def Setting.Allowed : Setting → Prop
  | .keyHex vs | .keyFile vs => vs ≠ []
  | .logLevel v => v ∈ [py"debug", py"info", py"warning", py"error"]
  | _ => True

/-- Where the private keys come from, and where the data come from. -/
def Setting.source : Setting → Option (Bool × Nat)
  | .keyHex _ => some (true, 0)
  | .keyFile _ => some (true, 1)
  | .keyDir _ => some (true, 2)
  | .keyWif _ => some (true, 3)
  | .data _ => some (false, 0)
  | .dataFile _ => some (false, 1)
  | _ => none

/-- Two settings that may not be given together: different sources of keys, or different sources
of data. -/
def Clash (a b : Setting) : Prop :=
  ∃ g i j, a.source = some (g, i) ∧ b.source = some (g, j) ∧ i ≠ j

/-- The last value given, if any. -/
def lastValue (f : Setting → Option Str) (l : List Setting) : Option Str := (l.filterMap f).getLast?

/-- the value, if it is this setting -/
def keyHexOf : Setting → Option (List Str)
  | .keyHex v => some v
  | _ => none

/-- the value, if it is this setting -/
def keyFileOf : Setting → Option (List Str)
  | .keyFile v => some v
  | _ => none

/-- the value, if it is this setting -/
def keyDirOf : Setting → Option (Str)
  | .keyDir v => some v
  | _ => none

/-- the value, if it is this setting -/
def keyWifOf : Setting → Option (Str)
  | .keyWif v => some v
  | _ => none

/-- the value, if it is this setting -/
def dataOf : Setting → Option (Str)
  | .data v => some v
  | _ => none

/-- the value, if it is this setting -/
def dataFileOf : Setting → Option (Str)
  | .dataFile v => some v
  | _ => none

/-- the value, if it is this setting -/
def logLevelOf : Setting → Option (Str)
  | .logLevel v => some v
  | _ => none

/-- The meaning of a list of settings: the last value of each option counts, keys and key files
accumulate. -/
def meaning (l : List Setting) : Namespace where
  task := (lastValue (fun | .task v => some v | _ => none) l).getD py"hello"
  privateKeyHex := l.filterMap keyHexOf
  privateKeyFile := l.filterMap keyFileOf
  privateKeyDir := lastValue keyDirOf l
  privateKeyWif := lastValue keyWifOf l
  publicKeyHex := lastValue (fun | .publicKey v => some v | _ => none) l
  signatureHex := lastValue (fun | .signature v => some v | _ => none) l
  data := lastValue dataOf l
  dataFile := lastValue dataFileOf l
  inputFile := lastValue (fun | .inputFile v => some v | _ => none) l
  designFile := lastValue (fun | .designFile v => some v | _ => none) l
  logLevel := (lastValue logLevelOf l).getD py"error"
  debug := l.any fun | .debug => true | _ => false
  logTimestamp := l.any fun | .logTimestamp => true | _ => false
  logToFile := l.any fun | .logToFile => true | _ => false
  logFile := (lastValue (fun | .logFile v => some v | _ => none) l).getD py"log_bitcoin_toolset.txt"

end BT.Spec
