import Verif.CliRun

/-!
# `cli.py`: the command line (`argparse`)

The parser that cli.py:77-174 builds, and what `ArgumentParser.parse_args` of the standard library
(version 3.11.10) does with it: no positional arguments, prefix character '-', abbreviations allowed.
Texts of usage and help messages are not modelled.
-/

namespace BT

/-- The options of the parser (cli.py:81-172), `help` is added by `argparse`. -/
inductive Opt
  | help | task | keyHex | keyFile | keyDir | keyWif | publicKey | signature | data | dataFile | inputFile | designFile
  | logLevel | debug | logTimestamp | logToFile | logFile
  deriving DecidableEq, Repr

/-- All option strings in the order of definition (cli.py:81-172). -/
def optionStrings : List (Str × Opt) :=
  [(py"-h", .help), (py"--help", .help), (py"-t", .task), (py"--task", .task), (py"--private-key-hex", .keyHex),
   (py"--private-key-file", .keyFile), (py"--private-key-dir", .keyDir), (py"--private-key-wif", .keyWif),
   (py"--public-key-hex", .publicKey), (py"--signature-hex", .signature), (py"--data", .data), (py"--data-file", .dataFile),
   (py"--input-file", .inputFile), (py"--design-file", .designFile), (py"-l", .logLevel), (py"--log-level", .logLevel),
   (py"-d", .debug), (py"--debug", .debug), (py"-s", .logTimestamp), (py"--log-timestamp", .logTimestamp),
   (py"-x", .logToFile), (py"--log-to-file", .logToFile), (py"-z", .logFile), (py"--log-file", .logFile)]

/-- `self._option_string_actions.get(s)` -/
def findOption (s : Str) : Option Opt := (optionStrings.find? fun p => p.1 = s).map (·.2)

/-- How many arguments an option takes: `nargs` absent, `'+'`, or an action without arguments. -/
inductive Nargs
  | zero | one | many
  deriving DecidableEq

/-- cli.py:81-172 -/
def Opt.nargs : Opt → Nargs
  | .help | .debug | .logTimestamp | .logToFile => .zero
  | .keyHex | .keyFile => .many
  | _ => .one

/-- The two mutually exclusive groups (cli.py:87-109, 121-131): the options that may not be given
together with this one. -/
def Opt.conflicts : Opt → List Opt
  | .keyHex => [.keyFile, .keyDir, .keyWif]
  | .keyFile => [.keyHex, .keyDir, .keyWif]
  | .keyDir => [.keyHex, .keyFile, .keyWif]
  | .keyWif => [.keyHex, .keyFile, .keyDir]
  | .data => [.dataFile]
  | .dataFile => [.data]
  | _ => []

/-- What `parse_args` returns (cli.py:174): the options the tasks use and those for logging, with
their defaults. -/
structure Namespace extends RawArgs where
  logLevel : Str := py"error"
  debug : Bool := false
  logTimestamp : Bool := false
  logToFile : Bool := false
  logFile : Str := py"log_bitcoin_toolset.txt"

/-- One command-line string as `argparse` sees it: `--`, an argument, or an option: which (none
if there is no such option), whether it was written with a single dash, whether there was an `=`, and what
followed in the same string. -/
inductive Tok
  | dashes
  | arg
  | opt (o : Option Opt) (short : Bool) (sep : Bool) (explicit : Option Str)
  deriving DecidableEq

/-- `s.partition('=')` if there is an '=' -/
def splitEq (s : Str) : Option (Str × Str) :=
  match s.dropWhile (· != '=') with
  | [] => none
  | _ :: r => some (s.takeWhile (· != '='), r)

/-- `_negative_number_matcher.match(s)`: the regular expressions `^-\d+$` and `^-\d*\.\d+$`; `$` also matches before a
final newline. -/
def negativeNumber (u : UniDB) (s : Str) : Bool :=
  let t := if s.getLast? = some '\n' then s.dropLast else s
  let digits : Str → Bool := fun d => !d.isEmpty && d.all fun c => (decVal u c).isSome
  match t with
  | '-' :: r => digits r ||
      match r.dropWhile fun c => (decVal u c).isSome with
      | '.' :: f => digits f
      | _ => false
  | _ => false

/-- `_get_option_tuples`: the options a string may mean. -/
def optionTuples (s : Str) : List Tok :=
  match s with
  | '-' :: '-' :: _ =>
    match splitEq s with
    | some (p, e) => (optionStrings.filter fun q => p.isPrefixOf q.1).map fun q => .opt (some q.2) (q.1[1]? != some '-') true (some e)
    | none => (optionStrings.filter fun q => s.isPrefixOf q.1).map fun q => .opt (some q.2) (q.1[1]? != some '-') false none
  | _ => optionStrings.filterMap fun q =>
      if q.1 = s.take 2 then some (.opt (some q.2) true false (some (s.drop 2)))
      else if s.isPrefixOf q.1 then some (.opt (some q.2) (q.1[1]? != some '-') false none)
      else none

/-- `_parse_optional`; `none`: the string is ambiguous, the program ends with status 2. -/
def parseOptional (u : UniDB) (s : Str) : Option Tok :=
  match s with
  | '-' :: _ =>
    match findOption s with
    | some o => some (.opt (some o) (s[1]? != some '-') false none)
    | none =>
      if s.length = 1 then some .arg else
      match (splitEq s).bind fun p => (findOption p.1).map fun o => Tok.opt (some o) (s[1]? != some '-') true (some p.2) with
      | some t => some t
      | none =>
        match optionTuples s with
        | [t] => some t
        | _ :: _ :: _ => none
        | [] => if negativeNumber u s then some .arg else if ' ' ∈ s then some .arg else some (.opt none false false none)
  | _ => some .arg

/-- The first loop of `_parse_known_args`: after `--` everything is an argument. -/
def classify (u : UniDB) : List Str → Option (List (Str × Tok))
  | [] => some []
  | s :: rest =>
    if s = py"--" then some ((s, .dashes) :: rest.map fun a => (a, .arg))
    else (parseOptional u s).bind fun t => (classify u rest).map fun l => (s, t) :: l

/-- State of the second loop: the result so far, the options seen, whether something was not
recognised. -/
structure ParseState where
  ns : Namespace := {}
  seen : List Opt := []
  extras : Bool := false

/-- Outcome of the command line: a namespace, the help text (status 0) or a usage error
(status 2). -/
inductive Parsed
  | ok (ns : Namespace)
  | help
  | usage

/-- The values `choices` allows for `--log-level` (cli.py:143-148). -/
def logLevels : List Str := [py"debug", py"info", py"warning", py"error"]

/-- The action of an option (cli.py:81-172): `store`, `append`, `store_true`. -/
def Namespace.set (ns : Namespace) (o : Opt) (args : List Str) : Namespace :=
  let v := args.headD []
  match o with
  | .help => ns
  | .task => { ns with task := v }
  | .keyHex => { ns with privateKeyHex := ns.privateKeyHex ++ [args] }
  | .keyFile => { ns with privateKeyFile := ns.privateKeyFile ++ [args] }
  | .keyDir => { ns with privateKeyDir := some v }
  | .keyWif => { ns with privateKeyWif := some v }
  | .publicKey => { ns with publicKeyHex := some v }
  | .signature => { ns with signatureHex := some v }
  | .data => { ns with data := some v }
  | .dataFile => { ns with dataFile := some v }
  | .inputFile => { ns with inputFile := some v }
  | .designFile => { ns with designFile := some v }
  | .logLevel => { ns with logLevel := v }
  | .debug => { ns with debug := true }
  | .logTimestamp => { ns with logTimestamp := true }
  | .logToFile => { ns with logToFile := true }
  | .logFile => { ns with logFile := v }

/-- `take_action`: check of `choices`, of the mutually exclusive groups, then the action. -/
def takeAction (st : ParseState) (o : Opt) (args : List Str) : Except Parsed ParseState :=
  if o = .logLevel ∧ args.headD [] ∉ logLevels then .error .usage
  else if o.conflicts.any fun c => c ∈ st.seen then .error .usage
  else if o = .help then .error .help
  else .ok { st with ns := st.ns.set o args, seen := o :: st.seen }

/-- The actions found in one string, in order. -/
def takeActions (st : ParseState) : List (Opt × List Str) → Except Parsed ParseState
  | [] => .ok st
  | (o, args) :: l => takeAction st o args >>= fun st' => takeActions st' l

/-- `match_argument` on the strings that follow: the arguments taken and the rest; `none` if there
are not enough. -/
def matchFollowing (o : Opt) (rest : List (Str × Tok)) : Option (List Str × List (Str × Tok)) :=
  match o.nargs with
  | .zero => some ([], rest)
  | .one =>
    match rest with
    | (a, .arg) :: rest' => some ([a], rest')
    | _ => none
  | .many =>
    match rest with
    | (_, .arg) :: _ => some ((rest.takeWhile fun p => p.2 = .arg).map (·.1), rest.dropWhile fun p => p.2 = .arg)
    | _ => none

/-- The inner loop of `consume_optional` over the letters of one string: the actions found, whether
the remainder was not recognised, and the strings left.  `short`: the current option has a single dash.  -/
def bundle (o : Opt) (short sep : Bool) : Str → List (Str × Tok) → Option (List (Opt × List Str) × Bool × List (Str × Tok))
  | e, rest =>
    if o.nargs ≠ .zero then some ([(o, [e])], false, rest)
    else if !short then none
    else match e with
      | [] => none
      | c :: e' =>
        if sep ∨ c = '-' then none
        else match findOption ['-', c] with
          | none => some ([(o, [])], true, rest)
          | some o' =>
            match e' with
            | [] => (matchFollowing o' rest).map fun r => ([(o, []), (o', r.1)], false, r.2)
            | '=' :: e'' =>
              if o'.nargs ≠ .zero then some ([(o, []), (o', [e''])], false, rest) else none
            | d :: e'' => (bundle o' true false (d :: e'') rest).map fun r => ((o, []) :: r.1, r.2.1, r.2.2)
  termination_by e => e.length

/-- The second loop of `_parse_known_args`.  `fuel` bounds the number of strings
(`parseLoop_fuel`: it never runs out). -/
def parseLoop : Nat → ParseState → List (Str × Tok) → Except Parsed ParseState
  | _, st, [] => .ok st
  | 0, _, _ => .error .usage
  | n + 1, st, (_, .opt (some o) _ _ none) :: rest =>
    match matchFollowing o rest with
    | none => .error .usage
    | some (args, rest') => takeAction st o args >>= fun st' => parseLoop n st' rest'
  | n + 1, st, (_, .opt (some o) short sep (some e)) :: rest =>
    match bundle o short sep e rest with
    | none => .error .usage
    | some (acts, more, rest') => takeActions st acts >>= fun st' => parseLoop n { st' with extras := st'.extras || more } rest'
  | n + 1, st, _ :: rest => parseLoop n { st with extras := true } rest

/-- `parser.parse_args()` (cli.py:174) on the strings after the program name: unrecognised strings
are refused at the end. -/
def parseArgs (u : UniDB) (argv : List Str) : Parsed :=
  match classify u argv with
  | none => .usage
  | some l =>
    match parseLoop l.length {} l with
    | .error r => r
    | .ok st => if st.extras then .usage else .ok st.ns

/-- What `main` (cli.py:73-293) prints on standard output and its exit status.  `setup` configures the loggers
(cli.py:183-185, 258-263) from log level, debug, timestamp and log file. -/
def cliProgram (X : Ext) (fs : FS) (sh : Shell) (helpText : Str) (setup : Str → Bool → Bool → Option Str → R Unit) (argv : List Str) :
    List Str × Nat :=
  match parseArgs X.uni argv with
  | .usage => ([], 2)
  | .help => ([helpText], 0)
  | .ok ns =>
    let o := cliRun X fs sh (setup ns.logLevel ns.debug ns.logTimestamp (if ns.logToFile then some ns.logFile else none)) ns.toRawArgs
    (o.1, exitStatus o)

end BT
