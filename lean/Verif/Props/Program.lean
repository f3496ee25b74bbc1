import Verif.Props.Args
import Verif.Props.Real
import Verif.Logger

/-! # C97, C98: the program, from the command line to its output and exit status -/

namespace BT
open Spec Concrete

attribute [local irreducible] ecMul invMod hex32 pP nP gX gY rfcNonce ofHex ecVerify sha256 ripemd160 derEnc

/-- A command line that is a list of settings runs the program on their meaning. -/
theorem program_settings (X : Ext) (fs : FS) (sh : Shell) (help : Str) (setup : Str → Bool → Bool → Option Str → R Unit)
    (l : List Setting) (wss : List (List Str)) (hw : List.Forall₂ Written l wss) (ha : ∀ s ∈ l, s.Allowed) (hc : l.Pairwise fun a b => ¬ Clash a b) :
    cliProgram X fs sh help setup wss.flatten =
      ((cliRun X fs sh (setup (meaning l).logLevel (meaning l).debug (meaning l).logTimestamp
        (if (meaning l).logToFile then some (meaning l).logFile else none)) (meaning l).toRawArgs).1,
       exitStatus (cliRun X fs sh (setup (meaning l).logLevel (meaning l).debug (meaning l).logTimestamp
        (if (meaning l).logToFile then some (meaning l).logFile else none)) (meaning l).toRawArgs)) := by
  unfold cliProgram
  rw [C95_settings X.uni l wss hw ha hc]

/-- **C97**: the exit status is 0, 1 or 2; it is 2 exactly if the command line is refused, and then
nothing is printed on standard output and neither files nor shell play a role. -/
theorem C97_status (X : Ext) (fs : FS) (sh : Shell) (help : Str) (setup : Str → Bool → Bool → Option Str → R Unit) (argv : List Str) :
    (cliProgram X fs sh help setup argv).2 ≤ 2 ∧
    ((cliProgram X fs sh help setup argv).2 = 2 ↔ parseArgs X.uni argv = .usage) ∧
    ((cliProgram X fs sh help setup argv).2 = 2 → ∀ fs' sh' setup', cliProgram X fs' sh' help setup' argv = ([], 2)) := by
  have e : ∀ o : CliOut, exitStatus o ≤ 1 := by intro o; unfold exitStatus; split <;> simp
  unfold cliProgram
  cases h : parseArgs X.uni argv with
  | usage => simp
  | help => simp
  | ok ns =>
    simp only
    have := e (cliRun X fs sh (setup ns.logLevel ns.debug ns.logTimestamp (if ns.logToFile then some ns.logFile else none)) ns.toRawArgs)
    refine ⟨by omega, ?_, ?_⟩
    · constructor
      · intro h; omega
      · intro h; simp at h
    · intro h; omega

theorem setupOne_ok (dirOk openOk : Bool) (name lv : Str) (debug ts : Bool) (f : Option Str)
    (hl : lv ∈ [py"debug", py"info", py"warning", py"error"]) (hf : f = none ∨ (dirOk = true ∧ openOk = true)) :
    setupOne dirOk openOk name lv debug ts f = .ok () := by
  have h : lv = py"debug" ∨ lv = py"info" ∨ lv = py"warning" ∨ lv = py"error" := by simpa using hl
  rcases hf with rfl | ⟨rfl, rfl⟩
  · rcases h with rfl | rfl | rfl | rfl <;> cases debug <;> rfl
  · match f with
    | none => rcases h with rfl | rfl | rfl | rfl <;> cases debug <;> rfl
    | some [] => rcases h with rfl | rfl | rfl | rfl <;> cases debug <;> rfl
    | some (c :: cs) => rcases h with rfl | rfl | rfl | rfl <;> cases debug <;> rfl

theorem mapR_unit_ok {α : Type} (f : α → R Unit) (l : List α) (h : ∀ x ∈ l, f x = .ok ()) : ∃ r, mapR f l = .ok r := by
  induction l with
  | nil => exact ⟨_, rfl⟩
  | cons x l ih =>
    obtain ⟨r, hr⟩ := ih fun y hy => h y (List.mem_cons_of_mem _ hy)
    exact ⟨() :: r, by simp [mapR, h x (by simp), hr]⟩

/-- **C97**: whatever the command line, setting up the logs cannot fail if no log file is asked for, or if its
directory can be made and the file can be opened. -/
theorem C97_setup (u : UniDB) (argv : List Str) (ns : Namespace) (h : parseArgs u argv = .ok ns) (dirOk openOk : Bool)
    (hf : ns.logToFile = false ∨ (dirOk = true ∧ openOk = true)) (sub : Str → Bool → Bool → Option Str → R Unit) :
    cliSetup dirOk openOk sub ns.logLevel ns.debug ns.logTimestamp (if ns.logToFile then some ns.logFile else none) =
      sub ns.logLevel ns.debug ns.logTimestamp (if ns.logToFile then some ns.logFile else none) := by
  obtain ⟨_, _, hl⟩ := C94_exclusive u argv ns h
  unfold cliSetup
  obtain ⟨r, hr⟩ := mapR_unit_ok (fun n => setupOne dirOk openOk n ns.logLevel ns.debug ns.logTimestamp
    (if ns.logToFile then some ns.logFile else none)) loggerNames fun n _ => setupOne_ok _ _ _ _ _ _ _ hl (hf.imp (fun e => by simp [e]) id)
  rw [hr]
  rfl

/-- **C97**: a log file that cannot be opened stops the set-up exactly if debug messages are logged: the file is opened
with the first message, and during the set-up there are debug messages only. -/
theorem C97_log_file (u : UniDB) (argv : List Str) (ns : Namespace) (h : parseArgs u argv = .ok ns) (hf : ns.logToFile = true)
    (hn : ns.logFile ≠ []) (sub : Str → Bool → Bool → Option Str → R Unit) :
    cliSetup true false sub ns.logLevel ns.debug ns.logTimestamp (some ns.logFile) =
      if ns.debug = true ∨ ns.logLevel = py"debug" then .error .osError
      else sub ns.logLevel ns.debug ns.logTimestamp (some ns.logFile) := by
  obtain ⟨_, _, hl⟩ := C94_exclusive _ argv ns h
  have h4 : ns.logLevel = py"debug" ∨ ns.logLevel = py"info" ∨ ns.logLevel = py"warning" ∨ ns.logLevel = py"error" := by simpa using hl
  obtain ⟨c, cs, hcs⟩ := List.exists_cons_of_ne_nil hn
  rw [hcs]
  rcases h4 with e | e | e | e <;> rw [e] <;> cases ns.debug <;> rfl

/-- **C97**: a log file whose directory cannot be made ends the program with exit status 1, before the task. -/
theorem C97_log_directory (X : Ext) (fs : FS) (sh : Shell) (help : Str) (sub : Str → Bool → Bool → Option Str → R Unit) (openOk : Bool)
    (argv : List Str) (ns : Namespace) (h : parseArgs X.uni argv = .ok ns) (hf : ns.logToFile = true) (hn : ns.logFile ≠ []) :
    cliProgram X fs sh help (cliSetup false openOk sub) argv = ([], 1) := by
  obtain ⟨_, _, hl⟩ := C94_exclusive _ argv ns h
  have h4 : ns.logLevel = py"debug" ∨ ns.logLevel = py"info" ∨ ns.logLevel = py"warning" ∨ ns.logLevel = py"error" := by simpa using hl
  obtain ⟨c, cs, hcs⟩ := List.exists_cons_of_ne_nil hn
  have hs : cliSetup false openOk sub ns.logLevel ns.debug ns.logTimestamp (some (c :: cs)) = .error .osError := by
    rcases h4 with e | e | e | e <;> rw [e] <;> cases ns.debug <;> rfl
  unfold cliProgram
  rw [h]
  simp only [hf, if_true, hcs, hs]
  unfold cliRun
  cases cliLoad X fs ns.toRawArgs with
  | error e => rfl
  | ok a => rfl

theorem get_address_run (X : Ext) (fs : FS) (sh : Shell) (k a : Str) (h : privateKeyToAddress X k = .ok a) :
    cliRun X fs sh (.ok ()) { task := py"get_address", privateKeyHex := [[k]] } = ([a], .ok ()) := by
  have h1 : cliLoad X fs { task := py"get_address", privateKeyHex := [[k]] } = .ok { task := py"get_address", privateKeysHex := [k] } := rfl
  unfold cliRun
  rw [h1]
  simp only [bindOut_ok]
  have h2 : cliTask X sh { task := py"get_address", privateKeysHex := [k] } = cliGetAddress X k := rfl
  rw [h2, cliGetAddress, h]
  rfl

/-- **C97**: `--task get_address --private-key-hex K`, in either order and in any spelling, prints
the address of K and ends with exit status 0, for every private key K. -/
theorem C97_get_address (fs : FS) (sh : Shell) (help : Str) (setup : Str → Bool → Bool → Option Str → R Unit)
    (hset : setup py"error" false false none = .ok ()) (b : Bytes) (hl : b.length = 32) (h1 : 1 ≤ beNat b) (h2 : beNat b < nP)
    (l : List Setting) (wss : List (List Str)) (hw : List.Forall₂ Written l wss) (hp : l.Perm [.task py"get_address", .keyHex [hex b]]) :
    ∃ (a : Str) (pk : Bytes), cliProgram Xreal fs sh help setup wss.flatten = ([a], 0) ∧ KeyBytes pk (beNat b • G) ∧
      AddressOf sha256 a (ripemd160 (sha256 (4 :: pk))) := by
  obtain ⟨a, pk, e1, e2, e3⟩ := C92_address b hl h1 h2
  refine ⟨a, pk, ?_, e2, e3⟩
  have hm : ∀ s ∈ l, s = .task py"get_address" ∨ s = .keyHex [hex b] := by
    intro s hs
    simpa using hp.mem_iff.1 hs
  have ha : ∀ s ∈ l, s.Allowed := by
    intro s hs
    rcases hm s hs with rfl | rfl
    · trivial
    · simp [Setting.Allowed]
  have hc : l.Pairwise fun a b => ¬ Clash a b := by
    rw [List.pairwise_iff_forall_sublist]
    intro x y hxy
    rcases hm x (hxy.subset (by simp)) with rfl | rfl <;> rcases hm y (hxy.subset (by simp)) with rfl | rfl <;> simp [Clash, Setting.source]
  have hmean : meaning l = { task := py"get_address", privateKeyHex := [[hex b]] } := by
    have : l = [.task py"get_address", .keyHex [hex b]] ∨ l = [.keyHex [hex b], .task py"get_address"] := by
      have hlen := hp.length_eq
      match l, hlen with
      | [x, y], _ =>
        rcases hm x (by simp) with rfl | rfl <;> rcases hm y (by simp) with rfl | rfl
        · have := hp.mem_iff (a := .keyHex [hex b]); simp at this
        · exact .inl rfl
        · exact .inr rfl
        · have := hp.mem_iff (a := .task py"get_address"); simp at this
    rcases this with rfl | rfl <;> rfl
  rw [program_settings Xreal fs sh help setup l wss hw ha hc, hmean]
  simp only [hset, Bool.false_eq_true, if_false]
  rw [get_address_run Xreal fs sh _ a e1]
  rfl

/-- **C97**: a transaction printed by a command line of settings is valid.  This is C91 from the
command line. -/
theorem C97_transaction (fs : FS) (sh : Shell) (help : Str) (setup : Str → Bool → Bool → Option Str → R Unit)
    (l : List Setting) (wss : List (List Str)) (hw : List.Forall₂ Written l wss) (ha : ∀ s ∈ l, s.Allowed)
    (ht : (meaning l).task = py"create_transaction" ∨ (meaning l).task = py"create_sign_and_verify_transaction_hex") (out : List Str)
    (hrun : cliProgram Xreal fs sh help setup wss.flatten = (out, 0)) :
    ∃ (coins spent : List Coin) (ins : List RawIn) (outs : List RawOut) (fi ti : Str) (insD : List PVal),
      (meaning l).inputFile = some fi ∧ fs.read fi = .ok ti ∧ Xreal.jsonLoads ti = .ok (.list insD) ∧
      List.Forall₂ (Coin.Described Xreal) insD coins ∧ (∀ c ∈ spent, c ∈ coins) ∧ spent ≠ [] ∧
      out = [hex (txBytes ins outs)] ∧ List.Forall₂ Coin.SpentBy spent ins ∧
      ∀ (j : Nat) (c : Coin) (i : RawIn), spent[j]? = some c → ins[j]? = some i →
        ValidSpend c.owner (signedMessage ins outs j c.owner) i.script := by
  by_cases hc : l.Pairwise fun a b => ¬ Clash a b
  · rw [program_settings Xreal fs sh help setup l wss hw ha hc] at hrun
    simp only [Prod.mk.injEq] at hrun
    obtain ⟨coins, spent, ins, outs, fi, ti, insD, h1, h2, h3, h4, h5, h6, h7, h8, h9⟩ := C91_program fs sh _ (meaning l).toRawArgs ht hrun.2
    exact ⟨coins, spent, ins, outs, fi, ti, insD, h1, h2, h3, h4, h5, h6, by rw [← hrun.1, h7], h8, h9⟩
  · unfold cliProgram at hrun
    rw [C95_clash _ l wss hw ha hc] at hrun
    simp at hrun

/-! ## C98: texts on the command line -/

theorem sign_data_run (X : Ext) (fs : FS) (sh : Shell) (k : Str) (c : Char) (d : Str) :
    cliRun X fs sh (.ok ()) { task := py"sign_data", privateKeyHex := [[k]], data := some (c :: d) } =
      cliSignData X k { task := py"sign_data", privateKeysHex := [k], data := some (c :: d) } := by
  have h1 : cliLoad X fs { task := py"sign_data", privateKeyHex := [[k]], data := some (c :: d) } =
      .ok { task := py"sign_data", privateKeysHex := [k], data := some (c :: d) } := rfl
  unfold cliRun
  rw [h1]
  rfl

theorem verify_data_run (X : Ext) (fs : FS) (sh : Shell) (p g d : Str) :
    cliRun X fs sh (.ok ()) { task := py"verify_data_signature", publicKeyHex := some p, signatureHex := some g, data := some d } =
      cliVerifyData X { task := py"verify_data_signature", publicKeyHex := some p, signatureHex := some g, data := some d } := by
  have h1 : cliLoad X fs { task := py"verify_data_signature", publicKeyHex := some p, signatureHex := some g, data := some d } =
      .ok { task := py"verify_data_signature", publicKeyHex := some p, signatureHex := some g, data := some d } := rfl
  unfold cliRun
  rw [h1]
  rfl

/-- **C98**, the part that holds: given in the form `--data=TEXT`, every printable text is signed as
it is, and the verifying command accepts what the signing command printed. -/
theorem C98_sign_verify_partial (X : Ext) (fs fs' : FS) (sh sh' : Shell) (help : Str) (setup : Str → Bool → Bool → Option Str → R Unit)
    (hset : setup py"error" false false none = .ok ()) (k d : Str) (hk : NoDash k) (hd : d ≠ []) (out : List Str)
    (hrun : cliProgram X fs sh help setup [py"--task", py"sign_data", py"--private-key-hex", k, py"--data=" ++ d] = (out, 0)) :
    PrintableAscii d ∧ ∃ sig pk, out = [sig] ∧ X.signData k (hex (asciiBytes d)) = .ok sig ∧ privateKeyToPublicKey X k = .ok pk ∧
      cliProgram X fs' sh' help setup
        [py"--task", py"verify_data_signature", py"--public-key-hex=" ++ pk, py"--signature-hex=" ++ sig, py"--data=" ++ d] =
        ([py"Valid signature."], 0) := by
  have p1 : NoDash py"sign_data" := by simp [NoDash]
  have p2 : NoDash py"verify_data_signature" := by simp [NoDash]
  have w1 : List.Forall₂ Written [.task py"sign_data", .keyHex [k], .data d] [[py"--task", py"sign_data"], [py"--private-key-hex", k], [py"--data" ++ '=' :: d]] :=
    .cons (.words (s := .task py"sign_data") _ (.inl rfl) (by simpa [Setting.values] using p1)) (.cons (.words (s := .keyHex [k]) _ (.inl rfl) (by simpa [Setting.values] using hk))
      (.cons (.equals _ d (.inl rfl) rfl) .nil))
  have r1 := program_settings X fs sh help setup _ _ w1 (by simp [Setting.Allowed]) (by simp [Clash, Setting.source])
  obtain ⟨c, d', rfl⟩ := List.exists_cons_of_ne_nil hd
  have hmean : meaning [.task py"sign_data", .keyHex [k], .data (c :: d')] = { task := py"sign_data", privateKeyHex := [[k]], data := some (c :: d') } := rfl
  rw [hmean] at r1
  simp only [hset, Bool.false_eq_true, if_false] at r1
  rw [sign_data_run] at r1
  have r1' := hrun.symm.trans r1
  simp only [Prod.mk.injEq] at r1'
  have hok : cliSignData X k { task := py"sign_data", privateKeysHex := [k], data := some (c :: d') } = (out, .ok ()) := by
    obtain ⟨a, b⟩ := r1'
    generalize cliSignData X k _ = o at a b ⊢
    obtain ⟨o1, o2⟩ := o
    cases o2 with
    | error e => simp [exitStatus] at b
    | ok u => simp only at a; rw [a]
  obtain ⟨d2, pk, sig, e1, e2, e3, e4, e5, e6⟩ := C76_sign_then_verify X _ k out hok
  simp only [Option.some.injEq] at e1
  subst e1
  refine ⟨e2, sig, pk, e3, e4, ?_, ?_⟩
  · unfold cliGetPublicKey at e5
    cases h : privateKeyToPublicKey X k with
    | error e => simp [h, printR] at e5
    | ok p => simp [h, printR] at e5; rw [e5]
  · have w2 : List.Forall₂ Written [.task py"verify_data_signature", .publicKey pk, .signature sig, .data (c :: d')]
        [[py"--task", py"verify_data_signature"], [py"--public-key-hex" ++ '=' :: pk], [py"--signature-hex" ++ '=' :: sig], [py"--data" ++ '=' :: c :: d']] :=
      .cons (.words (s := .task py"verify_data_signature") _ (.inl rfl) (by simpa [Setting.values] using p2)) (.cons (.equals _ pk (.inl rfl) rfl)
        (.cons (.equals _ sig (.inl rfl) rfl) (.cons (.equals _ _ (.inl rfl) rfl) .nil)))
    have r2 := program_settings X fs' sh' help setup _ _ w2 (by simp [Setting.Allowed]) (by simp [Clash, Setting.source])
    have hmean2 : meaning [.task py"verify_data_signature", .publicKey pk, .signature sig, .data (c :: d')] =
        { task := py"verify_data_signature", publicKeyHex := some pk, signatureHex := some sig, data := some (c :: d') } := rfl
    rw [hmean2] at r2
    simp only [hset, Bool.false_eq_true, if_false] at r2
    rw [verify_data_run, e6 { task := py"verify_data_signature", publicKeyHex := some pk, signatureHex := some sig, data := some (c :: d') } rfl rfl rfl] at r2
    exact r2

theorem dash_not_arg (u : UniDB) (c : Char) (t : Str) (hc : c.isAlpha) (hs : ' ' ∉ t) : parseOptional u ('-' :: c :: t) ≠ some .arg := by
  have hc1 : c ≠ '-' := by rintro rfl; simp at hc
  have hc2 : c ≠ ' ' := by rintro rfl; simp at hc
  have hc3 : c ≠ '\n' := by rintro rfl; simp at hc
  have hc4 : c ≠ '.' := by rintro rfl; simp at hc
  have hdec : (decVal u c).isSome = false := by
    have hlt : 65 ≤ c.toNat ∧ c.toNat < 128 := by
      simp only [Char.isAlpha, Char.isUpper, Char.isLower, Bool.or_eq_true, Bool.and_eq_true, decide_eq_true_eq, UInt32.le_iff_toNat_le] at hc
      have : c.val.toNat = c.toNat := rfl
      simp at hc
      omega
    unfold decVal asciiDigit
    rw [if_pos hlt.2, if_neg]
    · rfl
    · have : '9'.toNat = 57 := rfl
      omega
  have hneg : negativeNumber u ('-' :: c :: t) = false := by
    have key : ∀ r : Str, (let digits : Str → Bool := fun d => !d.isEmpty && d.all fun c => (decVal u c).isSome
        (match ('-' :: c :: r : Str) with
          | '-' :: r => digits r ||
            match r.dropWhile fun c => (decVal u c).isSome with
            | '.' :: f => digits f
            | _ => false
          | _ => false) = false) := by
      intro r
      simp only [List.all_cons, hdec, Bool.false_and, Bool.and_false, Bool.false_or]
      rw [List.dropWhile_cons_of_neg (by simp [hdec])]
      split
      · rename_i f heq
        simp only [List.cons.injEq] at heq
        exact absurd heq.1 hc4
      · rfl
    unfold negativeNumber
    by_cases hlast : ('-' :: c :: t).getLast? = some '\n'
    · rw [if_pos hlast]
      cases t with
      | nil => simp at hlast; exact absurd hlast hc3
      | cons x t => exact key ((x :: t).dropLast)
    · rw [if_neg hlast]
      exact key t
  have htup : ∀ x ∈ optionTuples ('-' :: c :: t), x ≠ .arg := by
    intro x hx e
    subst e
    unfold optionTuples at hx
    split at hx
    · split at hx <;> simp at hx
    · obtain ⟨q, _, hq⟩ := List.mem_filterMap.1 hx
      split at hq
      · simp at hq
      · split at hq <;> simp at hq
  unfold parseOptional
  simp only
  split
  · simp
  · rw [if_neg (by simp)]
    split
    · rename_i x heq
      rw [Option.bind_eq_some_iff] at heq
      obtain ⟨p, _, hm⟩ := heq
      rw [Option.map_eq_some_iff] at hm
      obtain ⟨o, _, hm⟩ := hm
      rw [← hm]
      simp
    · split
      · rename_i x heq
        intro e
        injection e with e
        exact htup x (by rw [heq]; simp) e
      · simp
      · rw [hneg]
        simp [hs, Ne.symm hc2, eq_comm]

/-- **C98** violated: given as a separate word, a text that begins with a dash and a letter and contains no space is
refused, although it is printable. -/
theorem C98_violation (X : Ext) (fs : FS) (sh : Shell) (help : Str) (setup : Str → Bool → Bool → Option Str → R Unit) (k : Str) (hk : NoDash k)
    (c : Char) (t : Str) (hc : c.isAlpha) (hs : ' ' ∉ t) :
    cliProgram X fs sh help setup [py"--task", py"sign_data", py"--private-key-hex", k, py"--data", '-' :: c :: t] = ([], 2) := by
  have hus : parseArgs X.uni [py"--task", py"sign_data", py"--private-key-hex", k, py"--data", '-' :: c :: t] = .usage := by
    have p1 : NoDash py"sign_data" := by simp [NoDash]
    have hopt := dash_not_arg X.uni c t hc hs
    have hv : ('-' :: c :: t : Str) ≠ py"--" := by
      intro e
      simp at e
      rw [e.1] at hc
      simp at hc
    have k1 : NoDash k := hk
    unfold parseArgs
    have t1 : parseOptional X.uni py"--task" = _ := tok_name (s := .task []) X.uni (.inl rfl)
    have t2 : parseOptional X.uni py"--private-key-hex" = _ := tok_name (s := .keyHex []) X.uni (.inl rfl)
    have t3 : parseOptional X.uni py"--data" = _ := tok_name (s := .data []) X.uni (.inl rfl)
    rw [classify_cons _ (by decide) t1, classify_cons _ (by decide) (tok_plain X.uni p1), classify_cons _ (by decide) t2,
      classify_cons _ (by rintro rfl; simp [NoDash] at hk) (tok_plain X.uni hk),
      classify_cons _ (by decide) t3]
    cases hd : parseOptional X.uni ('-' :: c :: t) with
    | none =>
      have : classify X.uni ['-' :: c :: t] = none := by
        rw [classify, if_neg hv, hd]
        rfl
      rw [this]
      rfl
    | some tk =>
      rw [classify_cons _ hv hd]
      have htk : tk ≠ .arg := fun e => hopt (by rw [hd, e])
      simp only [classify, Option.map_some, optOf]
      have m1 : matchFollowing .task [(py"sign_data", .arg), (py"--private-key-hex", .opt (some .keyHex) false false none), (k, .arg),
          (py"--data", .opt (some .data) false false none), ('-' :: c :: t, tk)] = some ([py"sign_data"],
          [(py"--private-key-hex", .opt (some .keyHex) false false none), (k, .arg),
          (py"--data", .opt (some .data) false false none), ('-' :: c :: t, tk)]) := rfl
      have m2 : matchFollowing .keyHex [(k, .arg), (py"--data", .opt (some .data) false false none), ('-' :: c :: t, tk)] = some ([k],
          [(py"--data", .opt (some .data) false false none), ('-' :: c :: t, tk)]) := rfl
      have m3 : matchFollowing .data [('-' :: c :: t, tk)] = none := by
        unfold matchFollowing
        simp only [Opt.nargs]
        cases tk with
        | arg => exact absurd rfl htk
        | dashes => rfl
        | opt _ _ _ _ => rfl
      simp only [List.length_cons, List.length_nil, parseLoop, m1, m2, m3]
      rfl
  unfold cliProgram
  rw [hus]

end BT
