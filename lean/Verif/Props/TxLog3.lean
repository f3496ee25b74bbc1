import Verif.Props.TxLog2

/-!
# C120, C121: the console, and the texts of the exceptions of the tasks
-/

namespace BT
open Lg Spec

/-! ## C120: the console -/

/-- a record of a logger that `setup` configures, or a print -/
def Known : Ev → Prop
  | .log l _ _ => l ∈ loggerNames
  | .print _ => True

theorem known_names : lBasic ∈ loggerNames ∧ lTx ∈ loggerNames ∧ lCreate ∈ loggerNames ∧ lHello ∈ loggerNames ∧ lCli ∈ loggerNames := by
  simp only [loggerNames, List.mem_cons, lBasic, lTx, lCreate, lHello, lCli]
  simp

theorem known_basic (n : Nat) (s : Str) : Known (.log lBasic n s) := known_names.1
theorem known_tx (n : Nat) (s : Str) : Known (.log lTx n s) := known_names.2.1

theorem known_decode (u : UniDB) (s : Str) : Only Known (Lg.scriptSigDecode u s) := by
  unfold Lg.scriptSigDecode
  only_
  all_goals exact known_basic _ _
theorem known_encode (s p : Str) : Only Known (Lg.scriptSigEncode s p) := by
  unfold Lg.scriptSigEncode
  only_
  all_goals exact known_basic _ _
theorem known_der (X : Ext) (s : Str) : Only Known (Lg.signatureFromDer X s) := by
  unfold Lg.signatureFromDer
  only_
  all_goals exact known_basic _ _
theorem known_finish (X : Ext) (t : Tx) (i : Nat) (rv : Option Str) (key pk : Str) : Only Known (Lg.signFinish X t i rv key pk) := by
  unfold Lg.signFinish
  only_
  all_goals first | exact known_tx _ _ | exact known_encode _ _
theorem known_prepare (X : Ext) (m : List (Str × Str)) (rvs : Option (List Str)) (i n : Nat) (inp : TxIn) :
    Only Known (Lg.signPrepare X m rvs i n inp) := by
  unfold Lg.signPrepare
  only_
  · exact known_tx _ _
  · cases keyFor m inp.address <;> only_
theorem known_sign (X : Ext) (t : Tx) (keys : List Str) (rvs : Option (List Str)) : Only Known (Lg.sign X t keys rvs).2 :=
  only_sign X t keys rvs (fun _ _ _ _ _ => known_prepare _ _ _ _ _ _) (fun _ _ _ _ _ _ _ _ _ => known_finish _ _ _ _ _ _)
    (known_tx _ _)
theorem known_signed (X : Ext) (t : Tx) (keys : List Str) : Only Known (Lg.signed X t keys) :=
  Only.bind (known_sign X t keys none) fun _ => Only.pure _
theorem known_parseInput (X : Ext) (x : Nat) (hb : List Str) : Only Known (Lg.parseInput X x hb) := by
  unfold Lg.parseInput
  have h := known_decode X.uni
  only_
  all_goals first | exact known_tx _ _ | exact h _
theorem known_parseOutput (X : Ext) (x : Nat) (hb : List Str) : Only Known (Lg.parseOutput X x hb) := by
  unfold Lg.parseOutput
  only_
  all_goals exact known_tx _ _
theorem known_fromHexSigned (X : Ext) (s : Str) : Only Known (Lg.fromHexSigned X s) := by
  unfold Lg.fromHexSigned
  have h1 := only_parseMany _ (known_parseInput X)
  have h2 := only_parseMany _ (known_parseOutput X)
  only_
  all_goals first | exact h1 _ _ _ | exact h2 _ _ _ | exact known_tx _ _
theorem known_toHexSigned (t : Tx) : Only Known (Lg.toHexSigned t) := by
  unfold Lg.toHexSigned
  only_
  exact known_tx _ _
theorem known_toJson (X : Ext) (t : Tx) : Only Known (Lg.toJson X t) := by
  unfold Lg.toJson Lg.sizePart
  have := known_toHexSigned t
  only_
  cases t.fee <;> only_
theorem known_fromJson (X : Ext) (s : Str) : Only Known (Lg.fromJson X s) := by
  unfold Lg.fromJson
  only_
  exact known_tx _ _
theorem known_create (E : Msg.Env) (X : Ext) (a : Args) : Only Known (Lg.create E X a) := by
  intro e he
  unfold Lg.create at he
  simp only [List.mem_map] at he
  obtain ⟨s, _, rfl⟩ := he
  exact known_names.2.2.1
theorem known_verify (X : Ext) (t : Tx) : Only Known (Lg.verify X t) := by
  have hi : ∀ j n i, Only Known (Lg.verifyInput X t j n i) := by
    intro j n i
    unfold Lg.verifyInput
    refine Only.bind (Only.deb (known_tx _ _)) fun _ => ?_
    cases i.scriptSig with
    | none => exact Only.run _
    | some ss =>
      refine Only.bind (known_decode _ _) fun _ => Only.bind (known_der _ _) fun _ => Only.bind (Only.run _) fun ok => ?_
      cases ok
      · exact Only.bind (Only.err (known_tx _ _)) fun _ => Only.pure _
      · exact Only.bind (Only.deb (known_tx _ _)) fun _ => Only.pure _
  have hl : ∀ n (l : List TxIn) k bad, Only Known (Lg.verifyLoop X t n k l bad) := by
    intro n l
    induction l with
    | nil => intro k bad; exact Only.pure _
    | cons i l ih => intro k bad; exact Only.bind (hi _ _ _) fun _ => ih _ _
  exact Only.bind (hl _ _ _ _) fun _ => Only.bind (Only.info (known_tx _ _)) fun _ => Only.pure _

theorem known_task (E : Msg.Env) (X : Ext) (sh : Shell) (a : CliArgs) : Only Known (Lg.task E X sh a) := by
  have pr : ∀ s, Only Known (Lg.print s) := fun s => Only.print trivial
  have d1 : ∀ s, Only Known (Lg.deb lCli s) := fun s => Only.deb known_names.2.2.2.2
  unfold Lg.task
  refine Only.ite ?_ ?_
  · intro e he
    simp only [Lg.cliPythonVersion, List.mem_map] at he
    obtain ⟨s, _, rfl⟩ := he
    trivial
  unfold Lg.dispatch
  have hello : ∀ l, l ∈ loggerNames → Only Known (Lg.cliHello l) := fun l hl =>
    Only.bind (Only.info hl) fun _ => Only.bind (Only.deb hl) fun _ => pr _
  have one : Only Known (Lg.cliOneShot E X a) := by
    refine Only.bind (known_create E X _) fun _ => Only.bind (known_toJson X _) fun _ => Only.bind (known_fromJson X _) fun _ =>
      Only.bind (known_signed X _ _) fun _ => Only.bind (known_verify X _) fun _ => ?_
    simp only
    refine Only.ite (Only.bind (Only.refuse _ _) fun _ => ?_) ?_
    all_goals
      refine Only.bind (known_toHexSigned _) fun _ => Only.bind (Only.run _) fun _ => Only.bind (d1 _) fun _ =>
        Only.bind (known_fromHexSigned X _) fun _ => Only.bind (known_verify X _) fun _ => ?_
      exact Only.ite (Only.bind (Only.refuse _ _) fun _ => pr _) (pr _)
  refine Only.ite (hello _ known_names.2.2.2.2) (Only.ite (hello _ known_names.2.2.2.1) ?_)
  refine Only.ite ?_ (Only.ite ?_ (Only.ite ?_ (Only.ite ?_ (Only.ite ?_ (Only.ite ?_ ?_)))))
  · exact Only.bind (Only.run _) fun _ => pr _
  · exact Only.bind (Only.run _) fun _ => Only.bind (Only.run _) fun _ => pr _
  · exact Only.bind (Only.run _) fun _ => pr _
  · exact Only.bind (Only.run _) fun _ => pr _
  · exact Only.bind (Only.run _) fun _ => Only.bind (Only.run _) fun _ => Only.bind (Only.run _) fun _ =>
      Only.bind (pr _) fun _ => Only.bind (Only.run _) fun _ => Only.bind (Only.run _) fun _ => Only.ite (Only.refuse _ _) (Only.pure _)
  · exact Only.bind (Only.run _) fun _ => Only.bind (Only.run _) fun _ => Only.bind (Only.run _) fun _ => Only.bind (Only.run _) fun _ =>
      Only.bind (Only.run _) fun _ => Only.bind (Only.run _) fun _ => Only.ite (pr _) (pr _)
  refine Only.ite ?_ (Only.ite ?_ (Only.ite ?_ (Only.ite ?_ (Only.ite ?_ (Only.ite ?_ (Only.ite ?_ (Only.ite one (Only.ite one (pr _)))))))))
  · exact Only.bind (known_create E X _) fun _ => Only.bind (known_toJson X _) fun _ => Only.bind (pr _) fun _ =>
      Only.bind (known_fromJson X _) fun _ => Only.pure _
  · exact Only.bind (Only.run _) fun _ => Only.bind (known_fromJson X _) fun _ => pr _
  · exact Only.bind (Only.run _) fun _ => Only.bind (known_fromJson X _) fun _ => Only.bind (known_signed X _ _) fun _ =>
      Only.bind (known_toJson X _) fun _ => Only.bind (pr _) fun _ => Only.bind (known_verify X _) fun _ =>
      Only.ite (Only.refuse _ _) (Only.pure _)
  · exact Only.bind (Only.run _) fun _ => Only.bind (known_fromJson X _) fun _ => Only.bind (known_verify X _) fun _ => Only.ite (pr _) (pr _)
  · exact Only.bind (Only.run _) fun _ => Only.bind (known_fromJson X _) fun _ => Only.bind (known_verify X _) fun _ =>
      Only.bind (known_toHexSigned _) fun _ => Only.bind (pr _) fun _ => Only.refuse _ _
  · refine Only.bind (Only.run _) fun _ => Only.bind (known_fromHexSigned X _) fun _ => Only.bind (known_verify X _) fun _ => ?_
    exact Only.ite (Only.bind (Only.refuse _ _) fun _ => pr _) (pr _)
  · exact Only.bind (Only.run _) fun _ => Only.bind (known_fromHexSigned X _) fun _ => Only.bind (known_verify X _) fun _ =>
      Only.bind (known_toJson X _) fun _ => Only.bind (pr _) fun _ => Only.ite (Only.refuse _ _) (Only.pure _)

/-- what the console handlers of the loggers `lg` write of the events: the text of a record once for every console handler
that takes it -/
def console (lg : Str → Logger) (ev : List Ev) : List Str :=
  (records ev).flatMap fun r => ((lg r.1).writes r.2.1).filterMap fun
    | .console _ => some r.2.2
    | .file _ _ => none

theorem console_eq {lg : Str → Logger} {lev : Nat} {f : PVal} (hlg : ∀ n ∈ loggerNames, (lg n).level = lev ∧ (lg n).handlers = handlersFor lev f)
    {ev : List Ev} (h : ∀ e ∈ ev, Known e) : console lg ev = visible lev ev := by
  have hn : ∀ l ∈ loggerNames, ∀ (k : Nat) (s : Str), (((lg l).writes k).filterMap fun
      | .console _ => some s
      | .file _ _ => none) = if lev ≤ k then [s] else [] := by
    intro l hl k s
    obtain ⟨h1, h2⟩ := hlg l hl
    unfold Logger.writes
    rw [h1, h2]
    by_cases hk : lev ≤ k
    · rw [if_neg (by omega), if_pos hk]
      unfold handlersFor
      split <;> simp [Handler.level, hk]
    · rw [if_pos (by omega), if_neg hk]; rfl
  unfold console visible
  induction ev with
  | nil => rfl
  | cons x xs ih =>
    have ih := ih fun e he => h e (List.mem_cons_of_mem _ he)
    cases x with
    | print s => exact ih
    | log l k s =>
      have hl : l ∈ loggerNames := h _ (List.mem_cons_self ..)
      simp only [records, List.flatMap_cons, List.filter_cons]
      rw [ih, hn l hl k s]
      by_cases hk : lev ≤ k
      · simp [hk]
      · simp [hk]

/-- **C120**: after the setup of the command line (`--logLevel`, `--debug`, `--logTimestamp`, `--logFile`), whatever the task
logs is written to the console exactly once if its level is at least the one asked for, and not otherwise. -/
theorem C120_console (E : Msg.Env) (X : Ext) (sh : Shell) (a : CliArgs) (lv d ts f : PVal) (dir : Str → Bool) (lg : Str → Logger)
    (hok : (setupAll lv d ts f (loggerNames.map fun n => (n, dir n, {}))).2 = .ok ())
    (hlg : loggerNames.map lg = (setupAll lv d ts f (loggerNames.map fun n => (n, dir n, {}))).1) :
    ∃ s lev, levelName lv d = some s ∧ levelOf s = some lev ∧
      console lg (Lg.task E X sh a).ev = visible lev (Lg.task E X sh a).ev := by
  have hf := C79_setup lv d ts f _ hok (by
    intro m hm _
    rw [List.mem_map] at hm
    obtain ⟨n, _, rfl⟩ := hm
    rfl)
  rw [← hlg, List.forall₂_map_left_iff, List.forall₂_map_right_iff, List.forall₂_same] at hf
  simp only [Bool.false_eq_true, if_false] at hf
  obtain ⟨_, s, lev, h1, h2, _⟩ := hf lCli known_names.2.2.2.2
  refine ⟨s, lev, h1, h2, console_eq (f := f) (fun n hn => ?_) (known_task E X sh a)⟩
  obtain ⟨_, s', lev', k1, k2, k3, k4, _⟩ := hf n hn
  rw [h1] at k1; injection k1 with k1; subst k1
  rw [h2] at k2; injection k2 with k2; subst k2
  exact ⟨k3, k4⟩

/-- **C120**: with the default settings (level "error") a task that ends normally writes nothing to the console, except
`verify_signed_transaction_json`, which lists the invalid signatures. -/
theorem C120_default (E : Msg.Env) (X : Ext) (sh : Shell) (a : CliArgs) (ts f : PVal) (dir : Str → Bool) (lg : Str → Logger)
    (hok : (setupAll (.str py"error") (.bool false) ts f (loggerNames.map fun n => (n, dir n, {}))).2 = .ok ())
    (hlg : loggerNames.map lg = (setupAll (.str py"error") (.bool false) ts f (loggerNames.map fun n => (n, dir n, {}))).1)
    (ht : a.task ≠ py"verify_signed_transaction_json") (h : (Lg.task E X sh a).outcome = .ok ()) :
    console lg (Lg.task E X sh a).ev = [] := by
  obtain ⟨s, lev, h1, h2, h3⟩ := C120_console E X sh a _ _ ts f dir lg hok hlg
  rw [h3]
  have h1 : some py"error" = some s := h1
  injection h1 with h1; subst h1
  have h2 : some 40 = some lev := h2
  injection h2 with h2; subst h2
  exact C120_success E X sh a ht h 40 (by omega)

/-! ## C121: the texts of the exceptions of the tasks -/

theorem complaint_bind {α β : Type} (m : W α) (f : α → W β) : (m >>= f).complaint = match m.outcome with
    | .ok a => (f a).complaint
    | .error _ => m.complaint := by
  rw [bind_def, W.bind]
  obtain ⟨ev, res⟩ := m
  cases res <;> rfl

/-- no text of an exception -/
def NoText {α : Type} (m : W α) : Prop := m.complaint = none

theorem NoText.bind {α β : Type} {m : W α} {f : α → W β} (h : NoText m) (g : ∀ a, NoText (f a)) : NoText (m >>= f) := by
  unfold NoText
  rw [complaint_bind]
  cases m.outcome with
  | ok a => exact g a
  | error e => exact h
theorem NoText.run {α : Type} (r : R α) : NoText (Lg.run r) := by cases r <;> rfl
theorem NoText.pure {α : Type} (a : α) : NoText (Pure.pure a : W α) := rfl
theorem NoText.ite {α : Type} {c : Prop} [Decidable c] {a b : W α} (h1 : NoText a) (h2 : NoText b) : NoText (if c then a else b) := by
  split <;> assumption

theorem NoText.deb (l s : Str) : NoText (Lg.deb l s) := rfl
theorem NoText.info (l s : Str) : NoText (Lg.info l s) := rfl
theorem NoText.err (l s : Str) : NoText (Lg.err l s) := rfl

/-- structural steps -/
macro "no_text" : tactic => `(tactic| repeat' with_reducible first
  | exact NoText.run _
  | exact NoText.pure _
  | exact NoText.deb _ _
  | exact NoText.info _ _
  | exact NoText.err _ _
  | assumption
  | apply NoText.ite
  | refine NoText.bind ?_ (fun _ => ?_))

theorem nt_decode (u : UniDB) (s : Str) : NoText (Lg.scriptSigDecode u s) := by unfold Lg.scriptSigDecode; no_text
theorem nt_der (X : Ext) (s : Str) : NoText (Lg.signatureFromDer X s) := by unfold Lg.signatureFromDer; no_text
theorem nt_toHexSigned (t : Tx) : NoText (Lg.toHexSigned t) := by unfold Lg.toHexSigned; no_text
theorem nt_toJson (X : Ext) (t : Tx) : NoText (Lg.toJson X t) := by
  unfold Lg.toJson Lg.sizePart
  have := nt_toHexSigned t
  no_text
  cases t.fee <;> no_text
theorem nt_fromJson (X : Ext) (s : Str) : NoText (Lg.fromJson X s) := by unfold Lg.fromJson; no_text
theorem nt_parseMany {α : Type} (f : Nat → List Str → W (α × List Str)) (h : ∀ x hb, NoText (f x hb)) (n x : Nat) (hb : List Str) :
    NoText (Lg.parseMany f n x hb) := by
  induction n generalizing x hb with
  | zero => exact NoText.pure _
  | succ n ih => exact NoText.bind (h _ _) fun p => NoText.bind (ih _ _) fun q => NoText.pure _
theorem nt_fromHexSigned (X : Ext) (s : Str) : NoText (Lg.fromHexSigned X s) := by
  have h1 : ∀ n x hb, NoText (Lg.parseMany (Lg.parseInput X) n x hb) := nt_parseMany _ fun x hb => by
    have := nt_decode X.uni
    unfold Lg.parseInput
    no_text
    exact this _
  have h2 : ∀ n x hb, NoText (Lg.parseMany (Lg.parseOutput X) n x hb) := nt_parseMany _ fun x hb => by
    unfold Lg.parseOutput
    no_text
  unfold Lg.fromHexSigned
  no_text
  all_goals first | exact h1 _ _ _ | exact h2 _ _ _
theorem nt_verify (X : Ext) (t : Tx) : NoText (Lg.verify X t) := by
  have hi : ∀ j n i, NoText (Lg.verifyInput X t j n i) := by
    intro j n i
    unfold Lg.verifyInput
    refine NoText.bind rfl fun _ => ?_
    cases i.scriptSig with
    | none => exact NoText.run _
    | some ss =>
      refine NoText.bind (nt_decode _ _) fun _ => NoText.bind (nt_der _ _) fun _ => NoText.bind (NoText.run _) fun ok => ?_
      cases ok <;> exact NoText.bind rfl fun _ => NoText.pure _
  have hl : ∀ n (l : List TxIn) k bad, NoText (Lg.verifyLoop X t n k l bad) := by
    intro n l
    induction l with
    | nil => intro k bad; exact NoText.pure _
    | cons i l ih => intro k bad; exact NoText.bind (hi _ _ _) fun _ => ih _ _
  exact NoText.bind (hl _ _ _ _) fun _ => NoText.bind rfl fun _ => NoText.pure _

/-- "Signed transaction: k invalid signatures detected! ..." -/
def invalidMessage (k inputs : Nat) : Str :=
  py"Signed transaction: " ++ pyStr k ++ py" invalid signature" ++ (if inputs > 1 then py"s" else []) ++
    py" detected! Please re-run using the --debug flag."

theorem invalidText_eq (k n : Nat) : Lg.invalidText py"Signed transaction" k (Lg.plural n) py"detected" = invalidMessage k n := by
  simp only [Lg.invalidText, Lg.plural, invalidMessage, List.append_assoc]
  rfl

/-- the hex data of a task and the transaction in it, with `k` invalid signatures -/
def HexWith (X : Ext) (a : CliArgs) (t : Tx) (k : Nat) : Prop :=
  ∃ h, dataStripped X a = .ok h ∧ Tx.fromHexSigned X h = .ok t ∧ t.verify X = .ok k

/-- **C121**: `verify_signed_transaction_hex` complains "Signed transaction: k invalid signatures detected! ..." exactly when
the data is a signed transaction with `k` invalid signatures, `k` at least one; any other failure has no such text. -/
theorem C121_verify_hex (E : Msg.Env) (X : Ext) (sh : Shell) (a : CliArgs) (ht : a.task = py"verify_signed_transaction_hex") (s : Str) :
    (Lg.task E X sh a).complaint = some s ↔ ∃ t k, HexWith X a t k ∧ k ≠ 0 ∧ s = invalidMessage k t.inputs.length := by
  have e1 : Lg.task E X sh a = Lg.cliVerifyHex X a := by simp [Lg.task, Lg.dispatch, ht]
  rw [e1, Lg.cliVerifyHex, complaint_bind, o_run]
  cases hd : dataStripped X a with
  | error e =>
    simp only [HexWith, hd]
    simp [run, W.complaint]
  | ok h =>
    simp only
    rw [complaint_bind, o_fromHexSigned]
    cases hf : Tx.fromHexSigned X h with
    | error e =>
      simp only [nt_fromHexSigned X h |> fun (h : _ = none) => h, HexWith, hd, Except.ok.injEq]
      simp [hf]
    | ok t =>
      simp only
      rw [complaint_bind, o_verify]
      have hw : ∀ t' k', HexWith X a t' k' ↔ t' = t ∧ t.verify X = .ok k' := by
        intro t' k'
        unfold HexWith
        rw [hd]
        constructor
        · rintro ⟨h0, e0, e1, e2⟩
          injection e0 with e0; subst e0
          rw [hf] at e1; injection e1 with e1; subst e1
          exact ⟨rfl, e2⟩
        · rintro ⟨rfl, e2⟩
          exact ⟨h, rfl, hf, e2⟩
      cases hv : t.verify X with
      | error e =>
        simp only [nt_verify X t |> fun (h : _ = none) => h, hw, hv]
        simp
      | ok k =>
        simp only [hw, hv, Except.ok.injEq]
        by_cases hk : k = 0
        · subst hk
          simp only [ne_eq, not_true_eq_false, if_false]
          constructor
          · intro h; simp [Lg.print, W.complaint] at h
          · rintro ⟨t', k', ⟨rfl, rfl⟩, h, _⟩; exact absurd rfl h
        · simp only [ne_eq, hk, not_false_eq_true, if_true]
          rw [complaint_bind, o_refuse, invalidText_eq]
          simp only [refuse, W.complaint, Option.some.injEq]
          constructor
          · rintro rfl; exact ⟨t, k, ⟨rfl, rfl⟩, hk, rfl⟩
          · rintro ⟨t', k', ⟨rfl, rfl⟩, _, rfl⟩; rfl

/-- **C121**: `decode_signed_transaction_hex` complains in this way exactly when the data is a signed transaction that can be
shown as JSON and has `k` invalid signatures, `k` at least one. -/
theorem C121_decode_hex (E : Msg.Env) (X : Ext) (sh : Shell) (a : CliArgs) (ht : a.task = py"decode_signed_transaction_hex") (s : Str) :
    (Lg.task E X sh a).complaint = some s ↔
      ∃ t k js, HexWith X a t k ∧ t.toJson X = .ok js ∧ k ≠ 0 ∧ s = invalidMessage k t.inputs.length := by
  have e1 : Lg.task E X sh a = Lg.cliDecodeHex X a := by simp [Lg.task, Lg.dispatch, ht]
  rw [e1, Lg.cliDecodeHex, complaint_bind, o_run]
  cases hd : dataStripped X a with
  | error e =>
    simp only [HexWith, hd]
    simp [run, W.complaint]
  | ok h =>
    simp only
    rw [complaint_bind, o_fromHexSigned]
    cases hf : Tx.fromHexSigned X h with
    | error e =>
      simp only [nt_fromHexSigned X h |> fun (h : _ = none) => h, HexWith, hd, Except.ok.injEq]
      simp [hf]
    | ok t =>
      simp only
      rw [complaint_bind, o_verify]
      have hw : ∀ t' k', HexWith X a t' k' ↔ t' = t ∧ t.verify X = .ok k' := by
        intro t' k'
        unfold HexWith
        rw [hd]
        constructor
        · rintro ⟨h0, e0, e1, e2⟩
          injection e0 with e0; subst e0
          rw [hf] at e1; injection e1 with e1; subst e1
          exact ⟨rfl, e2⟩
        · rintro ⟨rfl, e2⟩
          exact ⟨h, rfl, hf, e2⟩
      cases hv : t.verify X with
      | error e =>
        simp only [nt_verify X t |> fun (h : _ = none) => h, hw, hv]
        simp
      | ok k =>
        simp only [hw, hv, Except.ok.injEq]
        rw [complaint_bind, o_toJson]
        cases hj : t.toJson X with
        | error e =>
          simp only [nt_toJson X t |> fun (h : _ = none) => h]
          constructor
          · intro h; simp at h
          · rintro ⟨t', k', js, ⟨rfl, rfl⟩, h, _⟩; rw [hj] at h; simp at h
        | ok js =>
          simp only
          rw [complaint_bind, o_print]
          simp only
          by_cases hk : k = 0
          · subst hk
            simp only [ne_eq, not_true_eq_false, if_false]
            constructor
            · intro h; exact absurd h (by show ¬ (none = some s); simp)
            · rintro ⟨t', k', _, ⟨rfl, rfl⟩, _, h, _⟩; exact absurd rfl h
          · simp only [ne_eq, hk, not_false_eq_true, if_true]
            rw [invalidText_eq]
            simp only [refuse, W.complaint, Option.some.injEq]
            constructor
            · rintro rfl; exact ⟨t, k, js, ⟨rfl, rfl⟩, hj, hk, rfl⟩
            · rintro ⟨t', k', _, ⟨rfl, rfl⟩, _, _, rfl⟩; rfl

theorem nt_signed (X : Ext) (t : Tx) (keys : List Str) : NoText (Lg.signed X t keys) := by
  unfold Lg.signed
  refine NoText.bind ?_ fun _ => NoText.pure _
  rw [Lg.sign_eq]
  cases signChecks X keys none with
  | error e => rfl
  | ok m =>
    refine NoText.bind ?_ fun _ => rfl
    have hp : ∀ k n i, NoText (Lg.signPrepare X m none k n i) := by
      intro k n i
      unfold Lg.signPrepare
      refine NoText.bind (NoText.run _) fun _ => NoText.bind rfl fun _ => ?_
      cases keyFor m i.address with
      | none => exact NoText.run _
      | some key => exact NoText.bind (NoText.run _) fun _ => NoText.pure _
    have he : ∀ s p, NoText (Lg.scriptSigEncode s p) := by intro s p; unfold Lg.scriptSigEncode; no_text
    have hf : ∀ k rv key pk, NoText (Lg.signFinish X t k rv key pk) := by
      intro k rv key pk
      unfold Lg.signFinish
      no_text
      exact he _ _
    have : ∀ (l : List TxIn) n k, NoText (Lg.signRest X t m none n k l).2 := by
      intro l
      induction l with
      | nil => intro n k; rfl
      | cons i l ih =>
        intro n k
        unfold Lg.signRest
        simp only
        have h1 := hp k n i
        unfold NoText W.complaint at h1 ⊢
        cases hr : (Lg.signPrepare X m none k n i).res with
        | error e => rw [hr] at h1; exact h1
        | ok q =>
          obtain ⟨rv, key, pk⟩ := q
          simp only
          have h2 := hf k rv key pk
          unfold NoText W.complaint at h2
          cases hr2 : (Lg.signFinish X t k rv key pk).res with
          | error e => rw [hr2] at h2; exact h2
          | ok q => exact ih n (k + 1)
    exact this _ _ _

/-- **C121**: with a correct signature library the texts about invalid signatures never occur when the toolset checks
signatures that it just made: whatever the keys, an exception of the one-shot task with a text is one of
`create_transaction`. -/
theorem C121_one_shot (E : Msg.Env) (X : Ext) (L : X.Laws) (sh : Shell) (a : CliArgs)
    (ht : a.task ∈ [py"create_sign_and_verify_transaction_hex", py"create_transaction"]) (s : Str)
    (h : (Lg.task E X sh a).complaint = some s) : (Lg.create E X (cliTxArgs a)).complaint = some s := by
  rw [task_oneShot E X sh a ht, Lg.cliOneShot, complaint_bind, o_create] at h
  cases hc : createTransaction X (cliTxArgs a) with
  | error e => rw [hc] at h; exact h
  | ok r =>
    exfalso
    rw [hc] at h
    obtain ⟨t, a'⟩ := r
    simp only at h
    obtain ⟨_, _, _, _, _, _, _, C⟩ := created_of L.sha_len hc
    have C := created_spec L.sha_len C
    rw [complaint_bind] at h
    split at h
    · rename_i js _
      rw [complaint_bind] at h
      split at h
      · rw [complaint_bind, o_signed] at h
        cases hs : t.sign X a.privateKeysHex none with
        | mk ts r =>
          rw [hs] at h
          cases r with
          | error e =>
            have := nt_signed X t a.privateKeysHex
            unfold NoText at this
            simp [this] at h
          | ok u =>
            obtain ⟨_, hv⟩ := C37_sign_then_verify X L t ts C.frame.ht1 _ _ hs
            obtain ⟨x, x1, x2, _, x4⟩ := C35_signed_round_trip X L t ts C _ _ hs
            simp only [R_bind_ok] at h
            rw [complaint_bind, o_verify, hv] at h
            simp only [ne_eq, not_true_eq_false, if_false] at h
            rw [complaint_bind, o_toHexSigned, x1] at h
            simp only at h
            rw [complaint_bind, o_run] at h
            split at h
            · rw [complaint_bind, o_deb] at h
              simp only at h
              rw [complaint_bind, o_fromHexSigned, x2] at h
              simp only at h
              rw [complaint_bind, o_verify, x4] at h
              simp only [ne_eq, not_true_eq_false, if_false] at h
              exact absurd h (by show ¬ (none = some s); simp)
            · rw [show (run (hexLen x)).complaint = none from NoText.run _] at h
              simp at h
      · rw [show (Lg.fromJson X js).complaint = none from nt_fromJson X js] at h
        simp at h
    · rw [show (Lg.toJson X t).complaint = none from nt_toJson X t] at h
      simp at h

/-- **C121**: the same for `create_signed_transaction_json`: it never complains of an invalid signature. -/
theorem C121_sign_json (E : Msg.Env) (X : Ext) (L : X.Laws) (sh : Shell) (a : CliArgs) (ht : a.task = py"create_signed_transaction_json") :
    (Lg.task E X sh a).complaint = none := by
  have e1 : Lg.task E X sh a = Lg.cliSignJson X a := by simp [Lg.task, Lg.dispatch, ht]
  rw [e1, Lg.cliSignJson, complaint_bind]
  split
  · rename_i js _
    rw [complaint_bind, o_fromJson]
    cases hj : Tx.fromJson X js with
    | error e => exact nt_fromJson X js
    | ok t =>
      simp only
      rw [complaint_bind, o_signed]
      cases hs : t.sign X a.privateKeysHex none with
      | mk ts r =>
        cases r with
        | error e => exact nt_signed X t a.privateKeysHex
        | ok u =>
          obtain ⟨_, hv⟩ := C37_sign_then_verify X L t ts (fromJson_ht1 X hj) _ _ hs
          simp only [R_bind_ok]
          rw [complaint_bind, o_toJson]
          split
          · rw [complaint_bind, o_print]
            simp only
            rw [complaint_bind, o_verify, hv]
            rfl
          · exact nt_toJson X ts
  · exact NoText.run _

end BT

namespace BT

open Lg Spec

/-! ## C118, continued: the other two forms -/

/-- Loading the JSON form shows one line, exactly if the transaction was loaded. -/
theorem C118_json (X : Ext) (s : Str) :
    (Lg.fromJson X s).outcome = Tx.fromJson X s ∧
    (Lg.fromJson X s).ev =
      (match Tx.fromJson X s with
        | .ok _ => [.log py"bitcoin_toolset.code.transaction" 20 py"Transaction successfully loaded from JSON format and validated."]
        | .error _ => []) := by
  unfold Lg.fromJson
  cases Tx.fromJson X s <;> exact ⟨rfl, rfl⟩

/-- Writing the hex form shows one line, exactly if the hex form was made. -/
theorem C118_hex (t : Tx) :
    (Lg.toHexSigned t).outcome = t.toHexSigned ∧
    (Lg.toHexSigned t).ev =
      (match t.toHexSigned with
        | .ok _ => [.log py"bitcoin_toolset.code.transaction" 20 py"Signed transaction converted to hex form."]
        | .error _ => []) := by
  unfold Lg.toHexSigned
  cases t.toHexSigned <;> exact ⟨rfl, rfl⟩

end BT
