import Verif.Lemmas.TxLogSecret
import Verif.Props.Logger

/-!
# C119-C121: the log of the tasks
-/

namespace BT
open Lg Spec

/-- the tasks that handle one private key, and those that verify data or show the Python version -/
def quietTasks : List Str := [py"get_private_key_wif", py"private_key_wif_to_hex", py"get_public_key", py"get_address", py"sign_data",
  py"verify_data_signature", py"get_python_version"]

/-- **C119**: the tasks that take a private key as argument log nothing, at any level and however they end. -/
theorem C119_quiet (E : Msg.Env) (X : Ext) (sh : Shell) (a : CliArgs) (ht : a.task ∈ quietTasks) :
    records (Lg.task E X sh a).ev = [] := by
  have key : Only (fun e => ∃ s, e = .print s) (Lg.task E X sh a) := by
    simp only [quietTasks, List.mem_cons, List.not_mem_nil, or_false] at ht
    rcases ht with ht | ht | ht | ht | ht | ht | ht
    all_goals simp only [Lg.task, ht, Lg.dispatch]
    · exact Only.bind (Only.run _) fun _ => Only.print ⟨_, rfl⟩
    · exact Only.bind (Only.run _) fun _ => Only.bind (Only.run _) fun _ => Only.print ⟨_, rfl⟩
    · exact Only.bind (Only.run _) fun _ => Only.print ⟨_, rfl⟩
    · exact Only.bind (Only.run _) fun _ => Only.print ⟨_, rfl⟩
    · exact Only.bind (Only.run _) fun _ => Only.bind (Only.run _) fun _ => Only.bind (Only.run _) fun _ =>
        Only.bind (Only.print ⟨_, rfl⟩) fun _ => Only.bind (Only.run _) fun _ => Only.bind (Only.run _) fun _ =>
        Only.ite (Only.refuse _ _) (Only.pure _)
    · exact Only.bind (Only.run _) fun _ => Only.bind (Only.run _) fun _ => Only.bind (Only.run _) fun _ => Only.bind (Only.run _) fun _ =>
        Only.bind (Only.run _) fun _ => Only.bind (Only.run _) fun _ => Only.ite (Only.print ⟨_, rfl⟩) (Only.print ⟨_, rfl⟩)
    · intro e he
      simp only [if_true, Lg.cliPythonVersion, List.mem_map] at he
      obtain ⟨s, _, rfl⟩ := he
      exact ⟨s, rfl⟩
  have : ∀ l : List Ev, (∀ e ∈ l, ∃ s, e = .print s) → records l = [] := by
    intro l
    induction l with
    | nil => intro _; rfl
    | cons x xs ih =>
      intro h
      obtain ⟨s, rfl⟩ := h x (List.mem_cons_self ..)
      exact ih fun e he => h e (List.mem_cons_of_mem _ he)
  exact this _ key

theorem task_oneShot (E : Msg.Env) (X : Ext) (sh : Shell) (a : CliArgs)
    (ht : a.task ∈ [py"create_sign_and_verify_transaction_hex", py"create_transaction"]) : Lg.task E X sh a = Lg.cliOneShot E X a := by
  simp only [List.mem_cons, List.not_mem_nil, or_false] at ht
  rcases ht with ht | ht <;> simp [Lg.task, Lg.dispatch, ht]

theorem out_parts {m : W Unit} (h : m.outcome = .ok ()) : m.out = (prints m.ev, .ok ()) := by
  unfold W.out; rw [h]

/-- **C119**: the log of a successful run of the one-shot task shows nothing about the private keys beyond the printed
transaction: two runs on the same inputs and design, with whatever keys, that print the same transaction show the same. -/
theorem C119_one_shot (E : Msg.Env) (X : Ext) (L : X.Laws) (sh : Shell) (a : CliArgs) (keys' : List Str)
    (ht : a.task ∈ [py"create_sign_and_verify_transaction_hex", py"create_transaction"])
    (h : (Lg.task E X sh a).outcome = .ok ()) (h' : (Lg.task E X sh { a with privateKeysHex := keys' }).outcome = .ok ())
    (hp : prints (Lg.task E X sh a).ev = prints (Lg.task E X sh { a with privateKeysHex := keys' }).ev) :
    (Lg.task E X sh a).ev = (Lg.task E X sh { a with privateKeysHex := keys' }).ev := by
  rw [task_oneShot E X sh a ht] at h hp ⊢
  rw [task_oneShot E X sh { a with privateKeysHex := keys' } ht] at h' hp ⊢
  obtain ⟨t, a', ts, s, _, p1, c1, s1, _, x1, _, _⟩ := C59_prints X a _ (by rw [← out_oneShot E, out_parts h])
  obtain ⟨t', a'', ts', s', _, p2, c2, s2, _, x2, _, _⟩ := C59_prints X _ _ (by rw [← out_oneShot E, out_parts h'])
  have hargs : cliTxArgs { a with privateKeysHex := keys' } = cliTxArgs a := rfl
  rw [hargs, c1] at c2
  simp only [Except.ok.injEq, Prod.mk.injEq] at c2
  obtain ⟨rfl, rfl⟩ := c2
  rw [p1, p2] at hp
  simp only [List.cons.injEq, and_true] at hp
  subst hp
  obtain ⟨_, _, _, _, _, _, _, C⟩ := created_of L.sha_len c1
  have C := created_spec L.sha_len C
  have hs : ts.inputs.map TxIn.scriptSig = ts'.inputs.map TxIn.scriptSig := by
    obtain ⟨u, e1, e2, _⟩ := C35_signed_round_trip X L t ts C _ none s1
    obtain ⟨u', f1, f2, _⟩ := C35_signed_round_trip X L t ts' C _ none s2
    rw [x1] at e1; injection e1 with e1; subst e1
    rw [x2] at f1; injection f1 with f1; subst f1
    rw [e2] at f2
    simp only [Except.ok.injEq, Tx.mk.injEq] at f2
    have := congrArg (List.map TxIn.scriptSig) f2.2.2.1
    simpa [List.map_map, Function.comp_def, forgetAmount] using this
  have hsig := signed_same X L t C.frame.ht1 s1 s2 hs
  congr 1
  unfold Lg.cliOneShot
  rw [hargs]
  refine bind_congr fun r hr => ?_
  rw [o_create, c1] at hr
  injection hr with hr
  subst hr
  simp only
  rw [hsig]

/-- **C119** for `create_signed_transaction_json`: two successful runs on the same unsigned transaction, with whatever keys,
that print the same signed transaction show the same (the transaction gives the lengths of the scripts as integers, as those
made by the toolset do). -/
theorem C119_sign_json (E : Msg.Env) (X : Ext) (L : X.Laws) (sh : Shell) (a : CliArgs) (keys' : List Str)
    (ht : a.task = py"create_signed_transaction_json")
    (hi : ∀ js t, a.data = some js → Tx.fromJson X js = .ok t → ∀ i ∈ t.inputs, i.spkLenInt.jsonSafe = true)
    (h : (Lg.task E X sh a).outcome = .ok ()) (h' : (Lg.task E X sh { a with privateKeysHex := keys' }).outcome = .ok ())
    (hp : prints (Lg.task E X sh a).ev = prints (Lg.task E X sh { a with privateKeysHex := keys' }).ev) :
    (Lg.task E X sh a).ev = (Lg.task E X sh { a with privateKeysHex := keys' }).ev := by
  have e1 : Lg.task E X sh a = Lg.cliSignJson X a := by simp [Lg.task, Lg.dispatch, ht]
  have e2 : Lg.task E X sh { a with privateKeysHex := keys' } = Lg.cliSignJson X { a with privateKeysHex := keys' } := by
    simp [Lg.task, Lg.dispatch, ht]
  rw [e1] at h hp ⊢
  rw [e2] at h' hp ⊢
  have parts : ∀ b : CliArgs, (Lg.cliSignJson X b).outcome = .ok () → ∃ js t ts out, b.data = some js ∧ Tx.fromJson X js = .ok t ∧
      t.sign X b.privateKeysHex none = (ts, .ok ()) ∧ ts.toJson X = .ok out ∧ prints (Lg.cliSignJson X b).ev = [out] := by
    intro b hb
    have := (out_signJson X b).symm.trans (out_parts hb)
    unfold BT.cliSignJson at this
    obtain ⟨js, g1, this⟩ := bindOut_out_ok this
    obtain ⟨t, g2, this⟩ := bindOut_out_ok this
    simp only at this
    obtain ⟨_, g3, this⟩ := bindOut_out_ok this
    obtain ⟨out, g4, this⟩ := bindOut_out_ok this
    refine ⟨js, t, (t.sign X b.privateKeysHex none).1, out, ?_, g2, Prod.ext rfl g3, g4, ?_⟩
    · cases hd : b.data with
      | none => rw [hd] at g1; simp [needStr] at g1
      | some s => rw [hd] at g1; simp [needStr] at g1; rw [g1]
    · cases hv : Tx.verify X (t.sign X b.privateKeysHex none).1 with
      | error e => rw [hv] at this; simp [printThen, bindOut] at this
      | ok bad =>
        rw [hv] at this
        by_cases hb : bad = 0
        · simp [printThen, bindOut, hb] at this
          exact this.symm
        · simp [printThen, bindOut, hb] at this
  obtain ⟨js, t, ts, out, d1, j1, s1, x1, p1⟩ := parts _ h
  obtain ⟨js', t', ts', out', d2, j2, s2, x2, p2⟩ := parts _ h'
  simp only at d2 s2
  rw [d1] at d2; injection d2 with d2; subst d2
  rw [j1] at j2; injection j2 with j2; subst j2
  rw [p1, p2] at hp
  simp only [List.cons.injEq, and_true] at hp
  subst hp
  have htt := fromJson_ht1 X j1
  have safe : ∀ {keys : List Str} {ts : Tx}, t.sign X keys none = (ts, .ok ()) →
      ∀ i ∈ ts.inputs, i.scriptLenInt.jsonSafe = true ∧ i.spkLenInt.jsonSafe = true := by
    intro keys ts hs i hin
    rw [BT.sign_eq] at hs
    cases hc : signChecks X keys none with
    | error e => rw [hc] at hs; simp at hs
    | ok m =>
      rw [hc] at hs
      simp only [Prod.mk.injEq] at hs
      obtain ⟨rfl, h2⟩ := hs
      obtain ⟨hl, hst⟩ := (signRest_ok X t m none t.inputs 0 (BT.signRest X t m none 0 t.inputs).1).1 (by rw [← h2])
      simp only at hin
      obtain ⟨j, hj⟩ := List.getElem?_of_mem hin
      have hj' : j < t.inputs.length := by rw [← hl]; exact (List.getElem?_eq_some_iff.1 hj).1
      obtain ⟨rv, key, pk, ss, sl, n, _, _, rfl⟩ := hst j _ i (List.getElem?_eq_getElem hj') hj
      exact ⟨rfl, hi _ _ d1 j1 t.inputs[j] (List.getElem_mem hj')⟩
  have hs := json_scripts X x1 x2 (safe s1) (safe s2)
  have hsig := signed_same X L t htt s1 s2 hs
  congr 1
  unfold Lg.cliSignJson
  refine bind_congr fun js0 hjs => ?_
  rw [o_run, d1] at hjs
  injection hjs with hjs
  subst hjs
  refine bind_congr fun t0 ht0 => ?_
  rw [o_fromJson, j1] at ht0
  injection ht0 with ht0
  subst ht0
  simp only
  rw [hsig]

/-! ## C120: what is shown at the default level -/

/-- what is shown above level INFO is the verdict on an invalid signature -/
def Shown (X : Ext) (e : Ev) : Prop :=
  Calm e ∨ ∃ (t : Tx) (j : Nat) (i : TxIn) (c : Check), t.inputs[j]? = some i ∧ c.Of X t j i ∧ c.valid = false ∧
    e = verdictLog t.inputs.length j false

theorem shown_verify (X : Ext) (t : Tx) : Only (Shown X) (Lg.verify X t) :=
  (only_verify X t).mono fun _ h => h.imp id fun ⟨j, i, c, h⟩ => ⟨t, j, i, c, h⟩

theorem shown_task (E : Msg.Env) (X : Ext) (sh : Shell) (a : CliArgs) : Only (Shown X) (Lg.task E X sh a) := by
  have lift : ∀ {α : Type} {m : W α}, Only Calm m → Only (Shown X) m := fun h => h.mono fun _ => Or.inl
  have pr : ∀ s, Only (Shown X) (Lg.print s) := fun s => Only.print (.inl trivial)
  have i1 : ∀ l s, Only (Shown X) (Lg.info l s) := fun l s => Only.info (.inl (by show (20 : Nat) ≤ 20; omega))
  have d1 : ∀ l s, Only (Shown X) (Lg.deb l s) := fun l s => Only.deb (.inl (by show (10 : Nat) ≤ 20; omega))
  unfold Lg.task
  refine Only.ite ?_ ?_
  · intro e he
    simp only [Lg.cliPythonVersion, List.mem_map] at he
    obtain ⟨s, _, rfl⟩ := he
    exact .inl trivial
  unfold Lg.dispatch
  have hello : ∀ l, Only (Shown X) (Lg.cliHello l) := fun l => Only.bind (i1 _ _) fun _ => Only.bind (d1 _ _) fun _ => pr _
  have one : Only (Shown X) (Lg.cliOneShot E X a) := by
    refine Only.bind (lift (calm_create E X _)) fun _ => Only.bind (lift (calm_toJson X _)) fun _ => Only.bind (lift (calm_fromJson X _)) fun _ =>
      Only.bind (lift (calm_signed X _ _)) fun _ => Only.bind (shown_verify X _) fun _ => ?_
    simp only
    refine Only.ite (Only.bind (Only.refuse _ _) fun _ => ?_) ?_
    all_goals
      refine Only.bind (lift (calm_toHexSigned _)) fun _ => Only.bind (Only.run _) fun _ => Only.bind (d1 _ _) fun _ =>
        Only.bind (lift (calm_fromHexSigned X _)) fun _ => Only.bind (shown_verify X _) fun _ => ?_
      exact Only.ite (Only.bind (Only.refuse _ _) fun _ => pr _) (pr _)
  refine Only.ite (hello _) (Only.ite (hello _) ?_)
  refine Only.ite ?_ (Only.ite ?_ (Only.ite ?_ (Only.ite ?_ (Only.ite ?_ (Only.ite ?_ ?_)))))
  · exact Only.bind (Only.run _) fun _ => pr _
  · exact Only.bind (Only.run _) fun _ => Only.bind (Only.run _) fun _ => pr _
  · exact Only.bind (Only.run _) fun _ => pr _
  · exact Only.bind (Only.run _) fun _ => pr _
  · exact Only.bind (Only.run _) fun _ => Only.bind (Only.run _) fun _ => Only.bind (Only.run _) fun _ =>
      Only.bind (pr _) fun _ => Only.bind (Only.run _) fun _ => Only.bind (Only.run _) fun _ => Only.ite (Only.refuse _ _) (Only.pure _)
  · exact Only.bind (Only.run _) fun _ => Only.bind (Only.run _) fun _ => Only.bind (Only.run _) fun _ => Only.bind (Only.run _) fun _ =>
      Only.bind (Only.run _) fun _ => Only.bind (Only.run _) fun _ => Only.ite (pr _) (pr _)
  refine Only.ite ?_ (Only.ite ?_ (Only.ite ?_ (Only.ite ?_ (Only.ite ?_ (Only.ite ?_ (Only.ite ?_ (Only.ite one (Only.ite one (pr _)))))))))
  · exact Only.bind (lift (calm_create E X _)) fun _ => Only.bind (lift (calm_toJson X _)) fun _ => Only.bind (pr _) fun _ =>
      Only.bind (lift (calm_fromJson X _)) fun _ => Only.pure _
  · exact Only.bind (Only.run _) fun _ => Only.bind (lift (calm_fromJson X _)) fun _ => pr _
  · exact Only.bind (Only.run _) fun _ => Only.bind (lift (calm_fromJson X _)) fun _ => Only.bind (lift (calm_signed X _ _)) fun _ =>
      Only.bind (lift (calm_toJson X _)) fun _ => Only.bind (pr _) fun _ => Only.bind (shown_verify X _) fun _ =>
      Only.ite (Only.refuse _ _) (Only.pure _)
  · exact Only.bind (Only.run _) fun _ => Only.bind (lift (calm_fromJson X _)) fun _ => Only.bind (shown_verify X _) fun _ => Only.ite (pr _) (pr _)
  · exact Only.bind (Only.run _) fun _ => Only.bind (lift (calm_fromJson X _)) fun _ => Only.bind (shown_verify X _) fun _ =>
      Only.bind (lift (calm_toHexSigned _)) fun _ => Only.bind (pr _) fun _ => Only.refuse _ _
  · refine Only.bind (Only.run _) fun _ => Only.bind (lift (calm_fromHexSigned X _)) fun _ => Only.bind (shown_verify X _) fun _ => ?_
    exact Only.ite (Only.bind (Only.refuse _ _) fun _ => pr _) (pr _)
  · exact Only.bind (Only.run _) fun _ => Only.bind (lift (calm_fromHexSigned X _)) fun _ => Only.bind (shown_verify X _) fun _ =>
      Only.bind (lift (calm_toJson X _)) fun _ => Only.bind (pr _) fun _ => Only.ite (Only.refuse _ _) (Only.pure _)

/-- **C120**: the only lines that any task ever logs above level INFO (so the only ones shown at the default level ERROR) are
"Signature j of n is invalid!", for an input of a transaction whose signature was found invalid. -/
theorem C120_errors (E : Msg.Env) (X : Ext) (sh : Shell) (a : CliArgs) (logger text : Str) (n : Nat)
    (h : .log logger n text ∈ (Lg.task E X sh a).ev) (hn : n > 20) :
    ∃ (t : Tx) (j : Nat) (i : TxIn) (c : Check), t.inputs[j]? = some i ∧ c.Of X t j i ∧ c.valid = false ∧
      Ev.log logger n text = verdictLog t.inputs.length j false := by
  rcases shown_task E X sh a _ h with h | h
  · have : n ≤ 20 := h
    omega
  · exact h

/-! ### runs that end normally -/

/-- in a run that ends normally everything shown satisfies `P` -/
def OkOnly {α : Type} (P : Ev → Prop) (m : W α) : Prop := ∀ a, m.outcome = .ok a → Only P m

theorem OkOnly.of {α : Type} {P : Ev → Prop} {m : W α} (h : Only P m) : OkOnly P m := fun _ _ => h
theorem OkOnly.bind {α β : Type} {P : Ev → Prop} {m : W α} {f : α → W β} (h : Only P m) (g : ∀ a, m.outcome = .ok a → OkOnly P (f a)) :
    OkOnly P (m >>= f) := by
  intro b hb
  rw [o_bind] at hb
  refine h.bind' fun a ha => ?_
  rw [ha] at hb
  exact g a ha b hb
theorem OkOnly.ite {α : Type} {P : Ev → Prop} {c : Prop} [Decidable c] {a b : W α} (h1 : OkOnly P a) (h2 : OkOnly P b) :
    OkOnly P (if c then a else b) := by split <;> assumption

/-- a check followed by something that ends normally only if all signatures were valid -/
theorem OkOnly.verify {β : Type} {X : Ext} {t : Tx} {f : Nat → W β} (h0 : ∀ k b, k ≠ 0 → (f k).outcome ≠ .ok b) (g : OkOnly Calm (f 0)) :
    OkOnly Calm (Lg.verify X t >>= f) := by
  intro b hb
  rw [o_bind] at hb
  cases hk : (Lg.verify X t).outcome with
  | error e => rw [hk] at hb; simp at hb
  | ok k =>
    rw [hk] at hb
    have hk0 : k = 0 := Classical.byContradiction fun hne => h0 k b hne hb
    subst hk0
    refine Only.bind' ?_ fun a ha => ?_
    · intro e he
      rcases only_verify X t e he with h | ⟨j, i, c, hi, hc, hv, rfl⟩
      · exact h
      · exfalso
        obtain ⟨cs, h1, h2, h3, _⟩ := C116_exact X t 0 hk
        have hj : j < cs.length := by rw [h1]; exact (List.getElem?_eq_some_iff.1 hi).1
        have hc' := h2 j i _ hi (List.getElem?_eq_getElem hj)
        have : cs[j].valid = false := by
          obtain ⟨ss, hx, dg, q1, q2, q3, q4, q5, q6⟩ := hc
          obtain ⟨ss', hx', dg', r1, r2, r3, r4, r5, r6⟩ := hc'
          rw [q1] at r1; cases r1
          rw [q2] at r2; injection r2 with r2; rw [Prod.mk.injEq] at r2
          rw [← r2.1, q3] at r3; injection r3 with r3
          rw [q4] at r4; cases r4
          rw [q5] at r5; cases r5
          rw [← r2.2, ← r3, q6] at r6; injection r6 with r6
          rw [← r6]; exact hv
        have hm : cs[j] ∈ cs.filter fun c => !c.valid := by
          rw [List.mem_filter]; exact ⟨List.getElem_mem hj, by rw [this]; rfl⟩
        rw [List.length_eq_zero_iff.1 h3.symm] at hm
        cases hm
    · rw [hk] at ha
      injection ha with ha
      subst ha
      exact g b hb

theorem visible_calm {l : List Ev} {n : Nat} (hn : 20 < n) (h : ∀ e ∈ l, Calm e) : visible n l = [] := by
  induction l with
  | nil => rfl
  | cons x xs ih =>
    have h1 := h x (List.mem_cons_self ..)
    have h2 := ih fun e he => h e (List.mem_cons_of_mem _ he)
    cases x with
    | print s => exact h2
    | log lg k s =>
      have hk : k ≤ 20 := h1
      have : visible n (.log lg k s :: xs) = visible n xs := by
        unfold visible
        simp only [records]
        rw [List.filter_cons_of_neg (by simp only [decide_eq_true_eq]; omega)]
      rw [this, h2]

/-- **C120**: a task that ends normally shows nothing above level INFO, `verify_signed_transaction_json` aside (which ends
normally also when it finds invalid signatures). -/
theorem C120_success (E : Msg.Env) (X : Ext) (sh : Shell) (a : CliArgs) (ht : a.task ≠ py"verify_signed_transaction_json")
    (h : (Lg.task E X sh a).outcome = .ok ()) (n : Nat) (hn : 20 < n) : visible n (Lg.task E X sh a).ev = [] := by
  suffices key : OkOnly Calm (Lg.task E X sh a) from visible_calm hn (key () h)
  have pr : ∀ s, Only Calm (Lg.print s) := fun s => Only.print trivial
  have d1 : ∀ l s, Only Calm (Lg.deb l s) := fun l s => Only.deb (by show (10 : Nat) ≤ 20; omega)
  have i1 : ∀ l s, Only Calm (Lg.info l s) := fun l s => Only.info (by show (20 : Nat) ≤ 20; omega)
  unfold Lg.task
  refine OkOnly.ite (.of ?_) ?_
  · intro e he
    simp only [Lg.cliPythonVersion, List.mem_map] at he
    obtain ⟨s, _, rfl⟩ := he
    trivial
  unfold Lg.dispatch
  have hello : ∀ l, OkOnly Calm (Lg.cliHello l) := fun l => .of (Only.bind (i1 _ _) fun _ => Only.bind (d1 _ _) fun _ => pr _)
  have one : OkOnly Calm (Lg.cliOneShot E X a) := by
    refine OkOnly.bind (calm_create E X _) fun _ _ => OkOnly.bind (calm_toJson X _) fun _ _ => OkOnly.bind (calm_fromJson X _) fun _ _ =>
      OkOnly.bind (calm_signed X _ _) fun _ _ => OkOnly.verify (fun k b hk => ?_) ?_
    · simp only [ne_eq, hk, not_false_eq_true, if_true, o_bind, o_refuse]
      simp
    · simp only [ne_eq, not_true_eq_false, if_false]
      refine OkOnly.bind (calm_toHexSigned _) fun _ _ => OkOnly.bind (Only.run _) fun _ _ => OkOnly.bind (d1 _ _) fun _ _ =>
        OkOnly.bind (calm_fromHexSigned X _) fun _ _ => OkOnly.verify (fun k b hk => ?_) ?_
      · simp only [ne_eq, hk, not_false_eq_true, if_true, o_bind, o_refuse]
        simp
      · simp only [ne_eq, not_true_eq_false, if_false]
        exact .of (pr _)
  refine OkOnly.ite (hello _) (OkOnly.ite (hello _) ?_)
  refine OkOnly.ite (.of ?_) (OkOnly.ite (.of ?_) (OkOnly.ite (.of ?_) (OkOnly.ite (.of ?_) (OkOnly.ite (.of ?_) (OkOnly.ite (.of ?_) ?_)))))
  · exact Only.bind (Only.run _) fun _ => pr _
  · exact Only.bind (Only.run _) fun _ => Only.bind (Only.run _) fun _ => pr _
  · exact Only.bind (Only.run _) fun _ => pr _
  · exact Only.bind (Only.run _) fun _ => pr _
  · exact Only.bind (Only.run _) fun _ => Only.bind (Only.run _) fun _ => Only.bind (Only.run _) fun _ =>
      Only.bind (pr _) fun _ => Only.bind (Only.run _) fun _ => Only.bind (Only.run _) fun _ => Only.ite (Only.refuse _ _) (Only.pure _)
  · exact Only.bind (Only.run _) fun _ => Only.bind (Only.run _) fun _ => Only.bind (Only.run _) fun _ => Only.bind (Only.run _) fun _ =>
      Only.bind (Only.run _) fun _ => Only.bind (Only.run _) fun _ => Only.ite (pr _) (pr _)
  rw [if_neg ht]
  refine OkOnly.ite (.of ?_) (OkOnly.ite (.of ?_) (OkOnly.ite ?_ (OkOnly.ite ?_ (OkOnly.ite ?_ (OkOnly.ite ?_ (OkOnly.ite one (OkOnly.ite one (.of (pr _)))))))))
  · exact Only.bind (calm_create E X _) fun _ => Only.bind (calm_toJson X _) fun _ => Only.bind (pr _) fun _ =>
      Only.bind (calm_fromJson X _) fun _ => Only.pure _
  · exact Only.bind (Only.run _) fun _ => Only.bind (calm_fromJson X _) fun _ => pr _
  · refine OkOnly.bind (Only.run _) fun _ _ => OkOnly.bind (calm_fromJson X _) fun _ _ => OkOnly.bind (calm_signed X _ _) fun _ _ =>
      OkOnly.bind (calm_toJson X _) fun _ _ => OkOnly.bind (pr _) fun _ _ => OkOnly.verify (fun k b hk => ?_) ?_
    · simp [hk, o_refuse]
    · simp only [ne_eq, not_true_eq_false, if_false]
      exact .of (Only.pure _)
  · refine OkOnly.bind (Only.run _) fun _ _ => OkOnly.bind (calm_fromJson X _) fun t _ => ?_
    intro b hb
    exfalso
    simp only [o_bind, o_refuse] at hb
    simp only [R_bind_eq_ok] at hb
    obtain ⟨_, _, _, _, _, _, hb⟩ := hb
    simp at hb
  · refine OkOnly.bind (Only.run _) fun _ _ => OkOnly.bind (calm_fromHexSigned X _) fun _ _ => OkOnly.verify (fun k b hk => ?_) ?_
    · simp only [ne_eq, hk, not_false_eq_true, if_true, o_bind, o_refuse]
      simp
    · simp only [ne_eq, not_true_eq_false, if_false]
      exact .of (pr _)
  · refine OkOnly.bind (Only.run _) fun _ _ => OkOnly.bind (calm_fromHexSigned X _) fun _ _ => OkOnly.verify (fun k b hk => ?_) ?_
    · simp only [o_bind, ne_eq, hk, not_false_eq_true, if_true, o_refuse]
      intro hb
      simp only [R_bind_eq_ok] at hb
      obtain ⟨_, _, _, _, hb⟩ := hb
      simp at hb
    · simp only [ne_eq, not_true_eq_false, if_false]
      exact .of (Only.bind (calm_toJson X _) fun _ => Only.bind (pr _) fun _ => Only.pure _)

end BT
