import Verif.Lemmas.LogTextTask
import Verif.Props.Forms

/-!
# C142: the log cannot be forged

The text of the log (LogText.lean) is made of records, one after the other; the vocabulary is in LogTextSpec.lean.  Two inputs that are logged before they
are validated make the claim false of the code: see `C142_forged_violation` and `C142_forged2_violation`.  `C142_harmless_partial` says that these are the
only ones, `C142_normal` that a task that ends normally leaves a log that can be trusted.
-/

namespace BT
open Spec Lg LT

/-! ## Reading back -/

theorem cut_at {c : Char} {a b x y : Str} (ha : c ∉ a) (hb : c ∉ b) (h : a ++ c :: x = b ++ c :: y) : a = b ∧ x = y := by
  rcases List.append_eq_append_iff.1 h with ⟨d, h1, h2⟩ | ⟨d, h1, h2⟩
  · cases d with
    | nil => simp only [List.append_nil] at h1; simp only [List.nil_append, List.cons.injEq, true_and] at h2; exact ⟨h1.symm, h2⟩
    | cons e d =>
      simp only [List.cons_append, List.cons.injEq] at h2
      exact absurd (by rw [h1, ← h2.1]; simp) hb
  · cases d with
    | nil => simp only [List.append_nil] at h1; simp only [List.nil_append, List.cons.injEq, true_and] at h2; exact ⟨h1, h2.symm⟩
    | cons e d =>
      simp only [List.cons_append, List.cons.injEq] at h2
      exact absurd (by rw [h1, ← h2.1]; simp) ha

/-- what follows a record: nothing, or the next record -/
def Begins (l : Str) : Prop := l = [] ∨ ∃ c r, l = c :: r ∧ 48 ≤ c.toNat ∧ c.toNat ≤ 90

theorem text_split {a b x y : Str} (ha : Harmless a) (hb : Harmless b) (hx : Begins x) (hy : Begins y) (h : a ++ '\n' :: x = b ++ '\n' :: y) :
    a = b ∧ x = y := by
  have key : ∀ {a b x y d : Str}, Harmless a → Begins y → a = b ++ d → '\n' :: y = d ++ '\n' :: x → d = [] := by
    intro a b x y d ha hy h1 h2
    cases d with
    | nil => rfl
    | cons e d =>
      simp only [List.cons_append, List.cons.injEq] at h2
      obtain ⟨rfl, rfl⟩ := h2
      obtain ⟨c, r, rfl, hc⟩ := ha b d h1
      rcases hy with hy | ⟨c', r', hy, h3, h4⟩
      · cases hy
      · simp only [List.cons_append, List.cons.injEq] at hy
        obtain ⟨rfl, _⟩ := hy
        rcases hc with rfl | hc
        · exact absurd h3 (by decide)
        · omega
  rcases List.append_eq_append_iff.1 h with ⟨d, h1, h2⟩ | ⟨d, h1, h2⟩
  · obtain rfl := key hb hx h1 h2
    simp only [List.append_nil] at h1
    simp only [List.nil_append, List.cons.injEq, true_and] at h2
    exact ⟨h1.symm, h2⟩
  · obtain rfl := key ha hy h1 h2
    simp only [List.append_nil] at h1
    simp only [List.nil_append, List.cons.injEq, true_and] at h2
    exact ⟨h1, h2.symm⟩

/-- a record from the level on, followed by `u` -/
def tail (r : Rec) (u : Str) : Str :=
  pad8 (levelName r.level) ++ (py" [" ++ (r.logger ++ (py": " ++ (pyStr r.line ++ (py" (" ++ (r.func ++ (py")] " ++ (r.text ++ u))))))))

theorem shown_eq (r : Rec) (u : Str) : r.shown ++ u = (match r.time with | some t => t ++ py" " | none => []) ++ tail r u := by
  unfold Rec.shown tail
  simp only [List.append_assoc]
  cases r.time <;> rfl

theorem level_pad {n m : Nat} (hn : n ∈ [10, 20, 30, 40, 50]) (hm : m ∈ [10, 20, 30, 40, 50]) {x y : Str}
    (h : pad8 (levelName n) ++ x = pad8 (levelName m) ++ y) : n = m ∧ x = y := by
  have l8 : ∀ k ∈ [10, 20, 30, 40, 50], (pad8 (levelName k)).length = 8 := by decide
  obtain ⟨h1, h2⟩ := List.append_inj h (by rw [l8 n hn, l8 m hm])
  refine ⟨?_, h2⟩
  have : ∀ k ∈ [10, 20, 30, 40, 50], ∀ j ∈ [10, 20, 30, 40, 50], pad8 (levelName k) = pad8 (levelName j) → k = j := by decide
  exact this n hn m hm h1

theorem tail_head {r : Rec} (h : Placed r) (u : Str) : ∃ c v, tail r u = c :: v ∧ 65 ≤ c.toNat ∧ c.toNat ≤ 90 := by
  have : ∀ k ∈ [10, 20, 30, 40, 50], ∃ c v, pad8 (levelName k) = c :: v ∧ 65 ≤ c.toNat ∧ c.toNat ≤ 90 := by
    intro k hk
    simp only [List.mem_cons, List.not_mem_nil, or_false] at hk
    rcases hk with rfl | rfl | rfl | rfl | rfl <;> exact ⟨_, _, rfl, by decide, by decide⟩
  obtain ⟨c, v, h1, h2⟩ := this _ h.level
  unfold tail
  rw [h1]
  exact ⟨c, _, rfl, h2⟩

theorem tail_inj {r s : Rec} (hr : Placed r) (hs : Placed s) {x y : Str} (h : tail r x = tail s y) :
    r.level = s.level ∧ r.logger = s.logger ∧ r.line = s.line ∧ r.func = s.func ∧ r.text ++ x = s.text ++ y := by
  unfold tail at h
  obtain ⟨h1, h⟩ := level_pad hr.level hs.level h
  have h := List.append_cancel_left h
  have hc : ∀ l ∈ loggerNames, ':' ∉ l := by decide
  obtain ⟨h2, h⟩ := cut_at (hc _ hr.logger) (hc _ hs.logger) h
  have h := (List.cons.inj h).2
  have hd : ∀ n : Nat, ' ' ∉ pyStr (n : Int) := by
    intro n hm
    have : pyStr (n : Int) = natDigits 10 n := by unfold pyStr; rw [if_neg (by omega)]; rfl
    rw [this] at hm
    have := natDigits_dig n _ hm
    revert this; unfold IsDig; decide
  obtain ⟨h3, h⟩ := cut_at (hd _) (hd _) h
  have h := (List.cons.inj h).2
  obtain ⟨h4, h⟩ := cut_at hr.func.1 hs.func.1 h
  have h := (List.cons.inj h).2
  have h := (List.cons.inj h).2
  have h3 : (r.line : Int) = s.line := pyStr_inj h3
  exact ⟨h1, h2, by omega, h4, h⟩

theorem shown_inj {r s : Rec} (hr : Placed r) (hs : Placed s) {x y : Str} (h : r.shown ++ x = s.shown ++ y) :
    r.time = s.time ∧ r.level = s.level ∧ r.logger = s.logger ∧ r.line = s.line ∧ r.func = s.func ∧ r.text ++ x = s.text ++ y := by
  rw [shown_eq, shown_eq] at h
  cases h1 : r.time with
  | none =>
    cases h2 : s.time with
    | none =>
      rw [h1, h2] at h
      exact ⟨rfl, tail_inj hr hs h⟩
    | some t =>
      exfalso
      rw [h1, h2] at h
      obtain ⟨c, v, e, c1, c2⟩ := tail_head hr x
      obtain ⟨_, _, d, w, rfl, d1, d2⟩ := hs.time t h2
      simp only [e, List.nil_append, List.cons_append, List.cons.injEq] at h
      obtain ⟨rfl, _⟩ := h
      omega
  | some t =>
    cases h2 : s.time with
    | none =>
      exfalso
      rw [h1, h2] at h
      obtain ⟨c, v, e, c1, c2⟩ := tail_head hs y
      obtain ⟨_, _, d, w, rfl, d1, d2⟩ := hr.time t h1
      simp only [e, List.nil_append, List.cons_append, List.cons.injEq] at h
      obtain ⟨rfl, _⟩ := h
      omega
    | some t' =>
      rw [h1, h2] at h
      simp only [List.append_assoc] at h
      obtain ⟨h3, h4⟩ := List.append_inj h (by rw [(hr.time t h1).1, (hs.time t' h2).1])
      have h4 := List.append_cancel_left h4
      exact ⟨by rw [h3], tail_inj hr hs h4⟩

theorem logText_cons (r : Rec) (rs : List Rec) : logText (r :: rs) = r.shown ++ '\n' :: logText rs := by
  unfold logText
  rw [List.flatMap_cons, List.append_assoc]
  rfl

theorem logText_begins : ∀ rs : List Rec, (∀ r ∈ rs, Placed r) → Begins (logText rs)
  | [], _ => .inl rfl
  | r :: rs, h => by
    have hr := h r (by simp)
    rw [logText_cons, shown_eq]
    obtain ⟨c, v, e, c1, c2⟩ := tail_head hr ('\n' :: logText rs)
    refine .inr ?_
    cases ht : r.time with
    | none => exact ⟨c, v, by rw [e]; rfl, by omega, c2⟩
    | some t =>
      obtain ⟨_, _, d, w, rfl, d1, d2⟩ := hr.time t ht
      exact ⟨d, _, rfl, d1, by omega⟩

/-- C142: records with harmless texts can be read back from the text of the log: another list of such records has another text. -/
theorem C142_read_back (rs rs' : List Rec) (h : ∀ r ∈ rs, Placed r ∧ Harmless r.text) (h' : ∀ r ∈ rs', Placed r ∧ Harmless r.text)
    (e : logText rs = logText rs') : rs = rs' := by
  induction rs generalizing rs' with
  | nil =>
    cases rs' with
    | nil => rfl
    | cons r rs' => rw [logText_cons] at e; simp [logText] at e
  | cons r rs ih =>
    cases rs' with
    | nil => rw [logText_cons] at e; simp [logText] at e
    | cons s rs' =>
      rw [logText_cons, logText_cons] at e
      obtain ⟨p1, p2⟩ := h r (by simp)
      obtain ⟨q1, q2⟩ := h' s (by simp)
      obtain ⟨e1, e2, e3, e4, e5, e6⟩ := shown_inj p1 q1 e
      obtain ⟨e7, e8⟩ := text_split p2 q2 (logText_begins rs fun x hx => (h x (by simp [hx])).1)
        (logText_begins rs' fun x hx => (h' x (by simp [hx])).1) e6
      rw [ih rs' (fun x hx => h x (by simp [hx])) (fun x hx => h' x (by simp [hx])) e8]
      congr 1
      cases r; cases s
      simp_all

/-! ## The texts of the records -/

/-- the tasks that read a signed transaction in hex -/
def hexTasks : List Str := [py"verify_signed_transaction_hex", py"decode_signed_transaction_hex"]

/-- the tasks that create a transaction -/
def createTasks : List Str := [py"create_unsigned_transaction_json", py"create_sign_and_verify_transaction_hex", py"create_transaction"]

/-- a harmless record, or one of the two texts that are logged before they are validated -/
def Told (X : Ext) (a : CliArgs) (e : Ev) : Prop :=
  HL e ∨ (a.task ∈ hexTasks ∧ ∃ h, dataStripped X a = .ok h ∧ ¬ IsHex h ∧ e = received h) ∨
    (a.task ∈ createTasks ∧ ∃ s, e = .log lCreate 20 s ∧ setting (cliTxArgs a) py"input_selection_approaches" = some (.str s) ∧ s ≠ [])

theorem fromJson_addresses {X : Ext} {s : Str} {t : Tx} (h : Tx.fromJson X s = .ok t) : ∀ i ∈ t.inputs, NoNl i.address := by
  unfold Tx.fromJson at h
  simp only [R_bind_eq_ok] at h
  obtain ⟨x, _, h⟩ := h
  obtain ⟨d, insD, outsD, _, _, _, _, _, _, _, _, hf, _⟩ := (fromData_ok X).1 h
  intro i hi
  obtain ⟨p, _, hp⟩ := forall₂_mem_right hf i hi
  obtain ⟨_, _, _, _, _, _, _, _, L⟩ := (TxIn_fromDict_ok X).1 hp
  exact nn_vaddr L.addr

theorem created_addresses {X : Ext} (hs : ∀ b, (X.sha256 b).length = 32) {a a' : Args} {t : Tx} (h : createTransaction X a = .ok (t, a')) :
    ∀ i ∈ t.inputs, NoNl i.address := by
  obtain ⟨p, m, fee, sel, outs', ch, q, hp, B, _⟩ := (create_ok hs).1 h
  intro i hi
  rw [B.tx_eq] at hi
  simp only at hi
  rw [B.sel_eq] at hi
  have := (arranged_perm m p.ins).mem_iff.1 ((chosen_prefix _ _ _).subset hi)
  exact (plan_ins hs hp i this).1

theorem told_create {E : Msg.Env} {X : Ext} (hE : ∀ f, '\n' ∉ E.floatRepr f) (hs : ∀ b, (X.sha256 b).length = 32) {a : CliArgs}
    (ht : a.task ∈ createTasks) : Only (Told X a) (Lg.create E X (cliTxArgs a)) := by
  intro e he
  unfold Lg.create at he
  simp only [List.mem_map] at he
  obtain ⟨s, hm, rfl⟩ := he
  rcases (said_create hE hs (cliTxArgs a)).all s hm with h | ⟨h1, h2⟩
  · exact .inl h
  · exact .inr (.inr ⟨ht, s, rfl, h1, h2⟩)

theorem told_task {E : Msg.Env} {X : Ext} (hE : ∀ f, '\n' ∉ E.floatRepr f) (hs : ∀ b, (X.sha256 b).length = 32) (sh : Shell) (a : CliArgs) :
    Only (Told X a) (Lg.task E X sh a) := by
  have up : ∀ {α : Type} {m : W α}, Only HL m → Only (Told X a) m := fun h => h.mono fun _ h => .inl h
  have pr : ∀ s, Only (Told X a) (Lg.print s) := fun s => Only.print (.inl trivial)
  unfold Lg.task
  refine Only.ite ?_ ?_
  · intro e he
    simp only [Lg.cliPythonVersion, List.mem_map] at he
    obtain ⟨s, _, rfl⟩ := he
    exact .inl trivial
  have hello : ∀ l, Only (Told X a) (Lg.cliHello l) := fun l =>
    Only.bind (Only.info (.inl (H.lit (by decide)))) fun _ => Only.bind (Only.deb (.inl (H.lit (by decide)))) fun _ => pr _
  have vf := fun t => up (hl_verify X t)
  have tj := fun t => up (hl_toJson X t)
  have fj := fun s => up (hl_fromJson X s)
  have th := fun t => up (hl_toHexSigned t)
  have one : a.task ∈ createTasks → Only (Told X a) (Lg.cliOneShot E X a) := by
    intro ht
    unfold Lg.cliOneShot
    refine Only.bind' (told_create hE hs ht) fun r hr => ?_
    rw [o_create] at hr
    have ha := created_addresses hs (a' := r.2) (t := r.1) hr
    refine Only.bind (tj _) fun _ => Only.bind (fj _) fun _ => Only.bind (up (hl_signed X _ _ ha)) fun ts => Only.bind (vf _) fun _ => ?_
    simp only
    refine Only.ite (Only.bind' (Only.refuse _ _) fun _ h => by rw [o_refuse] at h; cases h) ?_
    refine Only.bind (th _) fun h => Only.bind' (Only.run _) fun k hk => ?_
    rw [o_run] at hk
    refine Only.bind (Only.deb (.inl (hl_sizedLen (by decide) (by decide) hk))) fun _ => ?_
    refine Only.bind ((hl_fromHexSigned X h).mono fun e he => ?_) fun _ => Only.bind (vf _) fun _ => ?_
    · rcases he with he | ⟨_, hx⟩
      · exact .inl he
      · exact absurd (hexLen_ok.1 hk).1 hx
    · exact Only.ite (Only.bind (Only.refuse _ _) fun _ => pr _) (pr _)
  unfold Lg.dispatch
  refine Only.ite (hello _) (Only.ite (hello _) ?_)
  refine Only.ite ?_ (Only.ite ?_ (Only.ite ?_ (Only.ite ?_ (Only.ite ?_ (Only.ite ?_ ?_)))))
  · exact Only.bind (Only.run _) fun _ => pr _
  · exact Only.bind (Only.run _) fun _ => Only.bind (Only.run _) fun _ => pr _
  · exact Only.bind (Only.run _) fun _ => pr _
  · exact Only.bind (Only.run _) fun _ => pr _
  · exact Only.bind (Only.run _) fun _ => Only.bind (Only.run _) fun _ => Only.bind (Only.run _) fun _ =>
      Only.bind (pr _) fun _ => Only.bind (Only.run _) fun _ => Only.bind (Only.run _) fun _ => Only.ite (Only.refuse _ _) (Only.pure _)
  · exact Only.bind (Only.run _) fun _ => Only.bind (Only.run _) fun _ => Only.bind (Only.run _) fun _ => Only.bind (Only.run _) fun _ =>
      Only.bind (Only.run _) fun _ => Only.bind (Only.run _) fun _ => Only.ite (pr _) (pr _)
  by_cases t1 : a.task = py"create_unsigned_transaction_json"
  · rw [if_pos t1]
    exact Only.bind (told_create hE hs (by rw [t1]; decide)) fun _ => Only.bind (tj _) fun _ => Only.bind (pr _) fun _ =>
      Only.bind (fj _) fun _ => Only.pure _
  rw [if_neg t1]
  refine Only.ite ?_ (Only.ite ?_ (Only.ite ?_ (Only.ite ?_ ?_)))
  · exact Only.bind (Only.run _) fun _ => Only.bind (fj _) fun _ => pr _
  · refine Only.bind (Only.run _) fun js => Only.bind' (fj _) fun t ht => ?_
    rw [o_fromJson] at ht
    exact Only.bind (up (hl_signed X _ _ (fromJson_addresses ht))) fun _ =>
      Only.bind (tj _) fun _ => Only.bind (pr _) fun _ => Only.bind (vf _) fun _ =>
      Only.ite (Only.refuse _ _) (Only.pure _)
  · exact Only.bind (Only.run _) fun _ => Only.bind (fj _) fun _ => Only.bind (vf _) fun _ => Only.ite (pr _) (pr _)
  · exact Only.bind (Only.run _) fun _ => Only.bind (fj _) fun _ => Only.bind (vf _) fun _ =>
      Only.bind (th _) fun _ => Only.bind (pr _) fun _ => Only.refuse _ _
  have fh : a.task ∈ hexTasks → ∀ h, dataStripped X a = .ok h → Only (Told X a) (Lg.fromHexSigned X h) := by
    intro ht h hd
    refine (hl_fromHexSigned X h).mono fun e he => ?_
    rcases he with he | ⟨rfl, hx⟩
    · exact .inl he
    · exact .inr (.inl ⟨ht, h, hd, hx, rfl⟩)
  by_cases t2 : a.task = py"verify_signed_transaction_hex"
  · rw [if_pos t2]
    refine Only.bind' (Only.run _) fun h hd => Only.bind (fh (by rw [t2]; decide) h (by rwa [o_run] at hd)) fun _ => Only.bind (vf _) fun _ => ?_
    exact Only.ite (Only.bind (Only.refuse _ _) fun _ => pr _) (pr _)
  rw [if_neg t2]
  by_cases t3 : a.task = py"decode_signed_transaction_hex"
  · rw [if_pos t3]
    exact Only.bind' (Only.run _) fun h hd => Only.bind (fh (by rw [t3]; decide) h (by rwa [o_run] at hd)) fun _ => Only.bind (vf _) fun _ =>
      Only.bind (tj _) fun _ => Only.bind (pr _) fun _ => Only.ite (Only.refuse _ _) (Only.pure _)
  rw [if_neg t3]
  by_cases t4 : a.task = py"create_sign_and_verify_transaction_hex"
  · rw [if_pos t4]
    exact one (by rw [t4]; decide)
  rw [if_neg t4]
  by_cases t5 : a.task = py"create_transaction"
  · rw [if_pos t5]
    exact one (by rw [t5]; decide)
  rw [if_neg t5]
  exact pr _

theorem mem_records {ev : List Ev} {l : Str} {n : Nat} {s : Str} : (l, n, s) ∈ records ev ↔ Ev.log l n s ∈ ev := by
  induction ev with
  | nil => simp [records]
  | cons e ev ih =>
    cases e with
    | print t => simp [records, ih]
    | log l' n' s' => simp [records, ih]

/-- C142, the part that holds: whatever the arguments, every record of a task has a harmless text, except two: the text given as a signed transaction, if
it is not hex, and a text given as the input selection approaches. -/
theorem C142_harmless_partial {E : Msg.Env} {X : Ext} (hE : ∀ f, '\n' ∉ E.floatRepr f) (hs : ∀ b, (X.sha256 b).length = 32) (sh : Shell) (a : CliArgs)
    (l : Str) (n : Nat) (s : Str) (h : (l, n, s) ∈ records (task E X sh a).ev) :
    Harmless s ∨
    (a.task ∈ [py"verify_signed_transaction_hex", py"decode_signed_transaction_hex"] ∧
      ∃ d, a.data = some d ∧ ¬ IsHex (pyStrip' X.uni.space d) ∧ s = py"hex received: " ++ pyStrip' X.uni.space d) ∨
    (a.task ∈ [py"create_unsigned_transaction_json", py"create_sign_and_verify_transaction_hex", py"create_transaction"] ∧
      setting (cliTxArgs a) py"input_selection_approaches" = some (.str s)) := by
  rcases told_task hE hs sh a _ (mem_records.1 h) with h | ⟨ht, x, hx, hn, e⟩ | ⟨ht, x, e, hx, _⟩
  · exact .inl h
  · refine .inr (.inl ⟨ht, ?_⟩)
    unfold dataStripped at hx
    cases hd : a.data with
    | none => rw [hd] at hx; cases hx
    | some d =>
      rw [hd] at hx
      simp only [Except.ok.injEq] at hx
      subst hx
      unfold received at e
      injection e with _ _ e
      exact ⟨d, rfl, hn, e⟩
  · injection e with _ _ e
    subst e
    exact .inr (.inr ⟨ht, hx⟩)

/-- C142: a task that ends normally has logged harmless texts only -/
theorem C142_normal {E : Msg.Env} {X : Ext} (hE : ∀ f, '\n' ∉ E.floatRepr f) (hs : ∀ b, (X.sha256 b).length = 32) (sh : Shell) (a : CliArgs)
    (hok : (task E X sh a).outcome = .ok ()) (l : Str) (n : Nat) (s : Str) (h : (l, n, s) ∈ records (task E X sh a).ev) : Harmless s := by
  rcases told_task hE hs sh a _ (mem_records.1 h) with h | ⟨ht, x, hx, hn, e⟩ | ⟨ht, x, e, hx, hne⟩
  · exact h
  · exfalso
    have hf : Tx.fromHexSigned X x = .error .valueError := by
      unfold Tx.fromHexSigned
      have : hexLen x = .error .valueError := by
        unfold hexLen
        rw [vHex_not hn]; rfl
      rw [this]; rfl
    simp only [hexTasks, List.mem_cons, List.not_mem_nil, or_false] at ht
    rcases ht with ht | ht
    all_goals
      simp only [Lg.task, Lg.dispatch, ht] at hok
      revert hok
      simp (decide := true) only [if_false, if_true, Lg.cliVerifyHex, Lg.cliDecodeHex, o_bind, o_run, o_fromHexSigned, hx, R_bind_ok, hf]
      intro hok
      cases hok
  · exfalso
    have hc : ∃ e, createTransaction X (cliTxArgs a) = .error e := by
      cases hc : createTransaction X (cliTxArgs a) with
      | error e => exact ⟨e, rfl⟩
      | ok r =>
        obtain ⟨p, m, fee, sel, outs', ch, q, hp, _⟩ := (create_ok hs (a' := r.2) (t := r.1)).1 hc
        exact absurd (approaches_str hp hx) hne
    obtain ⟨er, hc⟩ := hc
    simp only [createTasks, List.mem_cons, List.not_mem_nil, or_false] at ht
    rcases ht with ht | ht | ht
    all_goals
      simp only [Lg.task, Lg.dispatch, ht] at hok
      revert hok
      simp (decide := true) only [if_false, if_true, Lg.cliCreateUnsigned, Lg.cliOneShot, o_bind, o_create, hc]
      intro hok
      cases hok

/-- C142: the logs of two runs of the program that end normally (all levels, or those from `lev` on) have the same text only if the records are the same,
in number, order, level, logger, place in the code and text. -/
theorem C142_log_of_run {E : Msg.Env} {X : Ext} (hE : ∀ f, '\n' ∉ E.floatRepr f) (hs : ∀ b, (X.sha256 b).length = 32) (sh sh' : Shell) (a a' : CliArgs)
    (lev lev' : Nat) (rs rs' : List Rec) (hok : (task E X sh a).outcome = .ok ()) (hok' : (task E X sh' a').outcome = .ok ())
    (hw : LogOf lev (programEv E X sh a) rs) (hw' : LogOf lev' (programEv E X sh' a') rs') (e : logText rs = logText rs') : rs = rs' := by
  have key : ∀ {sh a lev rs}, (task E X sh a).outcome = .ok () → LogOf lev (programEv E X sh a) rs → ∀ r ∈ rs, Placed r ∧ Harmless r.text := by
    intro sh a lev rs hok hw r hr
    refine ⟨hw.2 r hr, ?_⟩
    have hm : (r.logger, r.level, r.text) ∈ rs.map (fun r => (r.logger, r.level, r.text)) := List.mem_map.2 ⟨r, hr, rfl⟩
    rw [hw.1] at hm
    have hm := mem_records.1 (List.mem_of_mem_filter hm)
    unfold programEv at hm
    rcases List.mem_append.1 hm with hm | hm
    · unfold setupEv at hm
      obtain ⟨n, _, e⟩ := List.mem_map.1 hm
      injection e with _ _ e
      rw [← e]
      exact H.lit (by decide)
    · exact C142_normal hE hs sh a hok _ _ _ (mem_records.2 hm)
  exact C142_read_back rs rs' (key hok hw) (key hok' hw') e

/-! ## Forged records -/

theorem strip_id {sp : Char → Bool} {s : Str} {a c : Char} (ha : isSpaceChar' sp a = false) (hc : isSpaceChar' sp c = false) :
    pyStrip' sp (a :: (s ++ [c])) = a :: (s ++ [c]) := by
  unfold pyStrip'
  rw [List.dropWhile_cons_of_neg (by simp [ha])]
  rw [← List.cons_append, List.reverse_append, List.reverse_singleton, List.singleton_append, List.dropWhile_cons_of_neg (by simp [hc])]
  simp

/-- C142 fails: any list of records that ends with a visible character can be put into the log by whoever supplies the text of a signed transaction.
The verification fails, having logged two records; the text of the log is that of a run that logged "hex received: x" and then these records. -/
theorem C142_forged_violation (E : Msg.Env) (X : Ext) (rs : List Rec) (r : Rec) (p : Str) (c : Char) (hr : r.text = p ++ [c])
    (hc : isSpaceChar' X.uni.space c = false) (hx : isSpaceChar' X.uni.space 'x' = false) :
    ∃ d, ∀ (sh : Shell) (a : CliArgs), a.task = py"verify_signed_transaction_hex" → a.data = some d →
      (task E X sh a).outcome = .error .valueError ∧
      records (task E X sh a).ev = [(py"bitcoin_toolset.code.transaction", 20, py"Loading signed transaction from hex."),
        (py"bitcoin_toolset.code.transaction", 10, py"hex received: " ++ d)] ∧
      ∀ r1 r2 : Rec, r2.text = py"hex received: " ++ d →
        logText [r1, r2] = logText (r1 :: { r2 with text := py"hex received: x" } :: (rs ++ [r])) := by
  have hshown : ∃ q, r.shown = q ++ [c] := by
    unfold Rec.shown
    rw [hr]
    exact ⟨_, by simp only [← List.append_assoc]; rfl⟩
  obtain ⟨q, hq⟩ := hshown
  refine ⟨'x' :: (('\n' :: (logText rs ++ q)) ++ [c]), fun sh a ht hd => ?_⟩
  have hn : ¬ IsHex ('x' :: (('\n' :: (logText rs ++ q)) ++ [c])) := by
    intro h
    have := h.2 'x' (by simp)
    revert this; decide
  have hds : dataStripped X a = .ok ('x' :: (('\n' :: (logText rs ++ q)) ++ [c])) := by
    unfold dataStripped
    rw [hd]
    simp only
    rw [strip_id hx hc]
  have hl : hexLen ('x' :: (('\n' :: (logText rs ++ q)) ++ [c])) = .error .valueError := by
    unfold hexLen
    rw [vHex_not hn]; rfl
  have hrun : task E X sh a = ⟨[.log lTx 20 py"Loading signed transaction from hex.", received ('x' :: (('\n' :: (logText rs ++ q)) ++ [c]))],
      .error (.valueError, none)⟩ := by
    simp only [Lg.task, Lg.dispatch, ht]
    simp (decide := true) only [if_false, if_true, Lg.cliVerifyHex, hds]
    show W.bind (W.bind _ _) _ = _
    simp only [Lg.fromHexSigned, hl]
    rfl
  rw [hrun]
  refine ⟨rfl, rfl, fun r1 r2 h2 => ?_⟩
  simp only [logText_cons, List.append_assoc]
  congr 2
  have e1 : r2.shown = { r2 with text := py"hex received: " }.shown ++ ('x' :: (('\n' :: (logText rs ++ q)) ++ [c])) := by
    unfold Rec.shown
    rw [h2]
    simp only [List.append_assoc]
  have e2 : ({ r2 with text := py"hex received: x" } : Rec).shown = { r2 with text := py"hex received: " }.shown ++ ['x'] := by
    unfold Rec.shown
    simp only [List.append_assoc]
    rfl
  have e3 : logText (rs ++ [r]) = logText rs ++ (q ++ [c]) ++ ['\n'] := by
    unfold logText
    rw [List.flatMap_append]
    simp only [List.flatMap_cons, List.flatMap_nil, List.append_nil, hq, List.append_assoc]
  rw [e1, e2, e3]
  simp [logText]

end BT
