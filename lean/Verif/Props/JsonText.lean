import Verif.Lemmas.JsonDump
import Verif.Props.CliRunWit
import Verif.Props.Forms
import Verif.Props.Json

/-! # C101-C103: the layout of JSON texts -/

namespace BT
open Spec Spec.JsonText

variable (X : Ext)

/-! ## C101 -/

/-- **C101**: every JSON text, however it is laid out, is read as the value it denotes. -/
theorem C101_any_layout (s : Str) (x : PVal) (h : Denotes X.uni s x) :
    X.jsonLoads s = .ok x ∧ Tx.fromJson X s = Tx.fromData X x := by
  have e : X.jsonLoads s = .ok x := Json.loads_text X.uni h
  exact ⟨e, by rw [Tx.fromJson, e, R_bind_ok]⟩

namespace Spec

/-- The path is read as a private key or as data by this command. -/
def ReadsOther (fs : FS) (r : RawArgs) (p : Str) : Prop :=
  r.dataFile = some p ∨ p ∈ r.privateKeyFile.flatten ∨
    ∃ d l x, r.privateKeyDir = some d ∧ fs.listDir d = .ok l ∧ x ∈ l ∧ p = pathJoin d x

/-- Two file systems that differ at most in the layout of JSON files. -/
def SameButLayout (u : UniDB) (r : RawArgs) (fs fs' : FS) : Prop :=
  (∀ d, fs.listDir d = fs'.listDir d) ∧
  ∀ p, fs.read p = fs'.read p ∨
    ¬ ReadsOther fs r p ∧ ∃ s s' x, fs.read p = .ok s ∧ fs'.read p = .ok s' ∧ Denotes u s x ∧ Denotes u s' x

end Spec

theorem mapR_congr {α β : Type} {f g : α → R β} {l : List α} (h : ∀ a ∈ l, f a = g a) : mapR f l = mapR g l := by
  induction l with
  | nil => rfl
  | cons a l ih => rw [mapR, mapR, h a (by simp), ih fun b hb => h b (by simp [hb])]

theorem given_eq {o : Option Str} {s : Str} (h : given o = some s) : o = some s := by
  rcases o with _ | _ | ⟨c, cs⟩
  · simp [given] at h
  · simp [given] at h
  · simpa [given] using h

/-- **C101** for the program: the layout of the inputs file and of the design file has no influence on
what the program prints, on its exception and on its exit status. -/
theorem C101_files (fs fs' : FS) (sh : Shell) (setup : R Unit) (r : RawArgs) (h : SameButLayout X.uni r fs fs') :
    cliRun X fs sh setup r = cliRun X fs' sh setup r := by
  obtain ⟨hl, hr⟩ := h
  have other : ∀ p, ReadsOther fs r p → fs.read p = fs'.read p := by
    intro p hp
    rcases hr p with e | ⟨hn, _⟩
    · exact e
    · exact absurd hp hn
  have json : ∀ p, loadJson X fs p = loadJson X fs' p := by
    intro p
    rcases hr p with e | ⟨_, s, s', x, e1, e2, h1, h2⟩
    · rw [loadJson, loadJson, e]
    · rw [loadJson, loadJson, e1, e2, R_bind_ok, R_bind_ok, (C101_any_layout X s x h1).1, (C101_any_layout X s' x h2).1]
  have data : loadData fs r = loadData fs' r := by
    unfold loadData
    cases hg : given r.dataFile with
    | none => rfl
    | some f => simp only; rw [other f (Or.inl (given_eq hg))]
  have dir : keyFilesOfDir fs r.privateKeyDir = keyFilesOfDir fs' r.privateKeyDir := by
    unfold keyFilesOfDir
    cases given r.privateKeyDir with
    | none => rfl
    | some d => simp only; rw [hl d]
  have keys : loadKeys X fs r = loadKeys X fs' r := by
    have k2 : mapR (readKey X fs) r.privateKeyFile.flatten = mapR (readKey X fs') r.privateKeyFile.flatten :=
      mapR_congr fun p hp => by rw [readKey, readKey, other p (Or.inr (Or.inl hp))]
    unfold loadKeys
    rw [← k2, ← dir]
    cases mapR (readKey X fs) r.privateKeyFile.flatten with
    | error e => rfl
    | ok a =>
      simp only [R_bind_ok]
      cases hd : keyFilesOfDir fs r.privateKeyDir with
      | error e => rfl
      | ok files =>
        simp only [R_bind_ok]
        have k3 : mapR (readKey X fs) files = mapR (readKey X fs') files := by
          refine mapR_congr fun p hp => ?_
          rw [readKey, readKey, other p (Or.inr (Or.inr ?_))]
          unfold keyFilesOfDir at hd
          cases hg : given r.privateKeyDir with
          | none => rw [hg] at hd; simp only [Except.ok.injEq] at hd; subst hd; simp at hp
          | some d =>
            rw [hg] at hd
            simp only [R_bind_eq_ok, R_pure, Except.ok.injEq] at hd
            obtain ⟨l, h1, rfl⟩ := hd
            obtain ⟨x, hx, rfl⟩ := List.mem_map.1 hp
            exact ⟨d, l, x, given_eq hg, h1, (List.mem_filter.1 hx).1, rfl⟩
        rw [k3]
  have files : loadFiles X fs r = loadFiles X fs' r := by
    unfold loadFiles
    by_cases hm : r.task ∈ tasksRequireFiles
    · rw [if_pos hm, if_pos hm]
      cases given r.inputFile with
      | none => rfl
      | some i =>
        cases given r.designFile with
        | none => rfl
        | some d => simp only; rw [json i, json d]
    · rw [if_neg hm, if_neg hm]
  unfold cliRun cliLoad
  rw [data, keys, files]

/-- a JSON text is not empty -/
theorem denotes_ne {u : UniDB} {s : Str} {x : PVal} (h : Denotes u s x) : ∃ c cs, s = c :: cs := by
  obtain ⟨w, t, w', rfl, _, hv, _⟩ := h
  obtain ⟨c, r, rfl, _⟩ := Json.val_head hv
  cases w with
  | nil => exact ⟨_, _, rfl⟩
  | cons a w => exact ⟨_, _, rfl⟩

/-- The tasks that read a transaction in JSON from `--data` or `--data-file`. -/
def jsonTasks : List Str := [py"validate_unsigned_transaction_json", py"create_signed_transaction_json", py"verify_signed_transaction_json",
  py"create_signed_transaction_hex"]

/-- **C101** for the tasks that read a transaction: only the value of the text matters. -/
theorem C101_data (fs : FS) (sh : Shell) (setup : R Unit) (r : RawArgs) (s s' : Str) (x : PVal) (ht : r.task ∈ jsonTasks)
    (hf : given r.dataFile = none) (h : Denotes X.uni s x) (h' : Denotes X.uni s' x) :
    cliRun X fs sh setup { r with data := some s } = cliRun X fs sh setup { r with data := some s' } := by
  obtain ⟨c, cs, rfl⟩ := denotes_ne h
  obtain ⟨c', cs', rfl⟩ := denotes_ne h'
  have e1 : ∀ d, loadData fs { r with data := d } = .ok d := by intro d; simp [loadData, hf]
  have e2 : ∀ d, loadKeys X fs { r with data := d } = loadKeys X fs r := fun _ => rfl
  have e3 : ∀ d, loadFiles X fs { r with data := d } = loadFiles X fs r := fun _ => rfl
  have e4 : ∀ keys, checkRaw r.task keys (some (c :: cs)) = checkRaw r.task keys (some (c' :: cs')) := fun _ => rfl
  have e5 : Tx.fromJson X (c :: cs) = Tx.fromJson X (c' :: cs') := by
    rw [(C101_any_layout X _ x h).2, (C101_any_layout X _ x h').2]
  have nf : r.task ∉ tasksRequireFiles := by
    simp only [jsonTasks, List.mem_cons, List.not_mem_nil, or_false] at ht
    rcases ht with e | e | e | e <;> rw [e] <;> decide
  have e6 : loadFiles X fs r = .ok (none, none) := by unfold loadFiles; rw [if_neg nf]
  unfold cliRun cliLoad
  rw [e1 (some (c :: cs)), e1 (some (c' :: cs')), e2 (some (c :: cs)), e2 (some (c' :: cs')), e3 (some (c :: cs)), e3 (some (c' :: cs')), e6]
  simp only [R_bind_ok]
  cases loadKeys X fs r with
  | error e => rfl
  | ok keys =>
    simp only [R_bind_ok, e4]
    cases checkRaw r.task keys (some (c' :: cs')) with
    | error e => rfl
    | ok _ =>
      simp only [R_bind_ok, R_pure, bindOut_ok]
      congr 1
      funext _
      simp only [jsonTasks, List.mem_cons, List.not_mem_nil, or_false] at ht
      rcases ht with e | e | e | e
      · simp [cliTask, cliDispatch, e, cliValidateUnsigned, needStr, e5]
      · simp [cliTask, cliDispatch, e, cliSignJson, needStr, e5]
      · simp [cliTask, cliDispatch, e, cliVerifyJson, needStr, e5]
      · simp [cliTask, cliDispatch, e, cliSignedHex, needStr, e5]

/-! ## C102 -/

/-- **C102**: a text is accepted exactly if it is a JSON text, and then read as what it denotes; every other text
gives ValueError. -/
theorem C102_exactly_json (s : Str) :
    (∀ x, X.jsonLoads s = .ok x ↔ Denotes X.uni s x) ∧
    ((∀ x, ¬ Denotes X.uni s x) → X.jsonLoads s = .error .valueError ∧ Tx.fromJson X s = .error .valueError) := by
  have h1 : ∀ x, X.jsonLoads s = .ok x ↔ Denotes X.uni s x := fun x => ⟨Json.loads_only X.uni, Json.loads_text X.uni⟩
  refine ⟨h1, fun hn => ?_⟩
  have e : X.jsonLoads s = .error .valueError := by
    cases h : X.jsonLoads s with
    | ok x => exact absurd ((h1 x).1 h) (hn x)
    | error e =>
      unfold Ext.jsonLoads Json.loads at h
      split at h
      · exact h.symm
      · split at h
        · exact h.symm
        · split at h
          · simp at h
          · exact h.symm
  exact ⟨e, by rw [Tx.fromJson, e]; rfl⟩

/-- **C102**: a text denotes one value at most. -/
theorem C102_one_value (u : UniDB) (s : Str) (x y : PVal) (h : Denotes u s x) (h' : Denotes u s y) : x = y := by
  have e1 := Json.loads_text u h
  rw [Json.loads_text u h'] at e1
  exact (Except.ok.inj e1).symm

/-- **C102** for the program: if the inputs file or the design file is not a JSON text, nothing is printed and
the program ends with an exception. -/
theorem C102_files (fs : FS) (sh : Shell) (setup : R Unit) (r : RawArgs) (p s : Str) (ht : r.task ∈ tasksRequireFiles)
    (hp : r.inputFile = some p ∨ r.designFile = some p) (hr : fs.read p = .ok s) (hn : ∀ x, ¬ Denotes X.uni s x) :
    ∃ e, cliRun X fs sh setup r = ([], .error e) ∧ exitStatus (cliRun X fs sh setup r) = 1 := by
  have hj : loadJson X fs p = .error .valueError := by
    rw [loadJson, hr, R_bind_ok, ((C102_exactly_json X s).2 hn).1]
  have hl : ∀ q, loadFiles X fs r ≠ .ok q := by
    intro q h
    obtain ⟨i, d, x, y, h1, h2, _, _, h3, h4, _⟩ := loadFiles_ok h ht
    rcases hp with hp | hp
    · rw [h1, Option.some.injEq] at hp
      rw [hp, hj] at h3; simp at h3
    · rw [h2, Option.some.injEq] at hp
      rw [hp, hj] at h4; simp at h4
  have hc : ∃ e, cliLoad X fs r = .error e := by
    cases h : cliLoad X fs r with
    | error e => exact ⟨e, rfl⟩
    | ok a =>
      unfold cliLoad at h
      simp only [R_bind_eq_ok] at h
      obtain ⟨_, _, _, _, _, _, q, hq, _⟩ := h
      exact absurd hq (hl q)
  obtain ⟨e, he⟩ := hc
  have : cliRun X fs sh setup r = ([], .error e) := by rw [cliRun, he]; rfl
  exact ⟨e, this, by rw [this]; rfl⟩

/-! ## C103 -/

/-- Printable ASCII characters and line breaks only. -/
def Spec.PlainText (s : Str) : Prop := ∀ c ∈ s, c = '\n' ∨ (' ' ≤ c ∧ c ≤ '~')

theorem plainText_of {s : Str} (h : Json.Plain s) : PlainText s := by
  intro c hc
  rcases h c hc with e | ⟨h1, h2⟩
  · exact Or.inl e
  · exact Or.inr ⟨show (' ' : Char).toNat ≤ c.toNat from h1, show c.toNat ≤ ('~' : Char).toNat from h2⟩

/-- **C103**: `to_json` of a consistent transaction is a JSON text for the data of the transaction, in printable
ASCII. -/
theorem C103_to_json (hL : X.Laws) (t : Tx) (C : Consistent X t) (s : Str) (hx : t.toJson X = .ok s) :
    ∃ x, t.toDict X.uni = .ok x ∧ Denotes X.uni s x ∧ PlainText s := by
  simp only [Tx.toJson, R_bind_eq_ok, R_pure, Except.ok.injEq] at hx
  obtain ⟨x, hx, rfl⟩ := hx
  have hsafe := toDict_safe hx fun i hi => by
    obtain ⟨_, _, h1, h2, _⟩ := consistent_loaded X hL.sha_len (C.ins i hi)
    exact ⟨h1, h2⟩
  exact ⟨x, hx, Json.dumps_text X.uni X.floatRepr hsafe, plainText_of (Json.plain_dumpV X.floatRepr 0 x hsafe)⟩

/-- **C103** for a transaction decoded from hex. -/
theorem C103_decoded (hL : X.Laws) (h : Str) (t : Tx) (ht : Tx.fromHexSigned X h = .ok t) (s : Str) (hx : t.toJson X = .ok s) :
    ∃ x, t.toDict X.uni = .ok x ∧ Denotes X.uni s x ∧ PlainText s := by
  obtain ⟨l, outs, rest, _, _, _, _, _, rfl⟩ := (fromHexSigned_ok X hL.sha_len hL.rip_len).1 ht
  simp only [Tx.toJson, R_bind_eq_ok, R_pure, Except.ok.injEq] at hx
  obtain ⟨x, hx, rfl⟩ := hx
  have hsafe := toDict_safe hx fun i hi => by
    obtain ⟨q, _, rfl⟩ := List.mem_map.1 hi
    exact ⟨rfl, rfl⟩
  exact ⟨x, hx, Json.dumps_text X.uni X.floatRepr hsafe, plainText_of (Json.plain_dumpV X.floatRepr 0 x hsafe)⟩

/-- **C103** for the signable and the signed form, of every transaction. -/
theorem C103_forms (t : Tx) (i : Int) :
    (Denotes X.uni (t.toJsonSignable X i) (.dict (t.signableDict i)) ∧ PlainText (t.toJsonSignable X i)) ∧
    Denotes X.uni (t.toJsonSigned X) (.dict t.signedDict) ∧ PlainText (t.toJsonSigned X) := by
  have h1 : (PVal.dict (t.signableDict i)).jsonSafe = true := by
    simp [Tx.signableDict, PVal.jsonSafe, PVal.jsonSafeD, safe_inputs, safe_outputs]
  have h2 : (PVal.dict t.signedDict).jsonSafe = true := by
    simp [Tx.signedDict, PVal.jsonSafe, PVal.jsonSafeD, safe_signed, safe_outputs]
  exact ⟨⟨Json.dumps_text X.uni X.floatRepr h1, plainText_of (Json.plain_dumpV X.floatRepr 0 _ h1)⟩,
    Json.dumps_text X.uni X.floatRepr h2, plainText_of (Json.plain_dumpV X.floatRepr 0 _ h2)⟩

/-! ## The hypotheses are met -/

namespace Concrete

/-- one value in two layouts: white space, escapes and a repeated name -/
def layout1 : Str := py"{\"a\": [1, -2.5e3, \"\\u0041\\ud83d\\ude00/\"], \"b\": null}"
def layout2 : Str := py"\n{ \"a\" :\t7 , \"b\":null,\r\n\"\\u0061\":[ 1,-2.5e3,\"A😀\\/\" ] } "

/-- the parts of the value -/
def shape : R PVal → Option (Str × Int × PyFloat × Str × Str)
  | .ok (.dict [(a, .list [.int n, .float f, .str s]), (b, .none)]) => some (a, n, f, s, b)
  | _ => none

theorem shape_some {r : R PVal} {a : Str} {n : Int} {f : PyFloat} {s b : Str} (h : shape r = some (a, n, f, s, b)) :
    r = .ok (.dict [(a, .list [.int n, .float f, .str s]), (b, .none)]) := by
  unfold shape at h
  split at h
  · simp only [Option.some.injEq, Prod.mk.injEq] at h
    obtain ⟨rfl, rfl, rfl, rfl, rfl⟩ := h
    rfl
  · simp at h

/-- the two layouts denote the same value -/
example : ∃ f, Denotes Xtoy.uni layout1 (.dict [(py"a", .list [.int 1, .float f, .str py"A😀/"]), (py"b", .none)]) ∧
    Denotes Xtoy.uni layout2 (.dict [(py"a", .list [.int 1, .float f, .str py"A😀/"]), (py"b", .none)]) := by
  have h1 : (shape (Xtoy.jsonLoads layout1)).map (fun p => (p.1, p.2.1, p.2.2.2)) = some (py"a", 1, py"A😀/", py"b") := by decide +kernel
  have h2 : shape (Xtoy.jsonLoads layout2) = shape (Xtoy.jsonLoads layout1) := by decide +kernel
  cases h : shape (Xtoy.jsonLoads layout1) with
  | none => rw [h] at h1; simp at h1
  | some p =>
    obtain ⟨a, n, f, s, b⟩ := p
    rw [h, Option.map_some, Option.some.injEq] at h1
    simp only [Prod.mk.injEq] at h1
    obtain ⟨rfl, rfl, rfl, rfl⟩ := h1
    exact ⟨f, ((C102_exactly_json Xtoy layout1).1 _).1 (shape_some h), ((C102_exactly_json Xtoy layout2).1 _).1 (shape_some (h2.trans h))⟩

theorem not_json {s : Str} (h : (Xtoy.jsonLoads s).isOk = false) : ∀ x, ¬ Denotes Xtoy.uni s x := by
  intro x hx
  rw [((C102_exactly_json Xtoy s).1 x).2 hx] at h
  simp [Except.isOk, Except.toBool] at h

/-- texts that are not JSON -/
example : ∀ s ∈ [py"", py"[1,]", py"{\"a\":1,}", py"{a:1}", py"01", py"1.", py"[1] x", py"\"\n\"", py"nul", py"'a'"], ∀ x, ¬ Denotes Xtoy.uni s x := by
  have h : ∀ s ∈ [py"", py"[1,]", py"{\"a\":1,}", py"{a:1}", py"01", py"1.", py"[1] x", py"\"\n\"", py"nul", py"'a'"],
      (Xtoy.jsonLoads s).isOk = false := by decide +kernel
  exact fun s hs => not_json (h s hs)

/-- the disk of `CliRunWit` with the inputs file laid out differently -/
def disk2 : FS := { disk order1 with
  read := fun f => if f = py"inputs.json" then .ok (py" \t" ++ Xtoy.jsonDumps (asPVal argsFee.inputs) ++ py"\r\n") else (disk order1).read f }

theorem inputs_safe : (asPVal argsFee.inputs).jsonSafe = true := by decide +kernel

theorem disk2_same : SameButLayout Xtoy.uni runCreate (disk order1) disk2 ∧ (disk order1).read py"inputs.json" ≠ disk2.read py"inputs.json" := by
  refine ⟨⟨fun _ => rfl, fun p => ?_⟩, ?_⟩
  · by_cases hp : p = py"inputs.json"
    · subst hp
      refine Or.inr ⟨?_, _, _, asPVal argsFee.inputs, rfl, rfl, Json.dumps_text _ _ inputs_safe, ?_⟩
      · rintro (h | h | ⟨d, l, x, h1, h2, h3, h4⟩)
        · simp [runCreate] at h
        · simp [runCreate] at h
        · simp only [runCreate, Option.some.injEq] at h1
          subst h1
          have : l = order1 := (Except.ok.inj h2).symm
          subst this
          revert h4
          have : ∀ x ∈ order1, py"inputs.json" ≠ pathJoin py"keys" x := by decide +kernel
          exact this x h3
      · refine ⟨py" \t", _, py"\r\n", by rw [List.append_assoc]; rfl, ?_, Json.dumpV_text _ Xtoy.floatRepr 0 _ inputs_safe, ?_⟩ <;>
          intro c hc <;> simp at hc <;> rcases hc with rfl | rfl <;> decide
    · exact Or.inl (by simp only [disk2]; rw [if_neg hp])
  · intro h
    have : (Xtoy.jsonDumps (asPVal argsFee.inputs)).length = (py" \t" ++ Xtoy.jsonDumps (asPVal argsFee.inputs) ++ py"\r\n").length :=
      congrArg List.length (Except.ok.inj h)
    simp at this
    omega

/-- both runs print the transaction -/
example : cliRun Xtoy (disk order1) shell0 (.ok ()) runCreate = cliRun Xtoy disk2 shell0 (.ok ()) runCreate ∧
    (cliRun Xtoy (disk order1) shell0 (.ok ()) runCreate).1 ≠ [] := by
  exact ⟨C101_files Xtoy _ _ _ _ _ disk2_same.1, by decide +kernel⟩

/-- C102: a design file with a comma too many -/
example : ∃ e, cliRun Xtoy { disk order1 with read := fun f => if f = py"design.json" then .ok py"{\"a\":1,}" else (disk order1).read f } shell0 (.ok ()) runCreate
    = ([], .error e) := by
  obtain ⟨e, h, _⟩ := C102_files Xtoy { disk order1 with read := fun f => if f = py"design.json" then .ok py"{\"a\":1,}" else (disk order1).read f } shell0 (.ok ()) runCreate
    py"design.json" py"{\"a\":1,}" (by decide +kernel) (Or.inr rfl) rfl (not_json (by decide +kernel))
  exact ⟨e, h⟩

/-- C103: the sample transaction has a JSON text -/
example : ∃ t s, Consistent Xtoy t ∧ t.toJson Xtoy = .ok s ∧ PlainText s := by
  obtain ⟨s, e1⟩ : ∃ s, (do let t ← sampleTx Xtoy; t.toJson Xtoy : R Str) = .ok s := isOk_exists (by decide +kernel)
  simp only [R_bind_eq_ok] at e1
  obtain ⟨t, h1, h2⟩ := e1
  have C := sample_consistent h1
  obtain ⟨_, _, _, hp⟩ := C103_to_json Xtoy Xtoy_laws t C s h2
  exact ⟨t, s, C, h2, hp⟩

end Concrete

end BT
