import Verif.Logger
import Verif.Lemmas.R

/-!
# Properties of the logger configuration (C61, C78, C79)
-/

namespace BT

/-- a console handler -/
def Handler.isConsole : Handler → Bool
  | .console _ => true
  | .file _ _ => false

/-- number of console handlers -/
def Logger.consoles (l : Logger) : Nat := l.handlers.countP Handler.isConsole

/-- number of file handlers -/
def Logger.files (l : Logger) : Nat := l.handlers.countP fun h => !h.isConsole

/-- a call of `configure_module_logger` -/
def LogCall.isConfigure : LogCall → Bool
  | .configure .. => true
  | .setLevel _ => false

/-- the handlers a call of `configure_module_logger` asks for: the console, and the file if a
non-empty path is given -/
def handlersFor (lev : Nat) : PVal → List Handler
  | .str (c :: cs) => [.console lev, .file (c :: cs) lev]
  | _ => [.console lev]

/-- the name of the level in force: `debug` overrides `log_level` -/
def levelName (logLevel debug : PVal) : Option Str :=
  match debug with
  | .bool true => some py"debug"
  | _ => match logLevel with | .str s => some s | _ => none

theorem loggerArgs_err {n lv d ts f : PVal} (h : validateLoggerArgs n lv d ts f = .error .osError) : False := by
  have hs : ∀ v : PVal, logStr v ≠ .error .osError := by intro v; cases v <;> simp [logStr]
  have hb : ∀ v : PVal, logBool v ≠ .error .osError := by intro v; cases v <;> simp [logBool]
  unfold validateLoggerArgs at h
  cases h1 : logStr n with
  | error e => rw [h1] at h; simp only [R_bind_err] at h; injection h with h; subst h; exact hs _ h1
  | ok a =>
    cases h2 : logStr lv with
    | error e => rw [h1, h2] at h; simp only [R_bind_err, R_bind_ok] at h; injection h with h; subst h; exact hs _ h2
    | ok b =>
      cases h3 : logBool d with
      | error e => rw [h1, h2, h3] at h; simp only [R_bind_err, R_bind_ok] at h; injection h with h; subst h; exact hb _ h3
      | ok c =>
        rw [h1, h2, h3] at h
        simp only [R_bind_ok] at h
        cases h4 : (if ts.isNone then .ok false else logBool ts : R Bool) with
        | error e =>
          rw [h4] at h; simp only [R_bind_err] at h; injection h with h; subst h
          split at h4
          · simp at h4
          · exact hb _ h4
        | ok x =>
          rw [h4] at h
          simp only [R_bind_ok] at h
          cases h5 : (if f.isNone then .ok [] else logStr f : R Str) with
          | error e =>
            rw [h5] at h; simp only [R_bind_err] at h; injection h with h; subst h
            split at h5
            · simp at h5
            · exact hs _ h5
          | ok y => rw [h5] at h; simp at h

theorem loggerArgs_ok {n lv d ts f : PVal} {ls : Str} {db : Bool} (h : validateLoggerArgs n lv d ts f = .ok (ls, db)) :
    lv = .str ls ∧ d = .bool db := by
  unfold validateLoggerArgs at h
  simp only [R_bind_eq_ok, R_pure, Except.ok.injEq, Prod.mk.injEq] at h
  obtain ⟨_, _, a, ha, b, hb, _, _, _, _, rfl, rfl⟩ := h
  constructor
  · cases lv <;> simp [logStr] at ha; rw [ha]
  · cases d <;> simp [logBool] at hb; rw [hb]

/-- What one call can do. -/
theorem configure_cases (fs : Bool) (l : Logger) (n lv d ts f : PVal) (hi : l.initialised = false) :
    (∃ e, e ≠ .osError ∧ (l.configure fs n lv d ts f).2 = .error e ∧ (l.configure fs n lv d ts f).1.handlers = l.handlers ∧
      (l.configure fs n lv d ts f).1.level = l.level ∧ (l.configure fs n lv d ts f).1.initialised = false) ∨
    (∃ s lev, levelName lv d = some s ∧ levelOf s = some lev ∧ ((l.configure fs n lv d ts f).1.level = lev ∧
      ((fs = false ∧ (∃ c cs, f = .str (c :: cs)) ∧ (l.configure fs n lv d ts f).2 = .error .osError ∧
        (l.configure fs n lv d ts f).1.handlers = l.handlers ++ [.console lev] ∧ (l.configure fs n lv d ts f).1.initialised = false) ∨
       ((l.configure fs n lv d ts f).2 = .ok () ∧
        (l.configure fs n lv d ts f).1.handlers = l.handlers ++ handlersFor lev f ∧ (l.configure fs n lv d ts f).1.initialised = true)))) := by
  unfold Logger.configure
  rw [if_neg (by simp [hi])]
  cases hv : validateLoggerArgs n lv d ts f with
  | error e =>
    refine .inl ⟨e, ?_, rfl, rfl, rfl, hi⟩
    rintro rfl
    exact loggerArgs_err hv
  | ok p =>
    obtain ⟨ls, db⟩ := p
    have hn : levelName lv d = some (if db then py"debug" else ls) := by
      obtain ⟨rfl, rfl⟩ := loggerArgs_ok hv
      cases db <;> rfl
    simp only
    cases hl : levelOf (if db = true then py"debug" else ls) with
    | none => exact .inl ⟨.keyError, by simp, rfl, rfl, rfl, hi⟩
    | some lev =>
      refine .inr ⟨_, lev, hn, hl, ?_⟩
      simp only
      by_cases hf : ∃ c cs, f = .str (c :: cs)
      · obtain ⟨c, cs, rfl⟩ := hf
        cases fs with
        | false => exact ⟨rfl, .inl ⟨rfl, ⟨_, _, rfl⟩, rfl, rfl, hi⟩⟩
        | true => exact ⟨rfl, .inr ⟨rfl, by simp [handlersFor], rfl⟩⟩
      · have hd : handlersFor lev f = [.console lev] := by
          unfold handlersFor
          split
          · exact absurd ⟨_, _, rfl⟩ hf
          · rfl
        rw [hd]
        split
        · exact absurd ⟨_, _, rfl⟩ hf
        · exact ⟨rfl, .inr ⟨rfl, rfl, rfl⟩⟩

/-- **C61**: once a call has succeeded, any further calls succeed and change nothing at all. -/
theorem C61_idempotent (l : Logger) (hi : l.initialised = true) (cs : List LogCall) (hc : ∀ c ∈ cs, c.isConfigure = true) :
    (l.run cs).1 = l ∧ ∀ r ∈ (l.run cs).2, r = .ok () := by
  induction cs with
  | nil => exact ⟨rfl, by simp [Logger.run]⟩
  | cons c cs ih =>
    have h1 : l.step c = (l, .ok ()) := by
      cases c with
      | configure fs n lv d ts f => simp [Logger.step, Logger.configure, hi]
      | setLevel s => simpa [LogCall.isConfigure] using hc _ (List.mem_cons_self ..)
    have h2 := ih fun x hx => hc x (List.mem_cons_of_mem _ hx)
    simp only [Logger.run, h1]
    exact ⟨h2.1, by simpa using h2.2⟩

theorem setLevelStr_facts (l : Logger) (s : Str) : (l.setLevelStr s).1.handlers = l.handlers ∧
    (l.setLevelStr s).1.initialised = l.initialised ∧ (l.setLevelStr s).2 ≠ .error .osError := by
  unfold Logger.setLevelStr
  split
  · exact ⟨rfl, rfl, by simp⟩
  · split <;> exact ⟨rfl, rfl, by simp⟩

/-- the outcome is an OSError -/
def isOsError : R Unit → Bool
  | .error .osError => true
  | _ => false

theorem isOsError_iff (r : R Unit) : isOsError r = true ↔ r = .error .osError := by
  unfold isOsError
  split
  · simp
  · rename_i h; simpa using h

/-- outcomes that are OSErrors -/
def osErrors (rs : List (R Unit)) : Nat := rs.countP isOsError

theorem osErrors_single {r : R Unit} (h : r ≠ .error .osError) : osErrors [r] = 0 := by
  have : isOsError r = false := by
    rw [Bool.eq_false_iff]; intro h'; exact h ((isOsError_iff r).1 h')
  simp [osErrors, this]

theorem consoles_handlersFor (lev : Nat) (f : PVal) :
    (handlersFor lev f).countP Handler.isConsole = 1 ∧ (handlersFor lev f).countP (fun h => !h.isConsole) ≤ 1 := by
  unfold handlersFor
  split <;> simp [Handler.isConsole, List.countP_cons]

/-- **C61**, exact count: after any history, the logger has one console handler for every call that
failed because the log directory could not be created, and one more if a call succeeded; and it has
at most one file handler, none as long as no call succeeded. -/
theorem C61_handler_count (cs : List LogCall) :
    let r := Logger.run {} cs
    r.1.consoles = osErrors r.2 + (if r.1.initialised then 1 else 0) ∧ r.1.files ≤ (if r.1.initialised then 1 else 0) := by
  have key : ∀ (cs : List LogCall) (l : Logger) (k : Nat),
      l.consoles = k + (if l.initialised then 1 else 0) → l.files ≤ (if l.initialised then 1 else 0) →
      (l.run cs).1.consoles = k + osErrors (l.run cs).2 + (if (l.run cs).1.initialised then 1 else 0) ∧
      (l.run cs).1.files ≤ (if (l.run cs).1.initialised then 1 else 0) := by
    intro cs
    induction cs with
    | nil => intro l k h1 h2; simpa [Logger.run, osErrors] using ⟨h1, h2⟩
    | cons c cs ih =>
      intro l k h1 h2
      simp only [Logger.run]
      have next : ∀ k', (l.step c).1.consoles = k' + (if (l.step c).1.initialised then 1 else 0) →
          (l.step c).1.files ≤ (if (l.step c).1.initialised then 1 else 0) →
          k' = k + osErrors [(l.step c).2] → _ := fun k' a b e => (e ▸ ih (l.step c).1 k' a b)
      have hcons : ∀ (r : R Unit) (rs : List (R Unit)), osErrors (r :: rs) = osErrors [r] + osErrors rs := by
        intro r rs; simp only [osErrors, List.countP_cons, List.countP_nil]; omega
      rw [hcons, ← Nat.add_assoc]
      cases c with
      | setLevel s =>
        obtain ⟨a1, a2, a3⟩ := setLevelStr_facts l s
        refine next k ?_ ?_ ?_
        · simp only [Logger.step, Logger.consoles, a1, a2]; exact h1
        · simp only [Logger.step, Logger.files, a1, a2]; exact h2
        · exact (Nat.add_zero k).symm.trans (congrArg (k + ·) (osErrors_single a3).symm)
      | configure fs n lv d ts f =>
        cases hi : l.initialised with
        | true =>
          have e : l.step (.configure fs n lv d ts f) = (l, .ok ()) := by simp [Logger.step, Logger.configure, hi]
          refine next k ?_ ?_ ?_
          · rw [e]; exact h1
          · rw [e]; exact h2
          · rw [e]; simp [osErrors, isOsError]
        | false =>
          simp only [hi, Bool.false_eq_true, if_false] at h1 h2
          rcases configure_cases fs l n lv d ts f hi with ⟨e, he, b1, b2, _, b3⟩ | ⟨s, lev, _, _, _, ⟨_, _, b1, b2, b3⟩ | ⟨b1, b2, b3⟩⟩
          · refine next k ?_ ?_ ?_
            · simp only [Logger.step, Logger.consoles, b2, b3]; exact h1
            · simp only [Logger.step, Logger.files, b2, b3]; exact h2
            · simp only [Logger.step, b1]
              rw [osErrors_single (by simpa using he)]; rfl
          · refine next (k + 1) ?_ ?_ ?_
            · simp only [Logger.step, Logger.consoles, b2, b3, List.countP_append] at *
              simp [Handler.isConsole, h1]
            · simp only [Logger.step, Logger.files, b2, b3, List.countP_append, List.countP_cons, List.countP_nil] at *
              exact h2
            · simp [Logger.step, b1, osErrors, isOsError]
          · obtain ⟨c1, c2⟩ := consoles_handlersFor lev f
            refine next k ?_ ?_ ?_
            · simp only [Logger.step, Logger.consoles, b2, b3, List.countP_append, c1] at *
              simp [h1]
            · simp only [Logger.step, Logger.files, b2, b3, List.countP_append] at *
              simp only [if_true]; omega
            · simp [Logger.step, b1, osErrors, isOsError]
  have := key cs {} 0 rfl (by decide)
  simpa using this

/-- **C61**: at most one console handler and at most one file handler, for every history in which
the log directory could be created (the part of the claim that holds). -/
theorem C61_at_most_one_partial (cs : List LogCall) (h : .error .osError ∉ (Logger.run {} cs).2) :
    (Logger.run {} cs).1.consoles ≤ 1 ∧ (Logger.run {} cs).1.files ≤ 1 := by
  have hz : osErrors (Logger.run {} cs).2 = 0 := by
    unfold osErrors
    rw [List.countP_eq_zero]
    intro r hr hc
    exact h ((isOsError_iff r).1 hc ▸ hr)
  obtain ⟨h1, h2⟩ := C61_handler_count cs
  rw [hz] at h1
  split at h1 <;> split at h2 <;> omega

/-- **C61**: the level and handlers are those of the first successful call, whatever is called
later (`setLevelStr` aside). -/
theorem C61_first_success (pre post : List LogCall) (fs : Bool) (n lv d ts f : PVal)
    (hpost : ∀ c ∈ post, c.isConfigure = true)
    (hpre : (Logger.run {} pre).1.initialised = false)
    (hok : ((Logger.run {} pre).1.configure fs n lv d ts f).2 = .ok ()) :
    ∃ s lev, levelName lv d = some s ∧ levelOf s = some lev ∧
      (Logger.run {} (pre ++ .configure fs n lv d ts f :: post)).1.level = lev ∧
      (Logger.run {} (pre ++ .configure fs n lv d ts f :: post)).1.handlers = (Logger.run {} pre).1.handlers ++ handlersFor lev f := by
  have happ : ∀ (a b : List LogCall) (l : Logger), (l.run (a ++ b)).1 = (Logger.run (l.run a).1 b).1 := by
    intro a
    induction a with
    | nil => intro b l; rfl
    | cons c a ih => intro b l; simp only [List.cons_append, Logger.run]; exact ih b _
  rw [happ]
  simp only [Logger.run, Logger.step]
  rcases configure_cases fs _ n lv d ts f hpre with ⟨e, _, b1, _⟩ | ⟨s, lev, a1, a2, a3, ⟨_, _, b1, _⟩ | ⟨_, b2, b3⟩⟩
  · rw [b1] at hok; simp at hok
  · rw [b1] at hok; simp at hok
  · refine ⟨s, lev, a1, a2, ?_⟩
    rw [(C61_idempotent _ b3 post hpost).1]
    exact ⟨a3, b2⟩

/-- **C61** violated: every call that fails to create the log directory leaves another console
handler behind, so the next messages are written that many times. -/
theorem C61_violation (k : Nat) : ∃ cs : List LogCall, cs.length = k ∧ (Logger.run {} cs).1.consoles = k := by
  refine ⟨List.replicate k (.configure false (.str py"x") (.str py"info") (.bool false) (.bool false) (.str py"/ro/log.txt")), by simp, ?_⟩
  obtain ⟨h1, _⟩ := C61_handler_count (List.replicate k (.configure false (.str py"x") (.str py"info") (.bool false) (.bool false) (.str py"/ro/log.txt")))
  have out : ∀ l : Logger, l.initialised = false →
      (l.configure false (.str py"x") (.str py"info") (.bool false) (.bool false) (.str py"/ro/log.txt")).2 = .error .osError := by
    intro l h
    cases l with
    | mk i p lv ls hs => simp only at h; subst h; rfl
  have key : ∀ (k : Nat) (l : Logger), l.initialised = false →
      osErrors (l.run (List.replicate k (.configure false (.str py"x") (.str py"info") (.bool false) (.bool false) (.str py"/ro/log.txt")))).2 = k ∧
      (l.run (List.replicate k (.configure false (.str py"x") (.str py"info") (.bool false) (.bool false) (.str py"/ro/log.txt")))).1.initialised = false := by
    intro k
    induction k with
    | zero => intro l h; exact ⟨rfl, h⟩
    | succ k ih =>
      intro l h
      simp only [List.replicate_succ, Logger.run, Logger.step]
      rcases configure_cases false l (.str py"x") (.str py"info") (.bool false) (.bool false) (.str py"/ro/log.txt") h with
        ⟨e, he, b1, _, _, b3⟩ | ⟨s, lev, _, _, _, ⟨_, _, b1, _, b3⟩ | ⟨b1, _⟩⟩
      · exfalso
        rw [out l h] at b1; injection b1 with b1; exact he b1.symm
      · obtain ⟨i1, i2⟩ := ih _ b3
        refine ⟨?_, i2⟩
        simp only [osErrors] at i1
        simp only [b1, osErrors, List.countP_cons, i1, isOsError, if_true]
      · exfalso
        rw [out l h] at b1; simp at b1
  rw [(key k {} rfl).1, (key k {} rfl).2] at h1
  simpa using h1

/-- a history with a failure, a success with a log file and a later call: one console handler too
many, one file handler, level of the first success -/
example : (Logger.run {} [.configure false (.str py"m") (.str py"info") (.bool false) .none (.str py"d/l.txt"),
      .configure true (.str py"m") (.str py"warning") (.bool false) .none (.str py"d/l.txt"),
      .configure true (.str py"m") (.str py"error") (.bool true) .none .none]).1.level = 30 ∧
    (Logger.run {} [.configure false (.str py"m") (.str py"info") (.bool false) .none (.str py"d/l.txt"),
      .configure true (.str py"m") (.str py"warning") (.bool false) .none (.str py"d/l.txt"),
      .configure true (.str py"m") (.str py"error") (.bool true) .none .none]).1.handlers =
      [.console 20, .console 30, .file py"d/l.txt" 30] := by decide

/-! ## C78: changing the level later -/

/-- **C78**, what holds: after a first successful configuration at level `c` on a logger without
handlers, followed by `setLevelStr`, a message of level `n` is written by every handler if `n`
reaches both levels, and by none otherwise. -/
theorem C78_set_level_partial (l : Logger) (fs : Bool) (n lv d ts f : PVal) (s : Str) (new : Nat) (k : Nat)
    (h0 : l.initialised = false) (hh : l.handlers = []) (hok : (l.configure fs n lv d ts f).2 = .ok ())
    (hs : levelOf s = some new) :
    ∃ c w, levelName lv d = some w ∧ levelOf w = some c ∧
      (((l.configure fs n lv d ts f).1.setLevelStr s).1.writes k =
        if c ≤ k ∧ new ≤ k then handlersFor c f else []) := by
  have hlv : (l.configure fs n lv d ts f).1.levelStr ≠ none := by
    have hk := hok
    unfold Logger.configure at hk ⊢
    rw [if_neg (by simp [h0])] at hk ⊢
    cases hv : validateLoggerArgs n lv d ts f with
    | error e => rw [hv] at hk; simp at hk
    | ok p =>
      obtain ⟨ls, db⟩ := p
      rw [hv] at hk
      simp only at hk ⊢
      cases hl : levelOf (if db = true then py"debug" else ls) with
      | none => rw [hl] at hk; simp at hk
      | some lev =>
        simp only
        split
        · split <;> simp
        · simp
  rcases configure_cases fs l n lv d ts f h0 with ⟨e, _, b1, _⟩ | ⟨w, c, a1, a2, a3, ⟨_, _, b1, _⟩ | ⟨_, b2, b3⟩⟩
  · rw [b1] at hok; simp at hok
  · rw [b1] at hok; simp at hok
  · refine ⟨c, w, a1, a2, ?_⟩
    unfold Logger.setLevelStr
    rw [if_neg hlv, hs]
    simp only [Logger.writes, b2, hh, List.nil_append]
    have hall : ∀ x ∈ handlersFor c f, x.level = c := by
      intro x hx
      unfold handlersFor at hx
      split at hx
      · simp at hx; rcases hx with rfl | rfl <;> rfl
      · simp at hx; subst hx; rfl
    by_cases h1 : k < new
    · rw [if_pos h1, if_neg (by omega)]
    · rw [if_neg h1]
      by_cases h2 : c ≤ k
      · rw [if_pos ⟨h2, by omega⟩, List.filter_eq_self]
        intro x hx; simp [hall x hx, h2]
      · rw [if_neg (by omega), List.filter_eq_nil_iff]
        intro x hx; simp [hall x hx]; omega

/-- **C78** violated: a logger configured at level error and then switched to debug with
`setLevelStr` writes no debug, info or warning message. -/
theorem C78_violation (k : Nat) (hk : k < 40) :
    ((Logger.configure true {} (.str py"m") (.str py"error") (.bool false) .none .none).1.setLevelStr py"debug").2 = .ok () ∧
    ((Logger.configure true {} (.str py"m") (.str py"error") (.bool false) .none .none).1.setLevelStr py"debug").1.writes k = [] := by
  refine ⟨rfl, ?_⟩
  obtain ⟨c, w, h1, h2, h3⟩ := C78_set_level_partial {} true (.str py"m") (.str py"error") (.bool false) .none .none py"debug" 10 k rfl rfl rfl rfl
  simp only [levelName, Option.some.injEq] at h1
  subst h1
  have : c = 40 := by
    have e : levelOf py"error" = some 40 := rfl
    rw [e] at h2; simpa using h2.symm
  subst this
  rw [h3, if_neg (by omega)]

theorem configure_propagate {fs : Bool} {l l' : Logger} {n lv d ts f : PVal} {u : Unit} (hi : l.initialised = false)
    (h : l.configure fs n lv d ts f = (l', .ok u)) : l'.propagate = false := by
  unfold Logger.configure at h
  rw [if_neg (by simp [hi])] at h
  split at h
  · simp at h
  · simp only at h
    split at h
    · simp at h
    · split at h
      · split at h
        · simp at h
        · simp only [Prod.mk.injEq] at h; rw [← h.1]
      · simp only [Prod.mk.injEq] at h; rw [← h.1]

/-! ## C79: setting up all loggers of the package -/

/-- **C79**: when `setup` succeeds, every logger of the package is configured; a logger that had
been configured before is left exactly as it was, every other one has the requested level and
exactly the requested handlers, and does not pass its messages on to other loggers (no line is written twice). -/
theorem C79_setup (lv d ts f : PVal) (ms : List (Str × Bool × Logger)) (hok : (setupAll lv d ts f ms).2 = .ok ())
    (hfresh : ∀ m ∈ ms, m.2.2.initialised = false → m.2.2.handlers = []) :
    List.Forall₂ (fun m l' => l'.initialised = true ∧ if m.2.2.initialised then l' = m.2.2 else
      ∃ s lev, levelName lv d = some s ∧ levelOf s = some lev ∧ l'.level = lev ∧ l'.handlers = handlersFor lev f ∧ l'.propagate = false)
      ms (setupAll lv d ts f ms).1 := by
  induction ms with
  | nil => exact .nil
  | cons m ms ih =>
    obtain ⟨name, fs, l⟩ := m
    simp only [setupAll] at hok ⊢
    cases hc : l.configure fs (.str name) lv d ts f with
    | mk l' r =>
      rw [hc] at hok
      cases r with
      | error e => simp at hok
      | ok u =>
        simp only at hok ⊢
        refine .cons ?_ (ih hok fun m hm => hfresh m (List.mem_cons_of_mem _ hm))
        simp only
        cases hi : l.initialised with
        | true =>
          have : l' = l := by
            simp only [Logger.configure, hi, if_true, Prod.mk.injEq] at hc
            exact hc.1.symm
          subst this
          exact ⟨hi, rfl⟩
        | false =>
          have hh := hfresh _ (List.mem_cons_self ..) hi
          simp only at hh
          rcases configure_cases fs l (.str name) lv d ts f hi with ⟨e, _, b1, _⟩ | ⟨s, lev, a1, a2, a3, ⟨_, _, b1, _⟩ | ⟨_, b2, b3⟩⟩
          · rw [hc] at b1; simp at b1
          · rw [hc] at b1; simp at b1
          · rw [hc] at a3 b2 b3
            rw [hh, List.nil_append] at b2
            exact ⟨b3, by rw [if_neg (by simp)]; exact ⟨s, lev, a1, a2, a3, b2, configure_propagate hi hc⟩⟩

/-- **C79**: `setup` cannot fail for valid settings if no log file is given. -/
theorem C79_setup_succeeds (s : Str) (db : Bool) (ts : PVal) (ms : List (Str × Bool × Logger))
    (hs : levelOf s ≠ none) (ht : ts = .none ∨ ∃ b, ts = .bool b) :
    (setupAll (.str s) (.bool db) ts .none ms).2 = .ok () := by
  induction ms with
  | nil => rfl
  | cons m ms ih =>
    obtain ⟨name, fs, l⟩ := m
    have hc : (l.configure fs (.str name) (.str s) (.bool db) ts .none).2 = .ok () := by
      unfold Logger.configure
      split
      · rfl
      · have hv : validateLoggerArgs (.str name) (.str s) (.bool db) ts .none = .ok (s, db) := by
          rcases ht with rfl | ⟨b, rfl⟩ <;> rfl
        rw [hv]
        simp only
        have : levelOf (if db = true then py"debug" else s) ≠ none := by
          cases db
          · simpa using hs
          · exact Option.some_ne_none 10
        cases hl : levelOf (if db = true then py"debug" else s) with
        | none => exact absurd hl this
        | some lev => rfl
    simp only [setupAll]
    cases hx : l.configure fs (.str name) (.str s) (.bool db) ts .none with
    | mk l' r =>
      rw [hx] at hc
      simp only at hc
      subst hc
      exact ih

/-- **C79**: when `setup` fails, it stopped at one logger: those before it are configured, those after it are untouched. -/
theorem C79_failure (lv d ts f : PVal) (ms : List (Str × Bool × Logger)) (e : Err) (h : (setupAll lv d ts f ms).2 = .error e) :
    ∃ pre m post pre' l', ms = pre ++ m :: post ∧ (setupAll lv d ts f ms).1 = pre' ++ l' :: post.map (fun x => x.2.2) ∧
      pre'.length = pre.length ∧ (∀ l ∈ pre', l.initialised = true) ∧ m.2.2.configure m.2.1 (.str m.1) lv d ts f = (l', .error e) := by
  induction ms with
  | nil => simp [setupAll] at h
  | cons m ms ih =>
    obtain ⟨name, fs, l⟩ := m
    simp only [setupAll] at h ⊢
    cases hc : l.configure fs (.str name) lv d ts f with
    | mk l' r =>
      rw [hc] at h
      cases r with
      | error e' =>
        simp only at h ⊢
        injection h with h
        subst h
        exact ⟨[], _, ms, [], l', rfl, rfl, rfl, by simp, hc⟩
      | ok u =>
        simp only at h ⊢
        obtain ⟨pre, m, post, pre', l'', h1, h2, h3, h4, h5⟩ := ih h
        refine ⟨(name, fs, l) :: pre, m, post, l' :: pre', l'', by rw [h1]; rfl, by rw [h2]; rfl, by simp [h3], ?_, h5⟩
        intro x hx
        rcases List.mem_cons.1 hx with rfl | hx
        · cases hi : l.initialised with
          | true =>
            simp only [Logger.configure, hi, if_true, Prod.mk.injEq] at hc
            rw [← hc.1, hi]
          | false =>
            rcases configure_cases fs l (.str name) lv d ts f hi with ⟨e, _, b1, _⟩ | ⟨s, lev, a1, a2, a3, ⟨_, _, b1, _⟩ | ⟨_, b2, b3⟩⟩
            · rw [hc] at b1; simp at b1
            · rw [hc] at b1; simp at b1
            · rw [hc] at b3; exact b3
        · exact h4 x hx

/-- C79_failure: the directory of the second logger's file cannot be made -/
example : (setupAll (.str py"info") (.bool false) .none (.str py"d/f") [(py"a", true, {}), (py"b", false, {}), (py"c", true, {})]).2 = .error .osError ∧
    (setupAll (.str py"info") (.bool false) .none (.str py"d/f") [(py"a", true, {}), (py"b", false, {}), (py"c", true, {})]).1.map
      Logger.initialised = [true, false, false] := by decide

/-- the hypotheses of C78 and C79 are met by three loggers, one configured before -/
example : (setupAll (.str py"info") (.bool false) .none .none
      [(py"a", true, {}), (py"b", true, (Logger.configure true {} (.str py"b") (.str py"debug") (.bool false) .none .none).1), (py"c", true, {})]).1.map
      Logger.level = [20, 10, 20] := by decide

end BT
