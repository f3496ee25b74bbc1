import Verif.ArgSpec
import Verif.Lemmas.R
import Mathlib.Data.List.Infix

/-! # Lemmas about the command line -/

namespace BT
open Spec

/-- the option a setting belongs to -/
def optOf : Setting → Opt
  | .task _ => .task
  | .keyHex _ => .keyHex
  | .keyFile _ => .keyFile
  | .keyDir _ => .keyDir
  | .keyWif _ => .keyWif
  | .publicKey _ => .publicKey
  | .signature _ => .signature
  | .data _ => .data
  | .dataFile _ => .dataFile
  | .inputFile _ => .inputFile
  | .designFile _ => .designFile
  | .logLevel _ => .logLevel
  | .debug => .debug
  | .logTimestamp => .logTimestamp
  | .logToFile => .logToFile
  | .logFile _ => .logFile

/-! ## One word -/

/-- what is computed for every name of an option -/
def nameOk (n : Str) (o : Opt) : Bool :=
  decide (n.head? = some '-') && !(n.contains '=') && decide (n ≠ py"--") && decide (n.length ≠ 1) && decide (n[1]? = some '-') &&
  (decide (findOption n = some o) || (decide (findOption n = none) && decide (optionTuples n = [.opt (some o) false false none]) &&
    decide ((optionStrings.filter fun q => n.isPrefixOf q.1).map (fun q => (q.2, q.1[1]? != some '-')) = [(o, false)])))

/-- long names with their options -/
def longTable : List (Str × Opt) :=
  [(py"--task", .task), (py"--private-key-hex", .keyHex),
   (py"--private-key-file", .keyFile), (py"--private-key-dir", .keyDir), (py"--private-key-wif", .keyWif),
   (py"--public-key-hex", .publicKey), (py"--signature-hex", .signature), (py"--data", .data), (py"--data-file", .dataFile),
   (py"--input-file", .inputFile), (py"--design-file", .designFile), (py"--log-level", .logLevel),
   (py"--debug", .debug), (py"--log-timestamp", .logTimestamp),
   (py"--log-to-file", .logToFile), (py"--log-file", .logFile)]

def abbrevB (n full : Str) : Bool := decide (n = full) || (longNames.all fun m => !(n.isPrefixOf m) || decide (m = full))

theorem names_table : (longTable.all fun p => (List.range (p.1.length + 1)).all fun k =>
    !(abbrevB (p.1.take k) p.1) || nameOk (p.1.take k) p.2) = true := by decide +kernel

theorem long_mem (s : Setting) : (s.long, optOf s) ∈ longTable := by cases s <;> simp [longTable, Setting.long, optOf]

theorem nameOk_of {s : Setting} {n : Str} (h : Abbreviates n s.long) : nameOk n (optOf s) = true := by
  have hp : n <+: s.long := by
    rcases h with rfl | h
    · exact List.prefix_rfl
    · exact h.1
  have hn : n = s.long.take n.length := (List.prefix_iff_eq_take.1 hp)
  have hb : abbrevB n s.long = true := by
    unfold abbrevB
    rcases h with rfl | ⟨_, h⟩
    · simp
    · simp only [Bool.or_eq_true, List.all_eq_true, Bool.not_eq_true', decide_eq_true_eq]
      right
      intro m hm
      by_cases hq : n <+: m
      · exact .inr (h m hm hq)
      · left
        rw [← Bool.not_eq_true, List.isPrefixOf_iff_prefix]
        exact hq
  have := names_table
  rw [List.all_eq_true] at this
  have := this _ (long_mem s)
  rw [List.all_eq_true] at this
  have := this n.length (List.mem_range.2 (Nat.lt_succ_of_le hp.length_le))
  simp only [← hn, hb, Bool.not_true, Bool.false_or] at this
  exact this

theorem splitEq_none {n : Str} (h : n.contains '=' = false) : splitEq n = none := by
  have : n.dropWhile (· != '=') = [] := by
    have hn : ∀ c ∈ n, (c != '=') = true := by
      intro c hc
      simp only [bne_iff_ne, ne_eq]
      rintro rfl
      simp [hc] at h
    have := List.dropWhile_append_of_pos (l₂ := []) hn
    simpa using this
  rw [splitEq, this]

theorem splitEq_eq {n : Str} (v : Str) (h : n.contains '=' = false) : splitEq (n ++ '=' :: v) = some (n, v) := by
  have hn : ∀ c ∈ n, (c != '=') = true := by
    intro c hc
    simp only [bne_iff_ne, ne_eq]
    rintro rfl
    simp [hc] at h
  have h1 : (n ++ '=' :: v).dropWhile (· != '=') = '=' :: v := by
    rw [List.dropWhile_append_of_pos hn]
    simp
  have h2 : (n ++ '=' :: v).takeWhile (· != '=') = n := by
    rw [List.takeWhile_append_of_pos hn]
    simp
  rw [splitEq, h1]
  simp only [h2]

theorem findOption_eq_none {s : Str} (h : '=' ∈ s) : findOption s = none := by
  unfold findOption
  rw [Option.map_eq_none_iff, List.find?_eq_none]
  intro q hq hc
  simp only [decide_eq_true_eq] at hc
  subst hc
  have : (optionStrings.all fun q => !(q.1.contains '=')) = true := by decide +kernel
  rw [List.all_eq_true] at this
  have := this q hq
  simp [h] at this

/-- a name of an option is recognised -/
theorem tok_name {s : Setting} {n : Str} (u : UniDB) (h : Abbreviates n s.long) :
    parseOptional u n = some (.opt (some (optOf s)) false false none) := by
  have h := nameOk_of h
  simp only [nameOk, Bool.and_eq_true, decide_eq_true_eq, Bool.or_eq_true, Bool.not_eq_true'] at h
  obtain ⟨⟨⟨⟨⟨h1, h2⟩, h3⟩, h4⟩, h5⟩, h6⟩ := h
  obtain ⟨t, rfl⟩ : ∃ t, n = '-' :: t := by
    cases n with
    | nil => simp at h1
    | cons a t => simp at h1; exact ⟨t, by rw [h1]⟩
  unfold parseOptional
  rcases h6 with h6 | ⟨⟨h6, h7⟩, h8⟩
  · simp only [h6, h5]; rfl
  · simp only [h6, if_neg h4, splitEq_none h2, Option.bind_none, h7]

/-- a name of an option with `=value` is recognised -/
theorem tok_equals {s : Setting} {n : Str} (u : UniDB) (v : Str) (h : Abbreviates n s.long) :
    parseOptional u (n ++ '=' :: v) = some (.opt (some (optOf s)) false true (some v)) := by
  have h := nameOk_of h
  simp only [nameOk, Bool.and_eq_true, decide_eq_true_eq, Bool.or_eq_true, Bool.not_eq_true'] at h
  obtain ⟨⟨⟨⟨⟨h1, h2⟩, h3⟩, h4⟩, h5⟩, h6⟩ := h
  obtain ⟨t, rfl⟩ : ∃ t, n = '-' :: '-' :: t := by
    cases n with
    | nil => simp at h1
    | cons a t =>
      cases t with
      | nil => simp at h5
      | cons b t => simp at h1 h5; exact ⟨t, by rw [h1, h5]⟩
  have e1 : findOption ('-' :: '-' :: t ++ '=' :: v) = none := findOption_eq_none (by simp)
  have e2 := splitEq_eq v h2
  have e3 : ('-' :: '-' :: t ++ '=' :: v).length ≠ 1 := by simp
  simp only [List.cons_append] at e1 e2 e3 ⊢
  unfold parseOptional
  rcases h6 with h6 | ⟨⟨h6, h7⟩, h8⟩
  · simp only [e1, if_neg e3, e2, Option.bind_some, h6, Option.map_some]
    rfl
  · have e4 : optionTuples ('-' :: '-' :: (t ++ '=' :: v)) = [.opt (some (optOf s)) false true (some v)] := by
      rw [List.map_eq_singleton_iff] at h8
      obtain ⟨q, hq, hq2⟩ := h8
      simp only [Prod.mk.injEq] at hq2
      simp only [optionTuples, e2, hq, List.map_cons, List.map_nil, hq2.1, hq2.2]
    simp only [e1, if_neg e3, e2, Option.bind_some, h6, Option.map_none, e4]

theorem short_cases {s : Setting} {n : Str} (h : s.short = some n) :
    ∃ c, n = ['-', c] ∧ c ≠ '-' ∧ c ≠ '=' ∧ findOption n = some (optOf s) ∧ optionStrings.filter (fun q => q.1 = n) = [(n, optOf s)] := by
  cases s <;> simp only [Setting.short, Option.some.injEq, reduceCtorEq] at h <;> subst h <;>
    exact ⟨_, rfl, by decide, by decide, by simp only [optOf]; decide +kernel, by simp only [optOf]; decide +kernel⟩

theorem tok_short {s : Setting} {n : Str} (u : UniDB) (h : s.short = some n) :
    parseOptional u n = some (.opt (some (optOf s)) true false none) := by
  obtain ⟨c, rfl, hc, hc', hf, _⟩ := short_cases h
  unfold parseOptional
  simp only [hf]
  simp [hc]

theorem tok_short_equals {s : Setting} {n : Str} (u : UniDB) (v : Str) (h : s.short = some n) :
    parseOptional u (n ++ '=' :: v) = some (.opt (some (optOf s)) true true (some v)) := by
  obtain ⟨c, rfl, hc, hc', hf, _⟩ := short_cases h
  have e1 : findOption (['-', c] ++ '=' :: v) = none := findOption_eq_none (by simp)
  have e2 := splitEq_eq (n := ['-', c]) v (by simp [Ne.symm hc', eq_comm])
  have e3 : (['-', c] ++ '=' :: v).length ≠ 1 := by simp
  simp only [List.cons_append, List.nil_append] at e1 e2 e3 ⊢
  unfold parseOptional
  simp only [e1, if_neg e3, e2, Option.bind_some, hf, Option.map_some]
  simp [hc]

theorem findOption_long {a b : Char} {t : Str} (h : a ≠ '-') : findOption ('-' :: a :: b :: t) = none := by
  unfold findOption
  rw [Option.map_eq_none_iff, List.find?_eq_none]
  intro q hq hc
  simp only [decide_eq_true_eq] at hc
  have : (optionStrings.all fun q => q.1.length == 2 || q.1[1]? == some '-') = true := by decide +kernel
  rw [List.all_eq_true] at this
  have := this q hq
  rw [hc] at this
  simp [h] at this

theorem tok_glued {s : Setting} {n : Str} (u : UniDB) (a : Char) (v : Str) (h : s.short = some n) (ha : a ≠ '=') :
    parseOptional u (n ++ a :: v) = some (.opt (some (optOf s)) true false (some (a :: v))) := by
  obtain ⟨c, rfl, hc, hc', hf, hfil⟩ := short_cases h
  simp only [List.cons_append, List.nil_append]
  have e1 : findOption ('-' :: c :: a :: v) = none := findOption_long hc
  have e3 : ('-' :: c :: a :: v).length ≠ 1 := by simp
  have e2 : ((splitEq ('-' :: c :: a :: v)).bind fun p => (findOption p.1).map fun o => Tok.opt (some o) (('-' :: c :: a :: v)[1]? != some '-') true (some p.2)) = none := by
    unfold splitEq
    have hd : ('-' :: c :: a :: v).dropWhile (· != '=') = v.dropWhile (· != '=') := by
      simp [hc', ha]
    have ht : ('-' :: c :: a :: v).takeWhile (· != '=') = '-' :: c :: a :: v.takeWhile (· != '=') := by
      simp [hc', ha]
    rw [hd, ht]
    cases v.dropWhile (· != '=') with
    | nil => rfl
    | cons x y =>
      simp only [Option.bind_some, findOption_long hc, Option.map_none]
  have e4 : optionTuples ('-' :: c :: a :: v) = [.opt (some (optOf s)) true false (some (a :: v))] := by
    unfold optionTuples
    have : ∀ (l : List (Str × Opt)), (∀ q ∈ l, q.1.length = 2 ∨ q.1[1]? = some '-') →
        l.filterMap (fun q =>
          if q.1 = ['-', c] then some (Tok.opt (some q.2) true false (some (a :: v)))
          else if ('-' :: c :: a :: v).isPrefixOf q.1 then some (Tok.opt (some q.2) (q.1[1]? != some '-') false none)
          else none) = (l.filter fun q => q.1 = ['-', c]).map fun q => Tok.opt (some q.2) true false (some (a :: v)) := by
      intro l hl
      induction l with
      | nil => rfl
      | cons q l ih =>
        have ih := ih fun q hq => hl q (List.mem_cons_of_mem _ hq)
        rw [List.filterMap_cons]
        by_cases hq : q.1 = ['-', c]
        · rw [if_pos hq, List.filter_cons_of_pos (by simpa using hq), List.map_cons]
          simp only [ih]
        · rw [if_neg hq, List.filter_cons_of_neg (by simpa using hq), ← ih, if_neg]
          intro hp
          rw [List.isPrefixOf_iff_prefix] at hp
          obtain ⟨r, hr⟩ := hp
          have := hl q List.mem_cons_self
          rw [← hr] at this
          simp [hc] at this
    have hall : ∀ q ∈ optionStrings, q.1.length = 2 ∨ q.1[1]? = some '-' := by
      have : (optionStrings.all fun q => q.1.length == 2 || q.1[1]? == some '-') = true := by decide +kernel
      rw [List.all_eq_true] at this
      intro q hq
      simpa using this q hq
    split
    · rename_i heq
      simp only [List.cons.injEq] at heq
      exact absurd heq.2.1 hc
    · have := this optionStrings hall
      simp only [List.take_succ_cons, List.take_zero, List.drop_succ_cons, List.drop_zero]
      rw [this, hfil]
      rfl
  unfold parseOptional
  simp only [e1, if_neg e3, e4, e2]

theorem tok_plain {v : Str} (u : UniDB) (h : NoDash v) : parseOptional u v = some .arg := by
  unfold parseOptional
  split
  · simp [NoDash] at h
  · rfl

/-! ## The loop -/

theorem matchFollowing_len {o : Opt} {rest r : List (Str × Tok)} {a : List Str} (h : matchFollowing o rest = some (a, r)) :
    r.length ≤ rest.length := by
  unfold matchFollowing at h
  split at h
  · simp only [Option.some.injEq, Prod.mk.injEq] at h; rw [h.2]
  · split at h
    · simp only [Option.some.injEq, Prod.mk.injEq] at h; rw [← h.2]; simp
    · simp at h
  · split at h
    · simp only [Option.some.injEq, Prod.mk.injEq] at h
      rw [← h.2]
      exact (List.dropWhile_sublist _).length_le
    · simp at h

theorem bundle_len {o : Opt} {short sep : Bool} {e : Str} {rest r : List (Str × Tok)} {a : List (Opt × List Str)} {m : Bool}
    (h : bundle o short sep e rest = some (a, m, r)) : r.length ≤ rest.length := by
  induction hn : e.length using Nat.strong_induction_on generalizing o short sep e a m r with
  | _ n ih =>
  subst hn
  unfold bundle at h
  split at h
  · simp only [Option.some.injEq, Prod.mk.injEq] at h; rw [h.2.2]
  · split at h
    · simp at h
    · split at h
      · simp at h
      · split at h
        · simp at h
        · split at h
          · simp only [Option.some.injEq, Prod.mk.injEq] at h; rw [h.2.2]
          · split at h
            · rw [Option.map_eq_some_iff] at h
              obtain ⟨⟨x, y⟩, h1, h2⟩ := h
              simp only [Prod.mk.injEq] at h2
              rw [← h2.2.2]
              exact matchFollowing_len h1
            · split at h
              · simp only [Option.some.injEq, Prod.mk.injEq] at h; rw [h.2.2]
              · simp at h
            · rw [Option.map_eq_some_iff] at h
              obtain ⟨⟨x, y, z⟩, h1, h2⟩ := h
              simp only [Prod.mk.injEq] at h2
              rw [← h2.2.2]
              exact ih _ (by simp) h1 rfl

/-- the fuel never runs out -/
theorem parseLoop_fuel (n m : Nat) (st : ParseState) (l : List (Str × Tok)) (hn : l.length ≤ n) (hm : l.length ≤ m) :
    parseLoop n st l = parseLoop m st l := by
  induction n generalizing m st l with
  | zero =>
    have : l = [] := List.length_eq_zero_iff.1 (by omega)
    subst this
    cases m <;> rfl
  | succ n ih =>
    cases l with
    | nil => cases m <;> rfl
    | cons p rest =>
      obtain ⟨m, rfl⟩ : ∃ k, m = k + 1 := ⟨m - 1, by simp at hm; omega⟩
      simp only [List.length_cons, Nat.add_le_add_iff_right] at hn hm
      obtain ⟨w, t⟩ := p
      cases t with
      | dashes => exact ih m _ rest hn hm
      | arg => exact ih m _ rest hn hm
      | opt o short sep e =>
        cases o with
        | none => exact ih m _ rest hn hm
        | some o =>
          cases e with
          | none =>
            simp only [parseLoop]
            cases hmf : matchFollowing o rest with
            | none => rfl
            | some r =>
              obtain ⟨x, r⟩ := r
              have := matchFollowing_len hmf
              simp only
              congr 1
              funext st'
              exact ih m st' _ (by omega) (by omega)
          | some e =>
            simp only [parseLoop]
            cases hmf : bundle o short sep e rest with
            | none => rfl
            | some r =>
              obtain ⟨x, y, r⟩ := r
              have := bundle_len hmf
              simp only
              congr 1
              funext st'
              exact ih m _ _ (by omega) (by omega)

/-- the loop with enough fuel -/
def pl (st : ParseState) (l : List (Str × Tok)) : Except Parsed ParseState := parseLoop l.length st l

theorem pl_nil (st : ParseState) : pl st [] = .ok st := rfl

theorem pl_opt (st : ParseState) (w : Str) (o : Opt) (b c : Bool) (rest r : List (Str × Tok)) (args : List Str)
    (h : matchFollowing o rest = some (args, r)) :
    pl st ((w, .opt (some o) b c none) :: rest) = takeAction st o args >>= fun st' => pl st' r := by
  unfold pl
  rw [List.length_cons]
  simp only [parseLoop, h]
  congr 1
  funext st'
  exact parseLoop_fuel _ _ _ _ (matchFollowing_len h) le_rfl

theorem pl_explicit (st : ParseState) (w : Str) (o : Opt) (b c : Bool) (e : Str) (rest : List (Str × Tok)) (h : o.nargs ≠ .zero) :
    pl st ((w, .opt (some o) b c (some e)) :: rest) = takeAction st o [e] >>= fun st' => pl st' rest := by
  unfold pl
  rw [List.length_cons]
  have : bundle o b c e rest = some ([(o, [e])], false, rest) := by unfold bundle; rw [if_pos h]
  simp only [parseLoop, this, takeActions]
  cases takeAction st o [e] with
  | error r => rfl
  | ok st' => simp only [bind, Except.bind, Bool.or_false]

/-! ## A list of settings -/

/-- the tokens of a word list are followed by something that is not an argument -/
def Stop (X : List (Str × Tok)) : Prop := ∀ p ∈ X.head?, p.2 ≠ .arg

theorem takeWhile_args (vs : List Str) (X : List (Str × Tok)) (hX : Stop X) :
    ((vs.map fun v => (v, Tok.arg)) ++ X).takeWhile (fun p => p.2 = .arg) = vs.map (fun v => (v, Tok.arg)) ∧
    ((vs.map fun v => (v, Tok.arg)) ++ X).dropWhile (fun p => p.2 = .arg) = X := by
  induction vs with
  | nil =>
    cases X with
    | nil => simp
    | cons p X =>
      have := hX p (by simp)
      simp [this]
  | cons v vs ih => simpa using ih

theorem nargs_of {s : Setting} (hs : s.Allowed) :
    match (optOf s).nargs with
    | .zero => s.values = []
    | .one => ∃ v, s.values = [v]
    | .many => s.values ≠ [] := by
  cases s <;> simp_all [optOf, Opt.nargs, Setting.values, Setting.Allowed]

theorem matchFollowing_setting {s : Setting} (hs : s.Allowed) (X : List (Str × Tok)) (hX : Stop X) :
    matchFollowing (optOf s) ((s.values.map fun v => (v, Tok.arg)) ++ X) = some (s.values, X) := by
  have h := nargs_of hs
  unfold matchFollowing
  cases hn : (optOf s).nargs with
  | zero => rw [hn] at h; simp only at h; simp [h]
  | one =>
    rw [hn] at h
    simp only at h
    obtain ⟨v, hv⟩ := h
    simp [hv]
  | many =>
    rw [hn] at h
    simp only at h
    have := takeWhile_args s.values X hX
    simp only [this.1, this.2]
    cases hv : s.values with
    | nil => exact absurd hv h
    | cons v vs =>
      simp [Function.comp_def]

theorem values_one {s : Setting} {v : Str} (h : s.values = [v]) : (optOf s).nargs ≠ .zero := by
  cases s <;> simp_all [optOf, Opt.nargs, Setting.values]

theorem dash_ne {s : Setting} {n : Str} (h : Abbreviates n s.long) : n ≠ py"--" := by
  have h := nameOk_of h
  simp only [nameOk, Bool.and_eq_true, decide_eq_true_eq] at h
  exact h.1.1.1.2

theorem classify_cons {u : UniDB} {w : Str} {t : Tok} (rest : List Str) (hw : w ≠ py"--") (ht : parseOptional u w = some t) :
    classify u (w :: rest) = (classify u rest).map fun l => (w, t) :: l := by
  rw [classify, if_neg hw, ht]
  rfl

theorem classify_plain {u : UniDB} (vs rest : List Str) (h : ∀ v ∈ vs, NoDash v) :
    classify u (vs ++ rest) = (classify u rest).map fun l => (vs.map fun v => (v, Tok.arg)) ++ l := by
  induction vs with
  | nil => simp
  | cons v vs ih =>
    have hv := h v List.mem_cons_self
    rw [List.cons_append, classify_cons _ (by rintro rfl; simp [NoDash] at hv) (tok_plain u hv), ih fun x hx => h x (List.mem_cons_of_mem _ hx),
      Option.map_map]
    rfl

/-- one setting, written in any way, followed by other words -/
theorem written_step {s : Setting} {ws : List Str} (u : UniDB) (h : Written s ws) (hs : s.Allowed) :
    ∃ T : List (Str × Tok), Stop T ∧ T ≠ [] ∧ (∀ rest, classify u (ws ++ rest) = (classify u rest).map fun l => T ++ l) ∧
      ∀ st X, Stop X → pl st (T ++ X) = takeAction st (optOf s) s.values >>= fun st' => pl st' X := by
  have sep : ∀ (n : Str) (b c : Bool), n ≠ py"--" → parseOptional u n = some (.opt (some (optOf s)) b c none) → (∀ v ∈ s.values, NoDash v) →
      ∃ T : List (Str × Tok), Stop T ∧ T ≠ [] ∧ (∀ rest, classify u ((n :: s.values) ++ rest) = (classify u rest).map fun l => T ++ l) ∧
      ∀ st X, Stop X → pl st (T ++ X) = takeAction st (optOf s) s.values >>= fun st' => pl st' X := by
    intro n b c hn ht hv
    refine ⟨(n, .opt (some (optOf s)) b c none) :: s.values.map fun v => (v, Tok.arg), by simp [Stop], by simp, fun rest => ?_, fun st X hX => ?_⟩
    · rw [List.cons_append, classify_cons _ hn ht, classify_plain _ _ hv, Option.map_map]
      rfl
    · rw [List.cons_append, pl_opt _ _ _ _ _ _ _ _ (matchFollowing_setting hs X hX)]
  have one : ∀ (w v : Str) (b c : Bool), w ≠ py"--" → parseOptional u w = some (.opt (some (optOf s)) b c (some v)) → s.values = [v] →
      ∃ T : List (Str × Tok), Stop T ∧ T ≠ [] ∧ (∀ rest, classify u ([w] ++ rest) = (classify u rest).map fun l => T ++ l) ∧
      ∀ st X, Stop X → pl st (T ++ X) = takeAction st (optOf s) s.values >>= fun st' => pl st' X := by
    intro w v b c hn ht hv
    refine ⟨[(w, .opt (some (optOf s)) b c (some v))], by simp [Stop], by simp, fun rest => ?_, fun st X _ => ?_⟩
    · rw [List.singleton_append, classify_cons _ hn ht]
      rfl
    · rw [List.singleton_append, pl_explicit _ _ _ _ _ _ _ (values_one hv), hv]
  have shortne : ∀ {n : Str}, s.short = some n → ∀ r, n ++ r ≠ py"--" := by
    intro n hn r e
    obtain ⟨c, rfl, hc, _⟩ := short_cases hn
    simp at e
    exact hc e.1
  cases h with
  | words n hn hv => exact sep n _ _ (dash_ne hn) (tok_name u hn) hv
  | equals n v hn hv =>
    refine one _ v _ _ ?_ (tok_equals u v hn) hv
    intro e
    have := congrArg (fun l => '=' ∈ l) e
    simp at this
  | shortWords n hn hv => exact sep n _ _ (by simpa using shortne hn []) (tok_short u hn) hv
  | shortEquals n v hn hv => exact one _ v _ _ (shortne hn _) (tok_short_equals u v hn) hv
  | glued n c v hn hv hc => exact one _ _ _ _ (shortne hn _) (tok_glued u c v hn hc) hv

/-- the state after a list of settings -/
def stateOf (l : List Setting) : ParseState := { ns := meaning l, seen := (l.map optOf).reverse }

theorem meaning_snoc (l : List Setting) (s : Setting) : meaning (l ++ [s]) = (meaning l).set (optOf s) s.values := by
  cases s <;> simp [meaning, optOf, Namespace.set, Setting.values, lastValue, List.filterMap_append, keyHexOf, keyFileOf, keyDirOf, keyWifOf, dataOf, dataFileOf, logLevelOf]

theorem conflict_iff (s : Setting) (l : List Setting) :
    ((optOf s).conflicts.any fun c => c ∈ (stateOf l).seen) = true ↔ ∃ a ∈ l, Clash a s := by
  rw [List.any_eq_true]
  simp only [stateOf, List.mem_reverse, List.mem_map, decide_eq_true_eq]
  constructor
  · rintro ⟨c, hc, a, ha, rfl⟩
    refine ⟨a, ha, ?_⟩
    revert hc
    cases s <;> cases a <;> simp [optOf, Opt.conflicts, Clash, Setting.source]
  · rintro ⟨a, ha, g, i, j, h1, h2, hne⟩
    refine ⟨optOf a, ?_, a, ha, rfl⟩
    revert h1 h2
    cases s <;> cases a <;> simp [optOf, Opt.conflicts, Setting.source] <;> aesop

theorem take_setting {s : Setting} (hs : s.Allowed) (l : List Setting) :
    ((∃ a ∈ l, Clash a s) → takeAction (stateOf l) (optOf s) s.values = .error .usage) ∧
    ((¬ ∃ a ∈ l, Clash a s) → takeAction (stateOf l) (optOf s) s.values = .ok (stateOf (l ++ [s]))) := by
  have h1 : ¬ (optOf s = .logLevel ∧ s.values.headD [] ∉ logLevels) := by
    rintro ⟨h, h'⟩
    cases s <;> simp_all [optOf, Setting.values, Setting.Allowed, logLevels]
  have h2 : optOf s ≠ .help := by cases s <;> simp [optOf]
  unfold takeAction
  rw [if_neg h1]
  constructor
  · intro h
    rw [if_pos ((conflict_iff s l).2 h)]
  · intro h
    rw [if_neg (fun hc => h ((conflict_iff s l).1 hc)), if_neg h2]
    simp [stateOf, meaning_snoc]

theorem loop_settings (u : UniDB) {l : List Setting} {wss : List (List Str)} (h : List.Forall₂ Written l wss) (hs : ∀ s ∈ l, s.Allowed)
    (done : List Setting) (hd : done.Pairwise fun a b => ¬ Clash a b) :
    ∃ T, classify u wss.flatten = some T ∧ Stop T ∧
      (((done ++ l).Pairwise fun a b => ¬ Clash a b) → pl (stateOf done) T = .ok (stateOf (done ++ l))) ∧
      (¬ ((done ++ l).Pairwise fun a b => ¬ Clash a b) → pl (stateOf done) T = .error .usage) := by
  induction h generalizing done with
  | nil =>
    refine ⟨[], rfl, by simp [Stop], fun _ => by simp [pl_nil], fun h => absurd ?_ h⟩
    simpa using hd
  | @cons s ws l wss hw hws ih =>
    obtain ⟨T1, st1, ne1, c1, p1⟩ := written_step u hw (hs s List.mem_cons_self)
    have hs' : ∀ s ∈ l, s.Allowed := fun x hx => hs x (List.mem_cons_of_mem _ hx)
    obtain ⟨cl, ok⟩ := take_setting (hs s List.mem_cons_self) done
    have key : ∀ T2, Stop T2 → classify u wss.flatten = some T2 → classify u (ws :: wss).flatten = some (T1 ++ T2) ∧ Stop (T1 ++ T2) := by
      intro T2 _ h
      refine ⟨by rw [List.flatten_cons, c1, h]; rfl, ?_⟩
      cases T1 with
      | nil => exact absurd rfl ne1
      | cons p T1 => simpa [Stop] using st1
    by_cases hc : ∃ a ∈ done, Clash a s
    · obtain ⟨T2, h2, s2, _, _⟩ := ih hs' done hd
      obtain ⟨k1, k2⟩ := key T2 s2 h2
      refine ⟨T1 ++ T2, k1, k2, fun hp => ?_, fun _ => ?_⟩
      · obtain ⟨a, ha, hcl⟩ := hc
        rw [List.pairwise_append] at hp
        exact absurd hcl (hp.2.2 a ha s List.mem_cons_self)
      · rw [p1 _ _ s2, cl hc]
        rfl
    · have hd' : (done ++ [s]).Pairwise fun a b => ¬ Clash a b := by
        rw [List.pairwise_append]
        refine ⟨hd, List.pairwise_singleton _ _, fun a ha b hb => ?_⟩
        rw [List.mem_singleton] at hb
        subst hb
        exact fun h => hc ⟨a, ha, h⟩
      obtain ⟨T2, h2, s2, a2, b2⟩ := ih hs' (done ++ [s]) hd'
      obtain ⟨k1, k2⟩ := key T2 s2 h2
      rw [List.append_assoc, List.singleton_append] at a2 b2
      refine ⟨T1 ++ T2, k1, k2, fun hp => ?_, fun hp => ?_⟩
      · rw [p1 _ _ s2, ok hc]
        exact a2 hp
      · rw [p1 _ _ s2, ok hc]
        exact b2 hp

end BT
