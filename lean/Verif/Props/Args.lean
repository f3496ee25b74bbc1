import Verif.Lemmas.ArgsOnly
import Verif.Concrete.Ecdsa
import Mathlib.Data.List.Pairwise

/-! # C94-C96: the command line -/

namespace BT
open Spec

/-! ## C95: what a command line means -/

/-- **C95**: settings that do not clash, written in any of the usual ways, mean what they say. -/
theorem C95_settings (u : UniDB) (l : List Setting) (wss : List (List Str)) (hw : List.Forall₂ Written l wss)
    (ha : ∀ s ∈ l, s.Allowed) (hc : l.Pairwise fun a b => ¬ Clash a b) : parseArgs u wss.flatten = .ok (meaning l) := by
  obtain ⟨T, h1, _, h2, _⟩ := loop_settings u hw ha [] .nil
  rw [List.nil_append] at h2
  have h2 : parseLoop T.length {} T = .ok (stateOf l) := h2 hc
  simp only [parseArgs, h1, h2]
  rfl

/-- **C95**: settings that clash are refused. -/
theorem C95_clash (u : UniDB) (l : List Setting) (wss : List (List Str)) (hw : List.Forall₂ Written l wss)
    (ha : ∀ s ∈ l, s.Allowed) (hc : ¬ l.Pairwise fun a b => ¬ Clash a b) : parseArgs u wss.flatten = .usage := by
  obtain ⟨T, h1, _, _, h2⟩ := loop_settings u hw ha [] .nil
  rw [List.nil_append] at h2
  have h2 : parseLoop T.length {} T = .error .usage := h2 hc
  simp only [parseArgs, h1, h2]

theorem lastValue_perm {f : Setting → Option Str} {l l' : List Setting} (h : l.Perm l') (h1 : (l.filterMap f).length ≤ 1) :
    lastValue f l = lastValue f l' := by
  have hp := h.filterMap f
  unfold lastValue
  match hl : l.filterMap f with
  | [] => rw [hl] at hp; rw [List.nil_perm.1 hp]
  | [a] => rw [hl] at hp; rw [List.singleton_perm.1 hp]
  | _ :: _ :: _ => rw [hl] at h1; simp at h1

theorem filterMap_one {α : Type} (f : Setting → Option α) (n : Str) (hf : ∀ s, (f s).isSome → s.long = n) (l : List Setting)
    (h : (l.map Setting.long).Nodup) : (l.filterMap f).length ≤ 1 := by
  induction l with
  | nil => simp
  | cons s l ih =>
    rw [List.map_cons, List.nodup_cons] at h
    rw [List.filterMap_cons]
    cases hs : f s with
    | none => exact ih h.2
    | some v =>
      have hl : l.filterMap f = [] := by
        rw [List.filterMap_eq_nil_iff]
        intro t ht
        cases hft : f t with
        | none => rfl
        | some w =>
          refine absurd (List.mem_map.2 ⟨t, ht, ?_⟩) h.1
          rw [hf s (by simp [hs]), hf t (by simp [hft])]
      simp [hl]

theorem any_perm {f : Setting → Bool} {l l' : List Setting} (h : l.Perm l') : l.any f = l'.any f := by
  rw [Bool.eq_iff_iff, List.any_eq_true, List.any_eq_true]
  exact ⟨fun ⟨x, a, b⟩ => ⟨x, h.mem_iff.1 a, b⟩, fun ⟨x, a, b⟩ => ⟨x, h.mem_iff.2 a, b⟩⟩

theorem perm_one {α : Type} {l l' : List α} (h : l.Perm l') (h1 : l.length ≤ 1) : l = l' := by
  match l, h1 with
  | [], _ => rw [List.nil_perm.1 h]
  | [a], _ => rw [List.singleton_perm.1 h]

/-- **C95**: if no option is given twice, the order of the options does not matter. -/
theorem C95_order (u : UniDB) (l l' : List Setting) (wss wss' : List (List Str)) (hw : List.Forall₂ Written l wss)
    (hw' : List.Forall₂ Written l' wss') (ha : ∀ s ∈ l, s.Allowed) (hp : l.Perm l') (hd : (l.map Setting.long).Nodup) :
    parseArgs u wss.flatten = parseArgs u wss'.flatten := by
  have ha' : ∀ s ∈ l', s.Allowed := fun s hs => ha s (hp.mem_iff.2 hs)
  have sym : ∀ {a b : Setting}, ¬ Clash a b → ¬ Clash b a := by
    rintro a b h ⟨g, i, j, h1, h2, h3⟩
    exact h ⟨g, j, i, h2, h1, h3.symm⟩
  have pw := hp.pairwise_iff (R := fun a b => ¬ Clash a b) sym
  by_cases hc : l.Pairwise fun a b => ¬ Clash a b
  · rw [C95_settings u l wss hw ha hc, C95_settings u l' wss' hw' ha' (pw.1 hc)]
    have L : ∀ (f : Setting → Option Str) (n : Str), (∀ s, (f s).isSome → s.long = n) → lastValue f l = lastValue f l' :=
      fun f n hf => lastValue_perm hp (filterMap_one f n hf l hd)
    have F : ∀ (f : Setting → Option (List Str)) (n : Str), (∀ s, (f s).isSome → s.long = n) → l.filterMap f = l'.filterMap f :=
      fun f n hf => perm_one (hp.filterMap f) (filterMap_one f n hf l hd)
    unfold meaning
    rw [L _ py"--task" (by intro s; cases s <;> simp [Setting.long, keyHexOf, keyFileOf, keyDirOf, keyWifOf, dataOf, dataFileOf, logLevelOf]), F _ py"--private-key-hex" (by intro s; cases s <;> simp [Setting.long, keyHexOf, keyFileOf, keyDirOf, keyWifOf, dataOf, dataFileOf, logLevelOf]),
      F _ py"--private-key-file" (by intro s; cases s <;> simp [Setting.long, keyHexOf, keyFileOf, keyDirOf, keyWifOf, dataOf, dataFileOf, logLevelOf]), L _ py"--private-key-dir" (by intro s; cases s <;> simp [Setting.long, keyHexOf, keyFileOf, keyDirOf, keyWifOf, dataOf, dataFileOf, logLevelOf]),
      L _ py"--private-key-wif" (by intro s; cases s <;> simp [Setting.long, keyHexOf, keyFileOf, keyDirOf, keyWifOf, dataOf, dataFileOf, logLevelOf]), L _ py"--public-key-hex" (by intro s; cases s <;> simp [Setting.long, keyHexOf, keyFileOf, keyDirOf, keyWifOf, dataOf, dataFileOf, logLevelOf]),
      L _ py"--signature-hex" (by intro s; cases s <;> simp [Setting.long, keyHexOf, keyFileOf, keyDirOf, keyWifOf, dataOf, dataFileOf, logLevelOf]), L _ py"--data" (by intro s; cases s <;> simp [Setting.long, keyHexOf, keyFileOf, keyDirOf, keyWifOf, dataOf, dataFileOf, logLevelOf]),
      L _ py"--data-file" (by intro s; cases s <;> simp [Setting.long, keyHexOf, keyFileOf, keyDirOf, keyWifOf, dataOf, dataFileOf, logLevelOf]), L _ py"--input-file" (by intro s; cases s <;> simp [Setting.long, keyHexOf, keyFileOf, keyDirOf, keyWifOf, dataOf, dataFileOf, logLevelOf]),
      L _ py"--design-file" (by intro s; cases s <;> simp [Setting.long, keyHexOf, keyFileOf, keyDirOf, keyWifOf, dataOf, dataFileOf, logLevelOf]), L _ py"--log-level" (by intro s; cases s <;> simp [Setting.long, keyHexOf, keyFileOf, keyDirOf, keyWifOf, dataOf, dataFileOf, logLevelOf]),
      L _ py"--log-file" (by intro s; cases s <;> simp [Setting.long, keyHexOf, keyFileOf, keyDirOf, keyWifOf, dataOf, dataFileOf, logLevelOf]), any_perm hp, any_perm hp, any_perm hp]
  · rw [C95_clash u l wss hw ha hc, C95_clash u l' wss' hw' ha' (fun h => hc (pw.2 h))]

/-! ## C96: nothing is dropped, nothing is invented -/

/-- **C96**: an accepted command line is a list of allowed settings that do not clash, and means
what they say.  Every word that does not begin with a dash is one of their values, `--` does not occur, and every
value is a word of the command line or the end of one. -/
theorem C96_accounted (u : UniDB) (argv : List Str) (ns : Namespace) (h : parseArgs u argv = .ok ns) :
    ∃ l : List Setting, ns = meaning l ∧ (∀ s ∈ l, s.Allowed) ∧ (l.Pairwise fun a b => ¬ Clash a b) ∧
      (∀ w ∈ argv, NoDash w → ∃ s ∈ l, w ∈ s.values) ∧ py"--" ∉ argv ∧ ∀ s ∈ l, ∀ v ∈ s.values, ∃ w ∈ argv, v <:+ w := by
  unfold parseArgs at h
  split at h
  · simp at h
  · rename_i T hT
    obtain ⟨c1, c2, c3, c4⟩ := classify_inv hT
    split at h
    · rename_i r hr
      subst h
      have : ∀ (n : Nat) st T r, parseLoop n st T = .error r → ∀ ns, r ≠ .ok ns := by
        have ta : ∀ st o args r, takeAction st o args = .error r → ∀ ns, r ≠ .ok ns := by
          intro st o args r h ns e
          subst e
          unfold takeAction at h
          split at h
          · simp at h
          · split at h
            · simp at h
            · split at h <;> simp at h
        have tas : ∀ acts st r, takeActions st acts = .error r → ∀ ns, r ≠ .ok ns := by
          intro acts
          induction acts with
          | nil => intro st r h; simp [takeActions] at h
          | cons p acts ih =>
            intro st r h
            simp only [takeActions] at h
            cases ht : takeAction st p.1 p.2 with
            | error x => rw [ht] at h; injection h with h; subst h; exact ta _ _ _ _ ht
            | ok st1 => rw [ht] at h; exact ih _ _ h
        intro n
        induction n with
        | zero =>
          intro st T r h ns e
          subst e
          cases T <;> simp [parseLoop] at h
        | succ n ih =>
          intro st T r h
          cases T with
          | nil => simp [parseLoop] at h
          | cons p rest =>
            obtain ⟨w, t⟩ := p
            cases t with
            | dashes => exact ih _ _ _ h
            | arg => exact ih _ _ _ h
            | opt o short sep e =>
              cases o with
              | none => exact ih _ _ _ h
              | some o =>
                cases e with
                | none =>
                  simp only [parseLoop] at h
                  cases hm : matchFollowing o rest with
                  | none => rw [hm] at h; injection h with h; subst h; simp
                  | some q =>
                    rw [hm] at h
                    simp only at h
                    cases ht : takeAction st o q.1 with
                    | error x => rw [ht] at h; injection h with h; subst h; exact ta _ _ _ _ ht
                    | ok st1 => rw [ht] at h; exact ih _ _ _ h
                | some e =>
                  simp only [parseLoop] at h
                  cases hm : bundle o short sep e rest with
                  | none => rw [hm] at h; injection h with h; subst h; simp
                  | some q =>
                    rw [hm] at h
                    simp only at h
                    cases ht : takeActions st q.1 with
                    | error x => rw [ht] at h; injection h with h; subst h; exact tas _ _ _ ht
                    | ok st1 => rw [ht] at h; exact ih _ _ _ h
      exact absurd rfl (this _ _ _ _ hr ns)
    · rename_i st hst
      split at h
      · simp at h
      · rename_i he
        injection h with h
        obtain ⟨l, a1, a2, rfl, a4⟩ := loop_inv (done := []) c1 hst (by simpa using he) .nil
        refine ⟨l, h.symm, a1, a2, fun w hw hp => a4.used w (c3 w hw hp), fun hd => ?_, fun s hs v hv => ?_⟩
        · obtain ⟨p, hp, e⟩ := c4 hd
          exact a4.known p hp e
        · obtain ⟨p, hp, e⟩ := a4.from' s hs v hv
          exact ⟨p.1, by rw [← c2]; exact List.mem_map_of_mem hp, e⟩

/-! ## C94: sources are exclusive -/

/-- The number of sources of private keys that were given. -/
def keySources (ns : Namespace) : Nat :=
  (if ns.privateKeyHex ≠ [] then 1 else 0) + (if ns.privateKeyFile ≠ [] then 1 else 0) +
    (if ns.privateKeyDir.isSome then 1 else 0) + (if ns.privateKeyWif.isSome then 1 else 0)

theorem one_of_four {p q r t : Prop} [Decidable p] [Decidable q] [Decidable r] [Decidable t] (h1 : p ∨ q) (h2 : p ∨ r) (h3 : p ∨ t)
    (h4 : q ∨ r) (h5 : q ∨ t) (h6 : r ∨ t) :
    (if ¬ p then 1 else 0) + (if ¬ q then 1 else 0) + (if ¬ r then 1 else 0) + (if ¬ t then 1 else 0) ≤ 1 := by
  by_cases hp : p <;> by_cases hq : q <;> by_cases hr : r <;> by_cases ht : t <;> simp [hp, hq, hr, ht] at * 

/-- **C94**: whatever the command line, an accepted one has at most one source of keys and at most one
source of data, and one of the four log levels. -/
theorem C94_exclusive (u : UniDB) (argv : List Str) (ns : Namespace) (h : parseArgs u argv = .ok ns) :
    keySources ns ≤ 1 ∧ ¬ (ns.data.isSome ∧ ns.dataFile.isSome) ∧ ns.logLevel ∈ [py"debug", py"info", py"warning", py"error"] := by
  obtain ⟨l, rfl, ha, hc, _⟩ := C96_accounted u argv ns h
  have sym : ∀ {a b : Setting}, ¬ Clash a b → ¬ Clash b a := by
    rintro a b h ⟨g, i, j, h1, h2, h3⟩
    exact h ⟨g, j, i, h2, h1, h3.symm⟩
  have all : ∀ a ∈ l, ∀ b ∈ l, ¬ Clash a b := by
    intro a ha b hb
    by_cases e : a = b
    · rintro ⟨g, i, j, h1, h2, h3⟩
      subst e
      rw [h1] at h2
      simp only [Option.some.injEq, Prod.mk.injEq, true_and] at h2
      exact h3 h2
    · have : Std.Symm fun a b : Setting => ¬ Clash a b := ⟨fun a b h => sym h⟩
      exact List.Pairwise.forall hc ha hb e
  have nosome : ∀ {α : Type} (f : Setting → Option α) (g : Bool) (i : Nat), (∀ s, (f s).isSome → s.source = some (g, i)) →
      ∀ {β : Type} (f' : Setting → Option β) (j : Nat), (∀ s, (f' s).isSome → s.source = some (g, j)) → i ≠ j →
      l.filterMap f = [] ∨ l.filterMap f' = [] := by
    intro α f g i hf β f' j hf' hij
    by_contra hcon
    rw [not_or] at hcon
    obtain ⟨x, hx⟩ := List.exists_mem_of_ne_nil _ hcon.1
    obtain ⟨y, hy⟩ := List.exists_mem_of_ne_nil _ hcon.2
    obtain ⟨s, hs, e⟩ := List.mem_filterMap.1 hx
    obtain ⟨t, ht, e'⟩ := List.mem_filterMap.1 hy
    exact all s hs t ht ⟨g, i, j, hf s (by simp [e]), hf' t (by simp [e']), hij⟩
  have last : ∀ f, (lastValue f l).isSome ↔ l.filterMap f ≠ [] := by
    intro f
    unfold lastValue
    cases hfl : l.filterMap f with
    | nil => simp
    | cons a b => simp
  refine ⟨?_, ?_, ?_⟩
  · unfold keySources
    simp only [meaning, last]
    have A : ∀ s, (keyHexOf s).isSome → s.source = some (true, 0) := by intro s; cases s <;> simp [Setting.source, keyHexOf]
    have B : ∀ s, (keyFileOf s).isSome → s.source = some (true, 1) := by intro s; cases s <;> simp [Setting.source, keyFileOf]
    have C : ∀ s, (keyDirOf s).isSome → s.source = some (true, 2) := by intro s; cases s <;> simp [Setting.source, keyDirOf]
    have D : ∀ s, (keyWifOf s).isSome → s.source = some (true, 3) := by intro s; cases s <;> simp [Setting.source, keyWifOf]
    have h1 := nosome _ true 0 A _ 1 B (by decide)
    have h2 := nosome _ true 0 A _ 2 C (by decide)
    have h3 := nosome _ true 0 A _ 3 D (by decide)
    have h4 := nosome _ true 1 B _ 2 C (by decide)
    have h5 := nosome _ true 1 B _ 3 D (by decide)
    have h6 := nosome _ true 2 C _ 3 D (by decide)
    exact one_of_four h1 h2 h3 h4 h5 h6
  · simp only [meaning, last]
    have A : ∀ s, (dataOf s).isSome → s.source = some (false, 0) := by intro s; cases s <;> simp [Setting.source, dataOf]
    have B : ∀ s, (dataFileOf s).isSome → s.source = some (false, 1) := by intro s; cases s <;> simp [Setting.source, dataFileOf]
    have h1 := nosome _ false 0 A _ 1 B (by decide)
    tauto
  · simp only [meaning]
    cases hl : lastValue logLevelOf l with
    | none => simp
    | some v =>
      have : v ∈ l.filterMap logLevelOf := List.mem_of_getLast? hl
      obtain ⟨s, hs, e⟩ := List.mem_filterMap.1 this
      have hal := ha s hs
      cases s <;> simp [logLevelOf] at e
      subst e
      exact hal

end BT
