import Verif.Lemmas.Args

/-! # Every accepted command line is a list of settings -/

namespace BT
open Spec

/-- the number of arguments fits the option -/
def Fits (o : Opt) (args : List Str) : Prop :=
  match o.nargs with
  | .zero => args = []
  | .one => ∃ v, args = [v]
  | .many => args ≠ []

theorem exists_setting {o : Opt} {args : List Str} (h : Fits o args) (hne : o ≠ .help) (hl : o = .logLevel → args.headD [] ∈ logLevels) :
    ∃ s, optOf s = o ∧ s.values = args ∧ s.Allowed := by
  unfold Fits at h
  cases o <;> simp only [Opt.nargs] at h
  · exact absurd rfl hne
  · obtain ⟨v, rfl⟩ := h; exact ⟨.task v, rfl, rfl, trivial⟩
  · exact ⟨.keyHex args, rfl, rfl, h⟩
  · exact ⟨.keyFile args, rfl, rfl, h⟩
  · obtain ⟨v, rfl⟩ := h; exact ⟨.keyDir v, rfl, rfl, trivial⟩
  · obtain ⟨v, rfl⟩ := h; exact ⟨.keyWif v, rfl, rfl, trivial⟩
  · obtain ⟨v, rfl⟩ := h; exact ⟨.publicKey v, rfl, rfl, trivial⟩
  · obtain ⟨v, rfl⟩ := h; exact ⟨.signature v, rfl, rfl, trivial⟩
  · obtain ⟨v, rfl⟩ := h; exact ⟨.data v, rfl, rfl, trivial⟩
  · obtain ⟨v, rfl⟩ := h; exact ⟨.dataFile v, rfl, rfl, trivial⟩
  · obtain ⟨v, rfl⟩ := h; exact ⟨.inputFile v, rfl, rfl, trivial⟩
  · obtain ⟨v, rfl⟩ := h; exact ⟨.designFile v, rfl, rfl, trivial⟩
  · obtain ⟨v, rfl⟩ := h; exact ⟨.logLevel v, rfl, rfl, hl rfl⟩
  · exact ⟨.debug, rfl, h.symm, trivial⟩
  · exact ⟨.logTimestamp, rfl, h.symm, trivial⟩
  · exact ⟨.logToFile, rfl, h.symm, trivial⟩
  · obtain ⟨v, rfl⟩ := h; exact ⟨.logFile v, rfl, rfl, trivial⟩

theorem take_inv {done : List Setting} {o : Opt} {args : List Str} {st' : ParseState} (hf : Fits o args)
    (h : takeAction (stateOf done) o args = .ok st') :
    ∃ s, s.values = args ∧ s.Allowed ∧ (¬ ∃ a ∈ done, Clash a s) ∧ st' = stateOf (done ++ [s]) := by
  have h1 : o ≠ .help := by
    rintro rfl
    unfold takeAction at h
    split at h
    · simp at h
    · split at h <;> simp at h
  have h2 : o = .logLevel → args.headD [] ∈ logLevels := by
    rintro rfl
    by_contra hc
    rw [takeAction, if_pos ⟨rfl, hc⟩] at h
    simp at h
  obtain ⟨s, rfl, rfl, ha⟩ := exists_setting hf h1 h2
  obtain ⟨t1, t2⟩ := take_setting ha done
  by_cases hc : ∃ a ∈ done, Clash a s
  · rw [t1 hc] at h; simp at h
  · rw [t2 hc] at h
    injection h with h
    exact ⟨s, rfl, ha, hc, h.symm⟩

theorem takeAction_extras {st st' : ParseState} {o : Opt} {args : List Str} (h : takeAction st o args = .ok st') : st'.extras = st.extras := by
  unfold takeAction at h
  split at h
  · simp at h
  · split at h
    · simp at h
    · split at h
      · simp at h
      · injection h with h; rw [← h]

theorem takeActions_extras {st st' : ParseState} {acts : List (Opt × List Str)} (h : takeActions st acts = .ok st') : st'.extras = st.extras := by
  induction acts generalizing st with
  | nil => injection h with h; rw [← h]
  | cons p acts ih =>
    obtain ⟨o, args⟩ := p
    simp only [takeActions] at h
    cases ht : takeAction st o args with
    | error e => rw [ht] at h; simp [bind, Except.bind] at h
    | ok st1 =>
      rw [ht] at h
      rw [ih h, takeAction_extras ht]

theorem takes_inv {done : List Setting} {acts : List (Opt × List Str)} {st' : ParseState} (hf : ∀ p ∈ acts, Fits p.1 p.2)
    (hd : done.Pairwise fun a b => ¬ Clash a b) (h : takeActions (stateOf done) acts = .ok st') :
    ∃ l : List Setting, l.map Setting.values = acts.map (·.2) ∧ (∀ s ∈ l, s.Allowed) ∧ ((done ++ l).Pairwise fun a b => ¬ Clash a b) ∧
      st' = stateOf (done ++ l) := by
  induction acts generalizing done with
  | nil =>
    injection h with h
    exact ⟨[], rfl, by simp, by simpa using hd, by simp [h]⟩
  | cons p acts ih =>
    obtain ⟨o, args⟩ := p
    simp only [takeActions] at h
    cases ht : takeAction (stateOf done) o args with
    | error e => rw [ht] at h; simp [bind, Except.bind] at h
    | ok st1 =>
      rw [ht] at h
      obtain ⟨s, rfl, ha, hc, rfl⟩ := take_inv (hf (o, args) List.mem_cons_self) ht
      have hd' : (done ++ [s]).Pairwise fun a b => ¬ Clash a b := by
        rw [List.pairwise_append]
        refine ⟨hd, List.pairwise_singleton _ _, fun a hin b hb => ?_⟩
        rw [List.mem_singleton] at hb
        subst hb
        exact fun h => hc ⟨a, hin, h⟩
      obtain ⟨l, h1, h2, h3, h4⟩ := ih (fun p hp => hf p (List.mem_cons_of_mem _ hp)) hd' h
      rw [List.append_assoc, List.singleton_append] at h3 h4
      refine ⟨s :: l, by simp [h1], ?_, h3, h4⟩
      intro x hx
      rcases List.mem_cons.1 hx with rfl | hx
      · exact ha
      · exact h2 x hx

theorem matchFollowing_split {o : Opt} {rest r : List (Str × Tok)} {a : List Str} (h : matchFollowing o rest = some (a, r)) :
    rest = a.map (fun v => (v, Tok.arg)) ++ r ∧ Fits o a := by
  unfold matchFollowing at h
  unfold Fits
  split at h
  · simp only [Option.some.injEq, Prod.mk.injEq] at h
    rename_i hn
    rw [← h.1, h.2, hn]; simp
  · rename_i hn
    rw [hn]
    split at h
    · simp only [Option.some.injEq, Prod.mk.injEq] at h; rw [← h.1, ← h.2]; simp
    · simp at h
  · rename_i hn
    rw [hn]
    split at h
    · simp only [Option.some.injEq, Prod.mk.injEq] at h
      rename_i w tl
      have e1 : (((w, Tok.arg) :: tl).takeWhile fun p => p.2 = .arg) = a.map fun v => (v, Tok.arg) := by
        rw [← h.1, List.map_map]
        conv_lhs => rw [← List.map_id (((w, Tok.arg) :: tl).takeWhile fun p => p.2 = .arg)]
        refine List.map_congr_left fun p hp => ?_
        have := List.all_takeWhile (l := (w, Tok.arg) :: tl) (p := fun p => decide (p.2 = .arg))
        rw [List.all_eq_true] at this
        have := this p hp
        simp only [decide_eq_true_eq] at this
        simp [← this]
      constructor
      · rw [← e1, ← h.2, List.takeWhile_append_dropWhile]
      · rw [← h.1]
        simp
    · simp at h

theorem bundle_inv {o : Opt} {short sep : Bool} {e : Str} {rest r : List (Str × Tok)} {acts : List (Opt × List Str)} {m : Bool}
    (h : bundle o short sep e rest = some (acts, m, r)) :
    ∃ pre : List Str, rest = pre.map (fun v => (v, Tok.arg)) ++ r ∧ (∀ p ∈ acts, Fits p.1 p.2 ∧ ∀ v ∈ p.2, v <:+ e ∨ v ∈ pre) ∧
      ∀ v ∈ pre, ∃ p ∈ acts, v ∈ p.2 := by
  induction hn : e.length using Nat.strong_induction_on generalizing o short sep e acts m r with
  | _ n ih =>
  subst hn
  have one : ∀ {o : Opt} (v : Str), o.nargs ≠ .zero → Fits o [v] := by
    intro o v h
    unfold Fits
    cases hn : o.nargs with
    | zero => exact absurd hn h
    | one => exact ⟨v, rfl⟩
    | many => simp
  have zero : ∀ {o : Opt}, ¬ o.nargs ≠ .zero → Fits o [] := by
    intro o h
    unfold Fits
    rw [not_not.1 h]
  unfold bundle at h
  split at h
  · rename_i hz
    simp only [Option.some.injEq, Prod.mk.injEq] at h
    refine ⟨[], by simp [h.2.2], ?_, by simp⟩
    rw [← h.1]
    intro p hp
    rw [List.mem_singleton] at hp
    subst hp
    exact ⟨one e hz, fun v hv => .inl (by rw [List.mem_singleton.1 hv])⟩
  · rename_i hz
    split at h
    · simp at h
    · split at h
      · simp at h
      · split at h
        · simp at h
        · split at h
          · simp only [Option.some.injEq, Prod.mk.injEq] at h
            refine ⟨[], by simp [h.2.2], ?_, by simp⟩
            rw [← h.1]
            intro p hp
            rw [List.mem_singleton] at hp
            subst hp
            exact ⟨zero hz, by simp⟩
          · split at h
            · rw [Option.map_eq_some_iff] at h
              obtain ⟨⟨x, y⟩, h1, h2⟩ := h
              simp only [Prod.mk.injEq] at h2
              obtain ⟨hs, hf⟩ := matchFollowing_split h1
              refine ⟨x, by rw [hs, h2.2.2], ?_, ?_⟩
              · rw [← h2.1]
                intro p hp
                simp only [List.mem_cons, List.not_mem_nil, or_false] at hp
                rcases hp with rfl | rfl
                · exact ⟨zero hz, by simp⟩
                · exact ⟨hf, fun v hv => .inr hv⟩
              · intro v hv
                rw [← h2.1]
                exact ⟨_, List.mem_cons_of_mem _ List.mem_cons_self, hv⟩
            · rename_i c _ o' _ e'' 
              split at h
              · rename_i hz'
                simp only [Option.some.injEq, Prod.mk.injEq] at h
                refine ⟨[], by simp [h.2.2], ?_, by simp⟩
                rw [← h.1]
                intro p hp
                simp only [List.mem_cons, List.not_mem_nil, or_false] at hp
                rcases hp with rfl | rfl
                · exact ⟨zero hz, by simp⟩
                · refine ⟨one _ hz', fun v hv => .inl ?_⟩
                  rw [List.mem_singleton.1 hv]
                  exact ⟨[_, '='], rfl⟩
              · simp at h
            · rename_i c _ o' _ d e'' _
              rw [Option.map_eq_some_iff] at h
              obtain ⟨⟨x, y, z⟩, h1, h2⟩ := h
              simp only [Prod.mk.injEq] at h2
              obtain ⟨pre, i1, i2, i3⟩ := ih _ (by simp) h1 rfl
              refine ⟨pre, by rw [i1, h2.2.2], ?_, ?_⟩
              · rw [← h2.1]
                intro p hp
                rcases List.mem_cons.1 hp with rfl | hp
                · exact ⟨zero hz, by simp⟩
                · refine ⟨(i2 p hp).1, fun v hv => ?_⟩
                  rcases (i2 p hp).2 v hv with h | h
                  · exact .inl (h.trans (List.suffix_cons _ _))
                  · exact .inr h
              · intro v hv
                obtain ⟨p, hp, hpv⟩ := i3 v hv
                rw [← h2.1]
                exact ⟨p, List.mem_cons_of_mem _ hp, hpv⟩

theorem parseLoop_extras {n : Nat} {st st' : ParseState} {T : List (Str × Tok)} (h : parseLoop n st T = .ok st') (he : st.extras = true) :
    st'.extras = true := by
  induction n generalizing st T with
  | zero =>
    cases T with
    | nil => injection h with h; rw [← h, he]
    | cons p T => simp [parseLoop] at h
  | succ n ih =>
    cases T with
    | nil => injection h with h; rw [← h, he]
    | cons p rest =>
      obtain ⟨w, t⟩ := p
      cases t with
      | dashes => exact ih (st := { st with extras := true }) h rfl
      | arg => exact ih (st := { st with extras := true }) h rfl
      | opt o short sep e =>
        cases o with
        | none => exact ih (st := { st with extras := true }) h rfl
        | some o =>
          cases e with
          | none =>
            simp only [parseLoop] at h
            cases hm : matchFollowing o rest with
            | none => rw [hm] at h; simp at h
            | some r =>
              rw [hm] at h
              simp only at h
              cases ht : takeAction st o r.1 with
              | error x => rw [ht] at h; simp [bind, Except.bind] at h
              | ok st1 => rw [ht] at h; exact ih h (by rw [takeAction_extras ht, he])
          | some e =>
            simp only [parseLoop] at h
            cases hm : bundle o short sep e rest with
            | none => rw [hm] at h; simp at h
            | some r =>
              rw [hm] at h
              simp only at h
              cases ht : takeActions st r.1 with
              | error x => rw [ht] at h; simp [bind, Except.bind] at h
              | ok st1 =>
                rw [ht] at h
                exact ih (st := { st1 with extras := st1.extras || r.2.1 }) h (by simp [takeActions_extras ht, he])

/-- what the settings found have to do with the words -/
structure Found (T : List (Str × Tok)) (l : List Setting) : Prop where
  used : ∀ w, (w, Tok.arg) ∈ T → ∃ s ∈ l, w ∈ s.values
  known : ∀ p ∈ T, p.2 ≠ .dashes
  from' : ∀ s ∈ l, ∀ v ∈ s.values, ∃ p ∈ T, v <:+ p.1

theorem loop_inv {n : Nat} {done : List Setting} {st' : ParseState} {T : List (Str × Tok)}
    (hT : ∀ w o b c e, (w, Tok.opt o b c (some e)) ∈ T → e <:+ w)
    (h : parseLoop n (stateOf done) T = .ok st') (he : st'.extras = false) (hd : done.Pairwise fun a b => ¬ Clash a b) :
    ∃ l : List Setting, (∀ s ∈ l, s.Allowed) ∧ ((done ++ l).Pairwise fun a b => ¬ Clash a b) ∧ st' = stateOf (done ++ l) ∧ Found T l := by
  induction n generalizing done T with
  | zero =>
    cases T with
    | nil => injection h with h; exact ⟨[], by simp, by simpa using hd, by simp [h], ⟨by simp, by simp, by simp⟩⟩
    | cons p T => simp [parseLoop] at h
  | succ n ih =>
    have bad : ∀ st : ParseState, ∀ T, st.extras = true → parseLoop n st T = .ok st' → False := by
      intro st T h1 h2
      rw [parseLoop_extras h2 h1] at he
      simp at he
    cases T with
    | nil => injection h with h; exact ⟨[], by simp, by simpa using hd, by simp [h], ⟨by simp, by simp, by simp⟩⟩
    | cons p rest =>
      obtain ⟨w, t⟩ := p
      have hrest : ∀ w o b c e, (w, Tok.opt o b c (some e)) ∈ rest → e <:+ w := fun w o b c e hm => hT w o b c e (List.mem_cons_of_mem _ hm)
      have step : ∀ (acts : List (Opt × List Str)) (pre : List Str) (r : List (Str × Tok)),
          rest = pre.map (fun v => (v, Tok.arg)) ++ r → t ≠ .arg → t ≠ .dashes →
          (∀ p ∈ acts, Fits p.1 p.2 ∧ ∀ v ∈ p.2, v <:+ w ∨ v ∈ pre) → (∀ v ∈ pre, ∃ p ∈ acts, v ∈ p.2) →
          ∀ st1, takeActions (stateOf done) acts = .ok st1 → parseLoop n st1 r = .ok st' →
          ∃ l : List Setting, (∀ s ∈ l, s.Allowed) ∧ ((done ++ l).Pairwise fun a b => ¬ Clash a b) ∧ st' = stateOf (done ++ l) ∧ Found ((w, t) :: rest) l := by
        intro acts pre r hr t1 t2 ha hp st1 hst hl
        obtain ⟨l1, a1, a2, a3, rfl⟩ := takes_inv (fun p hp => (ha p hp).1) hd hst
        obtain ⟨l2, b1, b2, b3, b4⟩ := ih (done := done ++ l1) (T := r)
          (fun w o b c e hm => hrest w o b c e (by rw [hr]; exact List.mem_append_right _ hm)) hl a3
        rw [List.append_assoc] at b2 b3
        have back : ∀ p ∈ acts, ∃ s ∈ l1, s.values = p.2 := by
          intro p hp
          have : p.2 ∈ l1.map Setting.values := by rw [a1]; exact List.mem_map_of_mem hp
          obtain ⟨s, hs, e⟩ := List.mem_map.1 this
          exact ⟨s, hs, e⟩
        have forth : ∀ s ∈ l1, ∃ p ∈ acts, s.values = p.2 := by
          intro s hs
          have : s.values ∈ acts.map (·.2) := by rw [← a1]; exact List.mem_map_of_mem hs
          obtain ⟨p, hp, e⟩ := List.mem_map.1 this
          exact ⟨p, hp, e.symm⟩
        refine ⟨l1 ++ l2, ?_, b2, b3, ⟨?_, ?_, ?_⟩⟩
        · intro s hs
          rcases List.mem_append.1 hs with hs | hs
          · exact a2 s hs
          · exact b1 s hs
        · intro v hv
          rcases List.mem_cons.1 hv with hv | hv
          · simp only [Prod.mk.injEq] at hv
            exact absurd hv.2.symm t1
          · rw [hr] at hv
            rcases List.mem_append.1 hv with hv | hv
            · obtain ⟨x, hx, e⟩ := List.mem_map.1 hv
              simp only [Prod.mk.injEq, and_true] at e
              subst e
              obtain ⟨p, hp, hpv⟩ := hp x hx
              obtain ⟨s, hs, e⟩ := back p hp
              exact ⟨s, List.mem_append_left _ hs, by rw [e]; exact hpv⟩
            · obtain ⟨s, hs, e⟩ := b4.used v hv
              exact ⟨s, List.mem_append_right _ hs, e⟩
        · intro p hp
          rcases List.mem_cons.1 hp with rfl | hp
          · exact t2
          · rw [hr] at hp
            rcases List.mem_append.1 hp with hp | hp
            · obtain ⟨x, _, rfl⟩ := List.mem_map.1 hp
              simp
            · exact b4.known p hp
        · intro s hs v hv
          rcases List.mem_append.1 hs with hs | hs
          · obtain ⟨p, hp, e⟩ := forth s hs
            rw [e] at hv
            rcases (ha p hp).2 v hv with h | h
            · exact ⟨(w, t), List.mem_cons_self, h⟩
            · refine ⟨(v, .arg), ?_, List.suffix_rfl⟩
              rw [hr]
              exact List.mem_cons_of_mem _ (List.mem_append_left _ (List.mem_map_of_mem h))
          · obtain ⟨p, hp, h⟩ := b4.from' s hs v hv
            refine ⟨p, ?_, h⟩
            rw [hr]
            exact List.mem_cons_of_mem _ (List.mem_append_right _ hp)
      cases t with
      | dashes => exact (bad { stateOf done with extras := true } rest rfl h).elim
      | arg => exact (bad { stateOf done with extras := true } rest rfl h).elim
      | opt o short sep e =>
        cases o with
        | none => exact (bad { stateOf done with extras := true } rest rfl h).elim
        | some o =>
          cases e with
          | none =>
            simp only [parseLoop] at h
            cases hm : matchFollowing o rest with
            | none => rw [hm] at h; simp at h
            | some r =>
              obtain ⟨args, r⟩ := r
              rw [hm] at h
              simp only at h
              cases ht : takeAction (stateOf done) o args with
              | error x => rw [ht] at h; simp [bind, Except.bind] at h
              | ok st1 =>
                rw [ht] at h
                obtain ⟨hs, hf⟩ := matchFollowing_split hm
                refine step [(o, args)] args r hs (by simp) (by simp) ?_ ?_ st1 ?_ h
                · intro p hp
                  rw [List.mem_singleton] at hp
                  subst hp
                  exact ⟨hf, fun v hv => .inr hv⟩
                · intro v hv
                  exact ⟨_, List.mem_cons_self, hv⟩
                · simp only [takeActions, ht, bind, Except.bind]
          | some e =>
            simp only [parseLoop] at h
            cases hm : bundle o short sep e rest with
            | none => rw [hm] at h; simp at h
            | some r =>
              obtain ⟨acts, more, r⟩ := r
              rw [hm] at h
              simp only at h
              cases ht : takeActions (stateOf done) acts with
              | error x => rw [ht] at h; simp [bind, Except.bind] at h
              | ok st1 =>
                rw [ht] at h
                obtain ⟨pre, hs, ha, hp⟩ := bundle_inv hm
                have hex : st1.extras = false := by rw [takeActions_extras ht]; rfl
                cases more with
                | true => exact (bad { st1 with extras := st1.extras || true } r (by simp) h).elim
                | false =>
                  have h' : parseLoop n st1 r = .ok st' := by
                    have e : ({ st1 with extras := st1.extras || false } : ParseState) = st1 := by simp
                    have h : parseLoop n { st1 with extras := st1.extras || false } r = .ok st' := h
                    rw [e] at h
                    exact h
                  refine step acts pre r hs (by simp) (by simp) ?_ hp st1 ht h'
                  intro p hp'
                  refine ⟨(ha p hp').1, fun v hv => ?_⟩
                  rcases (ha p hp').2 v hv with h | h
                  · exact .inl (h.trans (hT _ _ _ _ _ List.mem_cons_self))
                  · exact .inr h

theorem splitEq_suffix {s p e : Str} (h : splitEq s = some (p, e)) : e <:+ s := by
  unfold splitEq at h
  split at h
  · simp at h
  · rename_i c r heq
    simp only [Option.some.injEq, Prod.mk.injEq] at h
    rw [← h.2]
    exact ((List.suffix_cons c r).trans (heq ▸ List.dropWhile_suffix _))

theorem optionTuples_suffix {s : Str} {o : Option Opt} {b c : Bool} {e : Str} (h : Tok.opt o b c (some e) ∈ optionTuples s) : e <:+ s := by
  unfold optionTuples at h
  split at h
  · split at h
    · rename_i p e' heq
      obtain ⟨q, _, hq⟩ := List.mem_map.1 h
      simp only [Tok.opt.injEq, Option.some.injEq] at hq
      rw [← hq.2.2.2]
      exact splitEq_suffix heq
    · obtain ⟨q, _, hq⟩ := List.mem_map.1 h
      simp at hq
  · obtain ⟨q, _, hq⟩ := List.mem_filterMap.1 h
    split at hq
    · simp only [Option.some.injEq, Tok.opt.injEq] at hq
      rw [← hq.2.2.2]
      exact List.drop_suffix _ _
    · split at hq <;> simp at hq

theorem parseOptional_suffix {u : UniDB} {s : Str} {o : Option Opt} {b c : Bool} {e : Str} (h : parseOptional u s = some (.opt o b c (some e))) :
    e <:+ s := by
  unfold parseOptional at h
  split at h
  · split at h
    · simp at h
    · split at h
      · simp at h
      · split at h
        · rename_i t heq
          injection h with h
          subst h
          rw [Option.bind_eq_some_iff] at heq
          obtain ⟨p, hp, hm⟩ := heq
          rw [Option.map_eq_some_iff] at hm
          obtain ⟨o', _, hm⟩ := hm
          simp only [Tok.opt.injEq, Option.some.injEq] at hm
          rw [← hm.2.2.2]
          exact splitEq_suffix (p := p.1) hp
        · split at h
          · rename_i t heq
            injection h with h
            subst h
            exact optionTuples_suffix (by rw [heq]; exact List.mem_cons_self)
          · simp at h
          · split at h
            · simp at h
            · split at h <;> simp at h
  · simp at h

theorem classify_inv {u : UniDB} {argv : List Str} {T : List (Str × Tok)} (h : classify u argv = some T) :
    (∀ w o b c e, (w, Tok.opt o b c (some e)) ∈ T → e <:+ w) ∧ T.map (·.1) = argv ∧ (∀ w ∈ argv, NoDash w → (w, Tok.arg) ∈ T) ∧
    (py"--" ∈ argv → ∃ p ∈ T, p.2 = .dashes) := by
  induction argv generalizing T with
  | nil => injection h with h; subst h; simp
  | cons s rest ih =>
    unfold classify at h
    split at h
    · rename_i hs
      injection h with h
      subst h
      refine ⟨?_, by simp [Function.comp_def], ?_, fun _ => ⟨_, List.mem_cons_self, rfl⟩⟩
      · intro w o b c e hm
        simp at hm
      · intro w hw hp
        rcases List.mem_cons.1 hw with rfl | hw
        · rw [hs] at hp; simp [NoDash] at hp
        · simp [hw]
    · rename_i hs
      rw [Option.bind_eq_some_iff] at h
      obtain ⟨t, ht, h⟩ := h
      rw [Option.map_eq_some_iff] at h
      obtain ⟨T', hT', rfl⟩ := h
      obtain ⟨i1, i2, i3, i4⟩ := ih hT'
      refine ⟨?_, by simp [i2], ?_, ?_⟩
      · intro w o b c e hm
        rcases List.mem_cons.1 hm with hm | hm
        · simp only [Prod.mk.injEq] at hm
          obtain ⟨rfl, rfl⟩ := hm
          exact parseOptional_suffix ht
        · exact i1 w o b c e hm
      · intro w hw hp
        rcases List.mem_cons.1 hw with rfl | hw
        · rw [tok_plain u hp] at ht
          injection ht with ht
          subst ht
          exact List.mem_cons_self
        · exact List.mem_cons_of_mem _ (i3 w hw hp)
      · intro hm
        rcases List.mem_cons.1 hm with hm | hm
        · exact absurd hm.symm hs
        · obtain ⟨p, hp, h⟩ := i4 hm
          exact ⟨p, List.mem_cons_of_mem _ hp, h⟩

end BT
