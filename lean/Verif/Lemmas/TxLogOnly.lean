import Verif.Lemmas.TxLogRead

/-!
# What can occur in the log of any run
-/

namespace BT.Lg
open Spec

/-- everything shown satisfies `P` -/
def Only {α : Type} (P : Ev → Prop) (m : W α) : Prop := ∀ e ∈ m.ev, P e

section
variable {P : Ev → Prop}

theorem Only.bind' {α β : Type} {m : W α} {f : α → W β} (h : Only P m) (g : ∀ a, m.outcome = .ok a → Only P (f a)) :
    Only P (m >>= f) := by
  intro e he
  rw [ev_bind, List.mem_append] at he
  rcases he with he | he
  · exact h e he
  · cases hr : m.res with
    | error x => simp [hr] at he
    | ok a =>
      simp only [hr] at he
      exact g a (outcome_ok.2 hr) e he

theorem Only.bind {α β : Type} {m : W α} {f : α → W β} (h : Only P m) (g : ∀ a, Only P (f a)) : Only P (m >>= f) :=
  h.bind' fun a _ => g a

theorem Only.run {α : Type} (r : R α) : Only P (Lg.run r) := by
  intro e he
  cases r <;> simp [Lg.run] at he

theorem Only.pure {α : Type} (a : α) : Only P (Pure.pure a : W α) := by
  intro e he
  cases he

theorem Only.refuse {α : Type} (x : Err) (s : Str) : Only P (Lg.refuse x s : W α) := by
  intro e he
  cases he

theorem Only.ite {α : Type} {c : Prop} [Decidable c] {a b : W α} (h1 : Only P a) (h2 : Only P b) :
    Only P (if c then a else b) := by split <;> assumption

theorem Only.one {α : Type} {m : W α} {e : Ev} (hm : m.ev = [e]) (h : P e) : Only P m := by
  intro x hx
  rw [hm, List.mem_singleton] at hx
  rw [hx]; exact h

theorem Only.deb {l s : Str} (h : P (.log l 10 s)) : Only P (Lg.deb l s) := Only.one rfl h
theorem Only.info {l s : Str} (h : P (.log l 20 s)) : Only P (Lg.info l s) := Only.one rfl h
theorem Only.err {l s : Str} (h : P (.log l 40 s)) : Only P (Lg.err l s) := Only.one rfl h
theorem Only.print {s : Str} (h : P (.print s)) : Only P (Lg.print s) := Only.one rfl h

theorem Only.mono {α : Type} {Q : Ev → Prop} {m : W α} (h : Only P m) (hPQ : ∀ e, P e → Q e) : Only Q m :=
  fun e he => hPQ e (h e he)

end

/-- structural steps -/
macro "only_" : tactic => `(tactic| repeat' with_reducible first
  | exact Only.run _
  | exact Only.pure _
  | exact Only.refuse _ _
  | assumption
  | apply Only.deb
  | apply Only.info
  | apply Only.ite
  | refine Only.bind ?_ (fun _ => ?_))

/-- a DEBUG record -/
def IsDebug : Ev → Prop
  | .log _ n _ => n = 10
  | .print _ => False

/-- a DEBUG or INFO record or a print -/
def Calm : Ev → Prop
  | .log _ n _ => n ≤ 20
  | .print _ => True

theorem IsDebug.calm {e : Ev} (h : IsDebug e) : Calm e := by
  cases e with
  | print s => trivial
  | log l n s =>
    have : n = 10 := h
    show n ≤ 20
    omega

theorem debug_decode (u : UniDB) (s : Str) : Only IsDebug (scriptSigDecode u s) := by
  unfold scriptSigDecode
  only_
  all_goals rfl

theorem debug_encode (s p : Str) : Only IsDebug (scriptSigEncode s p) := by
  unfold scriptSigEncode
  only_
  all_goals rfl

theorem debug_der (X : Ext) (s : Str) : Only IsDebug (signatureFromDer X s) := by
  unfold signatureFromDer
  only_
  all_goals rfl

theorem debug_finish (X : Ext) (t : Tx) (i : Nat) (rv : Option Str) (key pk : Str) : Only IsDebug (signFinish X t i rv key pk) := by
  unfold signFinish
  only_
  all_goals first | rfl | exact debug_encode _ _

theorem debug_parseInput (X : Ext) (x : Nat) (hb : List Str) : Only IsDebug (parseInput X x hb) := by
  unfold parseInput
  have h := debug_decode X.uni
  only_
  all_goals first | rfl | exact h _

theorem debug_parseOutput (X : Ext) (x : Nat) (hb : List Str) : Only IsDebug (parseOutput X x hb) := by
  unfold parseOutput
  only_
  all_goals rfl

theorem only_parseMany {P : Ev → Prop} {α : Type} (f : Nat → List Str → W (α × List Str)) (h : ∀ x hb, Only P (f x hb)) (n x : Nat)
    (hb : List Str) : Only P (parseMany f n x hb) := by
  induction n generalizing x hb with
  | zero => exact Only.pure _
  | succ n ih =>
    unfold parseMany
    exact Only.bind (h _ _) fun p => Only.bind (ih _ _) fun q => Only.pure _

theorem calm_toHexSigned (t : Tx) : Only Calm (toHexSigned t) := by
  unfold toHexSigned
  only_
  show (20 : Nat) ≤ 20
  omega

theorem calm_sizePart (t : Tx) : Only Calm (sizePart t) := by
  unfold sizePart
  have := calm_toHexSigned t
  only_
  cases t.fee <;> only_

theorem calm_toJson (X : Ext) (t : Tx) : Only Calm (toJson X t) := by
  unfold toJson
  have := calm_sizePart t
  only_

theorem calm_fromJson (X : Ext) (s : Str) : Only Calm (fromJson X s) := by
  unfold fromJson
  only_
  show (20 : Nat) ≤ 20
  omega

theorem calm_create (E : Msg.Env) (X : Ext) (a : Args) : Only Calm (create E X a) := by
  intro e he
  unfold create at he
  simp only [List.mem_map] at he
  obtain ⟨s, _, rfl⟩ := he
  show (20 : Nat) ≤ 20
  omega

theorem calm_signPrepare (X : Ext) (m : List (Str × Str)) (rvs : Option (List Str)) (i n : Nat) (inp : TxIn) :
    Only Calm (signPrepare X m rvs i n inp) := by
  unfold signPrepare
  only_
  · show (20 : Nat) ≤ 20
    omega
  · cases keyFor m inp.address <;> only_

/-- the parts of a signing determine what is shown -/
theorem only_signRest {P : Ev → Prop} (X : Ext) (t : Tx) (m : List (Str × Str)) (rvs : Option (List Str)) (n : Nat) :
    ∀ (l : List TxIn) (k : Nat),
      (∀ (j : Nat) (i : TxIn), l[j]? = some i → Only P (signPrepare X m rvs (k + j) n i)) →
      (∀ (j : Nat) (i : TxIn) rv key pk, l[j]? = some i → Tx.signPrepare X m rvs (k + j) i = .ok (rv, key, pk) →
        Only P (signFinish X t (k + j) rv key pk)) →
      Only P (signRest X t m rvs n k l).2 := by
  intro l
  induction l with
  | nil => intro k _ _; exact Only.pure _
  | cons inp rest ih =>
    intro k h1 h2
    have p1 := h1 0 inp rfl
    rw [Nat.add_zero] at p1
    unfold signRest
    simp only
    cases hp : (signPrepare X m rvs k n inp).res with
    | error e => exact p1
    | ok q =>
      obtain ⟨rv, key, pk⟩ := q
      have p2 := h2 0 inp rv key pk rfl (by rw [Nat.add_zero, ← o_signPrepare X m rvs k n inp]; exact outcome_ok.2 hp)
      rw [Nat.add_zero] at p2
      simp only
      have p12 : ∀ e ∈ (signPrepare X m rvs k n inp).ev ++ (signFinish X t k rv key pk).ev, P e := by
        intro e he
        rcases List.mem_append.1 he with he | he
        · exact p1 e he
        · exact p2 e he
      cases hf : (signFinish X t k rv key pk).res with
      | error e => exact p12
      | ok q =>
        simp only
        have p3 := ih (k + 1) (fun j i hi => by
            have := h1 (j + 1) i (by simpa using hi)
            rwa [show k + (j + 1) = k + 1 + j by omega] at this)
          (fun j i rv key pk hi hq => by
            have := h2 (j + 1) i rv key pk (by simpa using hi) (by rwa [show k + (j + 1) = k + 1 + j by omega])
            rwa [show k + (j + 1) = k + 1 + j by omega] at this)
        intro e he
        rcases List.mem_append.1 he with he | he
        · exact p12 e he
        · exact p3 e he

theorem only_sign {P : Ev → Prop} (X : Ext) (t : Tx) (keys : List Str) (rvs : Option (List Str))
    (h1 : ∀ (j : Nat) (i : TxIn) m, t.inputs[j]? = some i → signChecks X keys rvs = .ok m → Only P (signPrepare X m rvs j t.inputs.length i))
    (h2 : ∀ (j : Nat) (i : TxIn) m rv key pk, t.inputs[j]? = some i → signChecks X keys rvs = .ok m →
      Tx.signPrepare X m rvs j i = .ok (rv, key, pk) → Only P (signFinish X t j rv key pk))
    (h3 : P (signedLog t.inputs.length)) : Only P (sign X t keys rvs).2 := by
  rw [sign_eq]
  cases hm : signChecks X keys rvs with
  | error e => exact Only.run _
  | ok m =>
    refine Only.bind ?_ (fun _ => Only.info ?_)
    · exact only_signRest X t m rvs _ _ 0 (fun j i hi => by rw [Nat.zero_add]; exact h1 j i m hi hm)
        (fun j i rv key pk hi hp => by rw [Nat.zero_add] at hp ⊢; exact h2 j i m rv key pk hi hm hp)
    · have : Ev.log lTx 20 (signedLine t.inputs.length) = signedLog t.inputs.length := by
        unfold signedLine signedLog
        by_cases h : t.inputs.length = 0
        · simp only [h]; rfl
        · simp only [h, if_false, show t.inputs.length > 0 by omega, if_true]; rfl
      rw [this]; exact h3

theorem calm_sign (X : Ext) (t : Tx) (keys : List Str) (rvs : Option (List Str)) : Only Calm (sign X t keys rvs).2 :=
  only_sign X t keys rvs (fun _ _ _ _ _ => calm_signPrepare _ _ _ _ _ _)
    (fun _ _ _ _ _ _ _ _ _ => (debug_finish _ _ _ _ _ _).mono fun _ => IsDebug.calm) (by show (20 : Nat) ≤ 20; omega)

theorem calm_signed (X : Ext) (t : Tx) (keys : List Str) : Only Calm (signed X t keys) :=
  Only.bind (calm_sign X t keys none) fun _ => Only.pure _

theorem calm_fromHexSigned (X : Ext) (s : Str) : Only Calm (fromHexSigned X s) := by
  unfold fromHexSigned
  have h1 := fun n x hb => (only_parseMany _ (debug_parseInput X) n x hb).mono fun _ => IsDebug.calm
  have h2 := fun n x hb => (only_parseMany _ (debug_parseOutput X) n x hb).mono fun _ => IsDebug.calm
  only_
  all_goals first | exact h1 _ _ _ | exact h2 _ _ _ | (show (20 : Nat) ≤ 20; omega) | (show (10 : Nat) ≤ 20; omega)

/-- what can be shown by the check of input `j` of `n` -/
def CheckShows (X : Ext) (t : Tx) (n : Nat) (e : Ev) : Prop :=
  Calm e ∨ ∃ (j : Nat) (i : TxIn) (c : Check), t.inputs[j]? = some i ∧ c.Of X t j i ∧ c.valid = false ∧ e = verdictLog n j false

theorem only_verifyInput (X : Ext) (t : Tx) (j n : Nat) (i : TxIn) (hi : t.inputs[j]? = some i) :
    Only (CheckShows X t n) (verifyInput X t j n i) := by
  unfold verifyInput
  refine Only.bind (Only.deb (.inl (by show (10 : Nat) ≤ 20; omega))) fun _ => ?_
  cases hs : i.scriptSig with
  | none => exact Only.run _
  | some ss =>
    refine Only.bind' ((debug_decode _ _).mono fun _ h => .inl h.calm) fun p hp => ?_
    refine Only.bind' ((debug_der _ _).mono fun _ h => .inl h.calm) fun sig hsig => ?_
    refine Only.bind' (Only.run _) fun ok hok => ?_
    rw [o_scriptSigDecode] at hp
    rw [o_signatureFromDer] at hsig
    rw [o_run] at hok
    obtain ⟨hx, dg, h7, h8, h9⟩ := verifyOne_ok hok
    cases ok with
    | true => exact Only.bind (Only.deb (.inl (by show (10 : Nat) ≤ 20; omega))) fun _ => Only.pure _
    | false =>
      refine Only.bind ?_ fun _ => Only.pure _
      refine Only.err (.inr ⟨j, i, ⟨p.1, p.2, sig, false⟩, hi, ⟨ss, hx, dg, hs, hp, hsig, h7, h8, h9⟩, rfl, ?_⟩)
      simp only [verdictLog, Bool.false_eq_true, if_false, ← nth_eq, List.append_assoc]
      rfl

theorem only_verifyLoop (X : Ext) (t : Tx) (n : Nat) (l : List TxIn) : ∀ (k bad : Nat), t.inputs.drop k = l →
    Only (CheckShows X t n) (verifyLoop X t n k l bad) := by
  induction l with
  | nil => intro k bad _; exact Only.pure _
  | cons i l ih =>
    intro k bad hl
    have hi : t.inputs[k]? = some i := by
      have := congrArg (fun l => l[0]?) hl
      simpa using this
    have hl' : t.inputs.drop (k + 1) = l := by
      have := congrArg (List.drop 1) hl
      simpa [List.drop_drop] using this
    exact Only.bind (only_verifyInput X t k n i hi) fun _ => ih (k + 1) _ hl'

theorem only_verify (X : Ext) (t : Tx) : Only (CheckShows X t t.inputs.length) (verify X t) := by
  unfold verify
  refine Only.bind (only_verifyLoop X t _ _ 0 0 rfl) fun _ => Only.bind (Only.info (.inl (by show (20 : Nat) ≤ 20; omega))) fun _ => Only.pure _

end BT.Lg
