import Verif.RetrySpec
import Verif.Lemmas.Create

/-! # `create_transaction` with its arguments as a state: agreement with `createTransaction`, harmless changes -/

namespace BT.Retry

theorem bind_apply {α β : Type} (m : Step α) (f : α → Step β) (a : Args) :
    (m >>= f) a = match m a with
      | (a', .ok x) => f x a'
      | (a', .error e) => (a', .error e) := rfl

theorem pure_apply {α : Type} (x : α) (a : Args) : (pure x : Step α) a = (a, .ok x) := rfl
theorem check_apply {α : Type} (r : R α) (a : Args) : check r a = (a, r) := rfl

/-- the code `m`, started with arguments `a`, has outcome `r` -/
def Agree {α : Type} (m : Step α) (a : Args) (r : R α) : Prop := (m a).2 = r

theorem Agree.bind {α β : Type} {m : Step α} {f : α → Step β} {a : Args} {r : R α} {g : α → R β} (h : Agree m a r)
    (hg : ∀ x, r = .ok x → Agree (f x) (m a).1 (g x)) : Agree (m >>= f) a (r >>= g) := by
  unfold Agree at *
  rw [bind_apply]
  rcases hm : m a with ⟨a', r'⟩
  rw [hm] at h hg
  simp only at h hg
  subst h
  cases r' with
  | error e => rfl
  | ok x => exact hg x rfl

theorem Agree.check {α : Type} (r : R α) (a : Args) : Agree (check r) a r := rfl
theorem Agree.pure {α : Type} (x : α) (a : Args) : Agree (Pure.pure x) a (.ok x) := rfl

/-- a change followed by more code -/
theorem Agree.putI {β : Type} {f : Unit → Step β} {a : Args} {l : List PVal} {r : R β}
    (h : Agree (f ()) { a with inputs := some (.list l) } r) : Agree (putInputs l >>= f) a r := h
theorem Agree.putD {β : Type} {f : Unit → Step β} {a : Args} {d : List (Str × PVal)} {r : R β}
    (h : Agree (f ()) { a with design := some (.dict d) } r) : Agree (putDesign d >>= f) a r := h

theorem walk_snd (f : PVal → R PVal) (l : List PVal) : (walk f l).2 = mapR f l := by
  induction l with
  | nil => rfl
  | cons x xs ih =>
    unfold walk mapR
    cases h : f x with
    | error e => rfl
    | ok y =>
      simp only [ih]
      rfl

theorem walk_ok {f : PVal → R PVal} {l l' : List PVal} (h : mapR f l = .ok l') : (walk f l).1 = l' := by
  induction l generalizing l' with
  | nil => simp [mapR] at h; subst h; rfl
  | cons x xs ih =>
    unfold mapR at h
    unfold walk
    cases hx : f x with
    | error e => rw [hx] at h; simp [R_bind_err] at h
    | ok y =>
      rw [hx] at h
      simp only [R_bind_ok, R_bind_eq_ok, R_pure, Except.ok.injEq] at h
      obtain ⟨ys, h1, rfl⟩ := h
      simp only [ih h1]

theorem adjustDesign_agree (u : UniDB) (d : List (Str × PVal)) (a : Args) : Agree (adjustDesignStep u d) a (adjustDesign u d) := by
  unfold adjustDesignStep adjustDesign
  refine Agree.bind (Agree.check _ _) fun d1 _ => Agree.putD (Agree.putD ?_)
  have := Agree.bind (Agree.check (adjustMaxFee u (adjustFeeRate d1)) { a with design := some (.dict (adjustFeeRate d1)) })
    (f := fun d3 => do putDesign d3; Pure.pure d3) (g := Except.ok) fun d3 _ => Agree.putD (Agree.pure _ _)
  have e : (adjustMaxFee u (adjustFeeRate d1) >>= Except.ok) = adjustMaxFee u (adjustFeeRate d1) := by
    cases adjustMaxFee u (adjustFeeRate d1) <;> rfl
  rw [e] at this
  exact this

theorem adjustInputs_agree (u : UniDB) (x : PVal) (a : Args) : Agree (adjustInputsStep u x) a (adjustInputs u x) := by
  unfold adjustInputsStep adjustInputs
  cases x with
  | list l => exact Agree.putI (walk_snd _ l)
  | _ => rfl

theorem validateDesign_eq (X : Ext) (d : List (Str × PVal)) : validateDesign X d = (do
    let outs ← designHead X d
    let outs' ← mapR (validateOutput X) outs
    validateFees X.uni (dictOpt d py"fee") (dictOpt d py"fee_rate")
    validateApproaches (dictOpt d py"input_selection_approaches")
    pure (dictSet d py"outputs" (.list outs'))) := by
  unfold validateDesign designHead
  simp only [bind_assoc]

theorem validateDesign_agree (X : Ext) (d : List (Str × PVal)) (a : Args) : Agree (validateDesignStep X d) a (validateDesign X d) := by
  rw [validateDesign_eq]
  unfold validateDesignStep
  refine Agree.bind (Agree.check _ _) fun outs _ => Agree.putD ?_
  refine Agree.bind (walk_snd _ _) fun outs' _ => ?_
  exact Agree.bind (Agree.check _ _) fun _ _ => Agree.bind (Agree.check _ _) fun _ _ => Agree.pure _ _

theorem Agree.argsBind {β : Type} {f : Args → Step β} {a : Args} {r : R β} (h : Agree (f a) a r) : Agree (args >>= f) a r := h

/-- the outcome is that of `createTransaction` -/
theorem create_agree (X : Ext) (a : Args) : Agree (create X) a (do let r ← createTransaction X a; pure r.1) := by
  unfold create createTransaction prepare
  simp only [bind_assoc, pure_bind, bind_pure]
  refine Agree.argsBind ?_
  refine Agree.bind (Agree.check _ _) fun _ _ => ?_
  refine Agree.bind (Agree.check _ _) fun d _ => ?_
  refine Agree.bind (adjustDesign_agree _ _ _) fun d1 _ => ?_
  refine Agree.bind (adjustInputs_agree _ _ _) fun ins _ => ?_
  refine Agree.bind (Agree.check _ _) fun _ _ => ?_
  refine Agree.bind (validateDesign_agree _ _ _) fun d2 _ => ?_
  refine Agree.bind (Agree.check _ _) fun _ _ => ?_
  refine Agree.bind (Agree.check _ _) fun outsP _ => ?_
  refine Agree.bind (Agree.check _ _) fun outs _ => ?_
  refine Agree.bind (Agree.check _ _) fun ca _ => ?_
  refine Agree.bind (Agree.check _ _) fun ca' _ => ?_
  refine Agree.bind (Agree.check _ _) fun mf _ => ?_
  refine Agree.bind (Agree.check _ _) fun msp _ => ?_
  refine Agree.bind (Agree.check _ _) fun pct _ => ?_
  refine Agree.bind (Agree.check _ _) fun kind _ => ?_
  refine Agree.bind (Agree.putI (walk_snd _ _)) fun insZ _ => ?_
  refine Agree.bind (Agree.putD (walk_snd _ _)) fun outsZ _ => ?_
  refine Agree.bind (Agree.check _ _) fun txIns _ => ?_
  refine Agree.bind (Agree.check _ _) fun txOuts _ => ?_
  exact Agree.check _ _

end BT.Retry
