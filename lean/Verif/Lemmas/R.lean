import Verif.Py

/-! # Lemmas about the exception monad -/

namespace BT

@[simp] theorem R_pure {α : Type} (a : α) : (pure a : R α) = .ok a := rfl
@[simp] theorem R_bind_ok {α β : Type} (a : α) (f : α → R β) : ((.ok a : R α) >>= f) = f a := rfl
@[simp] theorem R_bind_err {α β : Type} (e : Err) (f : α → R β) :
    ((.error e : R α) >>= f) = .error e := rfl
@[simp] theorem raise_eq {α : Type} (e : Err) : (raise e : R α) = .error e := rfl

theorem R_bind_eq_ok {α β : Type} {x : R α} {f : α → R β} {b : β} :
    (x >>= f) = .ok b ↔ ∃ a, x = .ok a ∧ f a = .ok b := by
  cases x <;> simp

theorem R_bind_eq_err {α β : Type} {x : R α} {f : α → R β} {e : Err} :
    (x >>= f) = .error e ↔ x = .error e ∨ ∃ a, x = .ok a ∧ f a = .error e := by
  cases x <;> simp

@[simp] theorem ite_err_eq_ok {α : Type} {c : Prop} [Decidable c] {e : Err} {x : R α} {a : α} :
    (if c then (.error e : R α) else x) = .ok a ↔ ¬ c ∧ x = .ok a := by
  by_cases h : c <;> simp [h]

@[simp] theorem ite_ok_err {α : Type} {c : Prop} [Decidable c] {e : Err} {x : R α} {a : α} :
    (if c then x else (.error e : R α)) = .ok a ↔ c ∧ x = .ok a := by
  by_cases h : c <;> simp [h]

@[simp] theorem check_ok {b : Bool} {e : Err} {u : Unit} : check b e = .ok u ↔ b = true := by
  unfold check; cases b <;> simp

@[simp] theorem assertR_ok {b : Bool} {u : Unit} : assertR b = .ok u ↔ b = true := check_ok

theorem R_cases {α : Type} (x : R α) : (∃ a, x = .ok a) ∨ ∃ e, x = .error e := by
  cases x <;> simp

/-- The call returned a value. -/
def Ok {α : Type} (x : R α) : Prop := ∃ a, x = .ok a

/-- The call raised some exception. -/
def Raises {α : Type} (x : R α) : Prop := ∃ e, x = .error e

theorem not_ok_iff {α : Type} {x : R α} : ¬ Ok x ↔ Raises x := by
  cases x <;> simp [Ok, Raises]

/-- The call raises no exception other than ValueError. -/
def VE {α : Type} (x : R α) : Prop := ∀ e, x = .error e → e = .valueError

theorem VE.bind {α β : Type} {x : R α} {f : α → R β} (h : VE x) (g : ∀ a, x = .ok a → VE (f a)) :
    VE (x >>= f) := by
  cases hx : x with
  | ok a => exact g a hx
  | error e => intro e' he; simp at he; rw [← he]; exact h e hx

theorem VE.ok {α : Type} (a : α) : VE (.ok a : R α) := by intro e h; simp at h
theorem VE.err {α : Type} : VE (.error .valueError : R α) := by intro e h; simp at h; exact h.symm
theorem VE.ite {α : Type} {c : Prop} [Decidable c] {x y : R α} (h1 : c → VE x) (h2 : ¬ c → VE y) :
    VE (if c then x else y) := by
  by_cases h : c
  · rw [if_pos h]; exact h1 h
  · rw [if_neg h]; exact h2 h

theorem VE.eq_of_not_ok {α : Type} {x : R α} (h : VE x) (hn : ∀ a, x ≠ .ok a) :
    x = .error .valueError := by
  cases hx : x with
  | ok a => exact absurd hx (hn a)
  | error e => rw [h e hx]

end BT
