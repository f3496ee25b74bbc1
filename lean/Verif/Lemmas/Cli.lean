import Verif.Cli
import Verif.Lemmas.End

/-! # Lemmas about the tasks of `cli.py` -/

namespace BT
open Spec

variable {X : Ext}

@[simp] theorem bindOut_ok {α : Type} (a : α) (k : α → CliOut) : bindOut (.ok a) k = k a := rfl
@[simp] theorem bindOut_error {α : Type} (e : Err) (k : α → CliOut) : bindOut (.error e) k = ([], .error e) := rfl
@[simp] theorem printR_ok (s : Str) : printR (.ok s) = ([s], .ok ()) := rfl
@[simp] theorem printR_error (e : Err) : printR (.error e) = ([], .error e) := rfl
@[simp] theorem printThen_mk (s : Str) (k : CliOut) : printThen s k = (s :: k.1, k.2) := rfl

theorem bindOut_out_ok {α : Type} {r : R α} {k : α → CliOut} {l : List Str} {u : Unit} (h : bindOut r k = (l, .ok u)) :
    ∃ a, r = .ok a ∧ k a = (l, .ok u) := by
  cases r with
  | ok a => exact ⟨a, rfl, h⟩
  | error e => simp at h

/-- a task whose last step prints prints nothing if it fails -/
theorem bindOut_silent {α : Type} {r : R α} {k : α → CliOut} (hk : ∀ a, (∃ e, k a = ([], .error e)) ∨ (k a).2 = .ok ()) :
    (∃ e, bindOut r k = ([], .error e)) ∨ (bindOut r k).2 = .ok () := by
  cases r with
  | ok a => exact hk a
  | error e => exact .inl ⟨e, rfl⟩

theorem hex_no_space (sp : Char → Bool) (b : Bytes) : ∀ c ∈ hex b, isSpaceChar' sp c = false := by
  intro c hc
  have : c ∈ hexDigits := (isHex_hex b).2 c hc
  simp only [hexDigits, List.mem_cons, List.not_mem_nil, or_false] at this
  rcases this with h | h | h | h | h | h | h | h | h | h | h | h | h | h | h | h <;> subst h <;> rfl

theorem dropWhile_none {α : Type} {p : α → Bool} : ∀ {l : List α}, (∀ x ∈ l, p x = false) → l.dropWhile p = l := by
  intro l
  induction l with
  | nil => intro _; rfl
  | cons a l _ => intro h; rw [List.dropWhile_cons_of_neg (by simp [h a])]

theorem strip_hex (sp : Char → Bool) (b : Bytes) : pyStrip' sp (hex b) = hex b := by
  unfold pyStrip'
  have h := hex_no_space sp b
  rw [dropWhile_none h, dropWhile_none (fun x hx => h x (by simpa using hx)), List.reverse_reverse]

/-! ## the change address plays no role in signing -/

theorem signFinish_ca (t : Tx) (c : Option Str) (k : Nat) (rv : Option Str) (key pk : Str) :
    ({ t with changeAddress := c } : Tx).signFinish X k rv key pk = t.signFinish X k rv key pk := rfl

theorem signRest_ca (t : Tx) (c : Option Str) (m : List (Str × Str)) (rvs : Option (List Str)) :
    ∀ (l : List TxIn) (k : Nat), signRest X { t with changeAddress := c } m rvs k l = signRest X t m rvs k l := by
  intro l
  induction l with
  | nil => intro k; rfl
  | cons i l ih =>
    intro k
    simp only [signRest, signFinish_ca, ih]

theorem sign_ca (t : Tx) (c : Option Str) (keys : List Str) (rvs : Option (List Str)) :
    ({ t with changeAddress := c } : Tx).sign X keys rvs =
      ({ (t.sign X keys rvs).1 with changeAddress := c }, (t.sign X keys rvs).2) := by
  rw [sign_eq, sign_eq]
  cases signChecks X keys rvs with
  | error e => rfl
  | ok m => simp only [signRest_ca]

/-- a created transaction is unsigned, so storing it loses only the change address -/
theorem stored_unsigned (hs : ∀ b, (X.sha256 b).length = 32) {t : Tx} (C : Spec.Created X t) : stored t = { t with changeAddress := none } := by
  unfold stored
  congr 1
  rw [List.map_congr_left (g := id)]
  · simp
  · intro i hi
    obtain ⟨a, x, y, z, h⟩ := C.ins i hi
    obtain ⟨tb, hb, ix, k, _, _, rfl, _, rfl, _, rfl, _, rfl⟩ := (TxIn_create_ok X hs).1 h
    rfl

theorem verify_map (t : Tx) (f : TxIn → TxIn) (c : Option Str) (h1 : ∀ i, (f i).scriptSig = i.scriptSig) (h2 : ∀ i, (f i).signableForm = i.signableForm)
    (h3 : ∀ i, (f i).signableFormEmpty = i.signableFormEmpty) {n : Nat} (hv : t.verify X = .ok n) :
    ({ t with inputs := t.inputs.map f, changeAddress := c } : Tx).verify X = .ok n := by
  rw [Tx.verify, verifyLoop_ok] at hv ⊢
  obtain ⟨bs, e1, e2, e3⟩ := hv
  refine ⟨bs, by simpa using e1, ?_, e3⟩
  intro j i hi b hb
  simp only [List.getElem?_map, Option.map_eq_some_iff] at hi
  obtain ⟨i0, hi0, rfl⟩ := hi
  rw [← e2 j i0 hi0 b hb]
  apply verifyInput_congr X ?_ (by simp) (h1 _)
  unfold Tx.toHexSignable Tx.signableForm
  simp only
  rw [signableInputs_map' (0 + j) f h2 h3]

theorem stored_verify {t : Tx} {n : Nat} (h : t.verify X = .ok n) : (stored t).verify X = .ok n :=
  verify_map t dropKey none (fun _ => rfl) (fun _ => rfl) (fun _ => rfl) h

theorem stored_hex (t : Tx) : (stored t).toHexSigned = t.toHexSigned := by
  unfold stored Tx.toHexSigned Tx.signedForm
  simp only
  congr 3
  rw [List.flatMap_map]
  rfl

end BT
