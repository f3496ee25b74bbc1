import Verif.Props.Retry
import Verif.Concrete.SampleCreate

/-! # Concrete cases for C125 -/

namespace BT
open Spec Concrete Retry

/-- the exception of a call -/
def Retry.errOf {α : Type} (r : R α) : Option Err :=
  match r with
  | .ok _ => none
  | .error e => some e

theorem Retry.errOf_some {α : Type} {r : R α} {e : Err} (h : errOf r = some e) : r = .error e := by
  cases r with
  | ok _ => simp [errOf] at h
  | error e' => simp only [errOf, Option.some.injEq] at h; rw [h]

/-- one input of 0.0007 bitcoin cannot pay 0.0008 -/
def argsShort : Args := argsOf [inD 1 'a' (.int 3) py"0.0007"] [outD 2 py"0.0008"] [(py"fee", .str py"1000")]

/-- the caller corrects the amount -/
def fixShort : List Edit := [.output 0 py"bitcoin_amount" (.str py"0.0005")]

theorem argsShort_refused : createTransaction Xtoy argsShort = .error .outputValueNotCovered :=
  errOf_some (by decide +kernel)

/-- with fresh arguments the corrected request is fine -/
theorem argsShort_fresh : view (createTransaction Xtoy (edited argsShort fixShort)) =
    some (some 1000, [70000], [(toyAddr 3, 19000), (toyAddr 2, 50000)]) := by decide +kernel

/-- with the arguments of the refused call it is not -/
theorem argsShort_again : createTransaction Xtoy (edited (create Xtoy argsShort).1 fixShort) = .error .valueError :=
  errOf_some (by decide +kernel)

/-- The property "a refused request can be corrected and tried again" is false: a request was refused, is corrected, would now
be fine, and is refused because of the first call. -/
theorem C125_counterexample_violation :
    ∃ (a : Args) (es : List Edit), (∃ e, createTransaction Xtoy a = .error e) ∧ NoMark a ∧
      (∃ r, createTransaction Xtoy (edited a es) = .ok r) ∧
      createTransaction Xtoy (edited (create Xtoy a).1 es) = .error .valueError := by
  refine ⟨argsShort, fixShort, ⟨_, argsShort_refused⟩, ⟨?_, ?_⟩, ?_, argsShort_again⟩
  · intro x hx l hl d hd
    simp only [argsShort, argsOf, Option.some.injEq] at hx
    rw [← hx, PVal.list.injEq] at hl
    rw [← hl] at hd
    simp only [inD, List.mem_singleton, PVal.dict.injEq] at hd
    rw [hd]; simp only [dictKeys, List.map_cons, List.map_nil]; decide
  · intro x hx l hl d hd
    have hx' : some (PVal.list [outD 2 py"0.0008"]) = some x := hx ▸ rfl
    rw [Option.some.injEq] at hx'
    rw [← hx', PVal.list.injEq] at hl
    rw [← hl] at hd
    simp only [outD, List.mem_singleton, PVal.dict.injEq] at hd
    rw [hd]; simp only [dictKeys, List.map_cons, List.map_nil]; decide
  · obtain ⟨t, a', h, _⟩ := view_ok argsShort_fresh
    exact ⟨_, h⟩

/-- `C125_violation` applies to it: no design and no options help. -/
example (d : List (Str × PVal)) (dup idx : Option PVal) :
    createTransaction Xtoy { (create Xtoy argsShort).1 with design := some (.dict d), allowDup := dup, changeIdx := idx } =
      .error .valueError :=
  C125_violation argsShort _ argsShort_refused (.inl rfl) (by simp [argsShort, argsOf]) d dup idx

/-- removing the added keys helps (`C125_repair`) -/
example : view (createTransaction Xtoy (edited (unmark (create Xtoy argsShort).1) fixShort)) =
    some (some 1000, [70000], [(toyAddr 3, 19000), (toyAddr 2, 50000)]) := by decide +kernel

/-- a request whose output amount is written wrongly: the fee and the index have already been converted to integers -/
def argsTypo : Args :=
  argsOf [inD 1 'a' (.str py"3") py"0.0007"] [outD 2 py"0.0001", outD 1 py"-0.0005"] [(py"fee", .str py"1000")]

theorem argsTypo_refused : createTransaction Xtoy argsTypo = .error .valueError := errOf_some (by decide +kernel)

/-- the changes of this call are harmless, but there are some: the fee, the index and the first amount -/
example : (Spec.setting (create Xtoy argsTypo).1 py"fee" matches some (.int 1000)) = true ∧
    (Spec.setting argsTypo py"fee" matches some (.int 1000)) = false := by decide +kernel

theorem argsTypo_unmarked : ¬ Marked (create Xtoy argsTypo).1 := by
  rintro ⟨⟨l, hl, h⟩, _⟩
  have hb : ((create Xtoy argsTypo).1.inputs.map fun x => match x with
      | .list l => l.any fun x => match x with
        | .dict d => (dictKeys d).contains py"satoshi_amount"
        | _ => false
      | _ => true) = some false := by decide +kernel
  have hn : ((create Xtoy argsTypo).1.inputs.map fun x => match x with
      | .list l => l.length
      | _ => 0) = some 1 := by decide +kernel
  rw [hl] at hb hn
  simp only [Option.map_some, Option.some.injEq] at hb hn
  match l, hn with
  | [x], _ =>
    obtain ⟨d, rfl, hd⟩ := h x (by simp)
    simp only [List.any_cons, List.any_nil, Bool.or_false] at hb
    rw [List.contains_iff_mem.2 hd] at hb
    cases hb

/-- `C125_retry_partial` applies: after the correction the second call succeeds -/
example : createTransaction Xtoy (edited (create Xtoy argsTypo).1 [.output 1 py"bitcoin_amount" (.str py"0.0005")]) =
    createTransaction Xtoy (edited argsTypo [.output 1 py"bitcoin_amount" (.str py"0.0005")]) :=
  C125_retry_partial argsTypo argsTypo_unmarked _

example : view (createTransaction Xtoy (edited (create Xtoy argsTypo).1 [.output 1 py"bitcoin_amount" (.str py"0.0005")])) =
    some (some 1000, [70000], [(toyAddr 3, 9000), (toyAddr 2, 10000), (toyAddr 1, 50000)]) := by decide +kernel

end BT
