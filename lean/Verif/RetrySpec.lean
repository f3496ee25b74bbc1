import Verif.CreateState
import Verif.CreateSpec

/-!
# Specification vocabulary: calling `create_transaction` again with the same argument object
-/

namespace BT.Retry

/-- A harmless change of the arguments: a number that was given as a string becomes an integer (`fee`, `max_fee`, the index of
an input), an integer fee rate becomes a string, the positive amount of an output is written with eight decimal places. -/
inductive Tidy1 (u : UniDB) : Args → Args → Prop
  | fee {a : Args} {d : List (Str × PVal)} {s : Str} {n : Int} : a.design = some (.dict d) →
      dictFind d py"fee" = some (.str s) → pyInt u 10 s = .ok n →
      Tidy1 u a { a with design := some (.dict (dictSet d py"fee" (.int n))) }
  | maxFee {a : Args} {d : List (Str × PVal)} {s : Str} {n : Int} : a.design = some (.dict d) →
      dictFind d py"max_fee" = some (.str s) → pyInt u 10 s = .ok n →
      Tidy1 u a { a with design := some (.dict (dictSet d py"max_fee" (.int n))) }
  | rate {a : Args} {d : List (Str × PVal)} {v : PVal} {s : Str} : a.design = some (.dict d) →
      dictFind d py"fee_rate" = some v → strOfInt v = some s →
      Tidy1 u a { a with design := some (.dict (dictSet d py"fee_rate" (.str s))) }
  | index {a : Args} {l : List PVal} {j : Nat} {d : List (Str × PVal)} {v : PVal} {n : Int} : a.inputs = some (.list l) →
      l[j]? = some (.dict d) → dictFind d py"previous_output_index" = some v → v.toInt u = .ok n →
      Tidy1 u a { a with inputs := some (.list (l.set j (.dict (dictSet d py"previous_output_index" (.int n))))) }
  | amount {a : Args} {d : List (Str × PVal)} {l : List PVal} {j : Nat} {o : List (Str × PVal)} {s s8 : Str} :
      a.design = some (.dict d) → dictFind d py"outputs" = some (.list l) → l[j]? = some (.dict o) →
      dictFind o py"bitcoin_amount" = some (.str s) → vPositiveBitcoinAmount u s = .ok () → ensure8 s = .ok s8 →
      Tidy1 u a { a with design := some (.dict (dictSet d py"outputs"
        (.list (l.set j (.dict (dictSet o py"bitcoin_amount" (.str s8))))))) }

/-- `b` is `a` after some harmless changes. -/
def Tidy (u : UniDB) : Args → Args → Prop := Relation.ReflTransGen (Tidy1 u)

/-- What a caller may correct before he calls again. -/
inductive Edit
  | setting (key : Str) (v : PVal)            -- a.design[key] = v
  | input (j : Nat) (key : Str) (v : PVal)    -- a.inputs[j][key] = v
  | output (j : Nat) (key : Str) (v : PVal)   -- a.design['outputs'][j][key] = v
  | inputs (v : PVal)                         -- a.inputs = v
  | design (v : PVal)                         -- a.design = v
  | allowDup (v : PVal)                       -- a.allow_duplicate_output_address = v
  | changeIdx (v : PVal)                      -- a.change_output_index = v

/-- `l[j][key] = v` for a list of dicts (no effect if there is no such dict) -/
def setField (l : List PVal) (j : Nat) (key : Str) (v : PVal) : List PVal :=
  match l[j]? with
  | some (.dict d) => l.set j (.dict (dictSet d key v))
  | _ => l

/-- The arguments after a correction (unchanged if what is to be corrected does not exist). -/
def Edit.apply (a : Args) : Edit → Args
  | .setting k v => match a.design with
    | some (.dict d) => { a with design := some (.dict (dictSet d k v)) }
    | _ => a
  | .input j k v => match a.inputs with
    | some (.list l) => { a with inputs := some (.list (setField l j k v)) }
    | _ => a
  | .output j k v => match a.design with
    | some (.dict d) => match dictFind d py"outputs" with
      | some (.list l) => { a with design := some (.dict (dictSet d py"outputs" (.list (setField l j k v)))) }
      | _ => a
    | _ => a
  | .inputs v => { a with inputs := some v }
  | .design v => { a with design := some v }
  | .allowDup v => { a with allowDup := some v }
  | .changeIdx v => { a with changeIdx := some v }

/-- The arguments after several corrections. -/
def edited (a : Args) (es : List Edit) : Args := es.foldl Edit.apply a

/-- `del x['satoshi_amount']` for a dict -/
def unmarkDict (x : PVal) : PVal :=
  match x with
  | .dict d => .dict (d.filter fun p => p.1 ≠ py"satoshi_amount")
  | x => x

/-- `del x['satoshi_amount']` for all inputs and all outputs of the design. -/
def unmark (a : Args) : Args :=
  { a with
    inputs := a.inputs.map fun x => match x with
      | .list l => .list (l.map unmarkDict)
      | x => x
    design := a.design.map fun x => match x with
      | .dict d => match dictFind d py"outputs" with
        | some (.list l) => .dict (dictSet d py"outputs" (.list (l.map unmarkDict)))
        | _ => .dict d
      | x => x }

/-- A list of dicts without the key `satoshi_amount`. -/
def Plain (x : PVal) : Prop :=
  ∀ l, x = .list l → ∀ d, .dict d ∈ l → py"satoshi_amount" ∉ dictKeys d

/-- No input and no output of the design has a key `satoshi_amount`, as the format demands. -/
def NoMark (a : Args) : Prop :=
  (∀ x, a.inputs = some x → Plain x) ∧ (∀ x, Spec.setting a py"outputs" = some x → Plain x)

/-- Every input and every output of the design has been given a key `satoshi_amount`. -/
def Marked (a : Args) : Prop :=
  (∃ l, a.inputs = some (.list l) ∧ ∀ x ∈ l, ∃ d, x = .dict d ∧ py"satoshi_amount" ∈ dictKeys d) ∧
  (∃ l, Spec.setting a py"outputs" = some (.list l) ∧ ∀ x ∈ l, ∃ d, x = .dict d ∧ py"satoshi_amount" ∈ dictKeys d)

end BT.Retry
