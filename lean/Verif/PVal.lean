import Verif.PyFloat

/-!
# Dynamically typed values

The data that `json.load(s)` produces (`cli.py:241-249`, `transaction.py:337`) and that
`create_transaction` (`create_transaction.py:89`) receives.
-/

namespace BT

/-- A Python value as produced by the `json` module.  A dict is an association list in
insertion order; keys are strings. -/
inductive PVal
  | none
  | bool (b : Bool)
  | int (n : Int)
  | float (f : PyFloat)
  | str (s : Str)
  | list (l : List PVal)
  | dict (d : List (Str × PVal))
  deriving Inhabited

namespace PVal

/-- Python truth value testing (`if x:`). -/
def truthy : PVal → Bool
  | .none => false
  | .bool b => b
  | .int n => n != 0
  | .float (.fin q) => q != 0
  | .float _ => true
  | .str s => !s.isEmpty
  | .list l => !l.isEmpty
  | .dict d => !d.isEmpty

/-- `x is None` -/
def isNone : PVal → Bool
  | .none => true
  | _ => false

/-- `x == n` for an `int` `n` (bool and float compare numerically). -/
def eqInt : PVal → Int → Bool
  | .bool b, n => (if b then 1 else 0) == n
  | .int m, n => m == n
  | .float (.fin q), n => q == (n : ℚ)
  | _, _ => false

/-- `x == s` for a `str` `s`. -/
def eqStr : PVal → Str → Bool
  | .str t, s => t == s
  | _, _ => false

/-- The integer behind an instance of `int` (`bool` is a subclass of `int`). -/
def asInt : PVal → Option Int
  | .bool b => some (if b then 1 else 0)
  | .int n => some n
  | _ => Option.none

/-- `Option Str` as a Python value (`None` or a string). -/
def ofOptStr : Option Str → PVal
  | some s => .str s
  | Option.none => .none

/-- `Option Int` as a Python value. -/
def ofOptInt : Option Int → PVal
  | some n => .int n
  | Option.none => .none

end PVal

mutual
/-- Data without floats and with distinct dict keys: survives `json.dumps`/`json.loads`. -/
def PVal.jsonSafe : PVal → Bool
  | .float _ => false
  | .list l => PVal.jsonSafeL l
  | .dict d => PVal.jsonSafeD d
  | _ => true
/-- `jsonSafe` for all elements of a list. -/
def PVal.jsonSafeL : List PVal → Bool
  | [] => true
  | x :: xs => PVal.jsonSafe x && PVal.jsonSafeL xs
/-- `jsonSafe` for all values of a dict, keys distinct. -/
def PVal.jsonSafeD : List (Str × PVal) → Bool
  | [] => true
  | (k, v) :: r => (r.all fun p => p.1 != k) && PVal.jsonSafe v && PVal.jsonSafeD r
end

/-! ## dicts -/

/-- `d.get(k)` on an association list. -/
def dictFind (d : List (Str × PVal)) (k : Str) : Option PVal :=
  match d with
  | [] => none
  | (k', v) :: r => if k' = k then some v else dictFind r k

/-- `k in d` -/
def dictHas (d : List (Str × PVal)) (k : Str) : Bool := (dictFind d k).isSome

/-- `d[k]`, KeyError if absent. -/
def dictGet (d : List (Str × PVal)) (k : Str) : R PVal :=
  match dictFind d k with
  | some v => .ok v
  | none => .error .keyError

/-- `d[k] = v`: overwrite in place or append at the end. -/
def dictSet (d : List (Str × PVal)) (k : Str) (v : PVal) : List (Str × PVal) :=
  match d with
  | [] => [(k, v)]
  | (k', w) :: r => if k' = k then (k, v) :: r else (k', w) :: dictSet r k v

/-- `list(d.keys())` -/
def dictKeys (d : List (Str × PVal)) : List Str := d.map Prod.fst

/-- `x.keys()`: AttributeError unless `x` is a dict. -/
def PVal.asDict : PVal → R (List (Str × PVal))
  | .dict d => .ok d
  | _ => .error .attributeError

/-- `x[k]` for a string key: TypeError unless `x` is a dict. -/
def PVal.item (x : PVal) (k : Str) : R PVal :=
  match x with
  | .dict d => dictGet d k
  | _ => .error .typeError

/-- `int(x)` for a dynamically typed value. -/
def PVal.toInt (u : UniDB) : PVal → R Int
  | .bool b => .ok (if b then 1 else 0)
  | .int n => .ok n
  | .float f => f.trunc
  | .str s => pyInt u 10 s
  | _ => .error .typeError

/-- `float(x)` for a dynamically typed value. -/
def PVal.toFloat (u : UniDB) : PVal → R PyFloat
  | .bool b => .ok (.fin (if b then 1 else 0))
  | .int n => PyFloat.ofInt n
  | .float f => .ok f
  | .str s => pyFloatStr u s
  | _ => .error .typeError

end BT
