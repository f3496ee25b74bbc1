import Verif.LogText
import Verif.TxLogSpec

/-!
# Specification vocabulary: a log that can be trusted (C142)
-/

namespace BT.Spec
open BT.Lg

/-- After every line break the text goes on with '-' or a small letter, so no line of it but the first looks like the beginning of a record
(which is a digit of the time or a capital letter of the level). -/
def Harmless (s : Str) : Prop :=
  ∀ p q, s = p ++ '\n' :: q → ∃ c r, q = c :: r ∧ (c = '-' ∨ (97 ≤ c.toNat ∧ c.toNat ≤ 122))

/-- What the `logging` library puts before the text of a record: a time of 19 characters that begins with a digit, one of the five levels, the name of
a logger of this package, the name of a function. -/
structure Placed (r : Rec) : Prop where
  time : ∀ t, r.time = some t → t.length = 19 ∧ '\n' ∉ t ∧ ∃ c u, t = c :: u ∧ 48 ≤ c.toNat ∧ c.toNat ≤ 57
  level : r.level ∈ [10, 20, 30, 40, 50]
  logger : r.logger ∈ loggerNames
  func : ')' ∉ r.func ∧ '\n' ∉ r.func

/-- The records `rs` are those that were logged at level `lev` and above, each with its place in the code. -/
def LogOf (lev : Nat) (ev : List Ev) (rs : List Rec) : Prop :=
  rs.map (fun r => (r.logger, r.level, r.text)) = (records ev).filter (fun r => lev ≤ r.2.1) ∧ ∀ r ∈ rs, Placed r

end BT.Spec
