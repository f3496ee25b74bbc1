import Verif.Concrete.Sample
import Verif.CreateSpec

/-!
# Sample arguments for `create_transaction`

Used to show that the hypotheses of the theorems about `create_transaction` are met.
-/

namespace BT.Concrete
open BT BT.Spec

/-- the address of the private key `k` in the toy environment -/
def toyAddr (k : Nat) : Str :=
  match privateKeyToAddress Xtoy (hex32 k) with
  | .ok a => a
  | .error _ => []

/-- an entry of `a.inputs` -/
def inD (k : Nat) (c : Char) (idx : PVal) (amount : Str) : PVal :=
  .dict [(py"address", .str (toyAddr k)), (py"transaction_id", .str (List.replicate 64 c)),
    (py"previous_output_index", idx), (py"bitcoin_amount", .str amount)]

/-- an entry of `design['outputs']` -/
def outD (k : Nat) (amount : Str) : PVal :=
  .dict [(py"address", .str (toyAddr k)), (py"bitcoin_amount", .str amount)]

/-- arguments with a change address of their own (key 3), `max_fee` 250000 and 100% -/
def argsOf (ins outs : List PVal) (more : List (Str × PVal)) : Args :=
  { inputs := some (.list ins)
    design := some (.dict ([(py"change_address", .str (toyAddr 3)), (py"max_fee", .int 250000),
      (py"max_spend_percentage", .str py"100.00"), (py"outputs", .list outs)] ++ more)) }

/-- one input of 0.0007 and one output of 0.0005 bitcoin at 1 satoshi per byte -/
def argsRate : Args :=
  argsOf [inD 1 'a' (.int 3) py"0.0007"] [outD 2 py"0.0005"] [(py"fee_rate", .str py"1")]

/-- three inputs, two outputs, explicit fee -/
def argsFee : Args :=
  argsOf [inD 1 'a' (.int 3) py"0.0007", inD 2 'b' (.str py"0") py"0.0003", inD 1 'c' (.int 1) py"0.0009"]
    [outD 2 py"0.0005", outD 1 py"0.0006"] [(py"fee", .int 1000)]

/-- the same input twice, all inputs to be spent -/
def argsTwice : Args :=
  argsOf [inD 1 'a' (.int 3) py"0.0007", inD 1 'a' (.int 3) py"0.0007"] [outD 2 py"0.0005"]
    [(py"fee", .int 1000), (py"input_selection_approaches", .list [.str py"all"])]

/-- the singular key of the README instead of the plural one -/
def argsReadme : Args :=
  argsOf [inD 1 'a' (.int 3) py"0.0007", inD 2 'b' (.str py"0") py"0.0003", inD 1 'c' (.int 1) py"0.0009"]
    [outD 2 py"0.0001"] [(py"fee", .int 1000), (py"input_selection_approach", .str py"smallest_first")]

/-- what is looked at in the result of a call -/
def view (r : R (Tx × Args)) : Option (Option Int × List Int × List (Str × Int)) :=
  match r with
  | .ok (t, _) => some (t.fee, t.inputs.map fun i => i.satoshi.getD 0, t.outputs.map fun o => (o.address, o.satoshi))
  | .error _ => none

theorem argsRate_run : view (createTransaction Xtoy argsRate) =
    some (some 223, [70000], [(toyAddr 3, 19777), (toyAddr 2, 50000)]) := by decide +kernel

theorem argsFee_run : view (createTransaction Xtoy argsFee) =
    some (some 1000, [90000, 70000], [(toyAddr 3, 49000), (toyAddr 2, 50000), (toyAddr 1, 60000)]) := by decide +kernel

theorem argsTwice_run : view (createTransaction Xtoy argsTwice) =
    some (some 1000, [70000, 70000], [(toyAddr 3, 89000), (toyAddr 2, 50000)]) := by decide +kernel

theorem argsReadme_run : view (createTransaction Xtoy argsReadme) =
    some (some 1000, [90000], [(toyAddr 3, 79000), (toyAddr 2, 10000)]) := by decide +kernel

theorem view_ok {r : R (Tx × Args)} {f : Option Int} {i : List Int} {o : List (Str × Int)} (h : view r = some (f, i, o)) :
    ∃ t a', r = .ok (t, a') ∧ t.fee = f ∧ (t.inputs.map fun i => i.satoshi.getD 0) = i ∧ (t.outputs.map fun o => (o.address, o.satoshi)) = o := by
  cases r with
  | error e => simp [view] at h
  | ok p =>
    obtain ⟨t, a'⟩ := p
    simp only [view, Option.some.injEq, Prod.mk.injEq] at h
    exact ⟨t, a', rfl, h.1, h.2.1, h.2.2⟩

end BT.Concrete
