import Verif.Props.Relax
import Verif.Props.RetryWit

/-! # Concrete cases for C127 and C128 -/

namespace BT
open Spec Concrete Retry

/-- `argsFee` pays 1000 satoshi; with a cap of exactly 1000, as a string, the result is the same -/
example : ∃ t a' b', createTransaction Xtoy argsFee = .ok (t, a') ∧ createTransaction Xtoy (edited argsFee [.setting py"max_fee" (.str py"1000")]) = .ok (t, b') ∧
    (t.outputs.map fun o => (o.address, o.satoshi)) = [(toyAddr 3, 49000), (toyAddr 2, 50000), (toyAddr 1, 60000)] := by
  obtain ⟨t, a', h, _, h2, h3⟩ := view_ok argsFee_run
  have e1 : inTotal t.inputs = 160000 := by unfold inTotal; rw [h2]; rfl
  have e2 : outTotal t.outputs = 159000 := by
    have : (t.outputs.map fun o => o.satoshi) = [49000, 50000, 60000] := by
      have := congrArg (List.map Prod.snd) h3
      simpa [List.map_map, Function.comp_def] using this
    unfold outTotal; rw [this]; rfl
  have hi : inTotal t.inputs - outTotal t.outputs ≤ 1000 := by omega
  obtain ⟨b', hb⟩ := (C127_max_fee Xtoy_laws.sha_len h (t' := t) (w := .str py"1000") (.inr ⟨_, rfl, by decide +kernel⟩)).2 ⟨rfl, hi⟩
  exact ⟨t, a', b', h, hb, h3⟩

/-- one satoshi less and it is refused -/
example : createTransaction Xtoy (edited argsFee [.setting py"max_fee" (.int 999)]) = .error .valueError := errOf_some (by decide +kernel)

/-- the duplicate option: `argsFee` has different addresses, so `False` is fine as well -/
example : ∃ t a' b', createTransaction Xtoy argsFee = .ok (t, a') ∧ createTransaction Xtoy (edited argsFee [.allowDup (.bool true)]) = .ok (t, b') := by
  obtain ⟨t, a', h, _⟩ := view_ok argsFee_run
  obtain ⟨ins, outs, _, _, _, _, _, C⟩ := created_of Xtoy_laws.sha_len h
  obtain ⟨b', hb⟩ := (C127_duplicates Xtoy_laws.sha_len h (t' := t) C.req true).2 ⟨rfl, .inl rfl⟩
  exact ⟨t, a', b', h, hb⟩

/-- all the money there is, at 100 percent -/
def argsAllMoney : Args := argsOf [inD 1 'a' (.int 3) py"21000000"] [outD 2 py"0.0005"] [(py"fee", .int 1000)]

theorem argsAllMoney_run : view (createTransaction Xtoy argsAllMoney) =
    some (some 1000, [2100000000000000], [(toyAddr 3, 2099999999949000), (toyAddr 2, 50000)]) := by decide +kernel

/-- C127. The percentage may also be 100.9, which is the largest value with one decimal place that is accepted. With it a request
that was fine at 100 percent can be refused, because the limit exceeds 21 million bitcoin. -/
theorem C127_percentage_violation : ∃ (a : Args), setting a py"max_spend_percentage" = some (.str py"100.00") ∧
    (∃ r, createTransaction Xtoy a = .ok r) ∧
    createTransaction Xtoy (edited a [.setting py"max_spend_percentage" (.str py"100.9")]) = .error .valueError ∧
    (∃ r, createTransaction Xtoy (edited argsFee [.setting py"max_spend_percentage" (.str py"100.9")]) = .ok r) := by
  refine ⟨argsAllMoney, rfl, ?_, errOf_some (by decide +kernel), ?_⟩
  · obtain ⟨t, a', h, _⟩ := view_ok argsAllMoney_run
    exact ⟨_, h⟩
  · have h : view (createTransaction Xtoy (edited argsFee [.setting py"max_spend_percentage" (.str py"100.9")])) =
        some (some 1000, [90000, 70000], [(toyAddr 3, 49000), (toyAddr 2, 50000), (toyAddr 1, 60000)]) := by decide +kernel
    obtain ⟨t, a', h, _⟩ := view_ok h
    exact ⟨_, h⟩

/-- raising the percentage from 60 to 73.5 -/
example : ∃ t a' b', createTransaction Xtoy (edited argsFee [.setting py"max_spend_percentage" (.str py"60")]) = .ok (t, a') ∧
    createTransaction Xtoy (edited (edited argsFee [.setting py"max_spend_percentage" (.str py"60")])
      [.setting py"max_spend_percentage" (.str py"73.5")]) = .ok (t, b') := by
  have h : view (createTransaction Xtoy (edited argsFee [.setting py"max_spend_percentage" (.str py"60")])) =
      some (some 1000, [90000, 70000], [(toyAddr 3, 49000), (toyAddr 2, 50000), (toyAddr 1, 60000)]) := by decide +kernel
  obtain ⟨t, a', h, _⟩ := view_ok h
  obtain ⟨b', hb⟩ := C127_raise_percentage_partial Xtoy_laws.sha_len h (v := .str py"60") (q := 60) (q' := 147 / 2) (w := .str py"73.5") rfl
    (.inr ⟨py"60", [], by decide, .inr ⟨rfl, rfl⟩, by decide +kernel, by decide +kernel⟩)
    (.inr ⟨py"73", py"5", by decide, .inl ⟨rfl, by decide⟩, by decide +kernel, by decide +kernel⟩) (by norm_num) (by norm_num)
  exact ⟨t, a', b', h, hb⟩

/-- C128: `argsRate` (1 satoshi per byte) and the request that names the fee of 223 satoshi -/
example : ∃ t a' b', createTransaction Xtoy argsRate = .ok (t, a') ∧
    createTransaction Xtoy (edited argsRate [.setting py"fee" (.int 223), .setting py"fee_rate" .none]) = .ok (t, b') := by
  obtain ⟨t, a', h, _, h2, h3⟩ := view_ok argsRate_run
  have e1 : inTotal t.inputs = 70000 := by unfold inTotal; rw [h2]; rfl
  have e2 : outTotal t.outputs = 69777 := by
    have : (t.outputs.map fun o => o.satoshi) = [19777, 50000] := by
      have := congrArg (List.map Prod.snd) h3
      simpa [List.map_map, Function.comp_def] using this
    unfold outTotal; rw [this]; rfl
  obtain ⟨b', hb⟩ := C128_fee_as_number_partial Xtoy_laws.sha_len h (f := 223) (by omega) (by norm_num)
  exact ⟨t, a', b', h, hb⟩

/-- a request with rate 0 pays no fee; naming the fee 0 instead is refused -/
example : view (createTransaction Xtoy (edited argsRate [.setting py"fee_rate" (.str py"0")])) =
    some (some 0, [70000], [(toyAddr 3, 20000), (toyAddr 2, 50000)]) := by decide +kernel

end BT
