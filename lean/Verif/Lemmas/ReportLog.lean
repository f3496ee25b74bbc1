import Verif.Lemmas.Report
import Verif.Lemmas.Summary

/-! # The lines of a run that succeeds -/

namespace BT.Report
open BT.Spec

variable {α β : Type}

theorem ok_bind {m : L α} {f : α → L β} {l : List Str} {b : β} :
    (m >>= f) = ⟨l, .ok b⟩ ↔ ∃ a l1 l2, m = ⟨l1, .ok a⟩ ∧ f a = ⟨l2, .ok b⟩ ∧ l = l1 ++ l2 := by
  show L.bind m f = _ ↔ _
  obtain ⟨log, res⟩ := m
  unfold L.bind
  cases res with
  | error e => simp
  | ok a =>
    simp only [L.mk.injEq, Except.ok.injEq]
    constructor
    · rintro ⟨h1, h2⟩
      exact ⟨a, log, (f a).log, ⟨rfl, rfl⟩, by rw [← h2], h1.symm⟩
    · rintro ⟨a', l1, l2, ⟨rfl, rfl⟩, h, rfl⟩
      rw [h]; exact ⟨rfl, rfl⟩

theorem ok_run {r : R α} {l : List Str} {a : α} : run r = ⟨l, .ok a⟩ ↔ r = .ok a ∧ l = [] := by
  unfold run
  cases r <;> simp [eq_comm, and_comm]

theorem ok_pure {l : List Str} {a b : α} : (pure a : L α) = ⟨l, .ok b⟩ ↔ a = b ∧ l = [] := by
  show (⟨[], .ok a⟩ : L α) = _ ↔ _
  simp [eq_comm, and_comm]

theorem ok_pure_bind {a : α} {f : α → L β} {l : List Str} {b : β} :
    ((pure a : L α) >>= f) = ⟨l, .ok b⟩ ↔ f a = ⟨l, .ok b⟩ := by
  have h : ((pure a : L α) >>= f) = f a := rfl
  rw [h]

theorem ok_run_bind {r : R α} {f : α → L β} {l : List Str} {b : β} :
    (run r >>= f) = ⟨l, .ok b⟩ ↔ ∃ a, r = .ok a ∧ f a = ⟨l, .ok b⟩ := by
  rw [ok_bind]
  constructor
  · rintro ⟨a, l1, l2, h1, h2, rfl⟩
    obtain ⟨h, rfl⟩ := ok_run.1 h1
    exact ⟨a, h, h2⟩
  · rintro ⟨a, h1, h2⟩
    exact ⟨a, [], l, ok_run.2 ⟨h1, rfl⟩, h2, rfl⟩

theorem ok_say_bind {s : Str} {f : Unit → L β} {l : List Str} {b : β} :
    (say s >>= f) = ⟨l, .ok b⟩ ↔ ∃ l', f () = ⟨l', .ok b⟩ ∧ l = s :: l' := by
  rw [ok_bind]
  constructor
  · rintro ⟨a, l1, l2, h1, h2, rfl⟩
    simp only [say, L.mk.injEq] at h1
    obtain ⟨rfl, _⟩ := h1
    exact ⟨l2, h2, rfl⟩
  · rintro ⟨l', h, rfl⟩
    exact ⟨(), [s], l', rfl, h, rfl⟩

theorem ok_say {s : Str} {l : List Str} {b : Unit} : say s = ⟨l, .ok b⟩ ↔ l = [s] := by
  simp only [say, L.mk.injEq, and_true, eq_comm]

theorem ok_refuse {e : Err} {t : Str} {l : List Str} {b : α} : (refuse e t : L α) = ⟨l, .ok b⟩ ↔ False := by
  simp [refuse]

theorem ok_refuse_bind {e : Err} {t : Str} {f : α → L β} {l : List Str} {b : β} :
    ((refuse e t : L α) >>= f) = ⟨l, .ok b⟩ ↔ False := by
  rw [ok_bind]; simp [ok_refuse]

theorem ok_refuseIf {c : Prop} [Decidable c] {e : Err} {t : Str} {l : List Str} {b : Unit} :
    refuseIf c e t = ⟨l, .ok b⟩ ↔ ¬ c ∧ l = [] := by
  unfold refuseIf
  split
  · rename_i h; simp [ok_refuse, h]
  · rename_i h; simp [ok_pure, h]

theorem ok_refuseIf_bind {c : Prop} [Decidable c] {e : Err} {t : Str} {f : Unit → L β} {l : List Str} {b : β} :
    (refuseIf c e t >>= f) = ⟨l, .ok b⟩ ↔ ¬ c ∧ f () = ⟨l, .ok b⟩ := by
  rw [ok_bind]
  simp only [ok_refuseIf]
  constructor
  · rintro ⟨_, l1, l2, ⟨h, rfl⟩, h2, rfl⟩; exact ⟨h, h2⟩
  · rintro ⟨h, h2⟩; exact ⟨(), [], l, ⟨h, rfl⟩, h2, rfl⟩

/-- The lines of `sayEach`. -/
def numbered (f : Nat → α → Str) : Nat → List α → List Str
  | _, [] => []
  | n, x :: xs => f n x :: numbered f (n + 1) xs

theorem sayEach_eq (f : Nat → α → Str) (n : Nat) (l : List α) : sayEach f n l = ⟨numbered f n l, .ok ()⟩ := by
  induction l generalizing n with
  | nil => rfl
  | cons x xs ih =>
    unfold sayEach numbered
    rw [ok_say_bind]
    exact ⟨_, ih _, rfl⟩

theorem ok_each_bind {γ : Type} {f : Nat → α → Str} {n : Nat} {xs : List α} {g : Unit → L γ} {l : List Str} {b : γ} :
    (sayEach f n xs >>= g) = ⟨l, .ok b⟩ ↔ ∃ l', g () = ⟨l', .ok b⟩ ∧ l = numbered f n xs ++ l' := by
  rw [ok_bind]
  constructor
  · rintro ⟨a, l1, l2, h1, h2, rfl⟩
    rw [sayEach_eq] at h1
    simp only [L.mk.injEq] at h1
    obtain ⟨rfl, _⟩ := h1
    exact ⟨l2, h2, rfl⟩
  · rintro ⟨l', h, rfl⟩
    exact ⟨(), _, l', sayEach_eq _ _ _, h, rfl⟩

/-- "B bitcoin (N satoshi)" for the amount `n`. -/
def amt (u : UniDB) (n : Int) : Str := both (inBitcoin u n) n

theorem inBitcoin_of {u : UniDB} {n : Int} {s : Str} (h : satoshiToBitcoin u n = .ok s) : inBitcoin u n = s := by
  unfold inBitcoin; rw [h]

theorem both_of {u : UniDB} {n : Int} {s : Str} (h : satoshiToBitcoin u n = .ok s) : both s n = amt u n := by
  unfold amt; rw [inBitcoin_of h]

/-! ## Sections -/

theorem validateDesign_log {E : Msg.Env} {X : Ext} {d d' : List (Str × PVal)} {l : List Str}
    (h : validateDesign E X d = ⟨l, .ok d'⟩) :
    l = [] ∨ ∃ xs, dictOpt d py"input_selection_approaches" = .list xs ∧ l = [Msg.repr E (.list xs)] := by
  unfold validateDesign at h
  simp only [ok_run_bind] at h
  obtain ⟨_, _, _, _, _, _, _, _, _, _, _, _, _, _, _, _, _, _, _, _, _, _, _, _, _, _, h⟩ := h
  split at h
  · rename_i ht
    simp only [ok_say_bind, ok_run_bind, ok_pure] at h
    obtain ⟨l', ⟨⟨⟩, hv, _, rfl⟩, rfl⟩ := h
    right
    generalize dictOpt d py"input_selection_approaches" = v at *
    unfold validateApproaches at hv
    rw [if_pos ht] at hv
    simp only [R_bind_eq_ok] at hv
    obtain ⟨xs, hx, _⟩ := hv
    rw [vList_ok.1 hx]
    exact ⟨xs, rfl, rfl⟩
  · simp only [ok_pure_bind, ok_run_bind, ok_pure] at h
    obtain ⟨_, _, _, h⟩ := h
    exact .inl h

theorem prepare_log {E : Msg.Env} {X : Ext} {a : Args} {p : Plan} {l : List Str} (h : prepare E X a = ⟨l, .ok p⟩) :
    ∃ l0 ins outs, (l0 = [] ∨ ∃ xs, setting a py"input_selection_approaches" = some (.list xs) ∧ l0 = [Msg.repr E (.list xs)]) ∧
      p.after.inputs = some (.list ins) ∧ setting p.after py"outputs" = some (.list outs) ∧
      l = l0 ++ [py"All arguments validated. No problems found.", py"Report supplied data for inputs and outputs."] ++
        numbered (suppliedInput E) 0 ins ++ numbered (suppliedOutput E) 0 outs ++
        [py"Number of inputs: " ++ pyStr p.ins.length, py"Number of outputs: " ++ pyStr p.outs.length] := by
  unfold prepare at h
  simp only [ok_run_bind] at h
  obtain ⟨_, _, d, hd, d1, hd1, ins0, _, _, _, h⟩ := h
  rw [ok_bind] at h
  obtain ⟨d2, l0, l1, hv, h, rfl⟩ := h
  simp only [ok_run_bind, ok_say_bind, ok_each_bind, ok_pure] at h
  obtain ⟨_, _, _, ⟨_, _, _, _, _, _, _, _, _, _, _, _, _, _, ins, _, outs, _, _, ⟨_, ⟨_, ⟨txIns, _, _, ⟨txOuts, _, _, ⟨rfl, rfl⟩, rfl⟩, rfl⟩, rfl⟩, rfl⟩, rfl⟩, rfl⟩ := h
  refine ⟨l0, ins, outs, ?_, rfl, ?_, ?_⟩
  · rcases validateDesign_log hv with h | ⟨xs, h1, h2⟩
    · exact .inl h
    · refine .inr ⟨xs, ?_, h2⟩
      have hadj := (adjustDesign_ok hd1).1 py"input_selection_approaches" (by decide) (by decide) (by decide)
      unfold dictOpt at h1
      rw [hadj] at h1
      have hset : setting a py"input_selection_approaches" = dictFind d py"input_selection_approaches" := by
        cases hdes : a.design with
        | none => rw [hdes] at hd; simp [PVal.asDict] at hd
        | some v =>
          rw [hdes] at hd
          cases v <;> simp [PVal.asDict] at hd
          subst hd
          exact setting_eq hdes _
      rw [hset]
      cases hf : dictFind d py"input_selection_approaches" with
      | none => rw [hf] at h1; simp at h1
      | some v => rw [hf] at h1; simpa using h1
  · simp only [setting, Option.bind_some, entry]
    exact find_set_eq
  · simp

theorem sorting_log {E : Msg.Env} {ap : PVal} {ins : List TxIn} {r : PVal × List TxIn} {l : List Str}
    (h : sorting E ap ins = ⟨l, .ok r⟩) :
    firstApproach ap = .ok r.1 ∧ sortInputs r.1 ins = .ok r.2 ∧
      l = [pyStr r.2.length ++ py" inputs sorted according to the input selection approach: " ++ str E ap] := by
  unfold sorting at h
  simp only [ok_run_bind] at h
  obtain ⟨x, hx, h⟩ := h
  cases hs : sortInputs x ins with
  | error e => rw [hs] at h; simp only [ok_refuse_bind] at h
  | ok s =>
    rw [hs] at h
    simp only [ok_pure_bind, ok_say_bind, ok_pure] at h
    obtain ⟨_, ⟨rfl, rfl⟩, rfl⟩ := h
    exact ⟨hx, hs, rfl⟩

/-- The two lines of the address report. -/
def addressLog (u : UniDB) (ins : List TxIn) (outs : List TxOut) : List Str :=
  [py"Input addresses and the value that they each contain:" ++ (addrTotals (ins.map fun i => (i.address, i.amount))).flatMap fun p =>
      inputAddressLine ins (p, inBitcoin u p.2),
   py"Output addresses, with total value to be sent to each:" ++ (addrTotals (outs.map fun o => (o.address, o.satoshi))).flatMap fun p =>
      outputAddressLine (p, inBitcoin u p.2)]

theorem zip_texts {u : UniDB} {l : List (Str × Int)} {bs : List Str} (h : mapR (fun p : Str × Int => satoshiToBitcoin u p.2) l = .ok bs) :
    l.zip bs = l.map fun p => (p, inBitcoin u p.2) := by
  have h' := mapR_ok.1 h
  clear h
  induction h' with
  | nil => rfl
  | cons h1 _ ih => simp [ih, inBitcoin_of h1]

theorem addresses_log {u : UniDB} {ins : List TxIn} {outs : List TxOut} {b : Bool} {x : Unit} {l : List Str}
    (h : addresses u ins outs b = ⟨l, .ok x⟩) : l = addressLog u ins outs := by
  unfold addresses at h
  simp only [ok_run_bind, ok_say_bind] at h
  obtain ⟨bs, h1, l1, ⟨cs, h2, l2, h, rfl⟩, rfl⟩ := h
  have : l2 = [] := by
    split at h
    · exact (ok_pure.1 h).2
    · exact (ok_refuseIf.1 h).2
  subst this
  unfold addressLog
  rw [zip_texts h1, zip_texts h2, List.flatMap_map, List.flatMap_map]

/-- The lines of the fee section. -/
def feeLog (E : Msg.Env) (kind : PVal ⊕ PyFloat) (size fee : Int) (rate : PyFloat) (maxFee : PVal) : List Str :=
  [py"Estimated transaction size: " ++ pyStr size ++ py" bytes"] ++
  (match kind with
    | .inl p => [py"Fee type: fee", py"Fee: " ++ str E p ++ py" (satoshi)"]
    | .inr r => [py"Fee type: fee_rate", py"Fee rate: " ++ E.floatRepr r ++ py" (satoshi/byte)"]) ++
  [py"Transaction fee: " ++ pyStr fee ++ py" satoshi"] ++
  (match kind with
    | .inl _ => [py"Estimated fee rate: " ++ fmtFloat 4 rate ++ py" satoshi/byte"]
    | .inr _ => []) ++
  [py"Maximum fee: " ++ str E maxFee ++ py" satoshi"]

theorem fees_log {E : Msg.Env} {u : UniDB} {kind : PVal ⊕ PyFloat} {size fee : Int} {maxFee : PVal} {l : List Str}
    (h : fees E u kind size maxFee = ⟨l, .ok fee⟩) : ∃ rate feeF sizeF,
      PyFloat.ofInt fee = .ok feeF ∧ PyFloat.ofInt size = .ok sizeF ∧ feeF.div sizeF = .ok rate ∧
      l = feeLog E kind size fee rate maxFee := by
  unfold fees at h
  simp only [ok_run_bind, ok_say_bind] at h
  obtain ⟨_, ⟨_, ⟨_, ⟨feeP, hP, fee', hf, l1, ⟨feeF, h1, sizeF, h2, rate, h3, h⟩, rfl⟩, rfl⟩, rfl⟩, rfl⟩ := h
  rw [ok_bind] at h
  obtain ⟨_, l2, l3, h4, h5, rfl⟩ := h
  simp only [ok_run_bind, ok_say_bind, ok_refuseIf_bind, ok_pure] at h5
  obtain ⟨_, ⟨b, hb, _, rfl, rfl⟩, rfl⟩ := h5
  have hfe : feeP = .int fee' := by
    cases feeP <;> simp [satoshiToBitcoinP] at hb
    simp [vInteger, PVal.asInt] at hf
    rw [hf]
  subst hfe
  refine ⟨rate, feeF, sizeF, h1, h2, h3, ?_⟩
  cases kind with
  | inl p =>
    have := ok_say.1 h4
    subst this
    rfl
  | inr r =>
    have := (ok_pure.1 h4).2
    subst this
    rfl

/-- The lines of the selection section. -/
def selectLog (E : Msg.Env) (u : UniDB) (avail out target sel : Int) (n : Nat) (ap : PVal) : List Str :=
  [py"Total available input value: " ++ amt u avail, py"Total output value: " ++ amt u out,
   py"Total available input value is less than or equal to total output value.",
   py"Total output + fee value: " ++ amt u target] ++
  (if avail = target then [py"Total available input value exactly matches total output + fee value.", py"Selected inputs: 0"]
   else [py"Total available input value is greater than total output + fee value.\n- Surplus value: " ++ amt u (avail - target),
     py"Selecting inputs according to input selection approaches " ++ str E ap ++
       py" until [total selected input value] exceeds [total output + fee value].",
     py"Selected inputs: " ++ pyStr n]) ++
  [py"Total selected input value: " ++ amt u sel]

theorem selection_log {E : Msg.Env} {u : UniDB} {ins sel : List TxIn} {outs : List TxOut} {fee : Int} {ap : PVal} {all : Bool}
    {l : List Str} (h : selection E u ins outs fee ap all = ⟨l, .ok sel⟩) :
    l = selectLog E u (inTotal ins) (outTotal outs) (outTotal outs + fee) (inTotal sel) sel.length ap := by
  unfold selection at h
  simp only [inTotal_eq, outTotal_eq] at h
  simp only [ok_run_bind, ok_say_bind] at h
  obtain ⟨b1, h1, b2, h2, _, ⟨_, h, rfl⟩, rfl⟩ := h
  rw [both_of h1, both_of h2]
  by_cases hlt : inTotal ins < outTotal outs
  · simp only [hlt, if_true] at h
    simp only [ok_run_bind, ok_refuse_bind] at h
    obtain ⟨_, _, h⟩ := h
    exact h.elim
  · simp only [hlt, if_false] at h
    simp only [ok_say_bind, ok_run_bind] at h
    obtain ⟨_, ⟨b3, h3, _, h, rfl⟩, rfl⟩ := h
    rw [both_of h3]
    by_cases hlt2 : inTotal ins < outTotal outs + fee
    · simp only [hlt2, if_true] at h
      simp only [ok_run_bind, ok_refuse_bind] at h
      obtain ⟨_, _, h⟩ := h
      exact h.elim
    · simp only [hlt2, if_false] at h
      by_cases he : inTotal ins = outTotal outs + fee
      · simp only [he, if_true] at h
        simp only [ok_run_bind, ok_say_bind, ok_pure_bind, ok_pure] at h
        obtain ⟨_, ⟨_, ⟨b4, h4, _, ⟨rfl, rfl⟩, rfl⟩, rfl⟩, rfl⟩ := h
        rw [both_of h4]
        unfold selectLog
        rw [if_pos he]
        rfl
      · simp only [he, if_false] at h
        simp only [ok_run_bind, ok_say_bind, ok_pure_bind, ok_pure] at h
        obtain ⟨b5, h5, _, ⟨_, ⟨_, ⟨b4, h4, _, ⟨rfl, rfl⟩, rfl⟩, rfl⟩, rfl⟩, rfl⟩ := h
        rw [both_of h4, both_of h5]
        unfold selectLog
        rw [if_neg he]
        rfl

/-- The lines about the output that receives the change. -/
def changeLog (E : Msg.Env) (u : UniDB) (outs : List TxOut) (addr : Str) (idx : PVal) (k : Nat) : List Str :=
  let n := (outs.filter fun o => o.address = addr).length
  if n > 1 then [pyStr n ++ py" outputs send to the same address. Out of this group, output " ++ str E idx ++
      py" has been selected to receive change.\n- Old change amount: " ++ amt u (oldAmount addr k outs)]
  else if n = 1 then [py"Change address found within outputs.\n- Old change amount: " ++ amt u (oldAmount addr 0 outs)]
  else [py"New output created to send change to change address.", py"New number of outputs: " ++ pyStr (outs.length + 1)]

theorem change_log {E : Msg.Env} {X : Ext} {outs : List TxOut} {addr : Str} {idx : PVal} {s : Int} {r : List TxOut × TxOut}
    {l : List Str} (h : change E X outs addr idx s = ⟨l, .ok r⟩) : ∃ k,
      ((outs.filter fun o => o.address = addr).length > 1 → chooseChange idx (outs.filter fun o => o.address = addr).length = .ok k) ∧
      l = changeLog E X.uni outs addr idx k := by
  unfold change at h
  unfold changeLog
  generalize (outs.filter fun o => o.address = addr).length = n at *
  simp only at h ⊢
  split at h
  · rename_i hn
    rw [ok_bind] at h
    obtain ⟨k, l1, l2, h1, h2, rfl⟩ := h
    simp only [ok_run_bind, ok_say_bind, ok_pure] at h2
    obtain ⟨_, _, _, ⟨_, rfl⟩, rfl⟩ := h2
    have hc : chooseChange idx n = .ok k ∧ l1 = [] := by
      unfold choosing at h1
      split at h1
      · rename_i hk
        obtain ⟨rfl, rfl⟩ := ok_pure.1 h1
        exact ⟨hk, rfl⟩
      · exact (ok_refuse.1 h1).elim
      · have := (ok_run.1 h1).1
        simp at this
    obtain ⟨hc, rfl⟩ := hc
    refine ⟨k, fun _ => hc, ?_⟩
    rw [if_pos hn]
    rfl
  · rename_i hn
    split at h
    · rename_i hn1
      simp only [ok_run_bind, ok_say_bind, ok_pure] at h
      obtain ⟨_, _, _, ⟨_, rfl⟩, rfl⟩ := h
      refine ⟨0, fun hh => absurd hh hn, ?_⟩
      rw [if_neg hn, if_pos hn1]
      rfl
    · rename_i hn1
      simp only [ok_run_bind, ok_say_bind, ok_pure] at h
      obtain ⟨_, _, _, ⟨_, ⟨_, rfl⟩, rfl⟩, rfl⟩ := h
      refine ⟨0, fun hh => absurd hh hn, ?_⟩
      rw [if_neg hn, if_neg hn1]

/-- The lines of the change section. -/
def surplusLog (E : Msg.Env) (u : UniDB) (sel : Int) (outs outs' : List TxOut) (fee : Int) (addr : Str) (idx : PVal) (k : Nat) (ch : Int) :
    List Str :=
  (if sel = outTotal outs + fee then [py"Total selected input value exactly matches total output + fee value."]
   else [py"Total selected input value is greater than total output + fee value.\n- Surplus value: " ++
       amt u (sel - (outTotal outs + fee)) ++ py"\n- This extra value will be sent to the change address.\n- Change address: " ++ addr] ++
     changeLog E u outs addr idx k ++
     [py"New total output value: " ++ amt u (outTotal outs'), py"New total output + fee value: " ++ amt u (outTotal outs' + fee)]) ++
  [py"Change amount: " ++ amt u ch]

theorem changeSection_log {E : Msg.Env} {X : Ext} {sel : List TxIn} {outs : List TxOut} {fee : Int} {addr : Str} {idx : PVal}
    {r : List TxOut × Int} {l : List Str} (h : changeSection E X sel outs fee addr idx = ⟨l, .ok r⟩) : ∃ k,
      (inTotal sel ≠ outTotal outs + fee → (outs.filter fun o => o.address = addr).length > 1 →
        chooseChange idx (outs.filter fun o => o.address = addr).length = .ok k) ∧
      l = surplusLog E X.uni (inTotal sel) outs r.1 fee addr idx k r.2 := by
  unfold changeSection at h
  simp only [ok_run_bind] at h
  obtain ⟨_, _, h⟩ := h
  rw [ok_bind] at h
  obtain ⟨r', l1, l2, h1, h2, rfl⟩ := h
  simp only [ok_refuseIf_bind, ok_run_bind, ok_say_bind, ok_pure] at h2
  obtain ⟨_, b, hb, _, ⟨rfl, rfl⟩, rfl⟩ := h2
  rw [both_of hb]
  unfold surplus at h1
  simp only [outTotal_eq] at h1
  rw [inTotal_eq] at h1
  unfold surplusLog
  by_cases he : inTotal sel = outTotal outs + fee
  · simp only [he, if_true] at h1
    simp only [ok_say_bind, ok_pure] at h1
    obtain ⟨_, ⟨rfl, rfl⟩, rfl⟩ := h1
    refine ⟨0, fun hh => absurd he hh, ?_⟩
    rw [if_pos he]
  · simp only [he, if_false] at h1
    simp only [ok_run_bind, ok_say_bind] at h1
    obtain ⟨b1, h1', l3, h1, rfl⟩ := h1
    rw [ok_bind] at h1
    obtain ⟨r2, l4, l5, h3, h4, rfl⟩ := h1
    simp only [ok_run_bind, ok_say_bind, ok_pure] at h4
    obtain ⟨b5, h5, _, ⟨b6, h6, _, ⟨rfl, rfl⟩, rfl⟩, rfl⟩ := h4
    obtain ⟨k, hk, rfl⟩ := change_log h3
    refine ⟨k, fun _ => hk, ?_⟩
    rw [if_neg he, both_of h1', both_of h5, both_of h6]
    simp

/-- The lines of the spending limit. -/
def spendLog (u : UniDB) (pct : PyFloat) (ms spend : Int) (percentage percentage2 : PyFloat) : List Str :=
  [py"Maximum percentage of input value (prior to fee subtraction) that can be spent: " ++ fmtFloat 2 pct ++
    py"%\n- Note: \"spend\" == send bitcoin to any address that is not the change address.",
   py"Maximum spend amount: " ++ amt u ms, py"Spend amount: " ++ amt u spend,
   py"The spend amount is " ++ fmtFloat 2 percentage ++ py"% of the available input value.",
   py"The spend amount is " ++ fmtFloat 2 percentage2 ++ py"% of the maximum permitted spend amount."]

theorem spending_log {u : UniDB} {pct : PyFloat} {ti ts ch : Int} {x : Unit} {l : List Str}
    (h : spending u pct ti ts ch = ⟨l, .ok x⟩) : ∃ ms sF tF mF r1 r2,
      maxSpend pct ti = .ok ms ∧ PyFloat.ofInt (ts - ch) = .ok sF ∧ PyFloat.ofInt ti = .ok tF ∧ PyFloat.ofInt ms = .ok mF ∧
      sF.div tF = .ok r1 ∧ sF.div mF = .ok r2 ∧ Money ms ∧ Money (ts - ch) ∧ ts - ch ≤ ms ∧
      l = spendLog u pct ms (ts - ch) (r1.mul (.fin 100)) (r2.mul (.fin 100)) := by
  unfold spending at h
  simp only [ok_run_bind, ok_say_bind] at h
  obtain ⟨_, ⟨ms, hms, b1, h1, _, ⟨b2, h2, _, ⟨sF, h3, tF, h4, r1, h5, _, h, rfl⟩, rfl⟩, rfl⟩, rfl⟩ := h
  split at h
  · rename_i hle
    simp only [ok_run_bind, ok_say] at h
    obtain ⟨mF, h6, r2, h7, rfl⟩ := h
    refine ⟨ms, sF, tF, mF, r1, r2, hms, h3, h4, h6, h5, h7, s2b_ok.1 ⟨_, h1⟩, s2b_ok.1 ⟨_, h2⟩, hle, ?_⟩
    rw [both_of h1, both_of h2]
    rfl
  · exact (ok_refuse.1 h).elim

/-! ## The whole run -/

theorem erase_ok {m : L α} {l : List Str} {a : α} (h : m = ⟨l, .ok a⟩) : erase m = .ok a := by
  rw [h]; rfl

/-- The lines of a successful second half. -/
structure BuildLog (E : Msg.Env) (X : Ext) (p : Plan) (t : Tx) (log : List Str) (x : PVal) (ins : List TxIn) (fee ch : Int) (k : Nat)
    (rate : PyFloat) (ms : Int) (r1 r2 : PyFloat) : Prop where
  first : firstApproach p.approaches = .ok x
  sorted : sortInputs x p.ins = .ok ins
  size : estimateTransactionSize ins.length p.outs.length = .ok (estSize p.ins.length p.outs.length)
  fee_ok : finalFee X.uni p.kind (estSize p.ins.length p.outs.length) p.maxFee = .ok fee
  rate_ok : ∃ f s, PyFloat.ofInt fee = .ok f ∧ PyFloat.ofInt (estSize p.ins.length p.outs.length) = .ok s ∧ f.div s = .ok rate
  sel : selectInputs X.uni ins p.outs fee (x.eqStr py"all") = .ok t.inputs
  chg : handleChange X t.inputs p.outs fee p.changeAddress p.changeIdx = .ok (t.outputs, ch)
  chosen : inTotal t.inputs ≠ outTotal p.outs + fee → (p.outs.filter fun o => o.address = p.changeAddress).length > 1 →
    chooseChange p.changeIdx (p.outs.filter fun o => o.address = p.changeAddress).length = .ok k
  lim : maxSpend p.pct (inTotal ins) = .ok ms
  pct_ok : ∃ s t' m, PyFloat.ofInt (inTotal t.inputs - ch) = .ok s ∧ PyFloat.ofInt (inTotal ins) = .ok t' ∧
    PyFloat.ofInt ms = .ok m ∧ s.div t' = .ok r1 ∧ s.div m = .ok r2
  money : Money ms ∧ Money (inTotal t.inputs - ch) ∧ inTotal t.inputs - ch ≤ ms
  log_eq : log =
    [pyStr ins.length ++ py" inputs sorted according to the input selection approach: " ++ str E p.approaches,
     py"Report inputs (now sorted) and outputs."] ++
    numbered sortedInput 0 ins ++ numbered sortedOutput 0 p.outs ++ addressLog X.uni ins p.outs ++
    feeLog E p.kind (estSize p.ins.length p.outs.length) fee rate p.maxFee ++
    selectLog E X.uni (inTotal ins) (outTotal p.outs) (outTotal p.outs + fee) (inTotal t.inputs) t.inputs.length p.approaches ++
    surplusLog E X.uni (inTotal t.inputs) p.outs t.outputs fee p.changeAddress p.changeIdx k ch ++
    spendLog X.uni p.pct ms (inTotal t.inputs - ch) (r1.mul (.fin 100)) (r2.mul (.fin 100)) ++
    [py"Transaction created."]

theorem build_log {E : Msg.Env} {X : Ext} {p : Plan} {t : Tx} {log : List Str} (h : build E X p = ⟨log, .ok t⟩) :
    ∃ x ins fee ch k rate ms r1 r2, BuildLog E X p t log x ins fee ch k rate ms r1 r2 := by
  unfold build at h
  rw [ok_bind] at h
  obtain ⟨⟨x, ins⟩, l1, l2, h1, h, rfl⟩ := h
  obtain ⟨a1, a2, rfl⟩ := sorting_log h1
  simp only [ok_say_bind, ok_each_bind] at h
  obtain ⟨_, ⟨_, ⟨_, h, rfl⟩, rfl⟩, rfl⟩ := h
  rw [ok_bind] at h
  obtain ⟨_, l3, l4, h3, h, rfl⟩ := h
  rw [addresses_log h3]
  rw [ok_run_bind] at h
  obtain ⟨size, hsize, h⟩ := h
  rw [ok_bind] at h
  obtain ⟨fee, l5, l6, h5, h, rfl⟩ := h
  obtain ⟨rate, f, s, b1, b2, b3, rfl⟩ := fees_log h5
  have hf := erase_ok h5
  rw [erase_fees] at hf
  rw [ok_bind] at h
  obtain ⟨sel, l7, l8, h7, h, rfl⟩ := h
  rw [selection_log h7]
  have hsel := erase_ok h7
  rw [erase_selection] at hsel
  rw [ok_bind] at h
  obtain ⟨⟨outs', ch⟩, l9, l10, h9, h, rfl⟩ := h
  obtain ⟨k, hk, rfl⟩ := changeSection_log h9
  have hch := erase_ok h9
  rw [erase_changeSection] at hch
  rw [ok_bind] at h
  obtain ⟨_, l11, l12, h11, h, rfl⟩ := h
  obtain ⟨ms, sF, tF, mF, r1, r2, c1, c2, c3, c4, c5, c6, c7, c8, c9, rfl⟩ := spending_log h11
  simp only [ok_run_bind, ok_say_bind, ok_pure] at h
  obtain ⟨t0, ht, _, ⟨rfl, rfl⟩, rfl⟩ := h
  obtain ⟨_, _, rfl⟩ := Tx_create_ok.1 ht
  have hlen : ins.length = p.ins.length := by
    rcases sortInputs_ok.1 a2 with ⟨m, _, _, rfl⟩
    exact (arranged_perm m p.ins).length_eq
  obtain ⟨_, _, hz⟩ := estimate_ok.1 hsize
  have e : size = estSize p.ins.length p.outs.length := by
    rw [hz, hlen]; rfl
  clear hz
  subst e
  refine ⟨x, ins, fee, ch, k, rate, ms, r1, r2, a1, a2, hsize, hf, ⟨f, s, b1, b2, b3⟩, hsel, hch, hk, c1, ⟨sF, tF, mF, c2, c3, c4, c5, c6⟩, ⟨c7, c8, c9⟩, ?_⟩
  simp only [List.append_assoc, List.cons_append, List.nil_append]
  rfl

theorem create_log {E : Msg.Env} {X : Ext} {a a' : Args} {t : Tx} {log : List Str} (h : create E X a = ⟨log, .ok (t, a')⟩) :
    ∃ p l1 l2, BT.prepare X a = .ok p ∧ prepare E X a = ⟨l1, .ok p⟩ ∧ build E X p = ⟨l2, .ok t⟩ ∧ a' = p.after ∧ log = l1 ++ l2 := by
  unfold create at h
  rw [ok_bind] at h
  obtain ⟨p, l1, l2, h1, h, rfl⟩ := h
  rw [ok_bind] at h
  obtain ⟨t', l3, l4, h3, h, rfl⟩ := h
  obtain ⟨h4, rfl⟩ := ok_pure.1 h
  simp only [Prod.mk.injEq] at h4
  obtain ⟨rfl, rfl⟩ := h4
  have := erase_ok h1
  rw [erase_prepare] at this
  exact ⟨p, l1, l3, this, h1, h3, rfl, by simp⟩

end BT.Report
