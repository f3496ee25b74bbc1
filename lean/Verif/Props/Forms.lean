import Verif.Forms
import Verif.Props.Json

/-! # C88, C89, C90: JSON forms, `str()`, and what a reloaded file still reports -/

namespace BT
open Spec

namespace Spec

mutual
/-- The values of a JSON document that are neither lists nor dicts, in document order. -/
def leaves : PVal → List PVal
  | .list l => leavesL l
  | .dict d => leavesD d
  | x => [x]
def leavesL : List PVal → List PVal
  | [] => []
  | x :: xs => leaves x ++ leavesL xs
def leavesD : List (Str × PVal) → List PVal
  | [] => []
  | (_, v) :: r => leaves v ++ leavesD r
end

end Spec

/-! ## C88 -/

theorem leavesL_append (a b : List PVal) : leavesL (a ++ b) = leavesL a ++ leavesL b := by
  induction a with
  | nil => rfl
  | cons x a ih => simp [leavesL, ih]

/-- The concatenation of the texts in a list of leaves, `none` if one is not a text. -/
theorem concat_ofOptStr {l : List (Option Str)} {h : Str} : concatFields l = .ok h ↔
    ∃ parts : List Str, l.map PVal.ofOptStr = parts.map PVal.str ∧ h = parts.flatten := by
  induction l generalizing h with
  | nil =>
    simp only [concatFields, Except.ok.injEq, List.map_nil]
    constructor
    · rintro rfl; exact ⟨[], rfl, rfl⟩
    · rintro ⟨parts, h1, rfl⟩
      cases parts with
      | nil => rfl
      | cons => simp at h1
  | cons o l ih =>
    cases o with
    | none =>
      simp only [concatFields, reduceCtorEq, false_iff]
      rintro ⟨parts, h1, -⟩
      cases parts with
      | nil => simp at h1
      | cons => simp [PVal.ofOptStr] at h1
    | some s =>
      simp only [concatFields, R_bind_eq_ok, R_pure, Except.ok.injEq]
      constructor
      · rintro ⟨x, hx, rfl⟩
        obtain ⟨parts, h1, rfl⟩ := ih.1 hx
        exact ⟨s :: parts, by simp [PVal.ofOptStr, h1], by simp⟩
      · rintro ⟨parts, h1, rfl⟩
        cases parts with
        | nil => simp at h1
        | cons p parts =>
          simp only [List.map_cons, PVal.ofOptStr, List.cons.injEq, PVal.str.injEq] at h1
          obtain ⟨rfl, h1⟩ := h1
          exact ⟨_, ih.2 ⟨parts, h1, rfl⟩, by simp⟩

theorem leaves_ofOptStr (o : Option Str) : leaves (PVal.ofOptStr o) = [PVal.ofOptStr o] := by
  cases o <;> rfl

theorem ofOptStr_some (s : Str) : PVal.ofOptStr (some s) = .str s := rfl

theorem leaves_inputs (idx : Nat) (l : List TxIn) : ∀ i, leavesL (signableInputDicts idx i l) = (signableInputs idx i l).map PVal.ofOptStr := by
  induction l with
  | nil => intro i; rfl
  | cons x l ih =>
    intro i
    rw [signableInputDicts, signableInputs]
    simp only [Nat.cast_inj]
    by_cases h : i = idx
    · simp [h, leavesL, ih, TxIn.signableDict, TxIn.signableForm, leaves, leavesD, leaves_ofOptStr, ofOptStr_some]
    · simp [h, leavesL, ih, TxIn.signableDictEmpty, TxIn.signableFormEmpty, leaves, leavesD, ofOptStr_some]

theorem leaves_outputs (l : List TxOut) : leavesL (l.map TxOut.signableDict) = (l.flatMap TxOut.signableForm).map PVal.ofOptStr := by
  induction l with
  | nil => rfl
  | cons o l ih => simp [leavesL, ih, TxOut.signableDict, TxOut.signableForm, leaves, leavesD, ofOptStr_some]

theorem leaves_signed_inputs (l : List TxIn) : leavesL (l.map TxIn.signedDict) = (l.flatMap TxIn.signedForm).map PVal.ofOptStr := by
  induction l with
  | nil => rfl
  | cons o l ih => simp [leavesL, ih, TxIn.signedDict, TxIn.signedForm, leaves, leavesD, ofOptStr_some, leaves_ofOptStr]

theorem leaves_signable (t : Tx) (idx : Nat) : leaves (.dict (t.signableDict idx)) = (t.signableForm idx).map PVal.ofOptStr := by
  simp [Tx.signableDict, Tx.signableForm, leaves, leavesD, leaves_inputs, leaves_outputs, ofOptStr_some]

theorem leaves_signed (t : Tx) : leaves (.dict t.signedDict) = t.signedForm.map PVal.ofOptStr := by
  simp [Tx.signedDict, Tx.signedForm, leaves, leavesD, leaves_signed_inputs, leaves_outputs, ofOptStr_some, show TxOut.signedForm = TxOut.signableForm from rfl]

theorem addItems_eq (d : List (Str × PVal)) (l : List (Option Str)) (h : d.map Prod.snd = l.map PVal.ofOptStr) :
    addItems d = concatFields l := by
  induction d generalizing l with
  | nil => cases l with
    | nil => rfl
    | cons => simp at h
  | cons p d ih =>
    obtain ⟨k, v⟩ := p
    cases l with
    | nil => simp at h
    | cons o l =>
      simp only [List.map_cons, List.cons.injEq] at h
      obtain ⟨rfl, h⟩ := h
      cases o with
      | none => rfl
      | some s =>
        simp only [addItems, concatFields, PVal.ofOptStr, addStr, R_bind_ok, ih l h]

theorem addDicts_append (a b : List PVal) : addDicts (a ++ b) = (do let x ← addDicts a; let y ← addDicts b; pure (x ++ y)) := by
  induction a with
  | nil => simp only [List.nil_append, addDicts, R_bind_ok]; cases addDicts b <;> simp
  | cons x a ih =>
    simp only [List.cons_append, addDicts, ih]
    cases x.asDict with
    | error => rfl
    | ok d =>
      simp only [R_bind_ok]
      cases addItems d with
      | error => rfl
      | ok s => simp only [R_bind_ok]; cases addDicts a <;> simp

theorem addDicts_inputs (idx : Nat) (l : List TxIn) : ∀ i, addDicts (signableInputDicts idx i l) = concatFields (signableInputs idx i l) := by
  induction l with
  | nil => intro i; rfl
  | cons x l ih =>
    intro i
    rw [signableInputDicts, signableInputs, concatFields_append, addDicts, ih]
    simp only [Nat.cast_inj]
    by_cases h : i = idx
    · rw [if_pos h, if_pos h]
      simp only [TxIn.signableDict, PVal.asDict, R_bind_ok]
      rw [addItems_eq _ x.signableForm rfl]
    · rw [if_neg h, if_neg h]
      simp only [TxIn.signableDictEmpty, PVal.asDict, R_bind_ok]
      rw [addItems_eq _ x.signableFormEmpty rfl]

theorem addDicts_outputs (l : List TxOut) : addDicts (l.map TxOut.signableDict) = concatFields (l.flatMap TxOut.signableForm) := by
  induction l with
  | nil => rfl
  | cons o l ih =>
    rw [List.flatMap_cons, concatFields_append, List.map_cons, addDicts, ih]
    simp only [TxOut.signableDict, PVal.asDict, R_bind_ok]
    rw [addItems_eq _ o.signableForm rfl]

theorem addDicts_signed (l : List TxIn) : addDicts (l.map TxIn.signedDict) = concatFields (l.flatMap TxIn.signedForm) := by
  induction l with
  | nil => rfl
  | cons o l ih =>
    rw [List.flatMap_cons, concatFields_append, List.map_cons, addDicts, ih]
    simp only [TxIn.signedDict, PVal.asDict, R_bind_ok]
    rw [addItems_eq _ o.signedForm rfl]

/-- The loop of `to_hex_signable_form` over the dict is the concatenation that `Tx.toHexSignable`
uses. -/
theorem hexOfDict_signable (t : Tx) (idx : Nat) : hexOfDict (t.signableDict idx) = t.toHexSignable idx := by
  simp only [Tx.signableDict, hexOfDict, Tx.toHexSignable, Tx.signableForm, addList, addDicts_inputs, addDicts_outputs]
  simp [addStr, concatFields, concatFields_append]

theorem hexOfDict_signed (t : Tx) : hexOfDict t.signedDict = t.toHexSigned := by
  simp only [Tx.signedDict, hexOfDict, Tx.toHexSigned, Tx.signedForm, addList, addDicts_signed, addDicts_outputs]
  simp [addStr, concatFields, concatFields_append, show TxOut.signedForm = TxOut.signableForm from rfl]

theorem safe_inputs (idx : Int) (l : List TxIn) : ∀ i, PVal.jsonSafeL (signableInputDicts idx i l) = true := by
  induction l with
  | nil => intro i; rfl
  | cons x l ih =>
    intro i
    rw [signableInputDicts, PVal.jsonSafeL, ih]
    by_cases h : (i : Int) = idx
    · simp [h, TxIn.signableDict, PVal.jsonSafe, PVal.jsonSafeD, jsonSafe_ofOptStr]
    · simp [h, TxIn.signableDictEmpty, PVal.jsonSafe, PVal.jsonSafeD]

theorem safe_outputs (l : List TxOut) : PVal.jsonSafeL (l.map TxOut.signableDict) = true :=
  jsonSafeL_of fun x hx => by
    obtain ⟨o, _, rfl⟩ := List.mem_map.1 hx
    simp [TxOut.signableDict, PVal.jsonSafe, PVal.jsonSafeD]

theorem safe_signed (l : List TxIn) : PVal.jsonSafeL (l.map TxIn.signedDict) = true :=
  jsonSafeL_of fun x hx => by
    obtain ⟨o, _, rfl⟩ := List.mem_map.1 hx
    simp [TxIn.signedDict, PVal.jsonSafe, PVal.jsonSafeD, jsonSafe_ofOptStr]

theorem loads_signable (X : Ext) (t : Tx) (idx : Int) :
    X.jsonLoads (t.toJsonSignable X idx) = .ok (.dict (t.signableDict idx)) := by
  refine X.json_round _ ?_
  simp [Tx.signableDict, PVal.jsonSafe, PVal.jsonSafeD, safe_inputs, safe_outputs]

/-- **C88** For every transaction and input index: the text of `to_json_signable_form` is JSON
with the documented keys in order, and the hex form is the concatenation of the texts in it (the
hex form raises exactly if one of them is missing). -/
theorem C88_signable_json (X : Ext) (t : Tx) (i : Nat) :
    ∃ d, X.jsonLoads (t.toJsonSignable X i) = .ok (.dict d) ∧
      dictKeys d = [py"version", py"input_count", py"inputs", py"output_count", py"outputs",
        py"block_lock_time", py"hash_type_4_byte"] ∧
      (∀ h, t.toHexSignable i = .ok h ↔
        ∃ texts : List Str, leaves (.dict d) = texts.map PVal.str ∧ h = texts.flatten) ∧
      hexOfDict d = t.toHexSignable i :=
  ⟨_, loads_signable X t i, rfl, fun _ => by rw [leaves_signable]; exact concat_ofOptStr, hexOfDict_signable t i⟩

/-- **C88** The same for the signed form: from the JSON text one gets the transaction that would
be broadcast. -/
theorem C88_signed_json (X : Ext) (t : Tx) :
    ∃ d, X.jsonLoads (t.toJsonSigned X) = .ok (.dict d) ∧
      dictKeys d = [py"version", py"input_count", py"inputs", py"output_count", py"outputs", py"block_lock_time"] ∧
      (∀ h, t.toHexSigned = .ok h ↔
        ∃ texts : List Str, leaves (.dict d) = texts.map PVal.str ∧ h = texts.flatten) ∧
      hexOfDict d = t.toHexSigned := by
  refine ⟨_, X.json_round (.dict t.signedDict) ?_, rfl, fun _ => by rw [leaves_signed]; exact concat_ofOptStr, hexOfDict_signed t⟩
  simp [Tx.signedDict, PVal.jsonSafe, PVal.jsonSafeD, safe_signed, safe_outputs]

theorem signableInputDicts_get (idx : Int) (l : List TxIn) : ∀ (i j : Nat), (signableInputDicts idx i l)[j]? =
    (l[j]?).map fun x => if ((i + j : Nat) : Int) = idx then x.signableDict else x.signableDictEmpty := by
  induction l with
  | nil => intro i j; simp [signableInputDicts]
  | cons x l ih =>
    intro i j
    cases j with
    | zero => simp [signableInputDicts]
    | succ j =>
      rw [signableInputDicts, List.getElem?_cons_succ, ih, List.getElem?_cons_succ]
      rw [show i + 1 + j = i + (j + 1) by omega]

/-- **C88** Exactly one input, the one asked for, shows its script; an index outside the list
(also a negative one) shows none.  Every entry names the output it spends. -/
theorem C88_signable_inputs (X : Ext) (t : Tx) (i : Int) :
    ∃ d ins, X.jsonLoads (t.toJsonSignable X i) = .ok (.dict d) ∧ dictFind d py"inputs" = some (.list ins) ∧
      ins.length = t.inputs.length ∧
      ∀ (j : Nat) (x : TxIn), t.inputs[j]? = some x → ∃ e, ins[j]? = some (.dict e) ∧
        dictFind e py"previous_output_hash" = some (.str x.prevHash) ∧
        dictFind e py"previous_output_index" = some (.str x.prevIndex) ∧
        (dictHas e py"script_pub_key" = true ↔ (j : Int) = i) ∧
        ((j : Int) = i → dictFind e py"script_pub_key" = some (.ofOptStr x.spk)) := by
  refine ⟨_, _, loads_signable X t i, rfl, ?_, ?_⟩
  · generalize (0 : Nat) = k
    induction t.inputs generalizing k with
    | nil => rfl
    | cons x l ih => simp [signableInputDicts, ih]
  · intro j x hx
    rw [signableInputDicts_get, hx, Option.map_some, Nat.zero_add]
    by_cases h : (j : Int) = i
    · rw [if_pos h]
      refine ⟨_, rfl, rfl, rfl, ?_, fun _ => rfl⟩
      simp only [h, iff_true]
      rfl
    · rw [if_neg h]
      refine ⟨_, rfl, rfl, rfl, ?_, fun h' => absurd h' h⟩
      simp [h, dictHas, dictFind]

/-! ## C89 -/

theorem append_sep {c : Char} {a b r r' : Str} (ha : c ∉ a) (hb : c ∉ b) (h : a ++ c :: r = b ++ c :: r') :
    a = b ∧ r = r' := by
  induction a generalizing b with
  | nil =>
    cases b with
    | nil => simpa using h
    | cons x b =>
      simp only [List.nil_append, List.cons_append, List.cons.injEq] at h
      exact absurd (by simp [h.1]) hb
  | cons x a ih =>
    cases b with
    | nil =>
      simp only [List.nil_append, List.cons_append, List.cons.injEq] at h
      exact absurd (by simp [h.1]) ha
    | cons y b =>
      simp only [List.cons_append, List.cons.injEq] at h
      obtain ⟨h1, h2⟩ := ih (fun m => ha (by simp [m])) (fun m => hb (by simp [m])) h.2
      exact ⟨by rw [h.1, h1], h2⟩

instance (c : Char) : Decidable (IsDig c) := inferInstanceAs (Decidable (∃ d < 10, c = digitChar d))

theorem natDigits_inj {m n : Nat} (h : natDigits 10 m = natDigits 10 n) : m = n := by
  rw [← natDigits_numeral Concrete.uniSample m, h, natDigits_numeral]

theorem pyStr_inj {m n : Int} (h : pyStr m = pyStr n) : m = n := by
  have hd : ∀ k x, natDigits 10 k ≠ '-' :: x := fun k x e => by
    have := natDigits_dig k '-' (by rw [e]; simp)
    revert this; decide
  unfold pyStr at h
  by_cases hm : m < 0 <;> by_cases hn : n < 0
  · rw [if_pos hm, if_pos hn, List.cons.injEq] at h
    have := natDigits_inj h.2
    omega
  · rw [if_pos hm, if_neg hn] at h
    exact absurd h.symm (hd _ _)
  · rw [if_neg hm, if_pos hn] at h
    exact absurd h (hd _ _)
  · rw [if_neg hm, if_neg hn] at h
    have := natDigits_inj h
    omega

theorem pyStr_chars {n : Int} {c : Char} (h : c ∈ pyStr n) : c = '-' ∨ IsDig c := by
  unfold pyStr at h
  split at h
  · rcases List.mem_cons.1 h with h | h
    · exact .inl h
    · exact .inr (natDigits_dig _ c h)
  · exact .inr (natDigits_dig _ c h)

theorem pyStr_not {n : Int} {c : Char} (h1 : c ≠ '-') (h2 : ¬ IsDig c) : c ∉ pyStr n :=
  fun h => (pyStr_chars h).elim h1 h2

theorem signedWord_inj {a b : Bool} {r r' : Str} (h : signedWord a ++ ':' :: r = signedWord b ++ ':' :: r') : a = b ∧ r = r' := by
  obtain ⟨h1, h2⟩ := append_sep (by cases a <;> decide) (by cases b <;> decide) h
  refine ⟨?_, h2⟩
  cases a <;> cases b <;> first | rfl | (exfalso; revert h1; decide)

theorem Tx_str_eq (t : Tx) : t.str = py"Transaction" ++ (signedWord t.signed ++ ':' :: ' ' :: (pyStr t.inputs.length ++ ' ' ::
    (py"input" ++ (plural t.inputs.length ++ ',' :: ' ' :: (pyStr t.outputs.length ++ ' ' :: (py"output" ++ plural t.outputs.length)))))) := by
  simp [Tx.str]

theorem Tx_signed_iff (t : Tx) : t.signed = true ↔ ∀ i ∈ t.inputs, i.scriptLen.isSome = true ∧ i.scriptSig.isSome = true := by
  simp [Tx.signed, TxIn.signed]

/-- **C89** `str(tx)` tells whether the transaction is signed (every input has a scriptSig), and
how many inputs and outputs it has: two transactions print alike exactly if they agree on these. -/
theorem C89_transaction (t t' : Tx) : t.str = t'.str ↔
    (t.signed = t'.signed ∧ t.inputs.length = t'.inputs.length ∧ t.outputs.length = t'.outputs.length) := by
  constructor
  · intro h
    rw [Tx_str_eq, Tx_str_eq] at h
    obtain ⟨h1, h⟩ := signedWord_inj (List.append_cancel_left h)
    rw [List.cons.injEq] at h
    obtain ⟨h2, h⟩ := append_sep (pyStr_not (by decide) (by decide)) (pyStr_not (by decide) (by decide)) h.2
    have h2 := pyStr_inj h2
    have e : t.inputs.length = t'.inputs.length := by exact_mod_cast h2
    rw [e] at h
    have h := List.append_cancel_left (List.append_cancel_left h)
    simp only [List.cons.injEq, true_and] at h
    obtain ⟨h3, -⟩ := append_sep (pyStr_not (by decide) (by decide)) (pyStr_not (by decide) (by decide)) h
    have h3 := pyStr_inj h3
    exact ⟨h1, e, by exact_mod_cast h3⟩
  · rintro ⟨h1, h2, h3⟩
    simp only [Tx.str, h1, h2, h3]

/-- **C89** The word "signed" is printed exactly if every input carries a scriptSig with its
length. -/
theorem C89_signed_word (t : Tx) :
    (py"Transaction (signed): " <+: t.str ↔ ∀ i ∈ t.inputs, i.scriptLen.isSome = true ∧ i.scriptSig.isSome = true) ∧
    (py"Transaction (unsigned): " <+: t.str ↔ ∃ i ∈ t.inputs, i.scriptLen = none ∨ i.scriptSig = none) := by
  have e : (∃ i ∈ t.inputs, i.scriptLen = none ∨ i.scriptSig = none) ↔ t.signed = false := by
    rw [← Bool.not_eq_true, Tx_signed_iff]
    push Not
    refine exists_congr fun i => and_congr_right fun _ => ?_
    cases i.scriptLen <;> simp
  rw [← Tx_signed_iff, e, Tx_str_eq]
  cases t.signed <;> simp [signedWord, List.cons_prefix_cons]

/-- `n` things, for a reader: the number and the word, with an "s" from two on. -/
def Spec.counted (n : Nat) (word : Str) : Str := pyStr n ++ ' ' :: (word ++ (if n = 0 ∨ n = 1 then [] else ['s']))

/-- **C89** The whole text of `str(tx)`. -/
theorem C89_text (t : Tx) : t.str = py"Transaction " ++
    (if ∀ i ∈ t.inputs, i.scriptLen.isSome = true ∧ i.scriptSig.isSome = true then py"(signed): " else py"(unsigned): ") ++
    counted t.inputs.length py"input" ++ py", " ++ counted t.outputs.length py"output" := by
  have hp : ∀ n : Nat, plural n = if n = 0 ∨ n = 1 then [] else ['s'] := by
    intro n
    unfold plural
    by_cases h : n > 1
    · rw [if_pos h, if_neg (by omega)]
    · rw [if_neg h, if_pos (by omega)]
  have hsg := Tx_signed_iff t
  rw [Tx_str_eq, hp, hp]
  by_cases h : t.signed = true
  · rw [if_pos (hsg.1 h), h]
    simp [signedWord, counted]
  · rw [if_neg (fun h' => h (hsg.2 h')), Bool.not_eq_true] at *
    rw [h]
    simp [signedWord, counted]

/-- C89: one and none. -/
example : counted 1 py"input" = py"1 input" ∧ counted 2 py"input" = py"2 inputs" ∧ counted 0 py"output" = py"0 output" := by decide +kernel

theorem fmtOptInt_inj {a b : Option Int} (h : fmtOptInt a = fmtOptInt b) : a = b := by
  have hd : ∀ n : Int, fmtOptInt (some n) ≠ fmtOptInt none := fun n e => by
    have : 'N' ∈ pyStr n := by
      show 'N' ∈ fmtOptInt (some n)
      rw [e]; decide
    exact pyStr_not (by decide) (by decide) this
  cases a <;> cases b
  · rfl
  · exact absurd h.symm (hd _)
  · exact absurd h (hd _)
  · rw [pyStr_inj h]

theorem address_no_comma (X : Ext) (hs : ∀ b, (X.sha256 b).length = 32) {a : Str} (h : vBitcoinAddress X a = .ok ()) : ',' ∉ a := by
  intro hc
  obtain ⟨x, hx⟩ := (vBitcoinAddress_ok X).1 h
  obtain ⟨b, hb, rfl, hd⟩ := (addressToHash_ok X hs).1 hx
  have := C09_bad_character X a ⟨',', hc, by decide⟩
  rw [this] at hd
  simp at hd

theorem TxIn_str_eq (i : TxIn) : i.str = py"TransactionInput" ++ (signedWord i.signed ++ ':' :: (py" address=" ++ (i.address ++ ',' ::
    (py" txid=" ++ ((i.txid.take 4 ++ (py"..." ++ lastK 4 i.txid)) ++ (py", index=" ++ (pyStr i.prevIndexInt ++ ',' ::
    (py" satoshi_amount=" ++ fmtOptInt i.satoshi)))))))) := by
  simp [TxIn.str]

/-- **C89** `str(input)` shows the signing state, the address, both ends of the txid, the index
and the amount: two inputs with accepted addresses and 32-byte txids print alike exactly if they
agree on all of these. -/
theorem C89_input (X : Ext) (hs : ∀ b, (X.sha256 b).length = 32) (i j : TxIn)
    (ai : vBitcoinAddress X i.address = .ok ()) (aj : vBitcoinAddress X j.address = .ok ())
    (ti : i.txid.length = 64) (tj : j.txid.length = 64) : i.str = j.str ↔
    (i.signed = j.signed ∧ i.address = j.address ∧ i.txid.take 4 = j.txid.take 4 ∧ i.txid.drop 60 = j.txid.drop 60 ∧
      i.prevIndexInt = j.prevIndexInt ∧ i.satoshi = j.satoshi) := by
  have li : lastK 4 i.txid = i.txid.drop 60 := by simp [lastK, ti]
  have lj : lastK 4 j.txid = j.txid.drop 60 := by simp [lastK, tj]
  constructor
  · intro h
    rw [TxIn_str_eq, TxIn_str_eq, li, lj] at h
    obtain ⟨h1, h⟩ := signedWord_inj (List.append_cancel_left h)
    obtain ⟨h2, h⟩ := append_sep (address_no_comma X hs ai) (address_no_comma X hs aj) (List.append_cancel_left h)
    obtain ⟨h3, h⟩ := List.append_inj (List.append_cancel_left h) (by simp [ti, tj])
    obtain ⟨h4, h5⟩ := List.append_inj h3 (by simp [ti, tj])
    obtain ⟨h6, h⟩ := append_sep (pyStr_not (by decide) (by decide)) (pyStr_not (by decide) (by decide)) (List.append_cancel_left h)
    exact ⟨h1, h2, h4, List.append_cancel_left h5, pyStr_inj h6, fmtOptInt_inj (List.append_cancel_left h)⟩
  · rintro ⟨h1, h2, h3, h4, h5, h6⟩
    rw [TxIn_str_eq, TxIn_str_eq, li, lj, h1, h2, h3, h4, h5, h6]

/-- **C89** `str(output)` shows the address and the amount. -/
theorem C89_output (X : Ext) (hs : ∀ b, (X.sha256 b).length = 32) (o p : TxOut)
    (ao : vBitcoinAddress X o.address = .ok ()) (ap : vBitcoinAddress X p.address = .ok ()) :
    o.str = p.str ↔ (o.address = p.address ∧ o.satoshi = p.satoshi) := by
  have e : ∀ o : TxOut, o.str = py"TransactionOutput: address=" ++ (o.address ++ ',' :: (py" satoshi_amount=" ++ pyStr o.satoshi)) := by
    intro o; simp [TxOut.str]
  constructor
  · intro h
    rw [e, e] at h
    obtain ⟨h1, h⟩ := append_sep (address_no_comma X hs ao) (address_no_comma X hs ap) (List.append_cancel_left h)
    exact ⟨h1, pyStr_inj (List.append_cancel_left h)⟩
  · rintro ⟨h1, h2⟩
    rw [e, e, h1, h2]

/-- C88, C89: the printed forms of a transaction with two inputs and two outputs, signed -/
example : ((do
    let t ← Concrete.sampleTx Concrete.Xtoy
    let t' ← Concrete.sampleSigned Concrete.Xtoy
    assertR (t.str == py"Transaction (unsigned): 2 inputs, 2 outputs" && t'.str == py"Transaction (signed): 2 inputs, 2 outputs")
    let x ← Concrete.Xtoy.jsonLoads (t'.toJsonSigned Concrete.Xtoy)
    let d ← x.asDict
    let h ← hexOfDict d
    let h' ← t'.toHexSigned
    assertR (h == h' && h.length == 2 * 438 + 4)) : R Unit).isOk = true := by decide +kernel

end BT
