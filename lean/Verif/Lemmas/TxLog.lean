import Verif.TxLogSpec
import Verif.Lemmas.R
import Verif.Lemmas.Report

/-!
# Without its log a function is the function of the model
-/

namespace BT.Lg

theorem bind_def {α β : Type} (m : W α) (f : α → W β) : (m >>= f) = W.bind m f := rfl

theorem o_bind {α β : Type} (m : W α) (f : α → W β) : (m >>= f).outcome = (m.outcome >>= fun a => (f a).outcome) := by
  rw [bind_def, W.bind, W.outcome, W.outcome]
  cases m.res <;> rfl

theorem o_pure {α : Type} (a : α) : (pure a : W α).outcome = .ok a := rfl
theorem o_run {α : Type} (r : R α) : (run r).outcome = r := by cases r <;> rfl
theorem o_refuse {α : Type} (e : Err) (s : Str) : (refuse e s : W α).outcome = .error e := rfl
theorem o_print (s : Str) : (print s).outcome = .ok () := rfl
theorem o_deb (l s : Str) : (deb l s).outcome = .ok () := rfl
theorem o_info (l s : Str) : (info l s).outcome = .ok () := rfl
theorem o_err (l s : Str) : (err l s).outcome = .ok () := rfl
theorem o_ite {α : Type} (c : Prop) [Decidable c] (a b : W α) :
    (if c then a else b).outcome = if c then a.outcome else b.outcome := by split <;> rfl

theorem bind_ok_self {α : Type} (r : R α) : (r >>= fun a => Except.ok a) = r := by cases r <;> rfl

/-- push `outcome` to the leaves -/
macro "push_o" : tactic => `(tactic| simp only [o_bind, o_pure, o_run, o_refuse, o_print, o_deb, o_info, o_err, o_ite, R_bind_ok])

theorem o_scriptSigDecode (u : UniDB) (s : Str) : (scriptSigDecode u s).outcome = BT.scriptSigDecode u s := by
  unfold scriptSigDecode BT.scriptSigDecode
  push_o
  rfl

theorem o_scriptSigEncode (s p : Str) : (scriptSigEncode s p).outcome = BT.scriptSigEncode s p := by
  unfold scriptSigEncode BT.scriptSigEncode
  push_o
  rfl

theorem o_signatureFromDer (X : Ext) (s : Str) : (signatureFromDer X s).outcome = BT.signatureFromDer X s := by
  unfold signatureFromDer BT.signatureFromDer
  push_o
  rfl

theorem o_toHexSigned (t : Tx) : (toHexSigned t).outcome = t.toHexSigned := by
  unfold toHexSigned
  push_o
  cases t.toHexSigned <;> rfl

theorem o_sizePart (t : Tx) : (sizePart t).outcome = t.sizePart := by
  unfold sizePart Tx.sizePart
  push_o
  rw [o_toHexSigned]
  split
  · cases t.toHexSigned with
    | error e => rfl
    | ok h =>
      simp only [R_bind_ok]
      cases hexLen h with
      | error e => rfl
      | ok n =>
        simp only [R_bind_ok]
        cases t.fee <;> rfl
  · rfl

theorem o_toJson (X : Ext) (t : Tx) : (toJson X t).outcome = t.toJson X := by
  unfold toJson
  push_o
  rw [o_sizePart]
  unfold Tx.toJson Tx.toDict
  cases estimateTransactionSize t.inputs.length t.outputs.length with
  | error e => rfl
  | ok size =>
    simp only [R_bind_ok]
    cases t.knownPart X.uni size with
    | error e => rfl
    | ok k =>
      obtain ⟨k1, k2, k3, k4⟩ := k
      simp only [R_bind_ok]
      cases satoshiToBitcoin X.uni t.totalOutput with
      | error e => rfl
      | ok b =>
        simp only [R_bind_ok]
        cases t.changePart X.uni with
        | error e => rfl
        | ok c =>
          simp only [R_bind_ok]
          cases t.sizePart <;> rfl

theorem o_fromJson (X : Ext) (s : Str) : (fromJson X s).outcome = Tx.fromJson X s := by
  unfold fromJson
  push_o
  cases Tx.fromJson X s <;> rfl

theorem o_signPrepare (X : Ext) (m : List (Str × Str)) (rvs : Option (List Str)) (i n : Nat) (inp : TxIn) :
    (signPrepare X m rvs i n inp).outcome = Tx.signPrepare X m rvs i inp := by
  unfold signPrepare Tx.signPrepare
  push_o
  cases randomFor rvs i with
  | error e => rfl
  | ok rv =>
    simp only [R_bind_ok]
    cases keyFor m inp.address with
    | none => rfl
    | some k =>
      push_o
      rfl

theorem o_signFinish (X : Ext) (t : Tx) (i : Nat) (rv : Option Str) (key pk : Str) :
    (signFinish X t i rv key pk).outcome = Tx.signFinish X t i rv key pk := by
  unfold signFinish Tx.signFinish
  push_o
  simp only [o_scriptSigEncode]
  rfl

theorem outcome_ok {α : Type} {m : W α} {a : α} : m.outcome = .ok a ↔ m.res = .ok a := by
  unfold W.outcome
  cases m.res <;> simp

theorem outcome_err {α : Type} {m : W α} {e : Err} : m.outcome = .error e ↔ ∃ s, m.res = .error (e, s) := by
  unfold W.outcome
  cases m.res with
  | error x => obtain ⟨a, b⟩ := x; simp
  | ok _ => simp

theorem o_signOne (X : Ext) (m : List (Str × Str)) (rvs : Option (List Str)) (i : Nat) (t : Tx) :
    ((signOne X m rvs i t).1, (signOne X m rvs i t).2.outcome) = Tx.signOne X m rvs i t := by
  unfold signOne Tx.signOne
  cases t.inputs[i]? with
  | none => rfl
  | some inp =>
    simp only
    rw [← o_signPrepare X m rvs i t.inputs.length inp]
    unfold W.outcome
    cases (signPrepare X m rvs i t.inputs.length inp).res with
    | error e => rfl
    | ok p =>
      obtain ⟨rv, key, pk⟩ := p
      simp only
      rw [← o_signFinish]
      unfold W.outcome
      cases (signFinish X _ i rv key pk).res with
      | error e => rfl
      | ok q => rfl

theorem o_signLoop (X : Ext) (m : List (Str × Str)) (rvs : Option (List Str)) (is : List Nat) (t : Tx) :
    ((signLoop X m rvs is t).1, (signLoop X m rvs is t).2.outcome) = Tx.signLoop X m rvs is t := by
  induction is generalizing t with
  | nil => rfl
  | cons i is ih =>
    unfold signLoop Tx.signLoop
    have ho := o_signOne X m rvs i t
    generalize signOne X m rvs i t = o at ho ⊢
    rw [← ho]
    obtain ⟨t', ev, res⟩ := o
    cases res with
    | error e => rfl
    | ok _ => exact ih t'

theorem o_sign (X : Ext) (t : Tx) (keys : List Str) (rvs : Option (List Str)) :
    ((sign X t keys rvs).1, (sign X t keys rvs).2.outcome) = t.sign X keys rvs := by
  unfold sign Tx.sign
  cases signChecks X keys rvs with
  | error e => rfl
  | ok m =>
    simp only
    rw [← o_signLoop]
    push_o
    cases (signLoop X m rvs (List.range t.inputs.length) t).2.outcome <;> rfl

theorem o_verifyInput (X : Ext) (t : Tx) (i n : Nat) (inp : TxIn) :
    (verifyInput X t i n inp).outcome = t.verifyInput X i inp := by
  unfold verifyInput Tx.verifyInput
  push_o
  cases inp.scriptSig with
  | none => rfl
  | some s =>
    push_o
    rw [o_scriptSigDecode]
    cases BT.scriptSigDecode X.uni s with
    | error e => rfl
    | ok p =>
      obtain ⟨p1, p2⟩ := p
      simp only [R_bind_ok]
      rw [o_signatureFromDer]
      cases BT.signatureFromDer X p1 with
      | error e => rfl
      | ok sig =>
        simp only [R_bind_ok]
        cases t.verifyOne X i p2 sig with
        | error e => rfl
        | ok b => cases b <;> rfl

theorem o_verifyLoop (X : Ext) (t : Tx) (n i : Nat) (l : List TxIn) (bad : Nat) :
    (verifyLoop X t n i l bad).outcome = t.verifyLoop X i l bad := by
  induction l generalizing i bad with
  | nil => rfl
  | cons x r ih =>
    unfold verifyLoop Tx.verifyLoop
    push_o
    simp only [o_verifyInput, ih]

theorem o_verify (X : Ext) (t : Tx) : (verify X t).outcome = t.verify X := by
  unfold verify Tx.verify
  push_o
  rw [o_verifyLoop]
  cases t.verifyLoop X 0 t.inputs 0 <;> rfl

theorem o_txid (X : Ext) (t : Tx) : (txid X t).outcome = t.txid X := by
  unfold txid Tx.txid
  push_o
  simp only [o_toHexSigned]

theorem o_parseInput (X : Ext) (x : Nat) (hb : List Str) : (parseInput X x hb).outcome = BT.parseInput X hb := by
  unfold parseInput BT.parseInput
  push_o
  simp only [o_scriptSigDecode]
  rfl

theorem o_parseOutput (X : Ext) (x : Nat) (hb : List Str) : (parseOutput X x hb).outcome = BT.parseOutput X hb := by
  unfold parseOutput BT.parseOutput
  push_o
  rfl

theorem o_parseMany {α : Type} (f : Nat → List Str → W (α × List Str)) (g : List Str → R (α × List Str))
    (h : ∀ x hb, (f x hb).outcome = g hb) (n x : Nat) (hb : List Str) :
    (parseMany f n x hb).outcome = BT.parseMany g n hb := by
  induction n generalizing x hb with
  | zero => rfl
  | succ n ih =>
    unfold parseMany BT.parseMany
    push_o
    simp only [h, ih]
    rfl

theorem o_fromHexSigned (X : Ext) (s : Str) : (fromHexSigned X s).outcome = Tx.fromHexSigned X s := by
  unfold fromHexSigned Tx.fromHexSigned
  push_o
  simp only [o_parseMany _ _ (o_parseInput X), o_parseMany _ _ (o_parseOutput X)]
  simp only [bind_ok_self]

theorem o_create (E : Msg.Env) (X : Ext) (a : Args) : (create E X a).outcome = createTransaction X a :=
  Report.erase_create E X a

/-! ## Functions that print nothing -/

theorem prints_append (a b : List Ev) : prints (a ++ b) = prints a ++ prints b := by
  induction a with
  | nil => rfl
  | cons x xs ih => cases x <;> simp [prints, ih]

theorem ev_bind {α β : Type} (m : W α) (f : α → W β) :
    (m >>= f).ev = m.ev ++ (match m.res with
      | .ok a => (f a).ev
      | .error _ => []) := by
  rw [bind_def, W.bind]
  cases m.res <;> simp

/-- nothing is printed -/
def NoPrint {α : Type} (m : W α) : Prop := prints m.ev = []

theorem NoPrint.bind {α β : Type} {m : W α} {f : α → W β} (h : NoPrint m) (g : ∀ a, NoPrint (f a)) : NoPrint (m >>= f) := by
  unfold NoPrint at *
  rw [ev_bind, prints_append, h]
  cases m.res with
  | error e => rfl
  | ok a => exact g a

theorem NoPrint.pure {α : Type} (a : α) : NoPrint (Pure.pure a : W α) := rfl
theorem NoPrint.run {α : Type} (r : R α) : NoPrint (Lg.run r) := by cases r <;> rfl
theorem NoPrint.refuse {α : Type} (e : Err) (s : Str) : NoPrint (Lg.refuse e s : W α) := rfl
theorem NoPrint.deb (l s : Str) : NoPrint (Lg.deb l s) := rfl
theorem NoPrint.info (l s : Str) : NoPrint (Lg.info l s) := rfl
theorem NoPrint.err (l s : Str) : NoPrint (Lg.err l s) := rfl
theorem NoPrint.ite {α : Type} {c : Prop} [Decidable c] {a b : W α} (h1 : NoPrint a) (h2 : NoPrint b) :
    NoPrint (if c then a else b) := by split <;> assumption

/-- structural steps -/
macro "no_print" : tactic => `(tactic| repeat' with_reducible first
  | exact NoPrint.run _
  | exact NoPrint.deb _ _
  | exact NoPrint.info _ _
  | exact NoPrint.err _ _
  | exact NoPrint.pure _
  | exact NoPrint.refuse _ _
  | assumption
  | apply NoPrint.ite
  | refine NoPrint.bind ?_ (fun _ => ?_))

theorem np_scriptSigDecode (u : UniDB) (s : Str) : NoPrint (scriptSigDecode u s) := by
  unfold scriptSigDecode
  no_print

theorem np_scriptSigEncode (s p : Str) : NoPrint (scriptSigEncode s p) := by
  unfold scriptSigEncode
  no_print

theorem np_signatureFromDer (X : Ext) (s : Str) : NoPrint (signatureFromDer X s) := by
  unfold signatureFromDer
  no_print

theorem np_toHexSigned (t : Tx) : NoPrint (toHexSigned t) := by
  unfold toHexSigned
  no_print

theorem np_sizePart (t : Tx) : NoPrint (sizePart t) := by
  unfold sizePart
  have := np_toHexSigned t
  no_print
  cases t.fee <;> no_print

theorem np_toJson (X : Ext) (t : Tx) : NoPrint (toJson X t) := by
  unfold toJson
  have := np_sizePart t
  no_print

theorem np_fromJson (X : Ext) (s : Str) : NoPrint (fromJson X s) := by
  unfold fromJson
  no_print

theorem np_signPrepare (X : Ext) (m : List (Str × Str)) (rvs : Option (List Str)) (i n : Nat) (inp : TxIn) :
    NoPrint (signPrepare X m rvs i n inp) := by
  unfold signPrepare
  no_print
  cases keyFor m inp.address <;> no_print

theorem np_signFinish (X : Ext) (t : Tx) (i : Nat) (rv : Option Str) (key pk : Str) : NoPrint (signFinish X t i rv key pk) := by
  unfold signFinish
  no_print
  exact np_scriptSigEncode _ _

theorem np_signOne (X : Ext) (m : List (Str × Str)) (rvs : Option (List Str)) (i : Nat) (t : Tx) :
    NoPrint (signOne X m rvs i t).2 := by
  unfold signOne
  cases t.inputs[i]? with
  | none => rfl
  | some inp =>
    simp only
    have h1 := np_signPrepare X m rvs i t.inputs.length inp
    generalize signPrepare X m rvs i t.inputs.length inp = w1 at h1 ⊢
    obtain ⟨e1, r1⟩ := w1
    cases r1 with
    | error e => exact h1
    | ok p =>
      simp only
      have h2 := np_signFinish X { t with inputs := t.inputs.set i { inp with publicKey := some p.2.2 } } i p.1 p.2.1 p.2.2
      generalize signFinish X { t with inputs := t.inputs.set i { inp with publicKey := some p.2.2 } } i p.1 p.2.1 p.2.2 = w2 at h2 ⊢
      obtain ⟨e2, r2⟩ := w2
      have : prints (e1 ++ e2) = [] := by rw [prints_append, h1, h2]; rfl
      cases r2 <;> exact this

theorem np_signLoop (X : Ext) (m : List (Str × Str)) (rvs : Option (List Str)) (is : List Nat) (t : Tx) :
    NoPrint (signLoop X m rvs is t).2 := by
  induction is generalizing t with
  | nil => rfl
  | cons i is ih =>
    unfold signLoop
    have h1 := np_signOne X m rvs i t
    generalize signOne X m rvs i t = o at h1 ⊢
    obtain ⟨t', e1, r1⟩ := o
    cases r1 with
    | error e => exact h1
    | ok p =>
      have h2 := ih t'
      show prints (e1 ++ _) = []
      rw [prints_append, h1, h2]; rfl

theorem np_sign (X : Ext) (t : Tx) (keys : List Str) (rvs : Option (List Str)) : NoPrint (sign X t keys rvs).2 := by
  unfold sign
  cases signChecks X keys rvs with
  | error e => rfl
  | ok m => exact NoPrint.bind (np_signLoop X m rvs _ t) fun _ => NoPrint.info _ _

theorem np_verifyInput (X : Ext) (t : Tx) (i n : Nat) (inp : TxIn) : NoPrint (verifyInput X t i n inp) := by
  unfold verifyInput
  no_print
  cases inp.scriptSig with
  | none => no_print
  | some s =>
    have h1 := np_scriptSigDecode X.uni s
    have h2 := np_signatureFromDer X
    no_print
    exact h2 _

theorem np_verifyLoop (X : Ext) (t : Tx) (n i : Nat) (l : List TxIn) (bad : Nat) : NoPrint (verifyLoop X t n i l bad) := by
  induction l generalizing i bad with
  | nil => rfl
  | cons x r ih => exact NoPrint.bind (np_verifyInput X t i n x) fun b => ih (i + 1) _

theorem np_verify (X : Ext) (t : Tx) : NoPrint (verify X t) := by
  unfold verify
  have := np_verifyLoop X t t.inputs.length 0 t.inputs 0
  no_print

theorem np_parseInput (X : Ext) (x : Nat) (hb : List Str) : NoPrint (parseInput X x hb) := by
  unfold parseInput
  have h1 := np_scriptSigDecode X.uni
  no_print
  exact h1 _

theorem np_parseOutput (X : Ext) (x : Nat) (hb : List Str) : NoPrint (parseOutput X x hb) := by
  unfold parseOutput
  no_print

theorem np_parseMany {α : Type} (f : Nat → List Str → W (α × List Str)) (h : ∀ x hb, NoPrint (f x hb)) (n x : Nat)
    (hb : List Str) : NoPrint (parseMany f n x hb) := by
  induction n generalizing x hb with
  | zero => rfl
  | succ n ih =>
    unfold parseMany
    refine NoPrint.bind (h _ _) fun p => NoPrint.bind (ih _ _) fun q => NoPrint.pure _

theorem np_fromHexSigned (X : Ext) (s : Str) : NoPrint (fromHexSigned X s) := by
  unfold fromHexSigned
  have h1 := np_parseMany _ (np_parseInput X)
  have h2 := np_parseMany _ (np_parseOutput X)
  no_print
  all_goals first | exact h1 _ _ _ | exact h2 _ _ _

theorem prints_log (l : Str) (n : Nat) (s : List Str) : prints (s.map (.log l n)) = [] := by
  induction s with
  | nil => rfl
  | cons x xs ih => exact ih

theorem np_create (E : Msg.Env) (X : Ext) (a : Args) : NoPrint (create E X a) := prints_log _ _ _

theorem np_signed (X : Ext) (t : Tx) (keys : List Str) : NoPrint (signed X t keys) :=
  NoPrint.bind (np_sign X t keys none) fun _ => NoPrint.pure _

theorem o_signed (X : Ext) (t : Tx) (keys : List Str) :
    (signed X t keys).outcome = ((t.sign X keys none).2 >>= fun _ => .ok (t.sign X keys none).1) := by
  unfold signed
  push_o
  rw [← o_sign]

/-! ## Tasks -/

theorem out_bind {α : Type} {m : W α} (h : NoPrint m) (f : α → W Unit) :
    (m >>= f).out = bindOut m.outcome fun a => (f a).out := by
  unfold W.out
  rw [o_bind, ev_bind, prints_append, h]
  unfold W.outcome
  cases m.res <;> rfl

theorem out_run {α : Type} (r : R α) (f : α → W Unit) : (run r >>= f).out = bindOut r fun a => (f a).out := by
  rw [out_bind (NoPrint.run r), o_run]

theorem out_print (s : Str) (f : Unit → W Unit) : (print s >>= f).out = printThen s (f ()).out := rfl
theorem out_print_last (s : Str) : (print s).out = ([s], .ok ()) := rfl
theorem out_pure : (pure () : W Unit).out = ([], .ok ()) := rfl
theorem out_refuse (e : Err) (s : Str) : (refuse e s : W Unit).out = ([], .error e) := rfl
theorem out_deb (l s : Str) (f : Unit → W Unit) : (deb l s >>= f).out = (f ()).out := by
  rw [out_bind (NoPrint.deb l s)]; rfl
theorem out_info (l s : Str) (f : Unit → W Unit) : (info l s >>= f).out = (f ()).out := by
  rw [out_bind (NoPrint.info l s)]; rfl
theorem out_ite (c : Prop) [Decidable c] (a b : W Unit) : (if c then a else b).out = if c then a.out else b.out := by
  split <;> rfl

end BT.Lg
