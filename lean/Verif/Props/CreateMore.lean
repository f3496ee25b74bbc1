import Verif.Props.CreateErr
import Verif.Props.Json
import Verif.Props.InOut
import Verif.Props.Sign
import Verif.Lemmas.Repeat
import Verif.Concrete.SampleCreate

/-!
# More about `create_transaction` (C45, C48, C54-C58, C72)
-/

namespace BT
open Spec

variable {X : Ext}

/-! ## C45: what `Offers` and `Asks` mean -/

/-- **C45**: an offered input in terms of its fields: it spends exactly the output named by the
entry and carries its address and amount. -/
theorem C45_offer_fields (hs : ∀ b, (X.sha256 b).length = 32) {p : PVal} {i : TxIn} (h : Offers X p i) :
    ∃ (a s : Str) (v : PVal) (idx : Int) (sat : Nat) (hash t ib : Bytes),
      entry p py"address" = some (.str a) ∧ AddressOf X.sha256 a hash ∧ i.address = a ∧
      entry p py"transaction_id" = some (.str (hex t)) ∧ t.length = 32 ∧ i.prevHash = hex t.reverse ∧
      entry p py"previous_output_index" = some v ∧ v.toInt X.uni = .ok idx ∧ i.prevIndex = hex ib ∧ ib.length = 4 ∧ (leNat ib : Int) = idx ∧
      entry p py"bitcoin_amount" = some (.str s) ∧ AmountOf X.uni s sat ∧ i.satoshi = some (sat : Int) ∧
      i.spk = some (hex (p2pkh hash)) ∧ i.signed = false := by
  obtain ⟨a, txid, v, idx, s, sat, e1, e2, e3, e4, e5, e6, e7⟩ := h
  obtain ⟨hh, t, ib, n, c1, c2, c3, c4, _, c6, c7, c8, c9, _, c11, _, _, c14, c15, _, c17, _⟩ := C24_create X hs _ _ _ _ _ e7
  subst c3
  exact ⟨a, s, v, idx, sat, hh, t, ib, e1, c1, c2, e2, c4, c6, e3, e4, c7, c8, c9, e5, e6, c15, c11, c17⟩

/-- **C45**: a requested output in terms of its fields: it pays the amount of the entry to the
address of the entry. -/
theorem C45_ask_fields (hs : ∀ b, (X.sha256 b).length = 32) {p : PVal} {o : TxOut} (h : Asks X p o) :
    ∃ (a s : Str) (sat : Nat), entry p py"address" = some (.str a) ∧ o.address = a ∧ OutputScript X o ∧
      entry p py"bitcoin_amount" = some (.str s) ∧ AmountOf X.uni s sat ∧ OutputAmount X.uni o sat := by
  obtain ⟨a, s, sat, e1, e2, e3, e4⟩ := h
  obtain ⟨c1, c2, n, c3, c4⟩ := (C24_output X hs a sat).1 o e4
  have : sat = n := by omega
  subst this
  exact ⟨a, s, sat, e1, c1, c2, e2, e3, c4⟩

/-! ## C54 -/

/-- **C54**: for a percentage up to 100 in one of the documented forms the limit is the
percentage of the available total, rounded up, give or take one satoshi. -/
theorem C54_documented_percentage (hs : ∀ b, (X.sha256 b).length = 32) {a a' : Args} {t : Tx} (h : createTransaction X a = .ok (t, a'))
    {ins : List TxIn} {outs : List TxOut} (R : Request X a ins outs) {v : PVal} {pct : ℚ}
    (hv : setting a py"max_spend_percentage" = some v) (hp : GoodRate X.uni v pct) (h100 : pct ≤ 100) :
    ∃ (ca : Str) (change : Int), setting a py"change_address" = some (.str ca) ∧
      ((t.outputs = outs ∧ change = 0) ∨
        ∃ pre c post, t.outputs = pre ++ c :: post ∧ c.address = ca ∧ change = c.satoshi ∧
          ((pre = [] ∧ outs = post) ∨ ∃ o, outs = pre ++ o :: post ∧ o.address = ca ∧ o.satoshi < c.satoshi)) ∧
      inTotal t.inputs - change ≤ ⌈pct / 100 * inTotal ins⌉ + 1 := by
  obtain ⟨ins', outs', ca, m, fee, ch, q, C⟩ := created_of hs h
  obtain ⟨rfl, rfl⟩ := request_unique R C.req
  obtain ⟨v', hv', hq⟩ := C.pct
  rw [hv] at hv'; injection hv' with hv'; subst hv'
  have hfl := goodRate_float hp h100
  have h2 := hfl.symm.trans hq
  simp only [Except.ok.injEq, PyFloat.fin.injEq] at h2
  subst h2
  refine ⟨ca, ch, C.ca_set, ?_, ?_⟩
  · rcases C.change_is with h | h
    · exact .inl ⟨h.1, h.2.1⟩
    · exact .inr h
  · have h1 := C.spend
    have h2 := limitOf_decimal (goodRate_rateOf hp).2 h100 C.in_money
    rw [abs_le] at h2
    omega

/-- **C54**: a limit of 100% never blocks. -/
theorem C54_full_never_blocks (hs : ∀ b, (X.sha256 b).length = 32) {a : Args} {ins : List TxIn} {outs : List TxOut} {ca m : Str} {cap : Nat}
    (W : WellFormed X a ins outs ca m cap 100) (hroom : ∀ fee, FeeFor X a ins.length outs.length fee → fee ≤ cap ∧ outTotal outs + fee ≤ inTotal ins)
    (hd : a.allowDup = some (.bool true) ∨ (outs.map TxOut.address).Nodup) (hal : CanAllocate outs ca a.changeIdx) :
    ∃ t a', createTransaction X a = .ok (t, a') := by
  obtain ⟨fee, h1, _, h2⟩ := C73_outcome hs W
  obtain ⟨h3, h4⟩ := hroom fee h1
  obtain ⟨t, a', h5, _⟩ := ((((h2 (h4.trans W.in_money)).2 hd).2 h3).2.2 h4 hal).1 (.inl rfl)
  exact ⟨t, a', h5⟩

/-! ## C55 -/

/-- **C55**: a design with a fee of 0 and without a fee rate never gives a transaction. -/
theorem C55_zero_fee_never (hs : ∀ b, (X.sha256 b).length = 32) {a : Args} {v : PVal} (hv : setting a py"fee" = some v) (h0 : NumberOf X.uni v 0)
    (hr : setting a py"fee_rate" = none) (r : Tx × Args) : createTransaction X a ≠ .ok r := by
  intro h
  obtain ⟨t, a'⟩ := r
  obtain ⟨ins', outs', ca, m, fee, ch, q, C⟩ := created_of hs h
  rcases C.fee_rule with ⟨w, h1, h2, h3⟩ | ⟨_, w, _, h1, _⟩
  · rw [hv] at h1; injection h1 with h1; subst h1
    apply h3
    rcases h0 with rfl | ⟨s, rfl, hn⟩ <;> rcases h2 with h2 | ⟨s', h2, h3⟩ <;> simp at h2
    · exact h2.symm
    · subst h2; rw [hn] at h3; injection h3 with h3; exact h3.symm
  · rw [hr] at h1; simp at h1

/-- **C55** violated: take arguments whose only difference from well-formed ones with an explicit
fee is that the fee is 0; the call raises TypeError. -/
theorem C55_violation (hs : ∀ b, (X.sha256 b).length = 32) {a b : Args} {ins : List TxIn} {outs : List TxOut} {ca m : Str} {cap : Nat} {pct : ℚ}
    (W : WellFormed X b ins outs ca m cap pct) (hb : ∃ w, setting b py"fee" = some w) (hin : a.inputs = b.inputs) (h1 : a.allowDup = b.allowDup) (h2 : a.changeIdx = b.changeIdx)
    (hset : ∀ k, k ≠ py"fee" → setting a k = setting b k) {v : PVal} (hv : setting a py"fee" = some v) (h0 : NumberOf X.uni v 0) :
    createTransaction X a = .error .typeError := by
  obtain ⟨w, hw⟩ := hb
  have hrate : setting b py"fee_rate" = none := by
    rcases W.fee_set with ⟨_, _, _, _, _, _, h⟩ | ⟨_, _, h, _⟩
    · exact h
    · rw [hw] at h; simp at h
  obtain ⟨p, hp, _⟩ := wf_prepare hs W
  obtain ⟨insD, d, d1, insZ, outsD, outsZ, ca', mf, msp, n, hinsD, hdes, hadj, hinZ, g1, g2, g3, g4, g5, g6, g7, g8, g9, g10, houtZ, g12, g13, hopt, _⟩ := prepare_ok.1 hp
  obtain ⟨e, hd⟩ : ∃ e, a.design = some (.dict e) := by
    have := hv
    unfold setting at this
    cases hh : a.design with
    | none => rw [hh] at this; simp at this
    | some v =>
      rw [hh] at this
      cases v with
      | dict d => exact ⟨d, rfl⟩
      | _ => simp [entry] at this
  have sa := setting_eq hd
  have sb := setting_eq hdes
  have hfind : ∀ k, k ≠ py"fee" → dictFind e k = dictFind d k := fun k hk => by rw [← sa, ← sb]; exact hset k hk
  rw [sa] at hv
  rw [sb] at hrate
  obtain ⟨A1, A2, A3, A4, _⟩ := adjustDesign_ok hadj
  obtain ⟨e1, hadj'⟩ : ∃ e1, adjustDesign X.uni e = .ok e1 := by
    apply adjustDesign_total
    · intro s hs'
      rw [hv] at hs'; injection hs' with hs'; subst hs'
      rcases h0 with h | ⟨s', h, h'⟩
      · simp at h
      · injection h with h; subst h; exact ⟨0, h'⟩
    · intro s hs'
      rw [hfind _ (by decide)] at hs'
      rcases A4 with ⟨s', n', k1, k2, _⟩ | ⟨k1, _⟩
      · rw [hs'] at k1; injection k1 with k1; injection k1 with k1; subst k1; exact ⟨n', k2⟩
      · exact absurd hs' (k1 s)
  obtain ⟨B1, B2, B3, B4, _⟩ := adjustDesign_ok hadj'
  have key : ∀ k, k ≠ py"fee" → k ≠ py"fee_rate" → k ≠ py"max_fee" → dictFind e1 k = dictFind d1 k := fun k k1 k2 k3 => by
    rw [B1 k k1 k2 k3, A1 k k1 k2 k3, hfind k k1]
  have kmax : dictFind e1 py"max_fee" = dictFind d1 py"max_fee" := by
    rw [hfind _ (by decide)] at B4
    rcases A4 with ⟨s, n, k1, k2, k3⟩ | ⟨k1, k3⟩ <;> rcases B4 with ⟨s', n', l1, l2, l3⟩ | ⟨l1, l3⟩
    · rw [k1] at l1; injection l1 with l1; injection l1 with l1; subst l1
      rw [k2] at l2; injection l2 with l2; subst l2; rw [k3, l3]
    · exact absurd k1 (l1 s)
    · exact absurd l1 (k1 s')
    · rw [k3, l3]
  have kfee : dictFind e1 py"fee" = some (.int 0) := by
    rw [hv] at B2
    exact number_adjusted h0 B2
  have krate : dictFind e1 py"fee_rate" = none := by
    rw [B3, hfind _ (by decide), hrate]; rfl
  have hkind : feeKind X.uni (dictOpt e1 py"fee") (dictOpt e1 py"fee_rate") = .error .typeError := by
    unfold dictOpt
    rw [kfee, krate]
    rfl
  have hfees : validateFees X.uni (dictOpt e1 py"fee") (dictOpt e1 py"fee_rate") = .ok () := by
    unfold dictOpt
    rw [kfee, krate]
    rfl
  have := prepare_feeKind_err (hin.trans hinsD) hd hadj' hinZ (by rw [key _ (by decide) (by decide) (by decide)]; exact g1) g2 (by rw [kmax]; exact g3) g4
    (by rw [key _ (by decide) (by decide) (by decide)]; exact g5) g6 g7 g8 g9 (by rw [key _ (by decide) (by decide) (by decide)]; exact g10) houtZ hfees
    (by unfold dictOpt; rw [key _ (by decide) (by decide) (by decide)]; exact g13) (by rw [h1, h2]; exact hopt) hkind
  simp only [createTransaction, this, R_bind_err]

/-! ## C56 -/

/-- **C56** violated: after a successful call the same argument object is refused with
ValueError. -/
theorem C56_violation (hs : ∀ b, (X.sha256 b).length = 32) {a a' : Args} {t : Tx} (h : createTransaction X a = .ok (t, a')) :
    createTransaction X a' = .error .valueError := by
  obtain ⟨p, m, fee, sel, outs', ch, q, hp, B, rfl⟩ := (create_ok hs).1 h
  obtain ⟨insD, d, d1, insZ, outsD, outsZ, ca', mf, msp, n, hinsD, hdes, hadj, hinZ, g1, g2, g3, g4, g5, g6, g7, g8, g9, g10, houtZ, g12, g13, hopt, _, hmk, _, _, _, _, _, _, hafter⟩ := prepare_ok.1 hp
  obtain ⟨A1, A2, A3, A4, _⟩ := adjustDesign_ok hadj
  have hI : p.after.inputs = some (.list insZ) := by rw [hafter]
  have hD : p.after.design = some (.dict (dictSet d1 py"outputs" (.list outsZ))) := by rw [hafter]
  obtain ⟨e1, hadj'⟩ : ∃ e1, adjustDesign X.uni (dictSet d1 py"outputs" (.list outsZ)) = .ok e1 := by
    apply adjustDesign_total
    · intro s hs'
      rw [find_set_ne (by decide)] at hs'
      rcases A2 with ⟨s', n', k1, k2, k3⟩ | ⟨k1, k3⟩
      · rw [hs'] at k3; simp at k3
      · rw [hs'] at k3; exact absurd k3.symm (k1 s)
    · intro s hs'
      rw [find_set_ne (by decide)] at hs'
      rcases A4 with ⟨s', n', k1, k2, k3⟩ | ⟨k1, k3⟩
      · rw [hs'] at k3; simp at k3
      · rw [hs'] at k3; exact absurd k3.symm (k1 s)
  have hstep : ∀ z ∈ insZ, ∃ x, InStep X x z := fun z hz => by
    obtain ⟨x, _, hx⟩ := forall₂_mem_right hinZ z hz
    exact ⟨x, hx⟩
  have hne : insZ ≠ [] := by
    rintro rfl
    have hq : p.ins = [] := by
      have := hmk.length_eq
      exact List.length_eq_zero_iff.1 this.symm
    have := B.in_ne
    rw [hq] at this
    exact this rfl
  obtain ⟨z, r, rfl⟩ := List.exists_cons_of_ne_nil hne
  have hkeys : vListContains p.after.keys [py"inputs", py"design"] = .ok () := by
    rw [vListContains_ok]
    intro k hk
    simp only [List.mem_cons, List.not_mem_nil, or_false] at hk
    rcases hk with rfl | rfl <;> simp [Args.keys, hI, hD]
  have hai : adjustInputs X.uni ((some (PVal.list (z :: r))).getD .none) = .ok (z :: r) :=
    mapR_id fun x hx => by
      obtain ⟨y, hy⟩ := hstep x hx
      exact (inStep_again hy).1
  have hval : validateInputs X (z :: r) = .error .valueError := by
    obtain ⟨y, hy⟩ := hstep z (by simp)
    simp only [validateInputs, mapR, (inStep_again hy).2, R_bind_err]
  have hd' : ((some (PVal.dict (dictSet d1 py"outputs" (.list outsZ)))).getD .none).asDict = .ok (dictSet d1 py"outputs" (.list outsZ)) := rfl
  simp only [createTransaction, prepare, hkeys, hD, hd', hadj', hI, hai, hval, R_bind_ok, R_bind_err]

/-! ## C57 -/

/-- **C57**: the result depends on the design only through seven keys; anything else in it,
`input_selection_approach` in particular, has no effect. -/
theorem C57_only_seven_keys {a b : Args} {d e : List (Str × PVal)} (hi : a.inputs = b.inputs) (h1 : a.allowDup = b.allowDup) (h2 : a.changeIdx = b.changeIdx)
    (ha : a.design = some (.dict d)) (hb : b.design = some (.dict e))
    (h : ∀ k ∈ [py"outputs", py"fee", py"fee_rate", py"change_address", py"max_fee", py"max_spend_percentage", py"input_selection_approaches"],
      setting a k = setting b k) :
    (∀ t a', createTransaction X a = .ok (t, a') → ∃ b', createTransaction X b = .ok (t, b')) ∧
    (∀ err, createTransaction X a = .error err → createTransaction X b = .error err) := by
  have hS : SameOn d e := fun k hk => by
    have := h k hk
    rwa [setting_eq ha, setting_eq hb] at this
  have hP := sameOn_prepare (X := X) hi ha hb h1 h2 hS
  unfold createTransaction
  cases hpa : prepare X a with
  | error x =>
    rw [hpa] at hP
    cases hpb : prepare X b with
    | error y =>
      rw [hpb] at hP
      simp only [RelR] at hP
      subst hP
      exact ⟨fun t a' h => by simp [R_bind_err] at h, fun err h => h⟩
    | ok q => rw [hpb] at hP; exact hP.elim
  | ok p =>
    rw [hpa] at hP
    cases hpb : prepare X b with
    | error y => rw [hpb] at hP; exact hP.elim
    | ok q =>
      rw [hpb] at hP
      simp only [RelR, SamePlan] at hP
      rw [hP]
      simp only [R_bind_ok]
      cases buildTx X q.ins q.outs q.approaches q.kind q.maxFee q.pct q.changeAddress q.allowDup q.changeIdx with
      | error x => exact ⟨fun t a' h => by simp [R_bind_err] at h, fun err h => h⟩
      | ok t =>
        refine ⟨fun t' a' h => ?_, fun err h => by simp [R_bind_ok, R_pure] at h⟩
        simp only [R_bind_ok, R_pure, Except.ok.injEq, Prod.mk.injEq] at h ⊢
        exact ⟨_, h.1, rfl⟩

/-- **C57** violated: adding the documented key changes nothing, whatever its value. -/
theorem C57_violation {a : Args} {d : List (Str × PVal)} (ha : a.design = some (.dict d)) (v : PVal) {t : Tx} {a' : Args}
    (h : createTransaction X a = .ok (t, a')) :
    ∃ b', createTransaction X { a with design := some (.dict (dictSet d py"input_selection_approach" v)) } = .ok (t, b') := by
  refine (C57_only_seven_keys (X := X) (a := a) (b := { a with design := some (.dict (dictSet d py"input_selection_approach" v)) }) rfl rfl rfl ha rfl ?_).1 _ _ h
  intro k hk
  rw [setting_eq ha, setting_eq (d := dictSet d py"input_selection_approach" v) rfl, find_set_ne]
  rintro rfl
  revert hk; decide

/-! ## C58 -/

namespace Spec

/-- All amounts of the request are written in ASCII. -/
def AsciiAmounts (a : Args) : Prop :=
  ∀ l, (a.inputs = some (.list l) ∨ setting a py"outputs" = some (.list l)) → ∀ p ∈ l, ∀ s,
    entry p py"bitcoin_amount" = some (.str s) → ∀ c ∈ s, c.toNat < 128

end Spec

theorem ascii_pos {u : UniDB} {s : Str} {sat : Nat} (h : GoodAmount u s sat) (ha : ∀ c ∈ s, c.toNat < 128) : 0 < sat := by
  obtain ⟨⟨ip, fp, hs, hne, h8, hd, rfl⟩, _, c, hc, h0, hp⟩ := h
  have hsub : ∀ x ∈ ip ++ fp, x ∈ s := by
    intro x hx
    rcases hs with rfl | ⟨rfl, rfl⟩
    · simp only [List.mem_append, List.mem_cons] at hx ⊢; tauto
    · simpa using hx
  have hcm : c ∈ ip ++ fp := by
    rcases hs with rfl | ⟨rfl, rfl⟩
    · simp only [List.mem_append, List.mem_cons] at hc ⊢; tauto
    · simpa using hc
  have : numeral u (ip ++ fp) ≠ 0 := by
    rw [ne_eq, numeral_eq_zero u hd]
    intro hz
    have h1 := hz c hcm
    rw [decVal_ascii u (ha c hc)] at h1
    exact h0 (asciiDigit_char h1)
  positivity

/-- **C58**: the amounts of a request that was accepted are positive if they are written in
ASCII (see C22 for the others). -/
theorem C58_amounts_positive (hs : ∀ b, (X.sha256 b).length = 32) {a a' : Args} {t : Tx} (h : createTransaction X a = .ok (t, a')) (hA : AsciiAmounts a)
    {ins : List TxIn} {outs : List TxOut} (R : Request X a ins outs) : (∀ i ∈ ins, 0 < i.satoshi.getD 0) ∧ ∀ o ∈ outs, 0 < o.satoshi := by
  obtain ⟨p, m, fee, sel, outs', ch, q, hp, B, rfl⟩ := (create_ok hs).1 h
  have hR := prepare_request hp
  obtain ⟨rfl, rfl⟩ := request_unique R hR
  obtain ⟨insD, d, d1, insZ, outsD, outsZ, ca', mf, msp, n, hinsD, hdes, hadj, hinZ, g1, g2, g3, g4, g5, g6, g7, g8, g9, g10, houtZ, g12, g13, hopt, _, hmi, hmo, _⟩ := prepare_ok.1 hp
  have hset : setting a py"outputs" = some (.list outsD) := by
    rw [setting_eq hdes, ← (adjustDesign_ok hadj).1 _ (by decide) (by decide) (by decide)]; exact g10
  constructor
  · intro i hi
    obtain ⟨z, hz, hiz⟩ := forall₂_mem_right hmi i hi
    obtain ⟨x, hx, hxz⟩ := forall₂_mem_right hinZ z hz
    obtain ⟨ad, txid, v, idx, s, sat, e1, e2, e3, e4, e5, e6, e7⟩ := (inStep_mk hxz i).1 hiz
    obtain ⟨d, a', txid', v', idx', s', sat', rfl, hk, k1, k2, k3, k4, k5, k6, k7, k8, k9, rfl⟩ := hxz
    have k8' : dictFind d py"bitcoin_amount" = some (.str s) := e5
    rw [k8] at k8'; injection k8' with k8'; injection k8' with k8'; subst k8'
    have hpos := ascii_pos k9 (hA _ (.inl hinsD) _ hx s' e5)
    obtain rfl := AmountOf_unique e6 k9.1
    obtain ⟨hh, t, ib, n, _, _, _, _, _, _, _, _, _, _, _, _, _, _, c15, _⟩ := C24_create X hs _ _ _ _ _ e7
    rw [c15]; simpa using hpos
  · intro o ho
    obtain ⟨z, hz, hiz⟩ := forall₂_mem_right hmo o ho
    obtain ⟨x, hx, hxz⟩ := forall₂_mem_right houtZ z hz
    obtain ⟨ad, s, sat, e1, e2, e3, e4⟩ := (outStep_mk hxz o).1 hiz
    obtain ⟨d, a', s', s8, sat', rfl, hk, k1, k2, k3, k4, k5, rfl⟩ := hxz
    have k3' : dictFind d py"bitcoin_amount" = some (.str s) := e2
    rw [k3] at k3'; injection k3' with k3'; injection k3' with k3'; subst k3'
    have hpos := ascii_pos k4 (hA _ (.inr hset) _ hx s' e2)
    obtain rfl := AmountOf_unique e3 k4.1
    rw [(create_satoshi hs e4).1]; exact_mod_cast hpos

/-- the returned transaction is made of objects made by the constructors -/
theorem created_spec (hs : ∀ b, (X.sha256 b).length = 32) {a : Args} {t : Tx} {ins : List TxIn} {outs : List TxOut} {ca m : Str} {fee ch : Int} {q : ℚ}
    (C : BT.Created X a t ins outs ca m fee ch q) : Spec.Created X t := by
  obtain ⟨_, _, _, _, hI, hO⟩ := C.req
  have hout : ∀ o ∈ outs, ∃ a sat, TxOut.create X a sat = .ok o := by
    intro o ho
    obtain ⟨x, _, ad, s, sat, _, _, _, h4⟩ := forall₂_mem_right hO o ho
    exact ⟨ad, sat, h4⟩
  have hlen : t.inputs.length ≤ 252 := by
    have h1 := (chosen_prefix (outTotal outs + fee) (decide (m = py"all")) (arranged m ins)).length_le
    rw [← C.sel, (arranged_perm m ins).length_eq] at h1
    exact h1.trans C.nin
  refine ⟨⟨by rw [C.tx_eq], by rw [C.tx_eq], by rw [C.tx_eq], by rw [C.tx_eq], C.count.1, C.count.2, hlen, C.nout'⟩, ?_, ?_⟩
  · intro i hi
    rw [C.sel] at hi
    obtain ⟨x, _, ad, txid, v, idx, s, sat, _, _, _, _, _, _, h7⟩ := forall₂_mem_right hI i (chosen_subset hi)
    exact ⟨ad, txid, idx, sat, h7⟩
  · have := C.change
    generalize t.outputs = o' at this
    cases this with
    | exact _ => exact hout
    | new _ c h1 h2 h3 =>
      intro o ho
      rcases List.mem_cons.1 ho with rfl | ho
      · exact ⟨_, _, h3⟩
      · exact hout o ho
    | raised pre o post c h1 h2 h3 h4 =>
      intro x hx
      simp only [List.mem_append, List.mem_cons] at hx
      rcases hx with hx | rfl | hx
      · exact hout x (by simp [hx])
      · exact ⟨_, _, h3⟩
      · exact hout x (by simp [hx])

theorem created_consistent (hs : ∀ b, (X.sha256 b).length = 32) {a : Args} {t : Tx} {ins : List TxIn} {outs : List TxOut} {ca m : Str} {fee ch : Int} {q : ℚ}
    (C : BT.Created X a t ins outs ca m fee ch q) (hi : ∀ i ∈ ins, 0 < i.satoshi.getD 0) (ho : ∀ o ∈ outs, 0 < o.satoshi) : Consistent X t := by
  refine consistent_of_created (created_spec hs C) ?_ ?_ hs
  · intro i hii h0
    rw [C.sel] at hii
    have := hi i (chosen_subset hii)
    rw [h0] at this
    simp at this
  · have := C.change
    have hoc := ho
    generalize t.outputs = o' at this
    cases this with
    | exact _ => intro o ho; have := hoc o ho; omega
    | new _ c h1 h2 h3 =>
      intro o ho
      rcases List.mem_cons.1 ho with rfl | ho
      · rw [(create_satoshi hs h3).1]; omega
      · have := hoc o ho; omega
    | raised pre o post c h1 h2 h3 h4 =>
      intro x hx
      simp only [List.mem_append, List.mem_cons] at hx
      rcases hx with hx | rfl | hx
      · have := hoc x (by simp [hx]); omega
      · rw [(create_satoshi hs h3).1]
        have := hoc o (by simp); omega
      · have := hoc x (by simp [hx]); omega

theorem sumIn_total (t : Tx) : sumIn t = inTotal t.inputs := rfl
theorem sumOut_total (t : Tx) : sumOut t = outTotal t.outputs := rfl

/-- **C58**: a created transaction can be saved with `to_json` and loaded again, and so can the
transaction that signing it gives. -/
theorem C58_json (L : X.Laws) {a a' : Args} {t : Tx} (h : createTransaction X a = .ok (t, a')) (hA : AsciiAmounts a) :
    (∃ s, t.toJson X = .ok s ∧ Tx.fromJson X s = .ok (stored t)) ∧
    ∀ keys rvs t', t.sign X keys rvs = (t', .ok ()) → ∃ s, t'.toJson X = .ok s ∧ Tx.fromJson X s = .ok (stored t') := by
  have hs := L.sha_len
  obtain ⟨ins, outs, ca, m, fee, ch, q, C⟩ := created_of hs h
  obtain ⟨hp1, hp2⟩ := C58_amounts_positive hs h hA C.req
  have hC := created_consistent hs C hp1 hp2
  have hS := created_spec hs C
  have hsub : inTotal t.inputs ≤ inTotal ins := by
    obtain ⟨r, hr, _⟩ := C49_no_invention hs h C.req
    have := inTotal_perm hr
    rw [inTotal_append] at this
    have := inTotal_nonneg (l := r) fun i hi => C.ins_nn i (hr.mem_iff.1 (by simp [hi]))
    omega
  have hbal : sumOut t ≤ sumIn t ∧ sumIn t ≤ maxMoney := by
    rw [sumIn_total, sumOut_total]
    have h1 := C.fee_eq
    have h2 := C.fee_money.1
    have h3 := C.in_money.2
    unfold maxMoney
    constructor <;> omega
  have key : ∀ t1 : Tx, Consistent X t1 → (∃ x, t1.toDict X.uni = .ok x) → ∃ s, t1.toJson X = .ok s ∧ Tx.fromJson X s = .ok (stored t1) := by
    rintro t1 hC1 ⟨x, hx⟩
    have e : t1.toJson X = .ok (X.jsonDumps x) := by
      simp only [Tx.toJson, hx, R_bind_ok, R_pure]
    exact ⟨_, e, C29_json_round_trip X L t1 hC1 _ e⟩
  constructor
  · refine key t hC ((C29_to_dict_succeeds X hs t hC ?_).2 hbal)
    intro hsig
    rw [signed_iff] at hsig
    obtain ⟨r, _, hne⟩ := C49_no_invention hs h C.req
    obtain ⟨i, l, hl⟩ := List.exists_cons_of_ne_nil hne
    have hi : i ∈ t.inputs := by rw [hl]; simp
    obtain ⟨ad, txid, idx, sat, hc⟩ := hS.ins i hi
    obtain ⟨_, _, _, _, _, _, _, _, _, _, _, _, _, _, _, _, _, _, _, _, _, h1, _⟩ := C24_create X hs _ _ _ _ _ hc
    have := (hsig i hi).2
    rw [h1] at this; simp at this
  · intro keys rvs t' hsg
    have hC' := C29_signing_keeps_consistency X L t t' hC keys rvs hsg
    have hu := C39_only_signatures X t keys rvs
    rw [hsg] at hu
    have ho : t'.outputs = t.outputs := by
      have := congrArg Tx.outputs hu; simpa [unsignedTx] using this
    have hi : t'.inputs.map unsignedPart = t.inputs.map unsignedPart := by
      have := congrArg Tx.inputs hu; simpa [unsignedTx] using this
    have hi' : inTotal t'.inputs = inTotal t.inputs := by
      have := congrArg (fun l : List TxIn => (l.map fun i => i.satoshi.getD 0).sum) hi
      simpa [inTotal, List.map_map, Function.comp_def, unsignedPart] using this
    refine key t' hC' ((C29_to_dict_succeeds X hs t' hC' ?_).2 ?_)
    · intro _
      obtain ⟨s, h1, _⟩ := C35_signed_round_trip X L t t' hS keys rvs hsg
      obtain ⟨i1, o1, k1, k2, _, _⟩ := signed_raw X L hS hsg
      exact ⟨_, signed_hex hC'.frame k1 k2⟩
    · rw [sumIn_total, sumOut_total] at hbal ⊢
      rw [hi', ho]; exact hbal

/-! ## C72 -/

/-- **C72** violated: nothing in `create_transaction` looks for an output that is offered twice;
with the approach `all` it is always spent twice. -/
theorem C72_violation (hs : ∀ b, (X.sha256 b).length = 32) {a a' : Args} {t : Tx} (h : createTransaction X a = .ok (t, a'))
    {ins : List TxIn} {outs : List TxOut} (R : Request X a ins outs) (hm : Mode a py"all")
    (hd : ¬ (ins.map fun i => (i.prevHash, i.prevIndex)).Nodup) : ¬ (t.inputs.map fun i => (i.prevHash, i.prevIndex)).Nodup := by
  obtain ⟨m, sorted, fee, h1, _, h3, _, _, _, _, _, _, h9, _⟩ := C49_selection hs h R
  obtain rfl := mode_unique hm h1
  rw [h9 rfl]
  intro hn
  exact hd (((h3.map _).nodup_iff).1 hn)

/-- **C72**: such a call succeeds. -/
theorem C72_violation_occurs : ∃ (a a' : Args) (t : Tx), createTransaction Concrete.Xtoy a = .ok (t, a') ∧
    ¬ (t.inputs.map fun i => (i.prevHash, i.prevIndex)).Nodup := by
  have e : (match createTransaction Concrete.Xtoy Concrete.argsTwice with
    | .ok (t, _) => decide (t.inputs.map fun i => (i.prevHash, i.prevIndex)).Nodup
    | .error _ => true) = false := by decide +kernel
  cases h : createTransaction Concrete.Xtoy Concrete.argsTwice with
  | error x => rw [h] at e; simp at e
  | ok r =>
    obtain ⟨t, a'⟩ := r
    rw [h] at e
    exact ⟨_, a', t, h, by simpa using e⟩

end BT
