import Verif.Props.Same
import Verif.Lemmas.Relax

/-! # C131: the order of the payments, C132: asking for more -/

namespace BT
open Spec Same

variable {X : Ext}

namespace Same

theorem core_lists (ca fee mf rate pct ap : Option PVal) (dup idx : PVal) (ins : List TxIn) (outs : List TxOut) :
    core X ca fee mf rate pct ap dup idx ins outs = (core X ca fee mf rate pct ap dup idx [] []).map fun p => { p with ins := ins, outs := outs } := by
  unfold core
  cases adjNum X.uni fee with
  | error e => rfl
  | ok fee =>
  simp only [R_bind_ok]
  cases adjNum X.uni mf with
  | error e => rfl
  | ok mf =>
  simp only [R_bind_ok]
  cases (ca.isNone || mf.isNone || pct.isNone) with
  | true => rfl
  | false =>
  simp only [Bool.false_eq_true, if_false, R_pure, R_bind_ok]
  cases vBitcoinAddressP X (ca.getD .none) with
  | error e => rfl
  | ok s =>
  simp only [R_bind_ok]
  cases vWholeNumber (mf.getD .none) with
  | error e => rfl
  | ok s =>
  simp only [R_bind_ok]
  cases pctOf X.uni (pct.getD .none) with
  | error e => rfl
  | ok s =>
  simp only [R_bind_ok]
  cases validateFees X.uni (fee.getD .none) ((rate.map strIfInt).getD .none) with
  | error e => rfl
  | ok s =>
  simp only [R_bind_ok]
  cases validateApproaches (ap.getD .none) with
  | error e => rfl
  | ok s =>
  simp only [R_bind_ok]
  cases validateOptions dup idx with
  | error e => rfl
  | ok s =>
  simp only [R_bind_ok]
  cases feeKind X.uni (fee.getD .none) ((rate.map strIfInt).getD .none) with
  | error e => rfl
  | ok s => rfl

/-- another good list of payments (and coins), settings that mean the same -/
theorem prepare_lists (hs : ∀ b, (X.sha256 b).length = 32) {a b : Args} {ins ins' : List TxIn} {outs outs' : List TxOut} {p : Plan}
    (ha : PositiveRequest X a ins outs) (hb : PositiveRequest X b ins' outs') (h : SameSettings X.uni a b) (hp : prepare X a = .ok p) :
    ∃ b', prepare X b = .ok { p with ins := ins', outs := outs', after := b' } := by
  obtain ⟨d, hd, ca⟩ := request_core hs ha
  obtain ⟨d', hd', cb⟩ := request_core hs hb
  have e : ∀ k, setting a k = dictFind d k := fun k => by unfold setting; rw [hd]; rfl
  have e' : ∀ k, setting b k = dictFind d' k := fun k => by unfold setting; rw [hd']; rfl
  obtain ⟨h1, h2, h3, h4, h5, h6, h7, h8⟩ := h
  rw [e, e'] at h1 h2 h3 h4 h5 h6
  rw [core_same h1 h2 h3 h4 h5 h6 h7 h8, core_lists] at ca
  rw [core_lists] at cb
  rw [hp] at ca
  cases hc : core X (dictFind d' py"change_address") (dictFind d' py"fee") (dictFind d' py"max_fee") (dictFind d' py"fee_rate")
      (dictFind d' py"max_spend_percentage") (dictFind d' py"input_selection_approaches") (b.allowDup.getD .none) (b.changeIdx.getD .none) [] [] with
  | error x => rw [hc] at ca; simp [Except.map] at ca
  | ok p0 =>
    rw [hc] at ca cb
    simp only [Except.map, Except.ok.injEq] at ca
    cases hq : prepare X b with
    | error x => rw [hq] at cb; simp [Except.map] at cb
    | ok q =>
      rw [hq] at cb
      simp only [Except.map, Except.ok.injEq] at cb
      refine ⟨q.after, ?_⟩
      obtain ⟨i1, o1, a1, k1, m1, f1, c1, u1, x1, t1⟩ := p
      obtain ⟨i2, o2, a2, k2, m2, f2, c2, u2, x2, t2⟩ := q
      obtain ⟨i3, o3, a3, k3, m3, f3, c3, u3, x3, t3⟩ := p0
      simp only [blank, Plan.mk.injEq] at ca cb ⊢
      obtain ⟨-, -, rfl, rfl, rfl, rfl, rfl, rfl, rfl, -⟩ := ca
      obtain ⟨rfl, rfl, rfl, rfl, rfl, rfl, rfl, rfl, rfl, -⟩ := cb
      rfl

theorem outTotal_perm {l l' : List TxOut} (h : l.Perm l') : outTotal l = outTotal l' := by
  unfold outTotal; exact (h.map _).sum_eq

theorem changed_perm {outs outs' outs2 : List TxOut} {addr : Str} {idx : PVal} {s : Int} {c : TxOut}
    (h : Changed X outs addr idx s outs' c) (hp : outs2.Perm outs) (h1 : (outs.filter fun o => o.address = addr).length ≤ 1) :
    ∃ outs2', Changed X outs2 addr idx s outs2' c ∧ outs2'.Perm outs' := by
  have hpf := hp.filter fun o => decide (o.address = addr)
  rcases h with ⟨e1, e2, rfl⟩ | ⟨pre, o, post, k, rfl, e2, e3, e4, e5, rfl, e7⟩
  · rw [e1] at hpf
    exact ⟨c :: outs2, .inl ⟨hpf.eq_nil, e2, rfl⟩, hp.cons c⟩
  · have hmem : o ∈ outs2 := hp.mem_iff.2 (by simp)
    obtain ⟨pre2, post2, rfl⟩ := List.append_of_mem hmem
    have hcnt : ((pre2 ++ o :: post2).filter fun o => decide (o.address = addr)).length = 1 := by
      have := hpf.length_eq
      rcases e7 with h | ⟨h, _⟩
      · rw [this, h]
      · omega
    have hrest : (pre2 ++ post2).Perm (pre ++ post) := by
      have := (List.perm_middle.symm.trans hp).trans List.perm_middle
      exact (List.perm_cons o).1 this
    refine ⟨pre2 ++ c :: post2, .inr ⟨pre2, o, post2, _, rfl, e2, rfl, e4, e5, rfl, .inl hcnt⟩, ?_⟩
    exact (List.perm_middle.trans (hrest.cons c)).trans List.perm_middle.symm

/-- building with the payments in another order -/
theorem built_outs {p : Plan} {t : Tx} {m : Str} {fee : Int} {sel : List TxIn} {outs' : List TxOut} {ch : Int} {q : ℚ}
    (B : Built X p t m fee sel outs' ch q) {outs2 : List TxOut} (hp : outs2.Perm p.outs)
    (h1 : (p.outs.filter fun o => o.address = p.changeAddress).length ≤ 1) (b' : Args) :
    ∃ outs2', Built X { p with outs := outs2, after := b' } { t with outputs := outs2' } m fee sel outs2' ch q ∧ outs2'.Perm t.outputs := by
  have htot := outTotal_perm hp
  have hlen := hp.length_eq
  obtain ⟨outs2', hch, hperm⟩ : ∃ outs2', ((inTotal sel = outTotal outs2 + fee ∧ outs2' = outs2 ∧ ch = 0) ∨
      (inTotal sel ≠ outTotal outs2 + fee ∧
        ∃ c, Changed X outs2 p.changeAddress p.changeIdx (inTotal sel - (outTotal outs2 + fee)) outs2' c ∧ ch = c.satoshi)) ∧ outs2'.Perm outs' := by
    rw [htot]
    rcases B.outs_eq with ⟨k1, k2, k3⟩ | ⟨k1, c, k2, k3⟩
    · exact ⟨outs2, .inl ⟨k1, rfl, k3⟩, by rw [k2]; exact hp⟩
    · obtain ⟨o2, g1, g2⟩ := changed_perm k2 hp h1
      exact ⟨o2, .inr ⟨k1, c, g1, k3⟩, g2⟩
  have hout : t.outputs = outs' := by rw [B.tx_eq]
  refine ⟨outs2', ⟨B.appr, B.impl, ?_, B.nin, by rw [hlen]; exact B.nout, by rw [hlen]; exact B.fee_of, B.fee_money, B.fee_cap, B.in_money,
    by rw [htot]; exact B.covered, by rw [htot]; exact B.sel_eq, hch, B.pct, B.lim_money, B.spend_nn, B.in_ne, B.spend_le, B.lim_ne,
    by rw [hperm.length_eq]; exact B.nout', ?_⟩, by rw [hout]; exact hperm⟩
  · rcases B.dup with h | h
    · exact .inl h
    · exact .inr ((hp.map _).nodup_iff.2 h)
  · rw [hperm.length_eq]
    conv_lhs => rw [B.tx_eq]

theorem selectLoop_mono (all : Bool) : ∀ (l : List TxIn) (t t' tot : Int), t ≤ t' → selectLoop t all tot l <+: selectLoop t' all tot l := by
  intro l
  induction l with
  | nil => intro t t' tot _; exact List.prefix_rfl
  | cons x l ih =>
    intro t t' tot h
    unfold selectLoop
    simp only
    by_cases h1 : tot + x.amount ≥ t ∧ all = false
    · rw [if_pos h1]
      split
      · exact List.prefix_rfl
      · exact ⟨_, rfl⟩
    · rw [if_neg h1, if_neg (by rintro ⟨h2, h3⟩; exact h1 ⟨by omega, h3⟩)]
      exact List.cons_prefix_cons.2 ⟨rfl, ih t t' _ h⟩

theorem chosen_mono {t t' : Int} {all : Bool} {l : List TxIn} (h : t ≤ t') (h' : t' ≤ inTotal l) : chosen t all l <+: chosen t' all l := by
  by_cases e' : inTotal l = t'
  · have : chosen t' all l = l := by unfold chosen; rw [if_pos e']
    rw [this]; exact chosen_prefix ..
  · have e : inTotal l ≠ t := by omega
    unfold chosen
    rw [if_neg e, if_neg e']
    exact selectLoop_mono all l t t' 0 h

end Same

/-- **C131**: the payments may be listed in any order (as long as at most one of them goes to the change address): the same transaction is made, except for the order of its
outputs. -/
theorem C131_any_order (hs : ∀ b, (X.sha256 b).length = 32) {a b a' : Args} {t : Tx} {ins : List TxIn} {outs outs' : List TxOut} {ca : Str}
    (h : createTransaction X a = .ok (t, a')) (ha : PositiveRequest X a ins outs) (hb : PositiveRequest X b ins outs') (hp : outs'.Perm outs)
    (hS : SameSettings X.uni a b) (hca : setting a py"change_address" = some (.str ca)) (h1 : (outs.filter fun o => o.address = ca).length ≤ 1) :
    ∃ t' b', createTransaction X b = .ok (t', b') ∧ t'.outputs.Perm t.outputs ∧ t' = { t with outputs := t'.outputs } := by
  obtain ⟨p, m, fee, sel, outs0, ch, q, hpp, B, rfl⟩ := (create_ok hs).1 h
  have hreq : Request X a ins outs := by
    obtain ⟨iD, oD, g1, g2, g3, g4, _⟩ := ha
    exact ⟨iD, oD, g1, g2, g3, g4⟩
  obtain ⟨ei, eo⟩ := request_unique hreq (prepare_request hpp)
  have hca' : p.changeAddress = ca := by
    have h1 := (prepare_settings hpp).1
    rw [hca] at h1; simp at h1; exact h1.symm
  obtain ⟨b', hb'⟩ := prepare_lists hs ha hb hS hpp
  rw [← ei] at hb'
  rw [← eo] at hp h1
  obtain ⟨o2, B2, hperm⟩ := built_outs B hp (by rw [hca']; exact h1) b'
  exact ⟨_, b', (create_ok hs).2 ⟨_, m, fee, sel, o2, ch, q, hb', B2, rfl⟩, hperm, rfl⟩

/-- **C132**: when the same coins are offered and the same approach is used, a call that needs at least as much (payments and fee together) spends at least the same coins: the inputs of the
first transaction are the first inputs of the second one. -/
theorem C132_more_spends_more (hs : ∀ b, (X.sha256 b).length = 32) {a b a' b' : Args} {t t' : Tx} {ins : List TxIn} {outs outs' : List TxOut} {m : Str} {f f' : Int}
    (h : createTransaction X a = .ok (t, a')) (h' : createTransaction X b = .ok (t', b')) (R : Request X a ins outs) (R' : Request X b ins outs')
    (hm : Mode a m) (hm' : Mode b m) (hf : t.fee = some f) (hf' : t'.fee = some f') (hle : outTotal outs + f ≤ outTotal outs' + f') :
    t.inputs <+: t'.inputs := by
  obtain ⟨ins1, outs1, ca, m1, fee, ch, q, C⟩ := created_of hs h
  obtain ⟨ins2, outs2, ca', m2, fee', ch', q', C'⟩ := created_of hs h'
  obtain ⟨rfl, rfl⟩ := request_unique R C.req
  obtain ⟨rfl, rfl⟩ := request_unique R' C'.req
  have e1 := created_fee hs C
  have e2 := created_fee hs C'
  rw [hf] at e1; rw [hf'] at e2
  injection e1 with e1; injection e2 with e2
  subst e1; subst e2
  obtain rfl := mode_unique hm C.mode
  obtain rfl := mode_unique hm' C'.mode
  rw [C.sel, C'.sel]
  exact chosen_mono hle (by rw [inTotal_perm (arranged_perm _ _)]; exact C'.covered)

end BT
