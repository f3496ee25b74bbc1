import Verif.Props.Same2
import Verif.Lemmas.Decide

/-! # C133: asking for less -/

namespace BT
open Spec Same

variable {X : Ext}

namespace Same

/-- for a smaller transaction the fee is not larger -/
theorem feeP_smaller {a : Args} {p : Plan} (hp : prepare X a = .ok p) {size size' : Nat} {fee : Int} (h : FeeP p.kind size (.int fee))
    (hm : Money fee) (h0 : 0 < size') (hle : size' ≤ size) (hb : size ≤ 2 ^ 53) : ∃ fee', FeeP p.kind size' (.int fee') ∧ 0 ≤ fee' ∧ fee' ≤ fee := by
  rcases h with h | ⟨r, n, h1, h2, h3⟩
  · exact ⟨fee, .inl h, hm.1, le_rfl⟩
  · injection h3 with h3; subst h3
    rcases (prepare_settings hp).2.2.2.2.2.1 with ⟨v, v0, k, _⟩ | ⟨v, q, k, hq, _⟩
    · rw [h1] at k; cases k
    · rw [h1] at k; injection k with k; subst k
      have e := feeFromRate_ok hq ⟨by omega, hb⟩ h2
      have hmono := feeOf_mono (size := size') (size' := size) hle (le_refl q) hq
      rw [← e] at hmono
      have := hm.2
      refine ⟨_, .inr ⟨_, _, h1, feeFromRate_total hq ⟨h0, by omega⟩ (by omega), rfl⟩, feeOf_nonneg hq, hmono⟩

/-- without a payment to the change address, what counts as spent is payments + fee -/
theorem spend_eq (hs : ∀ b, (X.sha256 b).length = 32) {p : Plan} {t : Tx} {m : Str} {fee : Int} {sel : List TxIn} {outs' : List TxOut} {ch : Int} {q : ℚ}
    (B : Built X p t m fee sel outs' ch q) (h : ∀ o ∈ p.outs, o.address ≠ p.changeAddress) : inTotal sel - ch = outTotal p.outs + fee := by
  rcases B.outs_eq with ⟨h1, _, h3⟩ | ⟨h1, c, h2, h3⟩
  · omega
  · rcases h2 with ⟨_, g2, _⟩ | ⟨pre, o, post, k, g1, g2, _⟩
    · rw [h3, (create_satoshi hs g2).1]; omega
    · exact absurd g2 (h o (by rw [g1]; simp))

theorem built_total (hs : ∀ b, (X.sha256 b).length = 32) {p : Plan} {t : Tx} {m : Str} {fee : Int} {sel : List TxIn} {outs' : List TxOut} {ch : Int} {q : ℚ}
    (B : Built X p t m fee sel outs' ch q) : inTotal t.inputs = outTotal t.outputs + fee := by
  have ht := B.tx_eq
  have hin : t.inputs = sel := by rw [ht]
  have hout : t.outputs = outs' := by rw [ht]
  rw [hin, hout]
  rcases B.outs_eq with ⟨h1, h2, _⟩ | ⟨h1, c, h2, _⟩
  · rw [h2]; exact h1
  · have := h2.total hs; omega

theorem built_fee (hs : ∀ b, (X.sha256 b).length = 32) {a a' : Args} {p : Plan} {t : Tx} {m : Str} {fee : Int} {sel : List TxIn} {outs' : List TxOut} {ch : Int} {q : ℚ}
    (h : createTransaction X a = .ok (t, a')) (B : Built X p t m fee sel outs' ch q) : t.fee = some fee := by
  obtain ⟨ins1, outs1, ca1, m1, fee1, ch1, q1, C⟩ := created_of hs h
  rw [created_fee hs C]
  have h1 := C.fee_eq
  have h2 := built_total hs B
  congr 1; omega

theorem built_less (hs : ∀ b, (X.sha256 b).length = 32) {a : Args} {p : Plan} (hp : prepare X a = .ok p) {t : Tx} {m : Str} {fee : Int} {sel : List TxIn}
    {outs' : List TxOut} {ch : Int} {q : ℚ} (B : Built X p t m fee sel outs' ch q) (hca : ∀ o ∈ p.outs, o.address ≠ p.changeAddress)
    {outs2 : List TxOut} (hca2 : ∀ o ∈ outs2, o.address ≠ p.changeAddress) (hn2 : ∀ o ∈ outs2, 0 ≤ o.satoshi) (htot : outTotal outs2 ≤ outTotal p.outs)
    (hlen : outs2.length ≤ p.outs.length) (h251 : outs2.length ≤ 251) (hdup : p.allowDup = true ∨ (outs2.map TxOut.address).Nodup) (b' : Args) :
    ∃ t' fee' sel' outs2' ch', Built X { p with outs := outs2, after := b' } t' m fee' sel' outs2' ch' q ∧ fee' ≤ fee ∧ sel' <+: sel := by
  have hP := prepare_planOk hs hp
  obtain ⟨fee', g1, g2, g3⟩ := feeP_smaller hp (size := 10 + 179 * p.ins.length + 34 * p.outs.length) (size' := 10 + 179 * p.ins.length + 34 * outs2.length)
    (by have := B.fee_of; push_cast; exact this) B.fee_money (by omega) (by omega) (by have := B.nin; have := B.nout; omega)
  have ho2 := outTotal_nonneg hn2
  have hperm := inTotal_perm (arranged_perm m p.ins)
  have hcov : outTotal outs2 + fee' ≤ inTotal p.ins := by have := B.covered; omega
  set sel' := chosen (outTotal outs2 + fee') (decide (m = py"all")) (arranged m p.ins) with hsel'
  have hpre : sel' <+: sel := by
    rw [B.sel_eq, hsel']
    exact chosen_mono (by omega) (by rw [hperm]; exact B.covered)
  have hreach : outTotal outs2 + fee' ≤ inTotal sel' := by rw [hsel']; exact chosen_reach (by rw [hperm]; exact hcov)
  have htotle : inTotal sel' ≤ inTotal p.ins := by
    have h1 := prefix_total (l := sel') (m := arranged m p.ins) (by rw [hsel']; exact chosen_prefix ..)
      fun i hi => hP.ins_nn i ((arranged_perm m p.ins).mem_iff.1 hi)
    rw [hperm] at h1; exact h1
  have hmoney := B.in_money.2
  have hold := spend_eq hs B hca
  have hsp := B.spend_le
  -- the change
  obtain ⟨outs2', ch', hch, hl, hspend⟩ : ∃ outs2' ch', ((inTotal sel' = outTotal outs2 + fee' ∧ outs2' = outs2 ∧ ch' = 0) ∨
      (inTotal sel' ≠ outTotal outs2 + fee' ∧
        ∃ c, Changed X outs2 p.changeAddress p.changeIdx (inTotal sel' - (outTotal outs2 + fee')) outs2' c ∧ ch' = c.satoshi)) ∧
      outs2'.length ≤ 252 ∧ inTotal sel' - ch' = outTotal outs2 + fee' := by
    by_cases he : inTotal sel' = outTotal outs2 + fee'
    · exact ⟨outs2, 0, .inl ⟨he, rfl, rfl⟩, by omega, by omega⟩
    · obtain ⟨b, hb, hbh⟩ := vBitcoinAddress_hash X hs (prepare_settings hp).2.1
      have hcr := (TxOut_create_ok X hs (a := p.changeAddress) (n := inTotal sel' - (outTotal outs2 + fee'))
        (o := outOf p.changeAddress b (inTotal sel' - (outTotal outs2 + fee')).toNat)).2
        ⟨b, _, hb, hbh, by omega, by unfold maxMoney; omega, rfl⟩
      have hfil : (outs2.filter fun o => o.address = p.changeAddress) = [] := by
        rw [List.filter_eq_nil_iff]
        intro o ho
        simpa using hca2 o ho
      refine ⟨_, _, .inr ⟨he, _, .inl ⟨hfil, hcr, rfl⟩, rfl⟩, by simp; omega, ?_⟩
      rw [(create_satoshi hs hcr).1]; omega
  refine ⟨_, fee', sel', outs2', ch', ⟨B.appr, B.impl, hdup, B.nin, by simp only; omega, ?_, ⟨g2, g3.trans B.fee_money.2⟩, g3.trans B.fee_cap, B.in_money, hcov, hsel', hch, B.pct, B.lim_money,
    by omega, B.in_ne, by simp only; omega, B.lim_ne, hl, rfl⟩, g3, hpre⟩
  have := g1; push_cast at this; exact this

end Same

/-- **C133** (what does hold): after a success, asking for less succeeds too: with the same coins and settings, at most as many payments of at most the same total, none of them to the
change address (and no address twice, unless that is allowed), a transaction is made again; it pays no higher fee and spends no other coins. -/
theorem C133_asking_less_partial (hs : ∀ b, (X.sha256 b).length = 32) {a b a' : Args} {t : Tx} {ins : List TxIn} {outs outs' : List TxOut} {ca : Str} {f : Int}
    (h : createTransaction X a = .ok (t, a')) (ha : PositiveRequest X a ins outs) (hb : PositiveRequest X b ins outs') (hS : SameSettings X.uni a b)
    (hca : setting a py"change_address" = some (.str ca)) (h1 : ∀ o ∈ outs, o.address ≠ ca) (h2 : ∀ o ∈ outs', o.address ≠ ca)
    (htot : outTotal outs' ≤ outTotal outs) (hlen : outs'.length ≤ outs.length) (h251 : outs'.length ≤ 251)
    (hd : (outs'.map fun o => o.address).Nodup ∨ a.allowDup = some (.bool true)) (hf : t.fee = some f) :
    ∃ t' b' f', createTransaction X b = .ok (t', b') ∧ t'.fee = some f' ∧ f' ≤ f ∧ t'.inputs <+: t.inputs := by
  obtain ⟨p, m, fee, sel, outs0, ch, q, hpp, B, rfl⟩ := (create_ok hs).1 h
  have hreq : Request X a ins outs := by
    obtain ⟨iD, oD, g1, g2, g3, g4, _⟩ := ha
    exact ⟨iD, oD, g1, g2, g3, g4⟩
  have hn2 : ∀ o ∈ outs', 0 ≤ o.satoshi := by
    obtain ⟨_, _, _, _, _, _, _, _, _, g⟩ := hb
    exact fun o ho => (g o ho).le
  obtain ⟨ei, eo⟩ := request_unique hreq (prepare_request hpp)
  obtain ⟨s1, _, _, _, _, _, s7, _⟩ := prepare_settings hpp
  have hca' : p.changeAddress = ca := by rw [hca] at s1; simp at s1; exact s1.symm
  obtain ⟨b', hb'⟩ := prepare_lists hs ha hb hS hpp
  rw [← ei] at hb'
  rw [← eo] at htot hlen h1
  obtain ⟨t', fee', sel', outs2', ch', B2, g1, g2⟩ := built_less hs hpp B (by rw [hca']; exact h1) (by rw [hca']; exact h2) hn2 htot hlen h251
    (by rcases hd with h | h; exacts [.inr h, .inl (s7.2 h)]) b'
  have hr := (create_ok hs).2 ⟨_, m, fee', sel', outs2', ch', q, hb', B2, rfl⟩
  refine ⟨t', b', fee', hr, built_fee hs hr B2, ?_, ?_⟩
  · rw [built_fee hs h B] at hf
    injection hf with hf
    omega
  · have e1 : t'.inputs = sel' := by rw [B2.tx_eq]
    have e2 : t.inputs = sel := by rw [B.tx_eq]
    rw [e1, e2]; exact g2

end BT
