import Verif.OrderSpec
import Verif.Props.CliRun

/-! # Lemmas about the ledger -/

namespace BT.Ledger
open BT BT.Spec

variable {X : Ext}

theorem described_unique {p : PVal} {c c' : Coin} (h : c.Described X p) (h' : c'.Described X p) : c = c' := by
  obtain ⟨_, h1, ⟨v, h2, h3⟩, ⟨s, h4, h5⟩, a, h6, h7⟩ := h
  obtain ⟨_, g1, ⟨w, g2, g3⟩, ⟨s', g4, g5⟩, a', g6, g7⟩ := h'
  rw [h1] at g1; rw [h2] at g2; rw [h4] at g4; rw [h6] at g6
  simp only [Option.some.injEq, PVal.str.injEq, hex_inj_iff] at g1 g2 g4 g6
  subst g2 g4 g6
  rw [h3] at g3
  have e2 : c.index = c'.index := by simpa using g3
  have e3 := AmountOf_unique h5 g5
  have e4 := addressOf_unique h7 g7
  cases c; cases c'
  simp only at g1 e2 e3 e4
  subst g1 e2 e3 e4; rfl

theorem described_list : ∀ {l : List PVal} {cs cs' : List Coin}, List.Forall₂ (Coin.Described X) l cs → List.Forall₂ (Coin.Described X) l cs' → cs = cs' := by
  intro l cs cs' h
  induction h generalizing cs' with
  | nil => intro h; cases h; rfl
  | cons a _ ih => intro h; cases h with | cons b t => rw [described_unique a b, ih t]

theorem paid_list : ∀ {l : List PVal} {ds ds' : List Payment}, List.Forall₂ (Payment.Described X) l ds → List.Forall₂ (Payment.Described X) l ds' → ds = ds' := by
  intro l ds ds' h
  induction h generalizing ds' with
  | nil => intro h; cases h; rfl
  | cons p _ ih =>
    intro h
    cases h with
    | cons q t =>
      rw [ih t]
      obtain ⟨⟨s, p1, p2⟩, a, p3, p4⟩ := p
      obtain ⟨⟨s', q1, q2⟩, a', q3, q4⟩ := q
      rw [p1] at q1; injection q1 with q1; injection q1 with q1; subst q1
      rw [p3] at q3; injection q3 with q3; injection q3 with q3; subst q3
      have e1 := AmountOf_unique p2 q2
      have e2 := addressOf_unique p4 q4
      rename_i d _ _ _ d' _
      cases d; cases d'
      simp only at e1 e2
      subst e1 e2; rfl

theorem madeBy_unique {d d' : Payment} {r : RawOut} (h : d.MadeBy r) (h' : d'.MadeBy r) : d = d' := by
  obtain ⟨_, h1, h2⟩ := h
  obtain ⟨_, g1, g2⟩ := h'
  rw [h2] at g2
  simp only [p2pkh, List.append_assoc, List.append_cancel_left_eq, List.append_cancel_right_eq] at g2
  cases d; cases d'
  simp only at h1 g1 g2
  rw [← h1, ← g1, g2]

theorem madeBy_list : ∀ {l : List RawOut} {cs cs' : List Payment}, List.Forall₂ Payment.MadeBy cs l → List.Forall₂ Payment.MadeBy cs' l → cs = cs' := by
  intro l cs cs' h
  induction h generalizing cs' with
  | nil => intro h; cases h; rfl
  | cons a _ ih => intro h; cases h with | cons b t => rw [madeBy_unique a b, ih t]

theorem madeBy_total : ∀ {l : List RawOut} {cs : List Payment}, List.Forall₂ Payment.MadeBy cs l → (l.map fun o => leNat o.value).sum = payTotal cs := by
  intro l cs h
  induction h with
  | nil => rfl
  | cons a _ ih => simp only [List.map_cons, List.sum_cons, ih, payTotal, a.2.1]

theorem spentBy_point {c : Coin} {r : RawIn} (h : c.SpentBy r) : c.point = r.point := by
  obtain ⟨h1, _, h2⟩ := h
  simp [Coin.point, RawIn.point, h1, h2]

theorem spentBy_points : ∀ {cs : List Coin} {rs : List RawIn}, List.Forall₂ Coin.SpentBy cs rs → rs.map RawIn.point = cs.map Coin.point := by
  intro cs rs h
  induction h with
  | nil => rfl
  | cons a _ ih => simp [ih, spentBy_point a]

theorem coinTotal_append (a b : List Coin) : coinTotal (a ++ b) = coinTotal a + coinTotal b := by simp [coinTotal]

theorem coinTotal_perm {a b : List Coin} (h : a.Perm b) : coinTotal a = coinTotal b := (h.map _).sum_nat

theorem made_total (id : Bytes) (paid : List Payment) : coinTotal (made id paid) = payTotal paid := by
  unfold coinTotal payTotal made
  congr 1
  exact List.ext_getElem? fun j => by simp [List.getElem?_mapIdx, Option.map_map, Function.comp_def]

/-- when the ledger consists of the coins spent and the rest, the filters find them -/
theorem split_filter {L spent rest : List Coin} {ins : List RawIn} (hD : Distinct L) (hp : (spent ++ rest).Perm L)
    (hs : List.Forall₂ Coin.SpentBy spent ins) :
    (spentFrom L ins).Perm spent ∧ (L.filter fun c => c.point ∉ ins.map RawIn.point).Perm rest := by
  have hpts := spentBy_points hs
  have hn : ((spent ++ rest).map Coin.point).Nodup := ((hp.map _).nodup_iff).2 hD
  rw [List.map_append, List.nodup_append] at hn
  have h1 : ∀ c ∈ spent, c.point ∈ ins.map RawIn.point := fun c hc => by rw [hpts]; exact List.mem_map_of_mem hc
  have h2 : ∀ c ∈ rest, c.point ∉ ins.map RawIn.point := by
    intro c hc hm
    rw [hpts] at hm
    exact hn.2.2 _ hm _ (List.mem_map_of_mem hc) rfl
  constructor
  · refine ((hp.filter _).symm).trans ?_
    rw [List.filter_append, List.filter_eq_self.2 (fun c hc => by simpa using h1 c hc), List.filter_eq_nil_iff.2 (fun c hc => by simpa using h2 c hc), List.append_nil]
  · refine ((hp.filter _).symm).trans ?_
    rw [List.filter_append, List.filter_eq_nil_iff.2 (fun c hc => by simpa using h1 c hc), List.filter_eq_self.2 (fun c hc => by simpa using h2 c hc), List.nil_append]

theorem unlocks_length {owner msg script : Bytes} (h : Unlocks X owner msg script) : script.length ≤ 252 := by
  obtain ⟨der, pk, r, s, rfl, h1, h2, _⟩ := h
  simp only [List.length_append, List.length_cons, List.length_nil]; omega

theorem changeTo_owner {owner : Bytes} {s : Nat} {asked paid : List Payment} (h : ChangeTo owner s asked paid) (ho : owner.length = 20)
    (ha : ∀ d ∈ asked, d.owner.length = 20) : ∀ d ∈ paid, d.owner.length = 20 := by
  cases h with
  | exact => exact ha
  | new => intro d hd; rcases List.mem_cons.1 hd with rfl | hd; exacts [ho, ha d hd]
  | raised pre n post =>
    intro d hd
    rcases List.mem_append.1 hd with hd | hd
    · exact ha d (List.mem_append_left _ hd)
    · rcases List.mem_cons.1 hd with rfl | hd
      · exact ho
      · exact ha d (List.mem_append_right _ (List.mem_cons_of_mem _ hd))

theorem mem_forall₂ {α β : Type} {R : α → β → Prop} : ∀ {a : List α} {b : List β}, List.Forall₂ R a b → ∀ y ∈ b, ∃ x ∈ a, R x y := by
  intro a b h
  induction h with
  | nil => simp
  | cons h _ ih =>
    intro y hy
    rcases List.mem_cons.1 hy with rfl | hy
    · exact ⟨_, List.mem_cons_self .., h⟩
    · obtain ⟨x, hx, hr⟩ := ih y hy; exact ⟨x, List.mem_cons_of_mem _ hx, hr⟩

/-- the keys the program loads are those given to it -/
theorem loadKeys_given {fs : FS} {r : RawArgs} {keys : List Str} (h : loadKeys X fs r = .ok keys) {key : Str} (hk : key ∈ keys) : KeyGiven X fs r key := by
  simp only [loadKeys, R_bind_eq_ok, R_pure, Except.ok.injEq] at h
  obtain ⟨k2, h2, files, hf, k3, h3, rfl⟩ := h
  have rd : ∀ (fl ks : List Str), mapR (readKey X fs) fl = .ok ks → key ∈ ks → ∃ f ∈ fl, ∃ s, fs.read f = .ok s ∧ key = pyStrip' X.uni.space s := by
    intro fl ks hm hmem
    obtain ⟨f, hf, hr⟩ := forall₂_mem_right (mapR_ok.1 hm) key hmem
    simp only [readKey, R_bind_eq_ok, R_pure, Except.ok.injEq] at hr
    obtain ⟨s, h1, h2⟩ := hr
    exact ⟨f, hf, s, h1, h2.symm⟩
  rcases List.mem_append.1 hk with hk | hk
  · rcases List.mem_append.1 hk with hk | hk
    · exact .inl (List.mem_flatten.1 hk)
    · obtain ⟨f, hf, s, h1, h2⟩ := rd _ _ h2 hk
      obtain ⟨l, hl, hfl⟩ := List.mem_flatten.1 hf
      exact .inr (.inl ⟨l, hl, f, hfl, s, h1, h2⟩)
  · obtain ⟨f, hf', s, h1, h2⟩ := rd _ _ h3 hk
    right; right
    unfold keyFilesOfDir at hf
    cases hd : r.privateKeyDir with
    | none => rw [hd] at hf; simp only [given, Except.ok.injEq] at hf; subst hf; simp at hf'
    | some d =>
      rw [hd] at hf
      cases d with
      | nil => simp only [given, Except.ok.injEq] at hf; subst hf; simp at hf'
      | cons c cs =>
        simp only [given, R_bind_eq_ok, R_pure, Except.ok.injEq] at hf
        obtain ⟨l, hl, rfl⟩ := hf
        obtain ⟨n, hn, rfl⟩ := List.mem_map.1 hf'
        rw [List.mem_filter] at hn
        exact ⟨_, l, rfl, by simp, hl, n, hn.1, hn.2, s, h1, h2⟩

/-- what one use of the program does with the ledger -/
theorem step_full (W : X.Laws) {L : List Coin} {u : Use}
    (hL : ListsCoins X u.fs u.args L) (ht : u.args.task = py"create_transaction" ∨ u.args.task = py"create_sign_and_verify_transaction_hex")
    (hst : exitStatus (cliRun X u.fs u.sh u.setup u.args) = 0) :
    ∃ (ins : List RawIn) (outs : List RawOut) (spent rest : List Coin) (paid : List Payment) (fee : Nat) (asked : List Payment) (owner : Bytes), Prints X u ins outs ∧
      (spent ++ rest).Perm L ∧ List.Forall₂ Coin.SpentBy spent ins ∧ spent ≠ [] ∧
      List.Forall₂ Payment.MadeBy paid outs ∧ coinTotal spent = payTotal paid + fee ∧ (∀ cap, CapIs X u.fs u.args cap → fee ≤ cap) ∧
      (∀ (j : Nat) (c : Coin) (i : RawIn), spent[j]? = some c → ins[j]? = some i → Unlocks X c.owner (signedMessage ins outs j c.owner) i.script) ∧
      AsksFor X u asked owner ∧ ChangeTo owner (coinTotal spent - payTotal asked - fee) asked paid ∧ payTotal asked + fee ≤ coinTotal spent ∧
      (∀ c ∈ spent, HoldsKey X u c.owner) ∧ (∀ c ∈ spent, Listed X u c) ∧
      ∀ coins design, (∃ fi ti insD, u.args.inputFile = some fi ∧ u.fs.read fi = .ok ti ∧ X.jsonLoads ti = .ok (.list insD) ∧ List.Forall₂ (Coin.Described X) insD coins) →
        (∃ fd td, u.args.designFile = some fd ∧ u.fs.read fd = .ok td ∧ X.jsonLoads td = .ok design) →
        spent.Subperm coins ∧ DesignFee X design coins.length asked.length fee := by
  obtain ⟨coins, spent, unused, asked, paid, ins, outs, fee, fi, fd, ti, td, insD, outsD, design, ca, owner, f1, f2, f3, f4, f5, f6, d1, d2, d3, d4, d5,
    t1, t2, t3, t4, t5, t6, v1, v2, v3, v4, l1, l2, ⟨keys, k1, k2⟩, s1⟩ := C74_program W u.fs u.sh u.setup u.args ht hst
  obtain ⟨coins', e1, e2⟩ := hL fi ti insD f1 f2 f3
  obtain rfl := described_list d1 e1
  have hsub : spent.Subperm L := ((List.Sublist.subperm (List.sublist_append_left spent unused)).trans t3.subperm).trans e2
  obtain ⟨rest, hrest⟩ : ∃ rest, (spent ++ rest).Perm L := by
    obtain ⟨l, hl, hs⟩ := hsub
    obtain ⟨rest, hr⟩ := hs.exists_perm_append
    exact ⟨rest, (hl.symm.append_right rest).trans hr.symm⟩
  have hw : Wire ins outs := by
    refine ⟨fun r hr => ?_, fun r hr => ?_, l1, l2⟩
    · obtain ⟨j, hj, rfl⟩ := List.mem_iff_getElem.1 hr
      have hj' : j < spent.length := by rw [t2.length_eq]; exact hj
      have h1 := (List.forall₂_iff_get.1 t2).2 j hj' hj
      have h2 := s1 j spent[j] ins[j] (List.getElem?_eq_getElem hj') (List.getElem?_eq_getElem hj)
      obtain ⟨p, _, hp⟩ := mem_forall₂ d1 spent[j] (t3.subset (List.mem_append_left _ (List.getElem_mem hj')))
      refine ⟨?_, h1.2.1, unlocks_length h2⟩
      have := h1.1
      simp only [List.get_eq_getElem] at this
      rw [this, List.length_reverse]; exact hp.1
    · have ho : ∀ d ∈ paid, d.owner.length = 20 := changeTo_owner t6 d5.1 fun d hd => by
        obtain ⟨p, _, _, a, _, hp⟩ := mem_forall₂ d3 d hd
        exact hp.1
      obtain ⟨d, hd, h1, _, h2⟩ := mem_forall₂ t5 r hr
      refine ⟨h1, ?_⟩
      rw [h2]; simp only [p2pkh, List.length_append, List.length_cons, List.length_nil, ho d hd]; omega
  refine ⟨ins, outs, spent, rest, paid, fee, asked, owner, ⟨ht, hst, t1, hw⟩, hrest, t2, t4, t5, v1, ?_, s1,
    ⟨fd, td, design, outsD, ca, f4, f5, f6, d2, d3, d4, d5⟩, t6, v2, fun c hc => ?_, fun c hc => ?_, ?_⟩
  · rintro cap ⟨fd', td', design', v, g1, g2, g3, g4, g5⟩
    rw [f4] at g1; injection g1 with g1; subst g1
    rw [f5] at g2; injection g2 with g2; subst g2
    rw [f6] at g3; injection g3 with g3; subst g3
    exact_mod_cast v4 v cap g4 g5
  · obtain ⟨key, q1, q2⟩ := k2 c hc
    exact ⟨key, loadKeys_given k1 q1, q2⟩
  · obtain ⟨p, hp, hp2⟩ := mem_forall₂ d1 c (t3.subset (List.mem_append_left _ hc))
    exact ⟨fi, ti, insD, f1, f2, f3, p, hp, hp2⟩
  · rintro coins' design' ⟨fi', ti', insD', g1, g2, g3, g4⟩ ⟨fd', td', k1, k2, k3⟩
    rw [f1] at g1; injection g1 with g1; subst g1
    rw [f2] at g2; injection g2 with g2; subst g2
    rw [f3] at g3; injection g3 with g3; injection g3 with g3; subst g3
    rw [f4] at k1; injection k1 with k1; subst k1
    rw [f5] at k2; injection k2 with k2; subst k2
    rw [f6] at k3; injection k3 with k3; subst k3
    obtain rfl := described_list d1 g4
    exact ⟨(List.Sublist.subperm (List.sublist_append_left spent unused)).trans t3.subperm, v3⟩

/-- what one use of the program does with the ledger -/
theorem step_facts (W : X.Laws) {L : List Coin} {u : Use}
    (hL : ListsCoins X u.fs u.args L) (ht : u.args.task = py"create_transaction" ∨ u.args.task = py"create_sign_and_verify_transaction_hex")
    (hst : exitStatus (cliRun X u.fs u.sh u.setup u.args) = 0) :
    ∃ (ins : List RawIn) (outs : List RawOut) (spent rest : List Coin) (paid : List Payment) (fee : Nat), Prints X u ins outs ∧
      (spent ++ rest).Perm L ∧ List.Forall₂ Coin.SpentBy spent ins ∧ spent ≠ [] ∧
      List.Forall₂ Payment.MadeBy paid outs ∧ coinTotal spent = payTotal paid + fee ∧ (∀ cap, CapIs X u.fs u.args cap → fee ≤ cap) ∧
      ∀ (j : Nat) (c : Coin) (i : RawIn), spent[j]? = some c → ins[j]? = some i → Unlocks X c.owner (signedMessage ins outs j c.owner) i.script := by
  obtain ⟨ins, outs, spent, rest, paid, fee, asked, owner, h1, h2, h3, h4, h5, h6, h7, h8, _⟩ := step_full W hL ht hst
  exact ⟨ins, outs, spent, rest, paid, fee, h1, h2, h3, h4, h5, h6, h7, h8⟩

/-- a text is the serialisation of one transaction only -/
theorem prints_unique {u : Use} {ins ins' : List RawIn} {outs outs' : List RawOut} (h : Prints X u ins outs) (h' : Prints X u ins' outs') :
    ins = ins' ∧ outs = outs' := by
  have e := h.text.symm.trans h'.text
  simp only [List.cons.injEq, hex_inj_iff, and_true] at e
  obtain ⟨a1, a2, a3, a4⟩ := h.wire
  obtain ⟨b1, b2, b3, b4⟩ := h'.wire
  obtain ⟨q1, q2, _⟩ := txBytes_prefix a1 b1 a2 b2 a3 b3 a4 b4 (x := []) (x' := []) (by simpa using e)
  exact ⟨q1, q2⟩

end BT.Ledger
