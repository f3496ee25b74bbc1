import Verif.Lemmas.Ledger
import Verif.Props.Real

/-!
# The program and the ledger (C135, C136)
-/

namespace BT
open Spec Ledger

variable {X : Ext}

namespace Ledger

/-- from the split of the ledger to the rules -/
theorem valid_of {L spent rest : List Coin} {ins : List RawIn} {outs : List RawOut} {paid : List Payment} {fee : Nat} (hD : Distinct L) (hp : (spent ++ rest).Perm L)
    (hs : List.Forall₂ Coin.SpentBy spent ins) (hne : spent ≠ []) (hm : List.Forall₂ Payment.MadeBy paid outs) (hv : coinTotal spent = payTotal paid + fee)
    (hu : ∀ (j : Nat) (c : Coin) (i : RawIn), spent[j]? = some c → ins[j]? = some i → Unlocks X c.owner (signedMessage ins outs j c.owner) i.script) : Valid X L ins outs := by
  refine ⟨?_, ?_, ?_, ?_⟩
  · intro h; rw [h] at hs; cases hs; exact hne rfl
  · rw [spentBy_points hs]
    have hn : ((spent ++ rest).map Coin.point).Nodup := ((hp.map _).nodup_iff).2 hD
    rw [List.map_append, List.nodup_append] at hn
    exact hn.1
  · intro j r hj
    have hj1 : j < ins.length := (List.getElem?_eq_some_iff.1 hj).1
    have hj2 : j < spent.length := by rw [hs.length_eq]; exact hj1
    have h1 := (List.forall₂_iff_get.1 hs).2 j hj2 hj1
    obtain ⟨_, rfl⟩ := List.getElem?_eq_some_iff.1 hj
    exact ⟨spent[j], hp.subset (List.mem_append_left _ (List.getElem_mem hj2)), spentBy_point h1, hu j _ _ (List.getElem?_eq_getElem hj2) hj⟩
  · rw [madeBy_total hm, coinTotal_perm (split_filter hD hp hs).1, hv]; omega

/-- the ledger afterwards -/
theorem applied_of {L L' spent rest : List Coin} {ins : List RawIn} {outs : List RawOut} {paid : List Payment} (hD : Distinct L) (hp : (spent ++ rest).Perm L)
    (hs : List.Forall₂ Coin.SpentBy spent ins) (hm : List.Forall₂ Payment.MadeBy paid outs) (ha : Applied X L ins outs L') :
    L'.Perm (made (idOf X (txBytes ins outs)) paid ++ rest) := by
  obtain ⟨paid', h1, rfl⟩ := ha
  obtain rfl := madeBy_list hm h1
  exact (split_filter hD hp hs).2.append_left _

end Ledger

/-- **C135**: if the input file lists coins that are unspent on the ledger, each at most once, and `create_transaction` ends with exit status 0, then the
transaction it printed is accepted by the rules of the ledger, and when it is put on the ledger the total of all coins falls exactly by the fee, which is at most
`max_fee`. -/
theorem C135_accepted (W : X.Laws) (L : List Coin) (u : Use) (hD : Distinct L) (hL : ListsCoins X u.fs u.args L)
    (ht : u.args.task = py"create_transaction" ∨ u.args.task = py"create_sign_and_verify_transaction_hex")
    (hst : exitStatus (cliRun X u.fs u.sh u.setup u.args) = 0) :
    ∃ ins outs fee, Prints X u ins outs ∧ Valid X L ins outs ∧ (∃ L', Applied X L ins outs L') ∧
      (∀ L', Applied X L ins outs L' → coinTotal L = coinTotal L' + fee) ∧ ∀ cap, CapIs X u.fs u.args cap → fee ≤ cap := by
  obtain ⟨ins, outs, spent, rest, paid, fee, h1, h2, h3, h4, h5, h6, h7, h8⟩ := step_facts W hL ht hst
  refine ⟨ins, outs, fee, h1, valid_of hD h2 h3 h4 h5 h6 h8, ⟨_, paid, h5, rfl⟩, fun L' ha => ?_, h7⟩
  rw [coinTotal_perm (applied_of hD h2 h3 h5 ha), ← coinTotal_perm h2, coinTotal_append, coinTotal_append, made_total]; omega

namespace Ledger

theorem txBytes_first {ins ins' : List RawIn} {outs outs' : List RawOut} (h : Wire ins outs) (h' : Wire ins' outs') (hne : ins ≠ [])
    (e : txBytes ins outs = txBytes ins' outs') : ins = ins' ∧ outs = outs' := by
  obtain ⟨a1, a2, a3, a4⟩ := h
  obtain ⟨b1, b2, b3, b4⟩ := h'
  obtain ⟨q1, q2, _⟩ := txBytes_prefix a1 b1 a2 b2 a3 b3 a4 b4 (x := []) (x' := []) (by simpa using e)
  exact ⟨q1, q2⟩

/-- the points of all inputs of the transactions -/
def points (txs : List (List RawIn × List RawOut)) : List (Bytes × Nat) := txs.flatMap fun t => t.1.map RawIn.point

/-- where an id can come from -/
def Known (X : Ext) (L0 : List Coin) (txs : List (List RawIn × List RawOut)) (id : Bytes) : Prop :=
  (∃ c ∈ L0, c.txid = id) ∨ ∃ t ∈ txs, idOf X (txBytes t.1 t.2) = id

theorem Known.mono {L0 : List Coin} {txs : List (List RawIn × List RawOut)} {t : List RawIn × List RawOut} {id : Bytes} (h : Known X L0 txs id) :
    Known X L0 (txs ++ [t]) id := h.imp_right fun ⟨x, h1, h2⟩ => ⟨x, List.mem_append_left _ h1, h2⟩

/-- the invariant of a history -/
structure Inv (X : Ext) (L0 L : List Coin) (txs : List (List RawIn × List RawOut)) (caps : Nat) : Prop where
  distinct : Distinct L
  ids : ∀ c ∈ L, Known X L0 txs c.txid
  pids : ∀ p ∈ points txs, Known X L0 txs p.1
  gone : ∀ p ∈ points txs, p ∉ L.map Coin.point
  once : (points txs).Nodup
  wire : ∀ t ∈ txs, Wire t.1 t.2 ∧ t.1 ≠ []
  le : coinTotal L ≤ coinTotal L0
  ge : coinTotal L0 ≤ coinTotal L + caps

theorem made_points {id : Bytes} {paid : List Payment} : ∀ p ∈ (made id paid).map Coin.point, p.1 = id := by
  intro p hp
  obtain ⟨c, hc, rfl⟩ := List.mem_map.1 hp
  unfold made at hc
  obtain ⟨j, _, rfl⟩ := List.mem_mapIdx.1 hc
  rfl

theorem made_nodup (id : Bytes) (paid : List Payment) : ((made id paid).map Coin.point).Nodup := by
  have : (made id paid).map Coin.point = (List.range paid.length).map fun j => (id, j) :=
    List.ext_getElem? fun j => by
      by_cases hj : j < paid.length
      · simp [made, Coin.point, List.getElem?_mapIdx, hj]
      · simp [made, hj]
  rw [this]
  exact List.nodup_range.map fun a b h => by simpa using h

theorem inv_step (W : X.Laws) {L0 L L' : List Coin} {txs : List (List RawIn × List RawOut)} {caps cap : Nat} {u : Use} {ins : List RawIn} {outs : List RawOut}
    (I : Inv X L0 L txs caps) (hl : ListsCoins X u.fs u.args L) (hc : CapIs X u.fs u.args cap) (hp : Prints X u ins outs) (ha : Applied X L ins outs L')
    (h0 : ∀ c ∈ L0, c.txid ≠ idOf X (txBytes ins outs))
    (h1 : ∀ t ∈ txs, idOf X (txBytes t.1 t.2) = idOf X (txBytes ins outs) → txBytes t.1 t.2 = txBytes ins outs) :
    Inv X L0 L' (txs ++ [(ins, outs)]) (caps + cap) ∧ Valid X L ins outs := by
  obtain ⟨ins', outs', spent, rest, paid, fee, g1, g2, g3, g4, g5, g6, g7, g8⟩ := step_facts W hl hp.task hp.status
  obtain ⟨e1, e2⟩ := prints_unique g1 hp
  subst e1 e2
  have hv := valid_of I.distinct g2 g3 g4 g5 g6 g8
  have hperm := applied_of I.distinct g2 g3 g5 ha
  have hpts := spentBy_points g3
  have hfee := g7 cap hc
  have hin : ∀ p ∈ ins'.map RawIn.point, p ∈ L.map Coin.point := by
    intro p hp
    rw [hpts] at hp
    obtain ⟨c, hc, rfl⟩ := List.mem_map.1 hp
    exact List.mem_map_of_mem (g2.subset (List.mem_append_left _ hc))
  -- the id is new
  have hnew : ∀ t ∈ txs, idOf X (txBytes t.1 t.2) ≠ idOf X (txBytes ins' outs') := by
    intro t ht e
    obtain ⟨w, hne⟩ := I.wire t ht
    obtain ⟨q1, _⟩ := txBytes_first w hp.wire hne (h1 t ht e)
    obtain ⟨x, xs, hx⟩ := List.exists_cons_of_ne_nil hne
    have m1 : x.point ∈ points txs := List.mem_flatMap.2 ⟨t, ht, List.mem_map_of_mem (by rw [hx]; exact List.mem_cons_self ..)⟩
    exact I.gone _ m1 (hin _ (List.mem_map_of_mem (by rw [← q1, hx]; exact List.mem_cons_self ..)))
  have hunk : ∀ id, Known X L0 txs id → id ≠ idOf X (txBytes ins' outs') := by
    rintro id (⟨c, hc, rfl⟩ | ⟨t, ht, rfl⟩)
    · exact h0 c hc
    · exact hnew t ht
  have hrestL : ∀ c ∈ rest, c ∈ L := fun c hc => g2.subset (List.mem_append_right _ hc)
  have hnd : ((spent ++ rest).map Coin.point).Nodup := ((g2.map _).nodup_iff).2 I.distinct
  rw [List.map_append, List.nodup_append] at hnd
  have hmem' : ∀ p, p ∈ L'.map Coin.point ↔ p ∈ (made (idOf X (txBytes ins' outs')) paid).map Coin.point ∨ p ∈ rest.map Coin.point := by
    intro p
    rw [(hperm.map Coin.point).mem_iff, List.map_append, List.mem_append]
  have hptsN : points (txs ++ [(ins', outs')]) = points txs ++ spent.map Coin.point := by
    simp [points, hpts]
  have hspid : ∀ p ∈ spent.map Coin.point, Known X L0 txs p.1 := by
    intro p hp
    obtain ⟨c, hc, rfl⟩ := List.mem_map.1 hp
    exact I.ids c (g2.subset (List.mem_append_left _ hc))
  refine ⟨⟨?_, ?_, ?_, ?_, ?_, ?_, ?_, ?_⟩, hv⟩
  · unfold Distinct
    rw [(hperm.map Coin.point).nodup_iff, List.map_append, List.nodup_append]
    refine ⟨made_nodup _ _, hnd.2.1, ?_⟩
    rintro p hp q hq rfl
    obtain ⟨c, hc, rfl⟩ := List.mem_map.1 hq
    exact hunk _ (I.ids c (hrestL c hc)) (made_points _ hp)
  · intro c hc
    rcases List.mem_append.1 (hperm.subset hc) with hc | hc
    · exact .inr ⟨_, List.mem_append_right _ (List.mem_singleton.2 rfl), (made_points _ (List.mem_map_of_mem hc)).symm⟩
    · exact (I.ids c (hrestL c hc)).mono
  · intro p hp
    rw [hptsN] at hp
    rcases List.mem_append.1 hp with hp | hp
    exacts [(I.pids p hp).mono, (hspid p hp).mono]
  · intro p hp hm
    rw [hptsN] at hp
    rcases (hmem' p).1 hm with hm | hm
    · rcases List.mem_append.1 hp with hp | hp
      exacts [hunk _ (I.pids p hp) (made_points p hm), hunk _ (hspid p hp) (made_points p hm)]
    · rcases List.mem_append.1 hp with hp | hp
      · obtain ⟨c, hc, rfl⟩ := List.mem_map.1 hm
        exact I.gone _ hp (List.mem_map_of_mem (hrestL c hc))
      · exact hnd.2.2 _ hp _ hm rfl
  · rw [hptsN, List.nodup_append]
    refine ⟨I.once, hnd.1, ?_⟩
    rintro p hp q hq rfl
    refine I.gone p hp ?_
    obtain ⟨c, hc, rfl⟩ := List.mem_map.1 hq
    exact List.mem_map_of_mem (g2.subset (List.mem_append_left _ hc))
  · intro t ht
    rcases List.mem_append.1 ht with ht | ht
    · exact I.wire t ht
    · rw [List.mem_singleton.1 ht]; exact ⟨hp.wire, hv.some⟩
  · have := I.le
    rw [coinTotal_perm hperm, coinTotal_append, made_total]
    rw [← coinTotal_perm g2, coinTotal_append] at this; omega
  · have := I.ge
    rw [coinTotal_perm hperm, coinTotal_append, made_total]
    rw [← coinTotal_perm g2, coinTotal_append] at this; omega

end Ledger

/-- The ids of the transactions are new: different from those of the coins at the beginning, and no two different transactions have the same id (a collision of
double SHA-256 would be needed). -/
def NewIds (X : Ext) (L0 : List Coin) (txs : List (List RawIn × List RawOut)) : Prop :=
  (∀ t ∈ txs, ∀ c ∈ L0, c.txid ≠ idOf X (txBytes t.1 t.2)) ∧
  ∀ t ∈ txs, ∀ t' ∈ txs, idOf X (txBytes t.1 t.2) = idOf X (txBytes t'.1 t'.2) → txBytes t.1 t.2 = txBytes t'.1 t'.2

namespace Ledger

theorem NewIds.pre {L0 : List Coin} {txs more : List (List RawIn × List RawOut)} (h : NewIds X L0 (txs ++ more)) : NewIds X L0 txs :=
  ⟨fun t ht => h.1 t (List.mem_append_left _ ht), fun t ht t' ht' => h.2 t (List.mem_append_left _ ht) t' (List.mem_append_left _ ht')⟩

theorem NewIds.last {L0 : List Coin} {txs : List (List RawIn × List RawOut)} {ins : List RawIn} {outs : List RawOut} (h : NewIds X L0 (txs ++ [(ins, outs)])) :
    (∀ c ∈ L0, c.txid ≠ idOf X (txBytes ins outs)) ∧
    ∀ t ∈ txs, idOf X (txBytes t.1 t.2) = idOf X (txBytes ins outs) → txBytes t.1 t.2 = txBytes ins outs := by
  have hl : (ins, outs) ∈ txs ++ [(ins, outs)] := List.mem_append_right _ (List.mem_singleton.2 rfl)
  exact ⟨h.1 (ins, outs) hl, fun t ht => h.2 t (List.mem_append_left _ ht) (ins, outs) hl⟩

theorem history_inv (W : X.Laws) {L0 L : List Coin} {us : List Use} {txs : List (List RawIn × List RawOut)} {caps : Nat} (h : History X L0 L us txs caps) (hD : Distinct L0)
    (hN : NewIds X L0 txs) : Inv X L0 L txs caps := by
  induction h with
  | start => exact ⟨hD, fun c hc => .inl ⟨c, hc, rfl⟩, by simp [points], by simp [points], by simp [points], by simp, le_rfl, by omega⟩
  | step _ h2 h3 h4 h5 ih =>
    exact (inv_step W (ih (NewIds.pre hN)) h2 h3 h4 h5 (NewIds.last hN).1 (NewIds.last hN).2).1

end Ledger

/-- **C136**: whatever sequence of runs is made, each with an input file that lists coins that are unspent at that time: no output is ever spent twice by the
transactions of the history, the ledger stays a list of different outputs, and the total of all coins never grows and falls by at most the total of the `max_fee`
settings. -/
theorem C136_history (W : X.Laws) (L0 L : List Coin) (us : List Use) (txs : List (List RawIn × List RawOut)) (caps : Nat)
    (h : History X L0 L us txs caps) (hD : Distinct L0)
    (hN : NewIds X L0 txs) :
    Distinct L ∧ (txs.flatMap fun t => t.1.map RawIn.point).Nodup ∧ coinTotal L ≤ coinTotal L0 ∧ coinTotal L0 ≤ coinTotal L + caps := by
  have I := history_inv W h hD hN
  exact ⟨I.distinct, I.once, I.le, I.ge⟩

/-- **C136**: and each of the transactions was acceptable at its time: it obeys the rules with the ledger made by the transactions before it. -/
theorem C136_all_accepted (W : X.Laws) (L0 L : List Coin) (us : List Use) (txs : List (List RawIn × List RawOut)) (caps : Nat)
    (h : History X L0 L us txs caps) (hD : Distinct L0)
    (hN : NewIds X L0 txs) (pre post : List (List RawIn × List RawOut)) (ins : List RawIn) (outs : List RawOut) (he : txs = pre ++ (ins, outs) :: post) :
    ∃ Lm us' caps', History X L0 Lm us' pre caps' ∧ Valid X Lm ins outs := by
  induction h generalizing post with
  | start => simp at he
  | @step L L' us txs caps cap u ins' outs' h1 h2 h3 h4 h5 ih =>
    rcases List.eq_nil_or_concat post with rfl | ⟨post', x, rfl⟩
    · obtain ⟨rfl, e⟩ := List.append_inj' he rfl
      simp only [List.cons.injEq, Prod.mk.injEq, and_true] at e
      obtain ⟨rfl, rfl⟩ := e
      exact ⟨L, us, caps, h1, (inv_step W (history_inv W h1 hD (NewIds.pre hN)) h2 h3 h4 h5 (NewIds.last hN).1 (NewIds.last hN).2).2⟩
    · rw [List.concat_eq_append, ← List.cons_append, ← List.append_assoc] at he
      obtain ⟨e, _⟩ := List.append_inj' he rfl
      exact ih (NewIds.pre hN) post' e

/-- **C135** with the real hash functions and the real curve: each input of the printed transaction satisfies the rules by which a node accepts it. -/
theorem C135_real (L : List Coin) (u : Use) (hD : Distinct L) (hL : ListsCoins Concrete.Xreal u.fs u.args L)
    (ht : u.args.task = py"create_transaction" ∨ u.args.task = py"create_sign_and_verify_transaction_hex")
    (hst : exitStatus (cliRun Concrete.Xreal u.fs u.sh u.setup u.args) = 0) :
    ∃ ins outs, Prints Concrete.Xreal u ins outs ∧ (ins.map RawIn.point).Nodup ∧ ins ≠ [] ∧
      (∀ (j : Nat) (r : RawIn), ins[j]? = some r → ∃ c ∈ L, c.point = r.point ∧ ValidSpend c.owner (signedMessage ins outs j c.owner) r.script) ∧
      (outs.map fun o => leNat o.value).sum ≤ coinTotal (spentFrom L ins) := by
  obtain ⟨ins, outs, fee, h1, h2, _⟩ := C135_accepted Concrete.Xreal_laws L u hD hL ht hst
  refine ⟨ins, outs, h1, h2.once, h2.some, fun j r hj => ?_, h2.value⟩
  obtain ⟨c, hc, hp, hu⟩ := h2.unlocked j r hj
  exact ⟨c, hc, hp, Concrete.unlocks_real hu⟩

/-- The entry of an input file for output number `j` of the transaction with this id. -/
def spendEntry (id : Str) (j : Nat) (o : TxOut) : PVal :=
  .dict [(py"address", .str o.address), (py"transaction_id", .str id), (py"previous_output_index", .int j), (py"bitcoin_amount", .str o.bitcoin)]

/-- **C137**: what a transaction pays can be spent: for each output of a signed transaction, the entry with its address, its amount, its position and the id that
the transaction reports describes the coin this output is, and gives an input object for the same script and the same amount. -/
theorem C137_spendable (W : X.Laws) (t ts : Tx) (C : Spec.Created X t) (keys : List Str) (rvs : Option (List Str)) (h : t.sign X keys rvs = (ts, .ok ())) :
    ∃ tx id, ts.toHexSigned = .ok (hex tx) ∧ ts.txid X = .ok id ∧ id = hex (idOf X tx) ∧
      ∀ (j : Nat) (o : TxOut), ts.outputs[j]? = some o → ∃ (i : TxIn) (c : Coin), Offers X (spendEntry id j o) i ∧ i.address = o.address ∧ i.spk = some o.spk ∧
        i.satoshi = some o.satoshi ∧ i.txid = id ∧ c.Described X (spendEntry id j o) ∧ c.point = (idOf X tx, j) ∧ (c.sat : Int) = o.satoshi := by
  have hs := W.sha_len
  have houts : ts.outputs = t.outputs := by
    have hu := C39_only_signatures X t keys rvs
    rw [h] at hu
    simpa [unsignedTx] using congrArg Tx.outputs hu
  obtain ⟨f, hf⟩ := coin_fn (X := X) hs
  obtain ⟨g, hg⟩ := pay_fn (X := X) hs
  obtain ⟨insB, outsB, b1, _⟩ := signed_bytes W C h (fun i hi => hf i (C.ins i hi)) (fun o ho => hg o (C.outs o ho))
  have hid := (C43_txid X hs ts _ b1).1
  refine ⟨_, _, b1, hid, rfl, fun j o ho => ?_⟩
  rw [houts] at ho
  obtain ⟨a, sat, hc⟩ := C.outs o (List.mem_of_getElem? ho)
  obtain ⟨hh, k, k1, k2, rfl, k4, rfl⟩ := (TxOut_create_ok X hs).1 hc
  have hj : j < 2 ^ 32 := by
    have := (List.getElem?_eq_some_iff.1 ho).1
    have := C.frame.ocl
    omega
  have hlen : (X.sha256 (X.sha256 (txBytes insB outsB))).reverse.length = 32 := by rw [List.length_reverse, hs]
  refine ⟨_, ⟨idOf X (txBytes insB outsB), j, k, hh⟩, ⟨a, _, .int j, j, btcText k, k, rfl, rfl, rfl, rfl, rfl, btcText_amount X.uni k, TxIn_create_of X k1 k2 hlen hj k4⟩, rfl, rfl,
    rfl, rfl, ⟨hlen, rfl, ⟨_, rfl, rfl⟩, ⟨_, rfl, btcText_amount X.uni k⟩, a, rfl, AddressOf_of_hash X hs k2⟩, rfl, rfl⟩

end BT
