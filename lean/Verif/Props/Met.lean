import Verif.OrderSpec
import Verif.Props.Ledger
import Verif.Props.SignOk
import Verif.Props.CreateErr

/-!
# A request that can be met is met (C140)
-/

namespace BT
open Spec

variable {X : Ext}

namespace Met

theorem mapR_all {α β : Type} {f : α → R β} : ∀ {l : List α}, (∀ x ∈ l, ∃ y, f x = .ok y) → ∃ ys, mapR f l = .ok ys := by
  intro l
  induction l with
  | nil => intro _; exact ⟨[], mapR_ok.2 .nil⟩
  | cons a l ih =>
    intro h
    obtain ⟨y, hy⟩ := h a (List.mem_cons_self ..)
    obtain ⟨ys, hys⟩ := ih fun x hx => h x (List.mem_cons_of_mem _ hx)
    exact ⟨y :: ys, mapR_ok.2 (.cons hy (mapR_ok.1 hys))⟩

theorem mem_left {α β : Type} {P : α → β → Prop} {l : List α} {m : List β} (h : List.Forall₂ P l m) : ∀ a ∈ l, ∃ b ∈ m, P a b := by
  induction h with
  | nil => simp
  | cons h _ ih =>
    intro a ha
    rcases List.mem_cons.1 ha with rfl | ha
    · exact ⟨_, List.mem_cons_self .., h⟩
    · obtain ⟨b, hb, hp⟩ := ih a ha; exact ⟨b, List.mem_cons_of_mem _ hb, hp⟩

/-- readable key files are loaded, and the keys are those given -/
theorem loadKeys_total {fs : FS} {r : RawArgs} (h : KeysReadable fs r) :
    ∃ keys, loadKeys X fs r = .ok keys ∧ ∀ key, key ∈ keys ↔ KeyGiven X fs r key := by
  obtain ⟨h1, h2⟩ := h
  have rd : ∀ {f s : Str}, fs.read f = .ok s → readKey X fs f = .ok (pyStrip' X.uni.space s) := fun h => by simp [readKey, h]
  obtain ⟨k2, e2⟩ : ∃ k2, mapR (readKey X fs) r.privateKeyFile.flatten = .ok k2 := mapR_all fun f hf => by
    obtain ⟨l, hl, hfl⟩ := List.mem_flatten.1 hf
    obtain ⟨s, hs⟩ := h1 l hl f hfl
    exact ⟨_, rd hs⟩
  obtain ⟨files, ef, hfiles⟩ : ∃ files, keyFilesOfDir fs r.privateKeyDir = .ok files ∧
      ((∀ f ∈ files, ∃ s, fs.read f = .ok s) ∧ ∀ d names, r.privateKeyDir = some d → d ≠ [] → fs.listDir d = .ok names →
        files = (names.filter isTxt).map (pathJoin d)) := by
    unfold keyFilesOfDir
    rcases hd : r.privateKeyDir with _ | _ | ⟨c, cs⟩
    · exact ⟨[], rfl, by simp, by simp⟩
    · refine ⟨[], rfl, by simp, ?_⟩
      intro d names hd' hne
      injection hd' with hd'; exact absurd hd'.symm hne
    · obtain ⟨names, hn, hr⟩ := h2 _ hd (by simp)
      refine ⟨(names.filter isTxt).map (pathJoin (c :: cs)), by simp [given, hn], ?_, ?_⟩
      · intro f hf
        obtain ⟨n, hn', rfl⟩ := List.mem_map.1 hf
        rw [List.mem_filter] at hn'
        exact hr n hn'.1 hn'.2
      · intro d names' hd' _ hl
        injection hd' with hd'; subst hd'
        rw [hn] at hl; injection hl with hl; subst hl; rfl
  obtain ⟨k3, e3⟩ : ∃ k3, mapR (readKey X fs) files = .ok k3 := mapR_all fun f hf => by
    obtain ⟨s, hs⟩ := hfiles.1 f hf
    exact ⟨_, rd hs⟩
  have hload : loadKeys X fs r = .ok (r.privateKeyHex.flatten ++ k2 ++ k3) := by simp [loadKeys, e2, ef, e3]
  refine ⟨_, hload, fun key => ⟨fun hk => Ledger.loadKeys_given hload hk, ?_⟩⟩
  have pick : ∀ {fl ks : List Str}, mapR (readKey X fs) fl = .ok ks → ∀ f ∈ fl, ∀ s, fs.read f = .ok s → pyStrip' X.uni.space s ∈ ks := by
    intro fl ks hm f hf s hs
    obtain ⟨y, hy, e⟩ := mem_left (mapR_ok.1 hm) f hf
    rw [rd hs] at e; injection e with e
    rw [e]; exact hy
  rintro (⟨l, hl, hk⟩ | ⟨l, hl, f, hf, s, hs, rfl⟩ | ⟨d, names, hd, hne, hl, n, hn, ht, s, hs, rfl⟩)
  · exact List.mem_append_left _ (List.mem_append_left _ (List.mem_flatten.2 ⟨l, hl, hk⟩))
  · exact List.mem_append_left _ (List.mem_append_right _ (pick e2 f (List.mem_flatten.2 ⟨l, hl, hf⟩) s hs))
  · refine List.mem_append_right _ (pick e3 (pathJoin d n) ?_ s hs)
    rw [hfiles.2 d names hd hne hl]
    exact List.mem_map_of_mem (List.mem_filter.2 ⟨hn, ht⟩)

theorem hash_of (hs : ∀ b, (X.sha256 b).length = 32) {a : Str} {h : Bytes} (p : AddressOf X.sha256 a h) (nz : NotZero h) : addressToHash X a = .ok (hex h) := by
  obtain ⟨x, hx, hx0⟩ := nz
  exact (addressToHash_ok X hs).2 ⟨h, p.1, rfl, by rw [← denotes_text58 p.2]; exact decode_encode X hs _ fun hz => hx0 (hz.1 x (by simp [hx]))⟩

/-- the input object of a coin -/
def InOf (X : Ext) (c : Coin) (i : TxIn) : Prop := i.satoshi = some (c.sat : Int) ∧ addressToHash X i.address = .ok (hex c.owner)

/-- the output object of a payment -/
def OutOf (X : Ext) (d : Payment) (o : TxOut) : Prop := o.satoshi = (d.sat : Int) ∧ addressToHash X o.address = .ok (hex d.owner)

theorem offers_of (hs : ∀ b, (X.sha256 b).length = 32) {p : PVal} {c : Coin} (h : c.Described X p) (h1 : c.index < 2 ^ 32) (h2 : NotZero c.owner) (h3 : c.sat ≤ maxMoney) :
    ∃ i, Offers X p i ∧ InOf X c i := by
  obtain ⟨d1, d2, ⟨v, d3, d4⟩, ⟨s, d5, d6⟩, a, d7, d8⟩ := h
  have ha := hash_of hs d8 h2
  exact ⟨_, ⟨a, hex c.txid, v, c.index, s, c.sat, d7, d2, d3, d4, d5, d6, TxIn_create_of X d8.1 ha d1 h1 h3⟩, rfl, ha⟩

theorem asks_of (hs : ∀ b, (X.sha256 b).length = 32) {p : PVal} {d : Payment} (h : d.Described X p) (h2 : NotZero d.owner) (h3 : d.sat ≤ maxMoney) :
    ∃ o, Asks X p o ∧ OutOf X d o := by
  obtain ⟨⟨s, d5, d6⟩, a, d7, d8⟩ := h
  have ha := hash_of hs d8 h2
  exact ⟨_, ⟨a, s, d.sat, d7, d5, d6, TxOut_create_of X d8.1 ha h3⟩, rfl, ha⟩

theorem zip₂ {α β γ : Type} {P : α → β → Prop} {Q : α → γ → Prop} {R : β → γ → Prop} : ∀ {l : List α} {m : List β}, List.Forall₂ P l m →
    (∀ a b, b ∈ m → P a b → ∃ c, Q a c ∧ R b c) → ∃ n, List.Forall₂ Q l n ∧ List.Forall₂ R m n := by
  intro l m h
  induction h with
  | nil => intro _; exact ⟨[], .nil, .nil⟩
  | @cons a b l m h _ ih =>
    intro hh
    obtain ⟨c, h1, h2⟩ := hh a b (List.mem_cons_self ..) h
    obtain ⟨n, h3, h4⟩ := ih fun a b hb => hh a b (List.mem_cons_of_mem _ hb)
    exact ⟨c :: n, .cons h1 h3, .cons h2 h4⟩

theorem sat_le {l : List Coin} {c : Coin} (h : c ∈ l) : c.sat ≤ coinTotal l := List.single_le_sum (by simp) _ (List.mem_map_of_mem h)
theorem pay_le {l : List Payment} {c : Payment} (h : c ∈ l) : c.sat ≤ payTotal l := List.single_le_sum (by simp) _ (List.mem_map_of_mem h)

theorem in_total {cs : List Coin} {is : List TxIn} (h : List.Forall₂ (InOf X) cs is) : inTotal is = coinTotal cs := by
  induction h with
  | nil => rfl
  | cons h _ ih =>
    simp only [inTotal, coinTotal, List.map_cons, List.sum_cons, h.1, Option.getD_some, Nat.cast_add] at ih ⊢
    rw [ih]

theorem out_total {cs : List Payment} {is : List TxOut} (h : List.Forall₂ (OutOf X) cs is) : outTotal is = payTotal cs := by
  induction h with
  | nil => rfl
  | cons h _ ih =>
    simp only [outTotal, payTotal, List.map_cons, List.sum_cons, h.1, Nat.cast_add] at ih ⊢
    rw [ih]

theorem nodup_iff (hs : ∀ b, (X.sha256 b).length = 32) {ds : List Payment} {os : List TxOut} (h : List.Forall₂ (OutOf X) ds os) :
    (os.map TxOut.address).Nodup ↔ (ds.map Payment.owner).Nodup := by
  induction h with
  | nil => simp
  | @cons d o ds os h t ih =>
    simp only [List.map_cons, List.nodup_cons, ih, List.mem_map, not_exists, not_and]
    refine and_congr_left fun _ => ⟨fun hh x hx e => ?_, fun hh x hx e => ?_⟩
    · obtain ⟨o', ho', e'⟩ := mem_left t x hx
      exact hh o' ho' ((owner_eq_iff hs e'.2 h.2).1 e)
    · obtain ⟨d', hd', e'⟩ := forall₂_mem_right t x hx
      exact hh d' hd' ((owner_eq_iff hs e'.2 h.2).2 e)

/-- a request in good order is well-formed and reaches `create_transaction` -/
theorem order_run (W : X.Laws) {u : Use} {coins : List Coin} {asked : List Payment} {design : PVal} {cap : Nat} {pct : ℚ} (O : Order X u coins asked design cap pct) :
    ∃ (a : CliArgs) (insO : List TxIn) (outsO : List TxOut) (ca m : Str), cliRun X u.fs u.sh u.setup u.args = cliOneShot X a ∧
      WellFormed X (cliTxArgs a) insO outsO ca m cap pct ∧ AsciiAmounts (cliTxArgs a) ∧ (cliTxArgs a).design = some design ∧
      (cliTxArgs a).allowDup = none ∧ List.Forall₂ (InOf X) coins insO ∧ List.Forall₂ (OutOf X) asked outsO ∧
      ∀ key, key ∈ a.privateKeysHex ↔ KeyGiven X u.fs u.args key := by
  obtain ⟨fi, ti, insD, f1, f2, f3, f4, f5, f6⟩ := O.inputs
  obtain ⟨fd, td, outsD, g1, g2, g3, g4, g5, g6, g7⟩ := O.outputs
  obtain ⟨ca, owner, c1, c2, c3⟩ := O.change
  obtain ⟨keys, k1, k2⟩ := loadKeys_total (X := X) O.readable
  obtain ⟨data, hdata⟩ : ∃ data, loadData u.fs u.args = .ok data := by
    unfold loadData
    rcases hd : u.args.dataFile with _ | _ | ⟨c, cs⟩
    · exact ⟨_, rfl⟩
    · exact ⟨_, rfl⟩
    · obtain ⟨s, hs⟩ := O.data _ hd (by simp)
      exact ⟨some s, by simp [given, hs]⟩
  have hreq : u.args.task ∈ tasksRequireFiles := by rcases O.task with h | h <;> rw [h] <;> decide
  have hc1 : u.args.task ∉ tasksSingleKey := by rcases O.task with h | h <;> rw [h] <;> decide
  have hc2 : u.args.task ∉ tasksRequireData := by rcases O.task with h | h <;> rw [h] <;> decide
  have hfiles : loadFiles X u.fs u.args = .ok (some (.list insD), some design) := by
    unfold loadFiles
    rw [if_pos hreq, f1, g1]
    obtain ⟨c, cs, rfl⟩ := List.exists_cons_of_ne_nil f2
    obtain ⟨c', cs', rfl⟩ := List.exists_cons_of_ne_nil g2
    simp [given, loadJson, f3, f4, g3, g4]
  have hload : cliLoad X u.fs u.args = .ok { task := u.args.task, data := data, privateKeysHex := keys, privateKeyWif := u.args.privateKeyWif, publicKeyHex := u.args.publicKeyHex, signatureHex := u.args.signatureHex, inputs := some (.list insD), design := some design } := by
    simp [cliLoad, hdata, k1, checkRaw, hc1, hc2, hfiles]
  have hv : u.args.task ≠ py"get_python_version" := by rcases O.task with h | h <;> rw [h] <;> decide
  have hrun := cliRun_main X u.fs u.sh u.args _ hload hv
  rw [C59_main X _ O.task rfl rfl] at hrun
  rw [O.setup]
  have hm1 : ∀ c ∈ coins, c.sat ≤ maxMoney := fun c hc => (sat_le hc).trans O.money.1
  have hm2 : ∀ c ∈ asked, c.sat ≤ maxMoney := fun c hc => (pay_le hc).trans O.money.2
  obtain ⟨insO, i1, i2⟩ := zip₂ f5 fun p c hc h => offers_of W.sha_len h (O.coin_ok c hc).2.1 (O.coin_ok c hc).2.2 (hm1 c hc)
  obtain ⟨outsO, o1, o2⟩ := zip₂ g6 fun p c hc h => asks_of W.sha_len h (O.pay_ok c hc).2 (hm2 c hc)
  obtain ⟨m, mm, mi⟩ : ∃ m, (entry design py"input_selection_approaches" = some (.list [.str m]) ∨
      (entry design py"input_selection_approaches" = none ∧ m = py"largest_first")) ∧ (m = py"largest_first" ∨ m = py"smallest_first" ∨ m = py"all") := by
    rcases O.settings.approach with h | ⟨w, hw, h⟩
    · exact ⟨_, .inr ⟨h, rfl⟩, .inl rfl⟩
    · exact ⟨w, .inl h, by simpa using hw⟩
  have li := i2.length_eq
  have lo := o2.length_eq
  refine ⟨_, insO, outsO, ca, m, hrun, ⟨⟨insD, outsD, rfl, g5, i1, o1⟩, ?_, ?_, ?_, ?_, ?_, c1, ⟨owner, c2, c3⟩, O.settings.cap_set, O.settings.pct_set, O.settings.pct_le,
    mm, mi, by rw [← li, ← lo]; exact O.settings.fee_set, .inl rfl, .inl rfl, by rw [← li]; exact O.few.1, by rw [← lo]; exact O.few.2, ?_, ?_⟩, ?_, rfl, rfl, i2, o2, k2⟩
  · intro l hl x hx
    have : some (PVal.list insD) = some (.list l) := hl
    injection this with this; injection this with this; subst this
    exact (f6 x hx).1
  · intro l hl x hx
    have : entry design py"outputs" = some (.list l) := hl
    rw [g5] at this
    injection this with this; injection this with this; subst this
    exact (g7 x hx).1
  · intro i hi
    obtain ⟨c, hc, h⟩ := forall₂_mem_right i2 i hi
    rw [h.1]; have := (O.coin_ok c hc).1; simpa using this
  · intro i hi
    obtain ⟨c, hc, h⟩ := forall₂_mem_right o2 i hi
    rw [h.1]; have := (O.pay_ok c hc).1; simpa using this
  · intro e; rw [e] at lo; exact O.some_pay (List.length_eq_zero_iff.1 lo)
  · rw [in_total i2]; exact_mod_cast O.money.1
  · rw [out_total o2]; exact_mod_cast O.money.2
  · intro l hl p hp
    rcases hl with hl | hl
    · have : some (PVal.list insD) = some (.list l) := hl
      injection this with this; injection this with this; subst this
      exact (f6 p hp).2
    · have : entry design py"outputs" = some (.list l) := hl
      rw [g5] at this
      injection this with this; injection this with this; subst this
      exact (g7 p hp).2

theorem key_address (W : X.Laws) {key : Str} {owner : Bytes} {a : Str} (h : GoodKey X key) (hk : KeyOf X key owner) (ha : addressToHash X a = .ok (hex owner)) :
    privateKeyToAddress X key = .ok a := by
  obtain ⟨h1, h2, h3⟩ := h
  obtain ⟨pk, p1, rfl⟩ := hk
  have hf := W.format_id key (isHexStr_iff.2 h1) h2
  have e := hashToAddress_of_hash X W.sha_len ha
  simp only [privateKeyToAddress, hf, h3, p1, R_bind_ok, publicKeyToAddress, getPublicKeyHash_hex X W.rip_len, e]

theorem canAllocate (hs : ∀ b, (X.sha256 b).length = 32) {ds : List Payment} {os : List TxOut} (h : List.Forall₂ (OutOf X) ds os) (hn : (ds.map Payment.owner).Nodup) (ca : Str)
    (idx : Option PVal) : CanAllocate os ca idx := by
  left
  have hn' := (nodup_iff hs h).2 hn
  clear h hn
  induction os with
  | nil => simp
  | cons o os ih =>
    simp only [List.map_cons, List.nodup_cons, List.mem_map, not_exists, not_and] at hn'
    by_cases e : o.address = ca
    · have : os.filter (fun o => decide (o.address = ca)) = [] := by
        rw [List.filter_eq_nil_iff]
        intro x hx hc
        exact hn'.1 x hx (by rw [of_decide_eq_true hc, e])
      simp [e, this]
    · simpa [e] using ih hn'.2

theorem exit_of {o : CliOut} (h : (∃ e, o = ([], .error e)) ∨ o.2 = .ok ()) (hn : exitStatus o ≠ 0) : exitStatus o = 1 ∧ o.1 = [] := by
  rcases h with ⟨e, rfl⟩ | h
  · exact ⟨rfl, rfl⟩
  · exact absurd (by unfold exitStatus; rw [h]) hn

/-- the heart of C140 -/
theorem met (W : X.Laws) {u : Use} {coins : List Coin} {asked : List Payment} {design : PVal} {cap : Nat} {pct : ℚ}
    (O : Order X u coins asked design cap pct) (hs : CanSign X u) (hk : ∀ c ∈ coins, HoldsKey X u c.owner) (hd : (asked.map Payment.owner).Nodup)
    (hf : ∀ fee, DesignFee X design coins.length asked.length fee → payTotal asked + fee ≤ coinTotal coins ∧ fee ≤ cap ∧
      (pct = 100 ∨ payTotal asked + fee ≤ ⌈pct / 100 * coinTotal coins⌉ - 1)) :
    exitStatus (cliRun X u.fs u.sh u.setup u.args) = 0 := by
  obtain ⟨a, insO, outsO, ca, m, e1, wf, asc, ed, edup, i2, o2, k2⟩ := order_run W O
  obtain ⟨fee, q1, q2, q3⟩ := C73_outcome W.sha_len wf
  rw [← i2.length_eq, ← o2.length_eq] at q1
  have hfee : DesignFee X design coins.length asked.length fee := by
    unfold DesignFee FeeFor at *
    unfold setting at *
    rw [ed] at q1
    exact q1
  obtain ⟨r1, r2, r3⟩ := hf fee hfee
  rw [in_total i2, out_total o2] at q3
  have hmon : (coinTotal coins : Int) ≤ 2100000000000000 := by exact_mod_cast O.money.1
  obtain ⟨_, q4⟩ := q3 (by omega)
  obtain ⟨_, q5⟩ := q4 (.inr ((nodup_iff W.sha_len o2).2 hd))
  obtain ⟨_, _, q6⟩ := q5 r2
  obtain ⟨q7, _⟩ := q6 r1 (canAllocate W.sha_len o2 hd ca _)
  obtain ⟨t, a', hc, _⟩ := q7 (by simpa using r3)
  obtain ⟨insO', outsO', ca', m', fee', ch, q, C⟩ := created_of W.sha_len hc
  obtain ⟨w1, w2⟩ := request_unique C.req wf.request
  rw [← w1, ← w2] at C
  have hgood : ∀ k ∈ a.privateKeysHex, GoodKey X k := fun k h => O.keys_ok k ((k2 k).1 h)
  obtain ⟨ts, hsig⟩ := sign_of_keys W t (created_spec W.sha_len C) a.privateKeysHex hgood (fun i hi => by
    have hmem : i ∈ insO := by
      have : i ∈ chosen (outTotal outsO + fee') (decide (m' = py"all")) (arranged m' insO) := by rw [← C.sel]; exact hi
      exact (arranged_perm m' insO).mem_iff.1 ((chosen_prefix _ _ _).subset this)
    obtain ⟨c, hcc, hci⟩ := forall₂_mem_right i2 i hmem
    obtain ⟨key, g1, g2⟩ := hk c hcc
    exact ⟨key, (k2 key).2 g1, key_address W (O.keys_ok key g1) g2 hci.2⟩)
    (fun k h d h1 h2 => hs k d ((k2 k).1 h) (isHexStr_iff.1 h1) h2)
  obtain ⟨s, _, hrun⟩ := C59_succeeds W a hc hsig asc
  rw [e1, hrun]; rfl

end Met

/-- **C140**: a request that can be met is met. Suppose the request is in good order (readable files, data as documented, valid keys), a key was given for the owner of
every coin, no two payments go to the same address, and whatever fee the settings ask for, payments and fee do not exceed the coins, the fee does not exceed
`max_fee` and payments and fee do not exceed the spending percentage. Then the program ends with exit status 0 (and has printed the transaction, see C74), unless the ECDSA library
cannot sign with one of the keys. -/
theorem C140_met (W : X.Laws) (u : Use) (coins : List Coin) (asked : List Payment) (design : PVal) (cap : Nat) (pct : ℚ)
    (O : Order X u coins asked design cap pct) (hk : ∀ c ∈ coins, HoldsKey X u c.owner) (hd : (asked.map Payment.owner).Nodup)
    (hf : ∀ fee, DesignFee X design coins.length asked.length fee → payTotal asked + fee ≤ coinTotal coins ∧ fee ≤ cap ∧
      (pct = 100 ∨ payTotal asked + fee ≤ ⌈pct / 100 * coinTotal coins⌉ - 1)) :
    exitStatus (cliRun X u.fs u.sh u.setup u.args) = 0 ∨
      ∃ key d, KeyGiven X u.fs u.args key ∧ IsHex d ∧ d.length = 64 ∧ ∀ s, X.signDet key d ≠ .ok s := by
  by_cases hs : CanSign X u
  · exact .inl (Met.met W O hs hk hd hf)
  · right
    simp only [CanSign, not_forall, not_exists] at hs
    obtain ⟨key, d, h1, h2, h3, h4⟩ := hs
    exact ⟨key, d, h1, h2, h3, h4⟩

/-- **C140**: a request that cannot be met is refused: if two payments go to the same address, or whatever fee the settings ask for, payments and fee exceed the coins or
the fee exceeds `max_fee`, then the exit status is 1 and nothing is printed. -/
theorem C140_refused (W : X.Laws) (u : Use) (coins : List Coin) (asked : List Payment) (design : PVal) (cap : Nat) (pct : ℚ)
    (O : Order X u coins asked design cap pct) (h : ¬ (asked.map Payment.owner).Nodup ∨
      ∀ fee, DesignFee X design coins.length asked.length fee → coinTotal coins < payTotal asked + fee ∨ cap < fee) :
    exitStatus (cliRun X u.fs u.sh u.setup u.args) = 1 ∧ (cliRun X u.fs u.sh u.setup u.args).1 = [] := by
  obtain ⟨a, insO, outsO, ca, m, e1, wf, asc, ed, edup, i2, o2, k2⟩ := Met.order_run W O
  rw [e1]
  refine Met.exit_of (C59_silent_failure X a) fun h0 => ?_
  rcases h with h | h
  · obtain ⟨t, a', ts, s, t2, _, hc, _⟩ := C59_prints X a (cliOneShot X a).1 (by
      rcases C59_silent_failure X a with ⟨e, he⟩ | he
      · rw [he] at h0; simp [exitStatus] at h0
      · rw [← he])
    obtain ⟨insO', outsO', ca', m', fee', ch, q, C⟩ := created_of W.sha_len hc
    obtain ⟨rfl, rfl⟩ := request_unique C.req wf.request
    rcases C.dup with hd | hd
    · rw [edup] at hd; simp at hd
    · exact h ((Met.nodup_iff W.sha_len o2).1 hd)
  · rw [← e1] at h0
    obtain ⟨coins', spent, unused, asked', paid, ins, outs, fee, fi, fd, ti, td, insD, outsD, design', ca, owner, f1, f2, f3, f4, f5, f6, d1, d2, d3, d4, d5,
      t1, t2, t3, t4, t5, t6, v1, v2, v3, v4, l1, l2, _, s1⟩ := C74_program W u.fs u.sh u.setup u.args O.task h0
    obtain ⟨fi', ti', insD', f1', _, f3', f4', f5', _⟩ := O.inputs
    obtain ⟨fd', td', outsD', g1', _, g3', g4', g5', g6', _⟩ := O.outputs
    rw [f1] at f1'; injection f1' with f1'; subst f1'
    rw [f2] at f3'; injection f3' with f3'; subst f3'
    rw [f3] at f4'; injection f4' with f4'; injection f4' with f4'; subst f4'
    rw [f4] at g1'; injection g1' with g1'; subst g1'
    rw [f5] at g3'; injection g3' with g3'; subst g3'
    rw [f6] at g4'; injection g4' with g4'; subst g4'
    rw [d2] at g5'; injection g5' with g5'; injection g5' with g5'; subst g5'
    obtain rfl := Ledger.described_list d1 f5'
    obtain rfl := Ledger.paid_list d3 g6'
    have htot : coinTotal spent ≤ coinTotal coins' := by
      rw [← Ledger.coinTotal_perm t3, Ledger.coinTotal_append]; omega
    obtain ⟨v, hv1, hv2⟩ := O.settings.cap_set
    have hcap := v4 v cap hv1 hv2
    rcases h fee v3 with h | h
    · have : coinTotal coins' < payTotal asked' + fee := by exact_mod_cast h
      omega
    · omega

/-- **C140**, exactly: where the fee is certain (a fixed fee or a whole rate), all the coins may be spent, the library can sign and every coin has its key, the program
succeeds if and only if no two payments go to the same address, payments and fee do not exceed the coins and the fee does not exceed `max_fee`. -/
theorem C140_exactly (W : X.Laws) (u : Use) (coins : List Coin) (asked : List Payment) (design : PVal) (cap : Nat)
    (O : Order X u coins asked design cap 100) (hs : CanSign X u) (hk : ∀ c ∈ coins, HoldsKey X u c.owner) (fee : Int)
    (hfee : ∀ f, DesignFee X design coins.length asked.length f ↔ f = fee) :
    exitStatus (cliRun X u.fs u.sh u.setup u.args) = 0 ↔
      (asked.map Payment.owner).Nodup ∧ payTotal asked + fee ≤ coinTotal coins ∧ fee ≤ cap := by
  constructor
  · intro h0
    by_contra hc
    have := (C140_refused W u coins asked design cap 100 O (by
      by_cases hd : (asked.map Payment.owner).Nodup
      · right
        intro f hf
        rw [(hfee f).1 hf]
        by_contra hn
        exact hc ⟨hd, by omega, by omega⟩
      · exact .inl hd)).1
    omega
  · rintro ⟨hd, h1, h2⟩
    exact Met.met W O hs hk hd fun f hf => by rw [(hfee f).1 hf]; exact ⟨h1, h2, .inl rfl⟩

end BT
