import Verif.Lemmas.TxLogCli
import Verif.Lemmas.TxLogOnly
import Verif.Props.Sign

/-!
# C115-C118: the log of signing, verifying and decoding
-/

namespace BT
open Lg Spec

/-! ## C115: the functions with their log are the functions -/

/-- **C115**: with its log left out, every task prints and ends as in `Cli.lean`/`CliRun.lean`. -/
theorem C115_agrees (E : Msg.Env) (X : Ext) (sh : Shell) (a : CliArgs) : (Lg.task E X sh a).out = cliTask X sh a := out_task E X sh a

/-- **C115**: with its log left out, every method of a transaction has the outcome (and effect) of `Tx.lean`, and none of them
prints. -/
theorem C115_functions (E : Msg.Env) (X : Ext) (t : Tx) (s : Str) (keys : List Str) (rvs : Option (List Str)) (a : Args) :
    ((Lg.sign X t keys rvs).1, (Lg.sign X t keys rvs).2.outcome) = t.sign X keys rvs ∧
    (Lg.verify X t).outcome = t.verify X ∧
    (Lg.txid X t).outcome = t.txid X ∧
    (Lg.toHexSigned t).outcome = t.toHexSigned ∧
    (Lg.toJson X t).outcome = t.toJson X ∧
    (Lg.fromJson X s).outcome = Tx.fromJson X s ∧
    (Lg.fromHexSigned X s).outcome = Tx.fromHexSigned X s ∧
    (Lg.create E X a).outcome = createTransaction X a ∧
    prints (Lg.sign X t keys rvs).2.ev = [] ∧ prints (Lg.verify X t).ev = [] ∧ prints (Lg.toJson X t).ev = [] ∧
    prints (Lg.fromJson X s).ev = [] ∧ prints (Lg.fromHexSigned X s).ev = [] ∧ prints (Lg.create E X a).ev = [] :=
  ⟨o_sign X t keys rvs, o_verify X t, o_txid X t, o_toHexSigned t, o_toJson X t, o_fromJson X s, o_fromHexSigned X s, o_create E X a,
    np_sign X t keys rvs, np_verify X t, np_toJson X t, np_fromJson X s, np_fromHexSigned X s, np_create E X a⟩

/-! ## C116: the log of `verify` -/

/-- **C116**: a check that returns has checked every input, in order, against the key and the signature in its scriptSig; the
log consists of one block per input, with that key, that signature and the verdict on it (DEBUG if valid, ERROR if not), and
the summary; the value returned is the number of ERROR verdicts. -/
theorem C116_exact (X : Ext) (t : Tx) (k : Nat) (h : (Lg.verify X t).outcome = .ok k) :
    ∃ cs : List Check, cs.length = t.inputs.length ∧
      (∀ (j : Nat) (i : TxIn) (c : Check), t.inputs[j]? = some i → cs[j]? = some c → c.Of X t j i) ∧
      k = (cs.filter fun c => !c.valid).length ∧
      (Lg.verify X t).ev = (cs.zipIdx.flatMap fun p => checkLog t.inputs.length p.2 p.1.der p.1.pk p.1.sig p.1.valid) ++
        [summaryLog t.inputs.length] :=
  verify_log X t _ k (runs_of_ok h)

/-- **C116**, also for a check that raises: the only lines above level INFO are the lines "Signature j of n is invalid!" for
inputs whose signature was found invalid. -/
theorem C116_errors_true (X : Ext) (t : Tx) (logger text : Str) (n : Nat) (h : .log logger n text ∈ (Lg.verify X t).ev) (hn : n > 20) :
    ∃ (j : Nat) (i : TxIn) (c : Check), t.inputs[j]? = some i ∧ c.Of X t j i ∧ c.valid = false ∧
      Ev.log logger n text = verdictLog t.inputs.length j false := by
  rcases only_verify X t _ h with h | h
  · have : n ≤ 20 := h
    omega
  · exact h

theorem verifyLoop_prefix (X : Ext) (t : Tx) (n : Nat) (l : List TxIn) (m : Nat) :
    ∀ (k bad : Nat), (∀ (j : Nat) (i : TxIn), j < m → l[j]? = some i → ∃ b, t.verifyInput X (k + j) i = .ok b) → m ≤ l.length →
      ∃ cs : List Check, cs.length = m ∧ (∀ (j : Nat) (i : TxIn) (c : Check), l[j]? = some i → cs[j]? = some c → c.Of X t (k + j) i ∧
        t.verifyInput X (k + j) i = .ok c.valid) ∧
        ((cs.zipIdx k).flatMap fun p => checkLog n p.2 p.1.der p.1.pk p.1.sig p.1.valid) <+: (Lg.verifyLoop X t n k l bad).ev := by
  induction m generalizing l with
  | zero =>
    intro k bad _ _
    exact ⟨[], rfl, by simp, by simp⟩
  | succ m ih =>
    intro k bad h hm
    cases l with
    | nil => simp at hm
    | cons i l =>
      obtain ⟨b, hb⟩ := h 0 i (by omega) rfl
      rw [Nat.add_zero] at hb
      have hr := runs_of_ok ((o_verifyInput X t k n i).trans hb)
      obtain ⟨c, c1, c2, c3⟩ := verifyInput_log X t k n i _ b hr
      obtain ⟨cs, d1, d2, d3⟩ := ih l (k + 1) (if b then bad else bad + 1) (fun j i' hj hi => by
        have := h (j + 1) i' (by omega) (by simpa using hi)
        rwa [show k + (j + 1) = k + 1 + j by omega] at this) (by simpa using hm)
      refine ⟨c :: cs, by simp [d1], ?_, ?_⟩
      · intro j i' c' hi hc
        cases j with
        | zero =>
          simp only [List.getElem?_cons_zero, Option.some.injEq] at hi hc
          subst hi; subst hc
          exact ⟨by simpa using c1, by rw [Nat.add_zero, c2]; exact hb⟩
        | succ j =>
          have := d2 j i' c' (by simpa using hi) (by simpa using hc)
          rwa [show k + (j + 1) = k + 1 + j by omega]
      · unfold Lg.verifyLoop
        rw [ev_bind, hr]
        simp only [List.zipIdx_cons, List.flatMap_cons]
        rw [c3, c2]
        exact (List.prefix_append_right_inj _).2 d3

/-- **C116**, also for a check that raises at a later input: as long as the inputs can be checked, the log has one block for
each of them, with the verdict. -/
theorem C116_reported (X : Ext) (t : Tx) (m : Nat) (hm : m ≤ t.inputs.length)
    (h : ∀ (j : Nat) (i : TxIn), j < m → t.inputs[j]? = some i → ∃ b, t.verifyInput X j i = .ok b) :
    ∃ cs : List Check, cs.length = m ∧
      (∀ (j : Nat) (i : TxIn) (c : Check), t.inputs[j]? = some i → cs[j]? = some c → c.Of X t j i ∧ t.verifyInput X j i = .ok c.valid) ∧
      (cs.zipIdx.flatMap fun p => checkLog t.inputs.length p.2 p.1.der p.1.pk p.1.sig p.1.valid) <+: (Lg.verify X t).ev := by
  obtain ⟨cs, h1, h2, h3⟩ := verifyLoop_prefix X t t.inputs.length t.inputs m 0 0 (by simpa using h) hm
  refine ⟨cs, h1, by simpa using h2, ?_⟩
  unfold Lg.verify
  rw [ev_bind]
  exact h3.trans (List.prefix_append _ _)

/-- **C116**, the part that holds: when `verify` returns 0, the last line of the log, "Transaction verified: v valid
signatures", gives the number of valid signatures. -/
theorem C116_summary_partial (X : Ext) (t : Tx) (h : (Lg.verify X t).outcome = .ok 0) :
    ∃ cs : List Check, cs.length = t.inputs.length ∧
      (∀ (j : Nat) (i : TxIn) (c : Check), t.inputs[j]? = some i → cs[j]? = some c → c.Of X t j i) ∧
      (Lg.verify X t).ev.getLast? = some (summaryLog (cs.filter fun c => c.valid).length) := by
  obtain ⟨cs, h1, h2, h3, h4⟩ := C116_exact X t 0 h
  refine ⟨cs, h1, h2, ?_⟩
  have hv : (cs.filter fun c => c.valid) = cs := by
    rw [List.filter_eq_self]
    intro c hc
    have : c ∉ cs.filter fun c => !c.valid := by rw [List.length_eq_zero_iff.1 h3.symm]; simp
    simpa [hc] using this
  rw [h4, hv, h1]
  simp

/-- **C116** violated: whenever `verify` finds an invalid signature and returns, the last line of its log claims that all
inputs have valid signatures. -/
theorem C116_violation (X : Ext) (t : Tx) (k : Nat) (h : (Lg.verify X t).outcome = .ok k) (hk : k ≠ 0) :
    ∃ cs : List Check, cs.length = t.inputs.length ∧
      (∀ (j : Nat) (i : TxIn) (c : Check), t.inputs[j]? = some i → cs[j]? = some c → c.Of X t j i) ∧
      (Lg.verify X t).ev.getLast? = some (summaryLog t.inputs.length) ∧
      (cs.filter fun c => c.valid).length < t.inputs.length := by
  obtain ⟨cs, h1, h2, h3, h4⟩ := C116_exact X t k h
  refine ⟨cs, h1, h2, by rw [h4]; simp, ?_⟩
  rw [← h1]
  have := List.length_eq_countP_add_countP (fun c : Check => c.valid) (l := cs)
  simp only [List.countP_eq_length_filter] at this
  have e : (cs.filter fun c => decide ¬ c.valid = true) = cs.filter fun c => !c.valid := by
    congr 1; funext c; cases c.valid <;> rfl
  rw [e] at this
  omega

/-! ## C117: the log of `sign` -/

theorem signed_line (n : Nat) : Ev.log lTx 20 (signedLine n) = signedLog n := by
  unfold signedLine signedLog
  by_cases h : n = 0
  · subst h; rfl
  · rw [if_pos (by omega), if_neg h]; rfl

/-- **C117**: a successful signing logs one block per input, in order, with the source address of the input, the public key
and the scriptSig that the input then has, and the signature in it, which was made for that input with a supplied key of the
source address; then "Transaction signed with n signatures." -/
theorem C117_exact (X : Ext) (t : Tx) (ht : t.hashType1 = py"01") (keys : List Str) (rvs : Option (List Str))
    (h : (Lg.sign X t keys rvs).2.outcome = .ok ()) :
    ∃ gs : List Signing, gs.length = t.inputs.length ∧ (Lg.sign X t keys rvs).1.inputs.length = t.inputs.length ∧
      (∀ (j : Nat) (i : TxIn) (g : Signing), (Lg.sign X t keys rvs).1.inputs[j]? = some i → gs[j]? = some g → g.Of X i) ∧
      (∀ (j : Nat) (i : TxIn) (g : Signing), t.inputs[j]? = some i → gs[j]? = some g →
        ∃ key ∈ keys, ∃ rv, privateKeyToAddress X key = .ok i.address ∧ t.createSignature X j key rv = .ok g.sig) ∧
      (Lg.sign X t keys rvs).2.ev = ((t.inputs.zip gs).zipIdx.flatMap fun p => signingLog rvs.isSome t.inputs.length p.2 p.1.1.address
        p.1.2.pk p.1.2.sig p.1.2.der p.1.2.scriptSig p.1.2.scriptLen) ++ [signedLog t.inputs.length] := by
  rw [Lg.sign_eq] at h ⊢
  cases hm : signChecks X keys rvs with
  | error e => rw [hm] at h; simp [W.outcome, run] at h
  | ok m =>
    rw [hm] at h
    simp only at h ⊢
    have hr := runs_of_ok h
    rw [runs_bind] at hr
    obtain ⟨u, e1, e2, h1, h2, h3⟩ := hr
    rw [runs_info] at h2
    obtain ⟨gs, g1, g2, g3, _, g5, g6⟩ := signRest_log X t ht m rvs t.inputs.length t.inputs 0 _ e1 (Prod.ext rfl h1)
    refine ⟨gs, g1, g2, g3, ?_, ?_⟩
    · intro j i g hi hg
      obtain ⟨key, rv, k1, k2⟩ := g5 j i g hi hg
      obtain ⟨k3, _, k4⟩ := keyMap_mem X keys m ((signChecks_ok X).1 hm).1 _ _ (keyFor_mem k1)
      exact ⟨key, k3, rv, k4, by rwa [Nat.zero_add] at k2⟩
    · rw [h3, h2, ← g6, signed_line]

/-- the scriptSig determines what is logged about a signature -/
theorem Signing.unique (X : Ext) (L : X.Laws) {i i' : TxIn} {g g' : Signing} (h : g.Of X i) (h' : g'.Of X i')
    (hs : isHexStr g.sig = true ∧ g.sig.length = 128) (hs' : isHexStr g'.sig = true ∧ g'.sig.length = 128)
    (hi : i.scriptSig = i'.scriptSig) : g = g' := by
  obtain ⟨_, h2, _, h4, h5⟩ := h
  obtain ⟨_, k2, _, k4, k5⟩ := h'
  obtain ⟨d, e1, e2, e3⟩ := signature_der X L hs.1 hs.2
  obtain ⟨d', f1, f2, f3⟩ := signature_der X L hs'.1 hs'.2
  rw [e1] at h4; injection h4 with h4
  rw [f1] at k4; injection k4 with k4
  have hss : g.scriptSig = g'.scriptSig := by
    rw [h2, k2] at hi; exact Option.some.inj hi
  obtain ⟨pk, sig, der, ss, sl⟩ := g
  obtain ⟨pk', sig', der', ss', sl'⟩ := g'
  simp only at *
  subst h4; subst k4; subst hss
  have key : ∀ {d : Bytes} {pk sl : Str}, d.length ≤ 72 → BT.scriptSigEncode (hex d ++ py"01") pk = .ok (ss, sl) →
      ∃ p : Bytes, pk = hex p ∧ BT.scriptSigDecode X.uni ss = .ok (hex d, pk) ∧ sl = hex [UInt8.ofNat (ss.length / 2)] := by
    intro d pk sl hd he
    rw [hex_one, ← hex_append] at he
    obtain ⟨gb, pb, h6, rfl, hp, hg, rfl, rfl⟩ := scriptSigEncode_ok he
    rw [hex_inj_iff] at h6
    subst h6
    refine ⟨pb, rfl, scriptSigDecode_sigScript X.uni hd hp, ?_⟩
    have hl : (sigScript (d ++ [1]) pb).length = (d ++ [1]).length + 67 := by simp [sigScript, hp]
    simp [hl]
  obtain ⟨p, rfl, a2, rfl⟩ := key e2 h5
  obtain ⟨p', rfl, b2, rfl⟩ := key f2 k5
  rw [a2] at b2
  simp only [Except.ok.injEq, Prod.mk.injEq] at b2
  obtain ⟨b3, b4⟩ := b2
  rw [← b3, e3] at f3
  injection f3 with f3
  subst f3; rw [b3, b4]

theorem sig_shape_of (X : Ext) (L : X.Laws) {t : Tx} {j : Nat} {key : Str} {rv : Option Str} {sig : Str}
    (h : t.createSignature X j key rv = .ok sig) : isHexStr sig = true ∧ sig.length = 128 := by
  obtain ⟨_, _, _, _, _, _, h6⟩ := createSignature_ok X h
  rcases h6 with ⟨v, _, _, h6⟩ | ⟨_, h6⟩
  · exact L.sig_shape_rand _ _ _ _ h6
  · exact L.sig_shape _ _ _ h6

/-- **C117**: the log of a successful signing shows nothing about the private keys and the random values that the signed
transaction does not show: two signings of a transaction, with whatever keys and random values, that give the inputs the same
scriptSigs log the same (random values supplied in both or in neither). -/
theorem C117_secret (X : Ext) (L : X.Laws) (t : Tx) (ht : t.hashType1 = py"01") (keys keys' : List Str) (rvs rvs' : Option (List Str))
    (h : (Lg.sign X t keys rvs).2.outcome = .ok ()) (h' : (Lg.sign X t keys' rvs').2.outcome = .ok ())
    (hr : rvs.isSome = rvs'.isSome)
    (hs : (Lg.sign X t keys rvs).1.inputs.map TxIn.scriptSig = (Lg.sign X t keys' rvs').1.inputs.map TxIn.scriptSig) :
    (Lg.sign X t keys rvs).2.ev = (Lg.sign X t keys' rvs').2.ev := by
  obtain ⟨gs, a1, a2, a3, a4, a5⟩ := C117_exact X t ht keys rvs h
  obtain ⟨gs', b1, b2, b3, b4, b5⟩ := C117_exact X t ht keys' rvs' h'
  have : gs = gs' := by
    apply List.ext_getElem (by omega)
    intro j j1 j2
    have jn : j < t.inputs.length := by omega
    have hi := congrArg (fun l => l[j]?) hs
    simp only [List.getElem?_map] at hi
    rw [List.getElem?_eq_getElem (by omega), List.getElem?_eq_getElem (by omega)] at hi
    simp only [Option.map_some, Option.some.injEq] at hi
    obtain ⟨_, _, _, _, c1⟩ := a4 j _ _ (List.getElem?_eq_getElem jn) (List.getElem?_eq_getElem j1)
    obtain ⟨_, _, _, _, c2⟩ := b4 j _ _ (List.getElem?_eq_getElem jn) (List.getElem?_eq_getElem j2)
    exact Signing.unique X L (a3 j _ _ (List.getElem?_eq_getElem (by omega)) (List.getElem?_eq_getElem j1))
      (b3 j _ _ (List.getElem?_eq_getElem (by omega)) (List.getElem?_eq_getElem j2)) (sig_shape_of X L c1) (sig_shape_of X L c2) hi
  rw [a5, b5, this, hr]

/-- what can be logged in any run of `sign` -/
inductive SignShows (X : Ext) (t : Tx) (keys : List Str) (given : Bool) : Ev → Prop
  /-- the line that announces the signature for an input -/
  | creating (j : Nat) (i : TxIn) (h : t.inputs[j]? = some i) :
      SignShows X t keys given (.log py"bitcoin_toolset.code.transaction" 20 (py"Creating " ++ (if given then py"non-" else []) ++
        py"deterministic signature " ++ nth j t.inputs.length ++ py". Source address = " ++ i.address))
  /-- the public key of a supplied key -/
  | publicKey (key pk : Str) (h : key ∈ keys) (hp : privateKeyToPublicKey X key = .ok pk) :
      SignShows X t keys given (.log py"bitcoin_toolset.code.transaction" 10 (withSize py"public_key_hex" py" = " pk))
  /-- a line about a signature made for an input with the supplied key of its address -/
  | signature (j : Nat) (i : TxIn) (key pk : Str) (rv : Option Str) (sig der scriptSig scriptLen : Str) (e : Ev)
      (h : t.inputs[j]? = some i) (hk : key ∈ keys) (ha : privateKeyToAddress X key = .ok i.address)
      (hp : privateKeyToPublicKey X key = .ok pk) (hs : t.createSignature X j key rv = .ok sig)
      (hd : signatureToDer X sig = .ok der) (he : BT.scriptSigEncode (der ++ py"01") pk = .ok (scriptSig, scriptLen))
      (hm : e ∈ signingLog given t.inputs.length j i.address pk sig der scriptSig scriptLen) : SignShows X t keys given e
  /-- the final line -/
  | done : SignShows X t keys given (signedLog t.inputs.length)

/-- **C117**, for every run of `sign`, also one that raises: each line logged is the announcement of a signature, a public
key of a supplied key, a line of the block of a signature that was made, or the final line. -/
theorem C117_any_run (X : Ext) (L : X.Laws) (t : Tx) (ht : t.hashType1 = py"01") (keys : List Str) (rvs : Option (List Str)) :
    ∀ e ∈ (Lg.sign X t keys rvs).2.ev, SignShows X t keys rvs.isSome e := by
  refine only_sign X t keys rvs ?_ ?_ .done
  · intro j i m hi hm
    unfold Lg.signPrepare
    refine Only.bind (Only.run _) fun _ => Only.bind (Only.info ?_) fun _ => ?_
    · rw [creating_eq]
      exact .creating j i hi
    · cases keyFor m i.address with
      | none => exact Only.run _
      | some key => exact Only.bind (Only.run _) fun _ => Only.pure _
  · intro j i m rv key pk hi hm hp
    rw [signPrepare_ok] at hp
    obtain ⟨_, p2, p3⟩ := hp
    obtain ⟨k1, k2, k3⟩ := keyMap_mem X keys m ((signChecks_ok X).1 hm).1 _ _ (keyFor_mem p2)
    cases hs : t.createSignature X j key rv with
    | error x =>
      unfold Lg.signFinish
      refine Only.bind' (Only.run _) fun k hk => Only.bind (Only.deb ?_) fun _ => ?_
      · rw [sized_eq (by rwa [o_run] at hk)]
        exact .publicKey key pk k1 p3
      · rw [hs]
        refine Only.bind' (Only.run _) fun _ h => ?_
        simp [run, W.outcome] at h
    | ok sig =>
      obtain ⟨hv, hk, _⟩ := key_valid X L k2 k3 p3
      obtain ⟨s1, s2⟩ := sig_shape_of X L hs
      obtain ⟨_, _, _, hfin⟩ := signFinish_of X L ht hk hs
      have hr := runs_of_ok ((o_signFinish X t j rv key pk).trans hfin)
      obtain ⟨g, g1, g2, g3, g4, g5, g6, g7⟩ := finish_log X t ht rvs.isSome j t.inputs.length i.address rv key pk _ _ hr
      rw [hs] at g4; injection g4 with g4
      intro e he
      refine .signature j i key pk rv sig g.der g.scriptSig g.scriptLen e hi k1 k3 p3 hs (by rw [g4]; exact g5) (by rw [← g1]; exact g6) ?_
      rw [g4, ← g7]
      exact List.mem_cons_of_mem _ he

theorem creating_head (given : Bool) (j n : Nat) (a : Str) : (creatingLine given j n a).head? = some 'C' := by
  rw [creating_eq]; rfl

/-- **C117**: the line "Transaction signed with ..." is logged exactly if signing succeeds. -/
theorem C117_done_iff (X : Ext) (t : Tx) (keys : List Str) (rvs : Option (List Str)) :
    signedLog t.inputs.length ∈ (Lg.sign X t keys rvs).2.ev ↔ (Lg.sign X t keys rvs).2.outcome = .ok () := by
  rw [Lg.sign_eq]
  cases hm : signChecks X keys rvs with
  | error e => simp [run, W.outcome]
  | ok m =>
    have hno : Only (fun e => e ≠ signedLog t.inputs.length) (Lg.signRest X t m rvs t.inputs.length 0 t.inputs).2 := by
      refine only_signRest X t m rvs _ _ 0 (fun j i _ => ?_) fun j i rv key pk _ _ => ?_
      · unfold Lg.signPrepare
        refine Only.bind (Only.run _) fun _ => Only.bind (Only.info ?_) fun _ => ?_
        · intro h
          have h := congrArg (fun | Ev.log _ _ s => s.head? | .print _ => none) h
          simp only [creating_head] at h
          simp [signedLog] at h
        · cases keyFor m i.address with
          | none => exact Only.run _
          | some key => exact Only.bind (Only.run _) fun _ => Only.pure _
      · refine (debug_finish _ _ _ _ _ _).mono fun e he h => ?_
        subst h
        exact absurd he (by show ¬ (20 : Nat) = 10; decide)
    simp only
    generalize (Lg.signRest X t m rvs t.inputs.length 0 t.inputs).2 = w at hno ⊢
    rw [ev_bind, o_bind]
    obtain ⟨ev, res⟩ := w
    have hno : ∀ e ∈ ev, e ≠ signedLog t.inputs.length := hno
    cases res with
    | error x =>
      simp only [List.append_nil]
      constructor
      · intro h; exact absurd rfl (hno _ h)
      · intro h; simp [W.outcome] at h
    | ok u =>
      simp only
      constructor
      · intro _; rfl
      · intro _
        rw [List.mem_append]
        right
        rw [← signed_line]
        exact List.mem_singleton_self _

/-- **C117** violated: with an empty list of random values the signatures are the deterministic ones, but the log calls them
non-deterministic. -/
theorem C117_violation (X : Ext) (t : Tx) (keys : List Str) (i : TxIn) (is : List TxIn) (hi : t.inputs = i :: is)
    (h : (Lg.sign X t keys (some [])).2.outcome = .ok ()) :
    (Lg.sign X t keys (some [])).1 = (Lg.sign X t keys none).1 ∧
    .log py"bitcoin_toolset.code.transaction" 20 (py"Creating non-deterministic signature " ++ nth 0 t.inputs.length ++
      py". Source address = " ++ i.address) ∈ (Lg.sign X t keys (some [])).2.ev := by
  have e1 : t.sign X keys (some []) = t.sign X keys none := by
    rw [BT.sign_eq, BT.sign_eq]
    have hc : signChecks X keys (some []) = signChecks X keys none := rfl
    rw [hc]
    cases signChecks X keys none with
    | error e => rfl
    | ok m =>
      have : ∀ (l : List TxIn) (k : Nat), BT.signRest X t m (some []) k l = BT.signRest X t m none k l := by
        intro l
        induction l with
        | nil => intro k; rfl
        | cons a l ih =>
          intro k
          unfold BT.signRest
          rw [ih]
          rfl
      simp only [this]
  refine ⟨?_, ?_⟩
  · have a := o_sign X t keys (some [])
    have b := o_sign X t keys none
    rw [e1, ← b] at a
    exact (Prod.mk.inj a).1
  · rw [Lg.sign_eq] at h ⊢
    cases hm : signChecks X keys (some []) with
    | error e => rw [hm] at h; simp [run, W.outcome] at h
    | ok m =>
      simp only [hi]
      rw [ev_bind, List.mem_append]
      left
      unfold Lg.signRest
      simp only
      have hp : Ev.log lTx 20 (creatingLine true 0 (i :: is).length i.address) ∈ (Lg.signPrepare X m (some []) 0 (i :: is).length i).ev := by
        unfold Lg.signPrepare
        have : randomFor (some []) 0 = .ok none := rfl
        rw [this]
        show _ ∈ ([] ++ ([Ev.log lTx 20 (creatingLine true 0 (i :: is).length i.address)] ++ _) : List Ev)
        simp
      rw [creating_eq] at hp
      have hq : ∀ (l : List Ev), (Lg.signPrepare X m (some []) 0 (i :: is).length i).ev <+: l →
        .log py"bitcoin_toolset.code.transaction" 20 (py"Creating non-deterministic signature " ++ nth 0 (i :: is).length ++
          py". Source address = " ++ i.address) ∈ l := fun l hl => hl.subset hp
      apply hq
      split
      · exact List.prefix_rfl
      · split
        · exact List.prefix_append _ _
        · simp only [List.append_assoc]
          exact List.prefix_append _ _

/-! ## C118: the log of `from_hex_signed` -/

/-- **C118**: decoding that succeeds logs the received text and, in order, exactly the parts of the transaction it returns;
the signatures shown are those inside the scriptSigs. -/
theorem C118_exact (X : Ext) (s : Str) (t : Tx) (h : (Lg.fromHexSigned X s).outcome = .ok t) :
    ∃ ders : List Str, ders.length = t.inputs.length ∧
      (∀ (j : Nat) (i : TxIn) (d : Str), t.inputs[j]? = some i → ders[j]? = some d → ∃ ss pk, i.scriptSig = some ss ∧
        i.publicKey = some pk ∧ BT.scriptSigDecode X.uni ss = .ok (d, pk)) ∧
      (Lg.fromHexSigned X s).ev = readLog s ders t :=
  read_log X s _ t (runs_of_ok h)

/-- in a run that raises everything shown satisfies `P` -/
def Fails {α : Type} (P : Ev → Prop) (m : W α) : Prop := ∀ x, m.outcome = .error x → Only P m

theorem Fails.bind {α β : Type} {P : Ev → Prop} {m : W α} {f : α → W β} (h : Only P m) (g : ∀ a, Fails P (f a)) : Fails P (m >>= f) := by
  intro x hx
  refine h.bind' fun a ha => ?_
  rw [o_bind, ha] at hx
  exact g a x hx

theorem Fails.of {α : Type} {P : Ev → Prop} {m : W α} (h : Only P m) : Fails P m := fun _ _ => h
theorem Fails.ok {α : Type} {P : Ev → Prop} {m : W α} {a : α} (h : m.outcome = .ok a) : Fails P m := by
  intro x hx; rw [h] at hx; simp at hx
theorem Fails.guard {α : Type} {P : Ev → Prop} {c : Prop} [Decidable c] {e : Err} {k : Unit → W α} (h : Fails P (k ())) :
    Fails P (if c then (run (raise e) >>= k) else k ()) := by
  split
  · exact Fails.bind (Only.run _) fun _ => h
  · exact h

theorem readTail (X : Ext) (s : Str) : ∃ w : W Tx, (Lg.fromHexSigned X s) = (Lg.info lTx py"Loading signed transaction from hex." >>= fun _ => w) ∧
    Fails IsDebug w := by
  refine ⟨_, rfl, ?_⟩
  have hd : ∀ s, Only IsDebug (Lg.deb lTx s) := fun s => Only.deb rfl
  refine Fails.bind (hd _) fun _ => Fails.bind (Only.run _) fun _ => Fails.bind (hd _) fun _ => ?_
  simp only
  refine Fails.guard (Fails.bind (hd _) fun _ => Fails.bind (Only.run _) fun _ => Fails.bind (hd _) fun _ => Fails.bind (Only.run _) fun _ =>
    Fails.bind (hd _) fun _ => Fails.bind (only_parseMany _ (debug_parseInput X) _ _ _) fun _ => Fails.bind (Only.run _) fun _ =>
    Fails.bind (hd _) fun _ => Fails.bind (Only.run _) fun _ => Fails.bind (hd _) fun _ =>
    Fails.bind (only_parseMany _ (debug_parseOutput X) _ _ _) fun _ => Fails.bind (hd _) fun _ =>
    Fails.guard (Fails.bind (Only.run _) fun _ => Fails.ok rfl))

theorem visible_append (n : Nat) (a b : List Ev) : visible n (a ++ b) = visible n a ++ visible n b := by
  unfold visible
  have : records (a ++ b) = records a ++ records b := by
    induction a with
    | nil => rfl
    | cons x xs ih => cases x <;> simp [records, ih]
  rw [this, List.filter_append, List.map_append]

theorem visible_debug {l : List Ev} {n : Nat} (hn : 10 < n) (h : ∀ e ∈ l, IsDebug e) : visible n l = [] := by
  induction l with
  | nil => rfl
  | cons x xs ih =>
    have h1 := h x (List.mem_cons_self ..)
    have h2 := ih fun e he => h e (List.mem_cons_of_mem _ he)
    cases x with
    | print s => exact absurd h1 id
    | log lg k s =>
      have hk : k = 10 := h1
      subst hk
      have : visible n (.log lg 10 s :: xs) = visible n xs := by
        unfold visible
        simp only [records]
        rw [List.filter_cons_of_neg (by simpa using hn)]
      rw [this, h2]

/-- **C118**: at level INFO a decoding shows "Loading signed transaction from hex." and then, exactly if it succeeds, "Signed
transaction successfully loaded from hex format and validated." -/
theorem C118_info (X : Ext) (s : Str) :
    visible 20 (Lg.fromHexSigned X s).ev = py"Loading signed transaction from hex." ::
      (match (Lg.fromHexSigned X s).outcome with
        | .ok _ => [py"Signed transaction successfully loaded from hex format and validated."]
        | .error _ => []) := by
  cases h : (Lg.fromHexSigned X s).outcome with
  | error x =>
    obtain ⟨w, hw, hf⟩ := readTail X s
    rw [hw] at h ⊢
    rw [o_bind, o_info] at h
    have ho : w.outcome = .error x := h
    rw [ev_bind]
    show visible 20 ([Ev.log lTx 20 _] ++ w.ev) = _
    rw [visible_append, visible_debug (by omega) (hf x ho)]
    rfl
  | ok t =>
    obtain ⟨ders, _, _, h3⟩ := C118_exact X s t h
    rw [h3]
    unfold readLog
    rw [visible_append, visible_append, visible_append, visible_append]
    have hi : ∀ l : List ((Str × TxIn) × Nat), visible 20 (l.flatMap fun p => readInputLog p.2 p.1.1 p.1.2) = [] := by
      intro l
      apply visible_debug (by omega)
      intro e he
      rw [List.mem_flatMap] at he
      obtain ⟨p, _, he⟩ := he
      simp only [readInputLog, scriptSigLog, txDebug, List.mem_append, List.mem_cons, List.not_mem_nil, or_false] at he
      rcases he with ((rfl | rfl | rfl | rfl | rfl | rfl) | rfl | rfl | rfl | rfl | rfl | rfl) | rfl | rfl | rfl <;> rfl
    have ho : ∀ l : List (TxOut × Nat), visible 20 (l.flatMap fun p => readOutputLog p.2 p.1) = [] := by
      intro l
      apply visible_debug (by omega)
      intro e he
      rw [List.mem_flatMap] at he
      obtain ⟨p, _, he⟩ := he
      simp only [readOutputLog, txDebug, List.mem_cons, List.not_mem_nil, or_false] at he
      rcases he with rfl | rfl | rfl | rfl | rfl <;> rfl
    rw [hi, ho]
    rfl

end BT
