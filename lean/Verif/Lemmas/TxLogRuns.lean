import Verif.Lemmas.TxLogCli
import Verif.Lemmas.Sign

/-!
# The exact logs of runs that return
-/

namespace BT.Lg
open Spec

/-- the run returns `a` and shows `ev` -/
def Runs {α : Type} (m : W α) (ev : List Ev) (a : α) : Prop := m = ⟨ev, .ok a⟩

theorem runs_of_ok {α : Type} {m : W α} {a : α} (h : m.outcome = .ok a) : Runs m m.ev a := by
  unfold Runs
  rw [outcome_ok] at h
  rw [← h]

theorem Runs.ok {α : Type} {m : W α} {ev : List Ev} {a : α} (h : Runs m ev a) : m.outcome = .ok a := by
  rw [h]; rfl

theorem runs_bind {α β : Type} {m : W α} {f : α → W β} {ev : List Ev} {b : β} :
    Runs (m >>= f) ev b ↔ ∃ a e1 e2, Runs m e1 a ∧ Runs (f a) e2 b ∧ ev = e1 ++ e2 := by
  unfold Runs
  rw [bind_def, W.bind]
  obtain ⟨e, r⟩ := m
  cases r with
  | error x => simp
  | ok a =>
    simp only [W.mk.injEq, Except.ok.injEq]
    constructor
    · rintro ⟨rfl, h⟩
      exact ⟨a, e, (f a).ev, ⟨rfl, rfl⟩, by rw [← h], rfl⟩
    · rintro ⟨a', e1, e2, ⟨rfl, rfl⟩, h, rfl⟩
      rw [h]; exact ⟨rfl, rfl⟩

theorem runs_run {α : Type} {r : R α} {ev : List Ev} {a : α} : Runs (run r) ev a ↔ r = .ok a ∧ ev = [] := by
  unfold Runs run
  cases r <;> simp [and_comm, eq_comm]

theorem runs_pure {α : Type} {x : α} {ev : List Ev} {a : α} : Runs (pure x : W α) ev a ↔ a = x ∧ ev = [] := by
  unfold Runs
  show (W.mk [] (Except.ok x) = _) ↔ _
  simp [and_comm, eq_comm]

theorem runs_deb {l s : Str} {ev : List Ev} {a : Unit} : Runs (deb l s) ev a ↔ ev = [.log l 10 s] := by
  unfold Runs deb
  simp [eq_comm]
theorem runs_info {l s : Str} {ev : List Ev} {a : Unit} : Runs (info l s) ev a ↔ ev = [.log l 20 s] := by
  unfold Runs info
  simp [eq_comm]
theorem runs_err {l s : Str} {ev : List Ev} {a : Unit} : Runs (err l s) ev a ↔ ev = [.log l 40 s] := by
  unfold Runs err
  simp [eq_comm]
theorem runs_raise {α : Type} {e : Err} {ev : List Ev} {a : α} : ¬ Runs (run (raise e) : W α) ev a := by
  rw [runs_run]
  simp

/-- the value and the log of a run are determined -/
theorem Runs.unique {α : Type} {m : W α} {e e' : List Ev} {a a' : α} (h : Runs m e a) (h' : Runs m e' a') : e = e' ∧ a = a' := by
  unfold Runs at *
  rw [h] at h'
  simpa using h'

/-- a test that raises if it fails -/
theorem runs_guard {α : Type} {c : Prop} [Decidable c] {e : Err} {k : Unit → W α} {ev : List Ev} {a : α} :
    Runs (if c then (run (raise e) >>= k) else k ()) ev a ↔ ¬ c ∧ Runs (k ()) ev a := by
  split
  · rename_i h
    rw [runs_bind]
    constructor
    · rintro ⟨_, _, _, h1, _⟩; exact absurd h1 runs_raise
    · rintro ⟨h1, _⟩; exact absurd h h1
  · rename_i h
    simp [h]

theorem rb_run {α β : Type} {r : R α} {f : α → W β} {ev : List Ev} {b : β} :
    Runs (run r >>= f) ev b ↔ ∃ a, r = .ok a ∧ Runs (f a) ev b := by
  rw [runs_bind]
  constructor
  · rintro ⟨a, e1, e2, h1, h2, rfl⟩
    rw [runs_run] at h1
    obtain ⟨h1, rfl⟩ := h1
    exact ⟨a, h1, h2⟩
  · rintro ⟨a, h1, h2⟩
    exact ⟨a, [], ev, runs_run.2 ⟨h1, rfl⟩, h2, rfl⟩

theorem rb_deb {β : Type} {l s : Str} {f : Unit → W β} {ev : List Ev} {b : β} :
    Runs (deb l s >>= f) ev b ↔ ∃ e, ev = .log l 10 s :: e ∧ Runs (f ()) e b := by
  rw [runs_bind]
  constructor
  · rintro ⟨a, e1, e2, h1, h2, rfl⟩
    rw [runs_deb] at h1
    subst h1
    exact ⟨e2, rfl, h2⟩
  · rintro ⟨e, rfl, h2⟩
    exact ⟨(), _, e, runs_deb.2 rfl, h2, rfl⟩

theorem rb_info {β : Type} {l s : Str} {f : Unit → W β} {ev : List Ev} {b : β} :
    Runs (info l s >>= f) ev b ↔ ∃ e, ev = .log l 20 s :: e ∧ Runs (f ()) e b := by
  rw [runs_bind]
  constructor
  · rintro ⟨a, e1, e2, h1, h2, rfl⟩
    rw [runs_info] at h1
    subst h1
    exact ⟨e2, rfl, h2⟩
  · rintro ⟨e, rfl, h2⟩
    exact ⟨(), _, e, runs_info.2 rfl, h2, rfl⟩

theorem sized_eq {x : Str} {k : Nat} (h : hexLen x = .ok k) (what sep : Str) : sized what sep k x = withSize what sep x := by
  rw [hexLen_ok] at h
  rw [h.2]
  rfl

theorem decode_log (u : UniDB) (s : Str) (ev : List Ev) (p : Str × Str) (h : Runs (scriptSigDecode u s) ev p) :
    ev = scriptSigLog p.1 p.2 := by
  unfold scriptSigDecode at h
  simp only [rb_run, rb_deb, runs_guard, runs_pure] at h
  obtain ⟨_, _, n, _, k1, h1, e1, rfl, n2, _, k2, h2, e2, rfl, e3, rfl, hb, k3, h3, e4, rfl, e5, rfl, hc, k4, h4, e6, rfl, rfl, rfl⟩ := h
  generalize hsig : slice s 2 (n.toNat * 2 + 2) = sig at *
  generalize hpk : slice s (n.toNat * 2 + 2 + 2) (n.toNat * 2 + 2 + 2 + n2.toNat * 2) = pk at *
  simp only [ne_eq, not_not] at hb hc
  have es : dropLastK 2 sig ++ py"01" = sig := by rw [← hb]; simp [dropLastK, lastK]
  have ep : py"04" ++ pk.drop 2 = pk := by rw [← hc]; simp
  rw [sized_eq h1, sized_eq h2, sized_eq h3, sized_eq h4]
  unfold scriptSigLog
  rw [es, ep, hb, hc]
  rfl

theorem padHex_length {x y : Str} (h : padHex x 32 = .ok y) : IsHex y ∧ y.length = 64 := by
  by_cases hx : IsHex x
  · obtain ⟨b, rfl⟩ := isHex_exists hx
    rw [padHex_hex] at h
    split at h
    · rename_i hl
      injection h with h
      subst h
      exact ⟨isHex_hex _, by simp; omega⟩
    · simp at h
  · rw [padHex_not hx] at h
    simp at h

theorem der_log (X : Ext) (s : Str) (ev : List Ev) (g : Str) (h : Runs (signatureFromDer X s) ev g) : ev = derLog g := by
  unfold signatureFromDer at h
  simp only [rb_run, rb_deb, runs_pure] at h
  obtain ⟨_, _, b, _, p, _, r0, _, s0, _, r, hr, t, ht, k1, h1, k2, h2, k3, h3, e, rfl, rfl, rfl⟩ := h
  have lr := (padHex_length hr).2
  rw [sized_eq h1, sized_eq h2, sized_eq h3]
  unfold derLog
  rw [← lr, List.take_left, List.drop_left]
  rfl

theorem verifyOne_ok {X : Ext} {t : Tx} {j : Nat} {pk sig : Str} {b : Bool} (h : t.verifyOne X j pk sig = .ok b) :
    ∃ hx dg, t.toHexSignable j = .ok hx ∧ getDoubleSha256 X hx = .ok dg ∧ X.verifyDigest pk dg sig = .ok b := by
  unfold Tx.verifyOne at h
  split at h
  · simp at h
  · simp only [R_bind_eq_ok] at h
    obtain ⟨hx, h4, dg, h5, _, _, h7⟩ := h
    unfold verifySignatureDigest at h7
    simp only [R_bind_eq_ok] at h7
    obtain ⟨_, _, h8⟩ := h7
    split at h8
    · simp at h8
    · exact ⟨hx, dg, h4, h5, h8⟩

theorem nth_eq (j n : Nat) : pyStr (j + 1) ++ py" of " ++ pyStr n = nth j n := rfl

theorem verifyInput_log (X : Ext) (t : Tx) (j n : Nat) (i : TxIn) (ev : List Ev) (b : Bool)
    (h : Runs (verifyInput X t j n i) ev b) :
    ∃ c : Check, c.Of X t j i ∧ c.valid = b ∧ ev = checkLog n j c.der c.pk c.sig b := by
  unfold verifyInput at h
  simp only [rb_deb] at h
  obtain ⟨e, rfl, h⟩ := h
  cases hs : i.scriptSig with
  | none =>
    simp only [hs] at h
    exact absurd h runs_raise
  | some ss =>
    simp only [hs] at h
    rw [runs_bind] at h
    obtain ⟨p, e1, e2, h1, h2, rfl⟩ := h
    rw [runs_bind] at h2
    obtain ⟨sig, e3, e4, h3, h4, rfl⟩ := h2
    rw [rb_run] at h4
    obtain ⟨v, h5, h6⟩ := h4
    have d1 := h1.ok
    rw [o_scriptSigDecode] at d1
    have d3 := h3.ok
    rw [o_signatureFromDer] at d3
    obtain ⟨hx, dg, h7, h8, h9⟩ := verifyOne_ok h5
    have hev : v = b ∧ e4 = [verdictLog n j b] := by
      cases v with
      | true =>
        simp only [if_true, rb_deb, runs_pure] at h6
        obtain ⟨_, rfl, rfl, rfl⟩ := h6
        exact ⟨rfl, by simp only [verdictLog, if_true, ← nth_eq, List.append_assoc]; rfl⟩
      | false =>
        simp only [Bool.false_eq_true, if_false] at h6
        rw [runs_bind] at h6
        obtain ⟨_, e5, e6, h10, h11, rfl⟩ := h6
        rw [runs_err] at h10
        rw [runs_pure] at h11
        obtain ⟨rfl, rfl⟩ := h11
        subst h10
        exact ⟨rfl, by simp only [verdictLog, Bool.false_eq_true, if_false, ← nth_eq, List.append_assoc]; rfl⟩
    obtain ⟨rfl, rfl⟩ := hev
    refine ⟨⟨p.1, p.2, sig, v⟩, ⟨ss, hx, dg, hs, d1, d3, h7, h8, h9⟩, rfl, ?_⟩
    rw [decode_log _ _ _ _ h1, der_log _ _ _ _ h3]
    simp only [checkLog, ← nth_eq, List.append_assoc]
    rfl

theorem verifyLoop_log (X : Ext) (t : Tx) (n : Nat) (l : List TxIn) (k bad : Nat) (ev : List Ev) (r : Nat)
    (h : Runs (verifyLoop X t n k l bad) ev r) :
    ∃ cs : List Check, cs.length = l.length ∧ (∀ (j : Nat) (i : TxIn) (c : Check), l[j]? = some i → cs[j]? = some c → c.Of X t (k + j) i) ∧
      r = bad + (cs.filter fun c => !c.valid).length ∧
      ev = ((cs.zipIdx k).flatMap fun p => checkLog n p.2 p.1.der p.1.pk p.1.sig p.1.valid) := by
  induction l generalizing k bad ev with
  | nil =>
    unfold verifyLoop at h
    rw [runs_pure] at h
    obtain ⟨rfl, rfl⟩ := h
    exact ⟨[], rfl, by simp, rfl, rfl⟩
  | cons i l ih =>
    unfold verifyLoop at h
    rw [runs_bind] at h
    obtain ⟨b, e1, e2, h1, h2, rfl⟩ := h
    obtain ⟨c, hc, rfl, rfl⟩ := verifyInput_log X t k n i e1 b h1
    obtain ⟨cs, g1, g2, g3, rfl⟩ := ih (k + 1) _ e2 h2
    refine ⟨c :: cs, by simp [g1], ?_, ?_, ?_⟩
    · intro j i' c' hi hc'
      cases j with
      | zero =>
        simp only [List.getElem?_cons_zero, Option.some.injEq] at hi hc'
        subst hi hc'
        exact hc
      | succ j =>
        simp only [List.getElem?_cons_succ] at hi hc'
        have := g2 j i' c' hi hc'
        rwa [show k + 1 + j = k + (j + 1) by omega] at this
    · rw [g3]
      cases hv : c.valid <;> simp [hv, List.filter_cons] <;> omega
    · rw [List.zipIdx_cons, List.flatMap_cons]

theorem verify_log (X : Ext) (t : Tx) (ev : List Ev) (r : Nat) (h : Runs (verify X t) ev r) :
    ∃ cs : List Check, cs.length = t.inputs.length ∧ (∀ (j : Nat) (i : TxIn) (c : Check), t.inputs[j]? = some i → cs[j]? = some c → c.Of X t j i) ∧
      r = (cs.filter fun c => !c.valid).length ∧
      ev = (cs.zipIdx.flatMap fun p => checkLog t.inputs.length p.2 p.1.der p.1.pk p.1.sig p.1.valid) ++
        [summaryLog t.inputs.length] := by
  unfold verify at h
  rw [runs_bind] at h
  obtain ⟨b, e1, e2, h1, h2, rfl⟩ := h
  rw [rb_info] at h2
  obtain ⟨e3, rfl, h3⟩ := h2
  rw [runs_pure] at h3
  obtain ⟨rfl, rfl⟩ := h3
  obtain ⟨cs, g1, g2, g3, rfl⟩ := verifyLoop_log X t _ _ 0 0 e1 r h1
  refine ⟨cs, g1, fun j i c hi hc => by simpa using g2 j i c hi hc, by simpa using g3, rfl⟩

/-! ## Signing -/

theorem signFinish_congr (X : Ext) {t t' : Tx} (h : unsignedTx t = unsignedTx t') (idx : Nat) (rv : Option Str) (key pk : Str) :
    signFinish X t idx rv key pk = signFinish X t' idx rv key pk := by
  unfold signFinish
  rw [createSignature_congr X h, unsigned_ht1 h]

/-- signing of the inputs from number `k` on, with all signatures made for `t`, see `signRest` -/
def signRest (X : Ext) (t : Tx) (m : List (Str × Str)) (rvs : Option (List Str)) (n : Nat) : Nat → List TxIn → List TxIn × W Unit
  | _, [] => ([], pure ())
  | k, inp :: rest =>
    let w1 := signPrepare X m rvs k n inp
    match w1.res with
    | .error e => (inp :: rest, ⟨w1.ev, .error e⟩)
    | .ok (rv, key, pk) =>
      let w2 := signFinish X t k rv key pk
      match w2.res with
      | .error e => ({ inp with publicKey := some pk } :: rest, ⟨w1.ev ++ w2.ev, .error e⟩)
      | .ok (ss, sl, i) =>
        let o := signRest X t m rvs n (k + 1) rest
        (signedAs inp pk ss sl i :: o.1, ⟨w1.ev ++ w2.ev ++ o.2.ev, o.2.res⟩)

theorem signLoop_eq (X : Ext) (t0 : Tx) (m : List (Str × Str)) (rvs : Option (List Str)) (rest : List TxIn) :
    ∀ (done : List TxIn), unsignedTx { t0 with inputs := done ++ rest } = unsignedTx t0 →
      signLoop X m rvs (List.range' done.length rest.length) { t0 with inputs := done ++ rest } =
        ({ t0 with inputs := done ++ (signRest X t0 m rvs t0.inputs.length done.length rest).1 },
          (signRest X t0 m rvs t0.inputs.length done.length rest).2) := by
  induction rest with
  | nil => intro done h; simp [signLoop, signRest]
  | cons inp rest ih =>
    intro done h
    have hlen : (done ++ inp :: rest).length = t0.inputs.length := unsigned_length h
    rw [List.length_cons, List.range'_succ]
    unfold signLoop signOne
    have hget : (done ++ inp :: rest)[done.length]? = some inp := by simp
    have hset : ∀ x, (done ++ inp :: rest).set done.length x = (done ++ [x]) ++ rest := by intro x; simp
    have hset2 : ∀ x y, ((done ++ [x]) ++ rest).set done.length y = (done ++ [y]) ++ rest := by intro x y; simp
    simp only [hget, hset, hset2, hlen]
    have hun : ∀ x, unsignedPart x = unsignedPart inp → unsignedTx { t0 with inputs := (done ++ [x]) ++ rest } = unsignedTx t0 := by
      intro x hx
      rw [← h]
      simp [unsignedTx, hx]
    cases hp : (signPrepare X m rvs done.length t0.inputs.length inp).res with
    | error e => simp only [signRest, hp]
    | ok q =>
      obtain ⟨rv, key, pk⟩ := q
      simp only
      rw [signFinish_congr X (hun { inp with publicKey := some pk } rfl)]
      cases hf : (signFinish X t0 done.length rv key pk).res with
      | error e => simp only [signRest, hp, hf]; simp
      | ok q =>
        obtain ⟨ss, sl, n⟩ := q
        simp only
        have := ih (done ++ [signedAs inp pk ss sl n]) (hun _ rfl)
        rw [List.length_append, List.length_singleton] at this
        rw [show ({ inp with publicKey := some pk, scriptLen := some sl, scriptLenInt := .int n, scriptSig := some ss } : TxIn)
          = signedAs inp pk ss sl n from rfl, this]
        simp only [signRest, hp, hf]
        simp

theorem sign_eq (X : Ext) (t : Tx) (keys : List Str) (rvs : Option (List Str)) :
    sign X t keys rvs = match signChecks X keys rvs with
      | .error e => (t, run (.error e))
      | .ok m => ({ t with inputs := (signRest X t m rvs t.inputs.length 0 t.inputs).1 },
          (signRest X t m rvs t.inputs.length 0 t.inputs).2 >>= fun _ => info lTx (signedLine t.inputs.length)) := by
  unfold sign
  cases signChecks X keys rvs with
  | error e => rfl
  | ok m =>
    have := signLoop_eq X t m rvs t.inputs [] rfl
    simp only [List.nil_append, List.length_nil] at this
    simp only [List.range_eq_range', this]

theorem encode_log (g p : Str) (ev : List Ev) (q : Str × Str) (h : Runs (scriptSigEncode g p) ev q) :
    ev = [
      .log lBasic 10 (withSize py"public_key_hex (1-byte compression type prepended)" py" = " (py"04" ++ p)),
      .log lBasic 10 (withSize py"signature_hex_pushdata" py" = " (q.1.take 2)),
      .log lBasic 10 py"public_key_hex_pushdata (1 bytes) = 41",
      .log lBasic 10 (withSize py"script_sig" py" = " q.1),
      .log lBasic 10 (withSize py"script_length" py" = " q.2)] := by
  unfold scriptSigEncode at h
  simp only [rb_run, rb_deb, runs_pure] at h
  obtain ⟨_, _, _, hp, k1, h1, e1, rfl, gl, hg, gp, hgp, pl, hpl, pp, hpp, k2, h2, e2, rfl, k3, h3, e3, rfl, n, hn, sl, hsl, e4, rfl,
    k4, h4, e5, rfl, rfl, rfl⟩ := h
  obtain ⟨pb, rfl, hpb⟩ := vHexLength_bytes (n := 64) hp
  have e4' : py"04" ++ hex pb = hex (4 :: pb) := by rw [hex_cons]; rfl
  rw [intToVarInt_ok] at hgp
  obtain ⟨_, _, rfl⟩ := hgp
  have hpp' : pp = py"41" := by
    rw [e4', hexLen_hex] at hpl
    injection hpl with hpl
    subst hpl
    rw [intToVarInt_nat (by simp [hpb])] at hpp
    injection hpp with hpp
    rw [← hpp]
    simp only [List.length_cons, hpb]
    rfl
  subst hpp'
  rw [sized_eq h1, sized_eq h2, sized_eq h3, sized_eq hn, sized_eq h4]
  rfl

theorem creating_eq (given : Bool) (j n : Nat) (a : Str) : creatingLine given j n a =
    py"Creating " ++ (if given then py"non-" else []) ++ py"deterministic signature " ++ nth j n ++ py". Source address = " ++ a := by
  simp only [creatingLine, ← nth_eq, List.append_assoc]

theorem prepare_log (X : Ext) (m : List (Str × Str)) (rvs : Option (List Str)) (i n : Nat) (inp : TxIn) (ev : List Ev)
    (q : Option Str × Str × Str) (h : Runs (signPrepare X m rvs i n inp) ev q) :
    ev = [.log lTx 20 (creatingLine rvs.isSome i n inp.address)] := by
  unfold signPrepare at h
  rw [rb_run] at h
  obtain ⟨rv, _, h⟩ := h
  rw [rb_info] at h
  obtain ⟨e, rfl, h⟩ := h
  cases hk : keyFor m inp.address with
  | none =>
    simp only [hk] at h
    exact absurd h runs_raise
  | some key =>
    simp only [hk, rb_run, runs_pure] at h
    obtain ⟨pk, _, _, rfl⟩ := h
    rfl

theorem finish_log (X : Ext) (t : Tx) (ht : t.hashType1 = py"01") (given : Bool) (j n : Nat) (a : Str) (rv : Option Str) (key pk : Str)
    (ev : List Ev) (q : Str × Str × Int) (h : Runs (signFinish X t j rv key pk) ev q) :
    ∃ g : Signing, g.pk = pk ∧ g.scriptSig = q.1 ∧ g.scriptLen = q.2.1 ∧ t.createSignature X j key rv = .ok g.sig ∧
      signatureToDer X g.sig = .ok g.der ∧ BT.scriptSigEncode (g.der ++ py"01") g.pk = .ok (g.scriptSig, g.scriptLen) ∧
      .log lTx 20 (creatingLine given j n a) :: ev = signingLog given n j a pk g.sig g.der g.scriptSig g.scriptLen := by
  unfold signFinish at h
  simp only [rb_run, rb_deb] at h
  obtain ⟨k1, h1, e1, rfl, sig, hs, k2, h2, e2, rfl, der, hd, k3, h3, e3, rfl, k4, h4, e4, rfl, h⟩ := h
  rw [runs_bind] at h
  obtain ⟨p, e5, e6, h5, h6, rfl⟩ := h
  rw [rb_run] at h6
  obtain ⟨nn, _, h7⟩ := h6
  rw [runs_pure] at h7
  obtain ⟨rfl, rfl⟩ := h7
  have d5 := h5.ok
  rw [o_scriptSigEncode] at d5
  rw [ht] at h4 h5 d5 ⊢
  refine ⟨⟨pk, sig, der, p.1, p.2⟩, rfl, rfl, rfl, hs, hd, d5, ?_⟩
  rw [encode_log _ _ _ _ h5, sized_eq h1, sized_eq h2, sized_eq h3, sized_eq h4, creating_eq]
  rfl

theorem signRest_log (X : Ext) (t : Tx) (ht : t.hashType1 = py"01") (m : List (Str × Str)) (rvs : Option (List Str)) (n : Nat) :
    ∀ (l : List TxIn) (k : Nat) (l' : List TxIn) (ev : List Ev), signRest X t m rvs n k l = (l', ⟨ev, .ok ()⟩) →
      ∃ gs : List Signing, gs.length = l.length ∧ l'.length = l.length ∧
        (∀ (j : Nat) (i : TxIn) (g : Signing), l'[j]? = some i → gs[j]? = some g → g.Of X i) ∧
        (∀ (j : Nat) (i i' : TxIn), l[j]? = some i → l'[j]? = some i' → i'.address = i.address) ∧
        (∀ (j : Nat) (i : TxIn) (g : Signing), l[j]? = some i → gs[j]? = some g → ∃ key rv,
          keyFor m i.address = some key ∧ t.createSignature X (k + j) key rv = .ok g.sig) ∧
        ev = (((l.zip gs).zipIdx k).flatMap fun p => signingLog rvs.isSome n p.2 p.1.1.address p.1.2.pk p.1.2.sig p.1.2.der
          p.1.2.scriptSig p.1.2.scriptLen) := by
  intro l
  induction l with
  | nil =>
    intro k l' ev h
    unfold signRest at h
    simp only [Prod.mk.injEq] at h
    obtain ⟨rfl, h⟩ := h
    have : ev = [] := (congrArg W.ev h).symm
    exact ⟨[], rfl, rfl, by simp, by simp, by simp, this⟩
  | cons inp rest ih =>
    intro k l' ev h
    unfold signRest at h
    simp only at h
    cases hp : (signPrepare X m rvs k n inp).res with
    | error e => simp [hp] at h
    | ok q =>
      obtain ⟨rv, key, pk⟩ := q
      simp only [hp] at h
      cases hf : (signFinish X t k rv key pk).res with
      | error e => simp [hf] at h
      | ok q =>
        obtain ⟨ss, sl, i⟩ := q
        simp only [hf, Prod.mk.injEq, W.mk.injEq] at h
        obtain ⟨rfl, rfl, h3⟩ := h
        obtain ⟨gs, g1, g2, g3, g4, g6, g5⟩ := ih (k + 1) (signRest X t m rvs n (k + 1) rest).1 (signRest X t m rvs n (k + 1) rest).2.ev
          (by rw [← h3])
        have r1 : Runs (signPrepare X m rvs k n inp) (signPrepare X m rvs k n inp).ev (rv, key, pk) := runs_of_ok (outcome_ok.2 hp)
        have r2 : Runs (signFinish X t k rv key pk) (signFinish X t k rv key pk).ev (ss, sl, i) := runs_of_ok (outcome_ok.2 hf)
        obtain ⟨g, f1, f2, f3, f6, f4, f5, f7⟩ := finish_log X t ht rvs.isSome k n inp.address rv key pk _ _ r2
        have k1 := r1.ok
        rw [o_signPrepare, signPrepare_ok] at k1
        refine ⟨g :: gs, by simp [g1], by simp [g2], ?_, ?_, ?_, ?_⟩
        · intro j i' g' hi hg
          cases j with
          | zero =>
            simp only [List.getElem?_cons_zero, Option.some.injEq] at hi hg
            subst hi hg
            exact ⟨by rw [f1]; rfl, by rw [f2]; rfl, by rw [f3]; rfl, f4, f5⟩
          | succ j => exact g3 j i' g' (by simpa using hi) (by simpa using hg)
        · intro j i1 i2 h1 h2
          cases j with
          | zero =>
            simp only [List.getElem?_cons_zero, Option.some.injEq] at h1 h2
            subst h1 h2
            rfl
          | succ j => exact g4 j i1 i2 (by simpa using h1) (by simpa using h2)
        · intro j i1 g' h1 h2
          cases j with
          | zero =>
            simp only [List.getElem?_cons_zero, Option.some.injEq] at h1 h2
            subst h1 h2
            exact ⟨key, rv, k1.2.1, f6⟩
          | succ j =>
            have := g6 j i1 g' (by simpa using h1) (by simpa using h2)
            rwa [show k + 1 + j = k + (j + 1) by omega] at this
        · rw [List.zip_cons_cons, List.zipIdx_cons, List.flatMap_cons, ← g5]
          simp only
          rw [f1, ← f7, prepare_log X m rvs k n inp _ _ r1]
          rfl

end BT.Lg
