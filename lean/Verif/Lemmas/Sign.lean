import Verif.Lemmas.Parse

/-! # Signing and verifying -/

namespace BT
open Spec

theorem denotes_inj {s : Str} {f f' : Bytes} (h : Denotes58 s f) (h' : Denotes58 s f') : f = f' := by
  obtain ⟨_, m, rfl, hh, hv⟩ := h
  obtain ⟨_, m', rfl, hh', hv'⟩ := h'
  have hpos : ∀ m : Bytes, m.head? ≠ some 0 → beNat m = 0 → m = [] := by
    intro m hm h0
    cases m with
    | nil => rfl
    | cons x r =>
      exfalso
      rw [beNat] at h0
      have : x.toNat = 0 := by
        rcases Nat.mul_eq_zero.1 (show x.toNat * 256 ^ r.length = 0 by omega) with h | h
        · exact h
        · exact absurd h (by positivity)
      exact hm (by simp only [List.head?_cons, Option.some.injEq]; exact UInt8.toNat_inj.1 this)
  congr 1
  by_cases h1 : m = []
  · subst h1
    exact (hpos m' hh' (by rw [hv', ← hv]; rfl)).symm
  · by_cases h2 : m' = []
    · subst h2
      exact hpos m hh (by rw [hv, ← hv']; rfl)
    · rw [← minBytes_beNat m h1 hh, ← minBytes_beNat m' h2 hh', hv, hv']

/-- the hash in an address is determined by the address -/
theorem AddressOf_hashToAddress (X : Ext) (hs : ∀ b, (X.sha256 b).length = 32) {a : Str} {h h' : Bytes}
    (ha : AddressOf X.sha256 a h) (hh : hashToAddress X (hex h') = .ok a) (hl : h'.length = 20) : h' = h := by
  rw [hashToAddress_hex X hs, Except.ok.injEq] at hh
  have h1 := text58_denotes (0 :: h' ++ checksum X.sha256 (0 :: h'))
  rw [hh] at h1
  have := denotes_inj h1 ha.2
  have := congrArg (fun l => (l.drop 1).take 20) this
  have e1 : ∀ x y : Bytes, x.length = 20 → ((0 :: x ++ y).drop 1).take 20 = x := by
    intro x y hx
    simp only [List.cons_append, List.drop_succ_cons, List.drop_zero]
    rw [← hx, List.take_left]
  simpa only [e1 _ _ hl, e1 _ _ ha.1] using this

theorem randomFor_some {l : List Str} (hl : l ≠ []) {j : Nat} {rv : Option Str} :
    randomFor (some l) j = .ok rv ↔ ∃ v, l[j]? = some v ∧ rv = some v := by
  cases l with
  | nil => exact absurd rfl hl
  | cons a as =>
    unfold randomFor
    simp only
    cases hg : (a :: as)[j]? with
    | none => simp
    | some v => simp [eq_comm]

/-! ## DER -/

theorem signature_der (X : Ext) (L : X.Laws) {sig : Str} (h1 : isHexStr sig = true) (h2 : sig.length = 128) :
    ∃ d : Bytes, signatureToDer X sig = .ok (hex d) ∧ d.length ≤ 72 ∧ signatureFromDer X (hex d) = .ok sig := by
  obtain ⟨g, rfl⟩ := isHex_exists (isHexStr_iff.1 h1)
  have hg : g.length = 64 := by simp at h2; omega
  have ht : (hex g).take 64 = hex (g.take 32) := hex_take g 32
  have hd : (hex g).drop 64 = hex (g.drop 32) := hex_drop g 32
  have l1 : (g.take 32).length = 32 := by simp [hg]
  have l2 : (g.drop 32).length = 32 := by simp [hg]
  have n1 : g.take 32 ≠ [] := by intro h; rw [h] at l1; simp at l1
  have n2 : g.drop 32 ≠ [] := by intro h; rw [h] at l2; simp at l2
  have b1 : beNat (g.take 32) < 256 ^ 32 := by have := beNat_lt (g.take 32); rwa [l1] at this
  have b2 : beNat (g.drop 32) < 256 ^ 32 := by have := beNat_lt (g.drop 32); rwa [l2] at this
  obtain ⟨d, e1, e2, e3⟩ := L.der_round (beNat (g.take 32)) (beNat (g.drop 32)) (by simpa using b1) (by simpa using b2)
  have hp : ∀ b : Bytes, b.length = 32 → padHex (hex (minBytes (beNat b))) 32 = .ok (hex b) := by
    intro b hb
    have hlt : beNat b < 256 ^ 32 := by have := beNat_lt b; rwa [hb] at this
    have hle := minBytes_length_le (k := 32) (by omega) hlt
    rw [padHex_hex, if_pos (by omega)]
    congr 2
    apply beNat_inj
    · simp [hb]; omega
    · rw [beNat_append, beNat_replicate_zero, beNat_minBytes]; simp
  refine ⟨d, ?_, e3, ?_⟩
  · simp only [signatureToDer, L.split_ok _ h1 h2, R_bind_ok, ht, hd, pyInt_hex X.uni n1, pyInt_hex X.uni n2, e1, bytesHex_eq, R_pure]
  · simp only [signatureFromDer, vHex_hex, R_bind_ok, fromHex_hex, e2, intToHex_nat, hp _ l1, hp _ l2, hexLen_hex, ← hex_append,
      List.take_append_drop, R_pure]

/-! ## the signing loop computes every signature from the original transaction -/

/-- the input after it was signed -/
def signedAs (inp : TxIn) (pk scriptSig scriptLen : Str) (n : Int) : TxIn :=
  { inp with publicKey := some pk, scriptLen := some scriptLen, scriptLenInt := .int n, scriptSig := some scriptSig }

/-- signing of the inputs from number `k` on, with all signatures made for `t` -/
def signRest (X : Ext) (t : Tx) (m : List (Str × Str)) (rvs : Option (List Str)) : Nat → List TxIn → List TxIn × R Unit
  | _, [] => ([], .ok ())
  | k, inp :: rest =>
    match Tx.signPrepare X m rvs k inp with
    | .error e => (inp :: rest, .error e)
    | .ok (rv, key, pk) =>
      match Tx.signFinish X t k rv key pk with
      | .error e => ({ inp with publicKey := some pk } :: rest, .error e)
      | .ok (ss, sl, n) =>
        (signedAs inp pk ss sl n :: (signRest X t m rvs (k + 1) rest).1, (signRest X t m rvs (k + 1) rest).2)

theorem signableInputs_map' (idx : Nat) (f : TxIn → TxIn) (h : ∀ i, (f i).signableForm = i.signableForm)
    (h' : ∀ i, (f i).signableFormEmpty = i.signableFormEmpty) (l : List TxIn) (k : Nat) :
    signableInputs idx k (l.map f) = signableInputs idx k l := by
  induction l generalizing k with
  | nil => rfl
  | cons i l ih => simp only [List.map_cons, signableInputs, h, h', ih]

theorem signable_unsigned (t : Tx) (idx : Nat) : (unsignedTx t).toHexSignable idx = t.toHexSignable idx := by
  unfold Tx.toHexSignable Tx.signableForm unsignedTx
  simp only
  rw [signableInputs_map' idx unsignedPart (fun _ => rfl) (fun _ => rfl)]

theorem signable_congr {t t' : Tx} (h : unsignedTx t = unsignedTx t') (idx : Nat) :
    t.toHexSignable idx = t'.toHexSignable idx := by
  rw [← signable_unsigned t, h, signable_unsigned t']

theorem unsigned_length {t t' : Tx} (h : unsignedTx t = unsignedTx t') : t.inputs.length = t'.inputs.length := by
  have := congrArg (fun t : Tx => t.inputs.length) h
  simpa [unsignedTx] using this

theorem unsigned_ht1 {t t' : Tx} (h : unsignedTx t = unsignedTx t') : t.hashType1 = t'.hashType1 := by
  have := congrArg (fun t : Tx => t.hashType1) h
  simpa [unsignedTx] using this

theorem createSignature_congr (X : Ext) {t t' : Tx} (h : unsignedTx t = unsignedTx t') (idx : Nat) (key : Str) (rv : Option Str) :
    t.createSignature X idx key rv = t'.createSignature X idx key rv := by
  unfold Tx.createSignature
  rw [signable_congr h, unsigned_length h]

theorem signFinish_congr (X : Ext) {t t' : Tx} (h : unsignedTx t = unsignedTx t') (idx : Nat) (rv : Option Str) (key pk : Str) :
    t.signFinish X idx rv key pk = t'.signFinish X idx rv key pk := by
  unfold Tx.signFinish
  rw [createSignature_congr X h, unsigned_ht1 h]

theorem signLoop_eq (X : Ext) (t0 : Tx) (m : List (Str × Str)) (rvs : Option (List Str)) (rest : List TxIn) :
    ∀ (done : List TxIn), unsignedTx { t0 with inputs := done ++ rest } = unsignedTx t0 →
      Tx.signLoop X m rvs (List.range' done.length rest.length) { t0 with inputs := done ++ rest } =
        ({ t0 with inputs := done ++ (signRest X t0 m rvs done.length rest).1 }, (signRest X t0 m rvs done.length rest).2) := by
  induction rest with
  | nil => intro done h; simp [Tx.signLoop, signRest]
  | cons inp rest ih =>
    intro done h
    rw [List.length_cons, List.range'_succ]
    unfold Tx.signLoop Tx.signOne
    have hget : (done ++ inp :: rest)[done.length]? = some inp := by simp
    have hset : ∀ x, (done ++ inp :: rest).set done.length x = (done ++ [x]) ++ rest := by intro x; simp
    have hset2 : ∀ x y, ((done ++ [x]) ++ rest).set done.length y = (done ++ [y]) ++ rest := by intro x y; simp
    simp only [hget, hset, hset2]
    have hun : ∀ x, unsignedPart x = unsignedPart inp → unsignedTx { t0 with inputs := (done ++ [x]) ++ rest } = unsignedTx t0 := by
      intro x hx
      rw [← h]
      simp [unsignedTx, hx]
    cases hp : Tx.signPrepare X m rvs done.length inp with
    | error e => simp only [signRest, hp]
    | ok q =>
      obtain ⟨rv, key, pk⟩ := q
      simp only
      rw [signFinish_congr X (hun { inp with publicKey := some pk } rfl)]
      cases hf : t0.signFinish X done.length rv key pk with
      | error e => simp only [signRest, hp, hf]; simp
      | ok q =>
        obtain ⟨ss, sl, n⟩ := q
        simp only
        have := ih (done ++ [signedAs inp pk ss sl n]) (hun _ rfl)
        rw [List.length_append, List.length_singleton] at this
        rw [show ({ inp with publicKey := some pk, scriptLen := some sl, scriptLenInt := .int n, scriptSig := some ss } : TxIn)
          = signedAs inp pk ss sl n from rfl, this]
        simp only [signRest, hp, hf]
        simp

theorem sign_eq (X : Ext) (t : Tx) (keys : List Str) (rvs : Option (List Str)) :
    t.sign X keys rvs = match signChecks X keys rvs with
      | .error e => (t, .error e)
      | .ok m => ({ t with inputs := (signRest X t m rvs 0 t.inputs).1 }, (signRest X t m rvs 0 t.inputs).2) := by
  unfold Tx.sign
  cases signChecks X keys rvs with
  | error e => rfl
  | ok m =>
    have := signLoop_eq X t m rvs t.inputs [] rfl
    simpa [List.range_eq_range'] using this

/-- the signing step of input `k` succeeds with result `inp'` -/
def SignStep (X : Ext) (t : Tx) (m : List (Str × Str)) (rvs : Option (List Str)) (k : Nat) (inp inp' : TxIn) : Prop :=
  ∃ rv key pk ss sl n, Tx.signPrepare X m rvs k inp = .ok (rv, key, pk) ∧ t.signFinish X k rv key pk = .ok (ss, sl, n) ∧
    inp' = signedAs inp pk ss sl n

theorem signRest_ok (X : Ext) (t : Tx) (m : List (Str × Str)) (rvs : Option (List Str)) :
    ∀ (l : List TxIn) (k : Nat) (l' : List TxIn), signRest X t m rvs k l = (l', .ok ()) ↔
      l'.length = l.length ∧ ∀ j i i', l[j]? = some i → l'[j]? = some i' → SignStep X t m rvs (k + j) i i' := by
  intro l
  induction l with
  | nil => 
    intro k l'
    simp [signRest, eq_comm]
  | cons inp rest ih =>
    intro k l'
    cases hp : Tx.signPrepare X m rvs k inp with
    | error e =>
      simp only [signRest, hp]
      constructor
      · intro h; simp at h
      · rintro ⟨hl, h⟩
        cases l' with
        | nil => simp at hl
        | cons a r =>
          obtain ⟨rv, key, pk, ss, sl, n, h1, _⟩ := h 0 inp a rfl rfl
          rw [Nat.add_zero, hp] at h1; simp at h1
    | ok q =>
      obtain ⟨rv, key, pk⟩ := q
      cases hf : t.signFinish X k rv key pk with
      | error e =>
        simp only [signRest, hp, hf]
        constructor
        · intro h; simp at h
        · rintro ⟨hl, h⟩
          cases l' with
          | nil => simp at hl
          | cons a r =>
            obtain ⟨rv', key', pk', ss, sl, n, h1, h2, _⟩ := h 0 inp a rfl rfl
            rw [Nat.add_zero, hp] at h1
            simp only [Except.ok.injEq, Prod.mk.injEq] at h1
            obtain ⟨rfl, rfl, rfl⟩ := h1
            rw [Nat.add_zero, hf] at h2; simp at h2
      | ok q =>
        obtain ⟨ss, sl, n⟩ := q
        simp only [signRest, hp, hf, Prod.mk.injEq]
        constructor
        · rintro ⟨h1, h2⟩
          have := (ih (k + 1) (signRest X t m rvs (k + 1) rest).1).1 (by rw [← h2])
          subst h1
          refine ⟨by simp [this.1], ?_⟩
          intro j i i' hi hi'
          cases j with
          | zero =>
            simp only [List.getElem?_cons_zero, Option.some.injEq] at hi hi'
            subst hi hi'
            exact ⟨rv, key, pk, ss, sl, n, hp, hf, rfl⟩
          | succ j =>
            simp only [List.getElem?_cons_succ] at hi hi'
            have := this.2 j i i' hi hi'
            rwa [show k + 1 + j = k + (j + 1) by omega] at this
        · rintro ⟨hl, h⟩
          cases l' with
          | nil => simp at hl
          | cons a r =>
            obtain ⟨rv', key', pk', ss', sl', n', h1, h2, h3⟩ := h 0 inp a rfl rfl
            rw [Nat.add_zero, hp] at h1
            simp only [Except.ok.injEq, Prod.mk.injEq] at h1
            obtain ⟨rfl, rfl, rfl⟩ := h1
            rw [Nat.add_zero, hf] at h2
            simp only [Except.ok.injEq, Prod.mk.injEq] at h2
            obtain ⟨rfl, rfl, rfl⟩ := h2
            have := (ih (k + 1) r).2 ⟨by simpa using hl, fun j i i' hi hi' => by
              have := h (j + 1) i i' (by simpa using hi) (by simpa using hi')
              rwa [show k + (j + 1) = k + 1 + j by omega] at this⟩
            rw [this]
            exact ⟨by rw [h3], rfl⟩

theorem signRest_unsigned (X : Ext) (t : Tx) (m : List (Str × Str)) (rvs : Option (List Str)) :
    ∀ (l : List TxIn) (k : Nat), (signRest X t m rvs k l).1.map unsignedPart = l.map unsignedPart := by
  intro l
  induction l with
  | nil => intro k; rfl
  | cons inp rest ih =>
    intro k
    simp only [signRest]
    split
    · rfl
    · split
      · rfl
      · simp only [List.map_cons, ih]; rfl

theorem signRest_err (X : Ext) (t : Tx) (m : List (Str × Str)) (rvs : Option (List Str)) :
    ∀ (l : List TxIn) (k : Nat) (l' : List TxIn) (e : Err), signRest X t m rvs k l = (l', .error e) →
      ∃ d, d < l.length ∧ l'.length = l.length ∧
        (∀ j i i', j < d → l[j]? = some i → l'[j]? = some i' → SignStep X t m rvs (k + j) i i') ∧
        (∀ j, d < j → l'[j]? = l[j]?) ∧
        (∀ i, l[d]? = some i → ∃ o, l'[d]? = some { i with publicKey := o } ∧
          ((o = i.publicKey ∧ Tx.signPrepare X m rvs (k + d) i = .error e) ∨
            ∃ rv key pk, Tx.signPrepare X m rvs (k + d) i = .ok (rv, key, pk) ∧ o = some pk)) := by
  intro l
  induction l with
  | nil => intro k l' e h; simp [signRest] at h
  | cons inp rest ih =>
    intro k l' e h
    simp only [signRest] at h
    split at h
    · rename_i e' hp
      simp only [Prod.mk.injEq] at h
      obtain ⟨rfl, h⟩ := h
      injection h with h
      subst h
      exact ⟨0, by simp, rfl, by simp, by simp, fun i hi => by
        simp only [List.getElem?_cons_zero, Option.some.injEq] at hi; subst hi; exact ⟨inp.publicKey, rfl, .inl ⟨rfl, hp⟩⟩⟩
    · rename_i rv key pk hp
      split at h
      · simp only [Prod.mk.injEq] at h
        obtain ⟨rfl, _⟩ := h
        refine ⟨0, by simp, rfl, by simp, ?_, fun i hi => by
          simp only [List.getElem?_cons_zero, Option.some.injEq] at hi; subst hi
          exact ⟨some pk, rfl, .inr ⟨rv, key, pk, hp, rfl⟩⟩⟩
        intro j hj
        cases j with
        | zero => omega
        | succ j => rfl
      · rename_i ss sl n hf
        simp only [Prod.mk.injEq] at h
        obtain ⟨rfl, h2⟩ := h
        obtain ⟨d, hd, hl, h3, h4, h5⟩ := ih (k + 1) (signRest X t m rvs (k + 1) rest).1 e (by rw [← h2])
        refine ⟨d + 1, by simpa using hd, by simpa using hl, ?_, ?_, ?_⟩
        · intro j i i' hj hi hi'
          cases j with
          | zero =>
            simp only [List.getElem?_cons_zero, Option.some.injEq] at hi hi'
            subst hi hi'
            exact ⟨rv, key, pk, ss, sl, n, hp, hf, rfl⟩
          | succ j =>
            have := h3 j i i' (by omega) (by simpa using hi) (by simpa using hi')
            rwa [show k + 1 + j = k + (j + 1) by omega] at this
        · intro j hj
          cases j with
          | zero => omega
          | succ j => simpa using h4 j (by omega)
        · intro i hi
          have := h5 i (by simpa using hi)
          rw [show k + 1 + d = k + (d + 1) by omega] at this
          simpa using this

/-! ## what a successful step means -/

theorem createSignature_ok (X : Ext) {t : Tx} {idx : Nat} {key : Str} {rv : Option Str} {sig : Str}
    (h : t.createSignature X idx key rv = .ok sig) :
    ∃ hx dg, idx < t.inputs.length ∧ t.toHexSignable idx = .ok hx ∧ getDoubleSha256 X hx = .ok dg ∧ vHexLength dg 32 = .ok () ∧
      ((∃ v, rv = some v ∧ v ≠ [] ∧ X.signRand key dg v = .ok sig) ∨ ((rv = none ∨ rv = some []) ∧ X.signDet key dg = .ok sig)) := by
  unfold Tx.createSignature at h
  by_cases hlt : t.inputs.length ≤ idx
  · simp [hlt] at h
  · simp only [hlt, if_false] at h
    cases rv with
    | none =>
      simp only [R_bind_eq_ok] at h
      obtain ⟨hx, h1, dg, h2, _, h3, h4⟩ := h
      exact ⟨hx, dg, by omega, h1, h2, h3, .inr ⟨.inl rfl, h4⟩⟩
    | some v =>
      cases v with
      | nil =>
        simp only [R_bind_eq_ok] at h
        obtain ⟨hx, h1, dg, h2, _, h3, h4⟩ := h
        exact ⟨hx, dg, by omega, h1, h2, h3, .inr ⟨.inr rfl, h4⟩⟩
      | cons c cs =>
        simp only [R_bind_eq_ok] at h
        obtain ⟨hx, h1, dg, h2, _, h3, h4⟩ := h
        exact ⟨hx, dg, by omega, h1, h2, h3, .inl ⟨_, rfl, by simp, h4⟩⟩

theorem signPrepare_ok (X : Ext) {m : List (Str × Str)} {rvs : Option (List Str)} {k : Nat} {inp : TxIn} {rv : Option Str} {key pk : Str} :
    Tx.signPrepare X m rvs k inp = .ok (rv, key, pk) ↔
      randomFor rvs k = .ok rv ∧ keyFor m inp.address = some key ∧ privateKeyToPublicKey X key = .ok pk := by
  unfold Tx.signPrepare
  simp only [R_bind_eq_ok]
  constructor
  · rintro ⟨rv', h1, h2⟩
    split at h2
    · simp at h2
    · rename_i key' hk
      simp only [R_bind_eq_ok, R_pure, Except.ok.injEq, Prod.mk.injEq] at h2
      obtain ⟨pk', h3, rfl, rfl, rfl⟩ := h2
      exact ⟨h1, hk, h3⟩
  · rintro ⟨h1, h2, h3⟩
    refine ⟨rv, h1, ?_⟩
    rw [h2]
    simp [h3]

theorem keyMap_mem (X : Ext) : ∀ (keys : List Str) (m : List (Str × Str)), keyMap X keys = .ok m → ∀ a k, (a, k) ∈ m →
    k ∈ keys ∧ vHexLength k 32 = .ok () ∧ privateKeyToAddress X k = .ok a := by
  intro keys
  induction keys with
  | nil => intro m h a k hm; simp [keyMap] at h; subst h; simp at hm
  | cons x xs ih =>
    intro m h a k hm
    simp only [keyMap, R_bind_eq_ok, R_pure, Except.ok.injEq] at h
    obtain ⟨_, h1, a', h2, m', h3, rfl⟩ := h
    rcases List.mem_cons.1 hm with h | h
    · simp only [Prod.mk.injEq] at h
      obtain ⟨rfl, rfl⟩ := h
      exact ⟨by simp, h1, h2⟩
    · obtain ⟨h4, h5, h6⟩ := ih m' h3 a k h
      exact ⟨by simp [h4], h5, h6⟩

theorem keyFor_mem {m : List (Str × Str)} {a k : Str} (h : keyFor m a = some k) : (a, k) ∈ m := by
  unfold keyFor at h
  rw [Option.map_eq_some_iff] at h
  obtain ⟨p, hp, rfl⟩ := h
  have h1 := List.mem_of_find?_eq_some hp
  have h2 := List.find?_some hp
  simp only [decide_eq_true_eq] at h2
  rw [← h2]
  simpa using h1

theorem signChecks_ok (X : Ext) {keys : List Str} {rvs : Option (List Str)} {m : List (Str × Str)} :
    signChecks X keys rvs = .ok m ↔ keyMap X keys = .ok m ∧
      ∀ l, rvs = some l → l ≠ [] → l.Nodup ∧ l.length = keys.length := by
  unfold signChecks
  split
  · rename_i v vs
    constructor
    · intro h
      split at h
      · simp at h
      · rename_i hn
        simp only [not_not] at hn
        split at h
        · simp at h
        · rename_i hl
          simp only [ne_eq, not_not] at hl
          exact ⟨h, by rintro l ⟨⟩ _; exact ⟨hl, hn⟩⟩
    · rintro ⟨h1, h2⟩
      obtain ⟨h3, h4⟩ := h2 (v :: vs) rfl (by simp)
      rw [if_neg (by simpa using h3)]
      rw [if_neg (by simpa using h4)]
      simpa using h1
  · rename_i hno
    simp only [R_pure, R_bind_ok]
    constructor
    · intro h
      refine ⟨h, ?_⟩
      rintro l rfl hl
      cases l with
      | nil => exact absurd rfl hl
      | cons v vs => exact absurd rfl (hno v vs)
    · exact fun h => h.1

/-- a key used by `sign` is a valid private key; its address is that of the input -/
theorem key_valid (X : Ext) (L : X.Laws) {k a pk : Str} (h1 : vHexLength k 32 = .ok ()) (h2 : privateKeyToAddress X k = .ok a)
    (h3 : privateKeyToPublicKey X k = .ok pk) :
    X.validateKey k = .ok () ∧ X.pubKey k = .ok pk ∧ publicKeyToAddress X pk = .ok a := by
  obtain ⟨b, rfl, hb⟩ := vHexLength_bytes (n := 32) h1
  have hf : X.formatKey (hex b) = .ok (hex b) := L.format_id _ (isHexStr_iff.2 (isHex_hex b)) (by simp [hb])
  simp only [privateKeyToAddress, privateKeyToPublicKey, hf, R_bind_ok, R_bind_eq_ok] at h2 h3
  obtain ⟨_, h4, pk', h5, h6⟩ := h2
  obtain ⟨_, _, h7⟩ := h3
  rw [h5] at h7
  simp only [Except.ok.injEq] at h7
  subst h7
  exact ⟨h4, h5, h6⟩

theorem signFinish_ok (X : Ext) (L : X.Laws) {t : Tx} (ht : t.hashType1 = py"01") {idx : Nat} {rv : Option Str} {key pk ss sl : Str} {n : Int}
    (h : t.signFinish X idx rv key pk = .ok (ss, sl, n)) :
    ∃ (sig : Str) (d p : Bytes), t.createSignature X idx key rv = .ok sig ∧ pk = hex p ∧ p.length = 64 ∧ d.length ≤ 72 ∧
      signatureToDer X sig = .ok (hex d) ∧ signatureFromDer X (hex d) = .ok sig ∧ ss = hex (sigScript (d ++ [1]) p) ∧
      sl = hex [UInt8.ofNat (sigScript (d ++ [1]) p).length] ∧ n = ((sigScript (d ++ [1]) p).length : Int) := by
  simp only [Tx.signFinish, R_bind_eq_ok] at h
  obtain ⟨_, _, sig, h1, _, _, der, h2, _, _, _, _, ⟨ss', sl'⟩, h3, n', h4, h5⟩ := h
  simp only [R_pure, Except.ok.injEq, Prod.mk.injEq] at h5
  obtain ⟨rfl, rfl, rfl⟩ := h5
  have hs : isHexStr sig = true ∧ sig.length = 128 := by
    obtain ⟨_, _, _, _, _, _, h6⟩ := createSignature_ok X h1
    rcases h6 with ⟨v, _, _, h6⟩ | ⟨_, h6⟩
    · exact L.sig_shape_rand _ _ _ _ h6
    · exact L.sig_shape _ _ _ h6
  obtain ⟨d, e1, e2, e3⟩ := signature_der X L hs.1 hs.2
  rw [e1] at h2
  simp only [Except.ok.injEq] at h2
  subst h2
  rw [ht, hex_one, ← hex_append] at h3
  obtain ⟨gb, pb, h6, rfl, hp, hg, rfl, rfl⟩ := scriptSigEncode_ok h3
  rw [hex_inj_iff] at h6
  subst h6
  have hl : (sigScript (d ++ [1]) pb).length = (d ++ [1]).length + 67 := by simp [sigScript, hp]
  refine ⟨sig, d, pb, h1, rfl, hp, e2, e1, e3, rfl, by rw [hl], ?_⟩
  rw [hl]
  rw [varIntToInt_hex, UInt8.toNat_ofNat', Nat.mod_eq_of_lt (by omega), if_pos (by omega)] at h4
  simp only [Except.ok.injEq] at h4
  exact h4.symm

theorem scriptSigDecode_sigScript (u : UniDB) {d p : Bytes} (hd : d.length ≤ 72) (hp : p.length = 64) :
    scriptSigDecode u (hex (sigScript (d ++ [1]) p)) = .ok (hex d, hex p) := by
  rw [scriptSigDecode_ok]
  refine ⟨d, p, 65, by simp [sigScript], by omega, by decide, by decide, rfl, ?_⟩
  rw [show ((65 : UInt8).toNat - 1) = p.length by rw [hp]; decide, List.take_length]

/-- an input signed in a step verifies in every transaction with the same unsigned part -/
theorem verify_step (X : Ext) (L : X.Laws) {t t' : Tx} (hu : unsignedTx t' = unsignedTx t) (ht : t.hashType1 = py"01")
    {idx : Nat} {rv : Option Str} {key pk ss sl : Str} {n : Int} (h : t.signFinish X idx rv key pk = .ok (ss, sl, n))
    (hv : X.validateKey key = .ok ()) (hk : X.pubKey key = .ok pk) {inp : TxIn} (hi : inp.scriptSig = some ss) :
    t'.verifyInput X idx inp = .ok true := by
  obtain ⟨sig, d, p, h1, rfl, hp, hd, _, h3, rfl, _⟩ := signFinish_ok X L ht h
  obtain ⟨hx, dg, h4, h5, h6, h7, h8⟩ := createSignature_ok X h1
  unfold Tx.verifyInput
  simp only [hi, scriptSigDecode_sigScript X.uni hd hp, R_bind_ok, h3]
  unfold Tx.verifyOne
  rw [signable_congr hu, h5, unsigned_length hu, if_neg (by omega)]
  have hdg : isHexStr dg = true := isHexStr_iff.2 (vHexLength_ok.1 h7).1
  have hpl : vHexLength (hex p) 64 = .ok () := by rw [vHexLength_hex, if_pos (by omega)]
  simp only [R_pure, R_bind_ok, h6, h7, verifySignatureDigest, hpl, hdg]
  rcases h8 with ⟨v, _, _, h8⟩ | ⟨_, h8⟩
  · simpa using L.sign_verify_rand _ _ _ _ _ hv hk h8
  · simpa using L.sign_verify _ _ _ _ hv hk h8

theorem verifyLoop_ok (X : Ext) (t : Tx) : ∀ (l : List TxIn) (k bad n : Nat), t.verifyLoop X k l bad = .ok n ↔
    ∃ bs : List Bool, bs.length = l.length ∧ (∀ j i, l[j]? = some i → ∀ b, bs[j]? = some b → t.verifyInput X (k + j) i = .ok b) ∧
      n = bad + bs.count false := by
  intro l
  induction l with
  | nil =>
    intro k bad n
    simp only [Tx.verifyLoop, Except.ok.injEq]
    constructor
    · rintro rfl; exact ⟨[], rfl, by simp, rfl⟩
    · rintro ⟨bs, h1, _, rfl⟩
      rw [List.length_nil, List.length_eq_zero_iff] at h1
      subst h1; rfl
  | cons inp l ih =>
    intro k bad n
    simp only [Tx.verifyLoop, R_bind_eq_ok, ih]
    constructor
    · rintro ⟨b, hb, bs, h1, h2, rfl⟩
      refine ⟨b :: bs, by simp [h1], ?_, ?_⟩
      · intro j i hi b' hb'
        cases j with
        | zero =>
          simp only [List.getElem?_cons_zero, Option.some.injEq] at hi hb'
          subst hi hb'; exact hb
        | succ j =>
          have := h2 j i (by simpa using hi) b' (by simpa using hb')
          rwa [show k + 1 + j = k + (j + 1) by omega] at this
      · cases b <;> simp; omega
    · rintro ⟨bs, h1, h2, rfl⟩
      cases bs with
      | nil => simp at h1
      | cons b bs =>
        refine ⟨b, h2 0 inp rfl b rfl, bs, by simpa using h1, ?_, ?_⟩
        · intro j i hi b' hb'
          have := h2 (j + 1) i (by simpa using hi) b' (by simpa using hb')
          rwa [show k + (j + 1) = k + 1 + j by omega] at this
        · cases b <;> simp; omega

/-- a signature makes the scriptSig step succeed -/
theorem signFinish_of (X : Ext) (L : X.Laws) {t : Tx} (ht : t.hashType1 = py"01") {idx : Nat} {rv : Option Str} {key pk sig : Str}
    (hk : X.pubKey key = .ok pk) (h : t.createSignature X idx key rv = .ok sig) :
    ∃ ss sl n, t.signFinish X idx rv key pk = .ok (ss, sl, n) := by
  have hs : isHexStr sig = true ∧ sig.length = 128 := by
    obtain ⟨_, _, _, _, _, _, h6⟩ := createSignature_ok X h
    rcases h6 with ⟨v, _, _, h6⟩ | ⟨_, h6⟩
    · exact L.sig_shape_rand _ _ _ _ h6
    · exact L.sig_shape _ _ _ h6
  obtain ⟨h7, h8⟩ := L.pub_shape _ _ hk
  obtain ⟨p, rfl⟩ := isHex_exists (isHexStr_iff.1 h7)
  have hp : p.length = 64 := by simp at h8; omega
  obtain ⟨g, rfl⟩ := isHex_exists (isHexStr_iff.1 hs.1)
  obtain ⟨d, e1, e2, e3⟩ := signature_der X L hs.1 hs.2
  have hv : varIntToInt X.uni (hex [UInt8.ofNat ((d ++ [1]).length + 67)]) = .ok (((d ++ [1]).length + 67 : Nat) : Int) := by
    have : (d ++ [1]).length ≤ 73 := by simp; omega
    rw [varIntToInt_hex, UInt8.toNat_ofNat', Nat.mod_eq_of_lt (by omega), if_pos (by omega)]
  refine ⟨hex (sigScript (d ++ [1]) p), hex [UInt8.ofNat ((d ++ [1]).length + 67)], (((d ++ [1]).length + 67 : Nat) : Int), ?_⟩
  have henc := scriptSigEncode_hex (d ++ [1]) p hp
  rw [if_pos (by simp; omega)] at henc
  unfold Tx.signFinish
  simp only [hexLen_hex, R_bind_ok, h, e1, ht, hex_one, ← hex_append, henc, hv, R_pure]

end BT
