import Verif.Lemmas.Sign
import Verif.Concrete.Ecdsa

/-! # C31-C36, C43, C44: serialisation of transactions -/

namespace BT
open Spec

/-! ## Which objects the theorems are about -/

/-- an input made by `TransactionInput.create` refers to raw data of the standard shape -/
theorem created_spends (X : Ext) (hs : ∀ b, (X.sha256 b).length = 32) {a txid : Str} {idx sat : Int} {i : TxIn}
    (hc : TxIn.create X a txid idx sat = .ok i) :
    ∃ r : RawIn, SpendsRaw i r ∧ r.Ok ∧ r.script.length = 25 := by
  obtain ⟨t, h, ix, n, hl, hh, rfl, ht, rfl, hix, rfl, hn, rfl⟩ := (TxIn_create_ok X hs).1 hc
  have h25 : (p2pkh h).length = 25 := by simp [p2pkh, hl]
  refine ⟨⟨t.reverse, leBytes 4 ix, p2pkh h⟩, ⟨rfl, rfl, rfl, rfl, by rw [h25]; rfl⟩, ⟨by simp [ht], by simp, by simp only; omega⟩, h25⟩

/-- an output made by `TransactionOutput.create` pays raw data of the standard shape -/
theorem created_pays (X : Ext) (hs : ∀ b, (X.sha256 b).length = 32) {a : Str} {sat : Int} {o : TxOut}
    (hc : TxOut.create X a sat = .ok o) :
    ∃ r : RawOut, OutRaw o r ∧ r.Ok ∧ r.script.length = 25 := by
  obtain ⟨h, n, hl, hh, rfl, hn, rfl⟩ := (TxOut_create_ok X hs).1 hc
  have h25 : (p2pkh h).length = 25 := by simp [p2pkh, hl]
  refine ⟨⟨leBytes 8 n, p2pkh h⟩, ⟨rfl, rfl, by rw [h25]; rfl⟩, ⟨by simp, by simp only; omega⟩, h25⟩

/-! ## C31 -/

/-- **C31**: two transactions that differ at most in `script_sig`, `script_length`,
`script_length_int` and `public_key_hex` of inputs have the same signable form for every input
(the exception raised, if any, included). -/
theorem C31_signatures_ignored (t t' : Tx) (h : unsignedTx t = unsignedTx t') (idx : Nat) :
    t.toHexSignable idx = t'.toHexSignable idx := by
  rw [← signable_unsigned t, h, signable_unsigned t']

/-- **C31** for one input: replacing the signature data of input `k` changes no signable form. -/
theorem C31_sign_any_order (t : Tx) (k : Nat) (i : TxIn) (hk : t.inputs[k]? = some i) (sl ss pk : Option Str) (n : PVal)
    (idx : Nat) :
    ({ t with inputs := t.inputs.set k { i with scriptLen := sl, scriptSig := ss, publicKey := pk, scriptLenInt := n } } : Tx).toHexSignable idx
      = t.toHexSignable idx := by
  apply C31_signatures_ignored
  unfold unsignedTx
  simp only [List.map_set]
  congr 1
  apply List.ext_getElem? 
  intro j
  rw [List.getElem?_set]
  split
  · rename_i e; subst e
    simp only [List.getElem?_map, hk, Option.map_some, List.length_map]
    split
    · rfl
    · rename_i hlt
      exact absurd (List.getElem?_eq_some_iff.1 hk).1 (by simpa using hlt)
  · rfl

/-! ## C33, C34: layout -/

/-- **C33**: the signable form of input `idx` is the serialisation of the transaction in which
every script is empty except that of input `idx`, followed by the 4-byte hash type 1. -/
theorem C33_signable_layout (t : Tx) (F : Frame t) (ins : List RawIn) (outs : List RawOut)
    (hi : List.Forall₂ SpendsRaw t.inputs ins) (ho : List.Forall₂ OutRaw t.outputs outs) (idx : Nat) :
    t.toHexSignable idx = .ok (hex (txBytes (keepOnly idx ins) outs ++ [1, 0, 0, 0])) :=
  signable_hex F hi ho idx

/-- **C34**: the signed form is the serialisation with the scriptSigs, and its length is
10 + Σ(41 + |scriptSig|) + Σ(9 + |script|) bytes. -/
theorem C34_signed_layout (t : Tx) (F : Frame t) (ins : List RawIn) (outs : List RawOut)
    (hi : List.Forall₂ SignedRaw t.inputs ins) (ho : List.Forall₂ OutRaw t.outputs outs)
    (oki : ∀ r ∈ ins, r.Ok) (oko : ∀ r ∈ outs, r.Ok) :
    ∃ b : Bytes, t.toHexSigned = .ok (hex b) ∧ b = txBytes ins outs ∧
      b.length = 10 + (ins.map fun r => 41 + r.script.length).sum + (outs.map fun r => 9 + r.script.length).sum :=
  ⟨_, signed_hex F hi ho, rfl, txBytes_length ins outs oki oko⟩

/-- **C33**, **C34**: every transaction made by `Transaction.create` has the standard fixed fields
and the counts of its lists, and holds the given inputs and outputs. -/
theorem C34_frame (ins : List TxIn) (outs : List TxOut) (t : Tx) (h : Tx.create ins outs = .ok t) :
    Frame t ∧ t.inputs = ins ∧ t.outputs = outs := by
  refine ⟨Frame_create h, ?_⟩
  obtain ⟨_, _, rfl⟩ := Tx_create_ok.1 h
  exact ⟨rfl, rfl⟩

theorem fullySigned_iff {t : Tx} : FullySigned t ↔ t.signed = true := by
  simp only [FullySigned, Tx.signed, List.all_eq_true, TxIn.signed, Bool.and_eq_true, Option.isSome_iff_exists]
  exact forall₂_congr fun i _ => ⟨fun ⟨a, b, h, k⟩ => ⟨⟨a, h⟩, b, k⟩, fun ⟨⟨a, h⟩, b, k⟩ => ⟨a, b, h, k⟩⟩

theorem not_fullySigned {t : Tx} (h : ¬ FullySigned t) : t.signed = false := by
  rw [fullySigned_iff] at h; simpa using h

/-- **C34**: a transaction with an unsigned input has no signed form (TypeError). -/
theorem C34_unsigned (t : Tx) (hu : ¬ FullySigned t) : t.toHexSigned = .error .typeError := by
  have h := not_fullySigned hu
  have key : ∀ l : List TxIn, (l.all TxIn.signed) = false → ∀ a b : List (Option Str),
      concatFields (a ++ (l.flatMap TxIn.signedForm ++ b)) = .error .typeError := by
    have h2 : ∀ (l : List (Option Str)) , none ∈ l → concatFields l = .error .typeError := by
      intro l hl
      induction l with
      | nil => simp at hl
      | cons o l ih =>
        cases o with
        | none => rfl
        | some s =>
          have : none ∈ l := by simpa using hl
          simp [concatFields, ih this]
    intro l hl a b
    apply h2
    obtain ⟨i, hi, hs⟩ := List.all_eq_false.1 hl
    have : none ∈ i.signedForm := by
      unfold TxIn.signed at hs
      unfold TxIn.signedForm
      cases h1 : i.scriptLen with
      | none => simp
      | some _ => cases h2 : i.scriptSig with
        | none => simp
        | some _ => simp [h1, h2] at hs
    simp only [List.mem_append, List.mem_flatMap]
    exact .inr (.inl ⟨i, hi, this⟩)
  unfold Tx.toHexSigned Tx.signedForm
  simp only [List.append_assoc]
  rw [← List.append_assoc]
  have := key t.inputs h [some t.version, some t.inputCount] ([some t.outputCount] ++ (t.outputs.flatMap TxOut.signedForm ++ [some t.lockTime]))
  simpa using this

/-! ## C32: the signed message commits to the transaction -/

theorem keepOnly_length (idx : Nat) (l : List RawIn) : (keepOnly idx l).length = l.length := by simp [keepOnly]

theorem keepOnly_get (idx : Nat) (l : List RawIn) (j : Nat) :
    (keepOnly idx l)[j]? = (l[j]?).map fun r => if j = idx then r else { r with script := [] } := by
  simp [keepOnly]

theorem keepOnly_ok (idx : Nat) {l : List RawIn} (h : ∀ r ∈ l, r.Ok) : ∀ r ∈ keepOnly idx l, r.Ok := by
  intro r hr
  obtain ⟨j, hj⟩ := List.getElem?_of_mem hr
  rw [keepOnly_get, Option.map_eq_some_iff] at hj
  obtain ⟨q, hq, rfl⟩ := hj
  have := h q (List.mem_of_getElem? hq)
  split
  · exact this
  · exact ⟨this.1, this.2.1, by simp⟩

/-- **C32**: equal signable forms mean equal index, equal outpoints (in order), equal outputs and
the same script for the input being signed. -/
theorem C32_commits (t t' : Tx) (F : Frame t) (F' : Frame t') (ins ins' : List RawIn) (outs outs' : List RawOut)
    (hi : List.Forall₂ SpendsRaw t.inputs ins) (hi' : List.Forall₂ SpendsRaw t'.inputs ins')
    (ho : List.Forall₂ OutRaw t.outputs outs) (ho' : List.Forall₂ OutRaw t'.outputs outs')
    (oki : ∀ r ∈ ins, r.Ok ∧ r.script ≠ []) (oki' : ∀ r ∈ ins', r.Ok ∧ r.script ≠ [])
    (oko : ∀ r ∈ outs, r.Ok) (oko' : ∀ r ∈ outs', r.Ok)
    (i j : Nat) (hi1 : i < ins.length) (hj1 : j < ins'.length) (h : t.toHexSignable i = t'.toHexSignable j) :
    i = j ∧ outs = outs' ∧ ins.map (fun r => (r.hash, r.index)) = ins'.map (fun r => (r.hash, r.index)) ∧
      (ins[i]?).map RawIn.script = (ins'[j]?).map RawIn.script := by
  rw [signable_hex F hi ho, signable_hex F' hi' ho', Except.ok.injEq, hex_inj_iff] at h
  have l1 := hi.length_eq
  have l2 := hi'.length_eq
  have l3 := ho.length_eq
  have l4 := ho'.length_eq
  obtain ⟨e1, e2, _⟩ := txBytes_prefix (keepOnly_ok i fun r hr => (oki r hr).1) (keepOnly_ok j fun r hr => (oki' r hr).1) oko oko'
    (by rw [keepOnly_length]; have := F.icl; omega) (by rw [keepOnly_length]; have := F'.icl; omega)
    (by have := F.ocl; omega) (by have := F'.ocl; omega) h
  have hg : ∀ k : Nat, _ := fun k => congrArg (fun l : List RawIn => l[k]?) e1
  simp only [keepOnly_get] at hg
  have hij : i = j := by
    by_contra hne
    have := hg i
    rw [List.getElem?_eq_getElem hi1] at this
    simp only [Option.map_some, if_true] at this
    have := this.symm
    rw [Option.map_eq_some_iff] at this
    obtain ⟨q, hq, he⟩ := this
    rw [if_neg hne] at he
    have := (oki ins[i] (by simp)).2
    rw [← he] at this
    exact this rfl
  subst hij
  refine ⟨rfl, e2, ?_, ?_⟩
  · apply List.ext_getElem?
    intro k
    have := hg k
    simp only [List.getElem?_map]
    cases h1 : ins[k]? with
    | none =>
      rw [h1] at this
      simp only [Option.map_none] at this
      rw [eq_comm, Option.map_eq_none_iff] at this
      rw [this]
    | some r =>
      rw [h1] at this
      have h2 := this.symm
      rw [Option.map_some, Option.map_eq_some_iff] at h2
      obtain ⟨q, hq, he⟩ := h2
      rw [hq]
      simp only [Option.map_some, Option.some.injEq, Prod.mk.injEq]
      by_cases hk : k = i
      · simp only [hk, if_true] at he; rw [he]; exact ⟨rfl, rfl⟩
      · simp only [hk, if_false] at he
        injection he with a b c
        exact ⟨a.symm, b.symm⟩
  · have := hg i
    simp only [if_true] at this
    rw [show (fun r : RawIn => r) = id from rfl, Option.map_id, id, id] at this
    rw [this]

/-! ## C35, C36: decoding -/

/-- the scriptSig `s` is `push(d 01) push(04 p) ...` with a 64-byte key `p` -/
def Spec.StandardSig (s p : Bytes) : Prop :=
  ∃ d tail : Bytes, d.length + 1 ≤ 252 ∧ p.length = 64 ∧
    s = [UInt8.ofNat (d.length + 1)] ++ (d ++ [1]) ++ [65] ++ (4 :: p) ++ tail

theorem keyIn_of_standard (X : Ext) {r : RawIn} (h : r.Ok) {p : Bytes} (hs : StandardSig r.script p) : KeyIn X r p := by
  obtain ⟨d, tail, hd, hp, he⟩ := hs
  refine ⟨h, hp, d, ?_⟩
  rw [scriptSigDecode_ok]
  refine ⟨d, p ++ tail, 65, by rw [he]; simp, hd, by decide, by decide, rfl, ?_⟩
  rw [show ((65 : UInt8).toNat - 1) = p.length by rw [hp]; decide, List.take_left]

/-- **C35**: the signed hex of a transaction with standard scriptSigs is decoded; the result
has the same outpoints, scriptSigs and outputs, the amounts written in the output bytes, and the
same signed hex. -/
theorem C35_hex_round_trip (X : Ext) (hs : ∀ b, (X.sha256 b).length = 32) (hr : ∀ b, (X.ripemd160 b).length = 20)
    (t : Tx) (F : Frame t) (ins : List RawIn) (outs : List RawOut)
    (hi : List.Forall₂ SignedRaw t.inputs ins) (ho : List.Forall₂ OutRaw t.outputs outs)
    (oki : ∀ r ∈ ins, r.Ok ∧ ∃ p, StandardSig r.script p)
    (oko : ∀ r ∈ outs, r.Ok ∧ leNat r.value ≤ maxMoney) :
    ∃ s t', t.toHexSigned = .ok s ∧ Tx.fromHexSigned X s = .ok t' ∧ t'.toHexSigned = .ok s ∧ t'.signed = true ∧
      List.Forall₂ SignedRaw t'.inputs ins ∧ List.Forall₂ OutRaw t'.outputs outs ∧ Frame t' ∧
      t'.outputs.map (fun o => (o.satoshi : Int)) = outs.map (fun r => (leNat r.value : Int)) := by
  obtain ⟨ps, hps⟩ : ∃ ps : List (RawIn × Bytes), ps.map Prod.fst = ins ∧ ∀ q ∈ ps, StandardSig q.1.script q.2 := by
    clear hi
    induction ins with
    | nil => exact ⟨[], rfl, by simp⟩
    | cons r l ih =>
      obtain ⟨p, hp⟩ := (oki r (by simp)).2
      obtain ⟨ps, h1, h2⟩ := ih fun r hr => oki r (by simp [hr])
      exact ⟨(r, p) :: ps, by simp [h1], by
        intro q hq
        rcases List.mem_cons.1 hq with rfl | hq
        · exact hp
        · exact h2 q hq⟩
  obtain ⟨rfl, hps⟩ := hps
  have l1 := hi.length_eq
  have l2 := ho.length_eq
  have hl : ps.length ≤ 252 := by have := F.icl; simp at l1; omega
  have hlo : outs.length ≤ 252 := by have := F.ocl; omega
  refine ⟨hex (txBytes (ps.map Prod.fst) outs), parsedTx X ps outs, signed_hex F hi ho, ?_, parsedTx_hex X hl hlo, ?_, ?_, ?_,
    parsedTx_frame X hl hlo, ?_⟩
  · exact (fromHexSigned_ok X hs hr).2 ⟨ps, outs, [], by simp, fun q hq =>
      keyIn_of_standard X (oki q.1 (List.mem_map_of_mem hq)).1 (hps q hq), oko, hl, hlo, rfl⟩
  · simp only [Tx.signed, parsedTx, List.all_map, List.all_eq_true]
    intro q _; rfl
  · simp only [parsedTx, List.forall₂_map_left_iff, List.forall₂_map_right_iff]
    exact List.forall₂_same.2 fun q _ => ⟨rfl, rfl, rfl, rfl, rfl⟩
  · simp only [parsedTx, List.forall₂_map_left_iff]
    exact List.forall₂_same.2 fun q _ => ⟨rfl, rfl, rfl⟩
  · simp [parsedTx, parsedOut]

/-- **C36** (first half, full): what `from_hex_signed` returns serialises to a prefix of the
text it was given; the rest was ignored. -/
theorem C36_decode_partial (X : Ext) (hs : ∀ b, (X.sha256 b).length = 32) (hr : ∀ b, (X.ripemd160 b).length = 20)
    (s : Str) (t : Tx) (h : Tx.fromHexSigned X s = .ok t) :
    ∃ u rest : Str, t.toHexSigned = .ok u ∧ s = u ++ rest ∧ t.signed = true ∧ Frame t := by
  obtain ⟨l, outs, rest, rfl, _, _, hl, hlo, rfl⟩ := (fromHexSigned_ok X hs hr).1 h
  refine ⟨_, hex rest, parsedTx_hex X hl hlo, by simp, ?_, parsedTx_frame X hl hlo⟩
  simp only [Tx.signed, parsedTx, List.all_map, List.all_eq_true]
  intro q _; rfl

/-- **C36**: what is decoded from an input: the address and script are those of the public key
in the scriptSig, the txid is the reversed hash; and for outputs the amount is the value field. -/
theorem C36_decoded_fields (X : Ext) (hs : ∀ b, (X.sha256 b).length = 32) (hr : ∀ b, (X.ripemd160 b).length = 20)
    (s : Str) (t : Tx) (h : Tx.fromHexSigned X s = .ok t) :
    (∀ i ∈ t.inputs, ∃ hb ib sb p d : Bytes, i.prevHash = hex hb ∧ hb.length = 32 ∧ i.txid = hex hb.reverse ∧
      i.prevIndex = hex ib ∧ i.prevIndexInt = leNat ib ∧ i.scriptSig = some (hex sb) ∧
      scriptSigDecode X.uni (hex sb) = .ok (hex d, hex p) ∧ p.length = 64 ∧ i.publicKey = some (hex p) ∧
      i.spk = some (hex (p2pkh (X.ripemd160 (X.sha256 (4 :: p))))) ∧ publicKeyToAddress X (hex p) = .ok i.address) ∧
    (∀ o ∈ t.outputs, ∃ v : Bytes, o.value = hex v ∧ v.length = 8 ∧ o.satoshi = leNat v ∧ leNat v ≤ maxMoney ∧
      AmountOf X.uni o.bitcoin (leNat v) ∧ scriptPubKeyToAddress X o.spk = .ok o.address) := by
  obtain ⟨l, outs, rest, rfl, hk, hko, hl, hlo, rfl⟩ := (fromHexSigned_ok X hs hr).1 h
  constructor
  · intro i hi
    obtain ⟨q, hq, rfl⟩ := List.mem_map.1 hi
    obtain ⟨⟨h1, h2, h3⟩, hp, d, hd⟩ := hk q hq
    refine ⟨q.1.hash, q.1.index, q.1.script, q.2, d, rfl, h1, rfl, rfl, rfl, rfl, hd, hp, rfl, rfl, ?_⟩
    simp only [publicKeyToAddress, getPublicKeyHash_hex X hr, R_bind_ok, hashToAddress_hex X hs]
    rfl
  · intro o ho
    obtain ⟨r, hr', rfl⟩ := List.mem_map.1 ho
    obtain ⟨⟨h1, _⟩, h2⟩ := hko r hr'
    exact ⟨r.value, rfl, h1, rfl, h2, btcText_amount _ _, scriptAddr X hs _⟩

/-- **C36**: a text that is not hexadecimal is refused with ValueError. -/
theorem C36_not_hex (X : Ext) (s : Str) (h : ¬ IsHex s) : Tx.fromHexSigned X s = .error .valueError := by
  unfold Tx.fromHexSigned
  have : hexLen s = .error .valueError := by
    apply (hexLen_VE s).eq_of_not_ok
    intro n hn
    exact h (hexLen_ok.1 hn).1
  rw [this]; rfl

/-- **C36** (second half) violated: appending *any* bytes to an accepted text is accepted and
gives the same transaction. -/
theorem C36_violation (X : Ext) (hs : ∀ b, (X.sha256 b).length = 32) (hr : ∀ b, (X.ripemd160 b).length = 20)
    (s : Str) (t : Tx) (h : Tx.fromHexSigned X s = .ok t) (junk : Bytes) :
    Tx.fromHexSigned X (s ++ hex junk) = .ok t := by
  obtain ⟨l, outs, rest, rfl, hk, hko, hl, hlo, rfl⟩ := (fromHexSigned_ok X hs hr).1 h
  exact (fromHexSigned_ok X hs hr).2 ⟨l, outs, rest ++ junk, by simp, hk, hko, hl, hlo, rfl⟩

/-! ## C43 -/

theorem signed_of_hex {t : Tx} {s : Str} (h : t.toHexSigned = .ok s) : t.signed = true := by
  rw [← fullySigned_iff]
  by_contra hu
  rw [C34_unsigned t hu] at h
  simp at h

/-- **C43**: the txid is the reversed double SHA-256 of the signed bytes (64 hex characters). -/
theorem C43_txid (X : Ext) (hs : ∀ b, (X.sha256 b).length = 32) (t : Tx) (b : Bytes)
    (h2 : t.toHexSigned = .ok (hex b)) :
    t.txid X = .ok (hex (X.sha256 (X.sha256 b)).reverse) ∧ (hex (X.sha256 (X.sha256 b)).reverse).length = 64 := by
  refine ⟨?_, by simp [hs]⟩
  have h1 := signed_of_hex h2
  have hd : getDoubleSha256 X (hex b) = .ok (hex (X.sha256 (X.sha256 b))) := by
    simp only [getDoubleSha256, getSha256, vHex_hex, R_bind_ok, fromHex_hex, bytesHex_eq, R_pure]
  simp only [Tx.txid, h1, Bool.not_true, h2, R_bind_ok, hd, reverseHexOrder_hex]
  rfl

/-- **C43**: it raises ValueError if an input lacks its scriptSig or the length of it. -/
theorem C43_txid_unsigned (X : Ext) (t : Tx) (h : ¬ FullySigned t) : t.txid X = .error .valueError := by
  simp [Tx.txid, not_fullySigned h]

/-- **C43**: it depends only on the signed hex. -/
theorem C43_txid_congr (X : Ext) (t t' : Tx) (s : Str) (h : t.toHexSigned = .ok s) (h' : t'.toHexSigned = .ok s) :
    t.txid X = t'.txid X := by
  simp only [Tx.txid, signed_of_hex h, signed_of_hex h', h, h']

/-! ## C44 -/

/-- **C44**: the size estimate. -/
theorem C44_estimate (n m : Int) :
    estimateTransactionSize n m = if 0 ≤ n ∧ n ≤ 252 ∧ 0 ≤ m ∧ m ≤ 252 then .ok (10 + 179 * n + 34 * m)
      else .error .valueError := by
  unfold estimateTransactionSize
  by_cases hn : n < 0 ∨ 252 < n
  · rw [intToVarInt_out hn, if_neg (by omega)]; rfl
  · obtain ⟨a, rfl⟩ : ∃ a : Nat, n = a := ⟨n.toNat, by omega⟩
    rw [intToVarInt_nat (by omega)]
    by_cases hm : m < 0 ∨ 252 < m
    · rw [intToVarInt_out hm, if_neg (by omega)]; simp only [R_bind_ok, hexLen_hex, R_bind_err]
    · obtain ⟨b, rfl⟩ : ∃ a : Nat, m = a := ⟨m.toNat, by omega⟩
      rw [intToVarInt_nat (by omega), if_pos (by omega)]
      simp only [R_bind_ok, hexLen_hex, List.length_singleton, R_pure, Except.ok.injEq]
      push_cast; ring

/-- **C44**: a signed transaction that pays P2PKH scripts has exactly the estimated size plus
the sum of (|scriptSig| - 138); so the estimate is exact for 138-byte scriptSigs. -/
theorem C44_actual_size (t : Tx) (F : Frame t) (ins : List RawIn) (outs : List RawOut)
    (hi : List.Forall₂ SignedRaw t.inputs ins) (ho : List.Forall₂ OutRaw t.outputs outs)
    (oki : ∀ r ∈ ins, r.Ok) (oko : ∀ r ∈ outs, r.Ok ∧ r.script.length = 25) :
    ∃ (b : Bytes) (e : Int), t.toHexSigned = .ok (hex b) ∧
      estimateTransactionSize t.inputs.length t.outputs.length = .ok e ∧
      (b.length : Int) = e + (ins.map fun r => (r.script.length : Int) - 138).sum := by
  refine ⟨_, 10 + 179 * (ins.length : Int) + 34 * outs.length, signed_hex F hi ho, ?_, ?_⟩
  · rw [C44_estimate, if_pos (by have := F.icl; have := F.ocl; omega), hi.length_eq, ho.length_eq]
  · rw [txBytes_length ins outs oki fun r hr => (oko r hr).1]
    have e1 : (outs.map fun r => 9 + r.script.length).sum = 34 * outs.length := by
      have : ∀ l : List RawOut, (∀ r ∈ l, r.script.length = 25) → (l.map fun r => 9 + r.script.length).sum = 34 * l.length := by
        intro l hl
        induction l with
        | nil => rfl
        | cons r l ih => simp [ih fun r hr => hl r (by simp [hr]), hl r (by simp)]; omega
      exact this outs fun r hr => (oko r hr).2
    have e2 : ∀ l : List RawIn, (((l.map fun r => 41 + r.script.length).sum : Nat) : Int) =
        179 * (l.length : Int) + (l.map fun r => (r.script.length : Int) - 138).sum := by
      intro l
      induction l with
      | nil => rfl
      | cons r l ih => simp only [List.map_cons, List.sum_cons, List.length_cons]; push_cast at ih ⊢; omega
    have := e2 ins
    rw [e1]; push_cast at this ⊢
    omega

end BT
