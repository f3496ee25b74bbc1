import Verif.DecodeSpec
import Verif.Lemmas.Parse
import Verif.Lemmas.Plain

namespace BT
open Spec

/-! # The errors of `from_hex_signed` -/

theorem only_of_VE {α : Type} {x : R α} (h : VE x) : OnlyValueError x := by
  cases hx : x with
  | ok a => exact .inl ⟨a, rfl⟩
  | error e => right; rw [h e hx]

theorem fromHex_VE : ∀ s : Str, VE (fromHex s)
  | [] => VE.ok _
  | [c] => by
    unfold fromHex
    refine VE.ite (fun _ => ?_) fun _ => VE.err
    unfold fromHex; exact VE.ok _
  | c :: d :: ds => by
    unfold fromHex
    refine VE.ite (fun _ => fromHex_VE (d :: ds)) fun _ => ?_
    have ih := fromHex_VE ds
    dsimp only
    cases hexVal c with
    | none => exact VE.err
    | some x =>
      cases hexVal d with
      | none => exact VE.err
      | some y =>
        intro e he
        cases hx : fromHex ds with
        | ok b => simp [hx, Except.map] at he
        | error e' => simp only [hx, Except.map, Except.error.injEq] at he; rw [← he]; exact ih e' hx

theorem splitC_two {c : Char} {s : Str} (h : c ∈ s) : ∃ a b r, splitC c s = a :: b :: r := by
  induction s with
  | nil => simp at h
  | cons x xs ih =>
    have hne : splitC c xs ≠ [] := by
      cases xs with
      | nil => simp [splitC]
      | cons y ys =>
        unfold splitC
        split
        · simp
        · split <;> simp
    by_cases hx : x = c
    · obtain ⟨b, r, hb⟩ := List.exists_cons_of_ne_nil hne
      exact ⟨[], b, r, by simp [splitC, hx, hb]⟩
    · obtain ⟨a, b, r, hb⟩ := ih (by rcases List.mem_cons.1 h with h | h; exacts [absurd h.symm hx, h])
      exact ⟨x :: a, b, r, by simp [splitC, hx, hb]⟩

theorem ensure8_VE (s : Str) : VE (ensure8 s) := by
  unfold ensure8
  have hm : '.' ∈ (if s.count '.' = 0 then s ++ py"." else s) := by
    split
    · simp
    · rename_i h
      exact List.count_pos_iff.1 (by omega)
  obtain ⟨a, b, r, e⟩ := splitC_two hm
  dsimp only
  rw [e]
  exact VE.ite (fun _ => VE.err) fun _ => VE.ok _

theorem getSha256_VE (X : Ext) (s : Str) : VE (getSha256 X s) :=
  (vHex_VE _).bind fun _ _ => (fromHex_VE _).bind fun _ _ => VE.ok _

theorem getChecksum_VE (X : Ext) (s : Str) : VE (getChecksum X s) :=
  VE.bind ((getSha256_VE X s).bind fun _ _ => getSha256_VE X _) fun _ _ => VE.ok _

theorem hexToBase58_VE (u : UniDB) (s : Str) : VE (hexToBase58 u s) :=
  (vHex_VE _).bind fun _ _ => (pyInt_VE _ _ _).bind fun _ _ => VE.ok _

theorem hexToBase58check_VE (X : Ext) (s : Str) : VE (hexToBase58check X s) :=
  (getChecksum_VE X s).bind fun _ _ => (hexToBase58_VE _ _).bind fun _ _ => VE.ok _

theorem hashToScriptPubKey_VE (s : Str) : VE (hashToScriptPubKey s) :=
  (hexLen_VE _).bind fun _ _ => (intToVarInt_VE _).bind fun _ _ => VE.ok _

theorem scriptPubKeyToAddress_VE (X : Ext) (s : Str) : VE (scriptPubKeyToAddress X s) := hexToBase58check_VE X _

theorem getPublicKeyHash_VE (X : Ext) (s : Str) : VE (getPublicKeyHash X s) :=
  (fromHex_VE _).bind fun _ _ => (vHexLength_VE _ _).bind fun _ _ => VE.ok _

theorem publicKeyToScriptPubKey_VE (X : Ext) (s : Str) : VE (publicKeyToScriptPubKey X s) :=
  (getPublicKeyHash_VE X s).bind fun _ _ => hashToScriptPubKey_VE _

theorem publicKeyToAddress_VE (X : Ext) (s : Str) : VE (publicKeyToAddress X s) :=
  (getPublicKeyHash_VE X s).bind fun _ _ => hexToBase58check_VE X _

theorem hexLeToInt_VE (u : UniDB) (s : Str) : VE (hexLeToInt u s) :=
  (reverseHexOrder_VE s).bind fun _ _ => pyInt_VE _ _ _

theorem base58checkToHex_VE (X : Ext) (s : Str) : VE (base58checkToHex X s) := fun _ h => base58checkToHex_err X h

theorem scriptSigEncode_VE (sig pk : Str) : VE (scriptSigEncode sig pk) := by
  unfold scriptSigEncode
  refine (vHex_VE _).bind fun _ _ => (vHexLength_VE _ _).bind fun _ _ => (hexLen_VE _).bind fun _ _ => (hexLen_VE _).bind fun _ _ =>
    (intToVarInt_VE _).bind fun _ _ => (hexLen_VE _).bind fun _ _ => (intToVarInt_VE _).bind fun _ _ => (hexLen_VE _).bind fun _ _ =>
    (hexLen_VE _).bind fun _ _ => (hexLen_VE _).bind fun _ _ => (intToVarInt_VE _).bind fun _ _ => (hexLen_VE _).bind fun _ _ => VE.ok _

theorem TxIn_createFromSigned_VE (X : Ext) (a b c d e : Str) : VE (TxIn.createFromSigned X a b c d e) := by
  unfold TxIn.createFromSigned
  refine (vHexLength_VE _ _).bind fun _ _ => (vHexLength_VE _ _).bind fun _ _ => (vHexLength_VE _ _).bind fun _ _ => (vHex_VE _).bind fun _ _ =>
    (vHex_VE _).bind fun _ _ => (varIntToInt_VE _ _).bind fun _ _ => (publicKeyToScriptPubKey_VE X _).bind fun p _ => ?_
  exact (varIntToInt_VE _ _).bind fun _ _ => (scriptPubKeyToAddress_VE X _).bind fun _ _ => (hexLeToInt_VE _ _).bind fun _ _ =>
    (reverseHexOrder_VE _).bind fun _ _ => VE.ok _

theorem TxOut_createFromSigned_VE (X : Ext) (a b c : Str) : VE (TxOut.createFromSigned X a b c) := by
  unfold TxOut.createFromSigned
  exact (varIntToInt_VE _ _).bind fun _ _ => (scriptPubKeyToAddress_VE X _).bind fun _ _ => (hexLeToInt_VE _ _).bind fun _ _ =>
    (satoshiToBitcoin_VE _ _).bind fun _ _ => VE.ok _

theorem Tx_create_VE (a : List TxIn) (b : List TxOut) : VE (Tx.create a b) :=
  (intToVarInt_VE _).bind fun _ _ => (intToVarInt_VE _).bind fun _ _ => VE.ok _

/-- an input that is cut off before the length of its script -/
theorem parseInput_short (X : Ext) {b : Bytes} (h : b.length ≤ 36) : parseInput X (b.map hexByte) = .error .indexError := by
  unfold parseInput
  simp only [takeBytes_hex]
  have : (b.drop 32).drop 4 = [] := by rw [List.drop_drop, List.drop_eq_nil_iff]; omega
  rw [this]; rfl

theorem parseInput_long (X : Ext) {b : Bytes} (h : 36 < b.length) : VE (parseInput X (b.map hexByte)) := by
  unfold parseInput
  simp only [takeBytes_hex]
  obtain ⟨x, r, e⟩ : ∃ x r, (b.drop 32).drop 4 = x :: r := by
    apply List.exists_cons_of_ne_nil
    intro hc
    rw [List.drop_drop, List.drop_eq_nil_iff] at hc; omega
  rw [e]
  simp only [List.map_cons, takeByte, R_bind_ok]
  refine (varIntToInt_VE _ _).bind fun n _ => ?_
  simp only [takeBytes_hex]
  refine (scriptSigDecode_VE _ _).bind fun p _ => ?_
  refine (hexLen_VE _).bind fun _ _ => (hexLen_VE _).bind fun _ _ => ?_
  refine VE.ite (fun _ => VE.err) fun _ => ?_
  exact (TxIn_createFromSigned_VE X _ _ _ _ _).bind fun _ _ => VE.ok _

theorem parseInput_err (X : Ext) {b : Bytes} {e : Err} (h : parseInput X (b.map hexByte) = .error e) :
    e = .valueError ∨ e = .indexError ∧ b.length ≤ 36 := by
  by_cases hl : b.length ≤ 36
  · rw [parseInput_short X hl] at h; injection h with h; exact .inr ⟨h.symm, hl⟩
  · exact .inl (parseInput_long X (by omega) e h)

/-- an output that is cut off before the length of its script -/
theorem parseOutput_short (X : Ext) {b : Bytes} (h1 : 1 ≤ b.length) (h : b.length ≤ 8) (hv : leNat b ≤ maxMoney) :
    parseOutput X (b.map hexByte) = .error .indexError := by
  unfold parseOutput
  simp only [takeBytes_hex]
  have hne : b ≠ [] := by intro hc; simp [hc] at h1
  rw [List.take_of_length_le h, List.drop_eq_nil_of_le h, hexLe_val X.uni hne]
  simp only [R_bind_ok, satoshiToBitcoin_nat X.uni hv]
  rfl

theorem parseOutput_err (X : Ext) {b : Bytes} {e : Err} (h : parseOutput X (b.map hexByte) = .error e) :
    e = .valueError ∨ e = .indexError ∧ 1 ≤ b.length ∧ b.length ≤ 8 ∧ leNat b ≤ maxMoney := by
  by_cases hl : b.length ≤ 8
  · by_cases h0 : b = []
    · left
      subst h0
      unfold parseOutput at h
      simp only [takeBytes_hex] at h
      have : hexLeToInt X.uni (hex (([] : Bytes).take 8)) = .error .valueError := by
        apply (hexLeToInt_VE _ _).eq_of_not_ok
        intro a ha
        have : hexLeToInt X.uni [] = .ok a := ha
        unfold hexLeToInt at this
        have hr : reverseHexOrder [] = .ok [] := rfl
        rw [hr] at this
        exact absurd this (by simp [hexToInt, pyInt, toAsciiNum, stripWs, scanPrefix, scanDigits, raise])
      rw [this] at h
      injection h with h; exact h.symm
    · have h1 : 1 ≤ b.length := List.length_pos_iff.2 h0
      by_cases hv : leNat b ≤ maxMoney
      · rw [parseOutput_short X h1 hl hv] at h; injection h with h; exact .inr ⟨h.symm, h1, hl, hv⟩
      · left
        unfold parseOutput at h
        simp only [takeBytes_hex] at h
        rw [List.take_of_length_le hl, hexLe_val X.uni h0] at h
        simp only [R_bind_ok] at h
        rw [satoshiToBitcoin_out X.uni (.inr (by omega))] at h
        injection h with h; exact h.symm
  · left
    revert h e
    show VE _
    unfold parseOutput
    simp only [takeBytes_hex]
    obtain ⟨x, r, e⟩ : ∃ x r, b.drop 8 = x :: r := by
      apply List.exists_cons_of_ne_nil
      intro hc
      rw [List.drop_eq_nil_iff] at hc; omega
    rw [e]
    refine (hexLeToInt_VE _ _).bind fun _ _ => (satoshiToBitcoin_VE _ _).bind fun _ _ => ?_
    simp only [List.map_cons, takeByte, R_bind_ok]
    refine (varIntToInt_VE _ _).bind fun n _ => ?_
    simp only [takeBytes_hex]
    exact (TxOut_createFromSigned_VE X _ _ _).bind fun _ _ => VE.ok _

theorem parseMany_err {α : Type} {f : List Str → R (α × List Str)} {n : Nat} {hb : List Str} {e : Err} :
    parseMany f n hb = .error e ↔ ∃ k xs hb', k < n ∧ parseMany f k hb = .ok (xs, hb') ∧ f hb' = .error e := by
  induction n generalizing hb with
  | zero => simp [parseMany]
  | succ n ih =>
    cases hf : f hb with
    | error e' =>
      constructor
      · intro h
        refine ⟨0, [], hb, by omega, rfl, ?_⟩
        simp only [parseMany, hf, R_bind_err] at h
        injection h with h; rw [hf, h]
      · rintro ⟨k, xs, hb', hk, h1, h2⟩
        cases k with
        | zero =>
          simp only [parseMany, Except.ok.injEq, Prod.mk.injEq] at h1
          rw [← h1.2, hf] at h2
          injection h2 with h2; simp only [parseMany, hf, R_bind_err, h2]
        | succ k => simp [parseMany, hf] at h1
    | ok p =>
      have e1 : ∀ m, parseMany f (m + 1) hb = (parseMany f m p.2 >>= fun q => pure (p.1 :: q.1, q.2)) := by
        intro m; simp only [parseMany, hf]; rfl
      rw [e1, R_bind_eq_err]
      constructor
      · rintro (h | ⟨_, _, h⟩)
        · obtain ⟨k, xs, hb', hk, h1, h2⟩ := ih.1 h
          exact ⟨k + 1, p.1 :: xs, hb', by omega, by rw [e1, h1]; rfl, h2⟩
        · simp at h
      · rintro ⟨k, xs, hb', hk, h1, h2⟩
        left
        cases k with
        | zero =>
          simp only [parseMany, Except.ok.injEq, Prod.mk.injEq] at h1
          rw [← h1.2, hf] at h2; simp at h2
        | succ k =>
          rw [e1, R_bind_eq_ok] at h1
          obtain ⟨q, hq, h1⟩ := h1
          simp only [R_pure, Except.ok.injEq, Prod.mk.injEq] at h1
          exact ih.2 ⟨k, q.1, q.2, by omega, hq, by rw [h1.2]; exact h2⟩

theorem goodIn_of {X : Ext} {l : List (RawIn × Bytes)} (h : ∀ q ∈ l, KeyIn X q.1 q.2) : ∀ r ∈ l.map Prod.fst, GoodIn X r := by
  intro r hr
  obtain ⟨q, hq, rfl⟩ := List.mem_map.1 hr
  obtain ⟨h1, h2, d, h3⟩ := h q hq
  exact ⟨h1, d, q.2, h2, h3⟩

theorem keyIns_of {X : Ext} {ins : List RawIn} (h : ∀ r ∈ ins, GoodIn X r) : ∃ l : List (RawIn × Bytes), l.map Prod.fst = ins ∧ ∀ q ∈ l, KeyIn X q.1 q.2 := by
  induction ins with
  | nil => exact ⟨[], rfl, by simp⟩
  | cons r ins ih =>
    obtain ⟨h1, d, p, h2, h3⟩ := h r (by simp)
    obtain ⟨l, e, hl⟩ := ih fun r hr => h r (by simp [hr])
    refine ⟨(r, p) :: l, by simp [e], ?_⟩
    intro q hq
    rcases List.mem_cons.1 hq with rfl | hq
    exacts [⟨h1, h2, d, h3⟩, hl q hq]

/-- the decoder after the version -/
theorem fromHex_version (X : Ext) (c : Bytes) : Tx.fromHexSigned X (hex ([1, 0, 0, 0] ++ c)) = (do
    let (ic, hb) ← takeByte (c.map hexByte)
    let icInt ← varIntToInt X.uni ic
    let (inputs, hb) ← parseMany (parseInput X) icInt.toNat hb
    let (oc, hb) ← takeByte hb
    let ocInt ← varIntToInt X.uni oc
    let (outputs, hb) ← parseMany (parseOutput X) ocInt.toNat hb
    let (lockTime, _) := takeBytes 4 hb
    if lockTime ≠ py"00000000" then raise .valueError
    Tx.create inputs outputs) := by
  unfold Tx.fromHexSigned
  rw [hexLen_hex]
  simp only [R_bind_ok, chunks2_hex, takeBytes_hex]
  rw [show ([1, 0, 0, 0] ++ c : Bytes).take 4 = [1, 0, 0, 0] from rfl, ← hex_v1, if_neg (by simp)]
  rfl

theorem hexByte_var (u : UniDB) (x : UInt8) : varIntToInt u (hexByte x) = if x.toNat ≤ 252 then .ok (x.toNat : Int) else .error .valueError := by
  rw [show hexByte x = hex [x] by simp, varIntToInt_hex]

/-- what an exception of the decoder means -/
theorem decode_err (X : Ext) (hs : ∀ b, (X.sha256 b).length = 32) (hr : ∀ b, (X.ripemd160 b).length = 20) {s : Str} {e : Err}
    (h : Tx.fromHexSigned X s = .error e) : e = .valueError ∨ e = .indexError ∧ ∃ b, s = hex b ∧ CutOff X b := by
  by_cases hh : IsHex s
  case neg =>
    left
    unfold Tx.fromHexSigned at h
    have : hexLen s = .error .valueError := by
      apply (hexLen_VE s).eq_of_not_ok
      intro n hn
      exact hh (hexLen_ok.1 hn).1
    rw [this] at h
    injection h with h; exact h.symm
  obtain ⟨b, rfl⟩ := isHex_exists hh
  by_cases hv : b.take 4 = [1, 0, 0, 0]
  case neg =>
    left
    unfold Tx.fromHexSigned at h
    rw [hexLen_hex] at h
    simp only [R_bind_ok, chunks2_hex, takeBytes_hex] at h
    rw [hex_v1, if_pos (by rw [ne_eq, hex_inj_iff]; exact hv)] at h
    injection h with h; exact h.symm
  obtain ⟨c, rfl⟩ : ∃ c, b = [1, 0, 0, 0] ++ c := ⟨b.drop 4, by rw [← hv, List.take_append_drop]⟩
  rw [fromHex_version] at h
  cases c with
  | nil =>
    right
    simp only [List.map_nil, takeByte, R_bind_err, Except.error.injEq] at h
    exact ⟨h.symm, _, rfl, .inputCount⟩
  | cons x c =>
    simp only [List.map_cons, takeByte, R_bind_ok, hexByte_var] at h
    by_cases hx : x.toNat ≤ 252
    case neg =>
      left
      rw [if_neg hx] at h
      injection h with h; exact h.symm
    rw [if_pos hx] at h
    simp only [R_bind_ok, Int.toNat_natCast] at h
    have ex : UInt8.ofNat x.toNat = x := UInt8.ofNat_toNat
    rw [R_bind_eq_err] at h
    rcases h with h | ⟨⟨is, hb2⟩, h2, h⟩
    · obtain ⟨k, xs, hb', hk, h1, h2⟩ := parseMany_err.1 h
      obtain ⟨l, rest, hl, hg, rfl, rfl, rfl⟩ := (parseInputs_ok X hs hr _).1 h1
      rcases parseInput_err X h2 with h3 | ⟨h3, h4⟩
      · exact .inl h3
      · right
        refine ⟨h3, _, rfl, ?_⟩
        have := CutOff.input (X := X) (l.map Prod.fst) x.toNat rest hx (by simpa [hl] using hk) (goodIn_of hg) h4
        rw [ex] at this
        simpa using this
    · obtain ⟨l, rest, hl, hg, rfl, rfl, rfl⟩ := (parseInputs_ok X hs hr _).1 h2
      have hl' : (l.map Prod.fst).length = x.toNat := by simpa using hl
      cases rest with
      | nil =>
        right
        simp only [List.map_nil, takeByte, R_bind_err, Except.error.injEq] at h
        refine ⟨h.symm, _, rfl, ?_⟩
        have := CutOff.outputCount (X := X) (l.map Prod.fst) (by omega) (goodIn_of hg)
        rw [hl', ex] at this
        simpa using this
      | cons y rest =>
        simp only [List.map_cons, takeByte, R_bind_ok, hexByte_var] at h
        by_cases hy : y.toNat ≤ 252
        case neg =>
          left
          rw [if_neg hy] at h
          injection h with h; exact h.symm
        rw [if_pos hy] at h
        simp only [R_bind_ok, Int.toNat_natCast] at h
        have ey : UInt8.ofNat y.toNat = y := UInt8.ofNat_toNat
        rw [R_bind_eq_err] at h
        rcases h with h | ⟨⟨os, hb4⟩, h4, h⟩
        · obtain ⟨k, xs, hb', hk, h1, h2⟩ := parseMany_err.1 h
          by_cases hne : hb' = []
          · left
            subst hne
            rcases parseOutput_err X (b := []) h2 with h3 | ⟨_, h4, _⟩
            · exact h3
            · simp at h4
          · obtain ⟨outs, rest2, hlo, hgo, rfl, rfl, rfl⟩ := (parseOutputs_ok X hs _ hne).1 h1
            rcases parseOutput_err X h2 with h3 | ⟨h3, h4, h5, h6⟩
            · exact .inl h3
            · right
              refine ⟨h3, _, rfl, ?_⟩
              have := CutOff.output (X := X) (l.map Prod.fst) outs y.toNat rest2 (by omega) (goodIn_of hg) hy (by omega) hgo ⟨h4, h5⟩ h6
              rw [hl', ex, ey] at this
              simpa using this
        · left
          revert h
          dsimp only
          intro h
          exact (VE.ite (fun _ => VE.err) fun _ => Tx_create_VE _ _) e h

theorem decode_cut (X : Ext) (hs : ∀ b, (X.sha256 b).length = 32) (hr : ∀ b, (X.ripemd160 b).length = 20) {b : Bytes} (h : CutOff X b) :
    Tx.fromHexSigned X (hex b) = .error .indexError := by
  have hv : ∀ n : Nat, n ≤ 252 → varIntToInt X.uni (hexByte (UInt8.ofNat n)) = .ok (n : Int) := by
    intro n hn
    rw [show hexByte (UInt8.ofNat n) = hex [UInt8.ofNat n] by simp, varInt_len X.uni hn]
  cases h with
  | inputCount =>
    have := fromHex_version X []
    rw [List.append_nil] at this
    rw [this]; rfl
  | input ins n part hn hl hg hp =>
    rw [List.append_assoc, List.append_assoc, fromHex_version]
    simp only [List.cons_append, List.nil_append, List.map_cons, takeByte, R_bind_ok, hv n hn, Int.toNat_natCast]
    obtain ⟨l, rfl, hg'⟩ := keyIns_of hg
    have : parseMany (parseInput X) n (((l.map Prod.fst).flatMap RawIn.bytes ++ part).map hexByte) = .error .indexError :=
      parseMany_err.2 ⟨l.length, _, _, by simpa using hl, (parseInputs_ok X hs hr _).2 ⟨l, part, rfl, hg', rfl, rfl, rfl⟩, parseInput_short X hp⟩
    rw [this]; rfl
  | outputCount ins hl hg =>
    rw [List.append_assoc, fromHex_version]
    simp only [List.cons_append, List.nil_append, List.map_cons, takeByte, R_bind_ok, hv _ hl, Int.toNat_natCast]
    obtain ⟨l, rfl, hg'⟩ := keyIns_of hg
    have : parseMany (parseInput X) (l.map Prod.fst).length (((l.map Prod.fst).flatMap RawIn.bytes).map hexByte) = .ok (_, _) :=
      (parseInputs_ok X hs hr _).2 ⟨l, [], by simp, hg', by simp, rfl, rfl⟩
    rw [this]; rfl
  | output ins outs n part hi hg hn hl ho hp hm =>
    rw [List.append_assoc, List.append_assoc, List.append_assoc, List.append_assoc, fromHex_version]
    simp only [List.cons_append, List.nil_append, List.map_cons, takeByte, R_bind_ok, hv _ hi, Int.toNat_natCast]
    obtain ⟨l, rfl, hg'⟩ := keyIns_of hg
    have : parseMany (parseInput X) (l.map Prod.fst).length (((l.map Prod.fst).flatMap RawIn.bytes ++
        UInt8.ofNat n :: (outs.flatMap RawOut.bytes ++ part)).map hexByte) = .ok (_, _) :=
      (parseInputs_ok X hs hr _).2 ⟨l, _, by simp, hg', rfl, rfl, rfl⟩
    rw [this]
    simp only [R_bind_ok, List.map_cons, takeByte, hv _ hn, Int.toNat_natCast]
    have hne : part.map hexByte ≠ [] := by
      intro hc
      have := congrArg List.length hc
      simp at this
      have h1 := hp.1
      rw [this] at h1; simp at h1
    have : parseMany (parseOutput X) n ((outs.flatMap RawOut.bytes ++ part).map hexByte) = .error .indexError :=
      parseMany_err.2 ⟨outs.length, _, _, hl, (parseOutputs_ok X hs _ hne).2 ⟨outs, part, rfl, ho, rfl, rfl, rfl⟩, parseOutput_short X hp.1 hp.2 hm⟩
    rw [this]; rfl

end BT
