import Verif.Lemmas.Decode
import Verif.Props.Tx
import Verif.Cli

/-!
# C143: text that is not what it should be
-/

namespace BT
open Spec

variable {X : Ext}

/-- **C143**: whatever text is given to the functions on amounts, addresses, scripts, public keys and hexadecimal numbers, the outcome is a value or a ValueError. -/
theorem C143_text (X : Ext) (s t : Str) (n : Int) :
    OnlyValueError (bitcoinToSatoshi X.uni s) ∧ OnlyValueError (vBitcoinAmount X.uni s) ∧ OnlyValueError (vPositiveBitcoinAmount X.uni s) ∧
    OnlyValueError (ensure8 s) ∧ OnlyValueError (satoshiToBitcoin X.uni n) ∧
    OnlyValueError (base58checkToHex X s) ∧ OnlyValueError (hexToBase58check X s) ∧ OnlyValueError (addressToHash X s) ∧ OnlyValueError (vBitcoinAddress X s) ∧
    OnlyValueError (hashToAddress X s) ∧ OnlyValueError (addressToScriptPubKey X s) ∧ OnlyValueError (scriptPubKeyToAddress X s) ∧
    OnlyValueError (publicKeyToAddress X s) ∧ OnlyValueError (publicKeyToScriptPubKey X s) ∧
    OnlyValueError (scriptSigDecode X.uni s) ∧ OnlyValueError (scriptSigEncode s t) ∧
    OnlyValueError (varIntToInt X.uni s) ∧ OnlyValueError (hexToInt X.uni s) ∧ OnlyValueError (hexLeToInt X.uni s) ∧ OnlyValueError (reverseHexOrder s) ∧
    OnlyValueError (padHexLe s n) ∧ OnlyValueError (getDoubleSha256 X s) := by
  refine ⟨only_of_VE ?_, only_of_VE (vBitcoinAmount_VE _ _), only_of_VE (vPositive_VE _ _), only_of_VE ?_, only_of_VE (satoshiToBitcoin_VE _ _),
    only_of_VE (base58checkToHex_VE X s), only_of_VE (hexToBase58check_VE X s), only_of_VE (addressToHash_VE X s), only_of_VE (vBitcoinAddress_VE X s),
    only_of_VE (hexToBase58check_VE X _), only_of_VE (addressToScriptPubKey_VE X s), only_of_VE (scriptPubKeyToAddress_VE X s),
    only_of_VE (publicKeyToAddress_VE X s), only_of_VE (publicKeyToScriptPubKey_VE X s), only_of_VE (scriptSigDecode_VE _ s), only_of_VE (scriptSigEncode_VE s t),
    only_of_VE (varIntToInt_VE _ s), only_of_VE (pyInt_VE _ _ _), only_of_VE (hexLeToInt_VE _ s), only_of_VE (reverseHexOrder_VE s),
    only_of_VE (padHexLe_VE s n), only_of_VE ((getSha256_VE X s).bind fun _ _ => getSha256_VE X _)⟩
  · have rest : ∀ o : Str, VE (pyInt X.uni 10 o >>= fun n => vWholeNumber (.int n) >>= fun _ => (pure n : R Int)) := fun o => by
      refine (pyInt_VE _ _ _).bind fun k _ => VE.bind ?_ fun _ _ => VE.ok _
      unfold vWholeNumber
      refine VE.ite (fun _ => VE.ok _) fun _ => VE.bind ?_ fun _ _ => VE.ok _
      unfold vPositiveInteger vInteger
      simp only [PVal.asInt, R_bind_ok]
      exact VE.ite (fun _ => VE.err) fun _ => VE.ok _
    unfold bitcoinToSatoshi
    refine (vBitcoinAmount_VE _ _).bind fun _ _ => ?_
    refine VE.ite (fun _ => rest _) fun _ => VE.ite (fun _ => ?_) fun _ => VE.err
    split
    · exact rest _
    · exact VE.err
  · exact ensure8_VE s

/-- **C143** (transactions): every text is decoded, or refused with a ValueError, or it is the beginning of a transaction that ends before one of the
bytes for a number of inputs, a number of outputs or the length of a script; then, and only then, an IndexError is raised. -/
theorem C143_decode_partial (X : Ext) (hs : ∀ b, (X.sha256 b).length = 32) (hr : ∀ b, (X.ripemd160 b).length = 20) (s : Str) :
    (OnlyValueError (Tx.fromHexSigned X s) ∧ ¬ ∃ b, s = hex b ∧ CutOff X b) ∨ (Tx.fromHexSigned X s = .error .indexError ∧ ∃ b, s = hex b ∧ CutOff X b) := by
  by_cases h : ∃ b, s = hex b ∧ CutOff X b
  · right
    refine ⟨?_, h⟩
    obtain ⟨b, rfl, hb⟩ := h
    exact decode_cut X hs hr hb
  · left
    refine ⟨?_, h⟩
    cases hx : Tx.fromHexSigned X s with
    | ok t => exact .inl ⟨t, rfl⟩
    | error e =>
      right
      rcases decode_err X hs hr hx with rfl | ⟨_, hc⟩
      · rfl
      · exact absurd hc h

/-- **C143** is violated: a transaction that ends too early at such a place is refused with an IndexError, not with a ValueError. -/
theorem C143_violation (X : Ext) (hs : ∀ b, (X.sha256 b).length = 32) (hr : ∀ b, (X.ripemd160 b).length = 20) (b : Bytes) (h : CutOff X b) :
    Tx.fromHexSigned X (hex b) = .error .indexError ∧ ¬ OnlyValueError (Tx.fromHexSigned X (hex b)) := by
  rw [decode_cut X hs hr h]
  exact ⟨rfl, by rintro (⟨_, h⟩ | h) <;> simp at h⟩

/-- **C143** (cut off anywhere): no proper beginning of a transaction is taken for a transaction: if the text `h` is decoded to a transaction with exactly this text, then
every proper beginning of it is refused. -/
theorem C143_truncated (X : Ext) (hs : ∀ b, (X.sha256 b).length = 32) (hr : ∀ b, (X.ripemd160 b).length = 20) (h p : Str) (t : Tx)
    (h1 : Tx.fromHexSigned X h = .ok t) (h2 : t.toHexSigned = .ok h) (hp : p <+: h) (hne : p ≠ h) :
    Tx.fromHexSigned X p = .error .valueError ∨ Tx.fromHexSigned X p = .error .indexError := by
  cases hx : Tx.fromHexSigned X p with
  | error e =>
    rcases decode_err X hs hr hx with rfl | ⟨rfl, _⟩
    exacts [.inl rfl, .inr rfl]
  | ok t' =>
    exfalso
    obtain ⟨u, rest, hu, hpu, _⟩ := C36_decode_partial X hs hr p t' hx
    obtain ⟨q, rfl⟩ := hp
    have a1 : IsHex p := by
      by_contra hc
      rw [C36_not_hex X p hc] at hx; simp at hx
    have a2 : IsHex (p ++ q) := by
      by_contra hc
      rw [C36_not_hex X _ hc] at h1; simp at h1
    have a3 : IsHex q := by
      refine ⟨?_, fun c hc => a2.2 c (by simp [hc])⟩
      have b1 := a1.1; have b2 := a2.1
      simp only [List.length_append] at b2; omega
    obtain ⟨junk, rfl⟩ := isHex_exists a3
    rw [C36_violation X hs hr p t' hx junk] at h1
    injection h1 with h1; subst h1
    rw [h2] at hu; injection hu with hu
    have := congrArg List.length hpu
    rw [← hu] at this
    simp only [List.length_append] at this
    apply hne
    have : (hex junk) = [] := List.length_eq_zero_iff.1 (by omega)
    rw [this, List.append_nil]

/-- **C143** (tasks): for data that is cut off like that, the tasks that check or show a transaction print nothing and fail. -/
theorem C143_tasks (X : Ext) (hs : ∀ b, (X.sha256 b).length = 32) (hr : ∀ b, (X.ripemd160 b).length = 20) (h : Str) (t : Tx)
    (h1 : Tx.fromHexSigned X h = .ok t) (h2 : t.toHexSigned = .ok h) (a : CliArgs) (d : Str) (hd : a.data = some d)
    (hp : pyStrip' X.uni.space d <+: h) (hne : pyStrip' X.uni.space d ≠ h) :
    (∃ e, cliVerifyHex X a = ([], .error e)) ∧ ∃ e, cliDecodeHex X a = ([], .error e) := by
  obtain ⟨e, he⟩ : ∃ e, Tx.fromHexSigned X (pyStrip' X.uni.space d) = .error e := by
    rcases C143_truncated X hs hr h _ t h1 h2 hp hne with h | h <;> exact ⟨_, h⟩
  have : dataStripped X a = .ok (pyStrip' X.uni.space d) := by unfold dataStripped; rw [hd]
  constructor
  · exact ⟨e, by unfold cliVerifyHex; rw [this]; simp only [bindOut]; rw [he]⟩
  · exact ⟨e, by unfold cliDecodeHex; rw [this]; simp only [bindOut]; rw [he]⟩

/-! The hypotheses are met: a transaction with one input and one output, and its beginnings. -/

namespace DecodeWit
open Concrete

/-- a script with a signature of 8 bytes and a public key -/
def script : Bytes := [9] ++ List.replicate 8 0x30 ++ [1] ++ [65] ++ [4] ++ List.replicate 64 7
def exIn : RawIn := ⟨List.replicate 32 0xab, [3, 0, 0, 0], script⟩
def exOut : RawOut := ⟨[0x50, 0xc3, 0, 0, 0, 0, 0, 0], [0x76, 0xa9, 0x14] ++ List.replicate 20 5 ++ [0x88, 0xac]⟩

theorem exIn_ok : exIn.Ok := by unfold RawIn.Ok; decide
theorem exIn_standard : StandardSig exIn.script (List.replicate 64 7) := ⟨List.replicate 8 0x30, [], by decide, by decide, by decide⟩
theorem exIn_good (X : Ext) : GoodIn X exIn := by
  obtain ⟨h1, h2, d, h3⟩ := keyIn_of_standard X exIn_ok exIn_standard
  exact ⟨h1, d, _, h2, h3⟩
theorem exOut_good : GoodOut exOut := by unfold GoodOut RawOut.Ok; decide

/-- hypotheses of `C143_truncated` -/
example (X : Ext) (hs : ∀ b, (X.sha256 b).length = 32) (hr : ∀ b, (X.ripemd160 b).length = 20) :
    ∃ t, Tx.fromHexSigned X (hex (txBytes [exIn] [exOut])) = .ok t ∧ t.toHexSigned = .ok (hex (txBytes [exIn] [exOut])) := by
  have hk : KeyIn X exIn (List.replicate 64 7) := keyIn_of_standard X exIn_ok exIn_standard
  refine ⟨parsedTx X [(exIn, List.replicate 64 7)] [exOut], (fromHexSigned_ok X hs hr).2 ⟨_, _, [], by simp, ?_, ?_, by simp, by simp, rfl⟩,
    parsedTx_hex X (by simp) (by simp)⟩
  · intro q hq; obtain rfl := List.mem_singleton.1 hq; exact hk
  · intro r hr; obtain rfl := List.mem_singleton.1 hr; exact exOut_good

/-- beginnings of it that are cut off at the places of `C143_violation`: in the hash of the input, before the number of outputs, and in the value of the output -/
example (X : Ext) : CutOff X ((txBytes [exIn] [exOut]).take 20) ∧ CutOff X ((txBytes [exIn] [exOut]).take 122) ∧ CutOff X ((txBytes [exIn] [exOut]).take 125) := by
  have g : ∀ r ∈ [exIn], GoodIn X r := by intro r hr; obtain rfl := List.mem_singleton.1 hr; exact exIn_good X
  refine ⟨?_, ?_, ?_⟩
  · have : (txBytes [exIn] [exOut]).take 20 = [1, 0, 0, 0] ++ [UInt8.ofNat 1] ++ ([] : List RawIn).flatMap RawIn.bytes ++ List.replicate 15 0xab := by decide
    rw [this]
    exact .input [] 1 _ (by decide) (by decide) (by simp) (by decide)
  · have : (txBytes [exIn] [exOut]).take 122 = [1, 0, 0, 0] ++ [UInt8.ofNat [exIn].length] ++ [exIn].flatMap RawIn.bytes := by decide
    rw [this]
    exact .outputCount [exIn] (by decide) g
  · have : (txBytes [exIn] [exOut]).take 125 = [1, 0, 0, 0] ++ [UInt8.ofNat [exIn].length] ++ [exIn].flatMap RawIn.bytes ++ [UInt8.ofNat 1] ++
        ([] : List RawOut).flatMap RawOut.bytes ++ [0x50, 0xc3] := by decide
    rw [this]
    exact .output [exIn] [] 1 _ (by decide) g (by decide) (by decide) (by simp) (by decide) (by decide)

/-- and a text that is refused with a ValueError: too many inputs -/
example (X : Ext) :
    OnlyValueError (Tx.fromHexSigned X py"01000000ff") := by
  right
  have := fromHex_version X [0xff]
  have e : hex ([1, 0, 0, 0] ++ [0xff]) = py"01000000ff" := by decide
  rw [e] at this
  rw [this]
  simp only [List.map_cons, takeByte, R_bind_ok, hexByte_var]
  rfl

end DecodeWit

end BT
