import Verif.Concrete.Ecdsa
import Verif.Lemmas.Hex

/-!
# An environment that satisfies `Ext.Laws`

Shows that the hypotheses `Ext.Laws` of the theorems can be met.  The hashes, the key
validation and the DER coding are the real ones; the signature scheme is a toy (the "public
key" is the private key twice and a "signature" is a hash).  Nothing here models code of `/repo`.
-/

namespace BT.Concrete
open BT BT.Spec

/-! ## DER -/

theorem valBE_reverse_digits (n : Nat) : valBE 256 (Nat.digits 256 n).reverse = n := by
  unfold valBE
  rw [List.foldl_reverse]
  have : ∀ l : List Nat, l.foldr (fun d a => a * 256 + d) 0 = Nat.ofDigits 256 l := by
    intro l
    induction l with
    | nil => rfl
    | cons d l ih => simp only [List.foldr_cons, ih, Nat.ofDigits_cons]; ring
  have h := this (Nat.digits 256 n)
  rw [Nat.ofDigits_digits] at h
  exact h

/-- the bytes inside a DER integer -/
def derBase (n : Nat) : List Nat := if n = 0 then [0] else (Nat.digits 256 n).reverse

/-- the same with the leading zero byte when needed -/
def derBody (n : Nat) : List Nat := if 128 ≤ (derBase n).headD 0 then 0 :: derBase n else derBase n

theorem derInt_eq (n : Nat) : derInt n = 2 :: (derBody n).length :: derBody n := rfl

theorem derBody_val (n : Nat) : ofBE (derBody n) = n := by
  have hb : valBE 256 (derBase n) = n := by
    unfold derBase
    by_cases h : n = 0
    · subst h; rfl
    · rw [if_neg h]; exact valBE_reverse_digits n
  unfold derBody ofBE
  split
  · unfold valBE at *; simpa using hb
  · exact hb

theorem derBody_len {n : Nat} (h : n < 2 ^ 256) : 1 ≤ (derBody n).length ∧ (derBody n).length ≤ 33 := by
  have hb : 1 ≤ (derBase n).length ∧ (derBase n).length ≤ 32 := by
    unfold derBase
    by_cases h0 : n = 0
    · subst h0; simp
    · rw [if_neg h0, List.length_reverse]
      constructor
      · have := Nat.digits_ne_nil_iff_ne_zero (b := 256).2 h0
        exact List.length_pos_iff.2 this
      · exact Nat.digits_length_le_iff (by norm_num) n |>.2 (by norm_num; exact h)
  unfold derBody
  split
  · simp only [List.length_cons]; omega
  · omega

theorem derBody_byte (n : Nat) : ∀ x ∈ derBody n, x < 256 := by
  have hb : ∀ x ∈ derBase n, x < 256 := by
    unfold derBase
    by_cases h0 : n = 0
    · subst h0; simp
    · rw [if_neg h0]
      intro x hx
      exact Nat.digits_lt_base (by norm_num) (List.mem_reverse.1 hx)
  unfold derBody
  split
  · intro x hx
    rcases List.mem_cons.1 hx with rfl | hx
    · omega
    · exact hb x hx
  · exact hb

theorem derReadInt_derInt (n : Nat) (h : n < 2 ^ 256) (rest : List Nat) :
    derReadInt (derInt n ++ rest) = some (n, rest) := by
  have h1 := derBody_len h
  rw [derInt_eq]
  simp only [List.cons_append, derReadInt]
  rw [if_neg (by simp only [List.length_append]; omega), List.take_left, List.drop_left, derBody_val]

theorem der_round (r s : Nat) (hr : r < 2 ^ 256) (hs : s < 2 ^ 256) :
    ∃ b, derEnc r s = .ok b ∧ derDec b = .ok ((r : Int), (s : Int)) ∧ b.length ≤ 72 := by
  have h1 := derBody_len hr
  have h2 := derBody_len hs
  have hl : (derInt r ++ derInt s).length ≤ 70 := by
    simp only [derInt_eq, List.length_append, List.length_cons]; omega
  refine ⟨(48 :: (derInt r ++ derInt s).length :: (derInt r ++ derInt s)).map UInt8.ofNat, ?_, ?_, ?_⟩
  · unfold derEnc
    rw [if_neg (by push Not; refine ⟨by omega, by omega, ?_, ?_⟩ <;> exact_mod_cast by assumption)]
    simp only [Int.toNat_natCast]
  · have hb : ∀ x ∈ (48 :: (derInt r ++ derInt s).length :: (derInt r ++ derInt s)), x < 256 := by
      intro x hx
      rcases List.mem_cons.1 hx with rfl | hx
      · omega
      rcases List.mem_cons.1 hx with rfl | hx
      · omega
      have hi : ∀ n, n < 2 ^ 256 → ∀ x ∈ derInt n, x < 256 := by
        intro n hn x hx
        rw [derInt_eq] at hx
        have := derBody_len hn
        rcases List.mem_cons.1 hx with rfl | hx
        · omega
        rcases List.mem_cons.1 hx with rfl | hx
        · omega
        exact derBody_byte n x hx
      rcases List.mem_append.1 hx with h | h
      · exact hi r hr x h
      · exact hi s hs x h
    have hm : ((48 :: (derInt r ++ derInt s).length :: (derInt r ++ derInt s)).map UInt8.ofNat).map UInt8.toNat =
        48 :: (derInt r ++ derInt s).length :: (derInt r ++ derInt s) := by
      rw [List.map_map]
      conv_rhs => rw [← List.map_id (48 :: (derInt r ++ derInt s).length :: (derInt r ++ derInt s))]
      apply List.map_congr_left
      intro x hx
      simp only [Function.comp_apply, UInt8.toNat_ofNat', id]
      exact Nat.mod_eq_of_lt (hb x hx)
    unfold derDec
    rw [hm]
    simp only [ne_eq, not_true_eq_false, if_false]
    rw [derReadInt_derInt r hr]
    simp only
    have := derReadInt_derInt s hs []
    rw [List.append_nil] at this
    rw [this]
  · simp only [List.length_map, List.length_cons]; omega

/-! ## The environment -/

/-- toy signature: a hash of public key and digest, twice (64 bytes in hex) -/
def toyMac (p d : Str) : Str :=
  hex (sha256 ((p ++ d).map fun c => UInt8.ofNat c.toNat)) ++ hex (sha256 ((p ++ d).map fun c => UInt8.ofNat c.toNat))

/-- toy public key -/
def toyPub (k : Str) : R Str := if isHexStr k && k.length == 64 then .ok (k ++ k) else .error .valueError

/-- toy signature of a digest -/
def toySign (k d : Str) : R Str := if isHexStr k && k.length == 64 then .ok (toyMac (k ++ k) d) else .error .valueError

/-- An environment with real hashes, key checks and DER, toy signatures. -/
def Xtoy : Ext := { Xreal with
  pubKey := toyPub
  signDet := toySign
  signRand := fun k d _ => toySign k d
  verifyDigest := fun p d s => .ok (s == toyMac p d)
  signData := toySign
  verifyData := fun p d s => .ok (s == toyMac p d) }

theorem valKey_shape {k : Str} (h : valKey k = .ok ()) : (isHexStr k && k.length == 64) = true := by
  unfold valKey at h
  split at h
  · rename_i hc
    simp only [Bool.and_eq_true, beq_iff_eq] at hc ⊢
    exact hc.1.1
  · simp at h

/-- The laws can be satisfied. -/
theorem Xtoy_laws : Xtoy.Laws where
  sha_len := sha256_length
  rip_len := ripemd160_length
  key_shape := by
    intro k h
    change valKey k = .ok () at h
    unfold valKey at h
    split at h
    · rename_i hc
      simp only [Bool.and_eq_true, beq_iff_eq] at hc
      exact ⟨hc.1.1.1, hc.1.1.2⟩
    · simp at h
  format_id := by
    intro k h1 h2
    change fmtKey k = .ok k
    unfold fmtKey
    simp [h1, h2]
  pub_shape := by
    intro k p h
    change toyPub k = .ok p at h
    unfold toyPub at h
    split at h
    · rename_i hc
      simp only [Bool.and_eq_true, beq_iff_eq] at hc
      simp only [Except.ok.injEq] at h
      subst h
      obtain ⟨b, hb⟩ := isHex_exists (isHexStr_iff.1 hc.1)
      rw [hb] at hc ⊢
      refine ⟨?_, by rw [List.length_append, hc.2]⟩
      rw [← hex_append]; exact isHexStr_iff.2 (isHex_hex _)
    · simp at h
  sig_shape := by
    intro k d s h
    change toySign k d = .ok s at h
    unfold toySign at h
    split at h
    · simp only [Except.ok.injEq] at h
      subst h
      unfold toyMac
      refine ⟨by rw [← hex_append]; exact isHexStr_iff.2 (isHex_hex _), by simp [sha256_length]⟩
    · simp at h
  sig_shape_rand := by
    intro k d n s h
    change toySign k d = .ok s at h
    unfold toySign at h
    split at h
    · simp only [Except.ok.injEq] at h
      subst h
      unfold toyMac
      refine ⟨by rw [← hex_append]; exact isHexStr_iff.2 (isHex_hex _), by simp [sha256_length]⟩
    · simp at h
  sign_verify := by
    intro k p d s _ hp hs
    change toyPub k = .ok p at hp
    change toySign k d = .ok s at hs
    change Except.ok (s == toyMac p d) = Except.ok true
    unfold toyPub at hp
    unfold toySign at hs
    split at hp
    · rename_i hc
      simp only [Except.ok.injEq] at hp
      rw [if_pos hc] at hs
      simp only [Except.ok.injEq] at hs
      subst hp hs
      simp
    · simp at hp
  sign_verify_rand := by
    intro k p d _ s _ hp hs
    change toyPub k = .ok p at hp
    change toySign k d = .ok s at hs
    change Except.ok (s == toyMac p d) = Except.ok true
    unfold toyPub at hp
    unfold toySign at hs
    split at hp
    · rename_i hc
      simp only [Except.ok.injEq] at hp
      rw [if_pos hc] at hs
      simp only [Except.ok.injEq] at hs
      subst hp hs
      simp
    · simp at hp
  data_shape := by
    intro k d s h
    change toySign k d = .ok s at h
    unfold toySign at h
    split at h
    · simp only [Except.ok.injEq] at h
      subst h
      unfold toyMac
      refine ⟨by rw [← hex_append]; exact isHexStr_iff.2 (isHex_hex _), by simp [sha256_length]⟩
    · simp at h
  data_verify := by
    intro k p d s _ hp hs
    change toyPub k = .ok p at hp
    change toySign k d = .ok s at hs
    change Except.ok (s == toyMac p d) = Except.ok true
    unfold toyPub at hp
    unfold toySign at hs
    split at hp
    · rename_i hc
      simp only [Except.ok.injEq] at hp
      rw [if_pos hc] at hs
      simp only [Except.ok.injEq] at hs
      subst hp hs
      simp
    · simp at hp
  pub_ok := by
    intro k h
    change valKey k = .ok () at h
    exact ⟨_, show toyPub k = _ from if_pos (valKey_shape h)⟩
  split_ok := by
    intro s h1 h2
    change splitSig s = _
    unfold splitSig
    simp [h1, h2]
  der_round := der_round

/-- The toy environment signs everything. -/
theorem Xtoy_signTotal : Xtoy.SignTotal where
  sign_ok := by
    intro k d h _ _
    change valKey k = .ok () at h
    exact ⟨_, show toySign k d = _ from if_pos (valKey_shape h)⟩
  data_ok := by
    intro k d h _
    change valKey k = .ok () at h
    exact ⟨_, show toySign k d = _ from if_pos (valKey_shape h)⟩

end BT.Concrete
