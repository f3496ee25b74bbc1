import Verif.Lemmas.Script
import Verif.Concrete.Ecdsa

/-! # C16-C17: scriptSig -/

namespace BT
open Spec

/-- **C16**: for a DER signature `d` (hash-type byte 01 appended) and a 64-byte public key `p`,
the scriptSig is `push(d 01) push(04 p)`, its length byte is right, and decoding returns exactly
`(d, p)`.  It exists exactly when its length fits in one byte up to 252. -/
theorem C16_script_sig_round_trip (u : UniDB) (d p : Bytes) (hp : p.length = 64) :
    (d.length ≤ 184 → ∃ f : Bytes,
      f = [UInt8.ofNat (d.length + 1)] ++ d ++ [1] ++ [65] ++ [4] ++ p ∧ f.length = d.length + 68 ∧
      scriptSigEncode (hex (d ++ [1])) (hex p) = .ok (hex f, hex [UInt8.ofNat f.length]) ∧
      scriptSigDecode u (hex f) = .ok (hex d, hex p)) ∧
    (184 < d.length → scriptSigEncode (hex (d ++ [1])) (hex p) = .error .valueError) := by
  constructor
  · intro hd
    refine ⟨_, rfl, by simp [hp], ?_, ?_⟩
    · rw [scriptSigEncode_hex _ p hp, if_pos (by simp; omega)]
      have e : (d ++ [1]).length + 67 = d.length + 68 := by simp
      have e2 : ([UInt8.ofNat (d.length + 1)] ++ d ++ [1] ++ [65] ++ [4] ++ p : Bytes).length
          = d.length + 68 := by simp [hp]
      rw [e, e2]; simp [sigScript]
    · have h := scriptSigDecode_form u d p 65 (by omega) (by decide) (by decide)
      rw [show ((65 : UInt8).toNat - 1) = p.length by rw [hp]; decide, List.take_length] at h
      simpa using h
  · intro hd
    rw [scriptSigEncode_hex _ p hp, if_neg (by simp; omega)]

/-- **C16**: arguments that are not hex, or a public key that is not 64 bytes, are refused. -/
theorem C16_script_sig_rejects (g p : Str) (h : ¬ IsHex g ∨ ¬ (IsHex p ∧ p.length = 128)) :
    scriptSigEncode g p = .error .valueError := by
  unfold scriptSigEncode
  by_cases hg : IsHex g
  · obtain ⟨b, rfl⟩ := isHex_exists hg
    have hp := h.resolve_left (not_not.2 hg)
    have : vHexLength p 64 = .error .valueError := by
      apply (vHexLength_VE p 64).eq_of_not_ok
      intro a ha
      obtain ⟨h1, h2⟩ := vHexLength_ok.1 ha
      exact hp ⟨h1, by omega⟩
    simp [this]
  · rw [vHex_not hg]; rfl

/-- **C17**: decoding returns `(d, p)` exactly for the scripts
`push(d 01) push-opcode 04 ...`: the first push is complete and ends in hash type 01, the
second begins with 04; `p` is what follows within the second push (bytes after it are ignored,
a second push that is cut short is returned cut short). -/
theorem C17_script_sig_decode (u : UniDB) (s ds ps : Str) :
    scriptSigDecode u s = .ok (ds, ps) ↔ ∃ (d q : Bytes) (n2 : UInt8),
      s = hex ([UInt8.ofNat (d.length + 1)] ++ (d ++ [1]) ++ [n2] ++ (4 :: q)) ∧
      d.length + 1 ≤ 252 ∧ 1 ≤ n2.toNat ∧ n2.toNat ≤ 252 ∧
      ds = hex d ∧ ps = hex (q.take (n2.toNat - 1)) := scriptSigDecode_ok u

/-- **C17**: every other string raises ValueError. -/
theorem C17_script_sig_rejects (u : UniDB) (s : Str) (h : ∀ r, scriptSigDecode u s ≠ .ok r) :
    scriptSigDecode u s = .error .valueError := (scriptSigDecode_VE u s).eq_of_not_ok h

/-- **C17**: another hash type in the first push raises ValueError. -/
theorem C17_other_hash_type (u : UniDB) (g r : Bytes) (hg : g.length ≤ 252) (h : g.getLast? ≠ some 1) :
    scriptSigDecode u (hex ([UInt8.ofNat g.length] ++ g ++ r)) = .error .valueError := by
  apply C17_script_sig_rejects
  rintro ⟨ds, ps⟩ hr
  obtain ⟨d, q, n2, he, hd, _, _, _, _⟩ := (C17_script_sig_decode u _ _ _).1 hr
  rw [hex_inj_iff] at he
  simp only [List.cons_append, List.nil_append, List.append_assoc, List.cons.injEq] at he
  have hl := congrArg UInt8.toNat he.1
  rw [UInt8.toNat_ofNat', UInt8.toNat_ofNat', Nat.mod_eq_of_lt (by omega), Nat.mod_eq_of_lt (by omega)] at hl
  have := List.append_inj (s₁ := g) (s₂ := d ++ [1]) (t₁ := r) (t₂ := n2 :: 4 :: q) (by simpa using he.2) (by simp [hl])
  apply h
  rw [this.1]; simp

/-- **C17**: a key that does not start with 04 (for example a compressed key) raises
ValueError. -/
theorem C17_other_key_type (u : UniDB) (d q : Bytes) (n2 k : UInt8) (hd : d.length + 1 ≤ 252)
    (h : k ≠ 4) :
    scriptSigDecode u (hex ([UInt8.ofNat (d.length + 1)] ++ (d ++ [1]) ++ [n2] ++ (k :: q))) =
      .error .valueError := by
  apply C17_script_sig_rejects
  rintro ⟨ds, ps⟩ hr
  obtain ⟨d', q', n2', he, hd', _, _, _, _⟩ := (C17_script_sig_decode u _ _ _).1 hr
  rw [hex_inj_iff] at he
  simp only [List.cons_append, List.nil_append, List.append_assoc, List.cons.injEq] at he
  have hl := congrArg UInt8.toNat he.1
  rw [UInt8.toNat_ofNat', UInt8.toNat_ofNat', Nat.mod_eq_of_lt (by omega), Nat.mod_eq_of_lt (by omega)] at hl
  have := List.append_inj he.2 (by omega)
  simp at this
  exact h this.2.2.1

/-! ## Witnesses -/

example : scriptSigEncode py"3001" (List.replicate 128 'a') =
    .ok (py"0230014104" ++ List.replicate 128 'a', py"45") := by decide +kernel
example : scriptSigDecode Concrete.uniSample (py"0230014104" ++ List.replicate 128 'a') =
    .ok (py"30", List.replicate 128 'a') := by decide +kernel
/-- trailing bytes are ignored -/
example : scriptSigDecode Concrete.uniSample py"0130" = .error .valueError ∧
    scriptSigDecode Concrete.uniSample py"0230010204aaffff" = .ok (py"30", py"aa") := by decide +kernel

end BT
