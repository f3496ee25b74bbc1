import Verif.Props.Messages2

/-! # The text about a wrong checksum (C153) -/

namespace BT
open Msg Spec

/-- The report on a base58 text `s` that denotes `n` zero bytes and then the bytes `w` (the last four of which should be the checksum of all before them). -/
def Spec.checksumReport (sha : Bytes → Bytes) (s : Str) (n : Nat) (w : Bytes) : Str :=
  let front := w.take (w.length - 4)
  let payload := List.replicate n 0 ++ front
  py"Checksum value does not match calculated checksum." ++
  py"\n- Input: " ++ s ++
  py"\n- Input hex: " ++ hex w ++
  py"\n- Input hex without checksum: " ++ hex front ++
  py"\n- Input hex without checksum and with zeroes: " ++ hex payload ++
  py"\n- Checksum value     : " ++ hex (w.drop (w.length - 4)) ++
  py"\n- Calculated checksum: " ++ hex (checksum sha payload) ++ py"\n"

namespace Msg

theorem checksumText_pos (X : Ext) {s : Str} (h : ∀ c ∈ s, c ∈ alphabet58) {m : Bytes} (hm : beNat m = value58 s) (hne : m ≠ []) (hh : m.head? ≠ some 0) :
    checksumText X s =
      if hex (m.drop (m.length - 4)) ≠ hex (checksum X.sha256 (List.replicate (s.takeWhile (· == '1')).length 0 ++ m.take (m.length - 4)))
      then some (checksumReport X.sha256 s (s.takeWhile (· == '1')).length m) else none := by
  have hpos : 0 < value58 s := by
    rw [← hm]
    cases m with
    | nil => simp at hne
    | cons x r =>
      have hx : x.toNat ≠ 0 := by
        intro h; apply hh; simp; exact UInt8.toNat.inj (by simpa using h)
      simp only [beNat]
      have := Nat.pos_of_ne_zero hx
      positivity
  have hb := base58ToInt_eq (alphabet_strip h)
  rw [value58_strip, if_pos hpos, ← hm] at hb
  have e1 : (hex m).drop ((hex m).length - 8) = hex (m.drop (m.length - 4)) := by
    rw [← hex_drop, hex_length]; congr 1; omega
  have e2 : (hex m).take ((hex m).length - 8) = hex (m.take (m.length - 4)) := by
    rw [← hex_take, hex_length]; congr 1; omega
  simp only [checksumText, hb, intToHex_nat, minBytes_beNat m hne hh, lastK, dropLastK,
    e1, e2, stripCount, rep_hex00, ← hex_append, getChecksum_hex, ne_eq]
  split
  · simp only [checksumReport, List.append_assoc, Option.some.injEq]; rfl
  · rfl

theorem checksumText_alphabet (X : Ext) {s m : Str} (h : checksumText X s = some m) : (∀ c ∈ s, c ∈ alphabet58) ∧ 0 < value58 s := by
  have hal : ∀ c ∈ s, c ∈ alphabet58 := by
    by_contra hn
    push Not at hn
    unfold checksumText at h
    simp only [base58ToInt_err (not_alphabet_strip hn), reduceCtorEq] at h
  refine ⟨hal, ?_⟩
  by_contra h0
  have := base58ToInt_eq (alphabet_strip hal)
  rw [value58_strip, if_neg h0] at this
  unfold checksumText at h
  simp only [this, reduceCtorEq] at h

end Msg

/-- **C153**: the report on a wrong checksum is true: the text denotes the bytes that it shows, the two checksums that it shows are the one of the text and the one that
the bytes have, and they differ; the text is refused with a `ValueError`. -/
theorem C153_true (X : Ext) (s m : Str) (h : checksumText X s = some m) :
    base58checkToHex X s = .error .valueError ∧
    ∃ (n : Nat) (w : Bytes), Denotes58 s (List.replicate n 0 ++ w) ∧ w.head? ≠ some 0 ∧ n = (s.takeWhile (· == '1')).length ∧
      w.drop (w.length - 4) ≠ checksum X.sha256 (List.replicate n 0 ++ w.take (w.length - 4)) ∧ m = checksumReport X.sha256 s n w := by
  refine ⟨C107_checksum_text X s m h, ?_⟩
  obtain ⟨hal, hpos⟩ := checksumText_alphabet X h
  have hb : beNat (minBytes (value58 s)) = value58 s := beNat_minBytes _
  have hh := minBytes_head (value58 s) (by omega)
  rw [checksumText_pos X hal hb (minBytes_ne_nil _) hh] at h
  split at h
  · rename_i hne
    injection h with h
    exact ⟨_, _, ⟨hal, _, rfl, hh, hb⟩, hh, rfl, fun he => hne (by rw [he]), h.symm⟩
  · simp at h

/-- **C153**: every refused base58 text with a character other than '1' is reported in this way. -/
theorem C153_reported (X : Ext) (s : Str) (n : Nat) (w : Bytes) (hd : Denotes58 s (List.replicate n 0 ++ w)) (hn : n = (s.takeWhile (· == '1')).length)
    (hh : w.head? ≠ some 0) (hw : w ≠ []) (hr : ∀ x, base58checkToHex X s ≠ .ok x) :
    checksumText X s = some (checksumReport X.sha256 s n w) := by
  obtain ⟨hal, m, hm, hmh, hmv⟩ := hd
  subst hn
  obtain rfl := List.append_cancel_left hm
  rw [checksumText_pos X hal hmv hw hh]
  have := base58checkToHex_pos X hal hmv hw hh
  split
  · rfl
  · rename_i he
    rw [if_neg he] at this
    exact absurd this (hr _)

/-- an address with a mistyped last character -/
example : ∃ m, checksumText Concrete.Xreal py"1BgGZ9tcN4rm9KBzDn7KprQz87SZ26SAMJ" = some m := by
  cases h : checksumText Concrete.Xreal py"1BgGZ9tcN4rm9KBzDn7KprQz87SZ26SAMJ" with
  | some m => exact ⟨m, rfl⟩
  | none => exact absurd h (by decide +kernel)

end BT
