import Verif.Lemmas.Hex
import Mathlib.Data.List.TakeWhile

namespace BT
open Spec

/-! # Base58 -/

theorem symbols_eq : base58Symbols = alphabet58 := rfl

theorem sym_lt {i : Nat} (h : i < 58) : base58Symbols[i]! ∈ alphabet58 ∧
    digit58 (base58Symbols[i]!) = i ∧ alphabet58.idxOf? (base58Symbols[i]!) = some i := by
  revert i; decide +kernel

theorem mem_alphabet {c : Char} (h : c ∈ alphabet58) :
    digit58 c < 58 ∧ base58Symbols[digit58 c]! = c ∧ b58Index c = .ok (digit58 c) := by
  revert c; decide +kernel

theorem not_mem_alphabet {c : Char} (h : c ∉ alphabet58) : b58Index c = .error .valueError := by
  unfold b58Index
  rw [symbols_eq, List.idxOf?_eq_none_iff.2 h]

theorem b58Loop_eq (fuel y : Nat) (out : Str) (h : y ≤ fuel) :
    b58Loop fuel y out = out ++ (Nat.digits 58 y).map (fun i => base58Symbols[i]!) := by
  induction fuel generalizing y out with
  | zero => simp [b58Loop, Nat.le_zero.1 h]
  | succ f ih =>
    unfold b58Loop
    by_cases hy : y > 0
    · rw [if_pos hy, ih _ _ (by omega), Nat.digits_def' (b := 58) (by norm_num) hy]
      simp
    · rw [if_neg hy]; simp [show y = 0 by omega]

/-- the base58 text of a number -/
def enc58 (n : Nat) : Str := ((Nat.digits 58 n).map (fun i => base58Symbols[i]!)).reverse

theorem hexToBase58_hex (u : UniDB) {b : Bytes} (h : b ≠ []) :
    hexToBase58 u (hex b) = .ok (enc58 (beNat b)) := by
  simp only [hexToBase58, vHex_hex, R_bind_ok, pyInt_hex u h, Int.toNat_natCast, R_pure]
  rw [b58Loop_eq _ _ _ le_rfl]; rfl

theorem hexToBase58_nil (u : UniDB) : hexToBase58 u [] = .error .valueError := by
  have : vHex [] = .ok () := vHex_hex []
  simp [hexToBase58, this]

theorem hexToBase58_not (u : UniDB) {s : Str} (h : ¬ IsHex s) :
    hexToBase58 u s = .error .valueError := by
  simp [hexToBase58, vHex_not h]

theorem b58Sum_ok {s : Str} (h : ∀ c ∈ s, c ∈ alphabet58) (t : Nat) :
    b58Sum s t = .ok (t + value58 s) := by
  induction s generalizing t with
  | nil => rfl
  | cons c cs ih =>
    have hc := mem_alphabet (h c (by simp))
    simp only [b58Sum, hc.2.2, R_bind_ok]
    rw [ih fun x hx => h x (by simp [hx])]
    simp only [value58]; congr 1; ring

theorem b58Sum_err {s : Str} (h : ∃ c ∈ s, c ∉ alphabet58) (t : Nat) :
    b58Sum s t = .error .valueError := by
  induction s generalizing t with
  | nil => simp at h
  | cons c cs ih =>
    by_cases hc : c ∈ alphabet58
    · simp only [b58Sum, (mem_alphabet hc).2.2, R_bind_ok]
      apply ih
      obtain ⟨d, hd, hd2⟩ := h
      rcases List.mem_cons.1 hd with rfl | hd
      · exact absurd hc hd2
      · exact ⟨d, hd, hd2⟩
    · simp [b58Sum, not_mem_alphabet hc]

theorem base58ToInt_eq {s : Str} (h : ∀ c ∈ s, c ∈ alphabet58) :
    base58ToInt s = if 0 < value58 s then .ok (value58 s : Int) else .error .valueError := by
  simp only [base58ToInt, b58Sum_ok h, R_bind_ok, vPositiveInteger, vInteger, PVal.asInt, Nat.zero_add]
  by_cases hv : 0 < value58 s
  · rw [if_neg (by omega), if_pos hv]; rfl
  · rw [if_pos (by omega), if_neg hv]; rfl

theorem base58ToInt_err {s : Str} (h : ∃ c ∈ s, c ∉ alphabet58) :
    base58ToInt s = .error .valueError := by
  simp [base58ToInt, b58Sum_err h]

theorem value58_append (a b : Str) : value58 (a ++ b) = value58 a * 58 ^ b.length + value58 b := by
  induction a with
  | nil => simp [value58]
  | cons c a ih => simp only [List.cons_append, value58, ih, List.length_append, pow_add]; ring

theorem value58_lt {s : Str} (h : ∀ c ∈ s, c ∈ alphabet58) : value58 s < 58 ^ s.length := by
  induction s with
  | nil => simp [value58]
  | cons c cs ih =>
    have h1 := (mem_alphabet (h c (by simp))).1
    have h2 := ih fun x hx => h x (by simp [hx])
    simp only [value58, List.length_cons, pow_succ]
    nlinarith [Nat.pos_of_ne_zero (pow_ne_zero cs.length (show (58 : Nat) ≠ 0 by norm_num))]

theorem value58_ones (k : Nat) (s : Str) : value58 (List.replicate k '1' ++ s) = value58 s := by
  induction k with
  | zero => rfl
  | succ k ih =>
    have : digit58 '1' = 0 := by decide
    simp [List.replicate_succ, value58, this, ih]

theorem enc58_alphabet (n : Nat) : ∀ c ∈ enc58 n, c ∈ alphabet58 := by
  intro c hc
  simp only [enc58, List.mem_reverse, List.mem_map] at hc
  obtain ⟨i, hi, rfl⟩ := hc
  exact (sym_lt (Nat.digits_lt_base (by norm_num) hi)).1

theorem value58_enc58 (n : Nat) : value58 (enc58 n) = n := by
  induction n using Nat.strong_induction_on with
  | _ n ih =>
    by_cases h : n = 0
    · simp [h, enc58, value58]
    · have e : enc58 n = enc58 (n / 58) ++ [base58Symbols[n % 58]!] := by
        unfold enc58
        rw [Nat.digits_def' (b := 58) (by norm_num) (by omega)]; simp
      rw [e, value58_append, ih _ (by omega)]
      simp only [value58, (sym_lt (Nat.mod_lt n (show 0 < 58 by norm_num))).2.1, List.length_singleton,
        List.length_nil]
      omega

theorem enc58_head {n : Nat} : (enc58 n).head? ≠ some '1' := by
  by_cases h : n = 0
  · simp [h, enc58]
  · unfold enc58
    rw [List.head?_reverse, List.getLast?_map]
    have hne : Nat.digits 58 n ≠ [] := by simp [Nat.digits_ne_nil_iff_ne_zero, h]
    rw [List.getLast?_eq_some_getLast hne]
    simp only [Option.map_some, ne_eq, Option.some.injEq]
    have h1 := Nat.getLast_digit_ne_zero 58 h
    have h2 := Nat.digits_lt_base (b := 58) (by norm_num) (List.getLast_mem hne)
    intro hc
    have h3 := (sym_lt h2).2.1
    rw [hc] at h3
    exact h1 (by rw [← h3]; decide)

theorem digit58_pos {c : Char} (h : c ∈ alphabet58) (h1 : c ≠ '1') : 0 < digit58 c := by
  revert c; decide +kernel

theorem digit58_inj {c d : Char} (hc : c ∈ alphabet58) (hd : d ∈ alphabet58)
    (h : digit58 c = digit58 d) : c = d := by
  rw [← (mem_alphabet hc).2.1, ← (mem_alphabet hd).2.1, h]

theorem value58_inj_len {s t : Str} (hs : ∀ c ∈ s, c ∈ alphabet58) (ht : ∀ c ∈ t, c ∈ alphabet58)
    (hl : s.length = t.length) (h : value58 s = value58 t) : s = t := by
  induction s generalizing t with
  | nil => cases t with
    | nil => rfl
    | cons => simp at hl
  | cons c s ih => cases t with
    | nil => simp at hl
    | cons d t =>
      have hl' : s.length = t.length := by simpa using hl
      have h1 := value58_lt fun x hx => hs x (List.mem_cons_of_mem _ hx)
      have h2 := value58_lt fun x hx => ht x (List.mem_cons_of_mem _ hx)
      simp only [value58, hl'] at h
      rw [hl'] at h1
      have hp : 0 < 58 ^ t.length := by positivity
      have e1 : digit58 c = digit58 d := by
        have a1 : (digit58 c * 58 ^ t.length + value58 s) / 58 ^ t.length = digit58 c := by
          rw [Nat.mul_comm, Nat.mul_add_div hp, Nat.div_eq_of_lt h1, Nat.add_zero]
        have a2 : (digit58 d * 58 ^ t.length + value58 t) / 58 ^ t.length = digit58 d := by
          rw [Nat.mul_comm, Nat.mul_add_div hp, Nat.div_eq_of_lt h2, Nat.add_zero]
        rw [← a1, ← a2, h]
      have e2 : value58 s = value58 t := by rw [e1] at h; omega
      rw [digit58_inj (hs c (by simp)) (ht d (by simp)) e1,
        ih (fun x hx => hs x (by simp [hx])) (fun x hx => ht x (by simp [hx])) hl' e2]

theorem value58_ge {s : Str} (hs : ∀ c ∈ s, c ∈ alphabet58) (hh : s.head? ≠ some '1') (hne : s ≠ []) :
    58 ^ (s.length - 1) ≤ value58 s := by
  cases s with
  | nil => simp at hne
  | cons c s =>
    have := digit58_pos (hs c (by simp)) (by simpa using hh)
    simp only [value58, List.length_cons, Nat.add_sub_cancel]
    nlinarith [Nat.pos_of_ne_zero (pow_ne_zero s.length (show (58 : Nat) ≠ 0 by norm_num))]

theorem value58_inj {s t : Str} (hs : ∀ c ∈ s, c ∈ alphabet58) (ht : ∀ c ∈ t, c ∈ alphabet58)
    (hs1 : s.head? ≠ some '1') (ht1 : t.head? ≠ some '1') (h : value58 s = value58 t) : s = t := by
  apply value58_inj_len hs ht _ h
  by_contra hne
  have key : ∀ a b : Str, (∀ c ∈ a, c ∈ alphabet58) → (∀ c ∈ b, c ∈ alphabet58) →
      b.head? ≠ some '1' → value58 a = value58 b → ¬ a.length < b.length := by
    intro a b ha hb hb1 hab hlt
    have h1 := value58_lt ha
    have h2 := value58_ge hb hb1 (by intro h; simp [h] at hlt)
    have h3 : 58 ^ a.length ≤ 58 ^ (b.length - 1) := Nat.pow_le_pow_right (by norm_num) (by omega)
    omega
  have h1 := key s t hs ht ht1 h
  have h2 := key t s ht hs hs1 h.symm
  omega

theorem enc58_value58 {s : Str} (hs : ∀ c ∈ s, c ∈ alphabet58) (h1 : s.head? ≠ some '1') :
    enc58 (value58 s) = s :=
  value58_inj (enc58_alphabet _) hs enc58_head h1 (value58_enc58 _)

/-! ## Base58Check -/

theorem getSha256_hex (X : Ext) (b : Bytes) : getSha256 X (hex b) = .ok (hex (X.sha256 b)) := by
  simp [getSha256, fromHex_hex, bytesHex_eq]

theorem getDoubleSha256_hex (X : Ext) (b : Bytes) :
    getDoubleSha256 X (hex b) = .ok (hex (X.sha256 (X.sha256 b))) := by
  simp [getDoubleSha256, getSha256_hex]

theorem getChecksum_hex (X : Ext) (b : Bytes) :
    getChecksum X (hex b) = .ok (hex (checksum X.sha256 b)) := by
  simp only [getChecksum, getDoubleSha256_hex, R_bind_ok, R_pure]
  rw [show (8 : Nat) = 2 * 4 from rfl, hex_take]; rfl

theorem getSha256_not (X : Ext) {s : Str} (h : ¬ IsHex s) : getSha256 X s = .error .valueError := by
  simp [getSha256, vHex_not h]

theorem getDoubleSha256_not (X : Ext) {s : Str} (h : ¬ IsHex s) :
    getDoubleSha256 X s = .error .valueError := by
  simp [getDoubleSha256, getSha256_not X h]

theorem countLeadingZeroBytes_hex (b : Bytes) :
    countLeadingZeroBytes (hex b) = (b.takeWhile (· == 0)).length := by
  induction b with
  | nil => rfl
  | cons x b ih =>
    have hz : hexByte 0 = ['0', '0'] := by decide
    by_cases hx : x = 0
    · subst hx
      simp only [hex_cons, hz, List.cons_append, List.nil_append, countLeadingZeroBytes]
      simp [ih]; omega
    · have hne : hexByte x ≠ ['0', '0'] := by
        rw [← hz]; intro h; exact hx (hexByte_inj h)
      obtain ⟨a, c, hac⟩ : ∃ a c, hexByte x = [a, c] := ⟨_, _, rfl⟩
      rw [hac] at hne
      simp only [hex_cons, hac, List.cons_append, List.nil_append, countLeadingZeroBytes]
      have : ¬ (a = '0' ∧ c = '0') := by rintro ⟨rfl, rfl⟩; exact hne rfl
      rw [if_neg this]
      have : (x == 0) = false := by simp [hx]
      simp [List.takeWhile, this]

/-- the base58check text of a full byte string (payload and checksum) -/
def text58 (f : Bytes) : Str := List.replicate (f.takeWhile (· == 0)).length '1' ++ enc58 (beNat f)

theorem hexToBase58check_hex (X : Ext) (hs : ∀ b, (X.sha256 b).length = 32) (p : Bytes) :
    hexToBase58check X (hex p) = .ok (text58 (p ++ checksum X.sha256 p)) := by
  have hne : p ++ checksum X.sha256 p ≠ [] := by
    intro h; have := congrArg List.length h; simp [checksum, hs] at this
  simp only [hexToBase58check, getChecksum_hex, R_bind_ok, ← hex_append]
  rw [hexToBase58_hex _ hne, R_bind_ok, countLeadingZeroBytes_hex]; rfl

theorem hexToBase58check_not (X : Ext) {s : Str} (h : ¬ IsHex s) :
    hexToBase58check X s = .error .valueError := by
  simp [hexToBase58check, getChecksum, getDoubleSha256_not X h]

theorem lastK_append_eq {α : Type} (a b : List α) : lastK b.length (a ++ b) = b := by
  simp [lastK]

theorem dropLastK_append_eq {α : Type} (a b : List α) : dropLastK b.length (a ++ b) = a := by
  simp [dropLastK]

theorem lstripC_eq (c : Char) (s : Str) :
    s = List.replicate (s.takeWhile (· == c)).length c ++ lstripC c s := by
  have ht : s.takeWhile (· == c) = List.replicate (s.takeWhile (· == c)).length c := by
    apply List.eq_replicate_of_mem
    intro x hx
    simpa using List.mem_takeWhile_imp hx
  conv_lhs => rw [← List.takeWhile_append_dropWhile (p := (· == c)) (l := s), ht]
  rfl

theorem lstripC_head (c : Char) (s : Str) : (lstripC c s).head? ≠ some c := by
  intro hc
  have := List.head?_dropWhile_not (fun x : Char => x == c) s
  unfold lstripC at hc
  rw [hc] at this; simp at this

theorem stripCount (c : Char) (s : Str) :
    s.length - (lstripC c s).length = (s.takeWhile (· == c)).length := by
  have := congrArg List.length (lstripC_eq c s)
  simp at this; omega

theorem value58_strip (s : Str) : value58 (lstripC '1' s) = value58 s := by
  conv_rhs => rw [lstripC_eq '1' s, value58_ones]

theorem alphabet_strip {s : Str} (h : ∀ c ∈ s, c ∈ alphabet58) : ∀ c ∈ lstripC '1' s, c ∈ alphabet58 :=
  fun c hc => h c (List.dropWhile_subset _ hc)

theorem not_alphabet_strip {s : Str} (h : ∃ c ∈ s, c ∉ alphabet58) :
    ∃ c ∈ lstripC '1' s, c ∉ alphabet58 := by
  obtain ⟨c, hc, hn⟩ := h
  refine ⟨c, ?_, hn⟩
  rw [lstripC_eq '1' s] at hc
  rcases List.mem_append.1 hc with h | h
  · rw [List.eq_of_mem_replicate h] at hn; exact absurd (by decide) hn
  · exact h

theorem base58checkToHex_char (X : Ext) {s : Str} (h : ∃ c ∈ s, c ∉ alphabet58) :
    base58checkToHex X s = .error .valueError := by
  simp [base58checkToHex, base58ToInt_err (not_alphabet_strip h)]

theorem base58checkToHex_zero (X : Ext) {s : Str} (h : ∀ c ∈ s, c ∈ alphabet58) (h0 : value58 s = 0) :
    base58checkToHex X s = .error .valueError := by
  have := base58ToInt_eq (alphabet_strip h)
  rw [value58_strip, h0] at this
  simp [base58checkToHex, this]

/-- the general step: with a positive value, `m` its minimal bytes -/
theorem base58checkToHex_pos (X : Ext) {s : Str} (h : ∀ c ∈ s, c ∈ alphabet58) {m : Bytes}
    (hm : beNat m = value58 s) (hne : m ≠ []) (hh : m.head? ≠ some 0) :
    base58checkToHex X s =
      if hex (m.drop (m.length - 4)) ≠ hex (checksum X.sha256
          (List.replicate (s.takeWhile (· == '1')).length 0 ++ m.take (m.length - 4)))
      then .error .valueError
      else .ok (hex (List.replicate (s.takeWhile (· == '1')).length 0 ++ m.take (m.length - 4))) := by
  have hpos : 0 < value58 s := by
    rw [← hm]
    cases m with
    | nil => simp at hne
    | cons x r =>
      have hx : x.toNat ≠ 0 := by
        intro h; apply hh; simp; exact UInt8.toNat.inj (by simpa using h)
      simp only [beNat]
      have := Nat.pos_of_ne_zero hx
      positivity
  have hb := base58ToInt_eq (alphabet_strip h)
  rw [value58_strip, if_pos hpos, ← hm] at hb
  have e1 : (hex m).drop ((hex m).length - 8) = hex (m.drop (m.length - 4)) := by
    rw [← hex_drop, hex_length]; congr 1; omega
  have e2 : (hex m).take ((hex m).length - 8) = hex (m.take (m.length - 4)) := by
    rw [← hex_take, hex_length]; congr 1; omega
  simp only [base58checkToHex, hb, R_bind_ok, intToHex_nat, minBytes_beNat m hne hh, lastK, dropLastK,
    e1, e2, stripCount, rep_hex00, ← hex_append, getChecksum_hex, ne_eq]
  split <;> rfl

theorem head_zero_beNat {m : Bytes} (h0 : beNat m = 0) (hh : m.head? ≠ some 0) : m = [] := by
  cases m with
  | nil => rfl
  | cons x r =>
    simp only [beNat] at h0
    have hx : x.toNat = 0 := by
      by_contra hc
      have : 0 < x.toNat * 256 ^ r.length := by
        have := Nat.pos_of_ne_zero hc
        positivity
      omega
    exact absurd (by simp; exact UInt8.toNat.inj (by simpa using hx)) hh

theorem base58checkToHex_ok (X : Ext) (hs : ∀ b, (X.sha256 b).length = 32) {s x : Str} :
    base58checkToHex X s = .ok x ↔
      (∀ c ∈ s, c ∈ alphabet58) ∧ ∃ m' : Bytes,
        let p := List.replicate (s.takeWhile (· == '1')).length 0 ++ m'
        let m := m' ++ checksum X.sha256 p
        x = hex p ∧ m.head? ≠ some 0 ∧ beNat m = value58 s := by
  have hcl : ∀ p, (checksum X.sha256 p).length = 4 := by intro p; simp [checksum, hs]
  constructor
  · intro h
    by_cases ha : ∀ c ∈ s, c ∈ alphabet58
    · refine ⟨ha, ?_⟩
      by_cases h0 : value58 s = 0
      · rw [base58checkToHex_zero X ha h0] at h; simp at h
      · obtain ⟨m, hm, hne, hh⟩ : ∃ m, beNat m = value58 s ∧ m ≠ [] ∧ m.head? ≠ some 0 :=
          ⟨minBytes (value58 s), beNat_minBytes _, minBytes_ne_nil _, minBytes_head _ h0⟩
        rw [base58checkToHex_pos X ha hm hne hh] at h
        split at h
        · simp at h
        · rename_i hc
          simp only [ne_eq, not_not, hex_inj_iff] at hc
          simp only [Except.ok.injEq] at h
          refine ⟨m.take (m.length - 4), h.symm, ?_, ?_⟩
          · rw [← hc, List.take_append_drop]; exact hh
          · rw [← hc, List.take_append_drop]; exact hm
    · push Not at ha
      rw [base58checkToHex_char X ha] at h; simp at h
  · rintro ⟨ha, m', hx, hh, hv⟩
    have hne : m' ++ checksum X.sha256 (List.replicate (s.takeWhile (· == '1')).length 0 ++ m') ≠ [] := by
      intro h; have := congrArg List.length h; simp [hcl] at this
    rw [base58checkToHex_pos X ha hv hne hh]
    have e : (m' ++ checksum X.sha256 (List.replicate (s.takeWhile (· == '1')).length 0 ++ m')).length - 4
        = m'.length := by simp [hcl]
    rw [e, List.drop_left, List.take_left]
    simp [hx]

/-- only ValueError -/
theorem base58checkToHex_err (X : Ext) {s : Str} {e : Err} (h : base58checkToHex X s = .error e) :
    e = .valueError := by
  by_cases ha : ∀ c ∈ s, c ∈ alphabet58
  · by_cases h0 : value58 s = 0
    · rw [base58checkToHex_zero X ha h0] at h; simpa using h.symm
    · rw [base58checkToHex_pos X ha (beNat_minBytes _) (minBytes_ne_nil _) (minBytes_head _ h0)] at h
      split at h <;> simp_all
  · push Not at ha
    rw [base58checkToHex_char X ha] at h; simpa using h.symm

theorem takeWhile_ones {k : Nat} {t : Str} (h : t.head? ≠ some '1') :
    ((List.replicate k '1' ++ t).takeWhile (· == '1')).length = k := by
  induction k with
  | zero =>
    cases t with
    | nil => rfl
    | cons a t =>
      have : (a == '1') = false := by simpa using h
      simp [List.takeWhile, this]
  | succ k ih =>
    rw [List.replicate_succ, List.cons_append, List.takeWhile_cons]
    simp only [beq_self_eq_true, if_true, List.length_cons, ih]

theorem takeWhile_zeros {k : Nat} {t : Bytes} (h : t.head? ≠ some 0) :
    ((List.replicate k 0 ++ t).takeWhile (· == 0)).length = k := by
  induction k with
  | zero =>
    cases t with
    | nil => rfl
    | cons a t =>
      have : (a == 0) = false := by simpa using h
      simp [List.takeWhile, this]
  | succ k ih =>
    rw [List.replicate_succ, List.cons_append, List.takeWhile_cons]
    simp only [beq_self_eq_true, if_true, List.length_cons, ih]

theorem zeros_split (f : Bytes) : ∃ m : Bytes,
    f = List.replicate (f.takeWhile (· == 0)).length 0 ++ m ∧ m.head? ≠ some 0 ∧ beNat m = beNat f := by
  have ht : f.takeWhile (· == 0) = List.replicate (f.takeWhile (· == 0)).length 0 := by
    apply List.eq_replicate_of_mem
    intro x hx
    simpa using List.mem_takeWhile_imp hx
  have e : f = List.replicate (f.takeWhile (· == 0)).length 0 ++ f.dropWhile (· == 0) := by
    conv_lhs => rw [← List.takeWhile_append_dropWhile (p := (· == 0)) (l := f), ht]
  refine ⟨f.dropWhile (· == 0), e, ?_, ?_⟩
  · intro hc
    have := List.head?_dropWhile_not (fun x : UInt8 => x == 0) f
    rw [hc] at this; simp at this
  · conv_rhs => rw [e, beNat_append, beNat_replicate_zero]
    simp

theorem text58_alphabet (f : Bytes) : ∀ c ∈ text58 f, c ∈ alphabet58 := by
  intro c hc
  rcases List.mem_append.1 hc with h | h
  · rw [List.eq_of_mem_replicate h]; decide
  · exact enc58_alphabet _ c h

theorem text58_ones (f : Bytes) :
    ((text58 f).takeWhile (· == '1')).length = (f.takeWhile (· == 0)).length :=
  takeWhile_ones enc58_head

theorem value58_text58 (f : Bytes) : value58 (text58 f) = beNat f := by
  rw [text58, value58_ones, value58_enc58]

theorem text58_denotes (f : Bytes) : Denotes58 (text58 f) f := by
  refine ⟨text58_alphabet f, ?_⟩
  obtain ⟨m, h1, h2, h3⟩ := zeros_split f
  refine ⟨m, ?_, h2, ?_⟩
  · rw [text58_ones]; exact h1
  · rw [value58_text58, h3]

theorem denotes_text58 {s : Str} {f : Bytes} (h : Denotes58 s f) : text58 f = s := by
  obtain ⟨ha, m, rfl, hh, hv⟩ := h
  unfold text58
  rw [takeWhile_zeros hh, beNat_append, beNat_replicate_zero, Nat.zero_mul, Nat.zero_add, hv]
  conv_rhs => rw [lstripC_eq '1' s]
  congr 1
  rw [← value58_strip]
  exact enc58_value58 (alphabet_strip ha) (lstripC_head _ _)

end BT
