import Verif.Basic
import Verif.Spec
import Verif.Lemmas.R
import Mathlib.Data.Nat.Digits.Lemmas
import Mathlib.Tactic.Ring
import Mathlib.Tactic.Linarith

namespace BT
open Spec

/-! # Hexadecimal text as bytes -/

theorem hexDigits_mem_iff (c : Char) : c ∈ hexDigits ↔ ∃ n < 16, c = hexDigits.getD n '?' := by
  constructor
  · intro h
    obtain ⟨n, hn, rfl⟩ := List.getElem_of_mem h
    exact ⟨n, hn, by simp [List.getD, hn]⟩
  · rintro ⟨n, hn, rfl⟩
    have : n < hexDigits.length := hn
    simp [List.getD, this]

@[simp] theorem hex_nil : hex [] = [] := rfl
@[simp] theorem hex_cons (x : UInt8) (b : Bytes) : hex (x :: b) = hexByte x ++ hex b := rfl
@[simp] theorem hex_append (a b : Bytes) : hex (a ++ b) = hex a ++ hex b := by simp [hex]
@[simp] theorem hexByte_length (x : UInt8) : (hexByte x).length = 2 := rfl
@[simp] theorem hex_length (b : Bytes) : (hex b).length = 2 * b.length := by
  induction b with
  | nil => rfl
  | cons x r ih => simp [ih]; omega

theorem hexByte_mem (x : UInt8) : ∀ c ∈ hexByte x, c ∈ hexDigits := by
  intro c hc
  have hx := x.toNat_lt
  simp only [hexByte, List.mem_cons, List.not_mem_nil, or_false] at hc
  rw [hexDigits_mem_iff]
  rcases hc with h | h
  · exact ⟨_, by omega, h⟩
  · exact ⟨_, by omega, h⟩

theorem hex_mem (b : Bytes) : ∀ c ∈ hex b, c ∈ hexDigits := by
  intro c hc
  simp only [hex, List.mem_flatMap] at hc
  obtain ⟨x, _, h⟩ := hc
  exact hexByte_mem x c h

theorem isHex_hex (b : Bytes) : IsHex (hex b) := ⟨by simp, hex_mem b⟩

theorem isHex_exists : ∀ {s : Str}, IsHex s → ∃ b, s = hex b
  | [], _ => ⟨[], rfl⟩
  | [a], h => by simp [IsHex] at h
  | a :: c :: r, h => by
    obtain ⟨h1, h2⟩ := h
    have hr : IsHex r := ⟨by simp at h1; omega, fun x hx => h2 x (by simp [hx])⟩
    obtain ⟨b, rfl⟩ := isHex_exists hr
    obtain ⟨n, hn, ha⟩ := (hexDigits_mem_iff a).1 (h2 a (by simp))
    obtain ⟨m, hm, hc⟩ := (hexDigits_mem_iff c).1 (h2 c (by simp))
    refine ⟨UInt8.ofNat (16 * n + m) :: b, ?_⟩
    have : (16 * n + m) % 2 ^ 8 = 16 * n + m := Nat.mod_eq_of_lt (by omega)
    simp only [hex_cons, hexByte, UInt8.toNat_ofNat', this]
    have h1 : (16 * n + m) / 16 = n := by omega
    have h2 : (16 * n + m) % 16 = m := by omega
    rw [h1, h2, ha, hc]; rfl

theorem isHex_iff {s : Str} : IsHex s ↔ ∃ b, s = hex b :=
  ⟨isHex_exists, by rintro ⟨b, rfl⟩; exact isHex_hex b⟩

/-- hex digits are injective below 16 -/
theorem hexDigits_inj {m n : Nat} (hm : m < 16) (hn : n < 16)
    (h : hexDigits.getD m '?' = hexDigits.getD n '?') : m = n := by
  have : ∀ m < 16, ∀ n < 16, hexDigits.getD m '?' = hexDigits.getD n '?' → m = n := by
    decide +kernel
  exact this m hm n hn h

theorem hexByte_inj {x y : UInt8} (h : hexByte x = hexByte y) : x = y := by
  have hx := x.toNat_lt
  have hy := y.toNat_lt
  simp only [hexByte, List.cons.injEq, and_true] at h
  have h1 := hexDigits_inj (by omega) (by omega) h.1
  have h2 := hexDigits_inj (by omega) (by omega) h.2
  exact UInt8.toNat.inj (by omega)

theorem hex_inj {a b : Bytes} (h : hex a = hex b) : a = b := by
  induction a generalizing b with
  | nil => cases b with
    | nil => rfl
    | cons y b => simp [hexByte] at h
  | cons x a ih => cases b with
    | nil => simp [hexByte] at h
    | cons y b =>
      simp only [hex_cons] at h
      have := List.append_inj h (by simp)
      rw [hexByte_inj this.1, ih this.2]

@[simp] theorem hex_inj_iff {a b : Bytes} : hex a = hex b ↔ a = b := ⟨hex_inj, by rintro rfl; rfl⟩
@[simp] theorem hex_eq_nil {a : Bytes} : hex a = [] ↔ a = [] := by
  rw [← hex_nil, hex_inj_iff]

theorem hex_take (b : Bytes) (n : Nat) : (hex b).take (2 * n) = hex (b.take n) := by
  induction b generalizing n with
  | nil => simp
  | cons x b ih => cases n with
    | zero => simp
    | succ n =>
      have : 2 * (n + 1) = 2 * n + 1 + 1 := by omega
      simp [hexByte, this, ih]

theorem hex_drop (b : Bytes) (n : Nat) : (hex b).drop (2 * n) = hex (b.drop n) := by
  induction b generalizing n with
  | nil => simp
  | cons x b ih => cases n with
    | zero => simp
    | succ n =>
      have : 2 * (n + 1) = 2 * n + 1 + 1 := by omega
      simp [hexByte, this, ih]

theorem hex_flatten (l : List Bytes) : hex l.flatten = (l.map hex).flatten := by
  induction l with
  | nil => rfl
  | cons x l ih => simp [ih]

theorem digitChar_eq {n : Nat} (h : n < 16) : digitChar n = hexDigits.getD n '?' := by
  revert n; decide +kernel

theorem bytesHex_eq (b : Bytes) : bytesHex b = hex b := by
  induction b with
  | nil => rfl
  | cons x b ih =>
    have hx := x.toNat_lt
    have : bytesHex (x :: b) = [digitChar (x.toNat / 16), digitChar (x.toNat % 16)] ++ bytesHex b := rfl
    rw [this, ih, hex_cons, hexByte, digitChar_eq (by omega), digitChar_eq (by omega)]

/-! ## validate_hex -/

instance (s : Str) : Decidable (IsHex s) := by unfold IsHex; infer_instance

theorem isHexStr_iff {s : Str} : isHexStr s = true ↔ IsHex s := by
  simp [isHexStr, IsHex, hexDigits]

theorem vHex_eq (s : Str) : vHex s = if IsHex s then .ok () else .error .valueError := by
  unfold vHex IsHex
  by_cases h1 : s.length % 2 = 0
  · by_cases h2 : ∀ c ∈ s, c ∈ hexDigits
    · have : (s.all fun c => py"0123456789abcdef".contains c) = true := by
        simpa [hexDigits] using h2
      simp only [h1, this]; simp; exact h2
    · have : (s.all fun c => py"0123456789abcdef".contains c) = false := by
        rw [← Bool.not_eq_true]; intro h; apply h2; simpa [hexDigits] using h
      simp only [h1, this]; simp [h2]
  · simp [h1]

@[simp] theorem vHex_hex (b : Bytes) : vHex (hex b) = .ok () := by
  rw [vHex_eq, if_pos (isHex_hex b)]

theorem vHex_ok {s : Str} {x : Unit} : vHex s = .ok x ↔ IsHex s := by
  rw [vHex_eq]; split <;> simp [*]

theorem vHex_not {s : Str} (h : ¬ IsHex s) : vHex s = .error .valueError := by
  rw [vHex_eq, if_neg h]

@[simp] theorem hexLen_hex (b : Bytes) : hexLen (hex b) = .ok b.length := by
  simp [hexLen]

theorem hexLen_ok {s : Str} {n : Nat} : hexLen s = .ok n ↔ IsHex s ∧ n = s.length / 2 := by
  simp only [hexLen, R_bind_eq_ok, vHex_ok]
  constructor
  · rintro ⟨_, h, h2⟩; simp at h2; exact ⟨h, h2.symm⟩
  · rintro ⟨h, rfl⟩; exact ⟨(), h, rfl⟩

theorem vHexLength_ok {s : Str} {n : Int} {x : Unit} :
    vHexLength s n = .ok x ↔ IsHex s ∧ (s.length : Int) = 2 * n := by
  simp only [vHexLength, R_bind_eq_ok, vHex_ok]
  constructor
  · rintro ⟨_, h, h2⟩
    refine ⟨h, ?_⟩
    split at h2 <;> simp_all; omega
  · rintro ⟨h, h2⟩
    refine ⟨(), h, ?_⟩
    rw [if_neg (by omega)]; rfl

theorem vHex_err {s : Str} {e : Err} (h : vHex s = .error e) : e = .valueError := by
  rw [vHex_eq] at h; split at h <;> simp_all

theorem vHexLength_err {s : Str} {n : Int} {e : Err} (h : vHexLength s n = .error e) :
    e = .valueError := by
  simp only [vHexLength, R_bind_eq_err] at h
  rcases h with h | ⟨_, _, h⟩
  · exact vHex_err h
  · split at h <;> simp_all

theorem vHex_VE (s : Str) : VE (vHex s) := fun _ h => vHex_err h
theorem vHexLength_VE (s : Str) (n : Int) : VE (vHexLength s n) := fun _ h => vHexLength_err h
theorem hexLen_VE (s : Str) : VE (hexLen s) := by
  unfold hexLen
  exact (vHex_VE s).bind fun _ _ => VE.ok _

theorem vHexLength_hex (b : Bytes) (n : Int) :
    vHexLength (hex b) n = if (b.length : Int) = n then .ok () else .error .valueError := by
  simp only [vHexLength, vHex_hex, R_bind_ok, hex_length]
  by_cases h : (b.length : Int) = n
  · rw [if_neg (by push_cast; omega), if_pos h]; rfl
  · rw [if_pos (by push_cast; omega), if_neg h]; rfl

theorem vHexLength_bytes {s : Str} {n : Nat} {x : Unit} (h : vHexLength s n = .ok x) :
    ∃ b : Bytes, s = hex b ∧ b.length = n := by
  obtain ⟨h1, h2⟩ := vHexLength_ok.1 h
  obtain ⟨b, rfl⟩ := isHex_exists h1
  exact ⟨b, rfl, by simp at h2; omega⟩

/-! ## reverse_hex_order -/

theorem chunks2_hex (b : Bytes) : chunks2 (hex b) = b.map hexByte := by
  induction b with
  | nil => rfl
  | cons x b ih => simp [hexByte, chunks2, ih]

theorem reverseHexOrder_hex (b : Bytes) : reverseHexOrder (hex b) = .ok (hex b.reverse) := by
  have : ((chunks2 (hex b)).reverse).flatten = hex b.reverse := by
    rw [chunks2_hex, ← List.map_reverse, hex, List.flatMap]
  simp [reverseHexOrder, this]

theorem reverseHexOrder_not {s : Str} (h : ¬ IsHex s) : reverseHexOrder s = .error .valueError := by
  simp [reverseHexOrder, vHex_not h]

theorem reverseHexOrder_ok {s t : Str} :
    reverseHexOrder s = .ok t ↔ ∃ b, s = hex b ∧ t = hex b.reverse := by
  constructor
  · intro h
    by_cases hs : IsHex s
    · obtain ⟨b, rfl⟩ := isHex_exists hs
      rw [reverseHexOrder_hex] at h
      exact ⟨b, rfl, by simpa using h.symm⟩
    · rw [reverseHexOrder_not hs] at h; simp at h
  · rintro ⟨b, rfl, rfl⟩; exact reverseHexOrder_hex b

/-! ## big-endian and little-endian values -/

theorem beNat_append (a b : Bytes) : beNat (a ++ b) = beNat a * 256 ^ b.length + beNat b := by
  induction a with
  | nil => simp [beNat]
  | cons x a ih => simp only [List.cons_append, beNat, ih, List.length_append, pow_add]; ring

theorem leNat_append (a b : Bytes) : leNat (a ++ b) = leNat a + 256 ^ a.length * leNat b := by
  induction a with
  | nil => simp [leNat]
  | cons x a ih => simp only [List.cons_append, leNat, ih, List.length_cons, pow_succ]; ring

theorem leNat_reverse (b : Bytes) : leNat b.reverse = beNat b := by
  induction b with
  | nil => rfl
  | cons x b ih => simp [leNat_append, ih, beNat, leNat]; ring

theorem beNat_reverse (b : Bytes) : beNat b.reverse = leNat b := by
  rw [← leNat_reverse, List.reverse_reverse]

theorem leNat_lt (b : Bytes) : leNat b < 256 ^ b.length := by
  induction b with
  | nil => simp [leNat]
  | cons x b ih =>
    have := x.toNat_lt
    simp only [leNat, List.length_cons, pow_succ]; omega

theorem beNat_lt (b : Bytes) : beNat b < 256 ^ b.length := by
  rw [← leNat_reverse]; simpa using leNat_lt b.reverse

theorem leNat_inj {a b : Bytes} (hl : a.length = b.length) (h : leNat a = leNat b) : a = b := by
  induction a generalizing b with
  | nil => cases b with
    | nil => rfl
    | cons => simp at hl
  | cons x a ih => cases b with
    | nil => simp at hl
    | cons y b =>
      have hx := x.toNat_lt
      have hy := y.toNat_lt
      simp only [leNat] at h
      have h1 : x.toNat = y.toNat := by omega
      have h2 : leNat a = leNat b := by omega
      rw [UInt8.toNat.inj h1, ih (by simpa using hl) h2]

theorem beNat_inj {a b : Bytes} (hl : a.length = b.length) (h : beNat a = beNat b) : a = b := by
  rw [← leNat_reverse, ← leNat_reverse] at h
  have := leNat_inj (by simpa using hl) h
  simpa using this

theorem leNat_replicate_zero (n : Nat) : leNat (List.replicate n 0) = 0 := by
  induction n with
  | zero => rfl
  | succ n ih => simp [List.replicate_succ, leNat, ih]

theorem beNat_replicate_zero (n : Nat) : beNat (List.replicate n 0) = 0 := by
  rw [← leNat_reverse]; simp [leNat_replicate_zero]

/-! ## Fixed-width encodings -/

/-- `k` bytes, least significant first -/
def leBytes : Nat → Nat → Bytes
  | 0, _ => []
  | k + 1, n => UInt8.ofNat (n % 256) :: leBytes k (n / 256)

@[simp] theorem leBytes_length (k n : Nat) : (leBytes k n).length = k := by
  induction k generalizing n with
  | zero => rfl
  | succ k ih => simp [leBytes, ih]

theorem leNat_leBytes {k n : Nat} (h : n < 256 ^ k) : leNat (leBytes k n) = n := by
  induction k generalizing n with
  | zero => simp at h; simp [leBytes, leNat, h]
  | succ k ih =>
    have h1 : n / 256 < 256 ^ k := by
      rw [Nat.div_lt_iff_lt_mul (by norm_num)]; rw [pow_succ] at h; exact h
    have h2 : n % 256 % 2 ^ 8 = n % 256 := by simp
    simp only [leBytes, leNat, ih h1, UInt8.toNat_ofNat', h2]; omega

theorem leBytes_leNat (b : Bytes) : leBytes b.length (leNat b) = b :=
  leNat_inj (by simp) (leNat_leBytes (leNat_lt b))

/-- Minimal big-endian bytes of a number (one zero byte for 0). -/
def minBytes (n : Nat) : Bytes :=
  if n = 0 then [0] else ((Nat.digits 256 n).map UInt8.ofNat).reverse

theorem leNat_digits (n : Nat) : leNat ((Nat.digits 256 n).map UInt8.ofNat) = n := by
  induction n using Nat.strong_induction_on with
  | _ n ih =>
    by_cases h : n = 0
    · simp [h, leNat]
    · rw [Nat.digits_def' (by norm_num) (by omega)]
      have h2 : n % 256 % 2 ^ 8 = n % 256 := by simp
      simp only [List.map_cons, leNat, ih (n / 256) (by omega), UInt8.toNat_ofNat', h2]; omega

theorem beNat_minBytes (n : Nat) : beNat (minBytes n) = n := by
  unfold minBytes
  split
  · simp [beNat, *]
  · rw [beNat_reverse, leNat_digits]

theorem minBytes_ne_nil (n : Nat) : minBytes n ≠ [] := by
  unfold minBytes
  split
  · simp
  · simp [Nat.digits_ne_nil_iff_ne_zero, *]

theorem minBytes_head (n : Nat) (h : n ≠ 0) : (minBytes n).head? ≠ some 0 := by
  unfold minBytes
  rw [if_neg h, List.head?_reverse, List.getLast?_map]
  intro hc
  have hne : Nat.digits 256 n ≠ [] := by simp [Nat.digits_ne_nil_iff_ne_zero, h]
  rw [List.getLast?_eq_some_getLast hne] at hc
  simp only [Option.map_some, Option.some.injEq] at hc
  have h1 := Nat.getLast_digit_ne_zero 256 h
  have h2 := Nat.digits_lt_base (b := 256) (by norm_num) (List.getLast_mem hne)
  have h3 := congrArg UInt8.toNat hc
  rw [UInt8.toNat_ofNat', Nat.mod_eq_of_lt (by omega)] at h3
  exact h1 (by simpa using h3)

/-- length of the minimal encoding -/
theorem minBytes_length_le {n k : Nat} (hk : 0 < k) (h : n < 256 ^ k) : (minBytes n).length ≤ k := by
  unfold minBytes
  split
  · simp; omega
  · simp only [List.length_reverse, List.length_map]
    exact (Nat.digits_length_le_iff (by norm_num) _).2 h

theorem minBytes_length_gt {n k : Nat} (h : 256 ^ k ≤ n) : k < (minBytes n).length := by
  by_contra hc
  have := beNat_lt (minBytes n)
  rw [beNat_minBytes] at this
  have h2 : 256 ^ (minBytes n).length ≤ 256 ^ k := Nat.pow_le_pow_right (by norm_num) (by omega)
  omega

/-- a byte string without leading zero is the minimal encoding of its value -/
theorem minBytes_beNat (b : Bytes) (hne : b ≠ []) (hh : b.head? ≠ some 0) : minBytes (beNat b) = b := by
  cases b with
  | nil => simp at hne
  | cons x r =>
    have hx : x.toNat ≠ 0 := by
      intro h; apply hh; simp; exact UInt8.toNat.inj (by simpa using h)
    have hpos : 256 ^ r.length ≤ beNat (x :: r) := by
      simp only [beNat]; nlinarith [Nat.pos_of_ne_zero hx, Nat.one_le_pow r.length 256 (by norm_num)]
    have hlt := beNat_lt (x :: r)
    have h1 := minBytes_length_gt hpos
    have h2 := minBytes_length_le (k := r.length + 1) (by omega) (by simpa using hlt)
    exact beNat_inj (by simp; omega) (beNat_minBytes _)

/-! ## int_to_hex -/

theorem digits16_256 (n : Nat) :
    (if (Nat.digits 16 n).length % 2 = 1 then Nat.digits 16 n ++ [0] else Nat.digits 16 n)
      = (Nat.digits 256 n).flatMap fun x => [x % 16, x / 16] := by
  induction n using Nat.strong_induction_on with
  | _ n ih =>
    by_cases h0 : n = 0
    · simp [h0]
    rw [Nat.digits_def' (b := 256) (by norm_num) (by omega), Nat.digits_def' (b := 16) (by norm_num) (by omega)]
    by_cases h1 : n / 16 = 0
    · have : n / 256 = 0 := by omega
      simp [h1, this]; omega
    rw [Nat.digits_def' (b := 16) (n := n / 16) (by norm_num) (by omega)]
    have e : n / 16 / 16 = n / 256 := by omega
    have := ih (n / 256) (by omega)
    rw [e]
    simp only [List.length_cons, List.flatMap_cons]
    rw [← this]
    have e1 : n % 256 % 16 = n % 16 := by omega
    have e2 : n % 256 / 16 = n / 16 % 16 := by omega
    rw [e1, e2]
    have e3 : ((Nat.digits 16 (n / 256)).length + 1 + 1) % 2 = (Nat.digits 16 (n / 256)).length % 2 := by omega
    simp only [e3]; split <;> simp

theorem natDigits16_hex (n : Nat) :
    (if (natDigits 16 n).length % 2 = 1 then '0' :: natDigits 16 n else natDigits 16 n)
      = hex (minBytes n) := by
  unfold natDigits minBytes
  by_cases h0 : n = 0
  · simp [h0]; decide
  rw [if_neg h0, if_neg h0]
  have key := congrArg (fun l => (l.map digitChar).reverse) (digits16_256 n)
  simp only [List.length_reverse, List.length_map]
  have hd : digitChar 0 = '0' := by decide
  have h1 : (if (Nat.digits 16 n).length % 2 = 1 then '0' :: ((Nat.digits 16 n).map digitChar).reverse
      else ((Nat.digits 16 n).map digitChar).reverse) =
      ((if (Nat.digits 16 n).length % 2 = 1 then Nat.digits 16 n ++ [0] else Nat.digits 16 n).map digitChar).reverse := by
    split <;> simp [hd]
  rw [h1, key]
  have hlt : ∀ d ∈ Nat.digits 256 n, d < 256 := fun d hd => Nat.digits_lt_base (by norm_num) hd
  generalize Nat.digits 256 n = l at hlt
  induction l with
  | nil => rfl
  | cons x l ih =>
    have hx := hlt x (by simp)
    have ih := ih fun d hd => hlt d (by simp [hd])
    simp only [List.flatMap_cons, List.map_append, List.reverse_append, ih, List.map_cons,
      List.reverse_cons, hex_append]
    congr 1
    simp only [hex, List.flatMap_cons, List.flatMap_nil, hexByte, UInt8.toNat_ofNat']
    rw [Nat.mod_eq_of_lt (show x < 2 ^ 8 by omega), digitChar_eq (by omega), digitChar_eq (by omega)]
    rfl

theorem intToHex_nat (n : Nat) : intToHex (n : Int) = .ok (hex (minBytes n)) := by
  have h1 : pyHex (n : Int) = '0' :: 'x' :: natDigits 16 n := by simp [pyHex]
  have h2 : (natDigits 16 n).getLast? ≠ some 'L' := by
    unfold natDigits
    split
    · decide
    · rw [List.getLast?_reverse, List.head?_map, Nat.digits_def' (by norm_num) (by omega)]
      have : n % 16 < 16 := by omega
      generalize n % 16 = m at this
      simp only [List.head?_cons, Option.map_some]
      revert m; decide
  simp only [intToHex, h1, List.drop_succ_cons, List.drop_zero, h2, if_false, natDigits16_hex,
    vHex_hex, R_bind_ok, R_pure]

theorem intToHex_neg {n : Int} (h : n < 0) : intToHex n = .error .valueError := by
  have h1 : pyHex n = '-' :: '0' :: 'x' :: natDigits 16 n.natAbs := by simp [pyHex, h]
  simp only [intToHex, h1, List.drop_succ_cons, List.drop_zero]
  have : ∀ s : Str, 'x' ∈ s → vHex s = .error .valueError := by
    intro s hs
    apply vHex_not
    intro hh
    exact absurd (hh.2 _ hs) (by decide)
  rw [this]; · rfl
  have hx : 'x' ∈ (if ('x' :: natDigits 16 n.natAbs).getLast? = some 'L' then
      ('x' :: natDigits 16 n.natAbs).dropLast else 'x' :: natDigits 16 n.natAbs) := by
    split
    · rename_i hL
      cases hn : natDigits 16 n.natAbs with
      | nil => rw [hn] at hL; simp at hL
      | cons a l => simp
    · simp
  generalize (if ('x' :: natDigits 16 n.natAbs).getLast? = some 'L' then
      ('x' :: natDigits 16 n.natAbs).dropLast else 'x' :: natDigits 16 n.natAbs) = l at hx
  by_cases hl : l.length % 2 = 1
  · rw [if_pos hl]; exact List.mem_cons_of_mem _ hx
  · rw [if_neg hl]; exact hx

theorem intToHex_ok {n : Int} {s : Str} :
    intToHex n = .ok s ↔ 0 ≤ n ∧ s = hex (minBytes n.toNat) := by
  by_cases h : n < 0
  · rw [intToHex_neg h]; simp; omega
  · obtain ⟨m, rfl⟩ : ∃ m : Nat, n = m := ⟨n.toNat, by omega⟩
    rw [intToHex_nat]; simp [eq_comm]

/-! ## int(x, 16) on hex text -/

theorem alnumVal_hex {n : Nat} (h : n < 16) : alnumVal (hexDigits.getD n '?') = some n := by
  revert n; decide +kernel

theorem hexDigit_props {c : Char} (h : c ∈ hexDigits) :
    c.toNat < 128 ∧ isAsciiSpace c = false ∧ c ≠ '_' ∧ c ≠ 'x' ∧ c ≠ 'X' ∧ c ≠ '-' ∧ c ≠ '+' ∧ c ≠ ' ' := by
  revert c; decide

theorem toAsciiNum_id (u : UniDB) {s : Str} (h : ∀ c ∈ s, c.toNat < 128) : toAsciiNum u s = s := by
  induction s with
  | nil => rfl
  | cons a s ih =>
    have ha := h a (by simp)
    simp only [toAsciiNum, asciiNumChar, List.map_cons, ha, if_true] at *
    rw [ih fun c hc => h c (by simp [hc])]

theorem dropWhile_false {α : Type} {p : α → Bool} {l : List α} (h : ∀ x ∈ l, p x = false) :
    l.dropWhile p = l := by
  cases l with
  | nil => rfl
  | cons a l => simp [List.dropWhile, h a (by simp)]

theorem stripWs_id {s : Str} (h : ∀ c ∈ s, isAsciiSpace c = false) : stripWs s = s := by
  unfold stripWs
  rw [dropWhile_false h, dropWhile_false (by simpa using h), List.reverse_reverse]

theorem scanDigits_hex (b : Bytes) (acc : Nat) (f : Bool) (h : b ≠ []) :
    scanDigits 16 acc f (hex b) = some (acc * 256 ^ b.length + beNat b) := by
  induction b generalizing acc f with
  | nil => simp at h
  | cons x r ih =>
    have hx := x.toNat_lt
    have hm : ∀ n < 16, hexDigits.getD n '?' ≠ '_' := by decide
    have e1 : x.toNat / 16 < 16 := by omega
    have e2 : x.toNat % 16 < 16 := by omega
    have step : scanDigits 16 acc f (hex (x :: r)) =
        scanDigits 16 ((acc * 16 + x.toNat / 16) * 16 + x.toNat % 16) true (hex r) := by
      simp only [hex_cons, hexByte, List.cons_append, List.nil_append, scanDigits]
      rw [if_neg (hm _ e1), alnumVal_hex e1]
      simp only [e1, if_true]
      rw [if_neg (hm _ e2), alnumVal_hex e2]
      simp only [e2, if_true]
    rw [step]
    have e3 : (acc * 16 + x.toNat / 16) * 16 + x.toNat % 16 = acc * 256 + x.toNat := by omega
    rw [e3]
    by_cases hr : r = []
    · subst hr; simp [scanDigits, beNat]
    · rw [ih _ _ hr]; simp only [beNat, List.length_cons, pow_succ]; congr 1; ring

theorem scanPrefix_noX (b : Nat) {s : Str} (h : ∀ c ∈ s, c ≠ 'x' ∧ c ≠ 'X') :
    scanPrefix b s = scanDigits b 0 false s := by
  unfold scanPrefix
  split
  · rename_i x rest
    have := h x (by simp)
    simp [this.1, this.2]
  · rfl

theorem pyInt_plain (u : UniDB) (b : Nat) {s : Str}
    (h1 : ∀ c ∈ s, c.toNat < 128 ∧ isAsciiSpace c = false ∧ c ≠ 'x' ∧ c ≠ 'X' ∧ c ≠ '-' ∧ c ≠ '+') :
    pyInt u b s = match scanDigits b 0 false s with
      | some n => .ok (n : Int)
      | none => .error .valueError := by
  unfold pyInt
  rw [toAsciiNum_id u fun c hc => (h1 c hc).1, stripWs_id fun c hc => (h1 c hc).2.1]
  have hp : scanPrefix b s = scanDigits b 0 false s :=
    scanPrefix_noX b fun c hc => ⟨(h1 c hc).2.2.1, (h1 c hc).2.2.2.1⟩
  split
  · rename_i r; exact absurd rfl (h1 '-' (by simp)).2.2.2.2.1
  · rename_i r; exact absurd rfl (h1 '+' (by simp)).2.2.2.2.2
  · rw [hp]; cases scanDigits b 0 false s <;> rfl

theorem pyInt_hex (u : UniDB) {b : Bytes} (h : b ≠ []) : pyInt u 16 (hex b) = .ok (beNat b : Int) := by
  rw [pyInt_plain u 16 fun c hc => by
    have := hexDigit_props (hex_mem b c hc); tauto]
  rw [scanDigits_hex b 0 false h]; simp

@[simp] theorem pyInt_nil (u : UniDB) (b : Nat) : pyInt u b [] = .error .valueError := by
  simp [pyInt, toAsciiNum, stripWs, scanPrefix, scanDigits]

theorem hexToInt_hex (u : UniDB) {b : Bytes} (h : b ≠ []) : hexToInt u (hex b) = .ok (beNat b : Int) :=
  pyInt_hex u h

theorem hexLeToInt_hex (u : UniDB) {b : Bytes} (h : b ≠ []) :
    hexLeToInt u (hex b) = .ok (leNat b : Int) := by
  simp only [hexLeToInt, reverseHexOrder_hex, R_bind_ok]
  rw [hexToInt_hex u (by simpa using h), beNat_reverse]

theorem fromHex_hex (b : Bytes) : fromHex (hex b) = .ok b := by
  induction b with
  | nil => rfl
  | cons x r ih =>
    have hx := x.toNat_lt
    have e1 : x.toNat / 16 < 16 := by omega
    have e2 : x.toNat % 16 < 16 := by omega
    have hv : ∀ n < 16, hexVal (hexDigits.getD n '?') = some n ∧ hexDigits.getD n '?' ≠ ' ' := by
      decide +kernel
    simp only [hex_cons, hexByte, List.cons_append, List.nil_append, fromHex]
    rw [if_neg (hv _ e1).2, (hv _ e1).1, (hv _ e2).1]
    have : 16 * (x.toNat / 16) + x.toNat % 16 = x.toNat := by omega
    simp [ih, Except.map, this]

/-! ## padding -/

theorem rep_hex00 (k : Nat) : rep k py"00" = hex (List.replicate k 0) := by
  induction k with
  | zero => rfl
  | succ k ih =>
    simp only [rep, List.replicate_succ, List.flatten_cons] at *
    rw [ih]; rfl

theorem padHexLe_hex (b : Bytes) (k : Int) :
    padHexLe (hex b) k = if (b.length : Int) ≤ k
      then .ok (hex (b ++ List.replicate (k.toNat - b.length) 0)) else .error .valueError := by
  simp only [padHexLe, vHex_hex, hexLen_hex, R_bind_ok]
  by_cases h : (b.length : Int) ≤ k
  · rw [if_neg (by omega), if_pos h]
    simp only [R_pure, R_bind_ok, rep_hex00, hex_append]
    have e : (k - (b.length : Int)).toNat = k.toNat - b.length := by omega
    split
    · rw [e]
    · have : k.toNat - b.length = 0 := by omega
      simp [this]
  · rw [if_pos (by omega), if_neg h]; rfl

theorem padHex_hex (b : Bytes) (k : Int) :
    padHex (hex b) k = if (b.length : Int) ≤ k
      then .ok (hex (List.replicate (k.toNat - b.length) 0 ++ b)) else .error .valueError := by
  simp only [padHex, vHex_hex, hexLen_hex, R_bind_ok]
  by_cases h : (b.length : Int) ≤ k
  · rw [if_neg (by omega), if_pos h]
    simp only [R_pure, R_bind_ok, rep_hex00, hex_append]
    have e : (k - (b.length : Int)).toNat = k.toNat - b.length := by omega
    split
    · rw [e]
    · have : k.toNat - b.length = 0 := by omega
      simp [this]
  · rw [if_pos (by omega), if_neg h]; rfl

theorem padHexLe_not {s : Str} (h : ¬ IsHex s) (k : Int) : padHexLe s k = .error .valueError := by
  simp [padHexLe, vHex_not h]

theorem padHex_not {s : Str} (h : ¬ IsHex s) (k : Int) : padHex s k = .error .valueError := by
  simp [padHex, vHex_not h]

theorem intToHexLe_nat (n : Nat) : intToHexLe (n : Int) = .ok (hex (minBytes n).reverse) := by
  simp only [intToHexLe, intToHex_nat, R_bind_ok, reverseHexOrder_hex]

theorem intToHexLe_neg {n : Int} (h : n < 0) : intToHexLe n = .error .valueError := by
  simp [intToHexLe, intToHex_neg h]

/-- `pad_hex_le(int_to_hex_le(n), k)` -/
theorem leField_nat {n k : Nat} (hk : 0 < k) (h : n < 256 ^ k) :
    (intToHexLe (n : Int) >>= fun x => padHexLe x k) = .ok (hex (leBytes k n)) := by
  have hlen := minBytes_length_le hk h
  rw [intToHexLe_nat, R_bind_ok, padHexLe_hex, if_pos (by simpa using hlen)]
  congr 2
  apply leNat_inj
  · simp; omega
  · rw [leNat_append, leNat_reverse, beNat_minBytes, leNat_replicate_zero, leNat_leBytes h]; simp

theorem leField_big {n k : Nat} (h : 256 ^ k ≤ n) :
    (intToHexLe (n : Int) >>= fun x => padHexLe x k) = .error .valueError := by
  have hlen := minBytes_length_gt h
  rw [intToHexLe_nat, R_bind_ok, padHexLe_hex, if_neg (by simp; omega)]

theorem leField_ok {n : Int} {k : Nat} (hk : 0 < k) {s : Str} :
    (intToHexLe n >>= fun x => padHexLe x k) = .ok s ↔
      0 ≤ n ∧ n < 256 ^ k ∧ s = hex (leBytes k n.toNat) := by
  by_cases h : n < 0
  · rw [intToHexLe_neg h]; simp; omega
  obtain ⟨m, rfl⟩ : ∃ m : Nat, n = m := ⟨n.toNat, by omega⟩
  by_cases h2 : m < 256 ^ k
  · rw [leField_nat hk h2]
    have : ((m : Int) < 256 ^ k) := by exact_mod_cast h2
    simp [this, eq_comm]
  · rw [leField_big (by omega)]
    have : ¬ ((m : Int) < 256 ^ k) := by intro hc; exact h2 (by exact_mod_cast hc)
    simp [this]

/-! ## var_int -/

theorem vIntegerDomain_ok {n lo hi : Int} {x : Unit} (h : lo ≤ hi) :
    vIntegerDomain n lo hi = .ok x ↔ lo ≤ n ∧ n ≤ hi := by
  unfold vIntegerDomain
  rw [if_neg (by omega)]
  simp only [R_pure, R_bind_ok]
  split
  · simp [*]
  · split
    · simp; omega
    · split
      · simp; omega
      · omega

theorem vIntegerDomain_eq {n lo hi : Int} (h : lo ≤ hi) :
    vIntegerDomain n lo hi = if lo ≤ n ∧ n ≤ hi then .ok () else .error .valueError := by
  unfold vIntegerDomain
  rw [if_neg (by omega)]
  simp only [R_pure, R_bind_ok]
  split
  · rfl
  · split
    · rfl
    · rw [if_pos (by omega)]; rfl

theorem minBytes_small {n : Nat} (h : n < 256) : minBytes n = [UInt8.ofNat n] := by
  apply beNat_inj
  · have h1 := minBytes_length_le (k := 1) (by omega) (by simpa using h)
    have h2 := minBytes_ne_nil n
    have : (minBytes n).length ≠ 0 := by simpa using h2
    simp; omega
  · rw [beNat_minBytes]; simp [beNat, Nat.mod_eq_of_lt h]

theorem intToVarInt_nat {n : Nat} (h : n ≤ 252) : intToVarInt (n : Int) = .ok (hex [UInt8.ofNat n]) := by
  simp only [intToVarInt]
  rw [vIntegerDomain_eq (by norm_num), if_pos (by omega)]
  simp only [R_bind_ok, intToHex_nat, vHex_hex, R_pure]
  rw [minBytes_small (by omega)]

theorem intToVarInt_out {n : Int} (h : n < 0 ∨ 252 < n) : intToVarInt n = .error .valueError := by
  simp only [intToVarInt]
  rw [vIntegerDomain_eq (by norm_num), if_neg (by omega)]; rfl

theorem intToVarInt_ok {n : Int} {s : Str} :
    intToVarInt n = .ok s ↔ 0 ≤ n ∧ n ≤ 252 ∧ s = hex [UInt8.ofNat n.toNat] := by
  by_cases h : n < 0 ∨ 252 < n
  · rw [intToVarInt_out h]; simp; omega
  · obtain ⟨m, rfl⟩ : ∃ m : Nat, n = m := ⟨n.toNat, by omega⟩
    rw [intToVarInt_nat (by omega)]
    simp [eq_comm]; omega

theorem varIntToInt_hex (u : UniDB) (x : UInt8) :
    varIntToInt u (hex [x]) = if x.toNat ≤ 252 then .ok (x.toNat : Int) else .error .valueError := by
  have hx := x.toNat_lt
  unfold varIntToInt
  rw [vHexLength_hex]
  simp only [List.length_singleton, Nat.cast_one, if_true, R_bind_ok]
  by_cases h : x.toNat ≤ 252
  · have hne : ¬ (hex [x] = py"fd" ∨ hex [x] = py"fe" ∨ hex [x] = py"ff") := by
      have e1 : py"fd" = hex [253] := by decide
      have e2 : py"fe" = hex [254] := by decide
      have e3 : py"ff" = hex [255] := by decide
      rw [e1, e2, e3]
      simp only [hex_inj_iff, List.cons.injEq, and_true]
      rintro (rfl | rfl | rfl) <;> simp at h
    rw [if_neg hne, if_pos h]
    simp only [R_pure, R_bind_ok]
    rw [pyInt_hex u (by simp)]
    simp only [R_bind_ok, beNat, List.length_nil, pow_zero, mul_one, add_zero]
    rw [vIntegerDomain_eq (by norm_num), if_pos (by omega)]; rfl
  · rw [if_neg h]
    have h3 : x = 253 ∨ x = 254 ∨ x = 255 := by
      have : x.toNat = 253 ∨ x.toNat = 254 ∨ x.toNat = 255 := by omega
      rcases this with h | h | h
      · left; exact UInt8.toNat.inj (by simpa using h)
      · right; left; exact UInt8.toNat.inj (by simpa using h)
      · right; right; exact UInt8.toNat.inj (by simpa using h)
    rcases h3 with rfl | rfl | rfl <;> simp [hex, hexByte, hexDigits]

theorem varIntToInt_ok (u : UniDB) {s : Str} {n : Int} :
    varIntToInt u s = .ok n ↔ ∃ x : UInt8, s = hex [x] ∧ x.toNat ≤ 252 ∧ n = x.toNat := by
  constructor
  · intro h
    have h0 := h
    unfold varIntToInt at h
    simp only [R_bind_eq_ok] at h
    obtain ⟨_, h1, _⟩ := h
    obtain ⟨b, rfl, hb⟩ := vHexLength_bytes (n := 1) h1
    obtain ⟨x, rfl⟩ := List.length_eq_one_iff.1 hb
    rw [varIntToInt_hex] at h0
    refine ⟨x, rfl, ?_⟩
    split at h0 <;> simp_all
  · rintro ⟨x, rfl, h, rfl⟩
    rw [varIntToInt_hex, if_pos h]

end BT
