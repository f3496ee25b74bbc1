import Verif.Lemmas.Address

namespace BT
open Spec

/-! # scriptSig -/

theorem slice_hex (f : Bytes) (a b : Nat) : slice (hex f) (2 * a) (2 * b) = hex (slice f a b) := by
  rw [slice, hex_drop, show 2 * b - 2 * a = 2 * (b - a) by omega, hex_take]; rfl

/-- bytes of a standard scriptSig: push of the signature, push of the uncompressed key -/
def sigScript (g p : Bytes) : Bytes := [UInt8.ofNat g.length] ++ g ++ [65, 4] ++ p

theorem scriptSigEncode_hex (g p : Bytes) (hp : p.length = 64) :
    scriptSigEncode (hex g) (hex p) = if g.length ≤ 185
      then .ok (hex (sigScript g p), hex [UInt8.ofNat (g.length + 67)]) else .error .valueError := by
  have e4 : py"04" ++ hex p = hex (4 :: p) := by rw [hex_cons]; rfl
  have hv : vHexLength (hex p) 64 = .ok () := by rw [vHexLength_hex, if_pos (by omega)]
  unfold scriptSigEncode
  simp only [vHex_hex, R_bind_ok, hv, e4, hexLen_hex]
  have e65 : intToVarInt (((4 :: p : Bytes).length : Nat) : Int) = .ok (hex [65]) := by
    rw [intToVarInt_nat (by simp [hp])]; simp [hp]
  by_cases h1 : g.length ≤ 252
  · rw [intToVarInt_nat h1]
    simp only [R_bind_ok, e65, hexLen_hex, ← hex_append]
    have hl : (([UInt8.ofNat g.length] ++ g ++ [65] ++ (4 :: p)) : Bytes).length = g.length + 67 := by
      simp [hp]
    have hs : (([UInt8.ofNat g.length] ++ g ++ [65] ++ (4 :: p)) : Bytes) = sigScript g p := by
      simp [sigScript]
    rw [hl]
    by_cases h2 : g.length ≤ 185
    · rw [intToVarInt_nat (by omega), if_pos h2]
      simp only [R_bind_ok, hexLen_hex, R_pure, hs]
    · rw [intToVarInt_out (by omega), if_neg h2]; rfl
  · rw [intToVarInt_out (by omega), if_neg (by omega)]; rfl

theorem scriptSigEncode_ok {g p s l : Str} (h : scriptSigEncode g p = .ok (s, l)) :
    ∃ gb pb : Bytes, g = hex gb ∧ p = hex pb ∧ pb.length = 64 ∧ gb.length ≤ 185 ∧
      s = hex (sigScript gb pb) ∧ l = hex [UInt8.ofNat (gb.length + 67)] := by
  have h0 := h
  unfold scriptSigEncode at h
  simp only [R_bind_eq_ok] at h
  obtain ⟨_, h1, _, h2, _⟩ := h
  obtain ⟨gb, rfl⟩ := isHex_exists (vHex_ok.1 h1)
  obtain ⟨pb, rfl, hp⟩ := vHexLength_bytes (n := 64) h2
  rw [scriptSigEncode_hex gb pb hp] at h0
  split at h0
  · rename_i hl
    simp only [Except.ok.injEq, Prod.mk.injEq] at h0
    exact ⟨gb, pb, rfl, rfl, hp, hl, h0.1.symm, h0.2.symm⟩
  · simp at h0

theorem lastK2_hex (b : Bytes) : lastK 2 (hex b) = hex (b.drop (b.length - 1)) := by
  rw [lastK, hex_length, show 2 * b.length - 2 = 2 * (b.length - 1) by omega, hex_drop]

theorem dropLastK2_hex (b : Bytes) : dropLastK 2 (hex b) = hex (b.take (b.length - 1)) := by
  rw [dropLastK, hex_length, show 2 * b.length - 2 = 2 * (b.length - 1) by omega, hex_take]

theorem varInt_nil (u : UniDB) : varIntToInt u [] = .error .valueError := by
  cases h : varIntToInt u [] with
  | ok n =>
    obtain ⟨x, hx, _⟩ := (varIntToInt_ok u).1 h
    simp [hexByte] at hx
  | error e =>
    unfold varIntToInt at h
    have : vHexLength [] 1 = .error .valueError := by
      have := vHexLength_hex [] 1; simpa using this
    rw [this] at h; simpa using h.symm

/-- a scriptSig of the accepted form -/
theorem scriptSigDecode_form (u : UniDB) (d q : Bytes) (n2 : UInt8) (hd : d.length + 1 ≤ 252)
    (h1 : 1 ≤ n2.toNat) (h2 : n2.toNat ≤ 252) :
    scriptSigDecode u (hex ([UInt8.ofNat (d.length + 1)] ++ (d ++ [1]) ++ [n2] ++ (4 :: q))) =
      .ok (hex d, hex (q.take (n2.toNat - 1))) := by
  have hn : (UInt8.ofNat (d.length + 1)).toNat = d.length + 1 := by
    rw [UInt8.toNat_ofNat', Nat.mod_eq_of_lt (by omega)]
  have hv1 : varIntToInt u (hex [UInt8.ofNat (d.length + 1)]) = .ok ((d.length + 1 : Nat) : Int) := by
    rw [varIntToInt_hex, hn, if_pos hd]
  have hv2 : varIntToInt u (hex [n2]) = .ok (n2.toNat : Int) := by
    rw [varIntToInt_hex, if_pos h2]
  unfold scriptSigDecode
  generalize hf : ([UInt8.ofNat (d.length + 1)] ++ (d ++ [1]) ++ [n2] ++ (4 :: q) : Bytes) = f
  have s1 : slice (hex f) 0 2 = hex [UInt8.ofNat (d.length + 1)] := by
    rw [show slice (hex f) 0 2 = slice (hex f) (2 * 0) (2 * 1) from rfl, slice_hex, ← hf]; simp [slice]
  have s2 : slice (hex f) 2 ((d.length + 1) * 2 + 2) = hex (d ++ [1]) := by
    rw [show slice (hex f) 2 ((d.length + 1) * 2 + 2) = slice (hex f) (2 * 1) (2 * (d.length + 2)) by
      congr 1; omega, slice_hex, ← hf]
    congr 1
    simp only [slice, List.cons_append, List.nil_append, List.append_assoc, List.drop_succ_cons, List.drop_zero]
    rw [show d.length + 2 - 1 = (d ++ [1]).length by simp]
    rw [show (d ++ 1 :: n2 :: 4 :: q : Bytes) = (d ++ [1]) ++ (n2 :: 4 :: q) by simp, List.take_left]
  have s3 : slice (hex f) ((d.length + 1) * 2 + 2) ((d.length + 1) * 2 + 2 + 2) = hex [n2] := by
    rw [show slice (hex f) ((d.length + 1) * 2 + 2) ((d.length + 1) * 2 + 2 + 2)
      = slice (hex f) (2 * (d.length + 2)) (2 * (d.length + 3)) by congr 1 <;> omega, slice_hex, ← hf]
    congr 1
    have e : ([UInt8.ofNat (d.length + 1)] ++ (d ++ [1]) ++ [n2] ++ (4 :: q) : Bytes) =
      ([UInt8.ofNat (d.length + 1)] ++ (d ++ [1])) ++ (n2 :: 4 :: q) := by simp
    have hl : d.length + 2 = ([UInt8.ofNat (d.length + 1)] ++ (d ++ [1]) : Bytes).length := by simp
    rw [slice, e, hl, List.drop_left, ← hl, show d.length + 3 - (d.length + 2) = 1 by omega]; rfl
  have s4 : slice (hex f) ((d.length + 1) * 2 + 2 + 2) ((d.length + 1) * 2 + 2 + 2 + n2.toNat * 2)
      = hex ((4 :: q).take n2.toNat) := by
    rw [show slice (hex f) ((d.length + 1) * 2 + 2 + 2) ((d.length + 1) * 2 + 2 + 2 + n2.toNat * 2)
      = slice (hex f) (2 * (d.length + 3)) (2 * (d.length + 3 + n2.toNat)) by congr 1 <;> omega,
      slice_hex, ← hf]
    congr 1
    have hl : d.length + 3 = ([UInt8.ofNat (d.length + 1)] ++ (d ++ [1]) ++ [n2] : Bytes).length := by
      simp
    rw [slice, hl, List.drop_left, ← hl, show d.length + 3 + n2.toNat - (d.length + 3) = n2.toNat by omega]
  obtain ⟨k, hk⟩ : ∃ k, n2.toNat = k + 1 := ⟨n2.toNat - 1, by omega⟩
  simp only [vHex_hex, R_bind_ok, s1, hv1, Int.toNat_natCast, s2, hexLen_hex, s3, hv2, s4, lastK2_hex,
    dropLastK2_hex]
  have t1 : (d ++ [1]).drop ((d ++ [1]).length - 1) = ([1] : Bytes) := by simp
  have t2 : (d ++ [1]).take ((d ++ [1]).length - 1) = d := by simp
  have t3 : (hex (List.take n2.toNat (4 :: q))).take 2 = py"04" := by
    rw [show (2 : Nat) = 2 * 1 from rfl, hex_take, hk]; simp [hexByte, hexDigits]
  have t4 : (hex (List.take n2.toNat (4 :: q))).drop 2 = hex (q.take (n2.toNat - 1)) := by
    rw [show (2 : Nat) = 2 * 1 from rfl, hex_drop, hk]; simp
  have t5 : hex [1] = py"01" := by decide
  rw [t1, t2, t3, t4, t5]
  simp

theorem scriptSigDecode_ok (u : UniDB) {s ds ps : Str} :
    scriptSigDecode u s = .ok (ds, ps) ↔ ∃ (d q : Bytes) (n2 : UInt8),
      s = hex ([UInt8.ofNat (d.length + 1)] ++ (d ++ [1]) ++ [n2] ++ (4 :: q)) ∧
      d.length + 1 ≤ 252 ∧ 1 ≤ n2.toNat ∧ n2.toNat ≤ 252 ∧
      ds = hex d ∧ ps = hex (q.take (n2.toNat - 1)) := by
  constructor
  · intro h
    unfold scriptSigDecode at h
    simp only [R_bind_eq_ok] at h
    obtain ⟨_, h1, n, h2, _, _, n2, h3, _, _, h4⟩ := h
    obtain ⟨f, rfl⟩ := isHex_exists (vHex_ok.1 h1)
    obtain ⟨x, hx, hx2, rfl⟩ := (varIntToInt_ok u).1 h2
    obtain ⟨y, hy, hy2, rfl⟩ := (varIntToInt_ok u).1 h3
    simp only [Int.toNat_natCast] at h3 h4 hy
    rw [show slice (hex f) 0 2 = slice (hex f) (2 * 0) (2 * 1) from rfl, slice_hex, hex_inj_iff] at hx
    rw [show slice (hex f) (x.toNat * 2 + 2) (x.toNat * 2 + 2 + 2)
      = slice (hex f) (2 * (x.toNat + 1)) (2 * (x.toNat + 2)) by congr 1 <;> omega,
      slice_hex, hex_inj_iff] at hy
    rw [show slice (hex f) 2 (x.toNat * 2 + 2) = slice (hex f) (2 * 1) (2 * (x.toNat + 1)) by
      congr 1; omega, slice_hex,
      show slice (hex f) (x.toNat * 2 + 2 + 2) (x.toNat * 2 + 2 + 2 + y.toNat * 2)
      = slice (hex f) (2 * (x.toNat + 2)) (2 * (x.toNat + 2 + y.toNat)) by congr 1 <;> omega,
      slice_hex, lastK2_hex, dropLastK2_hex] at h4
    -- decompose f
    cases f with
    | nil => simp [slice] at hx
    | cons a t =>
      simp [slice] at hx
      subst hx
      have hy' : (t.drop a.toNat).take 1 = [y] := by
        have : a.toNat + 2 - (a.toNat + 1) = 1 := by omega
        simpa [slice, this] using hy
      obtain ⟨rest, hr⟩ : ∃ rest, t.drop a.toNat = y :: rest := by
        cases ht : t.drop a.toNat with
        | nil => rw [ht] at hy'; simp at hy'
        | cons z rest => rw [ht] at hy'; simp at hy'; exact ⟨rest, by rw [hy']⟩
      have ht : t = t.take a.toNat ++ y :: rest := by rw [← hr, List.take_append_drop]
      have hlt : (t.take a.toNat).length = a.toNat := by
        have := congrArg List.length hr
        simp at this ⊢; omega
      have hrest : (a :: t).drop (a.toNat + 2) = rest := by
        have : t.drop (a.toNat + 1) = rest := by
          rw [← List.drop_drop, hr]; rfl
        simpa using this
      generalize t.take a.toNat = g at *
      have hsl1 : slice (a :: t) 1 (a.toNat + 1) = g := by
        rw [ht, slice]; simp [← hlt]
      have hsl2 : slice (a :: t) (a.toNat + 2) (a.toNat + 2 + y.toNat) = rest.take y.toNat := by
        rw [slice, hrest]; congr 1; omega
      rw [hsl1, hsl2] at h4
      have hd1 : (hex (List.take y.toNat rest)).take 2 = hex ((rest.take y.toNat).take 1) := by
        rw [show (2 : Nat) = 2 * 1 from rfl, hex_take]
      have hd2 : (hex (List.take y.toNat rest)).drop 2 = hex ((rest.take y.toNat).drop 1) := by
        rw [show (2 : Nat) = 2 * 1 from rfl, hex_drop]
      rw [hd1, hd2] at h4
      have h01 : py"01" = hex [1] := by decide
      have h04 : py"04" = hex [4] := by decide
      rw [h01, h04] at h4
      simp only [ne_eq, hex_inj_iff] at h4
      split at h4
      · simp at h4
      rename_i hg
      simp only [R_pure, R_bind_ok, hexLen_hex] at h4
      split at h4
      · simp at h4
      rename_i hp
      simp only [R_pure, R_bind_ok, hexLen_hex, Except.ok.injEq, Prod.mk.injEq] at h4
      simp only [not_not] at hg hp
      have hgl : g = g.take (g.length - 1) ++ [1] := by
        conv_lhs => rw [← List.take_append_drop (g.length - 1) g, hg]
      have hgpos : 0 < g.length := by
        cases g with
        | nil => simp at hg
        | cons => simp
      have hdl : (g.take (g.length - 1)).length + 1 = g.length := by simp; omega
      obtain ⟨q, hq⟩ : ∃ q, rest = 4 :: q := by
        cases rest with
        | nil => simp at hp
        | cons z q =>
          have hy1 : y.toNat ≠ 0 := by intro h0; rw [h0] at hp; simp at hp
          obtain ⟨k, hk⟩ : ∃ k, y.toNat = k + 1 := ⟨y.toNat - 1, by omega⟩
          rw [hk] at hp; simp at hp; exact ⟨q, by rw [hp]⟩
      have hy1 : y.toNat ≠ 0 := by intro h0; rw [h0] at hp; simp at hp
      obtain ⟨k, hk⟩ : ∃ k, y.toNat = k + 1 := ⟨y.toNat - 1, by omega⟩
      refine ⟨g.take (g.length - 1), q, y, ?_, by omega, by omega, hy2, h4.1.symm, ?_⟩
      · rw [hdl, ← hgl, hlt, UInt8.ofNat_toNat, ht, hq]; simp
      · rw [← h4.2, hq, hk]; simp
  · rintro ⟨d, q, n2, rfl, hd, h1, h2, rfl, rfl⟩
    exact scriptSigDecode_form u d q n2 hd h1 h2

theorem varIntToInt_err (u : UniDB) {s : Str} {e : Err} (h : varIntToInt u s = .error e) :
    e = .valueError := by
  by_cases hh : IsHex s ∧ s.length = 2
  · obtain ⟨h1, h2⟩ := hh
    obtain ⟨b, rfl⟩ := isHex_exists h1
    obtain ⟨x, rfl⟩ := List.length_eq_one_iff.1 (show b.length = 1 by simp at h2; omega)
    rw [varIntToInt_hex] at h
    split at h <;> simp_all
  · unfold varIntToInt at h
    cases hv : vHexLength s 1 with
    | ok u =>
      obtain ⟨h1, h2⟩ := vHexLength_ok.1 hv
      exact absurd ⟨h1, by omega⟩ hh
    | error e' =>
      rw [hv] at h
      have := vHexLength_err hv
      simp at h; rw [← h, this]

theorem varIntToInt_VE (u : UniDB) (s : Str) : VE (varIntToInt u s) := fun _ h => varIntToInt_err u h

theorem scriptSigDecode_VE (u : UniDB) (s : Str) : VE (scriptSigDecode u s) := by
  unfold scriptSigDecode
  refine (vHex_VE _).bind fun _ _ => (varIntToInt_VE _ _).bind fun _ _ => (hexLen_VE _).bind fun _ _ =>
    (varIntToInt_VE _ _).bind fun _ _ => (hexLen_VE _).bind fun _ _ => VE.ite (fun _ => VE.err)
    fun _ => (hexLen_VE _).bind fun _ _ => VE.ite (fun _ => VE.err) fun _ =>
    (hexLen_VE _).bind fun _ _ => VE.ok _

end BT
