import Verif.Props.EcdsaForm

/-!
# C149: nobody can change the transaction id of a printed transaction

The rules by which a node accepts a script are those of `RealSpec` (strict DER, low s).
-/

namespace BT.Spec
open BT.Concrete WeierstrassCurve

/-- As `ValidSpend`, with the public key and the two halves of the signature named. -/
def SpendWith (owner msg script pk : Bytes) (r s : Nat) : Prop :=
  ∃ (der : Bytes) (Q : curve.Point),
    script = [UInt8.ofNat (der.length + 1)] ++ der ++ [1] ++ [65, 4] ++ pk ∧ der.length ≤ 72 ∧
    DerSignature r s der ∧ KeyBytes pk Q ∧ ripemd160 (sha256 (4 :: pk)) = owner ∧
    EcdsaValid Q (beNat (sha256 (sha256 msg))) r s ∧ 2 * s ≤ nP

/-- An input without its script: the coin it refers to. -/
def RawIn.blank (i : RawIn) : RawIn := { i with script := [] }

/-- If another transaction with the same payments and the same coins is acceptable too, and its signatures have the same first halves (from p - n on), then it is this
transaction - unless a key with the same hash as the public key of one of the private keys `keys` has been found. -/
def Fixed (keys : List Str) (spent : List Coin) (ins : List RawIn) (outs : List RawOut) : Prop :=
  ∀ ins' : List RawIn, ins'.map RawIn.blank = ins.map RawIn.blank →
    (∀ (j : Nat) (c : Coin) (i i' : RawIn), spent[j]? = some c → ins[j]? = some i → ins'[j]? = some i' →
      ∃ pk pk' r s s', SpendWith c.owner (signedMessage ins outs j c.owner) i.script pk r s ∧ SpendWith c.owner (signedMessage ins' outs j c.owner) i'.script pk' r s' ∧ pP - nP ≤ r) →
    ins' = ins ∨
      ∃ (key : Str) (pk pk' : Bytes) (i : RawIn), key ∈ keys ∧ Xreal.pubKey key = .ok (hex pk) ∧ i ∈ ins ++ ins' ∧ pk' <:+ i.script ∧ pk'.length = 64 ∧ pk ≠ pk' ∧
        ripemd160 (sha256 (4 :: pk)) = ripemd160 (sha256 (4 :: pk'))

end BT.Spec

namespace BT
open Spec Concrete WeierstrassCurve EcdsaForm

attribute [local irreducible] ecMul invMod hex32 pP nP gX gY rfcNonce ofHex ecVerify sha256 ripemd160 derEnc

namespace TxidFixed

theorem validSpend_iff {owner msg script : Bytes} : ValidSpend owner msg script ↔ ∃ pk r s, SpendWith owner msg script pk r s := by
  constructor
  · rintro ⟨der, pk, r, s, Q, h⟩
    exact ⟨pk, r, s, der, Q, h⟩
  · rintro ⟨pk, r, s, der, Q, h⟩
    exact ⟨der, pk, r, s, Q, h⟩

/-- a number has only one shortest form -/
theorem shortest {x x' : UInt8} {c c' : Bytes} (h : beNat (x :: c) = beNat (x' :: c')) (hx : x.toNat < 128) (h0' : x' = 0 → ∀ y ∈ c'.head?, 128 ≤ y.toNat)
    : ¬ c.length < c'.length := by
  intro hl
  have cons : ∀ (y : UInt8) (l : Bytes), beNat (y :: l) = y.toNat * 256 ^ l.length + beNat l := fun y l => rfl
  have lt := beNat_lt c
  have e1 : beNat (x :: c) < 128 * 256 ^ c.length := by
    rw [cons]
    have : x.toNat * 256 ^ c.length ≤ 127 * 256 ^ c.length := Nat.mul_le_mul_right _ (by omega)
    omega
  by_cases hz : x' = 0
  · cases c' with
    | nil => simp at hl
    | cons y l =>
      have hy := h0' hz y (by simp)
      have hl' : c.length ≤ l.length := by simp at hl; omega
      have e2 : 128 * 256 ^ l.length ≤ beNat (x' :: y :: l) := by
        rw [cons x', cons y]
        have : 128 * 256 ^ l.length ≤ y.toNat * 256 ^ l.length := Nat.mul_le_mul_right _ hy
        omega
      have e3 : 256 ^ c.length ≤ 256 ^ l.length := Nat.pow_le_pow_right (by omega) hl'
      omega
  · have hx0 : 1 ≤ x'.toNat := by
      rcases Nat.eq_zero_or_pos x'.toNat with h | h
      · exact absurd (UInt8.toNat_inj.1 (by simpa using h)) hz
      · exact h
    have e2 : 1 * 256 ^ c'.length ≤ beNat (x' :: c') := by
      rw [cons]
      have : 1 * 256 ^ c'.length ≤ x'.toNat * 256 ^ c'.length := Nat.mul_le_mul_right _ hx0
      omega
    have e3 : 256 ^ (c.length + 1) ≤ 256 ^ c'.length := Nat.pow_le_pow_right (by omega) hl
    rw [Nat.pow_succ] at e3
    omega

theorem derInteger_unique {n : Nat} {b b' : Bytes} (h : DerInteger n b) (h' : DerInteger n b') : b = b' := by
  obtain ⟨x, c, rfl, l1, v1, s1, m1⟩ := h
  obtain ⟨x', c', rfl, l2, v2, s2, m2⟩ := h'
  have hv : beNat (x :: c) = beNat (x' :: c') := v1.trans v2.symm
  have a1 := shortest hv s1 m2
  have a2 := shortest hv.symm s2 m1
  have hl : c.length = c'.length := by omega
  have := beNat_inj (by simp [hl]) hv
  rw [List.cons.injEq] at this
  rw [this.1, this.2]

theorem derSignature_unique {r s : Nat} {b b' : Bytes} (h : DerSignature r s b) (h' : DerSignature r s b') : b = b' := by
  obtain ⟨br, bs, h1, h2, rfl, _⟩ := h
  obtain ⟨br', bs', h1', h2', rfl, _⟩ := h'
  rw [derInteger_unique h1 h1', derInteger_unique h2 h2']

/-- two valid scripts with the same key and the same first half are the same -/
theorem spend_unique {owner msg script script' pk : Bytes} {r s s' d : Nat} (hd : KeyBytes pk (d • G)) (big : pP - nP ≤ r)
    (h : SpendWith owner msg script pk r s) (h' : SpendWith owner msg script' pk r s') : script = script' := by
  obtain ⟨der, Q, rfl, _, e1, e2, _, e3, e4⟩ := h
  obtain ⟨der', Q', rfl, _, f1, f2, _, f3, f4⟩ := h'
  rw [keyBytes_unique e2 hd] at e3
  rw [keyBytes_unique f2 hd] at f3
  have := low_unique big e3 f3 e4 f4
  subst this
  rw [derSignature_unique e1 f1]

theorem bitsMSB_mod (k n m : Nat) (h : k ≤ m) : bitsMSB k (n % 2 ^ m) = bitsMSB k n := by
  induction k with
  | zero => rfl
  | succ k ih =>
    rw [bitsMSB, bitsMSB, ih (by omega), Nat.testBit_mod_two_pow]
    simp only [show k < m by omega, decide_true, Bool.true_and]

/-- a public key that the library gives is that of a private key -/
theorem pub_point {key : Str} {pk : Bytes} (h : Xreal.pubKey key = .ok (hex pk)) : ∃ d : Nat, KeyBytes pk (d • G) := by
  have h : pubOf key = .ok (hex pk) := h
  obtain ⟨x, y, e1, e2⟩ := pubOf_ok h
  have hm : ecMul (ofHex key % 2 ^ 256) gX gY = some (x, y) := by
    rw [← e1]
    unfold ecMul
    rw [bitsMSB_mod _ _ _ (Nat.le_refl _)]
  have rep := mulG_rep (k := ofHex key % 2 ^ 256) (Nat.mod_lt _ (by positivity))
  rw [hm] at rep
  obtain ⟨hx, hy, hn, e⟩ := rep
  obtain ⟨b1, f1, l1, w1⟩ := hex32_bytes x
  obtain ⟨b2, f2, l2, w2⟩ := hex32_bytes y
  rw [f1, f2, ← hex_append, hex_inj_iff] at e2
  subst e2
  have hp := pP_lt
  rw [Nat.mod_eq_of_lt (by omega)] at w1 w2
  refine ⟨ofHex key % 2 ^ 256, by simp [l1, l2], ?_, ?_, ?_⟩
  · rw [List.take_left' l1, w1]; exact hx
  · rw [List.drop_left' l1, w2]; exact hy
  · rw [List.take_left' l1, List.drop_left' l1, w1, w2]; exact ⟨hn, e⟩

theorem message_blank {ins ins' : List RawIn} (h : ins'.map RawIn.blank = ins.map RawIn.blank) (outs : List RawOut) (j : Nat) (owner : Bytes) :
    signedMessage ins' outs j owner = signedMessage ins outs j owner := by
  have key : ∀ l : List RawIn, (l.mapIdx fun k r => { r with script := if k = j then p2pkh owner else [] }) =
      ((l.map RawIn.blank).mapIdx fun k r => ({ r with script := if k = j then p2pkh owner else [] } : RawIn)) := by
    intro l
    apply List.ext_getElem?
    intro k
    simp only [List.getElem?_mapIdx, List.getElem?_map]
    cases l[k]? <;> rfl
  unfold signedMessage
  rw [key ins', h, ← key ins]

theorem fixed {keys : List Str} {spent : List Coin} {ins : List RawIn} {outs : List RawOut} (h4 : List.Forall₂ Coin.SpentBy spent ins)
    (hkeys : ∀ c ∈ spent, ∃ key ∈ keys, KeyOf Xreal key c.owner) : Fixed keys spent ins outs := by
  intro ins' hb hall
  by_cases hcol : ∃ (key : Str) (pk pk' : Bytes) (i : RawIn), key ∈ keys ∧ Xreal.pubKey key = .ok (hex pk) ∧ i ∈ ins ++ ins' ∧ pk' <:+ i.script ∧ pk'.length = 64 ∧ pk ≠ pk' ∧
      ripemd160 (sha256 (4 :: pk)) = ripemd160 (sha256 (4 :: pk'))
  · exact .inr hcol
  · left
    apply List.ext_getElem?
    intro j
    have hbj : (ins'.map RawIn.blank)[j]? = (ins.map RawIn.blank)[j]? := by rw [hb]
    rw [List.getElem?_map, List.getElem?_map] at hbj
    cases hi' : ins'[j]? with
    | none =>
      rw [hi'] at hbj
      cases hi : ins[j]? with
      | none => rfl
      | some i => rw [hi] at hbj; simp at hbj
    | some i' =>
      rw [hi'] at hbj
      cases hi : ins[j]? with
      | none => rw [hi] at hbj; simp at hbj
      | some i =>
        rw [hi] at hbj
        simp only [Option.map_some, Option.some.injEq] at hbj
        obtain ⟨hjl, _⟩ := List.getElem?_eq_some_iff.1 hi
        have hjs : j < spent.length := by rw [h4.length_eq]; exact hjl
        have hc : spent[j]? = some spent[j] := List.getElem?_eq_getElem hjs
        obtain ⟨pk, pk', r, s, s', v, v', big⟩ := hall j _ i i' hc hi hi'
        obtain ⟨key, hk, pk0, hp0, ho⟩ := hkeys _ (List.getElem_mem hjs)
        have ho : ripemd160 (sha256 (4 :: pk0)) = spent[j].owner := ho
        have same : ∀ (q : Bytes) (x : RawIn) (m : Bytes) (r s : Nat), x ∈ ins ++ ins' → SpendWith spent[j].owner m x.script q r s → q = pk0 := by
          intro q x m r s hx hw
          by_contra hne
          obtain ⟨der, Q, e, _, _, hq, hh, _⟩ := hw
          exact hcol ⟨key, pk0, q, x, hk, hp0, hx, by rw [e]; exact List.suffix_append _ _, hq.1, fun e => hne e.symm, by rw [ho, hh]⟩
        have e1 := same pk i _ r s (List.mem_append_left _ (List.mem_of_getElem? hi)) v
        have e2 := same pk' i' _ r s' (List.mem_append_right _ (List.mem_of_getElem? hi')) v'
        subst e1
        subst e2
        rw [message_blank hb] at v'
        obtain ⟨d, hd⟩ := pub_point hp0
        have hs := spend_unique hd big v v'
        congr 1
        cases i with
        | mk a1 a2 a3 =>
          cases i' with
          | mk b1 b2 b3 =>
            simp only [RawIn.blank, RawIn.mk.injEq, and_true] at hbj
            simp only at hs
            rw [hbj.1, hbj.2, hs]

end TxidFixed

open TxidFixed

/-- **C149** for the one-shot task: every input of the printed transaction is acceptable, and no other acceptable transaction with these payments, coins and first halves exists. -/
theorem C149_one_shot (a : CliArgs) (out : List Str) (hrun : cliOneShot Xreal a = (out, .ok ())) :
    ∃ (spent : List Coin) (ins : List RawIn) (outs : List RawOut), out = [hex (txBytes ins outs)] ∧ spent ≠ [] ∧ List.Forall₂ Coin.SpentBy spent ins ∧
      (∀ (j : Nat) (c : Coin) (i : RawIn), spent[j]? = some c → ins[j]? = some i → ∃ pk r s, SpendWith c.owner (signedMessage ins outs j c.owner) i.script pk r s) ∧
      Fixed a.privateKeysHex spent ins outs := by
  obtain ⟨coins, spent, unused, asked, paid, ins, outs, fee, insD, outsD, design, ca, owner, _, _, _, _, _, _, _, h3, h4, _, h6, _, _,
    _, _, _, _, _, _, hkeys, h7⟩ := C74_end_to_end Xreal_laws a out hrun
  exact ⟨spent, ins, outs, h3, h6, h4, fun j c i hj hi => validSpend_iff.1 (unlocks_real (h7 j c i hj hi)), fixed h4 hkeys⟩

/-- **C149** for the whole program: the same for what a run with exit status 0 has printed, with the keys that it has read. -/
theorem C149_program (fs : FS) (sh : Shell) (setup : R Unit) (r : RawArgs)
    (ht : r.task = py"create_transaction" ∨ r.task = py"create_sign_and_verify_transaction_hex")
    (hrun : exitStatus (cliRun Xreal fs sh setup r) = 0) :
    ∃ (keys : List Str) (spent : List Coin) (ins : List RawIn) (outs : List RawOut), loadKeys Xreal fs r = .ok keys ∧
      (cliRun Xreal fs sh setup r).1 = [hex (txBytes ins outs)] ∧ spent ≠ [] ∧ List.Forall₂ Coin.SpentBy spent ins ∧
      (∀ (j : Nat) (c : Coin) (i : RawIn), spent[j]? = some c → ins[j]? = some i → ∃ pk r s, SpendWith c.owner (signedMessage ins outs j c.owner) i.script pk r s) ∧
      Fixed keys spent ins outs := by
  obtain ⟨coins, spent, unused, asked, paid, ins, outs, fee, fi, fd, ti, td, insD, outsD, design, ca, owner, _, _, _, _, _, _, _, _, _, _, _,
    h5, h6, h7, h8, _, _, _, _, _, _, _, _, ⟨keys, k1, k2⟩, h9⟩ := C74_program Xreal_laws fs sh setup r ht hrun
  exact ⟨keys, spent, ins, outs, k1, h5, h8, h6, fun j c i hj hi => validSpend_iff.1 (unlocks_real (h9 j c i hj hi)), fixed h6 k2⟩


end BT
