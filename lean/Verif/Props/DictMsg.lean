import Verif.DictMsg
import Verif.Props.StartMsg
import Verif.Props.Json

/-!
# A script of the wrong length is reported with the two lengths (C151)
-/

namespace BT
open Spec

/-- the text with which a script of `actual` bytes is refused where `stated` were promised -/
def Spec.scriptLengthText (stated actual : Nat) : Str :=
  py"Script length value (" ++ pyStr stated ++ py") != calculated hex byte length of script_sig value (" ++ pyStr actual ++ py")."

/-- `d'` is the dict `d` with another value at `key` -/
def Spec.EditedAt (key : Str) (v : PVal) (d d' : List (Str × PVal)) : Prop :=
  dictFind d' key = some v ∧ ∀ k, k ≠ key → dictFind d' k = dictFind d k

namespace DictMsg
open Start (T other erase erase_other erase_bind)

theorem erase_checkSig (u : UniDB) (lenP scriptP : PVal) : erase (checkSig u lenP scriptP) = checkScriptField u lenP scriptP .valueError := by
  unfold checkSig checkScriptField
  split
  · rfl
  · rw [erase_bind, erase_other]; congr 1; funext ss
    rw [erase_bind, erase_other]; congr 1; funext n
    rw [erase_bind, erase_other]; congr 1; funext n2
    unfold check
    split <;> simp_all [erase]

theorem R_bind_assoc {α β γ : Type} (x : R α) (f : α → R β) (g : β → R γ) : (x >>= f) >>= g = x >>= fun a => f a >>= g := by
  cases x <;> rfl

theorem erase_pure {α : Type} (a : α) : erase (pure a : T α) = pure a := rfl

theorem checkSig_text {u : UniDB} {l s : PVal} {e : Err} {t : Str} (h : checkSig u l s = .error (e, some t)) :
    e = .valueError ∧ ∃ (n : UInt8) (b : Bytes), l = .str (hex [n]) ∧ s = .str (hex b) ∧ n.toNat ≤ 252 ∧ n.toNat ≠ b.length ∧
      t = scriptLengthText n.toNat b.length := by
  unfold checkSig at h
  split at h
  · simp at h
  · cases hs : vHexP s with
    | error _ => simp [hs, other, bind, Except.bind] at h
    | ok ss =>
      cases hl : varIntToIntP u l with
      | error _ => simp [hs, hl, other, bind, Except.bind] at h
      | ok n =>
        cases hn : hexLen ss with
        | error _ => simp [hs, hl, hn, other, bind, Except.bind] at h
        | ok n2 =>
          obtain ⟨rfl, hx⟩ := vHexP_ok.1 hs
          obtain ⟨l', rfl, hl'⟩ := varIntToIntP_ok.1 hl
          obtain ⟨z, rfl, hz, rfl⟩ := (varIntToInt_ok u).1 hl'
          obtain ⟨b, rfl⟩ := isHex_exists hx
          rw [hexLen_hex, Except.ok.injEq] at hn
          subst hn
          simp only [hs, hl, hexLen_hex, other, bind, Except.bind] at h
          split at h
          · simp at h
          · rename_i hne
            simp only [Except.error.injEq, Prod.mk.injEq, Option.some.injEq] at h
            obtain ⟨rfl, rfl⟩ := h
            refine ⟨rfl, z, b, rfl, rfl, hz, ?_, rfl⟩
            intro hc
            rw [hc] at hne
            simp at hne

theorem checkSig_of {u : UniDB} {n : UInt8} {b : Bytes} (hn : n.toNat ≤ 252) (hne : n.toNat ≠ b.length) :
    checkSig u (.str (hex [n])) (.str (hex b)) = .error (.valueError, some (scriptLengthText n.toNat b.length)) := by
  unfold checkSig
  rw [if_neg (by simp [PVal.isNone]), vHexP_ok.2 ⟨rfl, isHex_hex b⟩, varIntToIntP_ok.2 ⟨_, rfl, (varIntToInt_ok u).2 ⟨n, rfl, hn, rfl⟩⟩]
  simp only [other, bind, Except.bind, hexLen_hex]
  rw [if_neg (by simpa using hne)]
  rfl

theorem T_text {α β : Type} {r : R α} {k : α → T β} {e : Err} {t : Str} (h : (other r >>= k) = .error (e, some t)) :
    ∃ a, r = .ok a ∧ k a = .error (e, some t) := by
  cases r with
  | error _ => simp [other, bind, Except.bind] at h
  | ok a => exact ⟨a, rfl, h⟩

theorem T_ok {α β : Type} {a : α} {k : α → T β} : ((.ok a : T α) >>= k) = k a := rfl

theorem T_okStep {α β : Type} {a : α} {k : α → T β} {r : T β} (h : ((.ok a : T α) >>= k) = r) : k a = r := h

theorem T_step {α β : Type} {r : R α} {a : α} {k : α → T β} (h : r = .ok a) : (other r >>= k) = k a := by rw [h]; rfl

/-- the entries of a dict that `TxIn.fromDict` accepts, up to the key `key` -/
theorem edited {key : Str} {v : PVal} {d d' : List (Str × PVal)} (h : EditedAt key v d d') {k : Str} (hk : k ≠ key) {w : PVal}
    (hw : dictFind d k = some w) : dictGet d' k = .ok w := dictGet_ok.2 ((h.2 k hk).trans hw)

theorem edited_keys {X : Ext} {i : TxIn} {key : Str} {v : PVal} {d d' : List (Str × PVal)} (h : EditedAt key v d d') (ha : TxIn.fromDict X (.dict d) = .ok i) :
    vListContains (dictKeys d') TxIn.expectedKeys = .ok () := by
  have hk : vListContains (dictKeys d) TxIn.expectedKeys = .ok () := by
    simp only [TxIn.fromDict, R_bind_eq_ok, asDict_ok] at ha
    obtain ⟨_, hd, _, hk, _⟩ := ha
    injection hd with hd
    rw [hd]; exact hk
  rw [vListContains_ok] at hk ⊢
  intro k hm
  have hd := hk k hm
  by_cases hkk : k = key
  · rw [hkk]; exact dictKeys_mem h.1
  · have : ∃ w, dictFind d k = some w := by
      clear hk hm ha h
      induction d with
      | nil => simp [dictKeys] at hd
      | cons p r ih =>
        obtain ⟨k', w⟩ := p
        unfold dictFind
        split
        · exact ⟨_, rfl⟩
        · simp only [dictKeys, List.map_cons, List.mem_cons] at hd
          rcases hd with hd | hd
          · exact absurd hd.symm (by assumption)
          · exact ih hd
    obtain ⟨w, hw⟩ := this
    exact dictKeys_mem ((h.2 k hkk).trans hw)

end DictMsg

open DictMsg in
/-- **C151**: the model with the texts refuses the same dicts, with the same exceptions, and returns the same inputs, as the model without them. -/
theorem C151_agrees (X : Ext) (x : PVal) : Start.erase (DictMsg.fromDict X x) = TxIn.fromDict X x := by
  simp only [DictMsg.fromDict, TxIn.fromDict, Start.erase_bind, Start.erase_other, erase_checkSig, R_bind_assoc, erase_pure]

/-- **C151**: the text is true: it appears only if the dict states `n` bytes for a script of `b.length` bytes, and it names these two numbers. -/
theorem C151_true (X : Ext) (x : PVal) (e : Err) (t : Str) (h : DictMsg.fromDict X x = .error (e, some t)) :
    e = .valueError ∧ ∃ (d : List (Str × PVal)) (n : UInt8) (b : Bytes), x = .dict d ∧ dictFind d py"script_length" = some (.str (hex [n])) ∧
      dictFind d py"script_sig" = some (.str (hex b)) ∧ n.toNat ≠ b.length ∧ t = scriptLengthText n.toNat b.length := by
  unfold DictMsg.fromDict at h
  obtain ⟨d, hd, h⟩ := DictMsg.T_text h
  obtain ⟨a0, _, h⟩ := DictMsg.T_text h
  obtain ⟨a1, _, h⟩ := DictMsg.T_text h
  obtain ⟨a2, _, h⟩ := DictMsg.T_text h
  obtain ⟨a3, _, h⟩ := DictMsg.T_text h
  obtain ⟨a4, _, h⟩ := DictMsg.T_text h
  obtain ⟨a5, _, h⟩ := DictMsg.T_text h
  obtain ⟨a6, _, h⟩ := DictMsg.T_text h
  obtain ⟨l, hl, h⟩ := DictMsg.T_text h
  obtain ⟨b0, _, h⟩ := DictMsg.T_text h
  obtain ⟨b1, _, h⟩ := DictMsg.T_text h
  obtain ⟨s, hs, h⟩ := DictMsg.T_text h
  cases hc : DictMsg.checkSig X.uni l s with
  | error et =>
    rw [hc] at h
    simp only [bind, Except.bind, Except.error.injEq] at h
    subst h
    obtain ⟨rfl, n, b, rfl, rfl, _, hne, rfl⟩ := DictMsg.checkSig_text hc
    exact ⟨rfl, d, n, b, asDict_ok.1 hd, dictGet_ok.1 hl, dictGet_ok.1 hs, hne, rfl⟩
  | ok _ =>
    exfalso
    rw [hc] at h
    replace h := DictMsg.T_okStep h
    repeat (replace h := DictMsg.T_text h; obtain ⟨_, _, h⟩ := h)
    simp [pure, Except.pure] at h

/-- **C151**: if an accepted dict is changed so that its `script_sig` is a script of another length than its `script_length` states, and nothing else is changed,
then it is refused with the text that names the two lengths. -/
theorem C151_reported_partial (X : Ext) (d d' : List (Str × PVal)) (i : TxIn) (n : UInt8) (b : Bytes) (ha : TxIn.fromDict X (.dict d) = .ok i)
    (hl : dictFind d py"script_length" = some (.str (hex [n]))) (hb : n.toNat ≠ b.length) (he : EditedAt py"script_sig" (.str (hex b)) d d') :
    DictMsg.fromDict X (.dict d') = .error (.valueError, some (scriptLengthText n.toNat b.length)) := by
  have hkeys := DictMsg.edited_keys he ha
  simp only [TxIn.fromDict, R_bind_eq_ok, asDict_ok, dictGet_ok] at ha
  obtain ⟨d0, hd0, _, _, v1, f1, ph, hph, v2, f2, pi, h2, v3, f3, pii, e3, xa, hxa, xb, hxb, _, has, v4, f4, v5, f5, _, g1, _⟩ := ha
  injection hd0 with hd0
  subst hd0
  rw [hl] at f4
  injection f4 with f4
  subst f4
  have hn : n.toNat ≤ 252 := by
    unfold checkLenField at g1
    simp only [PVal.isNone, Bool.false_eq_true, if_false, R_bind_eq_ok, vHexP_ok, varIntToInt_ok] at g1
    obtain ⟨_, ⟨h, _⟩, _, ⟨z, rfl, hz, _⟩, _⟩ := g1
    injection h with h
    rw [hex_inj_iff] at h
    injection h with h
    rw [h]; exact hz
  unfold DictMsg.fromDict
  rw [DictMsg.T_step (asDict_ok.2 rfl), DictMsg.T_step hkeys,
    DictMsg.T_step (a := ph) (by rw [DictMsg.edited he (by decide) f1]; exact hph),
    DictMsg.T_step (a := pi) (by rw [DictMsg.edited he (by decide) f2]; exact h2),
    DictMsg.T_step (a := pii) (by rw [DictMsg.edited he (by decide) f3]; exact e3),
    DictMsg.T_step hxa, DictMsg.T_step hxb, DictMsg.T_step has, DictMsg.T_step (DictMsg.edited he (by decide) hl),
    DictMsg.T_step (DictMsg.edited he (by decide) f5), DictMsg.T_step g1, DictMsg.T_step (dictGet_ok.2 he.1), DictMsg.checkSig_of hn hb]
  rfl

/-- **C151**, FALSE of the other script: if the `script_pub_key` of an accepted dict is replaced by a script of another length than `script_pub_key_length` states,
then it is refused with an `AssertionError` that has no text. -/
theorem C151_no_text_violation (X : Ext) (d d' : List (Str × PVal)) (i : TxIn) (n : UInt8) (b : Bytes) (ha : TxIn.fromDict X (.dict d) = .ok i)
    (hl : dictFind d py"script_pub_key_length" = some (.str (hex [n]))) (hb : n.toNat ≠ b.length) (he : EditedAt py"script_pub_key" (.str (hex b)) d d') :
    DictMsg.fromDict X (.dict d') = .error (.assertionError, none) := by
  have hkeys := DictMsg.edited_keys he ha
  simp only [TxIn.fromDict, R_bind_eq_ok, asDict_ok, dictGet_ok] at ha
  obtain ⟨d0, hd0, _, _, v1, f1, ph, hph, v2, f2, pi, h2, v3, f3, pii, e3, xa, hxa, xb, hxb, _, has, v4, f4, v5, f5, _, g1, v6, f6, _, g2, v7, f7, _, h7, v8, f8, _, g3,
    v9, f9, v10, f10, _, g4, _⟩ := ha
  injection hd0 with hd0
  subst hd0
  rw [hl] at f9
  injection f9 with f9
  subst f9
  have hn : n.toNat ≤ 252 := by
    unfold checkLenField at g4
    simp only [PVal.isNone, Bool.false_eq_true, if_false, R_bind_eq_ok, vHexP_ok, varIntToInt_ok] at g4
    obtain ⟨_, ⟨h, _⟩, _, ⟨z, rfl, hz, _⟩, _⟩ := g4
    injection h with h
    rw [hex_inj_iff] at h
    injection h with h
    rw [h]; exact hz
  have hsig : DictMsg.checkSig X.uni v4 v6 = .ok () := by
    have h := DictMsg.erase_checkSig X.uni v4 v6
    rw [g2] at h
    cases hc : DictMsg.checkSig X.uni v4 v6 with
    | error _ => rw [hc] at h; simp [Start.erase] at h
    | ok _ => rfl
  have hspk : checkScriptField X.uni (.str (hex [n])) (.str (hex b)) .assertionError = .error .assertionError := by
    unfold checkScriptField
    rw [if_neg (by simp [PVal.isNone]), vHexP_ok.2 ⟨rfl, isHex_hex b⟩, varIntToIntP_ok.2 ⟨_, rfl, (varIntToInt_ok X.uni).2 ⟨n, rfl, hn, rfl⟩⟩]
    simp only [R_bind_ok, hexLen_hex]
    unfold check
    rw [if_neg (by simpa using hb)]
  unfold DictMsg.fromDict
  rw [DictMsg.T_step (asDict_ok.2 rfl), DictMsg.T_step hkeys,
    DictMsg.T_step (a := ph) (by rw [DictMsg.edited he (by decide) f1]; exact hph),
    DictMsg.T_step (a := pi) (by rw [DictMsg.edited he (by decide) f2]; exact h2),
    DictMsg.T_step (a := pii) (by rw [DictMsg.edited he (by decide) f3]; exact e3),
    DictMsg.T_step hxa, DictMsg.T_step hxb, DictMsg.T_step has, DictMsg.T_step (DictMsg.edited he (by decide) f4),
    DictMsg.T_step (DictMsg.edited he (by decide) f5), DictMsg.T_step g1, DictMsg.T_step (DictMsg.edited he (by decide) f6), hsig,
    DictMsg.T_ok]
  rw [DictMsg.T_step (DictMsg.edited he (by decide) f7), DictMsg.T_step h7, DictMsg.T_step (DictMsg.edited he (by decide) f8), DictMsg.T_step g3,
    DictMsg.T_step (DictMsg.edited he (by decide) hl), DictMsg.T_step (DictMsg.edited he (by decide) f10), DictMsg.T_step g4, DictMsg.T_step (dictGet_ok.2 he.1), hspk]
  rfl

/-- a signed input of two script bytes in which the script is replaced by one of three bytes -/
example : ∃ i d d', TxIn.fromDict Concrete.Xreal (.dict d) = .ok i ∧ EditedAt py"script_sig" (.str (hex [1, 2, 3])) d d' ∧
    DictMsg.fromDict Concrete.Xreal (.dict d') =
      .error (.valueError, some py"Script length value (2) != calculated hex byte length of script_sig value (3).") := by
  obtain ⟨i, hi⟩ := (C24_accepts Concrete.Xreal Concrete.sha256_length py"1BgGZ9tcN4rm9KBzDn7KprQz87SZ26SAMH" (List.replicate 64 'a') 3 70000).2
    ⟨by decide +kernel, ⟨by decide, by decide⟩, by decide, by decide, by decide, by decide, by decide⟩
  have h := C27_round_trip_signed Concrete.Xreal Concrete.sha256_length _ _ _ _ i _ hi (by decide) [7, 8] (List.replicate 64 0) (by decide) (by decide) rfl
  obtain ⟨d, hd, E, _⟩ := (TxIn_fromDict_ok Concrete.Xreal).1 h
  rw [hd] at h
  have he : EditedAt py"script_sig" (.str (hex [1, 2, 3])) d (dictSet d py"script_sig" (.str (hex [1, 2, 3]))) :=
    ⟨dictFind_set_eq, fun k hk => dictFind_set_ne hk⟩
  exact ⟨_, _, _, h, he, C151_reported_partial Concrete.Xreal _ _ _ 2 [1, 2, 3] h E.scriptLen (by decide) he⟩

end BT
