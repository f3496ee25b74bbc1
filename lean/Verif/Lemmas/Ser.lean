import Verif.Lemmas.Dict
import Verif.TxSpec

namespace BT
open Spec

/-! # Serialisation -/

theorem ofNat_len_inj {m n : Nat} (hm : m ≤ 252) (hn : n ≤ 252) (h : UInt8.ofNat m = UInt8.ofNat n) : m = n := by
  have := congrArg UInt8.toNat h
  rwa [UInt8.toNat_ofNat', UInt8.toNat_ofNat', Nat.mod_eq_of_lt (by omega), Nat.mod_eq_of_lt (by omega)] at this

theorem RawIn_prefix {r r' : RawIn} (h : r.Ok) (h' : r'.Ok) {x x' : Bytes}
    (e : r.bytes ++ x = r'.bytes ++ x') : r = r' ∧ x = x' := by
  obtain ⟨a1, a2, a3⟩ := h
  obtain ⟨b1, b2, b3⟩ := h'
  simp only [RawIn.bytes, List.append_assoc] at e
  obtain ⟨e1, e⟩ := List.append_inj e (by omega)
  obtain ⟨e2, e⟩ := List.append_inj e (by omega)
  simp only [List.cons_append, List.nil_append, List.cons.injEq] at e
  have e3 := ofNat_len_inj a3 b3 e.1
  obtain ⟨e4, e⟩ := List.append_inj e.2 e3
  refine ⟨?_, by simpa using e⟩
  cases r; cases r'; simp_all

theorem RawOut_prefix {r r' : RawOut} (h : r.Ok) (h' : r'.Ok) {x x' : Bytes}
    (e : r.bytes ++ x = r'.bytes ++ x') : r = r' ∧ x = x' := by
  obtain ⟨a1, a3⟩ := h
  obtain ⟨b1, b3⟩ := h'
  simp only [RawOut.bytes, List.append_assoc] at e
  obtain ⟨e1, e⟩ := List.append_inj e (by omega)
  simp only [List.cons_append, List.nil_append, List.cons.injEq] at e
  have e3 := ofNat_len_inj a3 b3 e.1
  obtain ⟨e4, e⟩ := List.append_inj e.2 e3
  refine ⟨?_, e⟩
  cases r; cases r'; simp_all

theorem flatMap_prefix {α : Type} {f : α → Bytes} {P : α → Prop}
    (hf : ∀ r r', P r → P r' → ∀ x x', f r ++ x = f r' ++ x' → r = r' ∧ x = x') :
    ∀ (l l' : List α), (∀ r ∈ l, P r) → (∀ r ∈ l', P r) → l.length = l'.length → ∀ x x',
      l.flatMap f ++ x = l'.flatMap f ++ x' → l = l' ∧ x = x'
  | [], [], _, _, _, x, x', e => ⟨rfl, by simpa using e⟩
  | [], _ :: _, _, _, hl, _, _, _ => by simp at hl
  | _ :: _, [], _, _, hl, _, _, _ => by simp at hl
  | r :: l, r' :: l', h, h', hl, x, x', e => by
    simp only [List.flatMap_cons, List.append_assoc] at e
    obtain ⟨e1, e2⟩ := hf r r' (h r (by simp)) (h' r' (by simp)) _ _ e
    obtain ⟨e3, e4⟩ := flatMap_prefix hf l l' (fun r hr => h r (by simp [hr])) (fun r hr => h' r (by simp [hr]))
      (by simpa using hl) x x' e2
    exact ⟨by rw [e1, e3], e4⟩

/-- the serialisation can be read in only one way, whatever follows it -/
theorem txBytes_prefix {ins ins' : List RawIn} {outs outs' : List RawOut} (h1 : ∀ r ∈ ins, r.Ok) (h2 : ∀ r ∈ ins', r.Ok)
    (h3 : ∀ r ∈ outs, r.Ok) (h4 : ∀ r ∈ outs', r.Ok) (l1 : ins.length ≤ 252) (l2 : ins'.length ≤ 252)
    (l3 : outs.length ≤ 252) (l4 : outs'.length ≤ 252) {x x' : Bytes}
    (e : txBytes ins outs ++ x = txBytes ins' outs' ++ x') : ins = ins' ∧ outs = outs' ∧ x = x' := by
  simp only [txBytes, List.append_assoc, List.append_cancel_left_eq, List.cons_append, List.nil_append, List.cons.injEq,
    true_and] at e
  obtain ⟨e1, e⟩ := e
  obtain ⟨e2, e⟩ := flatMap_prefix (fun r r' h h' x x' e => RawIn_prefix h h' e) _ _ h1 h2 (ofNat_len_inj l1 l2 e1) _ _ e
  simp only [List.cons.injEq] at e
  obtain ⟨e3, e⟩ := e
  obtain ⟨e4, e⟩ := flatMap_prefix (fun r r' h h' x x' e => RawOut_prefix h h' e) _ _ h3 h4 (ofNat_len_inj l3 l4 e3) _ _ e
  simp only [List.cons.injEq, true_and] at e
  exact ⟨e2, e4, e⟩

/-! ## the model's fields -/

theorem concatFields_append (a b : List (Option Str)) :
    concatFields (a ++ b) = (do let x ← concatFields a; let y ← concatFields b; pure (x ++ y)) := by
  induction a with
  | nil => simp only [List.nil_append, concatFields, R_bind_ok]; cases concatFields b <;> simp
  | cons o r ih =>
    cases o with
    | none => rfl
    | some s =>
      simp only [List.cons_append, concatFields, ih]
      cases concatFields r <;> cases concatFields b <;> simp

theorem concatFields_ok {a b : List (Option Str)} {s : Str} : concatFields (a ++ b) = .ok s ↔
    ∃ x y, concatFields a = .ok x ∧ concatFields b = .ok y ∧ s = x ++ y := by
  rw [concatFields_append]
  cases concatFields a <;> cases concatFields b <;> simp [eq_comm]

theorem concatFields_some (l : List Str) : concatFields (l.map some) = .ok l.flatten := by
  induction l with
  | nil => rfl
  | cons s r ih => simp [concatFields, ih]

theorem hex_ff : py"ffffffff" = hex [0xff, 0xff, 0xff, 0xff] := by decide
theorem hex_v1 : py"01000000" = hex [1, 0, 0, 0] := by decide
theorem hex_lock : py"00000000" = hex [0, 0, 0, 0] := by decide
theorem hex_one : py"01" = hex [1] := by decide

theorem spends_form {i : TxIn} {r : RawIn} (h : SpendsRaw i r) : concatFields i.signableForm = .ok (hex r.bytes) := by
  have : i.signableForm = [hex r.hash, hex r.index, hex [UInt8.ofNat r.script.length], hex r.script, hex [0xff, 0xff, 0xff, 0xff]].map some := by
    simp [TxIn.signableForm, h.hash, h.index, h.seq, h.spk, h.spkLen, hex_ff]
  rw [this, concatFields_some]
  simp [RawIn.bytes]

theorem spends_form_empty {i : TxIn} {r : RawIn} (h : SpendsRaw i r) :
    concatFields i.signableFormEmpty = .ok (hex ({ r with script := [] } : RawIn).bytes) := by
  have : i.signableFormEmpty = [hex r.hash, hex r.index, hex [0], hex [0xff, 0xff, 0xff, 0xff]].map some := by
    simp only [TxIn.signableFormEmpty, h.hash, h.index, h.seq, hex_ff]; rfl
  rw [this, concatFields_some]
  simp [RawIn.bytes]

theorem signed_form {i : TxIn} {r : RawIn} (h : SignedRaw i r) : concatFields i.signedForm = .ok (hex r.bytes) := by
  have : i.signedForm = [hex r.hash, hex r.index, hex [UInt8.ofNat r.script.length], hex r.script, hex [0xff, 0xff, 0xff, 0xff]].map some := by
    simp [TxIn.signedForm, h.hash, h.index, h.seq, h.sig, h.sigLen, hex_ff]
  rw [this, concatFields_some]
  simp [RawIn.bytes]

theorem out_form {o : TxOut} {r : RawOut} (h : OutRaw o r) : concatFields o.signableForm = .ok (hex r.bytes) := by
  have : o.signableForm = [hex r.value, hex [UInt8.ofNat r.script.length], hex r.script].map some := by
    simp [TxOut.signableForm, h.value, h.spk, h.len]
  rw [this, concatFields_some]
  simp [RawOut.bytes]

theorem flatMap_form {α β : Type} {f : α → List (Option Str)} {g : β → Bytes} {R : α → β → Prop}
    (h : ∀ a b, R a b → concatFields (f a) = .ok (hex (g b))) {l : List α} {l' : List β} (hr : List.Forall₂ R l l') :
    concatFields (l.flatMap f) = .ok (hex (l'.flatMap g)) := by
  induction hr with
  | nil => rfl
  | cons ha _ ih => simp [concatFields_append, h _ _ ha, ih]

theorem signable_inputs (idx : Nat) {l : List TxIn} {l' : List RawIn} (h : List.Forall₂ SpendsRaw l l') (k : Nat) :
    concatFields (signableInputs idx k l) =
      .ok (hex ((l'.mapIdx fun j r => if j + k = idx then r else { r with script := [] }).flatMap RawIn.bytes)) := by
  induction h generalizing k with
  | nil => rfl
  | @cons a b l l' ha _ ih =>
    simp only [signableInputs, concatFields_append, ih, List.mapIdx_cons, List.flatMap_cons, hex_append]
    have e : (fun (j : ℕ) (r : RawIn) => if j + 1 + k = idx then r else { r with script := [] }) =
        fun j r => if j + (k + 1) = idx then r else { r with script := [] } := by
      funext j r; rw [show j + 1 + k = j + (k + 1) by omega]
    rw [e]
    by_cases hk : k = idx
    · simp [hk, spends_form ha]
    · simp [hk, spends_form_empty ha]

/-- `to_hex_signable_form` -/
theorem signable_hex {t : Tx} (F : Frame t) {ins : List RawIn} {outs : List RawOut}
    (hi : List.Forall₂ SpendsRaw t.inputs ins) (ho : List.Forall₂ OutRaw t.outputs outs) (idx : Nat) :
    t.toHexSignable idx = .ok (hex (txBytes (keepOnly idx ins) outs ++ [1, 0, 0, 0])) := by
  have h1 := signable_inputs idx hi 0
  have h2 := flatMap_form (f := TxOut.signableForm) (g := RawOut.bytes) (fun a b h => out_form h) ho
  have l1 := hi.length_eq
  have l2 := ho.length_eq
  unfold Tx.toHexSignable Tx.signableForm
  simp only [concatFields_append, h1, h2, R_bind_ok, concatFields, F.version, F.ic, F.oc, F.lock, F.ht4, R_pure,
    hex_v1, hex_lock, l1, l2]
  simp [txBytes, keepOnly]

/-- `to_hex_signed_form` -/
theorem signed_hex {t : Tx} (F : Frame t) {ins : List RawIn} {outs : List RawOut}
    (hi : List.Forall₂ SignedRaw t.inputs ins) (ho : List.Forall₂ OutRaw t.outputs outs) :
    t.toHexSigned = .ok (hex (txBytes ins outs)) := by
  have h1 := flatMap_form (f := TxIn.signedForm) (g := RawIn.bytes) (fun a b h => signed_form h) hi
  have h2 := flatMap_form (f := TxOut.signedForm) (g := RawOut.bytes) (fun a b h => out_form h) ho
  have l1 := hi.length_eq
  have l2 := ho.length_eq
  unfold Tx.toHexSigned Tx.signedForm
  simp only [concatFields_append, h1, h2, R_bind_ok, concatFields, F.version, F.ic, F.oc, F.lock, R_pure,
    hex_v1, hex_lock, l1, l2]
  simp [txBytes]

theorem txBytes_length (ins : List RawIn) (outs : List RawOut) (h1 : ∀ r ∈ ins, r.Ok) (h3 : ∀ r ∈ outs, r.Ok) :
    (txBytes ins outs).length = 10 + (ins.map fun r => 41 + r.script.length).sum +
      (outs.map fun r => 9 + r.script.length).sum := by
  have e1 : ∀ l : List RawIn, (∀ r ∈ l, r.Ok) → (l.flatMap RawIn.bytes).length = (l.map fun r => 41 + r.script.length).sum := by
    intro l hl
    induction l with
    | nil => rfl
    | cons r l ih =>
      obtain ⟨a, b, _⟩ := hl r (by simp)
      simp [ih fun r hr => hl r (by simp [hr]), RawIn.bytes, a, b]; omega
  have e2 : ∀ l : List RawOut, (∀ r ∈ l, r.Ok) → (l.flatMap RawOut.bytes).length = (l.map fun r => 9 + r.script.length).sum := by
    intro l hl
    induction l with
    | nil => rfl
    | cons r l ih =>
      obtain ⟨a, _⟩ := hl r (by simp)
      simp [ih fun r hr => hl r (by simp [hr]), RawOut.bytes, a]; omega
  simp [txBytes, e1 ins h1, e2 outs h3]; omega

theorem Tx_create_ok {ins : List TxIn} {outs : List TxOut} {t : Tx} :
    Tx.create ins outs = .ok t ↔ ins.length ≤ 252 ∧ outs.length ≤ 252 ∧
      t = { inputCount := hex [UInt8.ofNat ins.length], inputs := ins,
            outputCount := hex [UInt8.ofNat outs.length], outputs := outs } := by
  unfold Tx.create
  by_cases h1 : ins.length ≤ 252
  · by_cases h2 : outs.length ≤ 252
    · rw [intToVarInt_nat h1, intToVarInt_nat h2]; simp [h1, h2, eq_comm]
    · rw [intToVarInt_nat h1, intToVarInt_out (n := (outs.length : Int)) (by omega)]; simp [h2]
  · rw [intToVarInt_out (n := (ins.length : Int)) (by omega)]; simp [h1]

theorem Frame_create {ins : List TxIn} {outs : List TxOut} {t : Tx} (h : Tx.create ins outs = .ok t) : Frame t := by
  obtain ⟨h1, h2, rfl⟩ := Tx_create_ok.1 h
  exact ⟨rfl, rfl, rfl, rfl, rfl, rfl, h1, h2⟩

theorem exists_forall₂ {α β : Type} {R : α → β → Prop} {l : List α} (h : ∀ a ∈ l, ∃ b, R a b) : ∃ l', List.Forall₂ R l l' := by
  induction l with
  | nil => exact ⟨[], .nil⟩
  | cons a l ih =>
    obtain ⟨b, hb⟩ := h a (by simp)
    obtain ⟨l', hl'⟩ := ih fun x hx => h x (by simp [hx])
    exact ⟨b :: l', .cons hb hl'⟩

theorem forall₂_right {α β : Type} {R : α → β → Prop} {P : β → Prop} {l : List α} {l' : List β} (h : List.Forall₂ R l l')
    (hp : ∀ a b, R a b → P b) : ∀ b ∈ l', P b := by
  induction h with
  | nil => simp
  | cons hab _ ih =>
    intro x hx
    rcases List.mem_cons.1 hx with rfl | hx
    · exact hp _ _ hab
    · exact ih x hx

theorem forall₂_map_eq {α β γ : Type} {R : α → β → Prop} {f : β → γ} {g : α → γ} {l : List α} {l' : List β} (h : List.Forall₂ R l l')
    (hp : ∀ a b, R a b → f b = g a) : l'.map f = l.map g := by
  induction h with
  | nil => rfl
  | cons hab _ ih => simp [ih, hp _ _ hab]

end BT
