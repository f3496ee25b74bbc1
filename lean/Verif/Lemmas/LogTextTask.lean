import Verif.Lemmas.LogTextReport

/-!
# Texts without stray line breaks: transaction.py, basic.py, cli.py
-/

namespace BT.LT
open Spec Lg

/-- a record with a harmless text, or a print -/
def HL : Ev → Prop
  | .log _ _ s => Harmless s
  | .print _ => True

/-- all records are harmless, and a value that is returned satisfies `Q` -/
structure HT {α : Type} (m : W α) (Q : α → Prop) : Prop where
  only : Only HL m
  res : ∀ a, m.outcome = .ok a → Q a

section
variable {α β : Type}

theorem HT.bind {m : W α} {f : α → W β} {Q : α → Prop} {S : β → Prop} (h : HT m Q) (g : ∀ a, Q a → HT (f a) S) : HT (m >>= f) S := by
  refine ⟨Only.bind' h.only fun a ha => (g a (h.res a ha)).only, fun b hb => ?_⟩
  rw [o_bind, R_bind_eq_ok] at hb
  obtain ⟨a, ha, hb⟩ := hb
  exact (g a (h.res a ha)).res b hb

theorem HT.run (r : R α) : HT (Lg.run r) (fun a => r = .ok a) := ⟨Only.run r, fun a ha => by rwa [o_run] at ha⟩
theorem HT.run_bind {r : R α} {f : α → W β} {S : β → Prop} (g : ∀ a, r = .ok a → HT (f a) S) : HT (Lg.run r >>= f) S := (HT.run r).bind g
theorem HT.pure {a : α} {Q : α → Prop} (h : Q a) : HT (Pure.pure a : W α) Q := ⟨Only.pure a, fun b hb => by rw [o_pure] at hb; cases hb; exact h⟩
theorem HT.deb_bind {l s : Str} {f : Unit → W β} {S : β → Prop} (h : Harmless s) (g : HT (f ()) S) : HT (Lg.deb l s >>= f) S :=
  HT.bind (Q := fun _ => True) ⟨Only.deb h, fun _ _ => trivial⟩ fun _ _ => g
theorem HT.info_bind {l s : Str} {f : Unit → W β} {S : β → Prop} (h : Harmless s) (g : HT (f ()) S) : HT (Lg.info l s >>= f) S :=
  HT.bind (Q := fun _ => True) ⟨Only.info h, fun _ _ => trivial⟩ fun _ _ => g
theorem HT.raise_ite {c : Prop} [Decidable c] {e : Err} {f : α → W β} {m : W β} {S : β → Prop} (g : HT m S) :
    HT (if c then (Lg.run (BT.raise e : R α) >>= f) else m) S := by
  split
  · exact HT.run_bind fun a ha => by cases ha
  · exact g
theorem HT.mono {m : W α} {Q S : α → Prop} (h : HT m Q) (g : ∀ a, Q a → S a) : HT m S := ⟨h.only, fun a ha => g a (h.res a ha)⟩
end

theorem hl_sized {what sep x : Str} {n : Nat} (h1 : Harmless what) (h2 : Harmless sep) (h3 : Harmless x) : Harmless (sized what sep n x) := by
  unfold sized
  harmless_

theorem nn_len {s : Str} {n : Nat} (h : hexLen s = .ok n) : NoNl s := nn_hex (hexLen_ok.1 h).1

theorem nn_of_sub {s t : Str} (h : ∀ c ∈ s, c ∈ t) (ht : NoNl t) : NoNl s := fun hm => ht (h _ hm)

theorem nn_slice {s : Str} {a b : Nat} (h : NoNl s) : NoNl (slice s a b) := nn_of_sub (fun _ hc => List.mem_of_mem_drop (List.mem_of_mem_take hc)) h
theorem nn_lastK {s : Str} {a : Nat} (h : NoNl s) : NoNl (lastK a s) := nn_of_sub (fun _ hc => List.mem_of_mem_drop hc) h
theorem nn_dropLastK {s : Str} {a : Nat} (h : NoNl s) : NoNl (dropLastK a s) := nn_of_sub (fun _ hc => List.mem_of_mem_take hc) h
theorem nn_take {s : Str} {a : Nat} (h : NoNl s) : NoNl (s.take a) := nn_of_sub (fun _ hc => List.mem_of_mem_take hc) h
theorem nn_drop {s : Str} {a : Nat} (h : NoNl s) : NoNl (s.drop a) := nn_of_sub (fun _ hc => List.mem_of_mem_drop hc) h

theorem hl_sizedLen {what sep x : Str} {n k : Nat} (h1 : harm what = true) (h2 : harm sep = true) (h3 : hexLen x = .ok k) : Harmless (sized what sep n x) :=
  hl_sized (H.lit h1) (H.lit h2) (H.nn (nn_len h3))

theorem ht_decode (u : UniDB) (s : Str) : HT (Lg.scriptSigDecode u s) (fun _ => True) := by
  unfold Lg.scriptSigDecode
  refine HT.run_bind fun _ hx => HT.run_bind fun n _ => ?_
  simp only
  have hs := nn_hex (vHex_ok.1 hx)
  refine HT.run_bind fun k hk => HT.deb_bind (hl_sizedLen (by decide) (by decide) hk) ?_
  refine HT.run_bind fun n2 _ => HT.run_bind fun k hk2 => HT.deb_bind (hl_sizedLen (by decide) (by decide) hk2) ?_
  refine HT.deb_bind (H.app (H.lit (by decide)) (H.nn (nn_lastK (nn_slice hs)))) ?_
  refine HT.raise_ite (HT.run_bind fun k hk3 => HT.deb_bind (hl_sizedLen (by decide) (by decide) hk3) ?_)
  refine HT.deb_bind (H.app (H.lit (by decide)) (H.nn (nn_take (nn_slice hs)))) ?_
  exact HT.raise_ite (HT.run_bind fun k hk4 => HT.deb_bind (hl_sizedLen (by decide) (by decide) hk4) (HT.pure trivial))

theorem hl_encode (s p : Str) : Only HL (Lg.scriptSigEncode s p) := by
  suffices h : HT (Lg.scriptSigEncode s p) (fun _ => True) from h.only
  unfold Lg.scriptSigEncode
  refine HT.run_bind fun _ hx => HT.run_bind fun _ _ => HT.run_bind fun k hk => HT.deb_bind (hl_sizedLen (by decide) (by decide) hk) ?_
  refine HT.run_bind fun _ hk1 => HT.run_bind fun _ _ => HT.run_bind fun _ hk2 => HT.run_bind fun _ _ => ?_
  refine HT.run_bind fun k hk3 => HT.deb_bind (hl_sizedLen (by decide) (by decide) hk3) ?_
  refine HT.run_bind fun k hk4 => HT.deb_bind (hl_sizedLen (by decide) (by decide) hk4) ?_
  refine HT.run_bind fun k hk5 => HT.run_bind fun _ _ => HT.deb_bind (hl_sizedLen (by decide) (by decide) hk5) ?_
  exact HT.run_bind fun k hk6 => HT.deb_bind (hl_sizedLen (by decide) (by decide) hk6) (HT.pure trivial)

theorem hl_der (X : Ext) (s : Str) : Only HL (Lg.signatureFromDer X s) := by
  suffices h : HT (Lg.signatureFromDer X s) (fun _ => True) from h.only
  unfold Lg.signatureFromDer
  refine HT.run_bind fun _ _ => HT.run_bind fun _ _ => HT.run_bind fun _ _ => HT.run_bind fun _ _ => HT.run_bind fun _ _ =>
    HT.run_bind fun r _ => HT.run_bind fun t _ => HT.run_bind fun k hk => HT.run_bind fun kr hkr => HT.run_bind fun ks hks => HT.deb_bind ?_ (HT.pure trivial)
  have h1 := H.nn (nn_len hk)
  have h2 := H.nn (nn_len hkr)
  have h3 := H.nn (nn_len hks)
  have e : py"Signature decoded from DER encoding:\n" ++ sized py"signature_hex" py" = " k (r ++ t) ++ py"\n" ++ sized py"r_hex" py" = " kr r ++
      py"\n" ++ sized py"s_hex" py" = " ks t =
      sized py"Signature decoded from DER encoding:\nsignature_hex" py" = " k (r ++ t) ++ sized py"\nr_hex" py" = " kr r ++
        sized py"\ns_hex" py" = " ks t := by
    unfold sized
    simp only [List.append_assoc, List.cons_append, List.nil_append]
  rw [e]
  exact H.app (H.app (hl_sized (H.lit (by decide)) (H.lit (by decide)) h1) (hl_sized (H.lit (by decide)) (H.lit (by decide)) h2))
    (hl_sized (H.lit (by decide)) (H.lit (by decide)) h3)

theorem hl_toHexSigned (t : Tx) : Only HL (toHexSigned t) := by
  unfold toHexSigned
  only_
  exact H.lit (by decide)

theorem hl_toJson (X : Ext) (t : Tx) : Only HL (toJson X t) := by
  unfold toJson sizePart
  have := hl_toHexSigned t
  only_
  cases t.fee <;> only_

theorem hl_fromJson (X : Ext) (s : Str) : Only HL (fromJson X s) := by
  unfold fromJson
  only_
  exact H.lit (by decide)

theorem hl_prepare (X : Ext) (m : List (Str × Str)) (rvs : Option (List Str)) (i n : Nat) (inp : TxIn) (h : NoNl inp.address) :
    Only HL (signPrepare X m rvs i n inp) := by
  unfold signPrepare
  refine Only.bind (Only.run _) fun _ => Only.bind (Only.info ?_) fun _ => ?_
  · have := H.nn h
    show Harmless _
    unfold creatingLine
    have h1 : Harmless (if rvs.isSome then py"non-" else []) := by split <;> exact H.lit (by decide)
    harmless_
  · cases keyFor m inp.address <;> only_

theorem hl_finish (X : Ext) (t : Tx) (i : Nat) (rv : Option Str) (key pk : Str) : Only HL (signFinish X t i rv key pk) := by
  unfold signFinish
  have s1 : ∀ {α : Type} {x : Str} {r : Nat → W α}, (∀ k, hexLen x = .ok k → Only HL (r k)) → Only HL (Lg.run (hexLen x) >>= r) :=
    fun h => Only.bind' (Only.run _) fun k hk => h k (by rwa [o_run] at hk)
  refine s1 fun k hk => Only.bind (Only.deb (hl_sizedLen (by decide) (by decide) hk)) fun _ => Only.bind (Only.run _) fun _ => ?_
  refine s1 fun k hk => Only.bind (Only.deb (hl_sizedLen (by decide) (by decide) hk)) fun _ => Only.bind (Only.run _) fun _ => ?_
  refine s1 fun k hk => Only.bind (Only.deb (hl_sizedLen (by decide) (by decide) hk)) fun _ => ?_
  refine s1 fun k hk => Only.bind (Only.deb (hl_sizedLen (by decide) (by decide) hk)) fun _ => ?_
  exact Only.bind (hl_encode _ _) fun _ => Only.bind (Only.run _) fun _ => Only.pure _

theorem hl_signed (X : Ext) (t : Tx) (keys : List Str) (h : ∀ i ∈ t.inputs, NoNl i.address) : Only HL (signed X t keys) := by
  refine Only.bind (only_sign X t keys none (fun j i m hi _ => ?_) (fun _ _ _ _ _ _ _ _ _ => hl_finish _ _ _ _ _ _) ?_) fun _ => Only.pure _
  · exact hl_prepare _ _ _ _ _ _ (h i (List.mem_of_getElem? hi))
  · show Harmless _
    by_cases hz : t.inputs.length = 0
    · simp only [hz, if_true]; exact H.lit (by decide)
    · simp only [hz, if_false]; harmless_

theorem hl_verify (X : Ext) (t : Tx) : Only HL (verify X t) := by
  have hi : ∀ j n i, Only HL (verifyInput X t j n i) := by
    intro j n i
    unfold verifyInput
    refine Only.bind (Only.deb (show Harmless _ by harmless_)) fun _ => ?_
    cases i.scriptSig with
    | none => exact Only.run _
    | some ss =>
      refine Only.bind (ht_decode _ _).only fun _ => Only.bind (hl_der _ _) fun _ => Only.bind (Only.run _) fun ok => ?_
      cases ok
      · exact Only.bind (Only.err (show Harmless _ by harmless_)) fun _ => Only.pure _
      · exact Only.bind (Only.deb (show Harmless _ by harmless_)) fun _ => Only.pure _
  have hl : ∀ n (l : List TxIn) k bad, Only HL (verifyLoop X t n k l bad) := by
    intro n l
    induction l with
    | nil => intro k bad; exact Only.pure _
    | cons i l ih => intro k bad; exact Only.bind (hi _ _ _) fun _ => ih _ _
  refine Only.bind (hl _ _ _ _) fun _ => Only.bind (Only.info ?_) fun _ => Only.pure _
  show Harmless _
  unfold verifiedLine
  have : Harmless (if t.inputs.length > 1 then py"s" else []) := by split <;> exact H.lit (by decide)
  harmless_

/-- all pieces are without line breaks -/
def AllNn (hb : List Str) : Prop := ∀ x ∈ hb, NoNl x

theorem allNn_chunks {s : Str} (h : NoNl s) : AllNn (chunks2 s) := by
  induction s using chunks2.induct with
  | case1 => simp [chunks2, AllNn]
  | case2 a => rw [chunks2]; simpa [AllNn] using h
  | case3 a b r ih =>
    rw [chunks2]
    intro x hx
    have hr : NoNl r := fun hm => h (by simp [hm])
    rcases List.mem_cons.1 hx with rfl | hx
    · intro hm
      refine h ?_
      simp only [List.mem_cons, List.not_mem_nil, or_false] at hm
      rcases hm with hm | hm
      · rw [← hm]; simp
      · rw [← hm]; simp
    · exact ih hr x hx

theorem allNn_take {n : Nat} {hb : List Str} (h : AllNn hb) : NoNl (hb.take n).flatten := by
  intro hm
  obtain ⟨x, hx, hc⟩ := List.mem_flatten.1 hm
  exact h x (List.mem_of_mem_take hx) hc

theorem allNn_drop {n : Nat} {hb : List Str} (h : AllNn hb) : AllNn (hb.drop n) := fun x hx => h x (List.mem_of_mem_drop hx)

theorem allNn_byte {hb : List Str} {p : Str × List Str} (h : AllNn hb) (hp : takeByte hb = .ok p) : NoNl p.1 ∧ AllNn p.2 := by
  cases hb with
  | nil => cases hp
  | cons x r =>
    simp only [takeByte, Except.ok.injEq] at hp
    subst hp
    exact ⟨h x (by simp), fun y hy => h y (by simp [hy])⟩

/-- "label" and a piece of the hex text -/
theorem hl_label {l s : Str} (h : harm l = true) (hs : NoNl s) : Harmless (l ++ s) := H.app (H.lit h) (H.nn hs)

theorem ht_parseInput (X : Ext) (x : Nat) {hb : List Str} (h : AllNn hb) : HT (Lg.parseInput X x hb) (fun p => AllNn p.2) := by
  unfold Lg.parseInput takeBytes
  refine HT.deb_bind (by harmless_) ?_
  simp only
  refine HT.deb_bind (hl_label (by decide) (allNn_take h)) (HT.deb_bind (hl_label (by decide) (allNn_take (allNn_drop h))) ?_)
  refine HT.run_bind fun p hp => ?_
  obtain ⟨sl, hb2⟩ := p
  obtain ⟨n1, n2⟩ := allNn_byte (allNn_drop (allNn_drop h)) hp
  refine HT.deb_bind (hl_label (by decide) n1) (HT.run_bind fun n _ => HT.deb_bind (hl_label (by decide) (nn_pyStr n)) ?_)
  refine HT.deb_bind (hl_label (by decide) (allNn_take n2)) (HT.bind (ht_decode _ _) fun q _ => ?_)
  obtain ⟨sig, pk⟩ := q
  refine HT.run_bind fun k hk => HT.deb_bind (hl_sizedLen (by decide) (by decide) hk) ?_
  refine HT.run_bind fun k hk2 => HT.deb_bind (hl_sizedLen (by decide) (by decide) hk2) ?_
  refine HT.deb_bind (hl_label (by decide) (allNn_take (allNn_drop n2))) (HT.raise_ite ?_)
  exact HT.run_bind fun inp _ => HT.pure (allNn_drop (allNn_drop n2))

theorem ht_parseOutput (X : Ext) (x : Nat) {hb : List Str} (h : AllNn hb) : HT (Lg.parseOutput X x hb) (fun p => AllNn p.2) := by
  unfold Lg.parseOutput takeBytes
  refine HT.deb_bind (by harmless_) ?_
  simp only
  refine HT.run_bind fun sat _ => HT.run_bind fun b hb => HT.deb_bind ?_ ?_
  · have := H.nn (allNn_take (n := 8) h)
    have := H.nn (nn_btc hb)
    harmless_
  refine HT.run_bind fun p hp => ?_
  obtain ⟨sl, hb2⟩ := p
  obtain ⟨n1, n2⟩ := allNn_byte (allNn_drop h) hp
  refine HT.deb_bind (hl_label (by decide) n1) (HT.run_bind fun n _ => HT.deb_bind (hl_label (by decide) (nn_pyStr n)) ?_)
  refine HT.deb_bind (hl_label (by decide) (allNn_take n2)) ?_
  exact HT.run_bind fun inp _ => HT.pure (allNn_drop n2)

theorem ht_parseMany {α : Type} {f : Nat → List Str → W (α × List Str)} (hf : ∀ x hb, AllNn hb → HT (f x hb) (fun p => AllNn p.2)) (n x : Nat)
    {hb : List Str} (h : AllNn hb) : HT (Lg.parseMany f n x hb) (fun p => AllNn p.2) := by
  induction n generalizing x hb with
  | zero => exact HT.pure h
  | succ n ih =>
    unfold Lg.parseMany
    exact HT.bind (hf x hb h) fun p hp => HT.bind (ih (x + 1) hp) fun q hq => HT.pure hq

/-- what `from_hex_signed` logs first -/
def received (s : Str) : Ev := .log lTx 10 (py"hex received: " ++ s)

theorem hl_fromHexSigned (X : Ext) (s : Str) : Only (fun e => HL e ∨ (e = received s ∧ ¬ IsHex s)) (Lg.fromHexSigned X s) := by
  unfold Lg.fromHexSigned
  refine Only.bind (Only.info (.inl (H.lit (by decide)))) fun _ => ?_
  by_cases hx : IsHex s
  · have hs := nn_hex hx
    refine Only.bind (Only.deb (.inl (hl_label (by decide) hs))) fun _ => ?_
    refine Only.mono ?_ fun e he => .inl he
    refine HT.only (Q := fun _ => True) ?_
    unfold takeBytes
    refine HT.run_bind fun k _ => HT.deb_bind (hl_label (by decide) (nn_pyStr _)) ?_
    simp only
    have h := allNn_chunks hs
    refine HT.raise_ite (HT.deb_bind (hl_label (by decide) (allNn_take h)) (HT.run_bind fun p hp => ?_))
    obtain ⟨ic, hb2⟩ := p
    obtain ⟨n1, n2⟩ := allNn_byte (allNn_drop h) hp
    refine HT.deb_bind (hl_label (by decide) n1) (HT.run_bind fun n _ => HT.deb_bind (hl_label (by decide) (nn_pyStr n)) ?_)
    refine HT.bind (ht_parseMany (fun x hb h => ht_parseInput X x h) _ _ n2) fun q hq => ?_
    obtain ⟨inputs, hb3⟩ := q
    refine HT.run_bind fun p hp => ?_
    obtain ⟨oc, hb4⟩ := p
    obtain ⟨n3, n4⟩ := allNn_byte hq hp
    refine HT.deb_bind (hl_label (by decide) n3) (HT.run_bind fun n _ => HT.deb_bind (hl_label (by decide) (nn_pyStr n)) ?_)
    refine HT.bind (ht_parseMany (fun x hb h => ht_parseOutput X x h) _ _ n4) fun q hq => ?_
    obtain ⟨outputs, hb5⟩ := q
    refine HT.deb_bind (hl_label (by decide) (allNn_take hq)) (HT.raise_ite (HT.run_bind fun t _ => ?_))
    exact HT.info_bind (H.lit (by decide)) (HT.pure trivial)
  · refine Only.bind (Only.deb (.inr ⟨rfl, hx⟩)) fun _ => ?_
    refine Only.bind' (Only.run _) fun k hk => ?_
    rw [o_run] at hk
    exact absurd (hexLen_ok.1 hk).1 hx

end BT.LT
