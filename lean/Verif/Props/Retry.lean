import Verif.Lemmas.RetryEdit
import Verif.Lemmas.Repeat
import Verif.Lemmas.Plain
import Verif.Props.CreateMore

/-! # C125: a refused request can be corrected and tried again

False of the code: `create_transaction` adds a key `satoshi_amount` to the dicts it was given, and refuses dicts with this key. -/

namespace BT
open Spec Retry

variable {X : Ext}

namespace Retry

theorem after_ok {a a' : Args} {t : Tx} (h : createTransaction X a = .ok (t, a')) : create X a = (a', .ok t) := by
  have h2 : (create X a).2 = .ok t := by
    have := create_agree X a
    unfold Agree at this
    rw [this, h]; rfl
  have h1 : (create X a).1 = a' := by
    rcases create_after X a with ⟨_, e, he, _⟩ | ⟨b, ins, outs, insZ, outsZ, d, V, hs⟩
    · rw [h2] at he; simp at he
    · simp only [createTransaction, R_bind_eq_ok, R_pure, Except.ok.injEq, Prod.mk.injEq] at h
      obtain ⟨p, hp, t', _, _, rfl⟩ := h
      exact hs.2 p hp
  rw [← h1, ← h2]

theorem marked_list {u : UniDB} {l l' : List PVal} (h : mapR (addSatoshi u) l = .ok l') :
    ∀ x ∈ l', ∃ d, x = .dict d ∧ py"satoshi_amount" ∈ dictKeys d := by
  intro z hz
  obtain ⟨x, _, hx⟩ := forall₂_mem_right (mapR_ok.1 h) z hz
  obtain ⟨d, n, rfl, rfl⟩ := addSatoshi_form hx
  exact ⟨_, rfl, mem_keys_set.2 (.inl rfl)⟩

theorem adjust_marked {u : UniDB} {x z : PVal} (h : addSatoshi u x = .ok z) (hi : adjustInput u x = .ok x) : adjustInput u z = .ok z := by
  obtain ⟨d, n, rfl, rfl⟩ := addSatoshi_form h
  simp only [adjustInput, R_bind_eq_ok, dictGet_ok, R_pure, Except.ok.injEq] at hi
  obtain ⟨v, hv, m, hm, he⟩ := hi
  injection he with he
  have hv' : dictFind d py"previous_output_index" = some (.int m) := by rw [← he, find_set_eq]
  have hf : dictFind (dictSet d py"satoshi_amount" (.int n)) py"previous_output_index" = some (.int m) := by
    rw [find_set_ne (by decide)]; exact hv'
  simp only [adjustInput, dictGet, hf, R_bind_ok, PVal.toInt, R_pure]
  rw [set_find_self hf]

theorem refuse_marked {d : List (Str × PVal)} (h : py"satoshi_amount" ∈ dictKeys d) : validateInput X (.dict d) = .error .valueError := by
  have : ¬ (dictKeys d).Perm [py"address", py"transaction_id", py"previous_output_index", py"bitcoin_amount"] := by
    intro hp
    have := hp.mem_iff.1 h
    revert this; decide
  simp only [validateInput, PVal.asDict, R_bind_ok, vListsIdentical_eq, if_neg this, R_bind_err]

theorem Tidy1.noInputs {u : UniDB} {a b : Args} (h : Tidy1 u a b) (hb : b.inputs = some (.list [])) : a.inputs = some (.list []) := by
  cases h with
  | @index l j d v n hi hj hv hn =>
    simp only [Option.some.injEq, PVal.list.injEq, List.set_eq_nil_iff] at hb
    rw [hi, hb]
  | _ => exact hb

theorem Tidy.noInputs {u : UniDB} {a b : Args} (h : Tidy u a b) (hb : b.inputs = some (.list [])) : a.inputs = some (.list []) := by
  induction h with
  | refl => exact hb
  | tail _ h ih => exact ih (h.noInputs hb)

theorem adjustDesign_VE (u : UniDB) (d : List (Str × PVal)) : VE (adjustDesign u d) := by
  intro e he
  have f : ∀ d', adjustFee u d' = .error e → e = .valueError := by
    intro d' h
    unfold adjustFee at h
    split at h
    · rcases R_bind_eq_err.1 h with h | ⟨_, _, h⟩
      · exact pyInt_VE _ _ _ _ h
      · simp [R_pure] at h
    · simp [R_pure] at h
  have g : ∀ d', adjustMaxFee u d' = .error e → e = .valueError := by
    intro d' h
    unfold adjustMaxFee at h
    split at h
    · rcases R_bind_eq_err.1 h with h | ⟨_, _, h⟩
      · exact pyInt_VE _ _ _ _ h
      · simp [R_pure] at h
    · simp [R_pure] at h
  rcases R_bind_eq_err.1 he with h | ⟨_, _, h⟩
  · exact f _ h
  · exact g _ h

end Retry

/-- What `create_transaction` returns or raises is what `createTransaction` says; if it returns, the arguments are afterwards
those that `createTransaction` gives. -/
theorem C125_outcome (a : Args) :
    (∀ t b, create X a = (b, .ok t) ↔ createTransaction X a = .ok (t, b)) ∧
    (∀ e, (create X a).2 = .error e ↔ createTransaction X a = .error e) := by
  have hag := create_agree X a
  unfold Agree at hag
  cases h : createTransaction X a with
  | ok r =>
    obtain ⟨t', a'⟩ := r
    have := after_ok h
    rw [this]
    refine ⟨fun t b => ?_, by simp⟩
    simp only [Prod.mk.injEq, Except.ok.injEq]
    exact and_comm
  | error e' =>
    rw [h] at hag
    refine ⟨fun t b => ?_, fun e => ?_⟩
    · simp only [reduceCtorEq, iff_false]
      intro hc
      rw [hc] at hag
      cases hag
    · rw [hag]; simp [R_bind_err]

/-- After any call, one of two things is true of the argument object: every further call on it, after any corrections, gives
what it would have given without the first call, or every input and every output has got a `satoshi_amount`. -/
theorem C125_cases (a : Args) :
    (∀ es, createTransaction X (edited (create X a).1 es) = createTransaction X (edited a es)) ∨ Marked (create X a).1 := by
  rcases create_after X a with ⟨ht, _⟩ | ⟨b, ins, outs, insZ, outsZ, d, V, hs, _⟩
  · left; intro es; exact (ht.edited es).create
  · right
    rw [hs]
    exact ⟨⟨insZ, rfl, marked_list V.markedIn⟩, ⟨outsZ, by rw [setting_of rfl, find_set_eq], marked_list V.markedOut⟩⟩

/-- If a call has not given the inputs and outputs a `satoshi_amount`, the arguments can be corrected and used again as if the
call had not been made. -/
theorem C125_retry_partial (a : Args) (h : ¬ Marked (create X a).1) (es : List Edit) :
    createTransaction X (edited (create X a).1 es) = createTransaction X (edited a es) :=
  (C125_cases a).resolve_right h es

/-- After any call whatsoever (refused or not), removing the added keys is enough to use the arguments again as if the call had
not been made. -/
theorem C125_repair (a : Args) (h : NoMark a) (es : List Edit) :
    createTransaction X (edited (unmark (create X a).1) es) = createTransaction X (edited a es) := by
  rcases create_after X a with ⟨ht, _⟩ | ⟨b, ins, outs, insZ, outsZ, d, V, hs, _⟩
  · rw [unmark_of_noMark (ht.noMark h)]; exact (ht.edited es).create
  · rw [hs, V.unmark]; exact (V.tidy.edited es).create

/-- If a request with inputs is refused because the inputs do not cover the outputs, or not the outputs and the fee, or because
of a repeated output address, then *no* change of the design and the options helps: every further call on the same inputs is
a ValueError. -/
theorem C125_violation (a : Args) (e : Err) (h : createTransaction X a = .error e)
    (he : e = .outputValueNotCovered ∨ e = .outputAndFeeValueNotCovered ∨ e = .duplicateOutputAddress)
    (hi : a.inputs ≠ some (.list [])) (d : List (Str × PVal)) (dup idx : Option PVal) :
    createTransaction X { (create X a).1 with design := some (.dict d), allowDup := dup, changeIdx := idx } = .error .valueError := by
  rcases create_after X a with ⟨_, e', he', hp⟩ | ⟨b, ins, outs, insZ, outsZ, d', V, hs, _⟩
  · exfalso
    rw [(C125_outcome a).2] at he'
    rw [h] at he'
    injection he' with he'
    subst he'
    exact (plain_prepare X a).not_special _ hp he
  · rw [hs]
    have hne : ins ≠ [] := by
      rintro rfl
      exact hi (V.tidy.noInputs V.inputs)
    have hz : mapR (adjustInput X.uni) insZ = .ok insZ := mapR_id fun z hz => by
      obtain ⟨x, hx, hxz⟩ := forall₂_mem_right (mapR_ok.1 V.markedIn) z hz
      exact adjust_marked hxz (V.index x hx)
    have hv : validateInputs X insZ = .error .valueError := by
      have hm := V.markedIn
      cases insZ with
      | nil => exact absurd (by rw [mapR_ok] at hm; cases hm; rfl) hne
      | cons z zs =>
        obtain ⟨k, rfl, hk⟩ := marked_list hm z (by simp)
        simp only [validateInputs, mapR, refuse_marked hk, R_bind_err]
    simp only [createTransaction, prepare]
    have hk : vListContains (Args.keys { inputs := some (PVal.list insZ), design := some (PVal.dict d), allowDup := dup, changeIdx := idx }) [py"inputs", py"design"] = .ok () := by
      rw [vListContains_ok]
      intro k hk
      simp only [List.mem_cons, List.not_mem_nil, or_false] at hk
      rcases hk with rfl | rfl <;> simp [Args.keys]
    rw [hk]
    simp only [R_bind_ok, Option.getD_some, PVal.asDict, adjustInputs, hz, hv, R_bind_err]
    cases hd : adjustDesign X.uni d with
    | error e => rw [adjustDesign_VE _ _ _ hd]; rfl
    | ok d1 => rfl

end BT
