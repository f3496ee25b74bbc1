import Verif.Props.CreateMore

/-!
# Concrete cases for the theorems about `create_transaction`

The hypotheses of C45-C58, C72 and C73 are met by the sample arguments, and the violations
occur.
-/

namespace BT
open Spec Concrete

theorem toy_sha : ∀ b, (Xtoy.sha256 b).length = 32 := Xtoy_laws.sha_len

theorem amountOf_text {u : UniDB} {ip fp : Str} (h0 : ip ++ fp ≠ []) (h8 : fp.length ≤ 8) (hd : ∀ c ∈ ip ++ fp, (decVal u c).isSome = true) :
    AmountOf u (ip ++ '.' :: fp) (numeral u (ip ++ fp) * 10 ^ (8 - fp.length)) :=
  ⟨ip, fp, .inl rfl, h0, h8, hd, rfl⟩

/-- an input entry of the samples is an offer -/
theorem inD_offers {k : Nat} {c : Char} {v : PVal} {idx : Int} {s : Str} {sat : Nat} (hv : v.toInt Xtoy.uni = .ok idx) (hs : AmountOf Xtoy.uni s sat)
    (h : (TxIn.create Xtoy (toyAddr k) (List.replicate 64 c) idx sat).isOk = true) :
    ∃ i, Offers Xtoy (inD k c v s) i ∧ i.satoshi = some (sat : Int) := by
  obtain ⟨i, hi⟩ := isOk_exists h
  refine ⟨i, ⟨_, _, v, idx, s, sat, rfl, rfl, rfl, hv, rfl, hs, hi⟩, ?_⟩
  obtain ⟨_, _, _, _, _, _, _, _, _, _, _, _, _, _, _, _, _, _, h, _⟩ := C24_create Xtoy toy_sha _ _ _ _ _ hi
  exact h

/-- an output entry of the samples is a demand -/
theorem outD_asks {k : Nat} {s : Str} {sat : Nat} (hs : AmountOf Xtoy.uni s sat)
    (h : (TxOut.create Xtoy (toyAddr k) sat).isOk = true) :
    ∃ o, Asks Xtoy (outD k s) o ∧ o.satoshi = sat ∧ o.address = toyAddr k := by
  obtain ⟨o, ho⟩ := isOk_exists h
  obtain ⟨h1, _⟩ := create_satoshi toy_sha ho
  exact ⟨o, ⟨_, s, sat, rfl, rfl, hs, ho⟩, h1, ((C24_output Xtoy toy_sha _ _).1 o ho).1⟩

theorem amt7 : AmountOf Xtoy.uni py"0.0007" 70000 := ⟨py"0", py"0007", .inl rfl, by decide, by decide, by decide +kernel, by decide +kernel⟩
theorem amt3 : AmountOf Xtoy.uni py"0.0003" 30000 := ⟨py"0", py"0003", .inl rfl, by decide, by decide, by decide +kernel, by decide +kernel⟩
theorem amt9 : AmountOf Xtoy.uni py"0.0009" 90000 := ⟨py"0", py"0009", .inl rfl, by decide, by decide, by decide +kernel, by decide +kernel⟩
theorem amt5 : AmountOf Xtoy.uni py"0.0005" 50000 := ⟨py"0", py"0005", .inl rfl, by decide, by decide, by decide +kernel, by decide +kernel⟩
theorem amt6 : AmountOf Xtoy.uni py"0.0006" 60000 := ⟨py"0", py"0006", .inl rfl, by decide, by decide, by decide +kernel, by decide +kernel⟩

theorem change3 : ∃ h, AddressOf Xtoy.sha256 (toyAddr 3) h ∧ ∃ x ∈ h, x ≠ 0 := by
  have e : (do let p ← Xtoy.pubKey (hex32 3); let h ← getPublicKeyHash Xtoy p; let a ← addressToHash Xtoy (toyAddr 3); assertR (h == a && h.take 2 != py"00") : R Unit).isOk = true := by
    decide +kernel
  obtain ⟨_, h⟩ := isOk_exists e
  simp only [R_bind_eq_ok] at h
  obtain ⟨p, hp, g, hg, a, ha, hz⟩ := h
  obtain ⟨b, hb, rfl, hd⟩ := (addressToHash_ok Xtoy toy_sha).1 ha
  refine ⟨b, AddressOf_of_hash Xtoy toy_sha ha, ?_⟩
  by_contra hc
  push Not at hc
  have hrep : b = List.replicate 20 0 := List.eq_replicate_iff.2 ⟨hb, hc⟩
  subst hrep
  unfold assertR check at hz
  split at hz
  · rename_i h1
    simp only [Bool.and_eq_true, beq_iff_eq, bne_iff_ne] at h1
    obtain ⟨h1, h2⟩ := h1
    subst h1
    exact h2 (by decide)
  · cases hz

/-- the sample with three inputs and two outputs is well-formed -/
theorem argsFee_wf : ∃ ins outs, WellFormed Xtoy argsFee ins outs (toyAddr 3) py"largest_first" 250000 100 ∧
    inTotal ins = 190000 ∧ outTotal outs = 110000 ∧ ins.length = 3 ∧ outs.length = 2 ∧ outs.map TxOut.address = [toyAddr 2, toyAddr 1] := by
  obtain ⟨i1, h1, s1⟩ := inD_offers (k := 1) (c := 'a') (v := .int 3) (idx := 3) rfl amt7 (by decide +kernel)
  obtain ⟨i2, h2, s2⟩ := inD_offers (k := 2) (c := 'b') (v := .str py"0") (idx := 0) (by decide +kernel) amt3 (by decide +kernel)
  obtain ⟨i3, h3, s3⟩ := inD_offers (k := 1) (c := 'c') (v := .int 1) (idx := 1) rfl amt9 (by decide +kernel)
  obtain ⟨o1, g1, t1, a1⟩ := outD_asks (k := 2) amt5 (by decide +kernel)
  obtain ⟨o2, g2, t2, a2⟩ := outD_asks (k := 1) amt6 (by decide +kernel)
  refine ⟨[i1, i2, i3], [o1, o2], ⟨⟨_, _, rfl, rfl, .cons h1 (.cons h2 (.cons h3 .nil)), .cons g1 (.cons g2 .nil)⟩, ?_, ?_, ?_, ?_, by simp, rfl, change3, ⟨_, rfl, .inl rfl⟩,
    ⟨_, rfl, .inr ⟨py"100", py"00", by decide, .inl ⟨rfl, by decide⟩, by decide +kernel, ?_⟩⟩, le_refl _, .inr ⟨rfl, rfl⟩, .inl rfl, .inl ⟨_, 1000, rfl, .inl rfl, by norm_num, by norm_num, rfl⟩,
    .inl rfl, .inl rfl, by simp, by simp, ?_, ?_⟩, ?_, ?_, rfl, rfl, by simp [a1, a2]⟩
  · intro l hl x hx
    have hl' : [inD 1 'a' (.int 3) py"0.0007", inD 2 'b' (.str py"0") py"0.0003", inD 1 'c' (.int 1) py"0.0009"] = l := by
      simpa [argsFee, argsOf] using hl
    subst hl'
    simp only [List.mem_cons, List.not_mem_nil, or_false] at hx
    rcases hx with rfl | rfl | rfl <;> exact ⟨_, rfl, List.Perm.refl _⟩
  · intro l hl x hx
    have hl' : some (PVal.list [outD 2 py"0.0005", outD 1 py"0.0006"]) = some (.list l) := hl
    simp only [Option.some.injEq, PVal.list.injEq] at hl'
    subst hl'
    simp only [List.mem_cons, List.not_mem_nil, or_false] at hx
    rcases hx with rfl | rfl <;> exact ⟨_, rfl, List.Perm.refl _⟩
  · intro i hi
    simp only [List.mem_cons, List.not_mem_nil, or_false] at hi
    rcases hi with rfl | rfl | rfl <;> simp [s1, s2, s3]
  · intro o ho
    simp only [List.mem_cons, List.not_mem_nil, or_false] at ho
    rcases ho with rfl | rfl <;> simp [t1, t2]
  · have : numeral Xtoy.uni (py"100" ++ py"00") = 10000 := by decide +kernel
    rw [this]; norm_num
  · simp [inTotal, s1, s2, s3]
  · simp [outTotal, t1, t2]
  · simp [inTotal, s1, s2, s3]
  · simp [outTotal, t1, t2]

/-- the sample with one input, one output and a fee rate is well-formed -/
theorem argsRate_wf : ∃ ins outs, WellFormed Xtoy argsRate ins outs (toyAddr 3) py"largest_first" 250000 100 ∧ ins.length = 1 ∧ outs.length = 1 := by
  obtain ⟨i1, h1, s1⟩ := inD_offers (k := 1) (c := 'a') (v := .int 3) (idx := 3) rfl amt7 (by decide +kernel)
  obtain ⟨o1, g1, t1, a1⟩ := outD_asks (k := 2) amt5 (by decide +kernel)
  have hn : numeral Xtoy.uni (py"100" ++ py"00") = 10000 := by decide +kernel
  have hn1 : numeral Xtoy.uni (py"1" ++ []) = 1 := by decide +kernel
  refine ⟨[i1], [o1], ⟨⟨_, _, rfl, rfl, .cons h1 .nil, .cons g1 .nil⟩, ?_, ?_, ?_, ?_, by simp, rfl, change3, ⟨_, rfl, .inl rfl⟩,
    ⟨_, rfl, .inr ⟨py"100", py"00", by decide, .inl ⟨rfl, by decide⟩, by decide +kernel, by rw [hn]; norm_num⟩⟩, le_refl _, .inr ⟨rfl, rfl⟩, .inl rfl,
    .inr ⟨.str py"1", 1, rfl, rfl, .inr ⟨py"1", [], by decide, .inr ⟨rfl, rfl⟩, by decide +kernel, by rw [hn1]; norm_num⟩, by norm_num [estSize]⟩,
    .inl rfl, .inl rfl, by simp, by simp, by simp [inTotal, s1], by simp [outTotal, t1]⟩, rfl, rfl⟩
  · intro l hl x hx
    have hl' : [inD 1 'a' (.int 3) py"0.0007"] = l := by simpa [argsRate, argsOf] using hl
    subst hl'
    simp only [List.mem_cons, List.not_mem_nil, or_false] at hx
    subst hx; exact ⟨_, rfl, List.Perm.refl _⟩
  · intro l hl x hx
    have hl' : some (PVal.list [outD 2 py"0.0005"]) = some (.list l) := hl
    simp only [Option.some.injEq, PVal.list.injEq] at hl'
    subst hl'
    simp only [List.mem_cons, List.not_mem_nil, or_false] at hx
    subst hx; exact ⟨_, rfl, List.Perm.refl _⟩
  · simp [s1]
  · simp [t1]

/-- **C48** violated: one input, one output, 1 satoshi per byte asked for; the returned transaction
has two outputs, an estimated size of 257 bytes and a fee of 223 satoshi. -/
theorem C48_violation : ∃ (a a' : Args) (t : Tx) (fee : Int), createTransaction Xtoy a = .ok (t, a') ∧ setting a py"fee" = none ∧
    setting a py"fee_rate" = some (.str py"1") ∧ RateOf Xtoy.uni (.str py"1") 1 ∧ t.fee = some fee ∧ fee < estSize t.inputs.length t.outputs.length * 1 := by
  obtain ⟨t, a', h, h1, h2, h3⟩ := view_ok argsRate_run
  have hn1 : numeral Xtoy.uni (py"1" ++ []) = 1 := by decide +kernel
  refine ⟨argsRate, a', t, 223, h, rfl, rfl, .inr (.inl ⟨_, rfl, py"1", [], .inr ⟨rfl, rfl⟩, by decide, by decide +kernel, by rw [hn1]; norm_num⟩), h1, ?_⟩
  have e1 := congrArg List.length h2
  have e2 := congrArg List.length h3
  simp only [List.length_map, List.length_cons, List.length_nil] at e1 e2
  rw [e1, e2]; norm_num [estSize]

theorem argsFee_ascii : AsciiAmounts argsFee := by
  intro l hl p hp s hs
  have : ∀ c ∈ s, c.toNat < 128 := by
    rcases hl with hl | hl
    · have hl' : [inD 1 'a' (.int 3) py"0.0007", inD 2 'b' (.str py"0") py"0.0003", inD 1 'c' (.int 1) py"0.0009"] = l := by
        simpa [argsFee, argsOf] using hl
      subst hl'
      simp only [List.mem_cons, List.not_mem_nil, or_false] at hp
      have key : ∀ k c v s', entry (inD k c v s') py"bitcoin_amount" = some (.str s) → s' = s := by
        intro k c v s' h
        have h' : some (PVal.str s') = some (.str s) := h
        simpa using h'
      rcases hp with rfl | rfl | rfl
      · rw [← key _ _ _ _ hs]; decide
      · rw [← key _ _ _ _ hs]; decide
      · rw [← key _ _ _ _ hs]; decide
    · have hl' : some (PVal.list [outD 2 py"0.0005", outD 1 py"0.0006"]) = some (.list l) := hl
      simp only [Option.some.injEq, PVal.list.injEq] at hl'
      subst hl'
      simp only [List.mem_cons, List.not_mem_nil, or_false] at hp
      have key : ∀ k s', entry (outD k s') py"bitcoin_amount" = some (.str s) → s' = s := by
        intro k s' h
        have h' : some (PVal.str s') = some (.str s) := h
        simpa using h'
      rcases hp with rfl | rfl
      · rw [← key _ _ hs]; decide
      · rw [← key _ _ hs]; decide
  exact this

/-- C45, C46, C49-C54, C58 and C73 speak about calls that occur -/
example : ∃ t a' s, createTransaction Xtoy argsFee = .ok (t, a') ∧ t.fee = some 1000 ∧ AsciiAmounts argsFee ∧ t.toJson Xtoy = .ok s := by
  obtain ⟨t, a', h, h1, h2, h3⟩ := view_ok argsFee_run
  have hA := argsFee_ascii
  obtain ⟨⟨s, hs, _⟩, _⟩ := C58_json Xtoy_laws h hA
  exact ⟨t, a', s, h, h1, hA, hs⟩

/-- the first case of C73 that gives a transaction applies to the sample -/
example : ∃ t a', createTransaction Xtoy argsFee = .ok (t, a') := by
  obtain ⟨ins, outs, W, h1, h2, h3, h4, h5⟩ := argsFee_wf
  refine C54_full_never_blocks toy_sha W ?_ (.inr ?_) (.inl ?_)
  · rintro fee (⟨v, hv, hn, _⟩ | ⟨h, _⟩)
    · have hv' : some (PVal.int 1000) = some v := hv
      injection hv' with hv'; subst hv'
      rcases hn with hn | ⟨s, hn, _⟩
      · injection hn with hn; subst hn
        rw [h1, h2]; norm_num
      · simp at hn
    · have := h (.int 1000) 1000 rfl (.inl rfl)
      simp at this
  · rw [h5]; decide +kernel
  · have : (outs.filter fun o => o.address = toyAddr 3).length = ((outs.map TxOut.address).filter fun x => x = toyAddr 3).length := by
      rw [List.filter_map, List.length_map]; rfl
    rw [this, h5]; decide +kernel

/-- the sample with a fee of 0: TypeError -/
example : createTransaction Xtoy (argsOf [inD 1 'a' (.int 3) py"0.0007", inD 2 'b' (.str py"0") py"0.0003", inD 1 'c' (.int 1) py"0.0009"]
    [outD 2 py"0.0005", outD 1 py"0.0006"] [(py"fee", .int 0)]) = .error .typeError := by
  obtain ⟨ins, outs, W, _⟩ := argsFee_wf
  refine C55_violation toy_sha W ⟨_, rfl⟩ rfl rfl rfl ?_ rfl (.inl rfl)
  intro k hk
  have : ∀ v, setting (argsOf [inD 1 'a' (.int 3) py"0.0007", inD 2 'b' (.str py"0") py"0.0003", inD 1 'c' (.int 1) py"0.0009"]
    [outD 2 py"0.0005", outD 1 py"0.0006"] [(py"fee", v)]) k = dictFind [(py"change_address", .str (toyAddr 3)), (py"max_fee", .int 250000),
      (py"max_spend_percentage", .str py"100.00"), (py"outputs", .list [outD 2 py"0.0005", outD 1 py"0.0006"]), (py"fee", v)] k := fun v => rfl
  unfold argsFee
  rw [this, this]
  simp only [dictFind, if_neg hk.symm]

/-- a second call with the same arguments -/
example : ∃ t a', createTransaction Xtoy argsFee = .ok (t, a') ∧ createTransaction Xtoy a' = .error .valueError := by
  obtain ⟨t, a', h, _⟩ := view_ok argsFee_run
  exact ⟨t, a', h, C56_violation toy_sha h⟩

/-- **C57** violated concretely: `smallest_first` under the documented key, yet the largest input
is spent although the smallest covers outputs and fee. -/
theorem C57_violation_occurs : ∃ (a a' : Args) (t : Tx), setting a py"input_selection_approach" = some (.str py"smallest_first") ∧
    createTransaction Xtoy a = .ok (t, a') ∧ (t.inputs.map fun i => i.satoshi.getD 0) = [90000] ∧ outTotal t.outputs = 89000 := by
  obtain ⟨t, a', h, h1, h2, h3⟩ := view_ok argsReadme_run
  refine ⟨_, a', t, rfl, h, h2, ?_⟩
  have := congrArg (fun l => (l.map Prod.snd).sum) h3
  simpa [outTotal, List.map_map, Function.comp_def] using this

end BT
