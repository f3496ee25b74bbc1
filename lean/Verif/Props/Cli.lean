import Verif.Lemmas.Cli
import Verif.Props.CreateErr

/-! # C59, C60, C74, C75: the command line -/

namespace BT
open Spec

variable {X : Ext}

/-! ## C59 -/

/-- **C59**: the one-shot task either raises and prints nothing, or ends normally. -/
theorem C59_silent_failure (X : Ext) (a : CliArgs) :
    (∃ e, cliOneShot X a = ([], .error e)) ∨ (cliOneShot X a).2 = .ok () := by
  unfold cliOneShot
  refine bindOut_silent fun r => bindOut_silent fun js => bindOut_silent fun _ => ?_
  refine bindOut_silent fun _ => bindOut_silent fun bad => ?_
  split
  · exact .inl ⟨_, rfl⟩
  · refine bindOut_silent fun h => bindOut_silent fun _ => bindOut_silent fun t2 => bindOut_silent fun b2 => ?_
    split
    · exact .inl ⟨_, rfl⟩
    · exact .inr rfl

/-- **C59**: when it ends normally it has printed exactly one line: the hex of the transaction
created from the arguments and signed with the keys, in which `verify` found no invalid signature
before serialising and again after decoding the printed hex. -/
theorem C59_prints (X : Ext) (a : CliArgs) (out : List Str) (hrun : cliOneShot X a = (out, .ok ())) :
    ∃ t a' ts h t2, out = [h] ∧ createTransaction X (cliTxArgs a) = .ok (t, a') ∧ t.sign X a.privateKeysHex none = (ts, .ok ()) ∧
      ts.verify X = .ok 0 ∧ ts.toHexSigned = .ok h ∧ Tx.fromHexSigned X h = .ok t2 ∧ t2.verify X = .ok 0 := by
  unfold cliOneShot at hrun
  obtain ⟨⟨t, a'⟩, h1, hrun⟩ := bindOut_out_ok hrun
  obtain ⟨js, h2, hrun⟩ := bindOut_out_ok hrun
  obtain ⟨_, h3, hrun⟩ := bindOut_out_ok hrun
  simp only at hrun
  obtain ⟨_, h4, hrun⟩ := bindOut_out_ok hrun
  obtain ⟨bad, h5, hrun⟩ := bindOut_out_ok hrun
  split at hrun
  · simp at hrun
  · rename_i hb
    have hb : bad = 0 := by simpa using hb
    subst hb
    obtain ⟨h, h6, hrun⟩ := bindOut_out_ok hrun
    obtain ⟨_, h7, hrun⟩ := bindOut_out_ok hrun
    obtain ⟨t2, h8, hrun⟩ := bindOut_out_ok hrun
    obtain ⟨b2, h9, hrun⟩ := bindOut_out_ok hrun
    split at hrun
    · simp at hrun
    · rename_i hb
      have hb : b2 = 0 := by simpa using hb
      subst hb
      simp only [Prod.mk.injEq, and_true] at hrun
      exact ⟨t, a', _, h, t2, hrun.symm, h1, by rw [← h4], h5, h6, h8, h9⟩

/-- **C59**, the other direction: if creating and signing succeed (and the amounts are written in
ASCII), the task prints the hex and ends normally. -/
theorem C59_succeeds (L : X.Laws) (a : CliArgs) {t ts : Tx} {a' : Args} (h : createTransaction X (cliTxArgs a) = .ok (t, a'))
    (hs : t.sign X a.privateKeysHex none = (ts, .ok ())) (hA : AsciiAmounts (cliTxArgs a)) :
    ∃ s, ts.toHexSigned = .ok s ∧ cliOneShot X a = ([s], .ok ()) := by
  obtain ⟨ins, outs, ca, m, fee, ch, q, C⟩ := created_of L.sha_len h
  have hC := created_spec L.sha_len C
  obtain ⟨⟨js, j1, j2⟩, _⟩ := C58_json L h hA
  obtain ⟨s, k1, k2, k3, k4⟩ := C35_signed_round_trip X L t ts hC _ _ hs
  have k5 := (C37_sign_then_verify X L t ts hC.frame.ht1 _ _ hs).2
  obtain ⟨i1, o1, l1, l2, _, _⟩ := signed_raw X L hC hs
  obtain ⟨_, _, e, _⟩ := C44_signed_size X L t ts hC _ _ hs
  rw [e] at k1
  injection k1 with k1
  subst k1
  refine ⟨_, e, ?_⟩
  unfold cliOneShot
  simp only [h, bindOut_ok, j1, j2, hs, k5, e, hexLen_hex, k2, k4, ne_eq, not_true_eq_false, if_false]

/-- **C59**: both names of the task lead to it, if both files are given. -/
theorem C59_main (X : Ext) (a : CliArgs)
    (ht : a.task = py"create_transaction" ∨ a.task = py"create_sign_and_verify_transaction_hex")
    (hi : a.inputs.isSome = true) (hd : a.design.isSome = true) : cliMain X a = cliOneShot X a := by
  have hf : (if a.task ∈ tasksRequireFiles then check (a.inputs.isSome && a.design.isSome) .valueError else .ok () : R Unit) = .ok () := by
    rw [hi, hd]; split <;> rfl
  have h1 : a.task ∉ tasksSingleKey := by rcases ht with h | h <;> rw [h] <;> decide
  have h2 : a.task ∉ tasksRequireData := by rcases ht with h | h <;> rw [h] <;> decide
  have h3 : cliDispatch X a = cliOneShot X a := by
    unfold cliDispatch
    rcases ht with h | h <;> rw [h] <;> rfl
  unfold cliMain
  rw [hf, if_neg h1, if_neg h2, h3]
  rfl

/-- **C59**: without one of the files nothing is printed and ValueError raised. -/
theorem C59_main_files (X : Ext) (a : CliArgs)
    (ht : a.task = py"create_transaction" ∨ a.task = py"create_sign_and_verify_transaction_hex")
    (h : a.inputs = none ∨ a.design = none) : cliMain X a = ([], .error .valueError) := by
  have hf : (if a.task ∈ tasksRequireFiles then check (a.inputs.isSome && a.design.isSome) .valueError else .ok () : R Unit) = .error .valueError := by
    rw [if_pos (by rcases ht with h | h <;> rw [h] <;> decide)]
    rcases h with h | h <;> simp [h, check]
  have h1 : a.task ∉ tasksSingleKey := by rcases ht with h | h <;> rw [h] <;> decide
  have h2 : a.task ∉ tasksRequireData := by rcases ht with h | h <;> rw [h] <;> decide
  unfold cliMain
  rw [hf, if_neg h1, if_neg h2]
  rfl

/-! ## C74: end to end, in bytes -/

/-- **C74**: what the one-shot task prints is the serialisation of a transaction that spends some
of the coins described by the input file, each at most as often as it is listed, makes the
payments described by the design file, gives everything else except the fee to the change
address, pays the fee the design asks for and not more than `max_fee`, and whose every input
carries a public key that hashes to the owner of the coin together with a signature of this very
transaction that the ECDSA library accepts. -/
theorem C74_end_to_end (L : X.Laws) (a : CliArgs) (out : List Str) (hrun : cliOneShot X a = (out, .ok ())) :
    ∃ (coins spent unused : List Coin) (asked paid : List Payment) (ins : List RawIn) (outs : List RawOut) (fee : Nat)
      (insD outsD : List PVal) (design : PVal) (ca : Str) (owner : Bytes),
      -- the request
      a.inputs = some (.list insD) ∧ List.Forall₂ (Coin.Described X) insD coins ∧
      a.design = some design ∧ entry design py"outputs" = some (.list outsD) ∧ List.Forall₂ (Payment.Described X) outsD asked ∧
      entry design py"change_address" = some (.str ca) ∧ AddressOf X.sha256 ca owner ∧
      -- the transaction
      out = [hex (txBytes ins outs)] ∧
      List.Forall₂ Coin.SpentBy spent ins ∧ (spent ++ unused).Perm coins ∧ spent ≠ [] ∧
      List.Forall₂ Payment.MadeBy paid outs ∧ ChangeTo owner (coinTotal spent - payTotal asked - fee) asked paid ∧
      -- value
      coinTotal spent = payTotal paid + fee ∧ payTotal asked + fee ≤ coinTotal spent ∧
      FeeFor X (cliTxArgs a) coins.length asked.length fee ∧
      (∀ v n, entry design py"max_fee" = some v → NumberOf X.uni v n → (fee : Int) ≤ n) ∧
      ins.length ≤ 252 ∧ outs.length ≤ 252 ∧
      -- signatures
      (∀ c ∈ spent, ∃ key ∈ a.privateKeysHex, KeyOf X key c.owner) ∧
      ∀ (j : Nat) (c : Coin) (r : RawIn), spent[j]? = some c → ins[j]? = some r →
        Unlocks X c.owner (signedMessage ins outs j c.owner) r.script := by
  have hs := L.sha_len
  obtain ⟨t, a', ts, h, t2, rfl, h1, h2, h3, h4, h5, h6⟩ := C59_prints X a out hrun
  obtain ⟨insO, outsO, ca, m, fee, ch, q, C⟩ := created_of hs h1
  have hC := created_spec hs C
  obtain ⟨f, hf⟩ := coin_fn (X := X) hs
  obtain ⟨g, hg⟩ := pay_fn (X := X) hs
  obtain ⟨insD, outsD, r1, r2, r3, r4⟩ := C.req
  have hcre : ∀ i ∈ insO, ∃ a txid idx sat, TxIn.create X a txid idx sat = .ok i := by
    intro i hi
    obtain ⟨x, _, ad, txid, v, idx, s, sat, _, _, _, _, _, _, h7⟩ := forall₂_mem_right r3 i hi
    exact ⟨ad, txid, idx, sat, h7⟩
  have hcro : ∀ o ∈ outsO, ∃ a sat, TxOut.create X a sat = .ok o := by
    intro o ho
    obtain ⟨x, _, ad, s, sat, _, _, _, h4⟩ := forall₂_mem_right r4 o ho
    exact ⟨ad, sat, h4⟩
  obtain ⟨insB, outsB, b1, b2, b3, b4⟩ := signed_bytes L hC h2 (fun i hi => hf i (hC.ins i hi)) (fun o ho => hg o (hC.outs o ho))
  rw [h4] at b1; injection b1 with b1; subst b1
  obtain ⟨unused, hperm, hne⟩ := C49_no_invention hs h1 C.req
  -- the design
  have hin : a.inputs = some (.list insD) := by
    simp only [cliTxArgs, Option.some.injEq] at r1
    cases hai : a.inputs with
    | none => rw [hai] at r1; simp at r1
    | some v => rw [hai] at r1; simp only [Option.getD_some] at r1; rw [r1]
  obtain ⟨design, hde⟩ : ∃ d, a.design = some d := by
    cases had : a.design with
    | none => simp [setting, cliTxArgs, had, entry] at r2
    | some d => exact ⟨d, rfl⟩
  have hset : ∀ k, setting (cliTxArgs a) k = entry design k := by
    intro k; simp [setting, cliTxArgs, hde]
  have hca := C.ca_set
  obtain ⟨ow, hol, how⟩ : ∃ b : Bytes, b.length = 20 ∧ addressToHash X ca = .ok (hex b) := by
    obtain ⟨p, _, _, _, _, _, _, hp, _, _⟩ := (create_ok hs).1 h1
    obtain ⟨s1, s2, _⟩ := prepare_settings hp
    rw [hca] at s1
    injection s1 with s1; injection s1 with s1
    rw [s1]
    exact vBitcoinAddress_hash X hs s2
  -- values
  have v1 : (coinTotal (t.inputs.map f) : Int) = inTotal t.inputs := coinTotal_map f _ fun i hi => hf i (hC.ins i hi)
  have v2 : (payTotal (t.outputs.map g) : Int) = outTotal t.outputs := payTotal_map g _ fun i hi => hg i (hC.outs i hi)
  have v3 : (payTotal (outsO.map g) : Int) = outTotal outsO := payTotal_map g _ fun i hi => hg i (hcro i hi)
  obtain ⟨n, rfl⟩ : ∃ n : Nat, fee = n := ⟨fee.toNat, by have := C.fee_money.1; omega⟩
  have hle : outTotal outsO + (n : Int) ≤ inTotal t.inputs := by
    rw [C.sel]
    refine chosen_reach ?_
    rw [inTotal_perm (arranged_perm m insO)]
    exact C.covered
  have hfe := C.fee_eq
  have hch := change_to hs hg how hcro C.change (by omega)
  have hcht : (inTotal t.inputs - (outTotal outsO + (n : Int))).toNat = coinTotal (t.inputs.map f) - payTotal (outsO.map g) - n := by omega
  rw [hcht] at hch
  refine ⟨insO.map f, t.inputs.map f, unused.map f, outsO.map g, t.outputs.map g, insB, outsB, n, insD, outsD, design, ca, ow, hin,
    forall₂_map_of r3 fun p i hi hp => described_coin hs hp (hf i (hcre i hi)), hde, by rw [← hset]; exact r2,
    forall₂_map_of r4 fun p o ho hp => described_pay hs hp (hg o (hcro o ho)), by rw [← hset]; exact hca, AddressOf_of_hash X hs how,
    rfl, b2, ?_, by simpa using hne, b3, hch, by omega, by omega, ?_, ?_, ?_, ?_, ?_, b4⟩
  · rw [← List.map_append]; exact hperm.map f
  · rw [List.length_map, List.length_map]
    exact feeRule_feeFor C.fee_rule C.nin C.nout C.fee_money.2
  · intro v k hv hk
    rw [← hset] at hv
    obtain ⟨v', w, c1, c2, c3, c4⟩ := C.cap
    rw [hv] at c1; injection c1 with c1; subst c1
    have := adjusted_number c2 hk
    subst this
    exact c4
  · have := b2.length_eq; have := hC.frame.icl; simp only [List.length_map] at *; omega
  · have := b3.length_eq; have := hC.frame.ocl; simp only [List.length_map] at *; omega
  · intro c hc
    obtain ⟨i, hi, rfl⟩ := List.mem_map.1 hc
    obtain ⟨j, hj⟩ := List.getElem?_of_mem hi
    obtain ⟨key, _, _, _, pk, k1, k2, _, _, _, _, k3⟩ := C38_right_address X L t ts hC.frame.ht1 a.privateKeysHex none h2 j i hj
    exact ⟨key, k1, pk, k2, addressOf_unique k3 (AddressOf_of_hash X hs (hf i (hC.ins i hi)).own)⟩

/-! ## C60 -/

/-- **C60** violated: the task never ends normally. -/
theorem C60_violation (X : Ext) (a : CliArgs) : (cliSignedHex X a).2 ≠ .ok () := by
  unfold cliSignedHex
  intro h
  have : ∃ l, cliSignedHex X a = (l, .ok ()) := ⟨(cliSignedHex X a).1, by rw [← h]; rfl⟩
  obtain ⟨l, hl⟩ := this
  unfold cliSignedHex at hl
  obtain ⟨_, _, hl⟩ := bindOut_out_ok hl
  obtain ⟨_, _, hl⟩ := bindOut_out_ok hl
  obtain ⟨_, _, hl⟩ := bindOut_out_ok hl
  obtain ⟨_, _, hl⟩ := bindOut_out_ok hl
  simp at hl

/-- **C60** violated: whatever `verify` found, the hex is printed and a NameError raised. -/
theorem C60_violation_prints (X : Ext) (a : CliArgs) (js h : Str) (t : Tx) (bad : Nat) (h1 : a.data = some js)
    (h2 : Tx.fromJson X js = .ok t) (h3 : t.verify X = .ok bad) (h4 : t.toHexSigned = .ok h) :
    cliSignedHex X a = ([h], .error .nameError) := by
  unfold cliSignedHex
  simp [h1, needStr, h2, h3, h4]

/-- **C60**, the part that holds: the only line ever printed is the signed form of the transaction
in the data, and every input of it was checked (the verdict is then ignored). -/
theorem C60_hex_partial (X : Ext) (a : CliArgs) (l : Str) (hl : l ∈ (cliSignedHex X a).1) :
    ∃ js t bad, a.data = some js ∧ Tx.fromJson X js = .ok t ∧ t.verify X = .ok bad ∧ t.toHexSigned = .ok l := by
  unfold cliSignedHex at hl
  cases hd : a.data with
  | none => rw [hd] at hl; simp [needStr] at hl
  | some js =>
    rw [hd] at hl
    simp only [needStr, bindOut_ok] at hl
    cases h1 : Tx.fromJson X js with
    | error e => rw [h1] at hl; simp at hl
    | ok t =>
      rw [h1] at hl
      simp only [bindOut_ok] at hl
      cases h2 : t.verify X with
      | error e => rw [h2] at hl; simp at hl
      | ok bad =>
        rw [h2] at hl
        simp only [bindOut_ok] at hl
        cases h3 : t.toHexSigned with
        | error e => rw [h3] at hl; simp at hl
        | ok h =>
          rw [h3] at hl
          simp at hl
          subst hl
          exact ⟨js, t, bad, rfl, h1, h2, h3⟩

/-! ## C75: the steps done separately give the same transaction -/

/-- the message of the verification tasks -/
def Spec.validMessage (n : Nat) : Str := if n > 1 then py"Valid signatures." else py"Valid signature."

/-- **C75**: if the one-shot task prints a transaction (from amounts in ASCII), then the tasks
create-unsigned-JSON, validate, sign-JSON, verify-JSON, create-hex run one after the other on each
other's output print the same hex, `verify` accepts it in JSON and in hex form, and it can be
decoded. -/
theorem C75_pipeline (L : X.Laws) (a : CliArgs) (h : Str) (hrun : cliOneShot X a = ([h], .ok ())) (hA : AsciiAmounts (cliTxArgs a)) :
    ∃ (js js2 js3 : Str) (n : Nat),
      cliCreateUnsigned X a = ([js], .ok ()) ∧
      (∀ b : CliArgs, b.data = some js → cliValidateUnsigned X b = ([py"Unsigned transaction data validated."], .ok ())) ∧
      (∀ b : CliArgs, b.data = some js → b.privateKeysHex = a.privateKeysHex → cliSignJson X b = ([js2], .ok ())) ∧
      (∀ b : CliArgs, b.data = some js2 → cliVerifyJson X b = ([validMessage n], .ok ())) ∧
      (∀ b : CliArgs, b.data = some js2 → cliSignedHex X b = ([h], .error .nameError)) ∧
      (∀ b : CliArgs, b.data = some h → cliVerifyHex X b = ([validMessage n], .ok ())) ∧
      (∀ b : CliArgs, b.data = some h → cliDecodeHex X b = ([js3], .ok ())) := by
  have hs := L.sha_len
  obtain ⟨t, a', ts, h', t2, e, h1, h2, h3, h4, h5, h6⟩ := C59_prints X a _ hrun
  simp only [List.cons.injEq, and_true] at e
  subst e
  obtain ⟨insO, outsO, ca, m, fee, ch, q, C⟩ := created_of hs h1
  have hC := created_spec hs C
  obtain ⟨⟨js, j1, j2⟩, hsg⟩ := C58_json L h1 hA
  have hst := stored_unsigned hs hC
  -- the stored unsigned transaction, signed
  have hsign : (stored t).sign X a.privateKeysHex none = ({ ts with changeAddress := none }, .ok ()) := by
    rw [hst, sign_ca, h2]
  obtain ⟨pos1, pos2⟩ := C58_amounts_positive hs h1 hA C.req
  have hCons := created_consistent hs C pos1 pos2
  have hCons' := C29_signing_keeps_consistency X L t ts hCons _ _ h2
  have hu := C39_only_signatures X t a.privateKeysHex none
  rw [h2] at hu
  have houts : ts.outputs = t.outputs := by
    have := congrArg Tx.outputs hu; simpa [unsignedTx] using this
  have hins : ts.inputs.map unsignedPart = t.inputs.map unsignedPart := by
    have := congrArg Tx.inputs hu; simpa [unsignedTx] using this
  -- JSON of the signed transaction without change address
  obtain ⟨sj, sj1, _⟩ := hsg _ _ _ h2
  have hConsN : Consistent X { ts with changeAddress := none } := ⟨⟨hCons'.frame.1, hCons'.frame.2, hCons'.frame.3, hCons'.frame.4, hCons'.frame.5, hCons'.frame.6, hCons'.frame.7, hCons'.frame.8⟩, hCons'.ins, hCons'.outs⟩
  obtain ⟨i1, o1, l1, l2, _, _⟩ := signed_raw X L hC h2
  have hhex : h = hex (txBytes i1 o1) := by
    have := signed_hex hCons'.frame l1 l2
    rw [h4] at this; injection this
  have hhexN : ({ ts with changeAddress := none } : Tx).toHexSigned = .ok (hex (txBytes i1 o1)) := by rw [← hhex]; exact h4
  have hbal : sumOut ts ≤ sumIn ts ∧ sumIn ts ≤ maxMoney := by
    refine (C29_to_dict_succeeds X hs ts hCons' fun _ => ⟨_, by rw [h4, hhex]⟩).1 ?_
    simp only [Tx.toJson, R_bind_eq_ok] at sj1
    obtain ⟨x, hx, _⟩ := sj1
    exact ⟨x, hx⟩
  obtain ⟨x2, hx2⟩ := (C29_to_dict_succeeds X hs _ hConsN fun _ => ⟨_, hhexN⟩).2 hbal
  have hj2 : ({ ts with changeAddress := none } : Tx).toJson X = .ok (X.jsonDumps x2) := by
    simp only [Tx.toJson, hx2, R_bind_ok, R_pure]
  have hload2 := C29_json_round_trip X L _ hConsN _ hj2
  have hver2 : ({ ts with changeAddress := none } : Tx).verify X = .ok 0 := by
    have := verify_map ts id none (fun _ => rfl) (fun _ => rfl) (fun _ => rfl) h3
    simpa using this
  have hver3 : (stored { ts with changeAddress := none }).verify X = .ok 0 := stored_verify hver2
  have hhex3 : (stored { ts with changeAddress := none }).toHexSigned = .ok h := by rw [stored_hex, hhexN, hhex]
  -- the decoded transaction
  obtain ⟨s', k1, k2, k3, k4⟩ := C35_signed_round_trip X L t ts hC _ _ h2
  rw [h4] at k1; injection k1 with k1; subst k1
  have hne : ts.inputs ≠ [] := by
    obtain ⟨_, _, hne⟩ := C49_no_invention hs h1 C.req
    intro he
    rw [he] at hins
    simp at hins
    exact hne hins
  have hdec : ∃ x3, ({ ts with inputs := ts.inputs.map forgetAmount, changeAddress := none } : Tx).toDict X.uni = .ok x3 := by
    obtain ⟨i, l, hl⟩ := List.exists_cons_of_ne_nil hne
    have hin0 : ({ ts with inputs := ts.inputs.map forgetAmount, changeAddress := none } : Tx).signed = true := by
      have := (C37_sign_then_verify X L t ts hC.frame.ht1 _ _ h2).1
      simp only [Tx.signed, List.all_eq_true] at this ⊢
      intro i hi
      obtain ⟨i0, hi0, rfl⟩ := List.mem_map.1 hi
      exact this i0 hi0
    have hunk : ∃ i ∈ ({ ts with inputs := ts.inputs.map forgetAmount, changeAddress := none } : Tx).inputs, i.satoshi = none :=
      ⟨forgetAmount i, by simp [hl], rfl⟩
    have ho : ∀ o ∈ ts.outputs, 0 ≤ o.satoshi := by
      intro o hoo
      obtain ⟨a, sat, hc, h1⟩ := hCons'.outs o hoo
      rw [(create_satoshi hs hc).1]; omega
    have ho0 := outTotal_nonneg ho
    rw [sumIn_total, sumOut_total] at hbal
    obtain ⟨tov, hto⟩ : ∃ n : Nat, outTotal ts.outputs = n := ⟨(outTotal ts.outputs).toNat, by omega⟩
    obtain ⟨chv, hch⟩ := changePart_ok X.uni (t := { ts with inputs := ts.inputs.map forgetAmount, changeAddress := none }) ho
      (by show outTotal ts.outputs ≤ _; omega)
    obtain ⟨s, f, hsf⟩ : ∃ s f, ({ ts with inputs := ts.inputs.map forgetAmount, changeAddress := none } : Tx).sizePart = .ok (s, f) := by
      unfold Tx.sizePart
      simp only [hin0, k3, hhex, R_bind_ok, hexLen_hex, if_true]
      cases ({ ts with inputs := ts.inputs.map forgetAmount, changeAddress := none } : Tx).fee <;> exact ⟨_, _, rfl⟩
    refine ⟨_, toDict_ok.2 ⟨10 + 179 * ts.inputs.length + 34 * ts.outputs.length, _, _, _, _, btcText tov, chv, s, f, ?_,
      knownPart_unknown hunk, ?_, hch, hsf, rfl⟩⟩
    · simp only [List.length_map]
      rw [C44_estimate, if_pos]
      have := hCons'.frame.icl; have := hCons'.frame.ocl; omega
    · show satoshiToBitcoin X.uni (outTotal ts.outputs) = _
      rw [hto]; exact satoshiToBitcoin_nat _ (by omega)
  obtain ⟨x3, hx3⟩ := hdec
  refine ⟨js, X.jsonDumps x2, X.jsonDumps x3, ts.inputs.length, ?_, ?_, ?_, ?_, ?_, ?_, ?_⟩
  · unfold cliCreateUnsigned
    simp only [h1, bindOut_ok, j1, printThen_mk, j2]
  · intro b hb
    unfold cliValidateUnsigned
    simp only [hb, needStr, bindOut_ok, j2]
  · intro b hb hk
    unfold cliSignJson
    simp only [hb, needStr, bindOut_ok, j2, hk, hsign, hj2, printThen_mk, hver2, ne_eq, not_true_eq_false, if_false]
  · intro b hb
    unfold cliVerifyJson
    have hl : (stored { ts with changeAddress := none }).inputs.length = ts.inputs.length := by simp [stored]
    simp only [hb, needStr, bindOut_ok, hload2, hver3, hl, if_true, validMessage]
    split <;> rfl
  · intro b hb
    exact C60_violation_prints X b _ h _ 0 hb hload2 hver3 hhex3
  · intro b hb
    unfold cliVerifyHex dataStripped
    have hl : ({ ts with inputs := ts.inputs.map forgetAmount, changeAddress := none } : Tx).inputs.length = ts.inputs.length := by simp
    simp only [hb, hhex, strip_hex, bindOut_ok]
    rw [← hhex]
    simp only [k2, k4, bindOut_ok, hl, ne_eq, not_true_eq_false, if_false, validMessage]
    split <;> rfl
  · intro b hb
    unfold cliDecodeHex dataStripped
    simp only [hb, hhex, strip_hex, bindOut_ok]
    rw [← hhex]
    simp only [k2, k4, bindOut_ok, Tx.toJson, hx3, R_bind_ok, R_pure, printThen_mk, ne_eq, not_true_eq_false, if_false]

end BT
