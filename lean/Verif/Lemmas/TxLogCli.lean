import Verif.Lemmas.TxLog

/-!
# Without its log a task is the task of the model
-/

namespace BT.Lg

theorem printR_eq (r : R Str) : printR r = bindOut r fun s => ([s], .ok ()) := by cases r <;> rfl

/-- push `out` to the leaves -/
macro "push_out" : tactic => `(tactic| simp only [out_run, out_print, out_print_last, out_pure, out_refuse, out_deb, out_info,
  out_ite, out_bind (np_create _ _ _), out_bind (np_toJson _ _), out_bind (np_fromJson _ _), out_bind (np_signed _ _ _),
  out_bind (np_verify _ _), out_bind (np_fromHexSigned _ _), out_bind (np_toHexSigned _), o_create, o_toJson, o_fromJson, o_signed,
  o_verify, o_fromHexSigned, o_toHexSigned])

theorem out_hello (l : Str) : (cliHello l).out = ([py"hello world"], .ok ()) := rfl

theorem out_getWif (X : Ext) (k : Str) : (cliGetWif X k).out = BT.cliGetWif X k := by
  unfold cliGetWif BT.cliGetWif
  push_out
  rw [printR_eq]

theorem out_wifToHex (X : Ext) (a : CliArgs) : (cliWifToHex X a).out = BT.cliWifToHex X a := by
  unfold cliWifToHex BT.cliWifToHex
  push_out
  simp only [printR_eq]

theorem out_getPublicKey (X : Ext) (k : Str) : (cliGetPublicKey X k).out = BT.cliGetPublicKey X k := by
  unfold cliGetPublicKey BT.cliGetPublicKey
  push_out
  rw [printR_eq]

theorem out_getAddress (X : Ext) (k : Str) : (cliGetAddress X k).out = BT.cliGetAddress X k := by
  unfold cliGetAddress BT.cliGetAddress
  push_out
  rw [printR_eq]

theorem out_signData (X : Ext) (k : Str) (a : CliArgs) : (cliSignData X k a).out = BT.cliSignData X k a := by
  unfold cliSignData BT.cliSignData
  push_out

theorem out_verifyData (X : Ext) (a : CliArgs) : (cliVerifyData X a).out = BT.cliVerifyData X a := by
  unfold cliVerifyData BT.cliVerifyData
  push_out

theorem out_createUnsigned (E : Msg.Env) (X : Ext) (a : CliArgs) : (cliCreateUnsigned E X a).out = BT.cliCreateUnsigned X a := by
  unfold cliCreateUnsigned BT.cliCreateUnsigned
  push_out

theorem out_validateUnsigned (X : Ext) (a : CliArgs) : (cliValidateUnsigned X a).out = BT.cliValidateUnsigned X a := by
  unfold cliValidateUnsigned BT.cliValidateUnsigned
  push_out

theorem bindOut_bind {α β : Type} (r : R α) (f : α → R β) (k : β → CliOut) :
    bindOut (r >>= f) k = bindOut r fun a => bindOut (f a) k := by cases r <;> rfl

theorem bindOut_ok {α : Type} (a : α) (k : α → CliOut) : bindOut (.ok a) k = k a := rfl

theorem out_signJson (X : Ext) (a : CliArgs) : (cliSignJson X a).out = BT.cliSignJson X a := by
  unfold cliSignJson BT.cliSignJson
  push_out
  simp only [bindOut_bind, bindOut_ok]

theorem out_verifyJson (X : Ext) (a : CliArgs) : (cliVerifyJson X a).out = BT.cliVerifyJson X a := by
  unfold cliVerifyJson BT.cliVerifyJson plural
  push_out

theorem out_signedHex (X : Ext) (a : CliArgs) : (cliSignedHex X a).out = BT.cliSignedHex X a := by
  unfold cliSignedHex BT.cliSignedHex
  push_out

theorem out_decodeHex (X : Ext) (a : CliArgs) : (cliDecodeHex X a).out = BT.cliDecodeHex X a := by
  unfold cliDecodeHex BT.cliDecodeHex
  push_out

theorem out_verifyHex (X : Ext) (a : CliArgs) : (cliVerifyHex X a).out = BT.cliVerifyHex X a := by
  unfold cliVerifyHex BT.cliVerifyHex plural
  push_out
  simp only [out_bind (NoPrint.refuse _ _), o_refuse]
  rfl

theorem out_oneShot (E : Msg.Env) (X : Ext) (a : CliArgs) : (cliOneShot E X a).out = BT.cliOneShot X a := by
  unfold cliOneShot BT.cliOneShot
  push_out
  simp only [bindOut_bind, bindOut_ok, out_bind (NoPrint.refuse _ _), o_refuse]
  rfl

theorem out_dispatch (E : Msg.Env) (X : Ext) (a : CliArgs) : (dispatch E X a).out = cliDispatch X a := by
  unfold dispatch cliDispatch
  simp only [out_ite, out_hello, out_getWif, out_wifToHex, out_getPublicKey, out_getAddress, out_signData, out_verifyData,
    out_createUnsigned, out_validateUnsigned, out_signJson, out_verifyJson, out_signedHex, out_decodeHex, out_verifyHex,
    out_oneShot, out_print_last]
  by_cases h1 : a.task = py"hello"
  · simp only [h1, true_or, if_true]
  · by_cases h2 : a.task = py"hello2"
    · simp only [h2, or_true, if_true]
      rfl
    · simp only [h1, h2, or_self, if_false]

theorem out_task (E : Msg.Env) (X : Ext) (sh : Shell) (a : CliArgs) : (task E X sh a).out = cliTask X sh a := by
  unfold task cliTask
  rw [out_ite, out_dispatch]
  congr 1
  unfold cliPythonVersion W.out W.outcome
  generalize BT.cliPythonVersion X sh = o
  obtain ⟨l, r⟩ := o
  have hp : prints (l.map .print) = l := by
    induction l with
    | nil => rfl
    | cons x xs ih => simp only [List.map_cons, prints, ih]
  simp only [hp]
  cases r <;> rfl

end BT.Lg
