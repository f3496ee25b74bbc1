import Verif.Props.Real
-- imported only so that two modules that need much memory are not built at the same time
import Verif.Conformance.Create2

/-! # The hypotheses of C91-C93 are met -/

namespace BT.Concrete
open BT BT.Spec

/-- A disk with the keys 1 and 2, three coins that belong to them and a design with a change address. -/
def realDisk : FS where
  read f :=
    if f = py"a.txt" then .ok (hex32 1 ++ py"\n")
    else if f = py"b.txt" then .ok (hex32 2)
    else if f = py"inputs.json" then .ok (py"[{\"address\": \"1EHNa6Q4Jz2uvNExL497mE43ikXhwF6kZm\", \"transaction_id\": \"" ++
      List.replicate 64 'a' ++ py"\", \"previous_output_index\": 3, \"bitcoin_amount\": \"0.0007\"}, {\"address\": \"1LagHJk2FyCV2VzrNHVqg3gYG4TSYwDV4m\", \"transaction_id\": \"" ++
      List.replicate 64 'b' ++ py"\", \"previous_output_index\": 0, \"bitcoin_amount\": \"0.0003\"}]")
    else if f = py"design.json" then .ok (py"{\"change_address\": \"1EHNa6Q4Jz2uvNExL497mE43ikXhwF6kZm\", \"fee\": 1000, \"max_fee\": 250000, \"max_spend_percentage\": \"100.00\", \"outputs\": [{\"address\": \"1LagHJk2FyCV2VzrNHVqg3gYG4TSYwDV4m\", \"bitcoin_amount\": \"0.0008\"}]}")
    else .error .osError
  listDir _ := .error .osError

def realArgs : RawArgs :=
  { task := py"create_transaction", privateKeyFile := [[py"a.txt", py"b.txt"]], inputFile := some py"inputs.json",
    designFile := some py"design.json" }

/-- **C91**: the run ends with exit status 0 -/
theorem real_run : exitStatus (cliRun Xreal realDisk (fun _ => (py"Python 3.8.10", [], 0)) (.ok ()) realArgs) = 0 := by decide +kernel

/-- the transaction it prints has inputs, and is what C91 speaks about -/
example : ∃ (ins : List RawIn) (outs : List RawOut), ins ≠ [] ∧
    (cliRun Xreal realDisk (fun _ => (py"Python 3.8.10", [], 0)) (.ok ()) realArgs).1 = [hex (txBytes ins outs)] := by
  obtain ⟨_, spent, ins, outs, _, _, _, _, _, _, _, _, hne, h, h2, _⟩ := C91_program _ _ _ _ (.inl rfl) real_run
  refine ⟨ins, outs, fun e => ?_, h⟩
  subst e
  exact hne (List.forall₂_nil_right_iff.1 h2)

/-- **C92**: a key, its public key and its address -/
example : privateKeyToAddress Xreal (hex32 1) = .ok py"1EHNa6Q4Jz2uvNExL497mE43ikXhwF6kZm" := by decide +kernel

/-- the arguments: public key 1, a signature by it of "hello world", a text -/
def sigArgs (d : Str) : CliArgs :=
  { task := py"verify_data_signature"
    data := some d
    publicKeyHex := (match privateKeyToPublicKey Xreal (hex32 1) with | .ok p => some p | .error _ => none)
    signatureHex := (match Xreal.signData (hex32 1) (hex (asciiBytes py"hello world")) with | .ok g => some g | .error _ => none) }

/-- **C93**: both verdicts occur, and the lengths are those of the hypotheses -/
example : cliVerifyData Xreal (sigArgs py"hello world") = ([py"Valid signature."], .ok ()) ∧
    cliVerifyData Xreal (sigArgs py"hello worlds") = ([py"Invalid signature!"], .ok ()) ∧
    ((sigArgs []).publicKeyHex.map List.length, (sigArgs []).signatureHex.map List.length) = (some 128, some 128) := by
  decide +kernel

end BT.Concrete
