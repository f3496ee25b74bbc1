import Verif.Props.CliRun

/-! # The hypotheses of C74 and C83-C87 are met -/

namespace BT.Concrete
open BT BT.Spec

def asPVal (o : Option PVal) : PVal := o.getD .none

/-- A disk with a directory of two key files and a note, the two transaction files and a signed transaction whose
outputs were exchanged after signing.  `order` is the order of the directory. -/
def disk (order : List Str) : FS where
  read f :=
    if f = py"keys/a.txt" then .ok (hex32 1 ++ py"\n")
    else if f = py"keys/b.txt" then .ok (py" " ++ hex32 2 ++ py"\r\n")
    else if f = py"inputs.json" then .ok (Xtoy.jsonDumps (asPVal argsFee.inputs))
    else if f = py"design.json" then .ok (Xtoy.jsonDumps (asPVal argsFee.design))
    else if f = py"bad.json" then swapped
    else .error .osError
  listDir d := if d = py"keys" then .ok order else .error .osError

def order1 : List Str := [py"a.txt", py"notes.md", py"b.txt", py".txt"]
def order2 : List Str := [py".txt", py"b.txt", py"a.txt", py"notes.md"]

/-- a shell that finds `python3` -/
def shell0 : Shell := fun _ => (py"Python 3.8.10", [], 0)

/-- a shell that complains -/
def shell1 : Shell := fun _ => ([], py"sh: command: not found", 127)

def runCreate : RawArgs :=
  { task := py"create_transaction", privateKeyDir := some py"keys", inputFile := some py"inputs.json",
    designFile := some py"design.json" }

theorem blank_nl : Blank Xtoy py"\n" := by intro c hc; simp at hc; subst hc; decide
theorem blank_crnl : Blank Xtoy py"\r\n" := by intro c hc; simp at hc; rcases hc with rfl | rfl <;> decide
theorem blank_sp : Blank Xtoy py" " := by intro c hc; simp at hc; subst hc; decide

theorem hex32_noBlank (n : Nat) : NoBlank Xtoy (hex32 n) := by
  unfold hex32; rw [bytesHex_eq]; exact hex_noBlank _

theorem pad_a : Padded Xtoy (hex32 1) (hex32 1 ++ py"\n") := ⟨[], py"\n", by simp [Blank], blank_nl, by simp⟩
theorem pad_b : Padded Xtoy (hex32 2) (py" " ++ hex32 2 ++ py"\r\n") := ⟨py" ", py"\r\n", blank_sp, blank_crnl, rfl⟩

/-- the hypotheses of C83 for key files are met -/
example : ∀ p ∈ [(py"keys/a.txt", hex32 1), (py"keys/b.txt", hex32 2)],
    NoBlank Xtoy p.2 ∧ ∃ s, (disk order1).read p.1 = .ok s ∧ Padded Xtoy p.2 s := by
  intro p hp
  simp only [List.mem_cons, List.not_mem_nil, or_false] at hp
  rcases hp with rfl | rfl
  · exact ⟨hex32_noBlank 1, _, rfl, pad_a⟩
  · exact ⟨hex32_noBlank 2, _, rfl, pad_b⟩

/-- the hypotheses of C83 for a key directory are met; only two of the four files count as key files -/
example : ∀ n ∈ order1, HasTxtExt n → NoBlank Xtoy (if n = py"a.txt" then hex32 1 else hex32 2) ∧
    ∃ s, (disk order1).read (py"keys" ++ py"/" ++ n) = .ok s ∧ Padded Xtoy (if n = py"a.txt" then hex32 1 else hex32 2) s := by
  intro n hn ht
  simp only [order1, List.mem_cons, List.not_mem_nil, or_false] at hn
  rcases hn with rfl | rfl | rfl | rfl
  · exact ⟨hex32_noBlank 1, _, rfl, pad_a⟩
  · exact absurd ((isTxt_iff _).2 ht) (by decide)
  · exact ⟨hex32_noBlank 2, _, rfl, pad_b⟩
  · exact absurd ((isTxt_iff _).2 ht) (by decide)

theorem keys12_apart : NoCollision Xtoy keys12 := by
  have h : (match privateKeyToAddress Xtoy (hex32 1), privateKeyToAddress Xtoy (hex32 2) with
    | .ok a, .ok b => a != b | _, _ => false) = true := by decide +kernel
  have hne : ∀ a, privateKeyToAddress Xtoy (hex32 1) = .ok a → privateKeyToAddress Xtoy (hex32 2) = .ok a → False := by
    intro a h1 h2; rw [h1, h2] at h; simp at h
  intro k hk k' hk' a h1 h2
  simp only [keys12, List.mem_cons, List.not_mem_nil, or_false] at hk hk'
  rcases hk with rfl | rfl <;> rcases hk' with rfl | rfl
  · rfl
  · exact (hne a h1 h2).elim
  · exact (hne a h2 h1).elim
  · rfl

theorem disk_keys : loadKeys Xtoy (disk order1) runCreate = .ok keys12 := by
  have : (match loadKeys Xtoy (disk order1) runCreate with | .ok l => l == keys12 | _ => false) = true := by decide +kernel
  split at this
  · rename_i l h; rw [h, beq_iff_eq.1 this]
  · simp at this

/-- the hypotheses of C84 for a directory are met -/
example : SameFiles (disk order1) (disk order2) ∧ (∀ keys, loadKeys Xtoy (disk order1) runCreate = .ok keys → NoCollision Xtoy keys) := by
  refine ⟨⟨rfl, fun d => ?_⟩, fun keys h => ?_⟩
  · by_cases hd : d = py"keys"
    · right
      refine ⟨order1, order2, by simp [disk, hd], by simp [disk, hd], by decide⟩
    · left; simp [disk, hd]
  · rw [disk_keys] at h; injection h with h; subst h; exact keys12_apart

/-- **C74**, **C83**: a run from files ends with exit status 0 -/
theorem runCreate_ok : exitStatus (cliRun Xtoy (disk order1) shell0 (.ok ()) runCreate) = 0 := by decide +kernel

/-- the same with the other order -/
example : exitStatus (cliRun Xtoy (disk order2) shell0 (.ok ()) runCreate) = 0 := by decide +kernel

/-- the hypotheses of C84 are met by a signing that succeeds: two keys in the other order, one repeated -/
example : (∀ k, k ∈ keys12 ↔ k ∈ [hex32 2, hex32 1, hex32 2]) := by
  intro k; simp [keys12]; tauto

/-- the signed sample in hex -/
def sampleHex : Str :=
  match (do let t ← sampleSigned Xtoy; t.toHexSigned : R Str) with
  | .ok h => h
  | .error _ => []

/-- the hypotheses of C85 (white space) and of the hex part of C86 are met: the sample followed by a newline -/
example : (∀ c ∈ sampleHex, isSpaceChar' Xtoy.uni.space c = false) ∧ sampleHex.length > 800 ∧
    exitStatus (cliRun Xtoy (disk order1) shell0 (.ok ())
      { task := py"verify_signed_transaction_hex", data := some (sampleHex ++ py"\n") }) = 0 ∧
    exitStatus (cliRun Xtoy (disk order1) shell0 (.ok ())
      { task := py"decode_signed_transaction_hex", data := some (sampleHex ++ py"\n") }) = 0 := by decide +kernel

/-- the unsigned sample as JSON -/
def sampleJson : Str :=
  match (do let t ← sampleTx Xtoy; t.toJson Xtoy : R Str) with
  | .ok h => h
  | .error _ => []

/-- the hypothesis of the JSON part of C86 is met -/
example : exitStatus (cliRun Xtoy (disk order1) shell0 (.ok ())
      { task := py"create_signed_transaction_json", privateKeyDir := some py"keys", data := some sampleJson }) = 0 := by
  decide +kernel

def runVerify : RawArgs := { task := py"verify_signed_transaction_json", dataFile := some py"bad.json" }

end BT.Concrete

namespace BT
open BT.Concrete

/-- **C86** violated by a run of the program: a file with a transaction with two invalid signatures, exit status 0. -/
theorem C86_violation_occurs : ∃ (js : Str) (t : Tx), (disk order1).read py"bad.json" = .ok js ∧ Tx.fromJson Xtoy js = .ok t ∧
    t.verify Xtoy = .ok 2 ∧ cliRun Xtoy (disk order1) shell0 (.ok ()) runVerify = ([py"Invalid signatures!."], .ok ()) := by
  have h1 : (do let js ← swapped; let t ← Tx.fromJson Xtoy js; let n ← t.verify Xtoy; assertR (n == 2 && t.inputs.length == 2) : R Unit).isOk = true := by
    decide +kernel
  obtain ⟨u, hu⟩ := isOk_exists h1
  simp only [R_bind_eq_ok, assertR_ok, Bool.and_eq_true, beq_iff_eq] at hu
  obtain ⟨js, e1, t, e2, n, e3, e5, e6⟩ := hu
  subst e5
  refine ⟨js, t, e1, e2, e3, ?_⟩
  rw [C85_data_file Xtoy (disk order1) shell0 (.ok ()) runVerify py"bad.json" js (by simp) rfl e1]
  obtain ⟨q1, q2⟩ := C86_violation_json Xtoy (disk order1) shell0 { runVerify with dataFile := none, data := some js } [] js t 2 rfl rfl
    rfl rfl e2 e3 (by decide)
  rw [e6] at q2
  generalize cliRun Xtoy (disk order1) shell0 (.ok ()) { runVerify with dataFile := none, data := some js } = o at q1 q2
  obtain ⟨l, res⟩ := o
  simp only at q2
  subst q2
  cases res with
  | ok u => rfl
  | error e => simp [exitStatus] at q1

/-- **C86** violated: a signature of another text, exit status 0. -/
theorem C86_violation_data_occurs : ∃ (pk sig : Str),
    cliSignData Xtoy (hex32 1) { task := py"sign_data", data := some py"pay 1" } = ([sig], .ok ()) ∧
    cliGetPublicKey Xtoy (hex32 1) = ([pk], .ok ()) ∧
    cliRun Xtoy (disk order1) shell0 (.ok ())
      { task := py"verify_data_signature", data := some py"pay 1000", publicKeyHex := some pk, signatureHex := some sig } =
        ([py"Invalid signature!"], .ok ()) := by
  have h : (match cliSignData Xtoy (hex32 1) { task := py"sign_data", data := some py"pay 1" },
      cliGetPublicKey Xtoy (hex32 1) with
    | ([sig], .ok _), ([pk], .ok _) =>
      (match cliRun Xtoy (disk order1) shell0 (.ok ())
        { task := py"verify_data_signature", data := some py"pay 1000", publicKeyHex := some pk, signatureHex := some sig } with
      | ([s], .ok _) => s == py"Invalid signature!"
      | _ => false)
    | _, _ => false) = true := by decide +kernel
  split at h
  · rename_i sig u pk u' e1 e2
    split at h
    · rename_i s u'' e3
      exact ⟨pk, sig, e1, e2, by rw [e3, beq_iff_eq.1 h]⟩
    · simp at h
  · simp at h

/-- **C87** violated by a run of the program: a misspelt task. -/
theorem C87_violation_occurs : exitStatus (cliRun Xtoy (disk order1) shell0 (.ok ()) { runCreate with task := py"create_transactoin" }) = 0 := by
  decide +kernel

/-- **C87** violated by a run of the program: `get_python_version` with a failing shell. -/
theorem C87_violation_shell_occurs : exitStatus (cliRun Xtoy (disk order1) shell1 (.ok ()) { task := py"get_python_version" }) = 0 := by
  decide +kernel

end BT
