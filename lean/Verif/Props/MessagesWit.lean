import Verif.Props.Messages2

/-!
# Witnesses for C104 - C108

`repr` of CPython 3.11 on sample values, complete texts, and inputs that meet the hypotheses.
-/

namespace BT

open Msg

/-- An environment for examples: the printable non-ASCII characters that occur below. -/
def exEnv : Env := ⟨fun _ => py"nan", fun c => [0xe9, 0x4e2d, 0x1f600].contains c.toNat⟩

example : Msg.repr exEnv (.str ['a', 'b', 'c']) = ['\'', 'a', 'b', 'c', '\''] := by decide +kernel
example : Msg.repr exEnv (.str ['i', 't', '\'', 's']) = ['"', 'i', 't', '\'', 's', '"'] := by decide +kernel
example : Msg.repr exEnv (.str ['s', 'a', 'y', ' ', '"', 'x', '"']) = ['\'', 's', 'a', 'y', ' ', '"', 'x', '"', '\''] := by decide +kernel
example : Msg.repr exEnv (.str ['b', 'o', 't', 'h', ' ', '\'', ' ', 'a', 'n', 'd', ' ', '"']) = ['\'', 'b', 'o', 't', 'h', ' ', '\\', '\'', ' ', 'a', 'n', 'd', ' ', '"', '\''] := by decide +kernel
example : Msg.repr exEnv (.str ['t', 'a', 'b', Char.ofNat 0x9, 'n', 'l', Char.ofNat 0xa, 'c', 'r', Char.ofNat 0xd]) = ['\'', 't', 'a', 'b', '\\', 't', 'n', 'l', '\\', 'n', 'c', 'r', '\\', 'r', '\''] := by decide +kernel
example : Msg.repr exEnv (.str ['b', 'a', 'c', 'k', '\\', 's', 'l', 'a', 's', 'h']) = ['\'', 'b', 'a', 'c', 'k', '\\', '\\', 's', 'l', 'a', 's', 'h', '\''] := by decide +kernel
example : Msg.repr exEnv (.str [Char.ofNat 0x0, Char.ofNat 0x1b, Char.ofNat 0x7f]) = ['\'', '\\', 'x', '0', '0', '\\', 'x', '1', 'b', '\\', 'x', '7', 'f', '\''] := by decide +kernel
example : Msg.repr exEnv (.str [Char.ofNat 0xe9, Char.ofNat 0xa0, Char.ofNat 0xad]) = ['\'', Char.ofNat 0xe9, '\\', 'x', 'a', '0', '\\', 'x', 'a', 'd', '\''] := by decide +kernel
example : Msg.repr exEnv (.str [Char.ofNat 0x2028, Char.ofNat 0x4e2d, Char.ofNat 0x1f600, Char.ofNat 0xe000]) = ['\'', '\\', 'u', '2', '0', '2', '8', Char.ofNat 0x4e2d, Char.ofNat 0x1f600, '\\', 'u', 'e', '0', '0', '0', '\''] := by decide +kernel
example : Msg.repr exEnv (.str []) = ['\'', '\''] := by decide +kernel
example : Msg.repr exEnv (.none) = ['N', 'o', 'n', 'e'] := by decide +kernel
example : Msg.repr exEnv (.bool true) = ['T', 'r', 'u', 'e'] := by decide +kernel
example : Msg.repr exEnv (.bool false) = ['F', 'a', 'l', 's', 'e'] := by decide +kernel
example : Msg.repr exEnv (.int (0)) = ['0'] := by decide +kernel
example : Msg.repr exEnv (.int (-17)) = ['-', '1', '7'] := by decide +kernel
example : Msg.repr exEnv (.int (123456789012345678901)) = ['1', '2', '3', '4', '5', '6', '7', '8', '9', '0', '1', '2', '3', '4', '5', '6', '7', '8', '9', '0', '1'] := by decide +kernel
example : Msg.repr exEnv (.list [.int (1), .str ['a'], .none]) = ['[', '1', ',', ' ', '\'', 'a', '\'', ',', ' ', 'N', 'o', 'n', 'e', ']'] := by decide +kernel
example : Msg.repr exEnv (.dict []) = ['{', '}'] := by decide +kernel
example : Msg.repr exEnv (.list []) = ['[', ']'] := by decide +kernel
example : Msg.repr exEnv (.dict [(['k'], .list [.dict [(['x'], .str ['y', '\''])]]), ([Char.ofNat 0xe9], .bool false)]) = ['{', '\'', 'k', '\'', ':', ' ', '[', '{', '\'', 'x', '\'', ':', ' ', '"', 'y', '\'', '"', '}', ']', ',', ' ', '\'', Char.ofNat 0xe9, '\'', ':', ' ', 'F', 'a', 'l', 's', 'e', '}'] := by decide +kernel

/-! Complete texts. -/

example : Msg.vHex exEnv (.str py"12g4\n\t") (some py"key of the wallet") (some py"wallet.json") = .error (.valueError,
    py"In location 'wallet.json', for variable 'key' of the wallet, expected a 'hex', but received value '12g4\\n\\t', where the chars at indices [2, 4, 5] (with values 'g,\\n,\t') are not hex chars.") := by
  decide +kernel

example : Msg.vHexLength exEnv (.str py"1234") 32 none none none = .error (.valueError,
    py"Expected a 'hex_length_32_bytes', but received value '1234', whose length is 4 chars, not 64 chars.") := by decide +kernel

example : Msg.vHex exEnv (.str py"123") none none = .error (.valueError,
    py"Expected a 'hex', but received value '123', whose length is not an even number (3 chars).") := by decide +kernel

example : Msg.vInteger exEnv (.str py"5") (some py"n") none none = .error (.typeError,
    py"For variable 'n', received value '5', which has type 'str', not 'int'.") := by decide +kernel

example : Msg.vPositiveInteger exEnv (.bool false) none none = .error (.valueError,
    py"Expected a 'positive_integer', but received value False, which is less than 1.") := by decide +kernel

example (u : UniDB) : Msg.vStrPositiveInteger exEnv u (.str py"1x-2") none none = .error (.valueError,
    py"Expected a 'string_is_positive_integer', but received value '1x-2', where the chars at indices [1, 2] (with values ['x', '-']) are not digits.") := by
  have h : (fun c => !isDigitChar u c) = fun c => if c.toNat < 128 then !(asciiDigit c).isSome else !((u.decimal c).isSome || u.otherDigit c) := by
    funext c; unfold isDigitChar; split <;> rfl
  unfold Msg.vStrPositiveInteger
  rw [h]
  rfl

example : Msg.vPrintableAscii exEnv (.str (py"ab\nc" ++ [Char.ofNat 0x1b] ++ py"d")) none none = .error (.valueError,
    py"Expected a 'string_is_printable_ascii', but received value 'ab\\nc\\x1bd', Line 1, index 2: Character '" ++ [Char.ofNat 0x1b] ++
    py"' (ord=27) is not in the list of permitted data characters.") := by decide +kernel

example : Msg.vListContains [py"inputs"] [py"inputs", py"design"] = .error (.valueError,
    py"Some items are not in the list.\nList items:\n- inputs\nItems not found:\n- design") := by decide +kernel

example : Msg.vIntegerDomain 101 0 100 = .error (.valueError,
    py"\nInput is greater than the maximum value.\n- Maximum value: 100\n- Input: 101\n") := by decide +kernel

/-! Hypotheses that are met. -/

/-- C104: a value of a wrong type. -/
example : ∃ m, Msg.vString exEnv (.list [.int 1]) (some py"x") none none = .error (.typeError, m) := ⟨_, rfl⟩

/-- C104: the violation theorems apply. -/
example : (∀ s, PVal.int 5 ≠ .str s) ∧ (some py"name" : Option Str) ≠ none := ⟨fun _ h => by simp at h, by simp⟩

/-- C105: values without floats. -/
example : NoFloat (.list [.str py"a", .dict [(py"k", .int 3)]]) :=
  .list _ fun x hx => by
    simp only [List.mem_cons, List.not_mem_nil, or_false] at hx
    rcases hx with rfl | rfl
    · exact .str _
    · exact .dict _ fun p hp => by
        simp only [List.mem_singleton] at hp
        subst hp
        exact .int _

/-- C106: positions in a concrete text. -/
example : Positions (fun c => c ∉ py"0123456789abcdef") py"1g2H" [1, 3] := by
  have := badChars_positions notHex py"1g2H"
  simp only [notHex_iff] at this
  exact this

/-- C106: the first character that is not permitted. -/
example : FirstBad (fun c => (0x20 ≤ c.toNat ∧ c.toNat ≤ 0x7e) ∨ c = '\t' ∨ c = '\n') (py"ab\nc" ++ [Char.ofNat 0x1b] ++ py"d") 1 2 (Char.ofNat 0x1b) :=
  ⟨py"ab\nc", py"d", rfl, by decide, by decide, by decide, Or.inr ⟨py"ab", py"c", rfl, by decide, rfl⟩⟩

/-- C107: a key with a digit missing, and a wrong checksum. -/
example : vHexLength (List.replicate 63 '1') 32 ≠ .ok () ∧ ∀ c ∈ List.replicate 63 '1', c ∈ py"0123456789abcdefABCDEF" := by decide +kernel

example : ∃ w m, wifToPrivateKey Concrete.Xtoy w = .error .valueError ∧ checksumText Concrete.Xtoy w = some m ∧ Spec.hex (List.replicate 32 7) <:+: m := by
  have h : ([1, 2, 3, 4] : Bytes) ≠ Spec.checksum Concrete.Xtoy.sha256 (0x80 :: List.replicate 32 7) := by decide +kernel
  obtain ⟨h0, m, h1, h2, _⟩ := C107_wif_violation Concrete.Xtoy Concrete.Xtoy_laws.sha_len _ (List.replicate 32 7) [1, 2, 3, 4] (text58_denotes _) rfl h
  exact ⟨_, m, h0, h1, h2⟩

/-- C108: an escape character in a text of even length. -/
example : ∃ m, Msg.vHex exEnv (.str [Char.ofNat 0x1b, '1']) none none = .error (.valueError, m) ∧ Char.ofNat 0x1b ∈ m :=
  C108_hex_violation exEnv _ none none _ _ rfl (by simp) (by decide) (by decide)

example (u : UniDB) : ∃ m, Msg.vStrDate exEnv u (.str py"x") none none = .error (.valueError, m) := ⟨_, rfl⟩

end BT
