import Verif.Conformance.Tx2

/-!
# `test_create_transaction.py`, first part

Generated by `tools/vectors.py`: do not edit.  Tests, not proofs.
-/

set_option linter.all false
set_option maxRecDepth 100000

namespace BT.Conformance

open BT.Concrete

/-- test_create_transaction.py: test_output_shortfall -/
example : createFails ⟨some (.list [.dict [(py"address", .str
  py"12YCFdpsRDvEHNcj5rsmvJ5G2XXkW1icJP"), (py"transaction_id", .str
  py"585f054c01139bdae20ff8fa233c4cda47db6d891a387e37dfd56f9cb39d1bea"),
  (py"previous_output_index", .int 0), (py"bitcoin_amount", .str py"0.00474300")], .dict
  [(py"address", .str py"1H5SUR7Fv7x252WuJPqBjewwpeHuJ218Ky"), (py"transaction_id", .str
  py"585f054c01139bdae20ff8fa233c4cda47db6d891a387e37dfd56f9cb39d1bea"),
  (py"previous_output_index", .int 1), (py"bitcoin_amount", .str py"0.00500000")]]), some
  (.dict [(py"change_address", .str py"136oURWq1zjkdQHKcanE7TyA3o36ibARNM"), (py"fee", .int
  225), (py"max_fee", .int 250), (py"max_spend_percentage", .str py"100.00"), (py"outputs",
  .list [.dict [(py"address", .str py"12PX5jPyQYejyrU79nZUDmKXvB3ttMfDqZ"),
  (py"bitcoin_amount", .str py"0.00974301")]])]), none, none⟩ .outputValueNotCovered = true :=
  by decide +kernel

/-- test_create_transaction.py: test_fee_shortfall -/
example : createFails ⟨some (.list [.dict [(py"address", .str
  py"12YCFdpsRDvEHNcj5rsmvJ5G2XXkW1icJP"), (py"transaction_id", .str
  py"585f054c01139bdae20ff8fa233c4cda47db6d891a387e37dfd56f9cb39d1bea"),
  (py"previous_output_index", .int 0), (py"bitcoin_amount", .str py"0.00474300")], .dict
  [(py"address", .str py"1H5SUR7Fv7x252WuJPqBjewwpeHuJ218Ky"), (py"transaction_id", .str
  py"585f054c01139bdae20ff8fa233c4cda47db6d891a387e37dfd56f9cb39d1bea"),
  (py"previous_output_index", .int 1), (py"bitcoin_amount", .str py"0.00500000")]]), some
  (.dict [(py"change_address", .str py"136oURWq1zjkdQHKcanE7TyA3o36ibARNM"), (py"fee", .int
  225), (py"max_fee", .int 250), (py"max_spend_percentage", .str py"100.00"), (py"outputs",
  .list [.dict [(py"address", .str py"12PX5jPyQYejyrU79nZUDmKXvB3ttMfDqZ"),
  (py"bitcoin_amount", .str py"0.00974300")]])]), none, none⟩ .outputAndFeeValueNotCovered =
  true := by decide +kernel

/-- test_create_transaction.py: test_add_input_to_pay_fee.  As written this test fails: the code does not
read the key `input_selection_approach` (see C57). -/
example : createTest ⟨some (.list [.dict [(py"address", .str
  py"12YCFdpsRDvEHNcj5rsmvJ5G2XXkW1icJP"), (py"transaction_id", .str
  py"585f054c01139bdae20ff8fa233c4cda47db6d891a387e37dfd56f9cb39d1bea"),
  (py"previous_output_index", .int 0), (py"bitcoin_amount", .str py"0.00474300")], .dict
  [(py"address", .str py"1H5SUR7Fv7x252WuJPqBjewwpeHuJ218Ky"), (py"transaction_id", .str
  py"585f054c01139bdae20ff8fa233c4cda47db6d891a387e37dfd56f9cb39d1bea"),
  (py"previous_output_index", .int 1), (py"bitcoin_amount", .str py"0.00500000")]]), some
  (.dict [(py"change_address", .str py"136oURWq1zjkdQHKcanE7TyA3o36ibARNM"), (py"fee", .int
  225), (py"max_fee", .int 250), (py"max_spend_percentage", .str py"100.00"),
  (py"input_selection_approach", .list [.str py"smallest_first"]), (py"outputs", .list [.dict
  [(py"address", .str py"12PX5jPyQYejyrU79nZUDmKXvB3ttMfDqZ"), (py"bitcoin_amount", .str
  py"0.00474300")]])]), none, none⟩ (some 225) (some 2) none none (some (.dict [(py"version",
  .str py"01000000"), (py"input_count", .str py"02"), (py"inputs", .list [.dict
  [(py"previous_output_hash", .str
  py"ea1b9db39c6fd5df377e381a896ddb47da4c3c23faf80fe2da9b13014c055f58"),
  (py"previous_output_index", .str py"00000000"), (py"previous_output_index_int", .int 0),
  (py"script_length", .none), (py"script_length_int", .none), (py"script_sig", .none),
  (py"sequence", .str py"ffffffff"), (py"public_key_hex", .none), (py"script_pub_key_length",
  .str py"19"), (py"script_pub_key_length_int", .int 25), (py"script_pub_key", .str
  py"76a91410de69df99d4b834ee6f2bd1466edab556beb7d688ac"), (py"address", .str
  py"12YCFdpsRDvEHNcj5rsmvJ5G2XXkW1icJP"), (py"txid", .str
  py"585f054c01139bdae20ff8fa233c4cda47db6d891a387e37dfd56f9cb39d1bea"), (py"satoshi_amount",
  .int 474300), (py"bitcoin_amount", .str py"0.00474300")], .dict [(py"previous_output_hash",
  .str py"ea1b9db39c6fd5df377e381a896ddb47da4c3c23faf80fe2da9b13014c055f58"),
  (py"previous_output_index", .str py"01000000"), (py"previous_output_index_int", .int 1),
  (py"script_length", .none), (py"script_length_int", .none), (py"script_sig", .none),
  (py"sequence", .str py"ffffffff"), (py"public_key_hex", .none), (py"script_pub_key_length",
  .str py"19"), (py"script_pub_key_length_int", .int 25), (py"script_pub_key", .str
  py"76a914b058f09e25382dd3b9339c25a5727085a22c8c6088ac"), (py"address", .str
  py"1H5SUR7Fv7x252WuJPqBjewwpeHuJ218Ky"), (py"txid", .str
  py"585f054c01139bdae20ff8fa233c4cda47db6d891a387e37dfd56f9cb39d1bea"), (py"satoshi_amount",
  .int 500000), (py"bitcoin_amount", .str py"0.00500000")]]), (py"output_count", .str py"02"),
  (py"outputs", .list [.dict [(py"value", .str py"3fa0070000000000"), (py"script_length", .str
  py"19"), (py"script_length_int", .int 25), (py"script_pub_key", .str
  py"76a91417091ffac2b6bb51d9fd1d979fac6ec6bf3a2f1e88ac"), (py"address", .str
  py"136oURWq1zjkdQHKcanE7TyA3o36ibARNM"), (py"bitcoin_amount", .str py"0.00499775"),
  (py"satoshi_amount", .int 499775)], .dict [(py"value", .str py"bc3c070000000000"),
  (py"script_length", .str py"19"), (py"script_length_int", .int 25), (py"script_pub_key", .str
  py"76a9140f3a634504545b37a97b10214b2f640fb16085e588ac"), (py"address", .str
  py"12PX5jPyQYejyrU79nZUDmKXvB3ttMfDqZ"), (py"bitcoin_amount", .str py"0.00474300"),
  (py"satoshi_amount", .int 474300)]]), (py"block_lock_time", .str py"00000000"),
  (py"hash_type_4_byte", .str py"01000000"), (py"hash_type_1_byte", .str py"01"), (py"signed",
  .bool false), (py"total_input", .dict [(py"satoshi_amount", .int 974300),
  (py"bitcoin_amount", .str py"0.00974300")]), (py"total_output", .dict [(py"satoshi_amount",
  .int 974075), (py"bitcoin_amount", .str py"0.00974075")]), (py"fee", .dict
  [(py"satoshi_amount", .int 225), (py"bitcoin_amount", .str py"0.00000225")]),
  (py"change_address", .str py"136oURWq1zjkdQHKcanE7TyA3o36ibARNM"), (py"change", .dict
  [(py"satoshi_amount", .int 499775), (py"bitcoin_amount", .str py"0.00499775")]),
  (py"estimated_size_bytes", .int 436), (py"estimated_fee_rate", .dict [(py"satoshi_per_byte",
  .str py"0.5161"), (py"bitcoin_per_byte", .str py"0.00000001")]), (py"size_bytes", .none),
  (py"fee_rate", .dict [(py"satoshi_amount", .none), (py"bitcoin_amount", .none)])])) false []
  none none none = false := by decide +kernel

/-- test_create_transaction.py: test_add_input_to_pay_fee -/
example : createTest ⟨some (.list [.dict [(py"address", .str
  py"12YCFdpsRDvEHNcj5rsmvJ5G2XXkW1icJP"), (py"transaction_id", .str
  py"585f054c01139bdae20ff8fa233c4cda47db6d891a387e37dfd56f9cb39d1bea"),
  (py"previous_output_index", .int 0), (py"bitcoin_amount", .str py"0.00474300")], .dict
  [(py"address", .str py"1H5SUR7Fv7x252WuJPqBjewwpeHuJ218Ky"), (py"transaction_id", .str
  py"585f054c01139bdae20ff8fa233c4cda47db6d891a387e37dfd56f9cb39d1bea"),
  (py"previous_output_index", .int 1), (py"bitcoin_amount", .str py"0.00500000")]]), some
  (.dict [(py"change_address", .str py"136oURWq1zjkdQHKcanE7TyA3o36ibARNM"), (py"fee", .int
  225), (py"max_fee", .int 250), (py"max_spend_percentage", .str py"100.00"),
  (py"input_selection_approaches", .list [.str py"smallest_first"]), (py"outputs", .list [.dict
  [(py"address", .str py"12PX5jPyQYejyrU79nZUDmKXvB3ttMfDqZ"), (py"bitcoin_amount", .str
  py"0.00474300")]])]), none, none⟩ (some 225) (some 2) none none (some (.dict [(py"version",
  .str py"01000000"), (py"input_count", .str py"02"), (py"inputs", .list [.dict
  [(py"previous_output_hash", .str
  py"ea1b9db39c6fd5df377e381a896ddb47da4c3c23faf80fe2da9b13014c055f58"),
  (py"previous_output_index", .str py"00000000"), (py"previous_output_index_int", .int 0),
  (py"script_length", .none), (py"script_length_int", .none), (py"script_sig", .none),
  (py"sequence", .str py"ffffffff"), (py"public_key_hex", .none), (py"script_pub_key_length",
  .str py"19"), (py"script_pub_key_length_int", .int 25), (py"script_pub_key", .str
  py"76a91410de69df99d4b834ee6f2bd1466edab556beb7d688ac"), (py"address", .str
  py"12YCFdpsRDvEHNcj5rsmvJ5G2XXkW1icJP"), (py"txid", .str
  py"585f054c01139bdae20ff8fa233c4cda47db6d891a387e37dfd56f9cb39d1bea"), (py"satoshi_amount",
  .int 474300), (py"bitcoin_amount", .str py"0.00474300")], .dict [(py"previous_output_hash",
  .str py"ea1b9db39c6fd5df377e381a896ddb47da4c3c23faf80fe2da9b13014c055f58"),
  (py"previous_output_index", .str py"01000000"), (py"previous_output_index_int", .int 1),
  (py"script_length", .none), (py"script_length_int", .none), (py"script_sig", .none),
  (py"sequence", .str py"ffffffff"), (py"public_key_hex", .none), (py"script_pub_key_length",
  .str py"19"), (py"script_pub_key_length_int", .int 25), (py"script_pub_key", .str
  py"76a914b058f09e25382dd3b9339c25a5727085a22c8c6088ac"), (py"address", .str
  py"1H5SUR7Fv7x252WuJPqBjewwpeHuJ218Ky"), (py"txid", .str
  py"585f054c01139bdae20ff8fa233c4cda47db6d891a387e37dfd56f9cb39d1bea"), (py"satoshi_amount",
  .int 500000), (py"bitcoin_amount", .str py"0.00500000")]]), (py"output_count", .str py"02"),
  (py"outputs", .list [.dict [(py"value", .str py"3fa0070000000000"), (py"script_length", .str
  py"19"), (py"script_length_int", .int 25), (py"script_pub_key", .str
  py"76a91417091ffac2b6bb51d9fd1d979fac6ec6bf3a2f1e88ac"), (py"address", .str
  py"136oURWq1zjkdQHKcanE7TyA3o36ibARNM"), (py"bitcoin_amount", .str py"0.00499775"),
  (py"satoshi_amount", .int 499775)], .dict [(py"value", .str py"bc3c070000000000"),
  (py"script_length", .str py"19"), (py"script_length_int", .int 25), (py"script_pub_key", .str
  py"76a9140f3a634504545b37a97b10214b2f640fb16085e588ac"), (py"address", .str
  py"12PX5jPyQYejyrU79nZUDmKXvB3ttMfDqZ"), (py"bitcoin_amount", .str py"0.00474300"),
  (py"satoshi_amount", .int 474300)]]), (py"block_lock_time", .str py"00000000"),
  (py"hash_type_4_byte", .str py"01000000"), (py"hash_type_1_byte", .str py"01"), (py"signed",
  .bool false), (py"total_input", .dict [(py"satoshi_amount", .int 974300),
  (py"bitcoin_amount", .str py"0.00974300")]), (py"total_output", .dict [(py"satoshi_amount",
  .int 974075), (py"bitcoin_amount", .str py"0.00974075")]), (py"fee", .dict
  [(py"satoshi_amount", .int 225), (py"bitcoin_amount", .str py"0.00000225")]),
  (py"change_address", .str py"136oURWq1zjkdQHKcanE7TyA3o36ibARNM"), (py"change", .dict
  [(py"satoshi_amount", .int 499775), (py"bitcoin_amount", .str py"0.00499775")]),
  (py"estimated_size_bytes", .int 436), (py"estimated_fee_rate", .dict [(py"satoshi_per_byte",
  .str py"0.5161"), (py"bitcoin_per_byte", .str py"0.00000001")]), (py"size_bytes", .none),
  (py"fee_rate", .dict [(py"satoshi_amount", .none), (py"bitcoin_amount", .none)])])) true
  [py"ecfb8057d4e053dda6849f6a361ca2d6797368651bbb2b52ce4691515a7909e1",
  py"fc8c7e92b44fe66f8f20d98a648f659da69461661673e22292a67dc20742ef17"] none none none = true
  := by decide +kernel

/-- test_create_transaction.py: test_add_input_to_pay_fee_2.  As written this test fails: the code does not
read the key `input_selection_approach` (see C57). -/
example : createTest ⟨some (.list [.dict [(py"address", .str
  py"1DYKgP9cMG3wQhgowRJdrE4gRQvz6yMYEP"), (py"transaction_id", .str
  py"45a69eab1c75342826687d2bea49b49133382622b4cd50783b0e81e49b95d158"),
  (py"previous_output_index", .int 0), (py"bitcoin_amount", .str py"0.00100000")], .dict
  [(py"address", .str py"1B9dT1kcvJqhmF9FpanKbY2vRvNiV6qR2L"), (py"transaction_id", .str
  py"45a69eab1c75342826687d2bea49b49133382622b4cd50783b0e81e49b95d158"),
  (py"previous_output_index", .int 1), (py"bitcoin_amount", .str py"0.00200000")], .dict
  [(py"address", .str py"1LgQCG1DPBpk7Avdex5bSGqyKnxWv6spH2"), (py"transaction_id", .str
  py"45a69eab1c75342826687d2bea49b49133382622b4cd50783b0e81e49b95d158"),
  (py"previous_output_index", .int 2), (py"bitcoin_amount", .str py"0.00664900")]]), some
  (.dict [(py"change_address", .str py"136oURWq1zjkdQHKcanE7TyA3o36ibARNM"), (py"fee", .int
  225), (py"max_fee", .int 250), (py"max_spend_percentage", .str py"100.00"),
  (py"input_selection_approach", .list [.str py"smallest_first"]), (py"outputs", .list [.dict
  [(py"address", .str py"1Fivx1V444aqjY85SxvzsEG5NjYdM6JWib"), (py"bitcoin_amount", .str
  py"0.00100000")]])]), none, none⟩ (some 225) (some 2) none none (some (.dict [(py"version",
  .str py"01000000"), (py"input_count", .str py"02"), (py"inputs", .list [.dict
  [(py"previous_output_hash", .str
  py"58d1959be4810e3b7850cdb42226383391b449ea2b7d68262834751cab9ea645"),
  (py"previous_output_index", .str py"00000000"), (py"previous_output_index_int", .int 0),
  (py"script_length", .none), (py"script_length_int", .none), (py"script_sig", .none),
  (py"sequence", .str py"ffffffff"), (py"public_key_hex", .none), (py"script_pub_key_length",
  .str py"19"), (py"script_pub_key_length_int", .int 25), (py"script_pub_key", .str
  py"76a914898dff254ca0f389679ce68b33ae0c46b992d9f088ac"), (py"address", .str
  py"1DYKgP9cMG3wQhgowRJdrE4gRQvz6yMYEP"), (py"txid", .str
  py"45a69eab1c75342826687d2bea49b49133382622b4cd50783b0e81e49b95d158"), (py"satoshi_amount",
  .int 100000), (py"bitcoin_amount", .str py"0.00100000")], .dict [(py"previous_output_hash",
  .str py"58d1959be4810e3b7850cdb42226383391b449ea2b7d68262834751cab9ea645"),
  (py"previous_output_index", .str py"01000000"), (py"previous_output_index_int", .int 1),
  (py"script_length", .none), (py"script_length_int", .none), (py"script_sig", .none),
  (py"sequence", .str py"ffffffff"), (py"public_key_hex", .none), (py"script_pub_key_length",
  .str py"19"), (py"script_pub_key_length_int", .int 25), (py"script_pub_key", .str
  py"76a9146f5302de794fa5b6331e7fe95e895ac8bc328ea888ac"), (py"address", .str
  py"1B9dT1kcvJqhmF9FpanKbY2vRvNiV6qR2L"), (py"txid", .str
  py"45a69eab1c75342826687d2bea49b49133382622b4cd50783b0e81e49b95d158"), (py"satoshi_amount",
  .int 200000), (py"bitcoin_amount", .str py"0.00200000")]]), (py"output_count", .str py"02"),
  (py"outputs", .list [.dict [(py"value", .str py"5f0c030000000000"), (py"script_length", .str
  py"19"), (py"script_length_int", .int 25), (py"script_pub_key", .str
  py"76a91417091ffac2b6bb51d9fd1d979fac6ec6bf3a2f1e88ac"), (py"address", .str
  py"136oURWq1zjkdQHKcanE7TyA3o36ibARNM"), (py"bitcoin_amount", .str py"0.00199775"),
  (py"satoshi_amount", .int 199775)], .dict [(py"value", .str py"a086010000000000"),
  (py"script_length", .str py"19"), (py"script_length_int", .int 25), (py"script_pub_key", .str
  py"76a914a17fd96a5a6d76be05542f1a93a263bf02e3b9bc88ac"), (py"address", .str
  py"1Fivx1V444aqjY85SxvzsEG5NjYdM6JWib"), (py"bitcoin_amount", .str py"0.00100000"),
  (py"satoshi_amount", .int 100000)]]), (py"block_lock_time", .str py"00000000"),
  (py"hash_type_4_byte", .str py"01000000"), (py"hash_type_1_byte", .str py"01"), (py"signed",
  .bool false), (py"total_input", .dict [(py"satoshi_amount", .int 300000),
  (py"bitcoin_amount", .str py"0.00300000")]), (py"total_output", .dict [(py"satoshi_amount",
  .int 299775), (py"bitcoin_amount", .str py"0.00299775")]), (py"fee", .dict
  [(py"satoshi_amount", .int 225), (py"bitcoin_amount", .str py"0.00000225")]),
  (py"change_address", .str py"136oURWq1zjkdQHKcanE7TyA3o36ibARNM"), (py"change", .dict
  [(py"satoshi_amount", .int 199775), (py"bitcoin_amount", .str py"0.00199775")]),
  (py"estimated_size_bytes", .int 436), (py"estimated_fee_rate", .dict [(py"satoshi_per_byte",
  .str py"0.5161"), (py"bitcoin_per_byte", .str py"0.00000001")]), (py"size_bytes", .none),
  (py"fee_rate", .dict [(py"satoshi_amount", .none), (py"bitcoin_amount", .none)])])) false []
  none none none = false := by decide +kernel

end BT.Conformance
