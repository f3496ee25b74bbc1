import Verif.Conformance.Create

/-!
# `test_create_transaction.py`, second part

Generated by `tools/vectors.py`: do not edit.  Tests, not proofs.
-/

set_option linter.all false
set_option maxRecDepth 100000

namespace BT.Conformance

open BT.Concrete

/-- test_create_transaction.py: test_add_input_to_pay_fee_2 -/
example : createTest ⟨some (.list [.dict [(py"address", .str
  py"1DYKgP9cMG3wQhgowRJdrE4gRQvz6yMYEP"), (py"transaction_id", .str
  py"45a69eab1c75342826687d2bea49b49133382622b4cd50783b0e81e49b95d158"),
  (py"previous_output_index", .int 0), (py"bitcoin_amount", .str py"0.00100000")], .dict
  [(py"address", .str py"1B9dT1kcvJqhmF9FpanKbY2vRvNiV6qR2L"), (py"transaction_id", .str
  py"45a69eab1c75342826687d2bea49b49133382622b4cd50783b0e81e49b95d158"),
  (py"previous_output_index", .int 1), (py"bitcoin_amount", .str py"0.00200000")], .dict
  [(py"address", .str py"1LgQCG1DPBpk7Avdex5bSGqyKnxWv6spH2"), (py"transaction_id", .str
  py"45a69eab1c75342826687d2bea49b49133382622b4cd50783b0e81e49b95d158"),
  (py"previous_output_index", .int 2), (py"bitcoin_amount", .str py"0.00664900")]]), some
  (.dict [(py"change_address", .str py"136oURWq1zjkdQHKcanE7TyA3o36ibARNM"), (py"fee", .int
  225), (py"max_fee", .int 250), (py"max_spend_percentage", .str py"100.00"),
  (py"input_selection_approaches", .list [.str py"smallest_first"]), (py"outputs", .list [.dict
  [(py"address", .str py"1Fivx1V444aqjY85SxvzsEG5NjYdM6JWib"), (py"bitcoin_amount", .str
  py"0.00100000")]])]), none, none⟩ (some 225) (some 2) none none (some (.dict [(py"version",
  .str py"01000000"), (py"input_count", .str py"02"), (py"inputs", .list [.dict
  [(py"previous_output_hash", .str
  py"58d1959be4810e3b7850cdb42226383391b449ea2b7d68262834751cab9ea645"),
  (py"previous_output_index", .str py"00000000"), (py"previous_output_index_int", .int 0),
  (py"script_length", .none), (py"script_length_int", .none), (py"script_sig", .none),
  (py"sequence", .str py"ffffffff"), (py"public_key_hex", .none), (py"script_pub_key_length",
  .str py"19"), (py"script_pub_key_length_int", .int 25), (py"script_pub_key", .str
  py"76a914898dff254ca0f389679ce68b33ae0c46b992d9f088ac"), (py"address", .str
  py"1DYKgP9cMG3wQhgowRJdrE4gRQvz6yMYEP"), (py"txid", .str
  py"45a69eab1c75342826687d2bea49b49133382622b4cd50783b0e81e49b95d158"), (py"satoshi_amount",
  .int 100000), (py"bitcoin_amount", .str py"0.00100000")], .dict [(py"previous_output_hash",
  .str py"58d1959be4810e3b7850cdb42226383391b449ea2b7d68262834751cab9ea645"),
  (py"previous_output_index", .str py"01000000"), (py"previous_output_index_int", .int 1),
  (py"script_length", .none), (py"script_length_int", .none), (py"script_sig", .none),
  (py"sequence", .str py"ffffffff"), (py"public_key_hex", .none), (py"script_pub_key_length",
  .str py"19"), (py"script_pub_key_length_int", .int 25), (py"script_pub_key", .str
  py"76a9146f5302de794fa5b6331e7fe95e895ac8bc328ea888ac"), (py"address", .str
  py"1B9dT1kcvJqhmF9FpanKbY2vRvNiV6qR2L"), (py"txid", .str
  py"45a69eab1c75342826687d2bea49b49133382622b4cd50783b0e81e49b95d158"), (py"satoshi_amount",
  .int 200000), (py"bitcoin_amount", .str py"0.00200000")]]), (py"output_count", .str py"02"),
  (py"outputs", .list [.dict [(py"value", .str py"5f0c030000000000"), (py"script_length", .str
  py"19"), (py"script_length_int", .int 25), (py"script_pub_key", .str
  py"76a91417091ffac2b6bb51d9fd1d979fac6ec6bf3a2f1e88ac"), (py"address", .str
  py"136oURWq1zjkdQHKcanE7TyA3o36ibARNM"), (py"bitcoin_amount", .str py"0.00199775"),
  (py"satoshi_amount", .int 199775)], .dict [(py"value", .str py"a086010000000000"),
  (py"script_length", .str py"19"), (py"script_length_int", .int 25), (py"script_pub_key", .str
  py"76a914a17fd96a5a6d76be05542f1a93a263bf02e3b9bc88ac"), (py"address", .str
  py"1Fivx1V444aqjY85SxvzsEG5NjYdM6JWib"), (py"bitcoin_amount", .str py"0.00100000"),
  (py"satoshi_amount", .int 100000)]]), (py"block_lock_time", .str py"00000000"),
  (py"hash_type_4_byte", .str py"01000000"), (py"hash_type_1_byte", .str py"01"), (py"signed",
  .bool false), (py"total_input", .dict [(py"satoshi_amount", .int 300000),
  (py"bitcoin_amount", .str py"0.00300000")]), (py"total_output", .dict [(py"satoshi_amount",
  .int 299775), (py"bitcoin_amount", .str py"0.00299775")]), (py"fee", .dict
  [(py"satoshi_amount", .int 225), (py"bitcoin_amount", .str py"0.00000225")]),
  (py"change_address", .str py"136oURWq1zjkdQHKcanE7TyA3o36ibARNM"), (py"change", .dict
  [(py"satoshi_amount", .int 199775), (py"bitcoin_amount", .str py"0.00199775")]),
  (py"estimated_size_bytes", .int 436), (py"estimated_fee_rate", .dict [(py"satoshi_per_byte",
  .str py"0.5161"), (py"bitcoin_per_byte", .str py"0.00000001")]), (py"size_bytes", .none),
  (py"fee_rate", .dict [(py"satoshi_amount", .none), (py"bitcoin_amount", .none)])])) true
  [py"ec30b469f5e9b16d565168fbf4c9a60050feab0349ac03ff7611a3a76f2bcd4a",
  py"0f1691d20a6ee40f608b46404b9b42d44ee3599f51ebf48ea7439653044fa3f7",
  py"9c75fc45b299cf2796809481228d8601dd895f55ffb15f64b583e05bfda3a368"] none none none = true
  := by decide +kernel

/-- test_create_transaction.py: test_fee_rate_argument -/
example : createTest ⟨some (.list [.dict [(py"address", .str
  py"138obEZkdWaWEQ4x8ZAYw4MybHSZtX1Nam"), (py"transaction_id", .str
  py"e4609e0f1ca854b8b07381f32ba31adbad9713205f5a4f3f56a5a32853d47855"),
  (py"previous_output_index", .int 8), (py"bitcoin_amount", .str py"0.0024200")]]), some (.dict
  [(py"change_address", .str py"138obEZkdWaWEQ4x8ZAYw4MybHSZtX1Nam"), (py"fee_rate", .int 1),
  (py"max_fee", .int 250), (py"max_spend_percentage", .str py"100.00"), (py"outputs", .list
  [.dict [(py"address", .str py"13xPBB175FtPbPQ84iB8KuawaVy3mHrady"), (py"bitcoin_amount", .str
  py"0.00241777")]])]), none, none⟩ (some 223) none none none none true
  [py"00000000000000000000007468655f6d6f74655f696e5f676f6427735f657965"] (some
  [py"00000000005468652046616365206f6620476f64206468636d726c636874646a"]) (some
  py"01000000015578d45328a3a5563f4f5a5f201397addb1aa32bf38173b0b854a81c0f9e60e4080000008a473044022017ece35581a034a4838a577fe438f108cf22764927a1ad197ed379460c0764cd022066723723eff05c10bac9a2f63b3e782e24fde290701c9408f3d1054722adad360141041ad06846fd7cf9998a827485d8dd5aaba9eccc385ba7759a6e9055fbdf90d7513c0d11fe5e5dcfcf8d4946c67f6c45f8e7f7d7a9c254ca8ebde1ffd64ab9dd58ffffffff0171b00300000000001976a9142069a3fae01db74cef12d1d01811afdf6a3e1c2e88ac00000000")
  (some py"745e224ccba0a033c55ea80523f207da18b903418ac1f5d293eed62c19e0334d") = true := by
  decide +kernel

/-- test_create_transaction.py: test_fee_rate_argument_2 -/
example : createTest ⟨some (.list [.dict [(py"address", .str
  py"1AppardGrpGdddB2HUTLRd2GGWaYAWDByX"), (py"transaction_id", .str
  py"dcb76b885dd8130a5e926edde743b8cae969449213686313917eb4ccda6bf3cf"),
  (py"previous_output_index", .int 0), (py"bitcoin_amount", .str py"0.01000000")]]), some
  (.dict [(py"change_address", .str py"1AppardGrpGdddB2HUTLRd2GGWaYAWDByX"), (py"fee_rate",
  .int 100), (py"max_fee", .int 30000), (py"max_spend_percentage", .str py"100.00"),
  (py"outputs", .list [.dict [(py"address", .str py"1AppardGrpGdddB2HUTLRd2GGWaYAWDByX"),
  (py"bitcoin_amount", .str py"0.00474300")], .dict [(py"address", .str
  py"1AppardGrpGdddB2HUTLRd2GGWaYAWDByX"), (py"bitcoin_amount", .str py"0.00500000")]])]), some
  (.bool true), none⟩ (some 25700) none none none none true
  [py"1647a11df9b9785669d630fa90d6c8242a622a8fc077fb50fc4c52f8391c22ad"] (some
  [py"9a1f6aec7c093dd63676f18520cab23c989a387a56ce870b1296510d0b11c7a8"]) (some
  py"0100000001cff36bdaccb47e9113636813924469e9cab843e7dd6e925e0a13d85d886bb7dc000000008a47304402207da19140017b49a6bd5dad326d4fe21edc0337ef4d5d1415e6aba1e3419a703702204c6617b87383efc3bab4d3b082a350a72754ecd85c7ed6287923cb862615b88d0141045141d905ca3f3c688bd1fd9b2d91ffeb7c12082dcfe2674ccf0239d75b0456acdf5a53b153907a14712d1c6743a264488e7705c42229fe4d2365bfcd592ab254ffffffff02bc3c0700000000001976a9146bc4673483dfe54e2cc83fed2f235cf8102e643d88ac20a10700000000001976a9146bc4673483dfe54e2cc83fed2f235cf8102e643d88ac00000000")
  (some py"674232a1575e618e4755a17c7b0738f33a81fcb63d5db25d41016a3be18db900") = true := by
  decide +kernel

/-- test_create_transaction.py: test_fee_rate_argument_3 -/
example : createTest ⟨some (.list [.dict [(py"address", .str
  py"16ASCUS3s7D4UQh6J9oHGuT19agPvD3PFj"), (py"transaction_id", .str
  py"f02eca2852bf73f3c722db2d151e7755d853efd8dd6224249b14f8b51dffbc6e"),
  (py"previous_output_index", .int 12), (py"bitcoin_amount", .str py"0.00600000")]]), some
  (.dict [(py"change_address", .str py"1AppardGrpGdddB2HUTLRd2GGWaYAWDByX"), (py"fee_rate",
  .str py"3.01167"), (py"max_fee", .int 1000), (py"max_spend_percentage", .str py"100.00"),
  (py"outputs", .list [.dict [(py"address", .str py"1KHDLNmqBtiBELUsmTCkNASg79jfEVKrig"),
  (py"bitcoin_amount", .str py"0.00300000")], .dict [(py"address", .str
  py"1DLg5i1kBjXYXy9f82xZcHokEMC9dtct7P"), (py"bitcoin_amount", .str py"0.00299226")]])]), some
  (.bool true), none⟩ (some 774) none none none none true
  [py"7972b641101c0ad67b0e401b800a9b6f3225c97fc6b8115042cf66968c2fb2e5"] (some
  [py"257c2ff4ac1606d5e42fe152c2624cffac2aa58cdfe8578a69b12beefbce68b9"]) (some
  py"01000000016ebcff1db5f8149b242462ddd8ef53d855771e152ddb22c7f373bf5228ca2ef00c0000008a47304402202d8617427fc589848ef2e0481d148e0ce5d60aaa26e466fdfe62890d0d67ca6902200df89728ea73816cecfdfd6a734ca8b70da7000e213b87dcfdc9d48400164fac014104108e1c01a42bbd09b77a26b5f732f10d7108b2fe31cba137e9d15e24c7c30d2515904dfe646f3e94a3aa482afbbe0dc178b9b212154529768e0ba74452df1c2affffffff02e0930400000000001976a914c8833727be832b6634d8ddf7bfcf51e379b28f6388acda900400000000001976a914875a093668adff783d0835f4db655c5a47a0ceaa88ac00000000")
  (some py"db2c3d84708cd9d0e40ae1754021f9146a0d6ab555fc0e1d547d7876c0c092f4") = true := by
  decide +kernel

/-- test_create_transaction.py: test_fee_rate_argument_4.  As written this test fails: the code does not
read the key `input_selection_approach` (see C57). -/
example : createTest ⟨some (.list [.dict [(py"address", .str
  py"12YCFdpsRDvEHNcj5rsmvJ5G2XXkW1icJP"), (py"transaction_id", .str
  py"585f054c01139bdae20ff8fa233c4cda47db6d891a387e37dfd56f9cb39d1bea"),
  (py"previous_output_index", .int 0), (py"bitcoin_amount", .str py"0.00474300")], .dict
  [(py"address", .str py"1H5SUR7Fv7x252WuJPqBjewwpeHuJ218Ky"), (py"transaction_id", .str
  py"585f054c01139bdae20ff8fa233c4cda47db6d891a387e37dfd56f9cb39d1bea"),
  (py"previous_output_index", .int 1), (py"bitcoin_amount", .str py"0.00500000")]]), some
  (.dict [(py"change_address", .str py"1AppardGrpGdddB2HUTLRd2GGWaYAWDByX"), (py"fee_rate",
  .str py"100"), (py"max_fee", .int 50000), (py"max_spend_percentage", .str py"100.00"),
  (py"input_selection_approach", .list [.str py"smallest_first"]), (py"outputs", .list [.dict
  [(py"address", .str py"136oURWq1zjkdQHKcanE7TyA3o36ibARNM"), (py"bitcoin_amount", .str
  py"0.00430700")], .dict [(py"address", .str py"12PX5jPyQYejyrU79nZUDmKXvB3ttMfDqZ"),
  (py"bitcoin_amount", .str py"0.00500000")]])]), some (.bool true), none⟩ (some 43600) none
  (some [py"0.00474300", py"0.00500000"]) none none false [] none none none = false := by
  decide +kernel

/-- test_create_transaction.py: test_fee_rate_argument_4 -/
example : createTest ⟨some (.list [.dict [(py"address", .str
  py"12YCFdpsRDvEHNcj5rsmvJ5G2XXkW1icJP"), (py"transaction_id", .str
  py"585f054c01139bdae20ff8fa233c4cda47db6d891a387e37dfd56f9cb39d1bea"),
  (py"previous_output_index", .int 0), (py"bitcoin_amount", .str py"0.00474300")], .dict
  [(py"address", .str py"1H5SUR7Fv7x252WuJPqBjewwpeHuJ218Ky"), (py"transaction_id", .str
  py"585f054c01139bdae20ff8fa233c4cda47db6d891a387e37dfd56f9cb39d1bea"),
  (py"previous_output_index", .int 1), (py"bitcoin_amount", .str py"0.00500000")]]), some
  (.dict [(py"change_address", .str py"1AppardGrpGdddB2HUTLRd2GGWaYAWDByX"), (py"fee_rate",
  .str py"100"), (py"max_fee", .int 50000), (py"max_spend_percentage", .str py"100.00"),
  (py"input_selection_approaches", .list [.str py"smallest_first"]), (py"outputs", .list [.dict
  [(py"address", .str py"136oURWq1zjkdQHKcanE7TyA3o36ibARNM"), (py"bitcoin_amount", .str
  py"0.00430700")], .dict [(py"address", .str py"12PX5jPyQYejyrU79nZUDmKXvB3ttMfDqZ"),
  (py"bitcoin_amount", .str py"0.00500000")]])]), some (.bool true), none⟩ (some 43600) none
  none none none true [py"ecfb8057d4e053dda6849f6a361ca2d6797368651bbb2b52ce4691515a7909e1",
  py"fc8c7e92b44fe66f8f20d98a648f659da69461661673e22292a67dc20742ef17"] (some
  [py"0a5a9cc087cf3337bfb0fa12f6fa036d17d6b6dc0e93dfa657c8caca47ad8155",
  py"2493ac84058e4f4b79f1bd267c45f52bc7545ef01dd66b8bf077cae86460e954"]) (some
  py"0100000002ea1b9db39c6fd5df377e381a896ddb47da4c3c23faf80fe2da9b13014c055f58000000008b483045022100d75efc99b640bcc09f569b1b53cb33d407720f9931a719d0ae3212182927cbb802205ea59d7e86f3bdcf7ec5b483a181704909e401cdeb3f8c60172d72aa842ec142014104e5f0aa4e9ee32cc982db529c981f18171cd9d1ccf224a94e4b3c09b51fd3752c6ebf66f0861dc435fee962f995ab9c5346d32332a409c598eb575cec74115180ffffffffea1b9db39c6fd5df377e381a896ddb47da4c3c23faf80fe2da9b13014c055f58010000008b483045022100c70dbea33b9a7d51a9f952a63d65f0572194af68774c09e03d347f65cddd38c3022072e8341e85f5cb6c49be050c862837d451f46a6f5d0f51fa80993a45983cf9d6014104cca91b1ad65fc428789b469f0e030fb2de58132c61f3240f416e3a6eb1963009a359770805e71e9b7c7982da51c2a3209ec908efe71cf5ec8b65f5b9eb05115bffffffff026c920600000000001976a91417091ffac2b6bb51d9fd1d979fac6ec6bf3a2f1e88ac20a10700000000001976a9140f3a634504545b37a97b10214b2f640fb16085e588ac00000000")
  (some py"2b0cef7b0abfefeb6c7c6b228930e6218e86e9d8c33f5525d10f34f91cc7bad4") = true := by
  decide +kernel

/-- test_create_transaction.py: test_change_output_index -/
example : createTest ⟨some (.list [.dict [(py"address", .str
  py"1AppardGrpGdddB2HUTLRd2GGWaYAWDByX"), (py"transaction_id", .str
  py"dcb76b885dd8130a5e926edde743b8cae969449213686313917eb4ccda6bf3cf"),
  (py"previous_output_index", .int 0), (py"bitcoin_amount", .str py"0.01000000")]]), some
  (.dict [(py"change_address", .str py"1AppardGrpGdddB2HUTLRd2GGWaYAWDByX"), (py"fee_rate",
  .int 100), (py"max_fee", .int 30000), (py"max_spend_percentage", .str py"100.00"),
  (py"outputs", .list [.dict [(py"address", .str py"1AppardGrpGdddB2HUTLRd2GGWaYAWDByX"),
  (py"bitcoin_amount", .str py"0.00174300")], .dict [(py"address", .str
  py"1AppardGrpGdddB2HUTLRd2GGWaYAWDByX"), (py"bitcoin_amount", .str py"0.00500000")]])]), some
  (.bool true), some (.int 0)⟩ (some 25700) none none (some [474300, 500000]) none true
  [py"1647a11df9b9785669d630fa90d6c8242a622a8fc077fb50fc4c52f8391c22ad"] (some
  [py"9a1f6aec7c093dd63676f18520cab23c989a387a56ce870b1296510d0b11c7a8"]) (some
  py"0100000001cff36bdaccb47e9113636813924469e9cab843e7dd6e925e0a13d85d886bb7dc000000008a47304402207da19140017b49a6bd5dad326d4fe21edc0337ef4d5d1415e6aba1e3419a703702204c6617b87383efc3bab4d3b082a350a72754ecd85c7ed6287923cb862615b88d0141045141d905ca3f3c688bd1fd9b2d91ffeb7c12082dcfe2674ccf0239d75b0456acdf5a53b153907a14712d1c6743a264488e7705c42229fe4d2365bfcd592ab254ffffffff02bc3c0700000000001976a9146bc4673483dfe54e2cc83fed2f235cf8102e643d88ac20a10700000000001976a9146bc4673483dfe54e2cc83fed2f235cf8102e643d88ac00000000")
  (some py"674232a1575e618e4755a17c7b0738f33a81fcb63d5db25d41016a3be18db900") = true := by
  decide +kernel

/-- test_create_transaction.py: test_duplicate_output_address_error -/
example : createFails ⟨some (.list [.dict [(py"address", .str
  py"1AppardGrpGdddB2HUTLRd2GGWaYAWDByX"), (py"transaction_id", .str
  py"dcb76b885dd8130a5e926edde743b8cae969449213686313917eb4ccda6bf3cf"),
  (py"previous_output_index", .int 0), (py"bitcoin_amount", .str py"0.01000000")]]), some
  (.dict [(py"change_address", .str py"1AppardGrpGdddB2HUTLRd2GGWaYAWDByX"), (py"fee_rate",
  .int 100), (py"max_fee", .int 30000), (py"max_spend_percentage", .str py"100.00"),
  (py"outputs", .list [.dict [(py"address", .str py"1AppardGrpGdddB2HUTLRd2GGWaYAWDByX"),
  (py"bitcoin_amount", .str py"0.00174300")], .dict [(py"address", .str
  py"1AppardGrpGdddB2HUTLRd2GGWaYAWDByX"), (py"bitcoin_amount", .str py"0.00500000")]])]),
  none, none⟩ .duplicateOutputAddress = true := by decide +kernel

/-- test_create_transaction.py: test_duplicate_change_output_address_error -/
example : createFails ⟨some (.list [.dict [(py"address", .str
  py"1AppardGrpGdddB2HUTLRd2GGWaYAWDByX"), (py"transaction_id", .str
  py"dcb76b885dd8130a5e926edde743b8cae969449213686313917eb4ccda6bf3cf"),
  (py"previous_output_index", .int 0), (py"bitcoin_amount", .str py"0.01000000")]]), some
  (.dict [(py"change_address", .str py"1AppardGrpGdddB2HUTLRd2GGWaYAWDByX"), (py"fee_rate",
  .int 100), (py"max_fee", .int 30000), (py"max_spend_percentage", .str py"100.00"),
  (py"outputs", .list [.dict [(py"address", .str py"1AppardGrpGdddB2HUTLRd2GGWaYAWDByX"),
  (py"bitcoin_amount", .str py"0.00174300")], .dict [(py"address", .str
  py"1AppardGrpGdddB2HUTLRd2GGWaYAWDByX"), (py"bitcoin_amount", .str py"0.00500000")]])]), some
  (.bool true), none⟩ .valueError = true := by decide +kernel

/-- test_create_transaction.py: test_add_input_selection_approach -/
example : createTest ⟨some (.list [.dict [(py"address", .str
  py"1B9dT1kcvJqhmF9FpanKbY2vRvNiV6qR2L"), (py"transaction_id", .str
  py"45a69eab1c75342826687d2bea49b49133382622b4cd50783b0e81e49b95d158"),
  (py"previous_output_index", .int 1), (py"bitcoin_amount", .str py"0.00200000")], .dict
  [(py"address", .str py"1DYKgP9cMG3wQhgowRJdrE4gRQvz6yMYEP"), (py"transaction_id", .str
  py"45a69eab1c75342826687d2bea49b49133382622b4cd50783b0e81e49b95d158"),
  (py"previous_output_index", .int 0), (py"bitcoin_amount", .str py"0.00100000")], .dict
  [(py"address", .str py"1LgQCG1DPBpk7Avdex5bSGqyKnxWv6spH2"), (py"transaction_id", .str
  py"45a69eab1c75342826687d2bea49b49133382622b4cd50783b0e81e49b95d158"),
  (py"previous_output_index", .int 2), (py"bitcoin_amount", .str py"0.00500225")]]), some
  (.dict [(py"change_address", .str py"136oURWq1zjkdQHKcanE7TyA3o36ibARNM"), (py"fee", .int
  225), (py"max_fee", .int 250), (py"max_spend_percentage", .str py"100.00"), (py"outputs",
  .list [.dict [(py"address", .str py"1Fivx1V444aqjY85SxvzsEG5NjYdM6JWib"),
  (py"bitcoin_amount", .str py"0.00800000")]])]), none, none⟩ (some 225) none (some
  [py"0.00500225", py"0.00200000", py"0.00100000"]) none none false
  [py"ec30b469f5e9b16d565168fbf4c9a60050feab0349ac03ff7611a3a76f2bcd4a",
  py"0f1691d20a6ee40f608b46404b9b42d44ee3599f51ebf48ea7439653044fa3f7",
  py"9c75fc45b299cf2796809481228d8601dd895f55ffb15f64b583e05bfda3a368"] none none none = true
  := by decide +kernel

/-- test_create_transaction.py: test_add_input_selection_approach_2.  As written this test fails: the code does not
read the key `input_selection_approach` (see C57). -/
example : createTest ⟨some (.list [.dict [(py"address", .str
  py"1B9dT1kcvJqhmF9FpanKbY2vRvNiV6qR2L"), (py"transaction_id", .str
  py"45a69eab1c75342826687d2bea49b49133382622b4cd50783b0e81e49b95d158"),
  (py"previous_output_index", .int 1), (py"bitcoin_amount", .str py"0.00200000")], .dict
  [(py"address", .str py"1DYKgP9cMG3wQhgowRJdrE4gRQvz6yMYEP"), (py"transaction_id", .str
  py"45a69eab1c75342826687d2bea49b49133382622b4cd50783b0e81e49b95d158"),
  (py"previous_output_index", .int 0), (py"bitcoin_amount", .str py"0.00100000")], .dict
  [(py"address", .str py"1LgQCG1DPBpk7Avdex5bSGqyKnxWv6spH2"), (py"transaction_id", .str
  py"45a69eab1c75342826687d2bea49b49133382622b4cd50783b0e81e49b95d158"),
  (py"previous_output_index", .int 2), (py"bitcoin_amount", .str py"0.00500225")]]), some
  (.dict [(py"change_address", .str py"136oURWq1zjkdQHKcanE7TyA3o36ibARNM"), (py"fee", .int
  225), (py"max_fee", .int 250), (py"max_spend_percentage", .str py"100.00"),
  (py"input_selection_approach", .list [.str py"smallest_first"]), (py"outputs", .list [.dict
  [(py"address", .str py"1Fivx1V444aqjY85SxvzsEG5NjYdM6JWib"), (py"bitcoin_amount", .str
  py"0.00800000")]])]), none, none⟩ (some 225) none (some [py"0.00100000", py"0.00200000",
  py"0.00500225"]) none none false [] none none none = false := by decide +kernel

/-- test_create_transaction.py: test_add_input_selection_approach_2 -/
example : createTest ⟨some (.list [.dict [(py"address", .str
  py"1B9dT1kcvJqhmF9FpanKbY2vRvNiV6qR2L"), (py"transaction_id", .str
  py"45a69eab1c75342826687d2bea49b49133382622b4cd50783b0e81e49b95d158"),
  (py"previous_output_index", .int 1), (py"bitcoin_amount", .str py"0.00200000")], .dict
  [(py"address", .str py"1DYKgP9cMG3wQhgowRJdrE4gRQvz6yMYEP"), (py"transaction_id", .str
  py"45a69eab1c75342826687d2bea49b49133382622b4cd50783b0e81e49b95d158"),
  (py"previous_output_index", .int 0), (py"bitcoin_amount", .str py"0.00100000")], .dict
  [(py"address", .str py"1LgQCG1DPBpk7Avdex5bSGqyKnxWv6spH2"), (py"transaction_id", .str
  py"45a69eab1c75342826687d2bea49b49133382622b4cd50783b0e81e49b95d158"),
  (py"previous_output_index", .int 2), (py"bitcoin_amount", .str py"0.00500225")]]), some
  (.dict [(py"change_address", .str py"136oURWq1zjkdQHKcanE7TyA3o36ibARNM"), (py"fee", .int
  225), (py"max_fee", .int 250), (py"max_spend_percentage", .str py"100.00"),
  (py"input_selection_approaches", .list [.str py"smallest_first"]), (py"outputs", .list [.dict
  [(py"address", .str py"1Fivx1V444aqjY85SxvzsEG5NjYdM6JWib"), (py"bitcoin_amount", .str
  py"0.00800000")]])]), none, none⟩ (some 225) none (some [py"0.00100000", py"0.00200000",
  py"0.00500225"]) none none false
  [py"ec30b469f5e9b16d565168fbf4c9a60050feab0349ac03ff7611a3a76f2bcd4a",
  py"0f1691d20a6ee40f608b46404b9b42d44ee3599f51ebf48ea7439653044fa3f7",
  py"9c75fc45b299cf2796809481228d8601dd895f55ffb15f64b583e05bfda3a368"] none none none = true
  := by decide +kernel

end BT.Conformance
