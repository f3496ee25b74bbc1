import Verif.Conformance.Address
import Verif.Conformance.Base

/-!
# `test_transaction.py`, first part

Generated by `tools/vectors.py`: do not edit.  Tests, not proofs.
-/

set_option linter.all false
set_option maxRecDepth 100000

namespace BT.Conformance

open BT.Concrete

/-- test_transaction.py: test_tx1 -/
example : txTest [(py"1CTumCMjzBfccCJBTkHoPQmAwEqU9Uj2sQ",
  py"8482e48391425d88fe30bd4066957000335f58e83f854f997146f41b9493b4ce", 9, py"0.002")]
  [(py"12RbVkKwHcwHbMZmnSVAyR4g88ZChpQD6f", py"0.00199775")] none (some (.dict [(py"version",
  .str py"01000000"), (py"input_count", .str py"01"), (py"inputs", .list [.dict
  [(py"previous_output_hash", .str
  py"ceb493941bf44671994f853fe8585f330070956640bd30fe885d429183e48284"),
  (py"previous_output_index", .str py"09000000"), (py"previous_output_index_int", .int 9),
  (py"script_length", .none), (py"script_length_int", .none), (py"script_sig", .none),
  (py"sequence", .str py"ffffffff"), (py"public_key_hex", .none), (py"script_pub_key_length",
  .str py"19"), (py"script_pub_key_length_int", .int 25), (py"script_pub_key", .str
  py"76a9147dc03dfbe8c62821bcd1ab95446b88ed7008a76e88ac"), (py"address", .str
  py"1CTumCMjzBfccCJBTkHoPQmAwEqU9Uj2sQ"), (py"txid", .str
  py"8482e48391425d88fe30bd4066957000335f58e83f854f997146f41b9493b4ce"), (py"satoshi_amount",
  .int 200000), (py"bitcoin_amount", .str py"0.00200000")]]), (py"output_count", .str py"01"),
  (py"outputs", .list [.dict [(py"value", .str py"5f0c030000000000"), (py"script_length", .str
  py"19"), (py"script_length_int", .int 25), (py"script_pub_key", .str
  py"76a9140f9ee78522f6cc8a88784ae02b0408e452d8025988ac"), (py"address", .str
  py"12RbVkKwHcwHbMZmnSVAyR4g88ZChpQD6f"), (py"bitcoin_amount", .str py"0.00199775"),
  (py"satoshi_amount", .int 199775)]]), (py"block_lock_time", .str py"00000000"),
  (py"hash_type_4_byte", .str py"01000000"), (py"hash_type_1_byte", .str py"01"), (py"signed",
  .bool false), (py"total_input", .dict [(py"satoshi_amount", .int 200000),
  (py"bitcoin_amount", .str py"0.00200000")]), (py"total_output", .dict [(py"satoshi_amount",
  .int 199775), (py"bitcoin_amount", .str py"0.00199775")]), (py"fee", .dict
  [(py"satoshi_amount", .int 225), (py"bitcoin_amount", .str py"0.00000225")]),
  (py"change_address", .none), (py"change", .dict [(py"satoshi_amount", .none),
  (py"bitcoin_amount", .none)]), (py"estimated_size_bytes", .int 223), (py"estimated_fee_rate",
  .dict [(py"satoshi_per_byte", .str py"1.0090"), (py"bitcoin_per_byte", .str
  py"0.00000001")]), (py"size_bytes", .none), (py"fee_rate", .dict [(py"satoshi_amount",
  .none), (py"bitcoin_amount", .none)])]))
  [py"0000000000000000000000007468655f6c6962726172795f6f665f626162656c"] (some
  [py"0072616e646f6d5f627974655f737472696e675f61786178617861735f6d6c6f"]) (some (.dict
  [(py"version", .str py"01000000"), (py"input_count", .str py"01"), (py"inputs", .list [.dict
  [(py"previous_output_hash", .str
  py"ceb493941bf44671994f853fe8585f330070956640bd30fe885d429183e48284"),
  (py"previous_output_index", .str py"09000000"), (py"previous_output_index_int", .int 9),
  (py"script_length", .str py"8a"), (py"script_length_int", .int 138), (py"script_sig", .str
  py"47304402206a2eea0c908efbd780a34c48b48d80946a6e740c272468427bada3ba9773d39a022076017028c4386020b19b7d1f1640558cd902aeffbfbd85f4637a8be0e92ee1de014104e8ade66f2cc0e43073f4ccea47db279bbab1a5e30a6e8ba49f12538b215c5b9e0d28bd080d35fde878081e8f05dbc23eeba02b544fa83e6d13b5f2145681e76d"),
  (py"sequence", .str py"ffffffff"), (py"public_key_hex", .str
  py"e8ade66f2cc0e43073f4ccea47db279bbab1a5e30a6e8ba49f12538b215c5b9e0d28bd080d35fde878081e8f05dbc23eeba02b544fa83e6d13b5f2145681e76d"),
  (py"script_pub_key_length", .str py"19"), (py"script_pub_key_length_int", .int 25),
  (py"script_pub_key", .str py"76a9147dc03dfbe8c62821bcd1ab95446b88ed7008a76e88ac"),
  (py"address", .str py"1CTumCMjzBfccCJBTkHoPQmAwEqU9Uj2sQ"), (py"txid", .str
  py"8482e48391425d88fe30bd4066957000335f58e83f854f997146f41b9493b4ce"), (py"satoshi_amount",
  .int 200000), (py"bitcoin_amount", .str py"0.00200000")]]), (py"output_count", .str py"01"),
  (py"outputs", .list [.dict [(py"value", .str py"5f0c030000000000"), (py"script_length", .str
  py"19"), (py"script_length_int", .int 25), (py"script_pub_key", .str
  py"76a9140f9ee78522f6cc8a88784ae02b0408e452d8025988ac"), (py"address", .str
  py"12RbVkKwHcwHbMZmnSVAyR4g88ZChpQD6f"), (py"bitcoin_amount", .str py"0.00199775"),
  (py"satoshi_amount", .int 199775)]]), (py"block_lock_time", .str py"00000000"),
  (py"hash_type_4_byte", .str py"01000000"), (py"hash_type_1_byte", .str py"01"), (py"signed",
  .bool true), (py"total_input", .dict [(py"satoshi_amount", .int 200000), (py"bitcoin_amount",
  .str py"0.00200000")]), (py"total_output", .dict [(py"satoshi_amount", .int 199775),
  (py"bitcoin_amount", .str py"0.00199775")]), (py"fee", .dict [(py"satoshi_amount", .int 225),
  (py"bitcoin_amount", .str py"0.00000225")]), (py"change_address", .none), (py"change", .dict
  [(py"satoshi_amount", .none), (py"bitcoin_amount", .none)]), (py"estimated_size_bytes", .int
  223), (py"estimated_fee_rate", .dict [(py"satoshi_per_byte", .str py"1.0090"),
  (py"bitcoin_per_byte", .str py"0.00000001")]), (py"size_bytes", .int 223), (py"fee_rate",
  .dict [(py"satoshi_per_byte", .str py"1.0090"), (py"bitcoin_per_byte", .str
  py"0.00000001")])])) (some
  py"0100000001ceb493941bf44671994f853fe8585f330070956640bd30fe885d429183e48284090000008a47304402206a2eea0c908efbd780a34c48b48d80946a6e740c272468427bada3ba9773d39a022076017028c4386020b19b7d1f1640558cd902aeffbfbd85f4637a8be0e92ee1de014104e8ade66f2cc0e43073f4ccea47db279bbab1a5e30a6e8ba49f12538b215c5b9e0d28bd080d35fde878081e8f05dbc23eeba02b544fa83e6d13b5f2145681e76dffffffff015f0c0300000000001976a9140f9ee78522f6cc8a88784ae02b0408e452d8025988ac00000000")
  (some py"4bdd5f653d0100ea4735953e8e22e92321af9074926b3bd33c279c289f2d975a") = true := by
  decide +kernel

/-- test_transaction.py: test_tx2 -/
example : txTest [(py"138obEZkdWaWEQ4x8ZAYw4MybHSZtX1Nam",
  py"e4609e0f1ca854b8b07381f32ba31adbad9713205f5a4f3f56a5a32853d47855", 8, py"0.0024200")]
  [(py"13xPBB175FtPbPQ84iB8KuawaVy3mHrady", py"0.00241777")] none (some (.dict [(py"version",
  .str py"01000000"), (py"input_count", .str py"01"), (py"inputs", .list [.dict
  [(py"previous_output_hash", .str
  py"5578d45328a3a5563f4f5a5f201397addb1aa32bf38173b0b854a81c0f9e60e4"),
  (py"previous_output_index", .str py"08000000"), (py"previous_output_index_int", .int 8),
  (py"script_length", .none), (py"script_length_int", .none), (py"script_sig", .none),
  (py"sequence", .str py"ffffffff"), (py"public_key_hex", .none), (py"script_pub_key_length",
  .str py"19"), (py"script_pub_key_length_int", .int 25), (py"script_pub_key", .str
  py"76a914176a0e0c2b9b0e77d630712ad301b749102a304488ac"), (py"address", .str
  py"138obEZkdWaWEQ4x8ZAYw4MybHSZtX1Nam"), (py"txid", .str
  py"e4609e0f1ca854b8b07381f32ba31adbad9713205f5a4f3f56a5a32853d47855"), (py"satoshi_amount",
  .int 242000), (py"bitcoin_amount", .str py"0.00242000")]]), (py"output_count", .str py"01"),
  (py"outputs", .list [.dict [(py"value", .str py"71b0030000000000"), (py"script_length", .str
  py"19"), (py"script_length_int", .int 25), (py"script_pub_key", .str
  py"76a9142069a3fae01db74cef12d1d01811afdf6a3e1c2e88ac"), (py"address", .str
  py"13xPBB175FtPbPQ84iB8KuawaVy3mHrady"), (py"bitcoin_amount", .str py"0.00241777"),
  (py"satoshi_amount", .int 241777)]]), (py"block_lock_time", .str py"00000000"),
  (py"hash_type_4_byte", .str py"01000000"), (py"hash_type_1_byte", .str py"01"), (py"signed",
  .bool false), (py"total_input", .dict [(py"satoshi_amount", .int 242000),
  (py"bitcoin_amount", .str py"0.00242000")]), (py"total_output", .dict [(py"satoshi_amount",
  .int 241777), (py"bitcoin_amount", .str py"0.00241777")]), (py"fee", .dict
  [(py"satoshi_amount", .int 223), (py"bitcoin_amount", .str py"0.00000223")]),
  (py"change_address", .none), (py"change", .dict [(py"satoshi_amount", .none),
  (py"bitcoin_amount", .none)]), (py"estimated_size_bytes", .int 223), (py"estimated_fee_rate",
  .dict [(py"satoshi_per_byte", .str py"1.0000"), (py"bitcoin_per_byte", .str
  py"0.00000001")]), (py"size_bytes", .none), (py"fee_rate", .dict [(py"satoshi_amount",
  .none), (py"bitcoin_amount", .none)])]))
  [py"00000000000000000000007468655f6d6f74655f696e5f676f6427735f657965"] (some
  [py"00000000005468652046616365206f6620476f64206468636d726c636874646a"]) (some (.dict
  [(py"version", .str py"01000000"), (py"input_count", .str py"01"), (py"inputs", .list [.dict
  [(py"previous_output_hash", .str
  py"5578d45328a3a5563f4f5a5f201397addb1aa32bf38173b0b854a81c0f9e60e4"),
  (py"previous_output_index", .str py"08000000"), (py"previous_output_index_int", .int 8),
  (py"script_length", .str py"8a"), (py"script_length_int", .int 138), (py"script_sig", .str
  py"473044022017ece35581a034a4838a577fe438f108cf22764927a1ad197ed379460c0764cd022066723723eff05c10bac9a2f63b3e782e24fde290701c9408f3d1054722adad360141041ad06846fd7cf9998a827485d8dd5aaba9eccc385ba7759a6e9055fbdf90d7513c0d11fe5e5dcfcf8d4946c67f6c45f8e7f7d7a9c254ca8ebde1ffd64ab9dd58"),
  (py"sequence", .str py"ffffffff"), (py"public_key_hex", .str
  py"1ad06846fd7cf9998a827485d8dd5aaba9eccc385ba7759a6e9055fbdf90d7513c0d11fe5e5dcfcf8d4946c67f6c45f8e7f7d7a9c254ca8ebde1ffd64ab9dd58"),
  (py"script_pub_key_length", .str py"19"), (py"script_pub_key_length_int", .int 25),
  (py"script_pub_key", .str py"76a914176a0e0c2b9b0e77d630712ad301b749102a304488ac"),
  (py"address", .str py"138obEZkdWaWEQ4x8ZAYw4MybHSZtX1Nam"), (py"txid", .str
  py"e4609e0f1ca854b8b07381f32ba31adbad9713205f5a4f3f56a5a32853d47855"), (py"satoshi_amount",
  .int 242000), (py"bitcoin_amount", .str py"0.00242000")]]), (py"output_count", .str py"01"),
  (py"outputs", .list [.dict [(py"value", .str py"71b0030000000000"), (py"script_length", .str
  py"19"), (py"script_length_int", .int 25), (py"script_pub_key", .str
  py"76a9142069a3fae01db74cef12d1d01811afdf6a3e1c2e88ac"), (py"address", .str
  py"13xPBB175FtPbPQ84iB8KuawaVy3mHrady"), (py"bitcoin_amount", .str py"0.00241777"),
  (py"satoshi_amount", .int 241777)]]), (py"block_lock_time", .str py"00000000"),
  (py"hash_type_4_byte", .str py"01000000"), (py"hash_type_1_byte", .str py"01"), (py"signed",
  .bool true), (py"total_input", .dict [(py"satoshi_amount", .int 242000), (py"bitcoin_amount",
  .str py"0.00242000")]), (py"total_output", .dict [(py"satoshi_amount", .int 241777),
  (py"bitcoin_amount", .str py"0.00241777")]), (py"fee", .dict [(py"satoshi_amount", .int 223),
  (py"bitcoin_amount", .str py"0.00000223")]), (py"change_address", .none), (py"change", .dict
  [(py"satoshi_amount", .none), (py"bitcoin_amount", .none)]), (py"estimated_size_bytes", .int
  223), (py"estimated_fee_rate", .dict [(py"satoshi_per_byte", .str py"1.0000"),
  (py"bitcoin_per_byte", .str py"0.00000001")]), (py"size_bytes", .int 223), (py"fee_rate",
  .dict [(py"satoshi_per_byte", .str py"1.0000"), (py"bitcoin_per_byte", .str
  py"0.00000001")])])) (some
  py"01000000015578d45328a3a5563f4f5a5f201397addb1aa32bf38173b0b854a81c0f9e60e4080000008a473044022017ece35581a034a4838a577fe438f108cf22764927a1ad197ed379460c0764cd022066723723eff05c10bac9a2f63b3e782e24fde290701c9408f3d1054722adad360141041ad06846fd7cf9998a827485d8dd5aaba9eccc385ba7759a6e9055fbdf90d7513c0d11fe5e5dcfcf8d4946c67f6c45f8e7f7d7a9c254ca8ebde1ffd64ab9dd58ffffffff0171b00300000000001976a9142069a3fae01db74cef12d1d01811afdf6a3e1c2e88ac00000000")
  (some py"745e224ccba0a033c55ea80523f207da18b903418ac1f5d293eed62c19e0334d") = true := by
  decide +kernel

/-- test_transaction.py: test_tx3 -/
example : txTest [(py"16ASCUS3s7D4UQh6J9oHGuT19agPvD3PFj",
  py"f02eca2852bf73f3c722db2d151e7755d853efd8dd6224249b14f8b51dffbc6e", 12, py"0.00600000")]
  [(py"1KHDLNmqBtiBELUsmTCkNASg79jfEVKrig", py"0.00300000"),
  (py"1DLg5i1kBjXYXy9f82xZcHokEMC9dtct7P", py"0.00299226")] none (some (.dict [(py"version",
  .str py"01000000"), (py"input_count", .str py"01"), (py"inputs", .list [.dict
  [(py"previous_output_hash", .str
  py"6ebcff1db5f8149b242462ddd8ef53d855771e152ddb22c7f373bf5228ca2ef0"),
  (py"previous_output_index", .str py"0c000000"), (py"previous_output_index_int", .int 12),
  (py"script_length", .none), (py"script_length_int", .none), (py"script_sig", .none),
  (py"sequence", .str py"ffffffff"), (py"public_key_hex", .none), (py"script_pub_key_length",
  .str py"19"), (py"script_pub_key_length_int", .int 25), (py"script_pub_key", .str
  py"76a91438a1681a09280ecb20b62cf661913e811eb3c4b188ac"), (py"address", .str
  py"16ASCUS3s7D4UQh6J9oHGuT19agPvD3PFj"), (py"txid", .str
  py"f02eca2852bf73f3c722db2d151e7755d853efd8dd6224249b14f8b51dffbc6e"), (py"satoshi_amount",
  .int 600000), (py"bitcoin_amount", .str py"0.00600000")]]), (py"output_count", .str py"02"),
  (py"outputs", .list [.dict [(py"value", .str py"e093040000000000"), (py"script_length", .str
  py"19"), (py"script_length_int", .int 25), (py"script_pub_key", .str
  py"76a914c8833727be832b6634d8ddf7bfcf51e379b28f6388ac"), (py"address", .str
  py"1KHDLNmqBtiBELUsmTCkNASg79jfEVKrig"), (py"bitcoin_amount", .str py"0.00300000"),
  (py"satoshi_amount", .int 300000)], .dict [(py"value", .str py"da90040000000000"),
  (py"script_length", .str py"19"), (py"script_length_int", .int 25), (py"script_pub_key", .str
  py"76a914875a093668adff783d0835f4db655c5a47a0ceaa88ac"), (py"address", .str
  py"1DLg5i1kBjXYXy9f82xZcHokEMC9dtct7P"), (py"bitcoin_amount", .str py"0.00299226"),
  (py"satoshi_amount", .int 299226)]]), (py"block_lock_time", .str py"00000000"),
  (py"hash_type_4_byte", .str py"01000000"), (py"hash_type_1_byte", .str py"01"), (py"signed",
  .bool false), (py"total_input", .dict [(py"satoshi_amount", .int 600000),
  (py"bitcoin_amount", .str py"0.00600000")]), (py"total_output", .dict [(py"satoshi_amount",
  .int 599226), (py"bitcoin_amount", .str py"0.00599226")]), (py"fee", .dict
  [(py"satoshi_amount", .int 774), (py"bitcoin_amount", .str py"0.00000774")]),
  (py"change_address", .none), (py"change", .dict [(py"satoshi_amount", .none),
  (py"bitcoin_amount", .none)]), (py"estimated_size_bytes", .int 257), (py"estimated_fee_rate",
  .dict [(py"satoshi_per_byte", .str py"3.0117"), (py"bitcoin_per_byte", .str
  py"0.00000003")]), (py"size_bytes", .none), (py"fee_rate", .dict [(py"satoshi_amount",
  .none), (py"bitcoin_amount", .none)])]))
  [py"7972b641101c0ad67b0e401b800a9b6f3225c97fc6b8115042cf66968c2fb2e5"] (some
  [py"257c2ff4ac1606d5e42fe152c2624cffac2aa58cdfe8578a69b12beefbce68b9"]) (some (.dict
  [(py"version", .str py"01000000"), (py"input_count", .str py"01"), (py"inputs", .list [.dict
  [(py"previous_output_hash", .str
  py"6ebcff1db5f8149b242462ddd8ef53d855771e152ddb22c7f373bf5228ca2ef0"),
  (py"previous_output_index", .str py"0c000000"), (py"previous_output_index_int", .int 12),
  (py"script_length", .str py"8a"), (py"script_length_int", .int 138), (py"script_sig", .str
  py"47304402202d8617427fc589848ef2e0481d148e0ce5d60aaa26e466fdfe62890d0d67ca6902200df89728ea73816cecfdfd6a734ca8b70da7000e213b87dcfdc9d48400164fac014104108e1c01a42bbd09b77a26b5f732f10d7108b2fe31cba137e9d15e24c7c30d2515904dfe646f3e94a3aa482afbbe0dc178b9b212154529768e0ba74452df1c2a"),
  (py"sequence", .str py"ffffffff"), (py"public_key_hex", .str
  py"108e1c01a42bbd09b77a26b5f732f10d7108b2fe31cba137e9d15e24c7c30d2515904dfe646f3e94a3aa482afbbe0dc178b9b212154529768e0ba74452df1c2a"),
  (py"script_pub_key_length", .str py"19"), (py"script_pub_key_length_int", .int 25),
  (py"script_pub_key", .str py"76a91438a1681a09280ecb20b62cf661913e811eb3c4b188ac"),
  (py"address", .str py"16ASCUS3s7D4UQh6J9oHGuT19agPvD3PFj"), (py"txid", .str
  py"f02eca2852bf73f3c722db2d151e7755d853efd8dd6224249b14f8b51dffbc6e"), (py"satoshi_amount",
  .int 600000), (py"bitcoin_amount", .str py"0.00600000")]]), (py"output_count", .str py"02"),
  (py"outputs", .list [.dict [(py"value", .str py"e093040000000000"), (py"script_length", .str
  py"19"), (py"script_length_int", .int 25), (py"script_pub_key", .str
  py"76a914c8833727be832b6634d8ddf7bfcf51e379b28f6388ac"), (py"address", .str
  py"1KHDLNmqBtiBELUsmTCkNASg79jfEVKrig"), (py"bitcoin_amount", .str py"0.00300000"),
  (py"satoshi_amount", .int 300000)], .dict [(py"value", .str py"da90040000000000"),
  (py"script_length", .str py"19"), (py"script_length_int", .int 25), (py"script_pub_key", .str
  py"76a914875a093668adff783d0835f4db655c5a47a0ceaa88ac"), (py"address", .str
  py"1DLg5i1kBjXYXy9f82xZcHokEMC9dtct7P"), (py"bitcoin_amount", .str py"0.00299226"),
  (py"satoshi_amount", .int 299226)]]), (py"block_lock_time", .str py"00000000"),
  (py"hash_type_4_byte", .str py"01000000"), (py"hash_type_1_byte", .str py"01"), (py"signed",
  .bool true), (py"total_input", .dict [(py"satoshi_amount", .int 600000), (py"bitcoin_amount",
  .str py"0.00600000")]), (py"total_output", .dict [(py"satoshi_amount", .int 599226),
  (py"bitcoin_amount", .str py"0.00599226")]), (py"fee", .dict [(py"satoshi_amount", .int 774),
  (py"bitcoin_amount", .str py"0.00000774")]), (py"change_address", .none), (py"change", .dict
  [(py"satoshi_amount", .none), (py"bitcoin_amount", .none)]), (py"estimated_size_bytes", .int
  257), (py"estimated_fee_rate", .dict [(py"satoshi_per_byte", .str py"3.0117"),
  (py"bitcoin_per_byte", .str py"0.00000003")]), (py"size_bytes", .int 257), (py"fee_rate",
  .dict [(py"satoshi_per_byte", .str py"3.0117"), (py"bitcoin_per_byte", .str
  py"0.00000003")])])) (some
  py"01000000016ebcff1db5f8149b242462ddd8ef53d855771e152ddb22c7f373bf5228ca2ef00c0000008a47304402202d8617427fc589848ef2e0481d148e0ce5d60aaa26e466fdfe62890d0d67ca6902200df89728ea73816cecfdfd6a734ca8b70da7000e213b87dcfdc9d48400164fac014104108e1c01a42bbd09b77a26b5f732f10d7108b2fe31cba137e9d15e24c7c30d2515904dfe646f3e94a3aa482afbbe0dc178b9b212154529768e0ba74452df1c2affffffff02e0930400000000001976a914c8833727be832b6634d8ddf7bfcf51e379b28f6388acda900400000000001976a914875a093668adff783d0835f4db655c5a47a0ceaa88ac00000000")
  (some py"db2c3d84708cd9d0e40ae1754021f9146a0d6ab555fc0e1d547d7876c0c092f4") = true := by
  decide +kernel

/-- test_transaction.py: test_tx4 -/
example : txTest [(py"17pNyD9ur28aBgPhHtAFi6fAyrvgshp5yn",
  py"1b1ad779f50b07aac0048471844c0637100561b179457ddd433f1c05adf24a19", 3, py"0.00400000")]
  [(py"1PFw45xp5JUcLZfDQnMpto6yJpcjRLqrJ8", py"0.00200000"),
  (py"19u4WSjpp19yoAK9kdRyY9HJ7ad2S8s1E4", py"0.00199614")] none (some (.dict [(py"version",
  .str py"01000000"), (py"input_count", .str py"01"), (py"inputs", .list [.dict
  [(py"previous_output_hash", .str
  py"194af2ad051c3f43dd7d4579b161051037064c84718404c0aa070bf579d71a1b"),
  (py"previous_output_index", .str py"03000000"), (py"previous_output_index_int", .int 3),
  (py"script_length", .none), (py"script_length_int", .none), (py"script_sig", .none),
  (py"sequence", .str py"ffffffff"), (py"public_key_hex", .none), (py"script_pub_key_length",
  .str py"19"), (py"script_pub_key_length_int", .int 25), (py"script_pub_key", .str
  py"76a9144ac6a4d0ee2aa064974bf6e571f6f700b7f67ce688ac"), (py"address", .str
  py"17pNyD9ur28aBgPhHtAFi6fAyrvgshp5yn"), (py"txid", .str
  py"1b1ad779f50b07aac0048471844c0637100561b179457ddd433f1c05adf24a19"), (py"satoshi_amount",
  .int 400000), (py"bitcoin_amount", .str py"0.00400000")]]), (py"output_count", .str py"02"),
  (py"outputs", .list [.dict [(py"value", .str py"400d030000000000"), (py"script_length", .str
  py"19"), (py"script_length_int", .int 25), (py"script_pub_key", .str
  py"76a914f425b648af85989c1387d532393938fcb7d7bcbb88ac"), (py"address", .str
  py"1PFw45xp5JUcLZfDQnMpto6yJpcjRLqrJ8"), (py"bitcoin_amount", .str py"0.00200000"),
  (py"satoshi_amount", .int 200000)], .dict [(py"value", .str py"be0b030000000000"),
  (py"script_length", .str py"19"), (py"script_length_int", .int 25), (py"script_pub_key", .str
  py"76a91461999077782b7298b813d83459a9c944da6460bd88ac"), (py"address", .str
  py"19u4WSjpp19yoAK9kdRyY9HJ7ad2S8s1E4"), (py"bitcoin_amount", .str py"0.00199614"),
  (py"satoshi_amount", .int 199614)]]), (py"block_lock_time", .str py"00000000"),
  (py"hash_type_4_byte", .str py"01000000"), (py"hash_type_1_byte", .str py"01"), (py"signed",
  .bool false), (py"total_input", .dict [(py"satoshi_amount", .int 400000),
  (py"bitcoin_amount", .str py"0.00400000")]), (py"total_output", .dict [(py"satoshi_amount",
  .int 399614), (py"bitcoin_amount", .str py"0.00399614")]), (py"fee", .dict
  [(py"satoshi_amount", .int 386), (py"bitcoin_amount", .str py"0.00000386")]),
  (py"change_address", .none), (py"change", .dict [(py"satoshi_amount", .none),
  (py"bitcoin_amount", .none)]), (py"estimated_size_bytes", .int 257), (py"estimated_fee_rate",
  .dict [(py"satoshi_per_byte", .str py"1.5019"), (py"bitcoin_per_byte", .str
  py"0.00000002")]), (py"size_bytes", .none), (py"fee_rate", .dict [(py"satoshi_amount",
  .none), (py"bitcoin_amount", .none)])]))
  [py"7a0d11f6015f941ea486922e45310535c5b71c59d8489447648eebdb6a39e2a8"] (some
  [py"84425ee562f20d7493420c97eea153d37891eb63ce51fa24f51bfc7646353d32"]) (some (.dict
  [(py"version", .str py"01000000"), (py"input_count", .str py"01"), (py"inputs", .list [.dict
  [(py"previous_output_hash", .str
  py"194af2ad051c3f43dd7d4579b161051037064c84718404c0aa070bf579d71a1b"),
  (py"previous_output_index", .str py"03000000"), (py"previous_output_index_int", .int 3),
  (py"script_length", .str py"8a"), (py"script_length_int", .int 138), (py"script_sig", .str
  py"47304402204f38e1194a0f71f4cb03b1a8644dae69c543cab339d19f0412511bed0868904a02201a9356663d0ad3527b5633ced4cbc469f98bccb0940f2583c7c6c0c0868973a3014104c0128d7e4cbfef4e1bae30788b7bd7a4b974027eea5d83c07ac041f194707e8bba70a162c557cdbcb89682a5a310a2d5a722b2d58d18920a00b6b4c7024ce966"),
  (py"sequence", .str py"ffffffff"), (py"public_key_hex", .str
  py"c0128d7e4cbfef4e1bae30788b7bd7a4b974027eea5d83c07ac041f194707e8bba70a162c557cdbcb89682a5a310a2d5a722b2d58d18920a00b6b4c7024ce966"),
  (py"script_pub_key_length", .str py"19"), (py"script_pub_key_length_int", .int 25),
  (py"script_pub_key", .str py"76a9144ac6a4d0ee2aa064974bf6e571f6f700b7f67ce688ac"),
  (py"address", .str py"17pNyD9ur28aBgPhHtAFi6fAyrvgshp5yn"), (py"txid", .str
  py"1b1ad779f50b07aac0048471844c0637100561b179457ddd433f1c05adf24a19"), (py"satoshi_amount",
  .int 400000), (py"bitcoin_amount", .str py"0.00400000")]]), (py"output_count", .str py"02"),
  (py"outputs", .list [.dict [(py"value", .str py"400d030000000000"), (py"script_length", .str
  py"19"), (py"script_length_int", .int 25), (py"script_pub_key", .str
  py"76a914f425b648af85989c1387d532393938fcb7d7bcbb88ac"), (py"address", .str
  py"1PFw45xp5JUcLZfDQnMpto6yJpcjRLqrJ8"), (py"bitcoin_amount", .str py"0.00200000"),
  (py"satoshi_amount", .int 200000)], .dict [(py"value", .str py"be0b030000000000"),
  (py"script_length", .str py"19"), (py"script_length_int", .int 25), (py"script_pub_key", .str
  py"76a91461999077782b7298b813d83459a9c944da6460bd88ac"), (py"address", .str
  py"19u4WSjpp19yoAK9kdRyY9HJ7ad2S8s1E4"), (py"bitcoin_amount", .str py"0.00199614"),
  (py"satoshi_amount", .int 199614)]]), (py"block_lock_time", .str py"00000000"),
  (py"hash_type_4_byte", .str py"01000000"), (py"hash_type_1_byte", .str py"01"), (py"signed",
  .bool true), (py"total_input", .dict [(py"satoshi_amount", .int 400000), (py"bitcoin_amount",
  .str py"0.00400000")]), (py"total_output", .dict [(py"satoshi_amount", .int 399614),
  (py"bitcoin_amount", .str py"0.00399614")]), (py"fee", .dict [(py"satoshi_amount", .int 386),
  (py"bitcoin_amount", .str py"0.00000386")]), (py"change_address", .none), (py"change", .dict
  [(py"satoshi_amount", .none), (py"bitcoin_amount", .none)]), (py"estimated_size_bytes", .int
  257), (py"estimated_fee_rate", .dict [(py"satoshi_per_byte", .str py"1.5019"),
  (py"bitcoin_per_byte", .str py"0.00000002")]), (py"size_bytes", .int 257), (py"fee_rate",
  .dict [(py"satoshi_per_byte", .str py"1.5019"), (py"bitcoin_per_byte", .str
  py"0.00000002")])])) (some
  py"0100000001194af2ad051c3f43dd7d4579b161051037064c84718404c0aa070bf579d71a1b030000008a47304402204f38e1194a0f71f4cb03b1a8644dae69c543cab339d19f0412511bed0868904a02201a9356663d0ad3527b5633ced4cbc469f98bccb0940f2583c7c6c0c0868973a3014104c0128d7e4cbfef4e1bae30788b7bd7a4b974027eea5d83c07ac041f194707e8bba70a162c557cdbcb89682a5a310a2d5a722b2d58d18920a00b6b4c7024ce966ffffffff02400d0300000000001976a914f425b648af85989c1387d532393938fcb7d7bcbb88acbe0b0300000000001976a91461999077782b7298b813d83459a9c944da6460bd88ac00000000")
  (some py"8f6318124bdd66f4643ccbfcbcb0a802924833505c015929dc7b1cab2ca02826") = true := by
  decide +kernel

/-- test_transaction.py: test_tx5 -/
example : txTest [(py"1PFw45xp5JUcLZfDQnMpto6yJpcjRLqrJ8",
  py"8f6318124bdd66f4643ccbfcbcb0a802924833505c015929dc7b1cab2ca02826", 0, py"0.00200000"),
  (py"19u4WSjpp19yoAK9kdRyY9HJ7ad2S8s1E4",
  py"8f6318124bdd66f4643ccbfcbcb0a802924833505c015929dc7b1cab2ca02826", 1, py"0.00199614")]
  [(py"17PZ6uyL59vPirNqqpMnB1kjEXkU7ske7s", py"0.00399171")] (some 443) none
  [py"cbac84458fcfbb39f87fca7ab9a9ef2f76812a6f999a75dfa25dbcbb0ee3eb6f",
  py"7d37c1a74d3b87d3994ac6db65b4f298f64a8ed6144edfdb2cacea70cf3070af"] (some
  [py"5ab5bbe6fdc861a461a6721b2953d32be23c233e5ad5dc08d7c13daa95adbc17",
  py"75fc65686a47326556735be91491a06f380a9db682fe9d50f82ad8d8d8849c2f"]) none (some
  py"01000000022628a02cab1c7bdc2959015c5033489202a8b0bcfccb3c64f466dd4b1218638f000000008b4830450221008d4ecab2a74461cabcd3e5398ca6752594fbd758c3d10ff3a50c5bf45e460a4502206e7607d2f9ff8fa40489c041fdbbcaecfe723caabf28de9451a2be67d8705d1901410426f2ad4968ef7c5412a2cfac85c902f613b7406962477c931d25ddfb2957c494e70f832ac8dd50740c64297038c722542005b0c5191061e444c793b62d9b2aceffffffff2628a02cab1c7bdc2959015c5033489202a8b0bcfccb3c64f466dd4b1218638f010000008a4730440220184f1d7e9cfe7539cd40cae04e71dc21ce05de958620294cb2d490d45356bfc102203f4ae4afe33b93d1cc96c356735d7a4d3b90cfe62cab0d0cf71fd2f7718e99df0141043c8564e9fa9e9530699ffe7c5dd75077698ff96f3786e96bdbb210a109147cedacfdaa784eb4ba538556e8dd70455ba3627fe902f152940d70ffdd55acdb82a9ffffffff0143170600000000001976a9144614b4066faf3ef831a20186f76381c25dd6ea8288ac00000000")
  (some py"92616e432f7807bf6d93252fcdca7efb139e56f7aa34835b50670ebc6a4b5649") = true := by
  decide +kernel

/-- test_transaction.py: test_tx6 -/
example : txTest [(py"15BLTZb6uQr24MrxqXJaPpRGz1tKrzq7iC",
  py"dd616e2b18e41606e9990b19fa6adb21bb4eacb26c54c141d2b703d7571056a3", 0, py"0.00099442")]
  [(py"1KYtin5SrnZTwKJyRCtjHvzpevjZaGjCg", py"0.00098884")] (some 558) none
  [py"dd23f217012efd9ac3dec71d0c2b42212a58bff75d9e97af900403cf5657bad3"] (some
  [py"706eaef9f357ad6f1ddd0536eaec027a2a218094db8db781601d9ad4e486c61b"]) none (some
  py"0100000001a3561057d703b7d241c1546cb2ac4ebb21db6afa190b99e90616e4182b6e61dd000000008b483045022100c317199690d5bf20f90d6a6250f919f27a0767ac6d824451951eb1ff19595d1902205e337c880937833f2feb8887917974c3f96595ce7af000ad2938504bae4e3c540141041cbd3a52ecb96d2e39cb7b85d1b6b3d671e348fbc767a756606fffa69ab6dd3719740c88c0c5893082c15ca9c71c0b17225f0930f3c2b891180372d70aed1cecffffffff0144820100000000001976a91403821bf3afc86ee1590de7c879c3ea5434e6d51d88ac00000000")
  (some py"82b4f898b02a557de3f10efee491e3aaff6c461a335a21feec383df749967555") = true := by
  decide +kernel

/-- test_transaction.py: test_tx7 -/
example : txTest [(py"1BB66Gx4833uKx8Lo2k8Mt4TRk42WTr7cZ",
  py"9d64ba7c5afdb3caa79bb79c35dde09af70b27829241b2823e4ffb918c75d153", 0, py"0.01000000")]
  [(py"12YCFdpsRDvEHNcj5rsmvJ5G2XXkW1icJP", py"0.00474300"),
  (py"1H5SUR7Fv7x252WuJPqBjewwpeHuJ218Ky", py"0.00500000")] (some 25700) none
  [py"f6c8b60b49c35ef5e6e05e9b06aa5b2b28bd28fbfce696dfc2301347d494a22b"] (some
  [py"b28780e24336648daa30a9ce4e3585aa8e45942196f76f6d66e57d82db54a11a"]) none (some
  py"010000000153d1758c91fb4f3e82b2419282270bf79ae0dd359cb79ba7cab3fd5a7cba649d000000008b483045022100aac4e36174bafa5dd5f2a0b89d306f8bfa302a42e6590f9a654a514a8ea19b1b022047402e5a9c68605d97f0a42e84c940fab10db0138c32f0c8f4dbb196403f5ea50141048b372e0137fbd76f3095098e540f8992febf56c822d023237179e23703d31b6811b21205465d6c0e2cf33c470b1aaa7599200e81a28f546a5afdc0902c03976effffffff02bc3c0700000000001976a91410de69df99d4b834ee6f2bd1466edab556beb7d688ac20a10700000000001976a914b058f09e25382dd3b9339c25a5727085a22c8c6088ac00000000")
  (some py"585f054c01139bdae20ff8fa233c4cda47db6d891a387e37dfd56f9cb39d1bea") = true := by
  decide +kernel

/-- test_transaction.py: test_tx8 -/
example : txTest [(py"12YCFdpsRDvEHNcj5rsmvJ5G2XXkW1icJP",
  py"585f054c01139bdae20ff8fa233c4cda47db6d891a387e37dfd56f9cb39d1bea", 0, py"0.00474300"),
  (py"1H5SUR7Fv7x252WuJPqBjewwpeHuJ218Ky",
  py"585f054c01139bdae20ff8fa233c4cda47db6d891a387e37dfd56f9cb39d1bea", 1, py"0.00500000")]
  [(py"136oURWq1zjkdQHKcanE7TyA3o36ibARNM", py"0.00430700"),
  (py"12PX5jPyQYejyrU79nZUDmKXvB3ttMfDqZ", py"0.00500000")] (some 43600) none
  [py"ecfb8057d4e053dda6849f6a361ca2d6797368651bbb2b52ce4691515a7909e1",
  py"fc8c7e92b44fe66f8f20d98a648f659da69461661673e22292a67dc20742ef17"] (some
  [py"0a5a9cc087cf3337bfb0fa12f6fa036d17d6b6dc0e93dfa657c8caca47ad8155",
  py"2493ac84058e4f4b79f1bd267c45f52bc7545ef01dd66b8bf077cae86460e954"]) none (some
  py"0100000002ea1b9db39c6fd5df377e381a896ddb47da4c3c23faf80fe2da9b13014c055f58000000008b483045022100d75efc99b640bcc09f569b1b53cb33d407720f9931a719d0ae3212182927cbb802205ea59d7e86f3bdcf7ec5b483a181704909e401cdeb3f8c60172d72aa842ec142014104e5f0aa4e9ee32cc982db529c981f18171cd9d1ccf224a94e4b3c09b51fd3752c6ebf66f0861dc435fee962f995ab9c5346d32332a409c598eb575cec74115180ffffffffea1b9db39c6fd5df377e381a896ddb47da4c3c23faf80fe2da9b13014c055f58010000008b483045022100c70dbea33b9a7d51a9f952a63d65f0572194af68774c09e03d347f65cddd38c3022072e8341e85f5cb6c49be050c862837d451f46a6f5d0f51fa80993a45983cf9d6014104cca91b1ad65fc428789b469f0e030fb2de58132c61f3240f416e3a6eb1963009a359770805e71e9b7c7982da51c2a3209ec908efe71cf5ec8b65f5b9eb05115bffffffff026c920600000000001976a91417091ffac2b6bb51d9fd1d979fac6ec6bf3a2f1e88ac20a10700000000001976a9140f3a634504545b37a97b10214b2f640fb16085e588ac00000000")
  (some py"2b0cef7b0abfefeb6c7c6b228930e6218e86e9d8c33f5525d10f34f91cc7bad4") = true := by
  decide +kernel

/-- test_transaction.py: test_tx9 -/
example : txTest [(py"136oURWq1zjkdQHKcanE7TyA3o36ibARNM",
  py"2b0cef7b0abfefeb6c7c6b228930e6218e86e9d8c33f5525d10f34f91cc7bad4", 0, py"0.00430700"),
  (py"12PX5jPyQYejyrU79nZUDmKXvB3ttMfDqZ",
  py"2b0cef7b0abfefeb6c7c6b228930e6218e86e9d8c33f5525d10f34f91cc7bad4", 1, py"0.00500000")]
  [(py"1LVenxwqnmvwjjBdyUByWsD7mXNmJJP2ZF", py"0.00890500")] (some 40200) none
  [py"f7def6819cf8efb7c4aeaddecb951688bcda37cee73b92f73a29be076e66579c",
  py"11717a85a51ba5cd1711905816a694bdd288d0639f27d8bb113ba94df9da1501"] (some
  [py"2423bd4f4af0c89f5cd4a9116905da27d2b5a6abc2c5e5151106035b02e90076",
  py"d79be13627e92605f26ce76e6a6e3cf7943d9a2d161760662fcef47583dc8731"]) none (some
  py"0100000002d4bac71cf9340fd125553fc3d8e9868e21e63089226b7c6cebefbf0a7bef0c2b000000008a47304402202c76a68f7eae79f50034a0a7b3b3dca729f03be1f17c445ad3762ec286a6055402202f8eabbb81a3adc8a6b70ca95dc7972489c6ed28e80be1d8775d00eaf37846640141042d09248cf80095d875561c83adc572f7bae3ff39832f9028b7abd792b4e439b2d522e9b461e8bbaf937c6165a1767b9a105268f013e424e6f7101b042d1dc5edffffffffd4bac71cf9340fd125553fc3d8e9868e21e63089226b7c6cebefbf0a7bef0c2b010000008a47304402205a092cff6c5776e555c4cdbfb8a2dcf696e34fab1202e6d542827b8721c75f56022032b83b3b93f384aaef84b3c0894b5f05917b886ef46f2df61fb5e0c91e62139c0141041489ca134cf898df4e58182cec872126b7a2e635c2db547bda3c27b2b1ea65d145b4563745bac943c8df62be7651a2ec700653c7ebf77d15f8aae48a6e33929fffffffff0184960d00000000001976a914d5d5959ba3035c57b81e9178a8a34e6e7d9580c888ac00000000")
  (some py"b533842c4a338227be180a463eea63df6d85ef0bcc358e84000595980dcc0140") = true := by
  decide +kernel

end BT.Conformance
