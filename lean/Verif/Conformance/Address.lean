import Verif.Conformance.Base

/-!
# `test_address.py`, `test_private_key.py`

Generated by `tools/vectors.py`: do not edit.  Tests, not proofs.
-/

set_option linter.all false
set_option maxRecDepth 100000

namespace BT.Conformance

open BT.Concrete

/-- test_address.py: test_a1 -/
example : Xreal.formatKey py"68656c6c6f5f776f726c64" =
    .ok py"00000000000000000000000000000000000000000068656c6c6f5f776f726c64" := by decide +kernel

/-- test_address.py: test_a1 -/
example : privateKeyToAddress Xreal
    py"68656c6c6f5f776f726c64" = .ok py"19VdGCFG8QH3CmYXjMXd3UQCK2HdC3UodP" := by decide +kernel

/-- test_address.py: test_a2 -/
example : Xreal.formatKey py"7468655f6c6962726172795f6f665f626162656c" =
    .ok py"0000000000000000000000007468655f6c6962726172795f6f665f626162656c" := by decide +kernel

/-- test_address.py: test_a2 -/
example : privateKeyToAddress Xreal
    py"7468655f6c6962726172795f6f665f626162656c" = .ok py"1CTumCMjzBfccCJBTkHoPQmAwEqU9Uj2sQ" := by decide +kernel

/-- test_address.py: test_a3 -/
example : Xreal.formatKey py"7468655f6579655f6f665f6172676f6e" =
    .ok py"000000000000000000000000000000007468655f6579655f6f665f6172676f6e" := by decide +kernel

/-- test_address.py: test_a3 -/
example : privateKeyToAddress Xreal
    py"7468655f6579655f6f665f6172676f6e" = .ok py"12RbVkKwHcwHbMZmnSVAyR4g88ZChpQD6f" := by decide +kernel

/-- test_address.py: test_a4 -/
example : privateKeyToAddress Xreal
    py"b675ceedba0843d19934d1e0508cde736b4bb7f0a56b9585329ebcbfed559346" = .ok py"1FJdRWN7tAd8rnivBm7yojppwvDmS7F55X" := by decide +kernel

/-- test_address.py: test_a5 -/
example : Xreal.formatKey py"7468655f6d6f74655f696e5f676f6427735f657965" =
    .ok py"00000000000000000000007468655f6d6f74655f696e5f676f6427735f657965" := by decide +kernel

/-- test_address.py: test_a5 -/
example : privateKeyToAddress Xreal
    py"7468655f6d6f74655f696e5f676f6427735f657965" = .ok py"138obEZkdWaWEQ4x8ZAYw4MybHSZtX1Nam" := by decide +kernel

/-- test_address.py: test_a6 -/
example : Xreal.formatKey py"726f6164736964655f7069636e6963" =
    .ok py"0000000000000000000000000000000000726f6164736964655f7069636e6963" := by decide +kernel

/-- test_address.py: test_a6 -/
example : privateKeyToAddress Xreal
    py"726f6164736964655f7069636e6963" = .ok py"13xPBB175FtPbPQ84iB8KuawaVy3mHrady" := by decide +kernel

/-- test_address.py: test_a7 -/
example : privateKeyToAddress Xreal
    py"a26e15954d2dafcee70eeaaa084eab8a4c1a30b0f71a42be4d8da20123bff121" = .ok py"1AGygbyEFYduWkkmZbbvirgS9kuBBMLJCP" := by decide +kernel

/-- test_address.py: test_a8 -/
example : privateKeyToAddress Xreal
    py"c592e1dad5e9871fdeffb551b4544b0a1cf0378c6371d7a397ff5faf04c934ca" = .ok py"1vkb4YyPMFcxyC83Z5m5zuN45xASoHeNK" := by decide +kernel

/-- test_address.py: test_a9 -/
example : privateKeyToAddress Xreal
    py"1fbc45dc460d14c07bcac41b8e17649455e92d9bfda29a89ba3addeee0eccaaa" = .ok py"17rEGTR4ss7xhVVMwL969Y8xszS7FaFsae" := by decide +kernel

/-- test_address.py: test_a10 -/
example : privateKeyToAddress Xreal
    py"7972b641101c0ad67b0e401b800a9b6f3225c97fc6b8115042cf66968c2fb2e5" = .ok py"16ASCUS3s7D4UQh6J9oHGuT19agPvD3PFj" := by decide +kernel

/-- test_address.py: test_a11 -/
example : privateKeyToAddress Xreal
    py"d45941cae4e31c824b041407053c9c15624e6234f9649bfd7d5bb5a93c53fe85" = .ok py"1KHDLNmqBtiBELUsmTCkNASg79jfEVKrig" := by decide +kernel

/-- test_address.py: test_a12 -/
example : privateKeyToAddress Xreal
    py"1faf3c86105fe6ee328b29e94197de7e8500ddb8308385a9a8b0cba08d59ce27" = .ok py"1DLg5i1kBjXYXy9f82xZcHokEMC9dtct7P" := by decide +kernel

/-- test_address.py: test_a13 -/
example : privateKeyToAddress Xreal
    py"7a0d11f6015f941ea486922e45310535c5b71c59d8489447648eebdb6a39e2a8" = .ok py"17pNyD9ur28aBgPhHtAFi6fAyrvgshp5yn" := by decide +kernel

/-- test_address.py: test_a14 -/
example : privateKeyToAddress Xreal
    py"cbac84458fcfbb39f87fca7ab9a9ef2f76812a6f999a75dfa25dbcbb0ee3eb6f" = .ok py"1PFw45xp5JUcLZfDQnMpto6yJpcjRLqrJ8" := by decide +kernel

/-- test_address.py: test_a15 -/
example : privateKeyToAddress Xreal
    py"7d37c1a74d3b87d3994ac6db65b4f298f64a8ed6144edfdb2cacea70cf3070af" = .ok py"19u4WSjpp19yoAK9kdRyY9HJ7ad2S8s1E4" := by decide +kernel

/-- test_address.py: test_a16 -/
example : privateKeyToAddress Xreal
    py"419292d169b515be1aec881018157f0a41883ea54da2b2405e10fd8a6abb76ec" = .ok py"17PZ6uyL59vPirNqqpMnB1kjEXkU7ske7s" := by decide +kernel

/-- test_address.py: test_a17 -/
example : privateKeyToAddress Xreal
    py"dd23f217012efd9ac3dec71d0c2b42212a58bff75d9e97af900403cf5657bad3" = .ok py"15BLTZb6uQr24MrxqXJaPpRGz1tKrzq7iC" := by decide +kernel

/-- test_address.py: test_a18 -/
example : privateKeyToAddress Xreal
    py"f6c8b60b49c35ef5e6e05e9b06aa5b2b28bd28fbfce696dfc2301347d494a22b" = .ok py"1BB66Gx4833uKx8Lo2k8Mt4TRk42WTr7cZ" := by decide +kernel

/-- test_address.py: test_a19 -/
example : privateKeyToAddress Xreal
    py"ecfb8057d4e053dda6849f6a361ca2d6797368651bbb2b52ce4691515a7909e1" = .ok py"12YCFdpsRDvEHNcj5rsmvJ5G2XXkW1icJP" := by decide +kernel

/-- test_address.py: test_a20 -/
example : privateKeyToAddress Xreal
    py"fc8c7e92b44fe66f8f20d98a648f659da69461661673e22292a67dc20742ef17" = .ok py"1H5SUR7Fv7x252WuJPqBjewwpeHuJ218Ky" := by decide +kernel

/-- test_address.py: test_a21 -/
example : privateKeyToAddress Xreal
    py"f7def6819cf8efb7c4aeaddecb951688bcda37cee73b92f73a29be076e66579c" = .ok py"136oURWq1zjkdQHKcanE7TyA3o36ibARNM" := by decide +kernel

/-- test_address.py: test_a22 -/
example : privateKeyToAddress Xreal
    py"11717a85a51ba5cd1711905816a694bdd288d0639f27d8bb113ba94df9da1501" = .ok py"12PX5jPyQYejyrU79nZUDmKXvB3ttMfDqZ" := by decide +kernel

/-- test_address.py: test_a23 -/
example : privateKeyToAddress Xreal
    py"bdd04ba66229d390b565b3aec61ea7aef4863fac98b493d1c6c3e7c6e0d5e391" = .ok py"1LVenxwqnmvwjjBdyUByWsD7mXNmJJP2ZF" := by decide +kernel

/-- test_address.py: test_a24 -/
example : privateKeyToAddress Xreal
    py"1647a11df9b9785669d630fa90d6c8242a622a8fc077fb50fc4c52f8391c22ad" = .ok py"1AppardGrpGdddB2HUTLRd2GGWaYAWDByX" := by decide +kernel

/-- test_address.py: test_a25 -/
example : privateKeyToAddress Xreal
    py"ec30b469f5e9b16d565168fbf4c9a60050feab0349ac03ff7611a3a76f2bcd4a" = .ok py"1DYKgP9cMG3wQhgowRJdrE4gRQvz6yMYEP" := by decide +kernel

/-- test_address.py: test_a26 -/
example : privateKeyToAddress Xreal
    py"0f1691d20a6ee40f608b46404b9b42d44ee3599f51ebf48ea7439653044fa3f7" = .ok py"1B9dT1kcvJqhmF9FpanKbY2vRvNiV6qR2L" := by decide +kernel

/-- test_address.py: test_a27 -/
example : privateKeyToAddress Xreal
    py"9c75fc45b299cf2796809481228d8601dd895f55ffb15f64b583e05bfda3a368" = .ok py"1LgQCG1DPBpk7Avdex5bSGqyKnxWv6spH2" := by decide +kernel

/-- test_address.py: test_a28 -/
example : privateKeyToAddress Xreal
    py"a99c96b4f983d3d0cee414480578f219995a7d8c7dea40a99d83402421a436f3" = .ok py"1Fivx1V444aqjY85SxvzsEG5NjYdM6JWib" := by decide +kernel

/-- test_address.py: test_a29 -/
example : privateKeyToAddress Xreal
    py"2f6356a88c432f0149c877553eed29c1aba597dbf59515724f0e001f1adf1556" = .ok py"1K1zwZscQNA1vsnNzKPdiDpkCmWo4EtWLD" := by decide +kernel

/-- test_address.py: test_a30 -/
example : privateKeyToAddress Xreal
    py"153fa0dd919216f4a557d295fb1a8bc3c321ad1492daee35c9eb82227a2d5252" = .ok py"1ELjTCk6ESp8gydm2KgeyRgBamgrwppTTV" := by decide +kernel

/-- test_private_key.py: test_p1 -/
example : privateKeyToWif Xreal py"01" =
    .ok py"5HpHagT65TZzG1PH3CSu63k8DbpvD8s5ip4nEB3kEsreAnchuDf" := by decide +kernel

/-- test_private_key.py: test_p1_reverse -/
example : wifToPrivateKey Xreal py"5HpHagT65TZzG1PH3CSu63k8DbpvD8s5ip4nEB3kEsreAnchuDf" =
    .ok py"0000000000000000000000000000000000000000000000000000000000000001" := by decide +kernel

/-- test_private_key.py: test_p2 -/
example : privateKeyToWif Xreal py"62b0d5ec1efa901eca870b75f743b12061f85b9e687d2a8a2393712363268fd2" =
    .ok py"5JZkWDonArJN8T8Uaz8br4uCd7jCFDv8cJLQMSNo5q8M9JAVHkY" := by decide +kernel

/-- test_private_key.py: test_p2_reverse -/
example : wifToPrivateKey Xreal py"5JZkWDonArJN8T8Uaz8br4uCd7jCFDv8cJLQMSNo5q8M9JAVHkY" =
    .ok py"62b0d5ec1efa901eca870b75f743b12061f85b9e687d2a8a2393712363268fd2" := by decide +kernel

/-- test_private_key.py: test_p3 -/
example : privateKeyToWif Xreal py"484b9d5bbf3050047c340998704a6e786310a3676f74052ea09856bd6b2436cd" =
    .ok py"5JN8GbXdZ8kF3fdxQWeRo438GwMXmFWeaaoASuat57L7fsEv9UU" := by decide +kernel

/-- test_private_key.py: test_p3_reverse -/
example : wifToPrivateKey Xreal py"5JN8GbXdZ8kF3fdxQWeRo438GwMXmFWeaaoASuat57L7fsEv9UU" =
    .ok py"484b9d5bbf3050047c340998704a6e786310a3676f74052ea09856bd6b2436cd" := by decide +kernel

end BT.Conformance
