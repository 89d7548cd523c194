import Verif.Instances.All
import Verif.Proofs.MdsScriptCheck

set_option autoImplicit false

/-!
# The shipped Poseidon tables pass the checks of `MdsScriptCheck.lean`

Generated by `tools/gen_poseidon_script.py`.
-/

namespace ZkHash.Instances

set_option maxRecDepth 100000

theorem POSEIDON_GOLDILOCKS_8_PARAMS_tables : ∃ ext blocks W, Sage.tablesOk PoseidonGoldilocks.POSEIDON_GOLDILOCKS_8_PARAMS ext blocks W = true :=
  ⟨46, 170, 256, by decide +kernel⟩

theorem POSEIDON_GOLDILOCKS_8_PARAMS_cyclic : ∃ c, Sage.cyclicOk PoseidonGoldilocks.POSEIDON_GOLDILOCKS_8_PARAMS.modulus PoseidonGoldilocks.POSEIDON_GOLDILOCKS_8_PARAMS.t PoseidonGoldilocks.POSEIDON_GOLDILOCKS_8_PARAMS.mds c = true :=
  ⟨[0x4cd1e1536a7b8a8a,
    0xc54a88854ff4f07c,
    0x5faf2cbaf6c9f82d,
    0x65b66fa4c9520be,
    0xc6b23fd1315d29f6,
    0xc0d5e437d5ea8add,
    0x5cb33af1eedad7b2,
    0x93a269fe5c1b53b7],
   by decide +kernel⟩

theorem POSEIDON_GOLDILOCKS_12_PARAMS_tables : ∃ ext blocks W, Sage.tablesOk PoseidonGoldilocks.POSEIDON_GOLDILOCKS_12_PARAMS ext blocks W = true :=
  ⟨49, 257, 384, by decide +kernel⟩

theorem POSEIDON_GOLDILOCKS_12_PARAMS_cyclic : ∃ c, Sage.cyclicOk PoseidonGoldilocks.POSEIDON_GOLDILOCKS_12_PARAMS.modulus PoseidonGoldilocks.POSEIDON_GOLDILOCKS_12_PARAMS.t PoseidonGoldilocks.POSEIDON_GOLDILOCKS_12_PARAMS.mds c = true :=
  ⟨[0x35bce71e9ce2172c,
    0xdae3aa6f350ce993,
    0x6878aa46da9fd970,
    0x8ead192e59b1c52,
    0x71f00ff117906c1,
    0xe088a900552fdd9d,
    0x9802200a511296d5,
    0x771a3a22860b906d,
    0x794034edc54cf0f2,
    0xc1e82d20b7ef8558,
    0x5f8d54ed7b7cca42,
    0x6fd238414cb05bbd],
   by decide +kernel⟩

theorem POSEIDON_GOLDILOCKS_16_PARAMS_tables : ∃ ext blocks W, Sage.tablesOk PoseidonGoldilocks.POSEIDON_GOLDILOCKS_16_PARAMS ext blocks W = true :=
  ⟨51, 342, 512, by decide +kernel⟩

theorem POSEIDON_GOLDILOCKS_16_PARAMS_cyclic : ∃ c, Sage.cyclicOk PoseidonGoldilocks.POSEIDON_GOLDILOCKS_16_PARAMS.modulus PoseidonGoldilocks.POSEIDON_GOLDILOCKS_16_PARAMS.t PoseidonGoldilocks.POSEIDON_GOLDILOCKS_16_PARAMS.mds c = true :=
  ⟨[0x2fe10be32753993f,
    0xed750774424a4de1,
    0x7904c6b4e89722dc,
    0xe5944005e405d09d,
    0x70959e6dbc2ce94e,
    0x26db595542e99d17,
    0xd2bc6c3eb5235832,
    0xf52c0573b91fea3d,
    0xaec55c1be313cf7,
    0xe591da4a58ec7bc6,
    0x1913e54ac2f41b47,
    0xc0ae10e47368a85d,
    0xb7ecd50622e37b24,
    0x6f3855cf5217faa2,
    0x3a93df0ba1caf18a,
    0x3ef7d795adac40f],
   by decide +kernel⟩

theorem POSEIDON_GOLDILOCKS_20_PARAMS_tables : ∃ ext blocks W, Sage.tablesOk PoseidonGoldilocks.POSEIDON_GOLDILOCKS_20_PARAMS ext blocks W = true :=
  ⟨53, 427, 640, by decide +kernel⟩

theorem POSEIDON_GOLDILOCKS_20_PARAMS_cyclic : ∃ c, Sage.cyclicOk PoseidonGoldilocks.POSEIDON_GOLDILOCKS_20_PARAMS.modulus PoseidonGoldilocks.POSEIDON_GOLDILOCKS_20_PARAMS.t PoseidonGoldilocks.POSEIDON_GOLDILOCKS_20_PARAMS.mds c = true :=
  ⟨[0xc4c87a2a98e617d1,
    0x9cff4053c16de7dc,
    0x2dde2b76d394c824,
    0x6abc6553bd4ce48f,
    0xfe6d8e08f80b1033,
    0xa2a0ca5d7e3bf149,
    0xe602a3839986a1e,
    0xa5fbfec922d53a31,
    0xd789993e2942136f,
    0x7fae988d07c13d4d,
    0x2a341098de759d2b,
    0x5af9a864e032d58b,
    0x49ee348f63b7c8d4,
    0x58b99a17fe631090,
    0x53e7541ce91dab4f,
    0x7405a6204086c8ee,
    0x490a08adcf3bfed1,
    0xf3d4183fe1717954,
    0xc7c47e93be7237f3,
    0xb68497befb67406b],
   by decide +kernel⟩

theorem POSEIDON_BABYBEAR_16_PARAMS_tables : ∃ ext blocks W, Sage.tablesOk PoseidonBabybear.POSEIDON_BABYBEAR_16_PARAMS ext blocks W = true :=
  ⟨44, 127, 395, by decide +kernel⟩

theorem POSEIDON_BABYBEAR_16_PARAMS_cyclic : ∃ c, Sage.cyclicOk PoseidonBabybear.POSEIDON_BABYBEAR_16_PARAMS.modulus PoseidonBabybear.POSEIDON_BABYBEAR_16_PARAMS.t PoseidonBabybear.POSEIDON_BABYBEAR_16_PARAMS.mds c = true :=
  ⟨[0x77a611de,
    0x72452a85,
    0x1ec78371,
    0x5ed0cf21,
    0x2b961978,
    0x5a02eec6,
    0x5e37c7e4,
    0x39c86108,
    0x1a9f008b,
    0x523504ba,
    0x57cbc953,
    0x1abac14a,
    0x12e43c17,
    0x274fb344,
    0x3d6eb4bf,
    0x73b8ba87],
   by decide +kernel⟩

theorem POSEIDON_BABYBEAR_24_PARAMS_tables : ∃ ext blocks W, Sage.tablesOk PoseidonBabybear.POSEIDON_BABYBEAR_24_PARAMS ext blocks W = true :=
  ⟨49, 259, 796, by decide +kernel⟩

theorem POSEIDON_BABYBEAR_24_PARAMS_cyclic : ∃ c, Sage.cyclicOk PoseidonBabybear.POSEIDON_BABYBEAR_24_PARAMS.modulus PoseidonBabybear.POSEIDON_BABYBEAR_24_PARAMS.t PoseidonBabybear.POSEIDON_BABYBEAR_24_PARAMS.mds c = true :=
  ⟨[0x4fec4b85,
    0x34fe581a,
    0x5c2cbb98,
    0x3782875a,
    0x72e91eeb,
    0xbdb0ad1,
    0x46267fcc,
    0x105da596,
    0x2c445dcb,
    0x25768d24,
    0x4860329,
    0x75ea36a5,
    0x4bbc3a5,
    0x494050fe,
    0x630fe99a,
    0x488f7ead,
    0x1627d02,
    0x23814b9f,
    0x68484a91,
    0x4e0d5281,
    0x9cb9327,
    0x49d24572,
    0x747e7657,
    0x1be2ec65],
   by decide +kernel⟩

theorem POSEIDON_BLS_2_PARAMS_tables : ∃ ext blocks W, Sage.tablesOk PoseidonBls12.POSEIDON_BLS_2_PARAMS ext blocks W = true :=
  ⟨52, 392, 148, by decide +kernel⟩

theorem POSEIDON_BLS_2_PARAMS_cyclic : ∃ c, Sage.cyclicOk PoseidonBls12.POSEIDON_BLS_2_PARAMS.modulus PoseidonBls12.POSEIDON_BLS_2_PARAMS.t PoseidonBls12.POSEIDON_BLS_2_PARAMS.mds c = true :=
  ⟨[0x4a3813dd661dda7deb8a65c5318f11a221539836d7b0d8b2f0760986b6aea73b,
    0x44e20082f2eeb2b9017567e0fe6c3088777f019ce0463178e96ce58419660174],
   by decide +kernel⟩

theorem POSEIDON_BLS_3_PARAMS_tables : ∃ ext blocks W, Sage.tablesOk PoseidonBls12.POSEIDON_BLS_3_PARAMS ext blocks W = true :=
  ⟨55, 588, 222, by decide +kernel⟩

theorem POSEIDON_BLS_3_PARAMS_cyclic : ∃ c, Sage.cyclicOk PoseidonBls12.POSEIDON_BLS_3_PARAMS.modulus PoseidonBls12.POSEIDON_BLS_3_PARAMS.t PoseidonBls12.POSEIDON_BLS_3_PARAMS.mds c = true :=
  ⟨[0x51dfa7bc1028e8e17e5843dd6ad23a4861df926940813b3a32991212f921458c,
    0x7763ffed5c90f259cf4092173a40930bc46a7423821c721c8ae43e66673cafd,
    0x6f203672783db64d1e3b2eab38666f11c9b2735a04be706d8124368e45a0c839],
   by decide +kernel⟩

theorem POSEIDON_BLS_4_PARAMS_tables : ∃ ext blocks W, Sage.tablesOk PoseidonBls12.POSEIDON_BLS_4_PARAMS ext blocks W = true :=
  ⟨57, 765, 287, by decide +kernel⟩

theorem POSEIDON_BLS_4_PARAMS_cyclic : ∃ c, Sage.cyclicOk PoseidonBls12.POSEIDON_BLS_4_PARAMS.modulus PoseidonBls12.POSEIDON_BLS_4_PARAMS.t PoseidonBls12.POSEIDON_BLS_4_PARAMS.mds c = true :=
  ⟨[0x271812afbc46a2833ea277a8c987d8440d5f94fd955bad4216e6908c48033d63,
    0x1c7448a818cd9752c90d29c7a994a88b433e0fbfce1d0a5d5fa83ab15c6498d6,
    0x2fa21f5d0bc82b11e413ef2574cfde7046382d8bf880afe58dfb58619a82c449,
    0x651b191172b4101b10cd6e54491c12a9306915090ce8f4b60e78c11ce9757576],
   by decide +kernel⟩

theorem POSEIDON_BLS_8_PARAMS_tables : ∃ ext blocks W, Sage.tablesOk PoseidonBls12.POSEIDON_BLS_8_PARAMS ext blocks W = true :=
  ⟨61, 1544, 583, by decide +kernel⟩

theorem POSEIDON_BLS_8_PARAMS_cyclic : ∃ c, Sage.cyclicOk PoseidonBls12.POSEIDON_BLS_8_PARAMS.modulus PoseidonBls12.POSEIDON_BLS_8_PARAMS.t PoseidonBls12.POSEIDON_BLS_8_PARAMS.mds c = true :=
  ⟨[0x3a5ab55cf426b1a2aaf495159c279af2df578ce54405b8b2c124d12cf1a50785,
    0x369594d8ff71a3eca314c8ae91d902a6e88006cac2bed57d80242089ca73d7b2,
    0x44f5d7223ab733ab5fddcc07279c2aa2babf41994df270ef73492452a2cdfc72,
    0x55f8fdfbfe91dfb404de647a6b2e174da9986b3ca78060547f872b88e1a93d20,
    0x249cf15e96af9615af730a6728d674ce8c3ca826eae24acc632c1e2b12e1c5d1,
    0x43f4e7bf11fa87e0203af4256a88147151581954a40c23adb0e0dc445080c87d,
    0x3d910842afd5d186799964d8afba579dcb5ac59d16bc39b1e918c27518c49815,
    0x63eed7953858c647d8a0ee7ce4e10ea789f094db95392e92754086304e6a9296],
   by decide +kernel⟩

theorem POSEIDON_BN_PARAMS_tables : ∃ ext blocks W, Sage.tablesOk PoseidonBn256.POSEIDON_BN_PARAMS ext blocks W = true :=
  ⟨56, 703, 265, by decide +kernel⟩

theorem POSEIDON_BN_PARAMS_cyclic : ∃ c, Sage.cyclicOk PoseidonBn256.POSEIDON_BN_PARAMS.modulus PoseidonBn256.POSEIDON_BN_PARAMS.t PoseidonBn256.POSEIDON_BN_PARAMS.mds c = true :=
  ⟨[0x1e9e6176c4449fdfd446e9acae870d6c5ef99ec452ae7e7deb7dbc6644499a7a,
    0x9d1ae04edbe0df0d5ba54e3cedae6b3753c4d3e837181491e9fae88b2201bdf,
    0x477915255657d1a752353743c1452aa87bf9db0f5877c5f37e71d86740ffe82],
   by decide +kernel⟩

theorem POSEIDON_PALLAS_3_PARAMS_tables : ∃ ext blocks W, Sage.tablesOk PoseidonPallas.POSEIDON_PALLAS_3_PARAMS ext blocks W = true :=
  ⟨58, 1031, 389, by decide +kernel⟩

theorem POSEIDON_PALLAS_3_PARAMS_cyclic : ∃ c, Sage.cyclicOk PoseidonPallas.POSEIDON_PALLAS_3_PARAMS.modulus PoseidonPallas.POSEIDON_PALLAS_3_PARAMS.t PoseidonPallas.POSEIDON_PALLAS_3_PARAMS.mds c = true :=
  ⟨[0x125d97cbb7aa9a69674faf1fabdde7e0e8cbf7b768026efd4c5726b1af4b311c,
    0x16565e7ee717d9084e36686eb76c9bed09d345a7a96e4d2078f9e83f50cabff6,
    0x3bb2ee9afd39fd0a8a8cf32c47914750be0284dfdf2a8518ca0e6d600c9ffd62],
   by decide +kernel⟩

theorem POSEIDON_PALLAS_4_PARAMS_tables : ∃ ext blocks W, Sage.tablesOk PoseidonPallas.POSEIDON_PALLAS_4_PARAMS ext blocks W = true :=
  ⟨60, 1299, 488, by decide +kernel⟩

theorem POSEIDON_PALLAS_4_PARAMS_cyclic : ∃ c, Sage.cyclicOk PoseidonPallas.POSEIDON_PALLAS_4_PARAMS.modulus PoseidonPallas.POSEIDON_PALLAS_4_PARAMS.t PoseidonPallas.POSEIDON_PALLAS_4_PARAMS.mds c = true :=
  ⟨[0x14da5effdbbfa4c48db6753595406eaa24c3f0d7807b5842b44e7f004b596bbb,
    0x287ed9a0e395b63cc093d711c6d25c730bc390e7a9ebc0b5d566df14b6f752f7,
    0xfe7bce76bcf10571b270a4eaf2601170020581ebb499e13117c8669b6fce2c,
    0x26edcc0185929d959cb396ef786282b1ed865e2ff5536c562dea4822ec2732ce],
   by decide +kernel⟩

theorem POSEIDON_PALLAS_8_PARAMS_tables : ∃ ext blocks W, Sage.tablesOk PoseidonPallas.POSEIDON_PALLAS_8_PARAMS ext blocks W = true :=
  ⟨65, 2705, 1018, by decide +kernel⟩

theorem POSEIDON_PALLAS_8_PARAMS_cyclic : ∃ c, Sage.cyclicOk PoseidonPallas.POSEIDON_PALLAS_8_PARAMS.modulus PoseidonPallas.POSEIDON_PALLAS_8_PARAMS.t PoseidonPallas.POSEIDON_PALLAS_8_PARAMS.mds c = true :=
  ⟨[0x139169ed8f421a0cf4021d24ba3e39f02db4f5cc01ec81487fed688b1837b730,
    0x84725ad04cb4e6de1a4035be008ea6ddd69936d23352f0ddd8adc0ef84fafdc,
    0x88651158ca53743ea332fa51c761d3b82cf3aa3cfd4e4f02a3562cfa570eb0c,
    0x148a5c1e876bbe292612e6e35656ad2e6e43bda4004a82a232af437b1ecb6502,
    0x6c4e0b3eb5199ca223470b6439fd190d5ca3c0db3166bada633640a09742e2,
    0x37aefe631e0957fd55e4f7ad338061457a90d795a4b1ba978fa5cbb13d38d372,
    0x8b545a9138f0ac5960564d99c5824640f52210f02cbf9a021ab2f88eef5a795,
    0x151b3f5d99e0e149ebf97835166cb8f20e7b261cf798c61c27028710b5e339ab],
   by decide +kernel⟩

theorem POSEIDON_VESTA_PARAMS_tables : ∃ ext blocks W, Sage.tablesOk PoseidonVesta.POSEIDON_VESTA_PARAMS ext blocks W = true :=
  ⟨58, 1031, 389, by decide +kernel⟩

theorem POSEIDON_VESTA_PARAMS_cyclic : ∃ c, Sage.cyclicOk PoseidonVesta.POSEIDON_VESTA_PARAMS.modulus PoseidonVesta.POSEIDON_VESTA_PARAMS.t PoseidonVesta.POSEIDON_VESTA_PARAMS.mds c = true :=
  ⟨[0x12b12a14abac5031bd081a212a6c2a9c60c69f96334b132ef1f979d1a2ac9939,
    0x173478901b3f64cd9a35abb62685b26d93feb1de771a8c689e54d345ce94dc5c,
    0x16758b3762f256abddf3ddb3d078e133b75969b2b1a087c625bd258f045a6f24],
   by decide +kernel⟩

theorem poseidon_tables (S : PoseidonSource) (hS : S ∈ poseidon) :
    ∃ ext blocks W, Sage.tablesOk S ext blocks W = true := by
  simp only [poseidon, List.mem_cons, List.not_mem_nil, or_false] at hS
  rcases hS with rfl | rfl | rfl | rfl | rfl | rfl | rfl | rfl | rfl | rfl | rfl | rfl | rfl | rfl | rfl
  · exact POSEIDON_GOLDILOCKS_8_PARAMS_tables
  · exact POSEIDON_GOLDILOCKS_12_PARAMS_tables
  · exact POSEIDON_GOLDILOCKS_16_PARAMS_tables
  · exact POSEIDON_GOLDILOCKS_20_PARAMS_tables
  · exact POSEIDON_BABYBEAR_16_PARAMS_tables
  · exact POSEIDON_BABYBEAR_24_PARAMS_tables
  · exact POSEIDON_BLS_2_PARAMS_tables
  · exact POSEIDON_BLS_3_PARAMS_tables
  · exact POSEIDON_BLS_4_PARAMS_tables
  · exact POSEIDON_BLS_8_PARAMS_tables
  · exact POSEIDON_BN_PARAMS_tables
  · exact POSEIDON_PALLAS_3_PARAMS_tables
  · exact POSEIDON_PALLAS_4_PARAMS_tables
  · exact POSEIDON_PALLAS_8_PARAMS_tables
  · exact POSEIDON_VESTA_PARAMS_tables

theorem poseidon_cyclic (S : PoseidonSource) (hS : S ∈ poseidon) :
    ∃ c, Sage.cyclicOk S.modulus S.t S.mds c = true := by
  simp only [poseidon, List.mem_cons, List.not_mem_nil, or_false] at hS
  rcases hS with rfl | rfl | rfl | rfl | rfl | rfl | rfl | rfl | rfl | rfl | rfl | rfl | rfl | rfl | rfl
  · exact POSEIDON_GOLDILOCKS_8_PARAMS_cyclic
  · exact POSEIDON_GOLDILOCKS_12_PARAMS_cyclic
  · exact POSEIDON_GOLDILOCKS_16_PARAMS_cyclic
  · exact POSEIDON_GOLDILOCKS_20_PARAMS_cyclic
  · exact POSEIDON_BABYBEAR_16_PARAMS_cyclic
  · exact POSEIDON_BABYBEAR_24_PARAMS_cyclic
  · exact POSEIDON_BLS_2_PARAMS_cyclic
  · exact POSEIDON_BLS_3_PARAMS_cyclic
  · exact POSEIDON_BLS_4_PARAMS_cyclic
  · exact POSEIDON_BLS_8_PARAMS_cyclic
  · exact POSEIDON_BN_PARAMS_cyclic
  · exact POSEIDON_PALLAS_3_PARAMS_cyclic
  · exact POSEIDON_PALLAS_4_PARAMS_cyclic
  · exact POSEIDON_PALLAS_8_PARAMS_cyclic
  · exact POSEIDON_VESTA_PARAMS_cyclic

end ZkHash.Instances
