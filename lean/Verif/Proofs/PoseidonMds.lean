import Verif.Instances.All
import Verif.Proofs.MdsCheck

set_option autoImplicit false

/-!
# The shipped Poseidon matrices are Cauchy matrices

Generated by `tools/gen_mds.py`.
-/

namespace ZkHash.Instances

theorem POSEIDON_GOLDILOCKS_8_PARAMS_cauchy : PoseidonGoldilocks.POSEIDON_GOLDILOCKS_8_PARAMS.cauchyOk
    [0xeb6cf7011b2c4ce9, 0xcd694aa5ec231276, 0x4604177f66dbd779, 0x214b79c0265d43af, 0xc80c4fcdb2726323, 0x77b80481f5a8b1d3, 0x790c175de8770f85, 0xfb077d0e93d9a6e6]
    [0x0, 0x6ac97fabb403084a, 0x546069e4b9f8c663, 0xa79f4bcef424d61a, 0xcf5b012c7781f75e, 0xdcc712a16a343ffb, 0x5604ee4a0a8dea00, 0x17f790adb87472a7] = true := by
  decide +kernel

theorem POSEIDON_GOLDILOCKS_12_PARAMS_cauchy : PoseidonGoldilocks.POSEIDON_GOLDILOCKS_12_PARAMS.cauchyOk
    [0x243a5dd6bb6403f7, 0x3a86462272c921d, 0x4e12df473f1a64d9, 0xe25eeb3553088c58, 0x85c228a2a2355b66, 0xf25c091e7e876418, 0x37db971ba5ec0185, 0xa09b86279dd83f7e, 0xf62158fd0e8806b8, 0xa3db1853539c3c11, 0x7eeef21faeff30bb, 0xe419ed3528f3c64d]
    [0x0, 0x6175c16726d3d380, 0xa5e05af2c70d0778, 0x9378b8002fdca209, 0xc2fcbc832d65ab, 0x34086f63811f33e8, 0x6a10ecf4c22ecd68, 0x45eeaee3d60690d5, 0x3d9eb50e4a701eca, 0xfae743d0fd7df2da, 0xfe8a7338e460046a, 0x7f7f0b080e02c053] = true := by
  decide +kernel

theorem POSEIDON_GOLDILOCKS_16_PARAMS_cauchy : PoseidonGoldilocks.POSEIDON_GOLDILOCKS_16_PARAMS.cauchyOk
    [0x38f72187b533d62d, 0x6a5f326c8bb44649, 0xb2adb669fbfec3d1, 0x4bc35c66f1053ae, 0xd83eaf7c82cfb40, 0x65a00f9553732e30, 0x5a61126d6dfce46, 0x80271cdd03251a1f, 0xf3ccfd5f12d4e8a3, 0xd5dd138bb531c9a, 0x9dd8cf62e185b904, 0x7cc8b130f81d9912, 0xefb6bf90b401ba3c, 0x5ba0f31bc352fdf1, 0xa95500cca23432a0, 0x6dba4469883a3951]
    [0x0, 0xe3e5026d8235c080, 0xaa84fd3f55f3337e, 0x35bf78390208467e, 0x8f21dca067a139ef, 0x6e279205a92fa1f9, 0x2119f4ead8775bb2, 0x3aabfbcbdceb885e, 0x40413fe43ee2c9b, 0x1e98cae2d5f67e51, 0x74a38227713e447b, 0xbc68d39fe078ac37, 0x869f006176b213f3, 0xe7d4cb966c3c87d9, 0xc43b40755c16a21f, 0x488dc68a4bcf5575] = true := by
  decide +kernel

theorem POSEIDON_GOLDILOCKS_20_PARAMS_cauchy : PoseidonGoldilocks.POSEIDON_GOLDILOCKS_20_PARAMS.cauchyOk
    [0xd27f7d3897bcac1a, 0xf6951a6379fb2136, 0x665ac33a087d5f36, 0x3fe2f3b05264552, 0x5741674cc36b1426, 0x2233282f9e182481, 0x1946defd7271dec5, 0x1d968a7278aa2cff, 0x233d5f39f69ce134, 0xba1325763a7766a2, 0xcc5fc8ec99f4ec8e, 0x6cfa943fa13c7c62, 0x2b2bb02a5559fe60, 0x37db80201ed8ca35, 0x2b64562f728942a3, 0xce7f6c8c04f01288, 0x57b2d5385c16b3d0, 0xcd3c807cd8f3f562, 0x90daf7f7564284f4, 0xe8bff0498f8ca6f8]
    [0x0, 0xa03b35959640fcd2, 0xafd51f90352cf719, 0xa8f17243be5646dd, 0x6c8ed4d0abd293d0, 0x8a3588416dba423, 0x613a4a2364a67527, 0x598f1d9520ff2b9a, 0xa92860361bb1e027, 0x324a4efeee68afd2, 0xf4f3cada09abdfaf, 0x9800293374071548, 0x9399b3f39651e213, 0x7aff5cc1f450e8cf, 0xb1551a745cf6358e, 0xb23501a43a3aaac8, 0xc3894b62c938d046, 0x6c971fa2b8ac4afc, 0xec936637b6bbcd02, 0xbf6b8cca9d2be334] = true := by
  decide +kernel

theorem POSEIDON_BABYBEAR_16_PARAMS_cauchy : PoseidonBabybear.POSEIDON_BABYBEAR_16_PARAMS.cauchyOk
    [0x49180a6d, 0x64d4b98f, 0x4c350dfb, 0x618ae45c, 0x2099be89, 0x6d7f0657, 0x33d111df, 0x5868d37b, 0x3c5e2d0b, 0x1ace1eab, 0x53f10233, 0x38fa13bd, 0x17379fd0, 0x39f5db96, 0x6715417b, 0x2056aa82]
    [0x0, 0x5ff299b7, 0x700f5f31, 0x24623033, 0x347e9623, 0x776ab463, 0x58bd0b2b, 0x23c0d18c, 0x668d1454, 0x699b575c, 0x33cd791a, 0x502226bb, 0x5ed35ca8, 0x1b05543, 0x2f32bf09, 0x1d560992] = true := by
  decide +kernel

theorem POSEIDON_BABYBEAR_24_PARAMS_cauchy : PoseidonBabybear.POSEIDON_BABYBEAR_24_PARAMS.cauchyOk
    [0x62a0fb8a, 0x7727cd0, 0x7608a61f, 0x1d6b61ab, 0xa3d786f, 0x11e43684, 0x54d96bb4, 0x74b5cd2c, 0x4eb7560, 0x4872a193, 0x17454420, 0x19056ac6, 0x4eef7eec, 0x218b4c51, 0x55cd479, 0x62ac1a01, 0x4ee406f9, 0x67983e23, 0x3d0642d9, 0x5e88349e, 0x1ee66e51, 0x536f75f, 0x8a14aa0, 0x26e4da45]
    [0x0, 0x56e42eec, 0x69d5a6ea, 0x193ae7b4, 0x53407e15, 0x6c90a402, 0x18525908, 0x598ed685, 0x17cb165a, 0x310f63cf, 0x46010fe6, 0xd6d27f0, 0x71e4b29e, 0x155d6b03, 0x6ca98722, 0x10683259, 0x526ce35d, 0xd98fc1c, 0xecc170f, 0x6c384ebd, 0x4943fe22, 0x15e44db3, 0x1d1fc2d8, 0x274dc121] = true := by
  decide +kernel

theorem POSEIDON_BLS_2_PARAMS_cauchy : PoseidonBls12.POSEIDON_BLS_2_PARAMS.cauchyOk
    [0x14312a2570da6c5690828ebc13a89d8e1bca5d775ff834dbff5345fcb89167f, 0x6df858787c31932b3f2af52235b11664f2386f496f0e65c39348ca5b1162a204]
    [0x0, 0x596decf5eb9990dd99d017cbae6d5813e001f4fc513f194355209e6df8ff9fcf] = true := by
  decide +kernel

theorem POSEIDON_BLS_3_PARAMS_cauchy : PoseidonBls12.POSEIDON_BLS_3_PARAMS.cauchyOk
    [0x45911d404493176fa5428659e8db899e48d69860e5f3952d4a37174a403dea22, 0x114b7206d72db5829dcc1e9eef975ac00c550adc7246ea5d2cb1d24d3337cdb3, 0x12978a5d2c6c520cd80362630f807f0a1a053de4f93a4ed557a686e5d4282c08]
    [0x0, 0x65f9507693c48a0ee21a130a63ebe81a86e6977f7fcd7ea12beb34d27f5dea93, 0x24931e9ce61b9ef43cd4c829c551ce24eb25ae86d2c1849ea390f8226ab350fe] = true := by
  decide +kernel

theorem POSEIDON_BLS_4_PARAMS_cauchy : PoseidonBls12.POSEIDON_BLS_4_PARAMS.cauchyOk
    [0x1a8fe11beec52c302fc591f7d8180a797fcbd632ab38ad876bc3fca0a8c93445, 0x236b3342dcd169c3c41e5834aba06100e06d406462518358311076a596ef44fe, 0x3f60744ea8619dda71dca3cc3a408ba22344a9d82be8149bcc6b028b0c9547f, 0x56256e438c5dac471b8312466464fff46f28fc0d8feb30405cb1be47795ed442]
    [0x0, 0x2ac7a638c241858d64d281e22bbfa7cd4e01657452e59113fdfcfbc8434e59bd, 0x2523517ee4dba1577dff4ef3675f97185099d978b1e0c7251a3232c5aa2c630b, 0xb10bbe2ef9ec2d002bfe4a169aea27e23b56b6e08e5fdd2905e3cf49bea7111] = true := by
  decide +kernel

theorem POSEIDON_BLS_8_PARAMS_cauchy : PoseidonBls12.POSEIDON_BLS_8_PARAMS.cauchyOk
    [0x57998e51c36f4bd123bd797c1b032718fb753296dab94e6d220f90538a4c6d94, 0x37568a995ce29b79f83c680479c2fe5b08348767c2d216f526670d78a7df6bf, 0x336daf70026e935931280d9699688b4352e96c063dc6201d99876b7a95f9aff8, 0xcd4809b32e666600cd49018220b691286999eb2a7e03289b83d0ccf58b06444, 0x36f730c8554dba97431f7c948e13e680c8381bb0fa504d2b7a02489d1f34c85a, 0x5f6bf0cc9f25c20c7fb811abe709f5b9f39f1e185dfaf81b494482dfec9e5cfd, 0x6a11382a3e98dbff40c2a59235a74cadadacc7a0b2a09451708decf2222f741, 0x3c186a7f4f0d785de59424c14928f8f649a321df8eb03f6d4114f6d611913c6e]
    [0x0, 0x1d85f5de509c62e8daec3b31730bf54f62a18a9eeda2460a0067af671bffe20e, 0x299eea96f7be6f71eccd288328e78349ffe212d1d689b7551d68ca0c13fa085d, 0x1c67e91a3deabcf512ae73aafc33ea7584e6d719ef0ba8d7fe4d23502b2caaea, 0x28a0becad254547316f2b6a64e8e75d38c1db50c17f5ce715547fae8530965c9, 0x11ca42b8df0fb9f3c046989717d0226693725512f0a5b1769d1a7572799d8b26, 0x181cd363f1b7ea82f36d47b4c402dbe3a0040f4638af32458f13c08088e900d3, 0x73d3e342a890bee55c6868ba781a8518c7383f4c3d10431d7af25676f015898b] = true := by
  decide +kernel

theorem POSEIDON_BN_PARAMS_cauchy : PoseidonBn256.POSEIDON_BN_PARAMS.cauchyOk
    [0x288f28d04002b3040559924073290e60837e99d07a643a2b7fa1428d33b49f2a, 0x206344123ebfd059cb1a80b36751a4f54e62676f21542970cca4ce7c952df1bf, 0x1eafc47c79dff5ae82370632c5f0fc8509fdf07566cdf74b39e61f51b210e3d4]
    [0x0, 0x160f8fd9a27bdf823bef15ed7e869412dfd53ebf5a72982e79ab17cefeeeae9c, 0x2297e41b9210d49cdce1a10686802c039764c7705c3141a8ebd35139107154db] = true := by
  decide +kernel

theorem POSEIDON_PALLAS_3_PARAMS_cauchy : PoseidonPallas.POSEIDON_PALLAS_3_PARAMS.cauchyOk
    [0x2d1ec0143c2931dabb7c4721da246f6cd4a4659b8516f42f658daa6144c763c9, 0x12c86d1d5f43a6e5d32b58044928d0cae96d5625dc5c8a776c17faef692e4f4a, 0x269bd127533584a2c2d9f697d50d3ae2277e923c0344768e1656a84648f77115]
    [0x0, 0x3fff2790d23e7c027cec37b293faeec29eeaa96d760dfcb83b35dd9f72c5b03d, 0x17e0223a4a722842bbef4522fb94c1034f7e2b71c756d1197492103b398b685f] = true := by
  decide +kernel

theorem POSEIDON_PALLAS_4_PARAMS_cauchy : PoseidonPallas.POSEIDON_PALLAS_4_PARAMS.cauchyOk
    [0x16d74c4d47d05d8d36df4e48fa580f50ae2b04423c342c6dde1613574dbe0f20, 0x3ab250096303ea3621f76916c66c3e20b8b893126d99b9048e95dff85dfb892e, 0x3183bb9dee24f5ad0a5218a4a3ac9a837b38c72f24a09858c5decaa3fb532cf, 0x741bcdee3f00a6b9f903d64dcd3c6be04d22bbabc11775ddb9c9a375ba078f0]
    [0x0, 0x247aeb4d4e36f50006a5b7f4aac039c3da3c6d4d93891ea0a25bc1e1f057256c, 0x26c703d0b4a4c52bb6b114bd9f7bd0a17395d730c9deb5d4d3639481a850a0c5, 0x6fe4bc7c6b391a794829c02a5bf4a933b948a25d5ebb7b18dc51f03e22f07b] = true := by
  decide +kernel

theorem POSEIDON_PALLAS_8_PARAMS_cauchy : PoseidonPallas.POSEIDON_PALLAS_8_PARAMS.cauchyOk
    [0x1ea194f68f0585eb7f4b65d959cfbc575f94bda5365974705dd6cbaf779c4bd1, 0x10e77ee2acd751f7bb140f760d4d7abde52ab7f0639de854a9ce4bebac3afbd6, 0x39c2da54ff41e03e4f028e66713c1a8449fa5efb8f53e6d51fce995622564faf, 0x3287cabe8728e03de7d914eab407c7a5c70e2409f00f9f4c8214f2b7d501ff34, 0x2166093249173eb152dc9f00010e48667c5e9443bc38f75281fcad260c302ff6, 0x31996df935718ef21fd709de62922813424fdceeaae9b6a7b8d5bc9742755556, 0x361f49b74b554f88096acd0a7cf918a3a743c954ca2b086d094443f5a9fcf50d, 0x3c3c95f8b6a1d2e919aaf402f2290b850ab12e58e98c00858d6cdbfff3ea1970]
    [0x0, 0x30f5fba7857b69400a0373f0771ee4ed03138846b2c56315861a9bcdd0ee5c30, 0x2a7a5e89e6dc8a3442ddb6b9edfe6803be38cf0df3c8e146aba56ed4034a255a, 0x24c272e3c8875bbae25975a8f5e5f81d8dcf97045b1e82ed3e91823eff7070aa, 0x58dab9980baaa8547a49cd889bce415885ae24ede54225291890238c901174a, 0xf2f4cf41d8aa1530814f75c36f7977fc38d05992873b1894f995a685e6ee850, 0x1dab9cff4259ec217603916ba66e42b8a9beabe1ae6bc396af39fc4641b65834, 0x37119511be34078eefdb90e51388492b151c8be5c048f0db22294439fa3c1852] = true := by
  decide +kernel

theorem POSEIDON_VESTA_PARAMS_cauchy : PoseidonVesta.POSEIDON_VESTA_PARAMS.cauchyOk
    [0x2d1ec0143c2931dabb7c4721da246f6cd4a4659b848794ab7f5a35f944c763c9, 0x12c86d1d5f43a6e5d32b58044928d0cae96d5625db857b3192cacc53692e4f4a, 0x269bd127533584a2c2d9f697d50d3ae2277e923c026d67483d0979aa48f77115]
    [0x0, 0x3fff2790d23e7c027cec37b293faeec29eeaa96d7655ac7a2e4f97d372c5b03d, 0x17e0223a4a722842bbef4522fb94c1034f7e2b71c7e6309d5ac584a3398b685f] = true := by
  decide +kernel

theorem poseidon_cauchy (S : PoseidonSource) (hS : S ∈ poseidon) : ∃ xs ys, S.cauchyOk xs ys = true := by
  simp only [poseidon, List.mem_cons, List.not_mem_nil, or_false] at hS
  rcases hS with rfl | rfl | rfl | rfl | rfl | rfl | rfl | rfl | rfl | rfl | rfl | rfl | rfl | rfl | rfl
  · exact ⟨_, _, POSEIDON_GOLDILOCKS_8_PARAMS_cauchy⟩
  · exact ⟨_, _, POSEIDON_GOLDILOCKS_12_PARAMS_cauchy⟩
  · exact ⟨_, _, POSEIDON_GOLDILOCKS_16_PARAMS_cauchy⟩
  · exact ⟨_, _, POSEIDON_GOLDILOCKS_20_PARAMS_cauchy⟩
  · exact ⟨_, _, POSEIDON_BABYBEAR_16_PARAMS_cauchy⟩
  · exact ⟨_, _, POSEIDON_BABYBEAR_24_PARAMS_cauchy⟩
  · exact ⟨_, _, POSEIDON_BLS_2_PARAMS_cauchy⟩
  · exact ⟨_, _, POSEIDON_BLS_3_PARAMS_cauchy⟩
  · exact ⟨_, _, POSEIDON_BLS_4_PARAMS_cauchy⟩
  · exact ⟨_, _, POSEIDON_BLS_8_PARAMS_cauchy⟩
  · exact ⟨_, _, POSEIDON_BN_PARAMS_cauchy⟩
  · exact ⟨_, _, POSEIDON_PALLAS_3_PARAMS_cauchy⟩
  · exact ⟨_, _, POSEIDON_PALLAS_4_PARAMS_cauchy⟩
  · exact ⟨_, _, POSEIDON_PALLAS_8_PARAMS_cauchy⟩
  · exact ⟨_, _, POSEIDON_VESTA_PARAMS_cauchy⟩

end ZkHash.Instances
