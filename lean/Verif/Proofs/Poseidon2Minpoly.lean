import Verif.Instances.All
import Verif.Proofs.MinpolyCheck

set_option autoImplicit false

/-!
# The powers of the shipped Poseidon2 internal matrices pass the check

Generated by `tools/gen_minpoly.py`.
-/

namespace ZkHash.Instances

set_option maxRecDepth 100000

theorem POSEIDON2_GOLDILOCKS_8_PARAMS_minpoly : ∃ nf bits qus, MinCheck.check 18446744069414584321 8 Poseidon2Goldilocks.POSEIDON2_GOLDILOCKS_8_PARAMS.diag nf bits qus = true :=
  ⟨[0xf5817d66ecfdb7ec, 0x41e1ed7130b5b6e7, 0x9b0cde703e9f6087, 0x7db3e18dfd010a31, 0xce4ddad850c77f0d, 0xbb962e00dbe62ad6, 0x56900560d0e9c8da, 0x23fa30af4cc45c20],
   [true, true, true, true, true, true, true, true, true, true, true, true, true, true, true, true, true, true, true, true, true, true, true, true, true, true, true, true, true, true, true, true, false, false, false, false, false, false, false, false, false, false, false, false, false, false, false, false, false, false, false, false, false, false, false, false, false, false, false, false, false, false, false, true],
   [(2, [0x32113ab52858675, 0x1e5822bed3be78ee, 0xe28d822ce806cdb3, 0x1c7d27749e2ec919, 0xa1a9e933d1f071e6, 0xd956447601783aff, 0x53425a7262a83c82, 0xfbfa2250c8636164])],
   by decide +kernel⟩

theorem POSEIDON2_GOLDILOCKS_12_PARAMS_minpoly : ∃ nf bits qus, MinCheck.check 18446744069414584321 12 Poseidon2Goldilocks.POSEIDON2_GOLDILOCKS_12_PARAMS.diag nf bits qus = true :=
  ⟨[0x5db829abe51d2325, 0xb31af93cfdbaab71, 0xc13cb468eb4e28fa, 0x141d255c1f785bc9, 0x8e40fc1e543d536f, 0x442510c70fa29106, 0x653e97f6658e3726, 0xcddce976cf5e7860, 0x32ec7dd3a83b6049, 0x23815ed0c420a1f9, 0x5c5874fd7f4d16c4, 0xfd26bccebab13f05],
   [true, true, true, true, true, true, true, true, true, true, true, true, true, true, true, true, true, true, true, true, true, true, true, true, true, true, true, true, true, true, true, true, false, false, false, false, false, false, false, false, false, false, false, false, false, false, false, false, false, false, false, false, false, false, false, false, false, false, false, false, false, false, false, true],
   [(2, [0xd01dcda4344bea57, 0xcf0527042309875e, 0x9e683a3cca2d18a3, 0xa77ac420e11da2c1, 0x8e27e704d3628725, 0x39476a52d89f571c, 0x58b4437285b38b4a, 0xf1eb9d8e772f5646, 0x25bd6c8d074084fb, 0x89055ee2124e002a, 0xffe5583149011b8, 0xc692876bb10a5269]),
    (3, [0x3b80584a99beaf8c, 0x6c51dc8844841074, 0xd18c9ad00011ed04, 0xe5448c88d674cda1, 0xc159cd6e5b8a4375, 0x85fdb9321f202cc8, 0x5583e1cd46b9098d, 0xa7adb5ca7c014b0, 0x55a74c485bee48aa, 0x1dd05879a7b0ece1, 0x964c073b06092942, 0xc69f8a061a0165d])],
   by decide +kernel⟩

theorem POSEIDON2_GOLDILOCKS_16_PARAMS_minpoly : ∃ nf bits qus, MinCheck.check 18446744069414584321 16 Poseidon2Goldilocks.POSEIDON2_GOLDILOCKS_16_PARAMS.diag nf bits qus = true :=
  ⟨[0xfee330b2a29cd595, 0xb0358f1bb630e465, 0x42d2172181b634d6, 0x7cbbd2480a612a9e, 0x6cdbf4b76c22708f, 0xc38a66cf5a5d2918, 0x32ff36f527593cc2, 0x66343c83ff137266, 0x6ff30deeec5d56e, 0xd1ab1892b919d299, 0xa6c4ea04d70e1452, 0xd3fd0eb1e5e1e6a7, 0xdfba2ca7d7aa42b1, 0x89d6035d24134ce5, 0x1f7b5bc3a233de47, 0x4118e3df78fb6270],
   [true, true, true, true, true, true, true, true, true, true, true, true, true, true, true, true, true, true, true, true, true, true, true, true, true, true, true, true, true, true, true, true, false, false, false, false, false, false, false, false, false, false, false, false, false, false, false, false, false, false, false, false, false, false, false, false, false, false, false, false, false, false, false, true],
   [(2, [0x22345175077ac93, 0x18d49a356f1b4cd7, 0xde4ee0fca27f4b74, 0xdf912bbc8924955f, 0x27bad62785cf184f, 0x356056c269eadd20, 0x4f41b8ac6611ca22, 0xeb7b5f41bf9d7fe6, 0xd08685540bce0ae8, 0x6a09c83ee28bb5fb, 0x4d4ef284f23beff8, 0x8c4625a40415eaae, 0xd9b9f82bbe5dc044, 0xca52ec02dd31e16e, 0xb7d0d7f7ae69822e, 0x8844cbf38bec5e17])],
   by decide +kernel⟩

theorem POSEIDON2_GOLDILOCKS_20_PARAMS_minpoly : ∃ nf bits qus, MinCheck.check 18446744069414584321 20 Poseidon2Goldilocks.POSEIDON2_GOLDILOCKS_20_PARAMS.diag nf bits qus = true :=
  ⟨[0x8e1c375c4235b9e, 0x424f4290d18157fb, 0x86eea7df3623adf3, 0x73701a5aef338f28, 0x196af33a67bf41cc, 0x87d0e757b91b93db, 0xa8070d1c7e04d6b, 0x49d1938c49e2c7d, 0x2470295ab3ba4710, 0xad440f21510d676e, 0x77d03cf1133fecca, 0x557881c5917469e3, 0xc09e1f7938420987, 0x9fc15bce3ea27c60, 0x5cb567c2c7bbc0a1, 0xce4710ee9a18a70c, 0x636f46aa118e64e, 0x9e752712e32822dc, 0x3e2386b5e181300a, 0xb8036cc74f7f3448],
   [true, true, true, true, true, true, true, true, true, true, true, true, true, true, true, true, true, true, true, true, true, true, true, true, true, true, true, true, true, true, true, true, false, false, false, false, false, false, false, false, false, false, false, false, false, false, false, false, false, false, false, false, false, false, false, false, false, false, false, false, false, false, false, true],
   [(2, [0x65d4220998550ea4, 0x979f608193752407, 0xd35a453294ccd6de, 0xf946d425e19be8a7, 0xd7722e412222292d, 0xf24e06fe297f979, 0x240a5a9294391da3, 0x9f390cbe4de5c516, 0xd02c84bc712c59a8, 0x9cd24f47a8fe7652, 0x2cd7b25125509cf8, 0x762b96f9adf6e103, 0x4ca17710eeb02ed9, 0x79f5666dfb2f84df, 0x2e518eefcaa7eab4, 0x4e22b474f6850c0a, 0x49ce3d9bf26a61, 0xdbcebdf8d1650d13, 0xf0ccbf3ec9b93fab, 0xe4778a2efeae3e6a]),
    (5, [0x53ef6b58d4b10947, 0x2b86b9762cdd956b, 0xc08b646487274d98, 0xbbd0afd843beb75d, 0xac164ac2cc2f7263, 0x20101504a7be19cb, 0x52fcb0741f86aad3, 0x524c2759111696a5, 0x3ef8abd314f230f7, 0xa865c1e5c4e0d30a, 0x38e7f2114ee4dfa3, 0x3474baa3a46b847, 0x8292438e86a1618c, 0x210746579994b819, 0x6c8fc910a9d50bb2, 0x9275f092e3a8186e, 0xf7fd0aa4ea246351, 0xe347ee7715337260, 0x7670ebd3418039f2, 0xbe77e5ae94881498])],
   by decide +kernel⟩

theorem POSEIDON2_BABYBEAR_16_PARAMS_minpoly : ∃ nf bits qus, MinCheck.check 2013265921 16 Poseidon2Babybear.POSEIDON2_BABYBEAR_16_PARAMS.diag nf bits qus = true :=
  ⟨[0xee41c60, 0x57f237f3, 0x6ba2bcdd, 0x6f6aae2c, 0x375e54de, 0x5de1a521, 0x2d92d7cb, 0x75ecc75d, 0x53de5ba2, 0x1bc819fa, 0xeb06cd5, 0x57d78841, 0x671d4778, 0x5d62f223, 0x272187a, 0x19ca74c4],
   [true, true, true, true, false, false, false, false, false, false, false, false, false, false, false, false, false, false, false, false, false, false, false, false, false, false, false, false, false, false, true],
   [(2, [0x3c332a46, 0x1a6a3418, 0x1dfd1319, 0x2d0b6691, 0x27fdfa5d, 0x2146fe93, 0x392322dd, 0x779e2746, 0xd0e56ec, 0x59d9a19f, 0x2b87c201, 0x6c023369, 0x45309df5, 0x324e5e9e, 0x2262c2d1, 0x52cc439f])],
   by decide +kernel⟩

theorem POSEIDON2_BABYBEAR_24_PARAMS_minpoly : ∃ nf bits qus, MinCheck.check 2013265921 24 Poseidon2Babybear.POSEIDON2_BABYBEAR_24_PARAMS.diag nf bits qus = true :=
  ⟨[0x33e36614, 0x259fdad4, 0x6e9c62a9, 0x34bc4c01, 0x449f3ae2, 0x349d6a5b, 0x4f7553c8, 0x58d07cd0, 0x581579d5, 0x4cea94af, 0x6e96602a, 0x4b2641e3, 0x2f72c3bf, 0x114dc553, 0x7138d477, 0x24f135a8, 0x151f9319, 0x5a91e0bc, 0x311d6e02, 0x26d21659, 0x4a2c6b4e, 0x1b8ba0bd, 0x1b28ce6a, 0xdb083bb],
   [true, true, true, true, false, false, false, false, false, false, false, false, false, false, false, false, false, false, false, false, false, false, false, false, false, false, false, false, false, false, true],
   [(2, [0x305918c4, 0x127ebc33, 0x6174b0f, 0x471e0ad3, 0x3efd8835, 0x3de926e9, 0x45cf4453, 0x3b03f944, 0x14eded5b, 0x55fcd6a, 0x5ba53552, 0x46130dc6, 0x40fb7f25, 0x2d453a59, 0xd837b5a, 0x3f4e2a0a, 0x24ed7555, 0x34d03404, 0x40f4c6ac, 0x6082f6b, 0x4fcfbacb, 0x4e06cbd3, 0xc402a1a, 0x3889684e]),
    (3, [0xc9023e0, 0x18ce8e9a, 0xa217ec0, 0xae014a3, 0x4428ef84, 0x3fb861d4, 0x2b0170c2, 0x56dee83e, 0x69802c18, 0x1084a880, 0x77bcfb8, 0x4d961ca2, 0xa71eb32, 0x1688f090, 0x258caa15, 0x55d9a235, 0x30df1fdf, 0x43095640, 0x55b7827e, 0x6552a08d, 0x3113c7fe, 0x70da590, 0x62a8555a, 0x4647f553])],
   by decide +kernel⟩

theorem POSEIDON2_BLS_2_PARAMS_minpoly : ∃ nf bits qus, MinCheck.check 52435875175126190479447740508185965837690552500527637822603658699938581184513 2 Poseidon2Bls12.POSEIDON2_BLS_2_PARAMS.diag nf bits qus = true :=
  ⟨[0x5, 0x73eda753299d7d483339d80809a1d80553bda402fffe5bfefffffffefffffffc],
   [true, true, true, false, false, true, true, true, true, true, false, true, true, false, true, true, false, true, false, false, true, true, true, false, true, false, true, false, false, true, true, false, false, true, false, true, false, false, true, true, false, false, true, true, true, false, true, false, true, true, true, true, true, false, true, false, true, false, false, true, false, false, false, false, false, true, true, false, false, true, true, false, false, true, true, true, false, false, true, true, true, false, true, true, false, false, false, false, false, false, false, true, false, false, false, false, false, false, false, true, false, false, true, true, false, true, false, false, false, false, true, true, true, false, true, true, false, false, false, false, false, false, false, false, true, false, true, false, true, false, true, false, false, true, true, true, false, true, true, true, true, false, true, true, false, true, false, false, true, false, false, false, false, false, false, false, false, true, false, true, true, true, true, true, true, true, true, true, true, true, true, true, true, true, false, false, true, false, true, true, false, true, true, true, true, true, true, true, true, true, false, true, true, true, true, true, true, true, true, true, true, true, true, true, true, true, true, true, true, true, true, true, true, true, true, true, true, true, true, true, true, true, true, false, false, false, false, false, false, false, false, false, false, false, false, false, false, false, false, false, false, false, false, false, false, false, false, false, false, false, false, false, false, false, true],
   [(2, [0x5cbe1f75bae46439c294acd33ae7e00442fe1ccf3331e332666666659999999a, 0x1])],
   by decide +kernel⟩

theorem POSEIDON2_BLS_4_PARAMS_minpoly : ∃ nf bits qus, MinCheck.check 52435875175126190479447740508185965837690552500527637822603658699938581184513 4 Poseidon2Bls12.POSEIDON2_BLS_4_PARAMS.diag nf bits qus = true :=
  ⟨[0x68c4de36392a4314c6b97a21e6408794d8989ee32fa1f6615e44d90d95e5623d, 0x21ff01fde50605885825b779a7e48236bd9d2abdaba1f936975a1e956def4518, 0x3a64d4a5d808925aab450980fffc2d2a782d2c3ccb3e6cbb94bf5467c84a2e25, 0x1d2c40952b3a98b59d3562d6e531257e1e8f8ca11cbf8e4e6fe6ca19294f5679],
   [true, true, true, false, false, true, true, true, true, true, false, true, true, false, true, true, false, true, false, false, true, true, true, false, true, false, true, false, false, true, true, false, false, true, false, true, false, false, true, true, false, false, true, true, true, false, true, false, true, true, true, true, true, false, true, false, true, false, false, true, false, false, false, false, false, true, true, false, false, true, true, false, false, true, true, true, false, false, true, true, true, false, true, true, false, false, false, false, false, false, false, true, false, false, false, false, false, false, false, true, false, false, true, true, false, true, false, false, false, false, true, true, true, false, true, true, false, false, false, false, false, false, false, false, true, false, true, false, true, false, true, false, false, true, true, true, false, true, true, true, true, false, true, true, false, true, false, false, true, false, false, false, false, false, false, false, false, true, false, true, true, true, true, true, true, true, true, true, true, true, true, true, true, true, false, false, true, false, true, true, false, true, true, true, true, true, true, true, true, true, false, true, true, true, true, true, true, true, true, true, true, true, true, true, true, true, true, true, true, true, true, true, true, true, true, true, true, true, true, true, true, true, true, false, false, false, false, false, false, false, false, false, false, false, false, false, false, false, false, false, false, false, false, false, false, false, false, false, false, false, false, false, false, false, true],
   [(2, [0x188bb7a45dcaebb7735a97d172e1a6524ee83da8f7826d491431241d3e766338, 0xdc0704f04c198abc6d12cf94c2d7fd32b8b625cdc7d7eecda37d67df0da968e, 0x4df0bbd80b232ff22c802544cb227b7631aaafbc1f1bf228fd59f19b64dbea3d, 0xd5d05c64e760bbeb5018d70f3e33aef1595a2e1737dfbf41db4127818421eea])],
   by decide +kernel⟩

theorem POSEIDON2_BLS_8_PARAMS_minpoly : ∃ nf bits qus, MinCheck.check 52435875175126190479447740508185965837690552500527637822603658699938581184513 8 Poseidon2Bls12.POSEIDON2_BLS_8_PARAMS.diag nf bits qus = true :=
  ⟨[0x3b2b2c3ea96ab5eb771fa94a6ab577bbd938b90b9774db2d08901d2091bf773f, 0x2db94973736f70dc79b7d71c96abe7d90005b8f929fdf5cfbfa87b3fef803185, 0x13a1544993ca688521156ff823fbb325295546418573f4e5326e88e0f723ab5f, 0x3ac9e79c5886afc01f4013ca85ab6bf1b29bf43b73eeae1303e54e8b466290f, 0x64bc72856c2bd0a80205bda88ca6fdb5430848ba570cdafa990f6c7c6d8612c9, 0x1e03563c99265db47cfd84e9fd15a128e2f588a6cb90a529a087d4175f891f78, 0x41fc749d7747b626e6fd20e485881583b70609b53cf9eaf6c6529e8d65690e50, 0x1cccaa507b93064292a45c282b9ac95eef2f6386898a156e58c7b6e66c13786],
   [true, true, true, false, false, true, true, true, true, true, false, true, true, false, true, true, false, true, false, false, true, true, true, false, true, false, true, false, false, true, true, false, false, true, false, true, false, false, true, true, false, false, true, true, true, false, true, false, true, true, true, true, true, false, true, false, true, false, false, true, false, false, false, false, false, true, true, false, false, true, true, false, false, true, true, true, false, false, true, true, true, false, true, true, false, false, false, false, false, false, false, true, false, false, false, false, false, false, false, true, false, false, true, true, false, true, false, false, false, false, true, true, true, false, true, true, false, false, false, false, false, false, false, false, true, false, true, false, true, false, true, false, false, true, true, true, false, true, true, true, true, false, true, true, false, true, false, false, true, false, false, false, false, false, false, false, false, true, false, true, true, true, true, true, true, true, true, true, true, true, true, true, true, true, false, false, true, false, true, true, false, true, true, true, true, true, true, true, true, true, false, true, true, true, true, true, true, true, true, true, true, true, true, true, true, true, true, true, true, true, true, true, true, true, true, true, true, true, true, true, true, true, true, false, false, false, false, false, false, false, false, false, false, false, false, false, false, false, false, false, false, false, false, false, false, false, false, false, false, false, false, false, false, false, true],
   [(2, [0x2dfc8a4ea8e29b4a73557e3a98565990df161b1833ae3f33374f911e176f6a2a, 0x1a74273e93da7ee65312192882e7f4769de7418c812da877ced2cc0ed472b0dc, 0x446b9554c954b91192407d26c12f58e568b6b045dcd02477834f22429d4e87b9, 0xd98b472734685c96fe8b4760444270e43c9dbb079b5334ae6b51b308453a5e2, 0x22074b97e4d589779ba0bc434489b9b962357f294af17b6621560111361c0b5b, 0x538978d45629034d4abe337240df8c54a9c6a9c5553d92eaf5d8b6b169e19e12, 0x46540892d0e77aadb399ed31074d1e45088f41f0b02c52d757329181e0bac113, 0x2c0d3af158f5b988515b6614339aa1ef277e1383148e46000bda28bcb8d9882a])],
   by decide +kernel⟩

theorem POSEIDON2_PALLAS_4_PARAMS_minpoly : ∃ nf bits qus, MinCheck.check 28948022309329048855892746252171976963363056481941560715954676764349967630337 4 Poseidon2Pallas.POSEIDON2_PALLAS_4_PARAMS.diag nf bits qus = true :=
  ⟨[0x23c6603504c95e3b597c3d8cb290284e32b5b443c68b96a789d2987e93018728, 0x3b7294acfa98f4f41c8de032888f99a44921e2508dd8e3dbf7c54de35a05965e, 0x20d394684b9c484403f2ef2826c7672c55768779f02bcfc5389e177b9ae4c26d, 0x6d3dae9cd00347eb9483ea512903d8eb465e88310126877d394c90db1d4f62a],
   [true, false, false, false, false, false, false, false, false, false, false, false, false, false, false, false, false, false, false, false, false, false, false, false, false, false, false, false, false, false, false, false, false, false, false, false, false, false, false, false, false, false, false, false, false, false, false, false, false, false, false, false, false, false, false, false, false, false, false, false, false, false, false, false, false, false, false, false, false, false, false, false, false, false, false, false, false, false, false, false, false, false, false, false, false, false, false, false, false, false, false, false, false, false, false, false, false, false, false, false, false, false, false, false, false, false, false, false, false, false, false, false, false, false, false, false, false, false, false, false, false, false, false, false, false, false, false, false, false, true, false, false, false, true, false, false, true, false, false, false, true, true, false, true, false, false, true, true, false, false, false, true, true, true, true, true, true, false, false, false, false, false, false, true, false, false, true, false, true, false, false, true, true, false, false, true, true, true, true, true, false, false, true, false, false, false, true, true, false, true, true, true, false, false, true, true, false, false, true, false, false, true, false, true, true, false, true, false, false, true, true, false, false, false, false, true, true, true, false, true, true, false, true, false, false, false, false, false, false, false, false, false, false, false, false, false, false, false, false, false, false, false, false, false, false, false, false, false, false, false, false, false, false, false, true],
   [(2, [0x21889827035e44c0ba08916f15b36ebb20e6327f310fd5896fcc8a69f568ca45, 0xda99e023512de7d6db474ffbfc3b828a51a29f1b0f1c6b09927af2b036e8349, 0x311d25e855bb874efdb1821bad600f0f13de685f23765f0e2b9b7e09c1b21515, 0x2ef2bd976d98aa53169ef54c6c5e6eb351562e8f5b8e06558e38bfb10bf9c586])],
   by decide +kernel⟩

theorem POSEIDON2_PALLAS_8_PARAMS_minpoly : ∃ nf bits qus, MinCheck.check 28948022309329048855892746252171976963363056481941560715954676764349967630337 8 Poseidon2Pallas.POSEIDON2_PALLAS_8_PARAMS.diag nf bits qus = true :=
  ⟨[0x37ab05b4a15e1fa4b72cea6b51531b0545474292f0cfb940067c6de1db314d47, 0x925f1ce6ce569d91d292b2e51a474e28730fbe8e7aadb5ec7f0b3451dba5f33, 0x1416dbcf77c96b0eaadcd135dd556cbee95bfdb5d88601cfadfb48ffb1f61b95, 0x20d9fcaddc94ffa21d0a0ecffe388ffb6aca65687abc33a05883f921832f63f3, 0x216b463eb9f054d772d65c44015689d311c96a5c5f5d9865f325f95e6862ba76, 0x2c8cf28089aef231453a5d363becf80628e449c1606f590d7405b1ba0dd1392f, 0x2404f81deb48ca8c0203ce5c517d9f3d3663e7c44fbfed5e5a076c6006510b0f, 0x32908a3b5277ad8e069e67a58fff2584b8143de79124ee2cc785a54fd5cb2acc],
   [true, false, false, false, false, false, false, false, false, false, false, false, false, false, false, false, false, false, false, false, false, false, false, false, false, false, false, false, false, false, false, false, false, false, false, false, false, false, false, false, false, false, false, false, false, false, false, false, false, false, false, false, false, false, false, false, false, false, false, false, false, false, false, false, false, false, false, false, false, false, false, false, false, false, false, false, false, false, false, false, false, false, false, false, false, false, false, false, false, false, false, false, false, false, false, false, false, false, false, false, false, false, false, false, false, false, false, false, false, false, false, false, false, false, false, false, false, false, false, false, false, false, false, false, false, false, false, false, false, true, false, false, false, true, false, false, true, false, false, false, true, true, false, true, false, false, true, true, false, false, false, true, true, true, true, true, true, false, false, false, false, false, false, true, false, false, true, false, true, false, false, true, true, false, false, true, true, true, true, true, false, false, true, false, false, false, true, true, false, true, true, true, false, false, true, true, false, false, true, false, false, true, false, true, true, false, true, false, false, true, true, false, false, false, false, true, true, true, false, true, true, false, true, false, false, false, false, false, false, false, false, false, false, false, false, false, false, false, false, false, false, false, false, false, false, false, false, false, false, false, false, false, false, false, true],
   [(2, [0x5db8410805d59becba6c79a24ce814c760477061982a9527c0f3d1456acdfd1, 0x21bcadf815a66fbed2a59b5b334c862b5a599400a4869feabff175bec0b2161a, 0x2aa0472268204a0885e25ca865d7a27a4da347c17fce177b0f8af491daf80023, 0x230f301727e774fad0f7d10126503b4c1bce115829a689a837f19e0147b6cfde, 0x14994f7a561f77e85090b2d4e67ba5aa4e6f2ac9157293964f92f5f0c0e5af3c, 0x1d4416388a61e96f0ea74ea8216fe93c3601c018737bee7da035f7060515c1d3, 0x1d961e7ff68b47c00bd93ad65859e021ff80d98fb73fe2dcfa74cb5ecfd7c83b, 0x47471a84c020852aafaaedfaba64c0909f699c6fdef0ba7146c6653fa2e2c9f])],
   by decide +kernel⟩

theorem poseidon2_minpoly (S : Poseidon2Source) (hS : S ∈ poseidon2) (ht : S.t ≠ 3) :
    ∃ nf bits qus, MinCheck.check S.modulus S.t S.diag nf bits qus = true := by
  simp only [poseidon2, List.mem_cons, List.not_mem_nil, or_false] at hS
  rcases hS with rfl | rfl | rfl | rfl | rfl | rfl | rfl | rfl | rfl | rfl | rfl | rfl | rfl | rfl | rfl
  · exact POSEIDON2_GOLDILOCKS_8_PARAMS_minpoly
  · exact POSEIDON2_GOLDILOCKS_12_PARAMS_minpoly
  · exact POSEIDON2_GOLDILOCKS_16_PARAMS_minpoly
  · exact POSEIDON2_GOLDILOCKS_20_PARAMS_minpoly
  · exact POSEIDON2_BABYBEAR_16_PARAMS_minpoly
  · exact POSEIDON2_BABYBEAR_24_PARAMS_minpoly
  · exact POSEIDON2_BLS_2_PARAMS_minpoly
  · exact absurd rfl ht
  · exact POSEIDON2_BLS_4_PARAMS_minpoly
  · exact POSEIDON2_BLS_8_PARAMS_minpoly
  · exact absurd rfl ht
  · exact absurd rfl ht
  · exact POSEIDON2_PALLAS_4_PARAMS_minpoly
  · exact POSEIDON2_PALLAS_8_PARAMS_minpoly
  · exact absurd rfl ht

end ZkHash.Instances
