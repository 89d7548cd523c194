import Verif.Instances.All
import Verif.Proofs.ScriptCheck

set_option autoImplicit false

/-!
# The shipped Poseidon2 tables pass the check of `ScriptCheck.lean`

Generated by `tools/gen_script.py`.
-/

namespace ZkHash.Instances

set_option maxRecDepth 100000

theorem POSEIDON2_GOLDILOCKS_8_PARAMS_script : ∃ ext blocks W certs, Sage.scriptOk Poseidon2Goldilocks.POSEIDON2_GOLDILOCKS_8_PARAMS ext blocks W certs = true :=
  ⟨41, 79, 118,
   [([0x7f8b8ea20c50afda, 0x941d0e7c5e5f04fd, 0xc3eddfd0d5efeedf, 0xb4c728e2d39d13ea, 0xa095313fb2826632, 0xb2c44beb81a7eb12, 0xec6be87be698f11d, 0xc86cc6224a4bbeeb],
     [0x1, 0x35248b9ab65a66a9, 0xf3d15a317bd60a01, 0x2526090f29836517, 0x928b4fccb6ec1730]),
    ([0xd5037c7a8f24a471, 0x70067f13beac2d2d, 0xd92319f98fe8e073, 0xed63b65610a16879, 0xd28a5b339825b1c7, 0xde4428d9b0f9b4b3, 0xda03a8e2f7e04dcd, 0x66bca56c6b6d6204],
     [0x1, 0x370bde92abae8052, 0xc6b537e7027f0e1d]),
    ([0xbe78ba90e25029b9, 0xfe721f0e3271acce, 0xc7c40c5e9e10e19b, 0x8176a36d243606f8, 0x9a76ad60082f647b, 0x310b0de46effc8aa, 0xd266b5ff83155fc6, 0xc2e8199987b644eb],
     [0x1, 0xa536008a559e6da5])],
   by decide +kernel⟩

theorem POSEIDON2_GOLDILOCKS_12_PARAMS_script : ∃ ext blocks W certs, Sage.scriptOk Poseidon2Goldilocks.POSEIDON2_GOLDILOCKS_12_PARAMS ext blocks W certs = true :=
  ⟨45, 151, 226,
   [([0x853c87cb6ee31c20, 0xe8dd3ec0416f873a, 0x68166435fedeb259, 0xf86ce4a6be288b5d, 0xf645ff633ea34d91, 0x29e5f11b2e1b54e4, 0x48f9b87193801eb2, 0x323fbdd584a0cc7f, 0xb9d7248610c42d5b, 0x6ff057d29d38dc65, 0xcf9ac909bb31cf5b, 0x9fb39f187ec356ba],
     [0x1, 0x2ce3bb4a0899e88b]),
    ([0xd7c1b364103a275a, 0xe65080376691dce0, 0xfa1d0601fbdd50ff, 0xaf26cede8d6a1e13, 0x11f89485abc2e5bd, 0x3e7f72b9eb35956f, 0x99580ebff5067e8f, 0xb921d8ea714229f0, 0xb74c9704fac1edee, 0x6c0775c5e9b210bc, 0xd3a214558503508, 0xc009402978e552f2],
     [0x1, 0x66d6b2e2e6d66f7e, 0xe32ded08e1714455]),
    ([0xa24d8deb558c90bb, 0xa12532ea7fd90c36, 0x65998f0180e36de5, 0x40c1c709a53a431, 0xbc5dc5f23b61a996, 0x67e10bdd5b21674f, 0x2c41bdd2913d7340, 0xfc26f5a34658d8cd, 0x6fbd0d8ef31de8bf, 0xa3dd9c70b4b1edc4, 0x66d8127333713ceb, 0x5c01c14dcfd3da10],
     [0x1, 0x86ec6293908e7c70, 0xfc36eaef7d095959]),
    ([0x751237ba0947b222, 0xa018b9266bf815f0, 0x3ba03f8f3c94d9be, 0xfcb83f7344a2e129, 0xc0bd2c5ed82f2212, 0x4950cecaa4630096, 0x761aedd3157556fa, 0x8e8060e87c4c3fe8, 0xdfdea77fe347d345, 0xde2336b531056f86, 0x39b7dcd423abccdc, 0x7c5d41f7ffc0abbd],
     [0x1, 0xdf6f0f35a82f515d, 0x4be4b97c74661e8]),
    ([0xb082199b0ca72533, 0xddf9288e3c3902ab, 0xa84bbb5e9d78afad, 0x9c1c1cd3cb3cb52e, 0x747c16ff58971256, 0x85cad4811c6cacc8, 0x5eacbf8179c83acd, 0x1ce4054ab68ab415, 0xcc16821cd5b79e06, 0x561c4da70003e082, 0xe4ce5847e6311f1a, 0x59b2b6b1c74ec730],
     [0x1, 0xb9da61ced6455028, 0xd503c97d780dd4f5, 0x277ea8e82d368e80]),
    ([0x56268480fbb86502, 0x7f01f9a94f02d05c, 0x94fc20ccde827ceb, 0x8fd99df303255a41, 0x53d9e286d0ea36c3, 0x4945baac4dcea921, 0xeb33d5e5ac79685b, 0xd1978e13ee4acd38, 0x4f5551d100a1792f, 0x6d8ddc53014db48a, 0x87d7096c97efa6ae, 0xdf002a27ed5e805d],
     [0x1, 0x2d060d4ab797e322]),
    ([0xffe88bffaa7f57e5, 0xd03e50576919cdc4, 0xe221a1e5422bc721, 0xe5e9989d9d938204, 0xec497c470531e2f6, 0x92eb22166522577e, 0xba769f3971b51b4f, 0xd73a583da0fd79b4, 0xe213a13729e710f, 0xe35ffaf8372e2335, 0x72cd29b2b0d6f1d6, 0x684eebe216d1891],
     [0x1, 0x1dd1423f08182531]),
    ([0x364ce1f43ab3303c, 0xbbb992bebdbd64bd, 0xac7ad877c1a3b419, 0xc3d274cf2a14b747, 0x1ba996f27c75132d, 0x9d1c1cfdc8ef5f5b, 0xb55244aabecc7fc5, 0x6f9550c6a38f6705, 0xbb28a29e54721019, 0xf9d593b8b9d7dc8e, 0x815bfaacf84a494b, 0x6dd4b9e2dab2e846],
     [0x1, 0xebce973325a3713f, 0xe4fae58cb4a55085])],
   by decide +kernel⟩

theorem POSEIDON2_GOLDILOCKS_16_PARAMS_script : ∃ ext blocks W certs, Sage.scriptOk Poseidon2Goldilocks.POSEIDON2_GOLDILOCKS_16_PARAMS ext blocks W certs = true :=
  ⟨55, 604, 902,
   [([0xbe90a472304949f3, 0x4c7f0c6f8cc1f0e, 0x16100f9db35d5d26, 0xec30c8f9ac2bf1c1, 0x28ca7bc0f87467e0, 0x4e9c0b25aa6b9fe3, 0x4a2eb13ec5e3277c, 0x55da54499b2c2c28, 0x9aef9e3bdf345bf1, 0xb769bfaec3125837, 0xc29e8dd68017e842, 0x9a0b0a590d3086b5, 0xd383fd7f921a8e69, 0x5953be00ab77b107, 0x60cf6ca553905074, 0x40d6e6b08a88b6e5],
     [0x1, 0xd5df5d68b9a63601, 0xc03c66191b2d334e]),
    ([0x180a3dae4e83f7ba, 0xee19d09dff7fe692, 0x84e5385ffdb1b9db, 0xe58faa48a506079a, 0xebf5f3f7ce99d12e, 0x343375701441f152, 0xac205b3faaf17215, 0xfe0ef8d7afd26bd0, 0xa49dad9e9eccf1fd, 0xa22ee755cefb2b7f, 0xe5ae45b1f5906698, 0xc3ab5fbd6506649, 0xd7c173b0329e8b20, 0xae20bbd37e6aaff0, 0xc9b36cd1a2696478, 0x3686ccae2ee19a3a],
     [0x1, 0xd9c2f2405da9b85f, 0xd4bd3f8333b39612]),
    ([0xe0763664f9811727, 0x69dc60eca5eda40e, 0x93a3e1220ed618ad, 0x8ee155bf919759a0, 0xed2d9b8e7f90484d, 0xa58931bc26f74117, 0x49dee6092433cec, 0x2b9d081f77f96748, 0x22ace58c908f5bd1, 0x27b161b910cb2ff6, 0xd8216f27b987e49f, 0x59ead3015d159164, 0x33d6a8b762c553a, 0xa9c892a7b7cfedc4, 0x585d05e6cdbae3a, 0x7b66452b7aebc641],
     [0x1, 0xdae3fedb6126addc, 0xb8d47fb4ea3c0b29, 0xb290cd81f9599dea, 0x3bfa13bdde7b1bfe]),
    ([0x8493c8a8ac801647, 0xcce940f05c6999d0, 0xda7d688ee9c75d4b, 0x320556a5995936ca, 0x1045421f5cda0bfe, 0xa614bc098253e9f9, 0x8d22ded2a785bfed, 0x154522fa6641a0c8, 0x2bdd90b238108c27, 0x4748004aa3e45550, 0xb6e09cedfbdde9d5, 0xe2df418d69322953, 0x2464d8c340de4559, 0x429de3515f293d40, 0x25d53b6143dbf201, 0xd479e5a176dd95ce],
     [0x1, 0x1c501d86aaf71f41, 0xa491cefef173112d, 0x660a7d6da4c5e58e]),
    ([0x4cf73e2906c2514a, 0x8e494bf7c4f5a806, 0xe4253f8d0bfc2471, 0x6941634557b65424, 0x9a348bb420857f75, 0x6fced6a38841372d, 0x1ad8f66034c01a81, 0x99f5da72d50ddbef, 0xb5f1c5bd61cdb310, 0x9a272a309d0c5b73, 0xbf1e902ada8fe0a3, 0xd943885800b68eeb, 0x70f7c5587c32233f, 0xe3d67fd37f44bfc6, 0x5e528dbd06e9f100, 0xe74925409f8361b5],
     [0x1, 0x60917c4c6822424c, 0xa6cb2067a00e63ad]),
    ([0xa865bc16dd48dae6, 0x9e28e6c10f3423b6, 0x8f17f2701f5df0b4, 0xe53e58a9be187092, 0x5b91a53e103109fa, 0xa3ce739fb14b3a91, 0xad775fdb95c496dd, 0x96c942f1c4419e9a, 0x9f0cacdbffbb49f5, 0xe2895839289265af, 0xa8d8a6fa0f45a7d5, 0xce45cce0d1b7553e, 0x35fa06fcb91f7866, 0xb2b595262f634b64, 0x848ac8f9e8f8d098, 0x4faee47900c9d9ba],
     [0x1, 0x2ae61c055a548a00, 0xd5fb3d28a0577876, 0xf3cd57697c6915f]),
    ([0x2284e75256a9e8ce, 0x665d485c6596643b, 0x1a9e1dec7ad6df13, 0x17958478ab54564d, 0xe8d6444d878ca251, 0x3918a932b718719f, 0xb2acdcfd50b4b6af, 0x35de05512626f3d8, 0x15234147ff3b0fc0, 0xaad912a63a22a7eb, 0x59c77be73464bbb3, 0x22f81703025b11c4, 0xdf7d862514b7513a, 0xdf197cf493dc7b00, 0xeb5139886e1ddf10, 0xf1be8ae1c6a6b176],
     [0x1, 0x2467e979a1a8bf3b]),
    ([0x1c3f3291dcfae03e, 0x6df85bfb66e7d80, 0xd167fab1913e2779, 0x77d10a402707795e, 0x75d1afc91b5d9374, 0x672d9e100ab3fc3f, 0x373f89c7408268fe, 0xb73e165c3f743870, 0xef0ef98a67594e4c, 0xdf78bc26db208639, 0xa8eb12fff66aa351, 0xc03e4e22ce20fa7d, 0xbd814afa2b2d6f9, 0xb8582d5698162a4, 0xc2bfdc569e14d80, 0xda3f712c8b29e347],
     [0x1, 0xea361b137bd0d67f]),
    ([0x70324847b93a9438, 0x9e5428d382cc3b71, 0x94c66157a86b9216, 0xbc270c09cc684f78, 0x2bda75eb49d621f, 0x6c4f24f5ec7903c6, 0xdc4eb5199e742a04, 0xc4853d95a63181e2, 0xed83fad5ac2b5395, 0x4ac70474cd67e219, 0x3e9016376b0e1035, 0x3a1536e88fbb9245, 0xfe3cf82017150e89, 0x8f6c1dca791bc179, 0xe7ad5d7499aa2f32, 0x464fc4ff2be64534],
     [0x1, 0xb65245110ca7be67, 0x7b4f08ea9bfd581e, 0x9fe2b188bf905c12]),
    ([0xa53455ebf3acab3d, 0x63036e1e46286130, 0x1354b5d77d4c3fbb, 0xcfebb8dbde257014, 0x85425b87a9987e5e, 0x1985e0a4b6c63534, 0xf52a2aba503e5696, 0x11a9c883f7ba4b1d, 0xf3261428ee53056, 0x780242b264417553, 0x1fb537880263024d, 0x413538bfb4066cb2, 0x747be884783e1659, 0xfac7ff18fe976fac, 0xf0880fc1e35b510a, 0xea02a615d0095e47],
     [0x1, 0xc216b7f145ea5b71, 0xd508ace173f4ec9a]),
    ([0x69b3e5410debeb4b, 0x5b4e43ae925fed5b, 0xe6375183c33976aa, 0xe2bb57f8d90b7c61, 0xde06c80e8a946563, 0xc2471815d419b091, 0xdeecd75b21b42dbc, 0x3e74e4f80b6af49c, 0x242f4cd43130689b, 0x1fdbf54c7840912a, 0xa1023c066ed0228a, 0x689c17f1fc112f0f, 0x3664a07594f48df7, 0xbd85015025c59f0f, 0xe943a32753d47d04, 0x5b1e391986bba982],
     [0x1, 0x10bacea27e499fdb, 0x6130449b58b7d177, 0xb1436665ba5af6c6, 0x280ba21b34bb60fc, 0x9a0932da5b3ac4a0, 0xf8b00e4315dd5830]),
    ([0x53b9d83d340983ac, 0x16ae7f3095eda9df, 0x2eacda2ef90d70c2, 0x168a461c4bb462aa, 0x1611e966c008b755, 0xcd0d82c0ed578173, 0xf00fe05504da79b6, 0x5a908f6e8b8078bf, 0x5d94e9c063f3eb14, 0x2e6d8954cba78fb4, 0x44a33b6fd1ad4d25, 0x4f679cc2ce2a8438, 0xbd67031b78d61ac2, 0x6854b6ac7e23c38b, 0x5d026ebbc6eae3, 0x993a7592702cab99],
     [0x1, 0x5088cfbbc04baf55, 0x645be0c0d660c1c3]),
    ([0x4a8492d535e245ec, 0x79593227b52564ec, 0x4136bc213fc315f1, 0xea1c10182dbbbbae, 0xc973aa4728c42b34, 0x2c9312fe573414cf, 0x36e13252e0963dab, 0x298e80065ade8f31, 0x7a6903cb01c2f757, 0xd9c2bb0f9b691a62, 0xaf81d9482740160c, 0x23a908a73cd2d1e, 0x3a219b524c5646c3, 0x5073b8e969fe3270, 0x234d773eac887b41, 0xf51a9ee176a173ab],
     [0x1, 0x7d52dabffbd36b09, 0x1ec24d4803ce081a, 0x38b914d2f239d7fa, 0x15ad330cfac29dee, 0x78754ed44ae5c37c, 0xe7d7b8965edbe75b, 0xdd4a8f4486fe65dd, 0x112d21499fdd6bf0]),
    ([0xb1538fbfade7eca7, 0x56d4087be9f52097, 0x6c740e2f9848abfa, 0xbd5d34854bf8e3b4, 0x57677b475a535f5c, 0x3c8803d4fa8e4b3e, 0x606c81ddbe840237, 0x955d8852872d2383, 0xe2a849a697a7c1c0, 0xeaf24d5a4c12de65, 0x16c43e1e5f898591, 0xc0501e3c45fe2c44, 0xb9d06e09d2658450, 0x6b89b26265bf246f, 0x59adb9c9605805c, 0xf8572597a8a87a49],
     [0x1, 0x67d6c0071d4edc9, 0x5d88d88f877abf9c, 0xa8347dd3e1a53544]),
    ([0xa6a2543e8d2a1763, 0x1d46c1d2d28a3a25, 0xd24f939cfef59497, 0xdf4a08d50ce12ca7, 0xc74d7fb099354dcd, 0xf47dbae7f6f45f5f, 0x83db4603d8568771, 0x6052d5b9e0b91911, 0x2c141ce9db4a3b33, 0x4540afaa5944beca, 0x6ac623dd24f92d66, 0x3a8b48bee4a2279, 0x2409fe80d0c6d868, 0x3ff19aa4e4877616, 0xba4db147ba6536eb, 0x7ad7af9627760b39],
     [0x1, 0x19a5af2ac3ac27cd, 0x23adff236ac48387]),
    ([0xa3b4736ced3b3831, 0x45fbaff76a107319, 0xe2ad14b5d3992c40, 0xf6b5edb4d7933441, 0x1114a3d508f9dcfc, 0xcf88bfea8ee6d702, 0x380bb7872b498721, 0xc48645936cc91bee, 0xa8058c4802b1a8de, 0xd4dcea7888dfa0a5, 0x3da707c1bb5b0243, 0xdd5557d10267fe1b, 0x16a397072135dfeb, 0x3f6d8d73396f2b3b, 0x55683efc0b8e43b4, 0x6a1ea5c72a2897ab],
     [0x1, 0x7ef4617ff9cca90f]),
    ([0x8053849792f4d471, 0x77290b76938e256c, 0xd5e443dd575900e6, 0xf68e9671f8c4d80, 0x767bcb60e32ad781, 0x4cbf2b00194f8319, 0x45ec09dcb2759edb, 0x3260b6341cac58dc, 0x9cb8dd2d552a5a5f, 0x285322107eec17b8, 0xd03536ee12e1f83c, 0x9e693cddf8520420, 0x756e76d0f717bcda, 0x39d5c0857dd6f9f0, 0x3810e1d1853e1b1e, 0xf04ad5857697bd8],
     [0x1, 0x9656602d65605ef9, 0x16b13a6480fc5bc4]),
    ([0x18777e68304098eb, 0xa2c28c542221bd62, 0x67224b33a88e93ba, 0x1308a06bb9edd34b, 0x6c97c185b2928361, 0x54ceabc920bf404b, 0x8864dda59c895f46, 0x8111bb1ae856dc94, 0x669402386c84a0da, 0x8c05944cce8efd28, 0x5130e325a2ed8aeb, 0x9624381656e62544, 0x9e2becfcd81de1f6, 0x7bf990d1d5d43097, 0xe4149edeb994b58d, 0xf067757b66014101],
     [0x1, 0xe5e8e263925e3bdb]),
    ([0xd10582f71dfa9fdb, 0x2353c12452694311, 0xc40c60776541fb24, 0x7d15739a60ff88e8, 0x57f9e43e4324b92, 0x463d610021703a83, 0x7c8a29b5130972ea, 0xdd1d7224ad587958, 0x3b101c0dfe10f78d, 0xcf7558f053bb5ad4, 0x1390d561b9a99acb, 0x587254f1044f0fd9, 0x2edddb43220dd404, 0x9dc29e850bd27197, 0x4e2d11db874f9146, 0xbe5752ce13023fd],
     [0x1, 0x977f20093b2ea919, 0xcd8bd717c7a6fb2, 0xbbbe1963dbeea700]),
    ([0x7ffb065cd80d189, 0x56a0201ec3081f9d, 0x9ada79cc222f2de3, 0xda74c770d5df4971, 0xc80e70d18c28b32a, 0xa0556d2f4129966a, 0xe3173898249d720d, 0x49987e0a6625f44b, 0x1195e9e4e8a4d496, 0x4218c3c2d6bdeb8b, 0xfe563acd2823a137, 0x40f29f52e9f78da3, 0x35c032f16b98fa77, 0x62d524eac5dcbdb7, 0xbf738287122a084b, 0xb5fb954da0c730c1],
     [0x1, 0xcae294f2e1915789, 0x966ba0b9439184c, 0xc30581dfa76605c3]),
    ([0x8cb948618e44c914, 0x59073723a48016d9, 0x80f99ca7160d797e, 0xfa64437f5c145959, 0xf373d2daf04ec851, 0x9a3493e43beae695, 0x47b34d66b24d1633, 0xbece45b90b041275, 0xa7195a05c6da8a76, 0x9f507438ee8a8864, 0xb838d4a4bf3f4301, 0xce3255927e349d77, 0x8cf38cf189ec466a, 0x869e51fd71e36cfc, 0x38bca798ec1f3a50, 0x5aac17d7fa0bd460],
     [0x1, 0xb0df3a0a2542c914, 0xe8e7928b0c40ae60]),
    ([0xda663fdf75fee3cf, 0x500335e5d909f590, 0x7db30396601e7f6f, 0xd08269e2651258e, 0x394ba85879a32550, 0x7e1a2fffbae59802, 0x149e18ae0354d7ee, 0x589afdae16d144d6, 0x96aa53bf8157df3d, 0x75e0db26eb993eb3, 0x6664e526918d3d21, 0x84261e7c9be1f953, 0x99cd13fc7f38a446, 0x59ed3df149a993b, 0x161242ff134182d7, 0xcb68e9c1657af9d5],
     [0x1, 0x9a5a2d5fa667f9dc]),
    ([0xd96ee57b6ec76344, 0xfb3ad2b29a65be19, 0xc934d73b967e103b, 0xa14388ebc362c53a, 0x7df0c6dcaa0e98e0, 0xac21eecc1412261, 0xf1a854b74966edc8, 0x86dccaf55b550973, 0x3fe435902a8d9b25, 0x323d8b441b531ea3, 0x96a716c46d1ab788, 0x3b1326672b3ec680, 0xf4759113ba229424, 0x9daeae993132223d, 0x1679fbd70407a849, 0xacec23626f04fe9],
     [0x1, 0x1edbceaf5353dbe4]),
    ([0x33baf940c6776181, 0xd44824def34fd01c, 0x3126645c2048693a, 0x72e7797d8ef6e6f1, 0xe4a3b41f42a8a9cc, 0x67dc41cda30c3c9e, 0xc3f4c5166d47fc52, 0xc779f8f104829ac9, 0x8ffcbe9bd38fa65d, 0x31409da45286267, 0x375c14d2ced7ae46, 0x2bbfcb1c4a87bbae, 0xe2209ff163a441c8, 0x6e796e1f70f6c4b4, 0x8e5dd0f8370a204c, 0xf2011f23e8da7334],
     [0x1, 0x9302d5a88f6a5f32]),
    ([0xbfd7ee4de3e05241, 0x1bf09ba70586093b, 0x9ed7b03a4b7411aa, 0xd72d164cfaef183b, 0x2f16203f1e9d914e, 0x20c58586ac29ed0c, 0x72c4e3a590350033, 0x31c3f67183ff81ec, 0x54baf1998aebfc73, 0x18448587286d9fb5, 0x49e260d393c259dd, 0x3d146659eac729d6, 0x9d07f500cd0a1906, 0xa19d48755be55d47, 0xfb1828071579df7c, 0xd1176b426701544d],
     [0x1, 0xe606c5a1464606b9, 0x70790843fc10c68d, 0x58fc3f2c6bff5ee2, 0x223a31aec4172b19]),
    ([0x7320936035b734f2, 0x7ad5d5dbe7ad4eff, 0x5cd968ff32a69f7e, 0xb9cc071a3c5c614a, 0xc73d2d2c2f1e0803, 0xcb58c1813d78b0c2, 0x59e8fe316f1efc22, 0xc0c04421b132fc7, 0x6fba84f73982b053, 0xc2e02863678184b9, 0x7239d119a73da140, 0x60d34b7f22533609, 0xd6886265666c57a2, 0x1ddaa39194cf260b, 0x3dbaaa168e05f3a6, 0x6f58f8f9b0d8e689],
     [0x1, 0x5ba9af95bfa2972e]),
    ([0x1853b77be58de3c8, 0xdbbc8d57c2c6208, 0x7c58cb63afb9cb04, 0x6ae2d942ea919b88, 0xa1adc56960aabd91, 0x64b4c7e8813fb8ff, 0xf8fdf16499a9fde8, 0xcd0c6cc05064be59, 0xf0c5014ac0e0f67b, 0x23ff01e68c53a3e, 0x9d6076d96015e595, 0x985a88841cc6532a, 0xc957d8a2d5a917fe, 0x885c1bc16ba84cb9, 0xac76d4c05c41b3d1, 0xc078234414c58777],
     [0x1, 0xbe0022c9f83758ac]),
    ([0xd679d45466fd65c4, 0x852a0b7d5db1d926, 0x57cb1b54b8763323, 0xb46adda7988a577d, 0xe2e4c75a3b9fd934, 0x48acb5c3d3b27ce8, 0xbc93db655fa24251, 0xe8450b7566479067, 0x335cd7958811f636, 0x60bede87bf76d940, 0xd1a037385108dad7, 0x22dbfb7cf2c12656, 0xee1f7d9324a9ef5a, 0x2983dc228899e7cf, 0xd4ac1e1c53fba8fa, 0x6378da280e375fa7],
     [0x1, 0xce7d7f3db52d9b11]),
    ([0x60a0b90e165f662c, 0x87c12d5bcfd2a0ed, 0xcad4eca72c5b0af4, 0x85999e3e395776f5, 0xf2815cb8ddb8f8ac, 0xb3aed8947b5bc5b9, 0xb2db05de93ff8953, 0x219ae78c9edc575a, 0x4e87b95af8c53679, 0x54510ab8a68063e9, 0xd91ec38ec5ae0fa0, 0x976bc3ca2ba815e7, 0x880d382d235a27b3, 0x1e05a3a3ae740ff4, 0x4d467f9803f9c757, 0xceac7b5756c10d99],
     [0x1, 0x88c434b4be2cf97e, 0xa809cfedc5f48f5a]),
    ([0x535f7b3aae447fa7, 0x4a806bd0bf437473, 0x64919caa8ba1db7d, 0xfe2d44a1ffcaf980, 0x858cd76523ef112d, 0x716ebc4f2ed941fc, 0xe5718ab452665437, 0xc35375ed247204ca, 0x4b2c42ec73bbd6aa, 0xc8b69b73951fa8bf, 0x5906ad8684c91301, 0x92405fcc71ee4c86, 0xbcb9b5152df4f49c, 0xa60e14114e88899f, 0x9c83528207f8bfe9, 0xb46fe3b11f68a354],
     [0x1, 0xfa37f611ae8418e5, 0xa9b36b324c1c1db9]),
    ([0xa08e968efcf177b0, 0xc478423a6dc395eb, 0x76346762e6ceadcc, 0x56d2bc2bbdcb5d1e, 0x98f3e8bbb04fe1f6, 0x10c3417e73a748f4, 0x4211d228cede4a6d, 0xa850a89131a631c8, 0x10854fac9ae6afb8, 0x31d10e3853b48979, 0x8b31ba871110efc4, 0x9da8375d10cf749d, 0xf4dc72aec6ddbe1a, 0x296cddb3724980e1, 0x88bc17402fe3b878, 0xa0f59ba1df9c339],
     [0x1, 0xa1ba9dbaf5dd6377, 0x67c4ad313808f7e9]),
    ([0x7dfcae91bd3c042a, 0x7a2d55ded446bbf1, 0xafc0af3b1e0905b1, 0x8b01710c33002150, 0x484f7574e34e2731, 0x654b35b11f80f9d2, 0x995b0e692e777b5, 0x5d8c0ef84eb9708a, 0x2ea6b40bbdc4d421, 0xe8ce3d8174b701b9, 0x41a1745775571f55, 0x317132fc72c981e7, 0x44a577fc9676d2c2, 0xd051a08521e54ca0, 0xde80b2b512b45336, 0xad19aa3c010b613f],
     [0x1, 0xeff0d576b55d9fab, 0xc26d64cca22a83bf]),
    ([0x51b7edb36b73d4d1, 0x35147fc8e900c220, 0xbb3d4a41bdf92a14, 0x31f972689cbc586b, 0x63528ec652a50360, 0xec3d357f1151d8a2, 0x9578ffd11dee1d7c, 0x37049079bafa786c, 0x481b5b53ce71cf76, 0x64bd6a6b6a3e06ff, 0x99f1003a2d32be31, 0xfc85941f8160b924, 0xb477f0e2362940c6, 0xdff1b43caa0840c, 0x92278f416d1d063, 0x8e5de96a692f6fd3],
     [0x1, 0x2304d4d26319dca1, 0xf9165b5d389799db, 0x579c674cc279535b, 0x44f014f3e702cca9, 0x7f6abbe384f6e55b, 0xabc9eec94625d8e8, 0xd6f62a0138116498]),
    ([0x80f9dc4791088c8a, 0xffb49feafaddceb, 0xa4f94f79d9c3b82a, 0x1dcbd4fdfbbde071, 0x85c347de9dc13497, 0x8a83f49c1e7405b7, 0x50277704ddbb444d, 0xd19de37b7840b215, 0xebf2abbf6e14daf7, 0x95b159d491d5ec55, 0xcad7d2009025971a, 0x5d924c5d7b0c75b2, 0x2adf478ae0bd382, 0x6408794d4ee890c2, 0xcc8b3fe4d2de06a0, 0xdb6656258809d966],
     [0x1, 0xe07d11c6c8b86d9e]),
    ([0xcd2302b6932fe42, 0x724f9fda78f35ac3, 0x1b401a5ecae741ad, 0xc730d8202a653e00, 0x1eb3278a6fa88e10, 0xd9bfbb44e92911b9, 0xccd22a779b412d19, 0xad56772c9d49c977, 0xdfc292555680cf96, 0x81d796e3be1cab84, 0x20f22bbfa028d6a5, 0x9170e68e6a4fe8f3, 0x49010c60af1ab284, 0xbd09c741ecf01013, 0xc6b232f6b46156c6, 0x9a8e6a6a379651fa],
     [0x1, 0xcde9a8ab878c4d0d, 0x956331a4fdb38cb1]),
    ([0xdc9c812bc0316105, 0x75bb84c0dffd90c4, 0xd8c4f0c8fec30a21, 0x79914e2d6f1fa8bb, 0xb924ba46128d88ff, 0x69d3fbf127a181d6, 0x5ea6f5ee546427f0, 0xa8c3c0a2f01a6ed0, 0x711594f6485e03ba, 0x2c3f3c44dab253f9, 0x32859cee7950786d, 0x2034de981caf8a5, 0xa2356fe560b10443, 0xbdabd37e6e99d9df, 0xe5968032b62f110e, 0x796b973ad4437ec6],
     [0x1, 0xd48b1bb866b87dfa, 0x896b868a7cb01db8, 0x254a7f688c8124c5]),
    ([0x3af51acd190b45ee, 0x35c20294042ecc0e, 0xd20fc6faa13190eb, 0xe6eb82a70fd0cef, 0x1b7fe37b1fb9013e, 0xbf790179a3ec001a, 0x2395dd41c32b827e, 0xfbe4ca0a2039d4b, 0xd044e4a97e2f79ac, 0xa2db5595caef7f0d, 0x7e791b5027b3f4df, 0x919f67e3b19cd58, 0xd862c0921e0c0915, 0x6e17d656c581b811, 0xff095041a4bbcede, 0xdafe2bdfcf33637e],
     [0x1, 0x89aecb4abfefff5, 0x3740bd56028343f9, 0xf596e0b2b9daef2c]),
    ([0x3613e94751d469bf, 0x9f9ee2c75597530, 0x3116c5eea2ab8c8d, 0xd51e5ee47ce47e22, 0xc17e8bcdac5ef120, 0x1a0ac011ea8ac7b9, 0x8df2328093d45bca, 0x7ac8086af8f55603, 0xabcdec4d0b2dcf06, 0xdbe89d65cc60389b, 0x2ce10b0d352dbba8, 0x4a2a5dba5f22df9f, 0xe8cf1e18ae24b78b, 0x76f161d79cfd53c5, 0x35ce8e59340e5c30, 0xd4e5244c3d34feb3],
     [0x1, 0xf643b14dd5dbd5de]),
    ([0x1a540189b81a5b60, 0xa9e631985ee397d6, 0xca113ec53662405c, 0x49bec615666f24c9, 0xef114b4f50d05368, 0xaceb8514da1c8d32, 0x34990d688040ea1e, 0x633bbfee230ad6d0, 0x49a547065e74d2d, 0xff7265012dc6fd2d, 0x92d7a4dd1ef3af99, 0xf2c62720ef2e00ba, 0xb00f3b063927dc9a, 0x2dabe8a9aed62f81, 0x6b545d9c2b643acb, 0x8afd22a37b1c0b3b],
     [0x1, 0x51ecf27f3a2803ae, 0x67d8d1338b2f7a16, 0x9babd0c4bbf3dc22, 0x75fe4b4e6e6a2df9]),
    ([0x15249386238a83de, 0xdd48302f6885f205, 0x8fb1e501051ff57e, 0x4d283feeb32dbf5b, 0x893980b6eb27a18e, 0xc9e8fdf5c67168e9, 0xd6a758cc75bc37cc, 0x60dd92a32c277c76, 0xc86a35315456391b, 0xfe573317eedfffe3, 0xa9066d96fca60ef8, 0xe55fb6b66d7a1abf, 0x194abce21b1cddcf, 0x5be22b90e429008e, 0x76d35d81863dbcf5, 0x48d93ac37551cd9d],
     [0x1, 0x188a49d7f9ac7067]),
    ([0x2c942fcecfca9a0e, 0x24d8e00fe267fc2e, 0x65df4dbcde0bee8c, 0x4989a489fbe0fa3b, 0x3b3e7daecf33dd95, 0xa35f0959d4b87f3a, 0x35e912eb6727516f, 0x7b284b76c6908ec2, 0x38cc0ec945a1461c, 0x59eb8b048491adbf, 0x40331bf2067c2250, 0x70508a2247884888, 0x217464af926a4e9b, 0x32566b31e5e8db28, 0x7bd5f98524e99479, 0x4b2090f5510cbd8a],
     [0x1, 0x3ffc8aa610ce6ca2, 0x3da571b5ae61d893]),
    ([0x85cb8df9edf6081d, 0x2a20d692c4aa480a, 0xf565d6d02b15603f, 0x3869280d66c65a3c, 0xfe64f9d3d30b5e2c, 0x93cb3fd30ff043c6, 0xe05f7138e33549a4, 0xf82f54d7be934df, 0x72b3ca6fcd5f6168, 0xb174b054c89ad9d0, 0x1d5fd98b1c3d316a, 0x477026847674dff0, 0xb8ba378c9582944d, 0x5caaf34c68103975, 0xa4e42d4a9b37a10c, 0x447607118f8714f1],
     [0x1, 0xb48703f6ed5492d2]),
    ([0x6ff80c1827b2057f, 0xd32402a54898c6a8, 0x411567c83f5014f3, 0x81f464687e53ad76, 0x2918568d8ddb4a7c, 0xb76f5efb01dbc14e, 0x1fc3adcdc6020631, 0x3a1abb38f384afdf, 0xd5d74f28420e0a89, 0xad7734cc4bfee8b2, 0xb0e94b8fc8242ec7, 0x21a1c6d76f6b85ba, 0x653797a9a6f9c518, 0x13622965ad831e46, 0xe3f15e9c03a23756, 0x162ccf3f03dadb3b],
     [0x1, 0x6f77796d2b1fd429]),
    ([0xdb4f22ca5577746c, 0xce06ff983dc587ee, 0x55debddc7cc46c67, 0xb51b1b29d7338420, 0xc98c33a10646b90b, 0x60620ff428c35af2, 0x73aadc0ff64c58ad, 0xdb8a796f6b21436b, 0x46b03ce21e724be8, 0x1dc26a3edfe12855, 0xc98ce88185846a88, 0x4855fe3f3c7f056f, 0x6e58a5e70800672e, 0x8716e8352f095735, 0x3a4391546a7c8da6, 0x74bfecb7302c378c],
     [0x1, 0x100a9c5391df5ed3, 0x4072540126fc58f1]),
    ([0xe6a800940e896220, 0x15b73924deeae649, 0x527f93f6fe4e313f, 0x2d535cc7926194b2, 0xd656867a804868fe, 0x5fe99948f32376fc, 0x5ebce998d99dce86, 0xc8c59c0073884b3f, 0x36f2f7fad0f8fc7c, 0x7cb56b0a5b9c7c5a, 0xd80a6767589cf052, 0x44efa7fb62415ead, 0x3ee3c442ba2dfa4b, 0x3f1183a9743a256b, 0x31afdd7e94307918, 0x73f987615333d3fd],
     [0x1, 0x6d60ec98c1523eb9, 0xf4f6b62230abe74f, 0xa6e72eb3b917314]),
    ([0x83b9e3dc1aafbbb6, 0x6ba7f5dd32db6149, 0x664641a9400d2d24, 0xb602d5bc3244f753, 0xabf127d550adcdb9, 0x1c9a82fa455dac9e, 0xcca9bb54409fa33e, 0x90759c4dfcf08669, 0xfbbb1afca19ae0c5, 0xcee07aeadb572d84, 0x27935317e277de03, 0xaaefbd4b638baff5, 0x42825234ae938b01, 0x95ce5945cec2b641, 0xb1d9c579ef394aee, 0x569c3bc7cd8b7fbc],
     [0x1, 0x17b5b785f4df47db])],
   by decide +kernel⟩

theorem POSEIDON2_GOLDILOCKS_20_PARAMS_script : ∃ ext blocks W certs, Sage.scriptOk Poseidon2Goldilocks.POSEIDON2_GOLDILOCKS_20_PARAMS ext blocks W certs = true :=
  ⟨48, 214, 322,
   [([0x1910afe2babf120e, 0x42d8a72987d67cd2, 0xbfb2a1c5df874b78, 0x408a89a8da330dd5, 0xa8a6b43d11405890, 0x957e65e959dcf1ba, 0x854bc9d018b50d5a, 0x679b64540059b7aa, 0x113d0656add715d1, 0x3b63f0ae85c2f4e3, 0x7df74410813b0b79, 0x8f897521943b5e4a, 0x93121ee1d826fce0, 0x941e7fa430642ea8, 0x58c4206d3160dc0f, 0x6b1583a1b20d850d, 0xb79ea190bc95e625, 0xa748be32bdfd83ab, 0xb1c16959b50be087, 0x8a3841c4d0991953],
     [0x1, 0x9b3c35027c6e1063, 0x1863f578b2493c47]),
    ([0x39c927a516cd2f5, 0x953ac5da413a7501, 0xb36b86a68f09fd64, 0x604e24c1bc368ad8, 0xbc87edc22a6f3f92, 0x80579c3179d080ab, 0x4174c400b522d9a0, 0xd40ff51ef89cf1a9, 0x68e1ca089430b517, 0x957fcb57a18b5a73, 0x55acadfe10e06f7e, 0x5cf0fa306195067c, 0xbc9ab55f61b28352, 0xd684585985fa0b05, 0xabfa3ec69bbc963b, 0x351cc190778c02ed, 0xaa1ea13d20bc0a65, 0xc12e024510c3f1a7, 0x4c54d52865a86dcf, 0x6e4d40c91b6a58cc],
     [0x1, 0x91c3fbe6a170b532, 0x9904dc600fce8582]),
    ([0x91524cbddf78ca09, 0xeba3c0f27c12a293, 0x6d777701bc23fe89, 0x7a1189367b6501df, 0xe3590056aaa48000, 0x81971cefd0b27bd0, 0x9709645b4caffc2a, 0xe8d448eeaf6a7f49, 0x4f7e54186ad37633, 0xa0c38662239f3b5a, 0x2444fdb874e5a963, 0xa59cd510e4ea0277, 0x322881699b0f2749, 0x5f4634940df2ad17, 0x8af765473529dfe3, 0x656b2b187e2bff32, 0xf84eaf2c61d41c88, 0x12a37a6185143775, 0xc7768cd6e14a01f6, 0xf96384aa43703afe],
     [0x1, 0x170324535e5d71bb]),
    ([0xae5976d2cea7164d, 0x88b396b063a67051, 0x319cf59ebaed25c6, 0xea764349dec0321e, 0x71444779406f2aa4, 0xd2fba55c1dac357, 0x18b14e8439c058b8, 0xe6344dff9add4c0b, 0xfed0aad67ec6e130, 0x5671472a0d353361, 0xef6dd5ffd1e654c1, 0x9b9b97db95163009, 0xf3ebf3544e6755c3, 0xe1bda6b33eac21cb, 0x75837d686213d309, 0xfbbb4bc30d588ea5, 0x7283a3611ec87ded, 0x3c440b05698b830f, 0x542c03481a4a0f55, 0x700fc8380b9d06e2],
     [0x1, 0xd0042f23005b6402]),
    ([0x1c5c1c86451fd815, 0xe824ba61622ef6fe, 0x8519cb066362642, 0xaff30a76c775f5a1, 0x9028b18b12a2d6be, 0xeb14eb19f42c1038, 0xab9dab2dbd3e7329, 0xf3b4134ffe606322, 0xc267dc9298df855d, 0xea0b02d3f83be19e, 0xae4ce8dedcc132f7, 0x88ec6e5a9c862cf7, 0x11ab4956edbd51be, 0x78d3fadaa4bfae41, 0x3014346a9dd01e0c, 0x30400469f4eba3ea, 0x8535dcbaa4a67a0e, 0x5e83aa939906329d, 0xec293d4e5c067b43, 0xefaa5edfa6b8348],
     [0x1, 0x94f485086f923af9]),
    ([0xc14d63957161ebde, 0xdc50a5b2a8ddbfc4, 0xa1384208eb0120c8, 0x25e7c9d44fe2ba5f, 0xb9312d0e6808f527, 0x83986db57eb6b3d5, 0x6e1379b21b35d13f, 0xf0e45b609dcc8cfe, 0xa128b9288f313c8, 0xf9346cccb508e94e, 0x422bbd365080f449, 0x46555132625606df, 0x4cf119eb94a2d9dc, 0x66caac87e9b9f79b, 0xe0de8ce1fcf83bf2, 0xe2b694e7e8424749, 0x6325d69e2626b158, 0x1b8e16d6e4441cbf, 0x3aaa531d012e97a2, 0x7387e503172a9361],
     [0x1, 0x6385a55983e51206, 0x9d7a381eb8b8e768])],
   by decide +kernel⟩

theorem POSEIDON2_BABYBEAR_16_PARAMS_script : ∃ ext blocks W certs, Sage.scriptOk Poseidon2Babybear.POSEIDON2_BABYBEAR_16_PARAMS ext blocks W certs = true :=
  ⟨45, 147, 454,
   [([0x59fa80db, 0x4a5e2ef0, 0x1158fb32, 0x734ab7d6, 0x2dbe923c, 0x75e3f86b, 0x3b921c4e, 0x6e3d734c, 0x51addde5, 0x3760b996, 0x1f6d6ee9, 0x5f040dc, 0x289463db, 0x48e624f5, 0x7289123d, 0x394b5f52],
     [0x1, 0x3b0ebcc, 0x682236bf, 0x217d46e0]),
    ([0x737606b6, 0x5dfd1ec, 0x644aff3b, 0x5dd095d0, 0x1f68aff, 0x41a76bc2, 0x62af4183, 0x774254c, 0x6209b33b, 0x2afbdd3, 0x9a48a76, 0x2b4431a1, 0x752143bc, 0x30f51816, 0x20470e0e, 0x69e3ad52],
     [0x1, 0x1574b4db, 0x472caf1c, 0x198e9c68, 0x706f76a1, 0x759968d6]),
    ([0x5f16223b, 0x1966b10e, 0x80425e5, 0xd6065cb, 0x7d15ed3, 0x5e74a1a7, 0x13f0ac1b, 0x7251afbd, 0x1861ef98, 0x71cd09bf, 0x28e5ba1d, 0x7198b7de, 0x52f5f1d7, 0x696df914, 0x689471bd, 0x593f3a64],
     [0x1, 0x581165d5]),
    ([0x5df2e551, 0x4e615bd8, 0xb79def8, 0x21d37b16, 0x6a2a8a10, 0x6243e1b3, 0x1200b417, 0x1fd8a4a9, 0x2aea8332, 0x2b36c4e6, 0x6b6f36d0, 0x9ad781e, 0x3218601a, 0x229c48be, 0xc579f3c, 0x5398c2fe],
     [0x1, 0x5e334da5]),
    ([0x4fd90984, 0x763c01e7, 0x5e295fbc, 0x368a0a67, 0x43f0924, 0x1bf11920, 0x2fae1b6, 0x72c9a4b9, 0x68923705, 0xf542aef, 0x7794a6aa, 0x4494c740, 0x734e402d, 0x3c572a11, 0x6e3c7d74, 0x5be5c0a8],
     [0x1, 0x59543cc1, 0x3832e1fd, 0x4755b1f3, 0x7253c75d]),
    ([0x3de3aeeb, 0x3364da37, 0x73e21a3d, 0x5b95b4df, 0x5a017fba, 0x532496f3, 0x1a61f77f, 0x173833ab, 0x36800e94, 0x2e08dde, 0x44ae8b0e, 0x39e8e9e2, 0x1d90fc24, 0x1746a39d, 0x12f7a3f0, 0x4a77da72],
     [0x1, 0x31ea7d3]),
    ([0x7014966e, 0x6e8a0e91, 0x171574c5, 0x1b9af45b, 0x249f4efa, 0x71255005, 0x101f5916, 0x32e16cb7, 0x607b661c, 0x3f3542a6, 0x77fba5d5, 0x59ccd121, 0x59dba255, 0x448275a2, 0x3d375a8b, 0x6eea5854],
     [0x1, 0x6f86c135, 0x62035fdf]),
    ([0x173ec6bd, 0xc10f9fe, 0x474901d4, 0x34385a35, 0x475320eb, 0x2d63346a, 0x4cbe8ff3, 0x1a9034fd, 0x7a27145, 0x41e9549c, 0x6b29cfe0, 0x6dda5771, 0xa4da93a, 0x5912c92f, 0x5a03c826, 0xfad2bd],
     [0x1, 0x1e3a40f8]),
    ([0x16876cd7, 0x42ac9877, 0x5ef38b83, 0x1b3e2930, 0x6d93bc07, 0x5bb43b75, 0x53d3e149, 0xe547da3, 0x3ac92c5b, 0x47f43072, 0x18698df3, 0x9ccdf16, 0x62d3cce4, 0x39182640, 0x52fcc636, 0x7bf6178],
     [0x1, 0x3303791f, 0x753c3e27, 0x43da6934, 0x51857066, 0x342de317, 0x1c6a7ff, 0x14a85e93, 0x4abf37db]),
    ([0x614a560e, 0xd7de287, 0x421507c8, 0x4a4fb3b9, 0x2a6cd617, 0x12a9389b, 0x4ceaa127, 0x57b24e8a, 0x27c4f923, 0x2b53ded4, 0x45cd9716, 0x3736dcf3, 0x3339694c, 0x2d72adad, 0x7191384a, 0x661913f2],
     [0x1, 0x2983928d, 0x6b58fc57, 0x5d462620, 0x74e8d436, 0x1051bc01, 0x40649914]),
    ([0x44f5a391, 0xa105645, 0x63ea1038, 0x1b79d2a3, 0x69da4396, 0x6cd29de1, 0x33694163, 0x3e7c5c3f, 0x5449571a, 0x1cef89b, 0x664fd8d2, 0x514f3bc4, 0x3bf5dc29, 0x5a702704, 0x3961ca6c, 0x713a2181],
     [0x1, 0x5e5b1855, 0x6ccdf793]),
    ([0x12740a75, 0x657b7d86, 0x46d33e57, 0x4880e01d, 0x56103572, 0x5cf9e385, 0x61ddba28, 0x64f37ec9, 0x97b4bb5, 0x41a936d9, 0x4e7f2a02, 0x6f724899, 0x69aba8c, 0xc5356ba, 0x62c8baee, 0x6a923372],
     [0x1, 0x6d7bbdcd]),
    ([0x2059a7b6, 0x26d2ef3d, 0x60dd761b, 0x7103b016, 0x26f880a1, 0x705f068b, 0x20f471fa, 0x6cb1a412, 0x2be47d09, 0x204f27d, 0x61ca8b50, 0x4389127c, 0x72ee072d, 0x43e428f7, 0x61c9f342, 0x74a595a2],
     [0x1, 0x58a01057, 0x37d695f4]),
    ([0x4665b155, 0x2572d71f, 0x361eba40, 0x650bec6f, 0x18132c1e, 0x6cb57857, 0x675ee8e6, 0x124c3bc0, 0x6dce3e95, 0x69529059, 0x68ac61b6, 0xf2c4fb5, 0xfe31161, 0x72c9d893, 0x318258f1, 0x2654f56d],
     [0x1, 0x5384d79b, 0x4b7cb4f9, 0x4250cc3f, 0x3a4a292f, 0x4770259f, 0x56ba0bda]),
    ([0x71d7a032, 0x306def7c, 0x700caba, 0x1f5e3454, 0x39372096, 0x7796d7c4, 0x6592268a, 0x43434067, 0x7029c169, 0x1612b845, 0x6a812f75, 0x6b97353d, 0x28d8c2d2, 0x1e7611eb, 0x209a3335, 0x31189216],
     [0x1, 0x611c405a]),
    ([0x3c829347, 0x74a5cc6c, 0x4fa9fae6, 0x7354098f, 0x325dfd22, 0x74385ab0, 0x2086a65c, 0x533d954b, 0x60fe9a00, 0x1ce4421c, 0x4d5a38b9, 0x2d6233fe, 0x6f972526, 0x474d95ea, 0x33f05190, 0x180f1eff],
     [0x1, 0x52acdd5d, 0x72313185, 0x2115ec3b]),
    ([0x4a3454ae, 0x6227d1d1, 0x37a98097, 0x43fb89ce, 0x38500485, 0x177187a7, 0x62b40432, 0x2673079c, 0x2f72860, 0x44a2d39c, 0x22b932aa, 0x14b6d145, 0x162a7503, 0x45e676c5, 0x56f4c0b5, 0xc092092],
     [0x1, 0x3b314cdb, 0x63ec8a8a, 0x5d236803]),
    ([0x5b078c3c, 0x244b3516, 0xba92ecb, 0x8bbde24, 0x770e2b45, 0x56097af8, 0x54cafd0a, 0x5829ab78, 0x18a9fb7a, 0x1852b2b5, 0x73f302, 0x5edb243c, 0x68ed19f8, 0x3370e4b7, 0x5dbcee64, 0xe26e367],
     [0x1, 0x2f67466f, 0x3ac1b67c, 0x457c775f, 0x75e6e498])],
   by decide +kernel⟩

theorem POSEIDON2_BABYBEAR_24_PARAMS_script : ∃ ext blocks W certs, Sage.scriptOk Poseidon2Babybear.POSEIDON2_BABYBEAR_24_PARAMS ext blocks W certs = true :=
  ⟨44, 114, 347,
   [([0x28ae8515, 0xabd1942, 0x408212b3, 0xcf4793d, 0x2010fb3f, 0x537896d1, 0x495e4d15, 0x23236fd7, 0x78e3e8c, 0x67bc1dd2, 0x4a59cd0c, 0x11057ea0, 0x525692db, 0x3ba88613, 0x36639b1a, 0x299c0c9d, 0x5bac8066, 0x32446f01, 0x46c5e45, 0x43744f9e, 0x6e15b92a, 0x77d295c9, 0x168923b3, 0x60c1a0f4],
     [0x1, 0x46a7e0ed, 0x48936ae9]),
    ([0x4426557e, 0x27d9ce8a, 0x667a8cca, 0x47ca05a3, 0x2477def7, 0x16e0aca6, 0x68744396, 0x46a02d41, 0x59fbafda, 0x7181b253, 0x6758f2c6, 0x425c4e88, 0x61d5fb68, 0x73934320, 0x4ea16997, 0x562c3465, 0x366d41d4, 0xd24e2fa, 0x3f302310, 0x220a9c99, 0x3616764e, 0x4f6d60a7, 0x39b09c3f, 0x14badd4],
     [0x1, 0x59f6684f, 0x75c08179, 0x66932a19, 0x20fdca31, 0x1dbf68b0, 0x3fc52314, 0x76a1f7fe, 0x2ad0d12c]),
    ([0x5f72fccc, 0x2aea5be, 0x73ba7310, 0x5b8fe410, 0x47d15e32, 0x3a506249, 0x28cf437f, 0x5b58eb9f, 0x698745b, 0x75ed5d6b, 0x1aa3e68a, 0x3bddbb34, 0x4dde9fa6, 0x5ea9c229, 0x33354f0c, 0x550547ad, 0x454310a2, 0x6f5a523a, 0x4d8ae972, 0x4871f6d5, 0x2438e14c, 0x7792c8a7, 0xa8ff58a, 0x929941c],
     [0x1, 0x153c0be9]),
    ([0x4146245e, 0x3971768d, 0x4baa9a9c, 0x145a75e7, 0x12cb99f2, 0x5e4f722f, 0x1396fdc0, 0x7238e405, 0x6e3da67, 0x41c00814, 0x1a1b86f1, 0x27955c5c, 0x57f0682, 0x41257ea5, 0x6d56fc2e, 0x1037dbed, 0x70586822, 0x2b9c130f, 0x54b9060c, 0x4a6964f, 0x6fa0d3f8, 0x75f7cafd, 0x441c78e1, 0x6241d231],
     [0x1, 0x2cd84750, 0x2e4803ba, 0x6d95edc0])],
   by decide +kernel⟩

theorem POSEIDON2_BLS_2_PARAMS_script : ∃ ext blocks W certs, Sage.scriptOk Poseidon2Bls12.POSEIDON2_BLS_2_PARAMS ext blocks W certs = true :=
  ⟨47, 199, 75,
   [],
   by decide +kernel⟩

theorem POSEIDON2_BLS_3_PARAMS_script : ∃ ext blocks W certs, Sage.scriptOk Poseidon2Bls12.POSEIDON2_BLS_3_PARAMS ext blocks W certs = true :=
  ⟨49, 251, 94,
   [],
   by decide +kernel⟩

theorem POSEIDON2_BLS_4_PARAMS_script : ∃ ext blocks W certs, Sage.scriptOk Poseidon2Bls12.POSEIDON2_BLS_4_PARAMS ext blocks W certs = true :=
  ⟨49, 276, 104,
   [],
   by decide +kernel⟩

theorem POSEIDON2_BLS_8_PARAMS_script : ∃ ext blocks W certs, Sage.scriptOk Poseidon2Bls12.POSEIDON2_BLS_8_PARAMS ext blocks W certs = true :=
  ⟨54, 545, 205,
   [([0x658459f8a17640d3160ab5526ff543184e110f5560495a02628d0e5109f98f10, 0x89f15399997a75d7f82acc4de204d8cafa853b75f6e11e602af13aff41e2d21, 0x6df6719452e34209f82748cef69648ed88f0b511ac18b9d9f3fa4dbafdd620c2, 0x3c60e7b52cbed0d31690faed715d077308de5f701792077a5ebbd958e34f878b, 0x66ba4b0dd7e289dfe2fc3c1b84043cd0bd4919b04de1ed8010e834f72657423c, 0x100db9be122cb583a270ffbcf0d703b785afbacafd08f03c7fff09995a9f6d29, 0x2dfce8a48eeae5e0b0c5a4e63ec6294c2a60d055e492cd89d89cdfd7aa653d52, 0x3fa339e83c6a47a1750ac41f85ddcca81ccb14c9ad81bcbf0ba10b985ac5b0d6],
     [0x1, 0xdd9f4ffd71a0335e0bdf02f9bf6777df4cc4e1c4dd927853293d3de25a59149, 0xfa4657de941a85feab6d0954540388a41fbd07a74801b5294c9303d851b7f2a, 0x6c597f48bdc4765de751f29088452fb24e94832ebcd9687560b78376089b9e69]),
    ([0x42e645adb003ef3377e8cfbfcd5299b1e4d9a7dce5f5d302b0661c729482a7ac, 0xa20699968a0b738e879406c6d9aae08d5a0673abf123121d3eb946367674fec, 0x51a8e1e29123478d8cdd8a4a9c586897363f5f4ebc747b8c6bbaeff41c1d3c7d, 0x3ef39223af66d02dbe1c2d2d941f8af15f96b0d37d98422eabf5d6da79869380, 0x1d2aee21e57b4778a6d5a1d8e273c6697aacb29efa761411e2b4e1f38ba7e3d1, 0x2d0f9dac67eb8862e3af3b265592df7f5bbfd1aa6bc5eb68e77d238631cee5b, 0x27676cd785dccedb2fec262c3b0710587d84c49486aba8d585560d7ce9cde329, 0x12437a02ff782d604c1f362ff2cc34c74f1abd2673707cebfdf4c891e5e37308],
     [0x1, 0xa181ed57e03833dd026ca444cc261cbf938a0a48ca2f975d071a7fd3ec8c4b2]),
    ([0x55afaed306888c5ca36d6902c904136742398869cd963ad8e22a45b4d449ffdd, 0x1f92c90d3f008f5a62b79105f9399b21c61271644a40a59e5c6d01e0bba9e2, 0x33866f7c2c86e383c04788a89143b47bb3383f948d26b821e7c02e585bc3209a, 0x3887aebf062d6dfa0d581cf734569038f4a0fb2473e60096549f02b7676b9f39, 0x37b06cace47bdcdcfec743eea4a68342ae0826cbebc7793106ab24c281472352, 0x33b37fdaf5dcefc3a09bb2b2b7f73f2791eede805f9c16d3d303cce645e1d5b0, 0x18f97288674ddc5123dfae38049dd70f94b691eae43ac2e672551d5197808aa9, 0x6f937b9c6662d77586895e0276ae774dcc443db69edc90f6f0e64e67470c0121],
     [0x1, 0x1f0bbe15482753038b732fc981d7460cc8274c191fb67addc9fa340f0a70846c, 0xf12c096ec405df84e416dd8b85e09fc82de992f15d67f59715229e0dd2ba4a1]),
    ([0x6d17632cb51c2ad16ff1fcd2d450f8b8564dbb6e15938b69eef5a2ea243b9906, 0x1b28dd200ff0e2b9fe6fcd3a9f165f9bb63d91fb4acf2894eb5ee926475a62e9, 0x2184a5643322e4cec532f1c8ee2a73993f243c32c746ea692a60750027233a45, 0x2c94ea5b04de553f49082787d74cb0b8c9ef89a0e75d1ec5d77e7cadbcbb8973, 0x4f88e640246463f1a647b7134ce35e755f71b9742d0e89bbf6fd4843a4445b6e, 0x1d6e963465f8694a0a11fb35dd760e903baa81800bd7034545040197992cb457, 0x5782c9bbf450abb5cf27ce199243a9a70728126c2e207d662549bb52f96d0f85, 0x2720ecd0098b5309a79d1d9dde60d699b9f7dbe753ee14f7bae3a949d7c70e5],
     [0x1, 0x31e538a3e8cbd607db82f4e1a44363fad8bf1b1306ace7ffb852274820b44a64]),
    ([0x632265b74154dfbb4d081ea968f262de37452bac36fcefe1aea584e00f1f3bc4, 0x6a03d83629adddadb020bd268709cbc3b2a81f6d8b610144115531dba70944cb, 0x3840ebdac995b8534ec7a31a2643ed812595340330af7dc7ff75d56da847c9f6, 0x29ad9ac76c5c0a2661788be74edad112361a79e6b0a17144ff74998eeb6e702c, 0x51f74c95707fbe4ee75f9f78ce4d1a1f303dcbf7860a28c8f850387aaa71f269, 0x649df311a749fc97c3b9f6260343808c2d6aac4a7bb00136e2f602851c62b906, 0x10e9bbd6f85203e427a32ddc89715ea86f459dd530edb27ba45cdf66a8d837e9, 0x7388889a2e6f90f870e6a2bbf2d91752b2544a557ba1ff14f2ed03364f06742e],
     [0x1, 0x8f21dd9e4861e68c9a09a6cd72bb63f8d2a2fb7f36da788462cdf00cf4e5a24, 0x1330f77668d0edc9bd94fea40d26cf46bf62d39a7e4cc68e440e7a7d6a8c8937, 0x51a008dd1d94f013ff851f4b4b813f9bd974c8325ac6fed7db9e53df2c3d4ba1]),
    ([0x210ece0a0e5f741e1fd7d95d4a752d3711d74839c9ad5a6ae0230c30fe7f9af3, 0x38897f9f1817a785dbf9b0f004577b5e325b4d6d0e7167a9761ae7a0a2d533d9, 0x260a74b2eff703ed92d3d0dca688b10310d6920aa5988adad5dadb09a516f593, 0x4a097b3fa78a31ee05a812852bc8fe0f591e1bed6f251abe2944ab8b6934473c, 0xf6f6341940bbce654f9d47f7f4851bb826b6e3745d1c29ee9dd65bb00d4887, 0x6906e674a9fcefa2dcabf8d2bd5594c60f19d15e8bafa0b3a79d0e6e76b2ebff, 0x12cf9ad64393c4db36b8676b8a1c6e7afca0bd6eeff53eddbb6e853b86937cfa, 0x712118682493ec468b6a6d498e5e8e24f0ad956c157b388578464104c44a34c5],
     [0x1, 0x316431071265e6e7d187808deb92e47bb6cf9288208bc83e28e1618dd57d96d3, 0x5ae858e42358fafdb57de182ae176d408567c5d17b3876b6aa4c6985ec81ceff, 0xa1ce6266a5036a30d9c65c6c7ce315f387cdb4974074e9266701f4612c82245, 0x4c195b8adac8bab300bc6190bd0a312631f526174ea991486156eafb1eff60c6]),
    ([0x15f3effb77615f84ff3be61b34d5175e8d0775671617ff6177516cd50fb2471d, 0x204bd38343b60c94b890191c6300a2fcdafbdbae8df4b54e3e5ef23040fab03e, 0x22cca8a1eb60e12b8d1d98a4beba6dc5748b614424c7289f69622976a6f0e4ec, 0x330ecdaa04ee7c738b69e94a403d6508b385b294965294722b394b498033e3c0, 0x5a1b36e4abf4c90b0edf4f77c0e7341af4cdac2dab88882e922eeb6f278f4876, 0x2cd145d016879ab4f8ff4cf13af02240cc5a5458cbd65afc4ac89b70b4be162e, 0x47517c2978c5b6f81ebd923bbb6755d8d1fe41f2673c6c3dd4ccc392fd13047a, 0x549e12862f2c5385f57c5ea8420fa057d1514c409b3993591a7158a6e0dbf545],
     [0x1, 0x2e6c7da3def7a3e5f5498f4762d0f74a7eaaa4d82c8d21900789e8f61e883e43, 0x1c9ed14c91ceaac66a459f65cdea016f1508518697efe4a0cb465c25c46d812]),
    ([0x7b72235926641c906502dbfb84b598b4e549ea952772d81583829e98af0e061, 0x53024e526c2eceb855d64b55bdf3acd3560c2c3e6944150779cfa7c05e048155, 0x4cc2c4d6fbdf8111d52a2ed5751e89c088eb6557d4c8323f99b92a64168705f3, 0x6c9521318eef767e1f68a533f6378918b1d8d69434aea3bc84a9412a6eb9fa18, 0x49fdeac9669eb408e16e6f7401159086a9069522b27832c4165117c7ad952ed5, 0x1ba8c5de55d42cf9f3a883d7b1664ca6d009c2a948cb56b65ea4668e3852d9b, 0x5f6402b626a39d5a9fe5d461159891169d1fda2244b284b3f68fa65d78e1715b, 0x3ab3f5685014bc00d07a1441689f008f948690f28fee08b09317f1aa010dbefe],
     [0x1, 0x2d64b83b02bb5d4190ddce1d5078a816bebf664df80aabf0bb09fc4bcfe03012])],
   by decide +kernel⟩

theorem POSEIDON2_BN256_PARAMS_script : ∃ ext blocks W certs, Sage.scriptOk Poseidon2Bn256.POSEIDON2_BN256_PARAMS ext blocks W certs = true :=
  ⟨49, 264, 100,
   [],
   by decide +kernel⟩

theorem POSEIDON2_PALLAS_3_PARAMS_script : ∃ ext blocks W certs, Sage.scriptOk Poseidon2Pallas.POSEIDON2_PALLAS_3_PARAMS ext blocks W certs = true :=
  ⟨53, 472, 177,
   [],
   by decide +kernel⟩

theorem POSEIDON2_PALLAS_4_PARAMS_script : ∃ ext blocks W certs, Sage.scriptOk Poseidon2Pallas.POSEIDON2_PALLAS_4_PARAMS ext blocks W certs = true :=
  ⟨53, 449, 170,
   [],
   by decide +kernel⟩

theorem POSEIDON2_PALLAS_8_PARAMS_script : ∃ ext blocks W certs, Sage.scriptOk Poseidon2Pallas.POSEIDON2_PALLAS_8_PARAMS ext blocks W certs = true :=
  ⟨57, 803, 302,
   [([0x398cb864c194448576392406b748ce23f3ea4c09605740b319b79af3f0cce5c0, 0x550f2cd84a99f6e6fcce4c3729cad554851584f60fb881a36b1444381087d86, 0x396d5df8c8d806a7697df00d3709508ff5aaad74985e9e13fba40ecc8437c107, 0x30d762c935d4b85fed3d04115b488389e09a99e6e79d81787f5329d9acf72586, 0x1ca92dc9269cc6a6f53c50a84dbfa9a6d35778abc889133ddcca8ae65c738039, 0x1f68d57fa06bb0ea25e7e62e6b7d609a3557a02e248b0ada6bc294fc1965a693, 0x2fd69424f4d9e4925b69462b519672c0c72629b3a4a060d5e37ec2ac20ced808, 0x3e232d2ae378317953ebddaf50769022083c8ae5edec29a61c40fe6a422d090d],
     [0x1, 0x1cafa97ee4dc86c89fb12ef3f763e394087e0cde63482f48000aefcfe533a0c0]),
    ([0x3624481596c1a3c55fed78c5231f94cb4f9bdac42ef2ee28e86b7990a7073732, 0x2eba749c5ce9bc91e61297ab89fc917bd0442af00dd1df028c97d0b244af19d9, 0xac799445e067c71470d4e5f7084daee59f1ba0d988ad57ad5e41beb171fa098, 0x10c6211d2244d243afc58c71b180f51dd268dc2520198d683a156d4e265016d9, 0x11193ef6a4b9c4188ca2e4860dcbc2e90273a55c38a9c3e104b723be07780b4e, 0x2435bb075e64d09df90da0e796358ff5ba5bb178166214a3040248e6e2ff213, 0x1392a1f437ba1c6774807fdb14cbf4362404322be56a17d754f80d422315a715, 0x2e4eb43c51f5cf72634ba730caff3bb610e707cea16b1e3c3fcaffe29866931d],
     [0x1, 0x247249c68222623a5c98c9b545258ede93bd2089adce9654bc5cfe55763cf6cb]),
    ([0xb78cf9a3495e027c58f233608a377835c85527504733a464af84225bebcf265, 0x258a2ed217e05c2651b5501a41cba0bcd667279bf69f1825d6a6b07daea7cafd, 0x3afc99ddfb452b0dc01f688253bbd3984c6e0399b19a52b4f6433be9f26364fe, 0x1e72873e38802a301808999a81a3e15ec4337c7a17353e7e709705d28c3680a9, 0x14a63f2fbbfcd8f39eaf2786978c6613000141d921177e4cd2fff4bca8400d7f, 0x2338f377221a2e2656793b7c6a1f83b6143e79485425337ae453e70fc7822d59, 0x3a1cabd891269e6a2711d5cf0f372bc9280d4c2827f7fb67fc5310cffeb557f2, 0x29a3bd16d5c52019c7fd6bd483e3fb846253a038f9c01fab6a1e13d56d488a0a],
     [0x1, 0x3d9ab63fc2cad5c9505765185a8f115bfc0977485c17bac0efe4163cb169f5c4, 0xf3ff8ba16df5c0837583b310d882b3c316f4100bc43442e0d91a658bdd158eb]),
    ([0x35ae48dff3907aaa06a6a1deea240852c22405c5abb8bbcbe164ad780da127e4, 0x3f12a569be191b2ca58acfdf50c5c1b7b5205c90ade83e55120c9fbfb052b927, 0x2cfebed7dfdbd44cdd1a0965ed6c057eb72a9340eee031419b9098b741799c81, 0x359a7e1e6e3356c518a3a4acd88a0f68f6782f9692310ad9fde7ce5eff445afe, 0x14b80e92a1627708cfd6ea88592ac41bb39370bf7ec3cf8caf091030299281e6, 0x36a8cbee1a9d3513c18f3dccf11c8b7980cec6247b47ffcdcdc5149ac33296e9, 0x1ea24ed81aba041507d8d64daef58ae2452bd5bd862f01272f761f37e450fbe6, 0x23b97ad6045d3d12998dc5b6cbc82f31b791c4c713bfe246279fff5b0bcf0876],
     [0x1, 0xb85241fdb6c0949df35b839875e6424607a56fe817c66a76ba09c9dd83f6186]),
    ([0x170a18d084b8df036eff0331fd8c1e09ba710c3be83f6ab13feea87691ce7f1f, 0x5d1b35745a5d327a4dc1d5f7bcddd0033195fe3fdb2fa9cf048c957af35ee8c, 0xc5fe6c379e8cfe6a4f1895af9c4282db66bcc9ef071d1c260654633879143fc, 0x3380d42a5086278b54c0057f8647ea36eda87d111a348642e436e8bad80b2084, 0x26d06d41536a33c8f3fd9d77c5e41806b41f293699ab3cbc457530626be0cb4b, 0x8e9ad9324ccd88db8d5e91f4e2da043f3b4b1c95e159afa6521c8a836525e5a, 0x2f080e7c7f0925c88f3fca9c2965ec817797dc755dba5b292c36d6b2d0605f88, 0x2354a7bcb3082ebd1d9640d5c0bbf56e8f5ad8903ca2e82ca47585c5b9adde64],
     [0x1, 0x322ac3142eead534bb67df0c06b6adb005e14e02b927580014ecaf05f76c0f69, 0x354fd17288d52b46a20ccdb59cbbadfdd966d80dfb4201408b1132f5499f7ab5]),
    ([0x30f7cc564330969740a410ef5cf70f072bcf6aba86343534b33bff0dfb6f9e9d, 0x2225a0bf5769cc5c88b67ec8d4242c866267b532837ea539403bef94d4b3e50f, 0x2fcf7a1a7683afdf83d2ff955f458822493010a7be378b08854af1263baa062c, 0xa88930bc0637cbce47e62d424e4335e44b526b2cf3bc174e94c813a7cf1cc3, 0x10d5b54c08a988682787ff07efa190672bf20597e287a231d6c9d43fe67c38b0, 0xd8e3c16afa9625cdf9ddb28cffc0b5881c593dbe493011a81627112a774cf91, 0xe3c4b490384bbab03e207ccab65ced5d17fcc3da0ec35c8ba4550b49c0fd92c, 0x18f5cbcff35778b12bb1caae49936bcce183c775aa623b01187416ae7c1f6700],
     [0x1, 0x276cb37d2ea39ed27e40442589c5a30353010ed4cb34651d8049ea49fa1dbb1b, 0x3ba2a6f1d71f1bfb338227458fd72fb32bc1d0ac6622d735ceded049a4c295c4])],
   by decide +kernel⟩

theorem POSEIDON2_VESTA_PARAMS_script : ∃ ext blocks W certs, Sage.scriptOk Poseidon2Vesta.POSEIDON2_VESTA_PARAMS ext blocks W certs = true :=
  ⟨53, 472, 177,
   [],
   by decide +kernel⟩

theorem poseidon2_script (S : Poseidon2Source) (hS : S ∈ poseidon2) :
    ∃ ext blocks W certs, Sage.scriptOk S ext blocks W certs = true := by
  simp only [poseidon2, List.mem_cons, List.not_mem_nil, or_false] at hS
  rcases hS with rfl | rfl | rfl | rfl | rfl | rfl | rfl | rfl | rfl | rfl | rfl | rfl | rfl | rfl | rfl
  · exact POSEIDON2_GOLDILOCKS_8_PARAMS_script
  · exact POSEIDON2_GOLDILOCKS_12_PARAMS_script
  · exact POSEIDON2_GOLDILOCKS_16_PARAMS_script
  · exact POSEIDON2_GOLDILOCKS_20_PARAMS_script
  · exact POSEIDON2_BABYBEAR_16_PARAMS_script
  · exact POSEIDON2_BABYBEAR_24_PARAMS_script
  · exact POSEIDON2_BLS_2_PARAMS_script
  · exact POSEIDON2_BLS_3_PARAMS_script
  · exact POSEIDON2_BLS_4_PARAMS_script
  · exact POSEIDON2_BLS_8_PARAMS_script
  · exact POSEIDON2_BN256_PARAMS_script
  · exact POSEIDON2_PALLAS_3_PARAMS_script
  · exact POSEIDON2_PALLAS_4_PARAMS_script
  · exact POSEIDON2_PALLAS_8_PARAMS_script
  · exact POSEIDON2_VESTA_PARAMS_script

end ZkHash.Instances
