import Verif.Model.Instances

set_option autoImplicit false

/-!
# Tables of `src/poseidon/poseidon_instance_goldilocks.rs`

Generated by `tools/gen_instances.py`.
-/

namespace ZkHash.Instances.PoseidonGoldilocks

set_option maxRecDepth 100000

/-- `MDS8`, `src/poseidon/poseidon_instance_goldilocks.rs` lines 11-84. -/
def MDS8 : List (List Nat) :=
  [[0xe0f94d7cd765c6b6, 0x0d55a73a35e45788, 0xf55f4f1c1d8415d1, 0xfb71f0d333fb34e4, 0x1c5f8b1a9cf63ddb, 0xb219d881268c3ea5, 0x0f1656226fa4ee10, 0x5aebb9c358df42fd],
   [0x2feca044553f715c, 0x5b93a9aa288e570b, 0xb42f02f04a5e1a67, 0x71ee8fd540b25dbb, 0xa52fda13587250fc, 0x44a9c31789ec45fc, 0x1d79d17a2f1e2fe8, 0x4797f524dfbc4e8b],
   [0xf63529db6dc0b672, 0x2250e2e1cf945041, 0x709b539f97eb4dc0, 0x8fe1c55753278638, 0x06bd10f018f6a48e, 0xe047b07f8d2a4e5b, 0x8318f041192dd9c8, 0xeb7f3a81a7ddbd4f],
   [0xa065667fad152c2f, 0x081fd70084fa6e0a, 0xcf748ddc97143dc2, 0x0aba02c726b725b0, 0x41730fe68b0d0440, 0xe44ced765a912afd, 0x7af7d7f200489554, 0xbaa9ef6bd1f5874b],
   [0xd36ea1761f3dd27e, 0xff58e1d6d465da30, 0x6b3ec0f61dc231ac, 0xb63686a56f2edee0, 0x616f5650e3d3f067, 0x634d24cfa4e05f3a, 0x7d3383234f57abfa, 0x5652ea5345a7330a],
   [0x0d035014a4c7da9a, 0x3c554c01dd639f70, 0x0a7b32221475fe11, 0x29786b7cdc6a46ef, 0x37e1aff642125eb5, 0xc17a16c086948a38, 0x91c8aac6802c564d, 0x74b7c82554f02858],
   [0xb18503572ea3b24a, 0xa1647c94aae79e95, 0x29a616219bd7e4bf, 0xac785afe06cb0289, 0xd3e7cddb76c0beea, 0xfa1a68f59fa5da1c, 0xe4fadce8741aa41a, 0xa85dbb3444bf480a],
   [0x4bdb4a636619d243, 0xb173ad8cb21f8041, 0x8ab0416194eb4b65, 0xd95eed1fbb22203a, 0x463688acbc51c5a6, 0x1db8cc48ae7523b4, 0x5c1dde76650e8279, 0xd3dbd272bf01a3d1]]

/-- `RC8`, `src/poseidon/poseidon_instance_goldilocks.rs` lines 86-357. -/
def RC8 : List (List Nat) :=
  [[0x57056152cedf0fe7, 0x44b125d16e93ca85, 0x8e8ea2ff8b7a6d2a, 0xcce7c6cc1468fa13, 0x47f5feb953ce5073, 0xfd8f41d8ee6b700e, 0xe40f59b8db57aeb7, 0x78b572234ff68244],
   [0x926b547a9712ed0b, 0xb1525da069ba226c, 0xf37650e9d8ef46d3, 0x3146518c7738aefc, 0x04aa9f4d916e9e5b, 0xde603b81bb63d21c, 0x8382c29e88cf2c81, 0x50456f59f404cb88],
   [0x44bda4a6711f6ddb, 0xe4c94cbc9e7d15b7, 0x7faec52ce37a8256, 0x7748e71fd7803107, 0x9b6baf83e49be593, 0xd47fe8a5c8b27ed3, 0xfcdf1e28d16392ad, 0x976753b4b516a9ee],
   [0xc16ea705aa7ee467, 0x18183d87f912ebbb, 0x02d3b175b21777fe, 0x98e4c2d93e0aaaef, 0xc31191d90cd41c96, 0x69f8f94595ad453e, 0x1de4127f3e248a2d, 0xbcce9849c99a069c],
   [0x8b8e707932590779, 0x4d7fff707c77890f, 0x7d36116962851777, 0x1dc9f40fbb3146b7, 0x6a235e2d5bef54e0, 0x4d1a9ae6dd337207, 0x46ab49a6009cda1a, 0x78e759e819648587],
   [0xee6e84b7763598a4, 0x0b426bdcaad3050e, 0x1f3cd981be91490e, 0xd54572f7ecf947a1, 0x393c4432d0e86a1e, 0x3f1b43149ef3f4f8, 0x3705f6a66d25dce4, 0x3e809302b3d41471],
   [0x6e50830e082b17f1, 0x711232bf2d77ac38, 0x4235f7d079c78096, 0xab1bbdc696a72a25, 0xdb1ef6f3f7fed243, 0xd21981014e77d809, 0x5b2cb2bd03a18856, 0x8e45a3e4bf30df6c],
   [0x3f9948080379716d, 0x41c2ba50c09d6c70, 0x5c2f57c6f81d2c6b, 0x91cfb3d3b4b04a7a, 0x81327090650355f6, 0x06957eabf4817942, 0x7f08201e9da0e064, 0x7467dfc268e1d6e0],
   [0x38a9992ed589cc80, 0x266a6e035fee9286, 0xd19ebfbf75ffbf79, 0x9f1dc0303ca0acfb, 0x230f2d6a36b23347, 0xde0cdaab08319a52, 0xff9e2984d5f675ba, 0x27a10c5aca2fcf50],
   [0x8982ec2da08deb87, 0x89f9b8d33e98a684, 0x269bcee2edb77b24, 0xcd7fb3f592ab464f, 0x05060bc8d4341e72, 0xa75ab333263a6658, 0x3962fe1b4bb486e7, 0x52160689b78a2fd1],
   [0x9e953026b7be93e6, 0x7215465ca2fa2b5a, 0x458b8385c2107d5b, 0xd86fd0264024aad9, 0x2cb61942ee72b44c, 0x50784c715273f7e7, 0x5fdedb33fa9f3a87, 0x6a4697bec73efb10],
   [0xb47744b651d0a93e, 0x9b133ce9b34f9e24, 0xb2af63941bc5c8d1, 0xa7377cdf898e11ee, 0x022a6e8af3f38e95, 0xd4b6b57ec3cc0a8d, 0xd73929bdd8d1b66b, 0x81eb6a301c25206c],
   [0x0c7f9ff80801a8ed, 0x7a26ac369d2b6d42, 0xe0b8317c071c45d8, 0xfede923925964753, 0xa97836d6da89a463, 0xa5ee4da013de472b, 0xe677204adbfd65bf, 0x3a22524d07758c9f],
   [0xd97c24115d694727, 0x253300c8bcb8a257, 0x1353c0984c181a15, 0xebe483bff324731c, 0x1511ed8fb6844846, 0x53b461511c6ba3a1, 0x21fdeb8122efac83, 0xbb0db2349bc191d4],
   [0x6b4ab5a6fa05727a, 0xd0dff6b2b7431743, 0xd52b20f2e2546daa, 0xfd44d15c2598333a, 0xe93aa689ca1f82b1, 0xfcf18baf99617666, 0x05e145ac14f62606, 0x0ffd185d90368f67],
   [0x692477023da0015b, 0x3aacae49256f4c3a, 0x5918382485b68fe7, 0x3c603fa51f5ddcf3, 0x51bd24c9676f0c84, 0xbd46645f6871643c, 0xa70bae909556881b, 0x0973cdf1fd534f39],
   [0x23f5dc5ef40c635f, 0xd454ee01ff625a5f, 0x649bd02e30734e2d, 0xafe63b1172c383c8, 0xda8a6d4a224ea3b9, 0x938e7e814aac0b6f, 0xd4e3a299d450f03e, 0x98e542e75908c80c],
   [0x7c172f4ac0637345, 0x068bbf5eea717d21, 0x17aae532ad95953a, 0x079fee6318fdacf4, 0x132c35dc67906d22, 0x4be60392c1b57a95, 0xec51e19a49dc4a4e, 0xb8ac48db7c41af33],
   [0x71ad50f9a91de51b, 0x75a74d0ea941a6a8, 0x72a6eb718b6babe7, 0x06bec5a7937f7aa4, 0x8113e4862f68345d, 0xa72c44ea227ee9c7, 0x42210a1f7c406b32, 0xc0760b6236faf43c],
   [0x26d1410a43365117, 0xf8ceb9f950d53940, 0xf628fd2af2b6e5bb, 0xc057934a34308393, 0xf3cc773469d56186, 0x065237420ff7c2bb, 0x5453eb7e3bc08a16, 0x9aff5a4ee199aadc],
   [0x64e829d61e5fa797, 0x7c9588d6c404a8b1, 0x15a0d6c9d7ef0aec, 0x7dd3bdf746a39db2, 0x84aede73cd8bb3af, 0x606fc5ceb97a60c6, 0xcf3c5f62ef49f02f, 0xdfef8f0f1e87bc85],
   [0x48639fc9447f5fd7, 0x504b752b242a66b4, 0xadf53e4f4f743697, 0x845bedb45f513c52, 0x91e707477184e4d1, 0xd6e5ca76b7f56559, 0x755a6089bf66dd30, 0xe602a9a86fecfd8b],
   [0x3ff57e8d1c2d1687, 0x6f43f7917b1c3394, 0x533fb5ae21bf2d04, 0x444dc4db45ebb4c0, 0x2e471c803b72d085, 0x2b53f2c7f50ba37a, 0xa6c07f0bfbe85015, 0x54a214f32cc02d51],
   [0x7b27404b26406739, 0xfc4bef705a7f7dc9, 0xd6dd660d6a9d30a6, 0x40a59c90c7ebe34c, 0x33a78eca623d7bbc, 0xa7c7daa3adb60427, 0xca4bfceeca59dcad, 0x8f7c56e3381710a4],
   [0x569ca673f517e4d1, 0x55970d6132c40df6, 0x454236654b451433, 0xfe684e4a876de175, 0x580a016a208b1f39, 0xd7e9971806ea0c8b, 0xe38d7016c93b40ff, 0x62185e718394a29b],
   [0xf810fb01ebb26cea, 0x21ddc29682b46878, 0xf8ab79b18c09dd5c, 0x76bd4cfc027aaad6, 0x622f038a4b5cd454, 0x77f63fe804886afa, 0xed6c954619819ed3, 0x64d46e1a53bd56bf],
   [0x1851bad534d7b9d0, 0xd0a80f4993519712, 0x867049a072afe789, 0x2ccffd104db57b35, 0x6e1170f9d4efa571, 0xa61eb4ab448fb4c7, 0x7175bbae1d097494, 0x90fb4923de14b485],
   [0xbe9a25abdc7c0b56, 0xc27e243f8582657a, 0x6bbdb9dd602700fa, 0x5b546e6a5c2337df, 0x73f53b99a4056a62, 0xe85369b678eab9dc, 0xee4ddbd911c67cfd, 0x3666de148390a60c],
   [0xc305f73f8e7ed55e, 0x98f6589bb92766fe, 0xed68a166b50e3cd5, 0x7bba85aee4a42e8d, 0xeba72e21d22d3ba2, 0x2df46cf41c763e5a, 0x79ba0ca148458c41, 0x97a5abcddbaf3e6b],
   [0x22f193a7fcc2dfc1, 0x48fc93e221d3c3b3, 0xb1100bbb875c4e32, 0x1384efcf6056a457, 0xd2a77ce00115fd04, 0x523f48a919d6bfa1, 0xb3e11e53c3dd625a, 0x5113945a42f34dfa]]

/-- `MDS12`, `src/poseidon/poseidon_instance_goldilocks.rs` lines 359-516. -/
def MDS12 : List (List Nat) :=
  [[0x5f1d4cecfc89ba7a, 0x0ca24b673d0b08c7, 0x3f26361f21e1fcbc, 0xcf5c4373a541115b, 0x5cfd4a79844e2d2d, 0x1453474d5cb13e6d, 0xe716171e92c48eaa, 0xb2934f5e1251bb28, 0x7851f27525a981a5, 0x418c129224496139, 0x78e1278db390233a, 0x87428e7972077adc],
   [0xf355cf5c82963ea9, 0xe501d0c36086af6c, 0xa8fbc49375afed21, 0x5e0c770aab2dc181, 0x0565d30771c8f650, 0x75879e2cf755ab35, 0x4ea0b28f7f720232, 0x354f5ff594b578de, 0xfe07e7e63168967d, 0x72f3ee829f9eecdd, 0x16c47c647ef962c3, 0x7f8883ef41d15d48],
   [0xdc746c611121b0a5, 0xbe207e8953c33740, 0xffd52c0a8b3bd683, 0x3f76bbf0dba89407, 0x5e9c584ed8d0fe88, 0xa8e125983328e1a1, 0x26b77e514c04bb6f, 0xc14a72c31021b93e, 0x459a2f39d2363e2a, 0x0fb0d121ad9a0ac0, 0xa5a72aa8f9708cc6, 0x91a792606c45522b],
   [0xa81f336c52ebbfdc, 0x5ee3a892bb8fc7cf, 0x8e54ebd12c7db995, 0x4bfaf6dfff080ff9, 0x7f786b2231384856, 0x6e6cef25b53e4622, 0x0bff960556cdc6eb, 0x2225de7bf977bcdb, 0xd55d542052c36f6c, 0xb353c8ed5d3c1ca1, 0x80f58f25e3d496aa, 0x5ec309519ea8d128],
   [0x78ef2b156654ec59, 0xee1db713e6eac806, 0x739f0732db182f33, 0xca399840b6c660e6, 0x690c16859debda66, 0xc1110ae00b83c14b, 0x7fbf03e0ca82e8d8, 0x1833158bdd00eebd, 0x12c904f07f3413f2, 0x93034d0e76b4e611, 0x9e4cfd863fcc1c54, 0x11c9e0b3d24684a6],
   [0xa4d9c440006f11a7, 0x3235b5cda30310ab, 0x6e2599d007138680, 0x65d5baf8b8d40d68, 0x88b301c1d94b4e66, 0x6f1a4e963bc491ba, 0x9c11e953245256f2, 0xbac593f029e280fb, 0x997539053263f791, 0x46e53880101d8820, 0x9484140b7daf89e2, 0x52a39993049722d6],
   [0x17c4da56dce49dd3, 0x7716b33751e53bfd, 0x22e8f8ea831ba6fd, 0xe3a0570dcdd2ca90, 0x2d3fe778771c643c, 0xbcca1c5d0782a03a, 0x56e6eaedecd30fbc, 0x26a6c1cde627d734, 0xb4a1698170840e62, 0x0bde82da81e8f8d8, 0x917c86d06bcfa19a, 0xb293f41a4b4b1012],
   [0x2249f4003f17f288, 0x2d784d863b3f46a8, 0x4c440e95eb101332, 0x7922609f4364e2dc, 0x4388fefe814e14ea, 0xf1694a6c7e2d2e95, 0xd3d4795611ff8c9a, 0xf4421c8faba77924, 0xd37a607a16b67331, 0x6344e9a26ded9e81, 0x73d370cb72f61418, 0x775cd16e8161891d],
   [0xdf4589e1bc7fc4a8, 0x9b891bd586245062, 0xe14673eea6ff8a9f, 0x6ff49d004d7c76aa, 0xa43ba2253950249b, 0x5feb9656feae4095, 0x2d937c6444c12016, 0x7b0a59c6819b0e00, 0x7b5ca76444ccfefe, 0x9b18e4c66878ebba, 0x0d3924431c20793c, 0x8864968b4d01f232],
   [0x9ef08219283a49ac, 0x1146b5e38a000b5f, 0xca7a1184d70d6afc, 0xd51b27ff7dbc5ea7, 0x4bfc15638b5f5e48, 0x418d7966f04d3097, 0x14e6ca4bf05f217d, 0x92de94ea4d4ed93c, 0xf01234a31b1820f3, 0xa7f2afc69e14b27d, 0x562317b78ddbe1d8, 0x9a997f85c6b36924],
   [0xfe93722d1bae4842, 0xd6201e8712a9cf09, 0xe2c45e6ff610544e, 0x4af81416b1190fda, 0xb634a8c606b034dc, 0x9897b99756010c0f, 0x8f7a2c4d9845a939, 0x0690948bd80ee51f, 0x0adb54a45bc118f5, 0x15db3f12b969ec38, 0x43ea1b602c05d022, 0xc7e89ad4f06305eb],
   [0xcf6c422c4f64d877, 0x9bde7b81520b367d, 0x5793f8d971b94824, 0xeb864531bbf9f4f6, 0xbf6a654fa8f12e89, 0xcabf7b051b6c5c34, 0x5ee45fd9b1f39f5d, 0x991ad6d310a919ac, 0xedbb35616accd2ea, 0x10c28d695fdde711, 0xd3e562fdec3f3d6c, 0x555a187be44994c4]]

/-- `RC12`, `src/poseidon/poseidon_instance_goldilocks.rs` lines 518-909. -/
def RC12 : List (List Nat) :=
  [[0xe034a8785fd284a7, 0xe2463f1ea42e1b80, 0x048742e681ae290a, 0xe4af50ade990154c, 0x8b13ffaaf4f78f8a, 0xe3fbead7dccd8d63, 0x631a47705eb92bf8, 0x88fbbb8698548659, 0x74cd2003b0f349c9, 0xe16a3df6764a3f5d, 0x57ce63971a71aaa2, 0xdc1f7fd3e7823051],
   [0xbb8423be34c18d7a, 0xf8bc5a2a0c1b3d6d, 0xf1a01bbd6f7123e5, 0xed960a080f5e348b, 0x1b9c0c1e87e2390e, 0x18c83caf729a613e, 0x671ab9fe037a72c4, 0x508565f67d4c276a, 0x4d2cd8827a482590, 0xa48e11e84dd3500b, 0x825a8c955fc2442b, 0xf573a6ee07cddc68],
   [0x7dd3f19c73a39e0b, 0xcc0f13537a796fa6, 0x1d9006bfaedac57f, 0x4705f69b68b0b7de, 0x5b62bfb718bcc57f, 0x879d821770563827, 0x3da5ccb7f8dff0e3, 0xb49d6a706923fc5b, 0xb6a0babe883a969d, 0x2984f9b055401960, 0xcd3496f05511d79d, 0x4791da5d63854fc5],
   [0xdb7344d0580a39d4, 0x5aedc4dad1de120a, 0x5e1bdc1fb8e1abf0, 0x3904c09a0e46747c, 0xb54a0e23ab85ddcd, 0xc0c3cf05bccbdb3a, 0xb362076a73baf7e9, 0x212c953d81a5d5ba, 0x212d4cc965d898bd, 0xdd44ddd0f41509b9, 0x8931329fa67823c0, 0xc65510f4d2a873be],
   [0xe3ecbb6ba1e16211, 0x70f5b3266792bbb6, 0xe7560e690634757e, 0xafd0202bc7eaf66e, 0x349f4c5871f220fd, 0x3697eb3e31529e0d, 0x7735d5b0622d9900, 0x5f5b58b9cf997668, 0x645534b6548af9d9, 0x4232d29d91a426a8, 0xb987278aed485d35, 0x6dabeef669bb406e],
   [0x35ee78288b749d40, 0x6dcd560f14af0fc3, 0x71ed3dc007ea6383, 0x8b6b51caab7f5b6f, 0xcf2e8cc4181dbfa8, 0xa01d3f1c306f825a, 0xccee646a5d8ddb87, 0x70df6f277cbaffeb, 0x64ec0a6556b8f45c, 0x6f68c9664fda6e37, 0x387356e4516fab6f, 0x35310dce33903e67],
   [0x45f3e5251d30f912, 0x7c97f480ca428f45, 0x74d5874c20b50de2, 0xff1d5b7cee3dc67f, 0xa04d5d5ac0ff3de9, 0x1cefb5eb7d24580e, 0xf685e1bfcc0104ad, 0x6204dd95db22ead4, 0x8265c6c57c73c440, 0x4f708ab0b4e1e382, 0xcfc60c7a52fbffa7, 0x9c0c1951d8910306],
   [0x4d06df27c89819f2, 0x621bdb0e75eca660, 0x343adffd079cee57, 0xa760f0e5debde398, 0xe3110fefd97b188a, 0x0ed6584e6b150297, 0x2b10e625d0d079c0, 0xefa493442057264f, 0xebcfaa7b3f26a2b6, 0xf36bcda28e343e2a, 0xa1183cb63b67aa9e, 0x40f3e415d5e5b0ba],
   [0xc51fc2367eff7b15, 0xe07fe5f3aebc649f, 0xc9cb2be56968e8aa, 0x648600db69078a0e, 0x4e9135ab1256edb9, 0x00382c73435556c2, 0x1d78cafac9150ddf, 0xb8df60ab6215a233, 0xa7a65ba31f8fcd9a, 0x907d436dd964006b, 0x3bdf7fd528633b97, 0x265adb359c0cc0f8],
   [0xf16cfc4034b39614, 0x71f0751b08fa0947, 0x3165eda4b5403a37, 0xca30fc5680467e46, 0x4c743354d37777c5, 0x3d1f0a4e6bba4a09, 0xc0c2e289afa75181, 0x1e4fa2ad948978b7, 0x2a226a127a0bb26a, 0xe61738a70357ce76, 0x965f66eada2905e4, 0xe2560d17d78f997b],
   [0x491135cfb0b193c4, 0x88a7d811ba8c8172, 0x7d41dd29039a1493, 0x0cd9e984523d5ef9, 0xe758a718011f225e, 0xa1b19355c645c206, 0x2b3f098c8ba43f7e, 0xa79ec72dff37d575, 0x7f64bb4c1a7ba443, 0x0e9b008eda4002d2, 0xcf6f77ac16722afa, 0x3fd4c0d74672aebd],
   [0x9b72bf1c1c3d08a9, 0xe4940f84b71e4ac3, 0x61b27b077118bc73, 0x2efd8379b8e661e3, 0x858edcf353df0342, 0x2d9c20affb5c4517, 0x5120143f0695defc, 0x62fc898ae34a5c5c, 0xa3d9560c99123ed3, 0x98fd739d8e7fc934, 0x49c0bad1b2023adf, 0x2bc9cf2aec60ebf6],
   [0x43b995c4ef12dcc6, 0x3c69a9d2d4555790, 0x43fc8b0b247132c0, 0x217b0f6f3b52feff, 0xa10cebbb66f1f5b3, 0xcc81ed1130a2c36e, 0x63da22539da7b97e, 0x8bf756d728bf5553, 0x373ce92bcc4dfab8, 0x2f1720d02fb0b850, 0xa04ad342d9e5071b, 0x4a2758463a4bc975],
   [0x3d95dc5c0aae0025, 0xadaca762a70a4139, 0x19eafc0ac322234c, 0x90f7d010345e3191, 0x8de683caae7e23c6, 0xc8c4de0badedd6a5, 0x2982932ceb559a26, 0xecd9864a9b3046f5, 0xfe26e58fc0fdfc38, 0x34d8ccf408b18b11, 0x305263531bf413e5, 0x9d740626025dc1e2],
   [0x9bb62131c8873ac5, 0x39a2e90839d2b1b5, 0x79b976bd771e389a, 0xdd518ffeb5b209d6, 0xcc0ae5430247d957, 0x69d45a7c309cece9, 0xcab8f84a11dc89c2, 0xa2f298798ac57fd0, 0x31a1581972494aab, 0x3d7247a8bad73c1b, 0xcfd1cf2abfdf8e9d, 0xd2b3f55a53c0f36e],
   [0xc1b5c91f9528675f, 0xaea262169d3ce0d6, 0xcf744aeea9a85186, 0xb14caf9c8e665072, 0x9036fdf0f750c7d7, 0xd50ed0260936689a, 0x67d5900d08a564a7, 0x02ff541f79857b26, 0xc83ad8ef65a5dd34, 0xcd9087f66c8913a6, 0xc81bcc8f049cec68, 0xd04bb2943fdb30ad],
   [0x16e3179444fdc702, 0x16b1d70d695e019e, 0x4ff845a458f34230, 0x766e3f44b85c9dbe, 0x7c4c3acf8514557c, 0x57adabf739fd4da0, 0xc66f77381d247cbc, 0x6e2a4a99a74cfc14, 0xea8d1862edc8f863, 0xc6db4cd97dc665da, 0x949056b5e892bf9a, 0x462fe0ca6f15ab99],
   [0x9adb62723963213e, 0xe6727c5fd42965fc, 0x7fbdd9a508ac0f2d, 0x81fe716d0f7abc16, 0x9576f06f87da27da, 0xfc365eab4c817bc4, 0xfd9ef2ac09e90378, 0xd617a6538caecd71, 0x65b8045fbc97224e, 0xa9d715b7578ad6db, 0xc2dea08b2f8e0fec, 0xb2a75f374961bd18],
   [0xbd384569c776ea85, 0x3830b682c3aaaf39, 0xae0fd86a8479f28a, 0x3af2201bcba3c6c8, 0xc62b22ab3d6edcef, 0xd82a8399ca086539, 0x9a8a1adb11b997e1, 0x62e9c6079f0f4489, 0x5b42e26cad54c3eb, 0x0d23026116e75052, 0x117b3df6a1bcabd3, 0xdc15f849a793f4ff],
   [0xcb55e856cff1a9fc, 0x4f276ed50185804c, 0x9a2a1c18334e8eee, 0x942eae69c7b2ac12, 0x372123fca5367880, 0x7299f05b81f6ab8c, 0xc4b6d222335c0d40, 0x54e175dc9898de82, 0x9a59ed2ff8185bb6, 0xe31cffc4a4d1595c, 0x953ea6a8cf91eb62, 0xd73df50b58e3de87],
   [0xcba164ac5529a437, 0xed86532f13f5a01b, 0x48638620ea9a8cdf, 0xbf39c6d292e61897, 0xcbeafcace75ae54b, 0x9b1c4ba273aef896, 0x34a3fa4e9ea8b222, 0x388497890444f9e4, 0x1ceeb6d09ae44039, 0xc934ed066fc000bd, 0x5420b49b40809695, 0x227bb866b6e43b27],
   [0x023cce4d47323bd5, 0x9bdd445cfb266aa9, 0xba558b69d5e89ac6, 0x45e50280e3d7c220, 0xc7b336bf7db5785e, 0x17c3a2296aa7cabc, 0xe7a055c8663e8ece, 0x7014aeac12a9562a, 0xf1a5396bf65b5aa2, 0x4e6642abd7507fb0, 0x630e0222d5393a15, 0x173af02aa4f69206],
   [0xaf5c39865a5eb017, 0x4ae10acdc3c41602, 0x0058046e6d9df692, 0xa44bff2bee5f1073, 0x944a687060c16827, 0xc43390133b0d7316, 0xd41f77f6bad6185a, 0x9af59b9c3c1d1cfc, 0x3e36dd171e4a675d, 0xc7ba958b07eb9943, 0xc4b47b8808de11c0, 0x001ef692416bc9cd],
   [0xa2fb05ec5711129e, 0x3a2f12f04b368596, 0x44fd1b36bd05ded4, 0xc132a1c940e7efac, 0x0990f606eef60c22, 0xed8ec2a68338a212, 0xbfb310dd70919411, 0xadf2a5d0d908ac0d, 0x6fd5fa590b36a39b, 0xa264d5481bcadb21, 0x2c0452d2bc532534, 0xfa6641a6cf17cc0b],
   [0x6ada4c9390f0eafa, 0x152c1b3439da0ac2, 0x615013a63de9adb0, 0xcd17255ec2e4cb01, 0xba7715fb4a4fadfa, 0xa0ca4b6d43eebdf4, 0xf290b6fed5af6f62, 0xdc0fe55c9e65aa26, 0xbd600ace449304c2, 0x0e53a360f26da9b5, 0x78605b519f96abe6, 0xea7e408734243799],
   [0xf53ac0707eb51726, 0x0336f478469cef21, 0xbc6af9b810b9f89c, 0xb722092616785496, 0xbca7b0ca58c04422, 0xf7870109a513441b, 0x8c71931c2de63eb8, 0xf79815be37e5ce04, 0xeee4e1205eab3d44, 0x52a23d6299839b6c, 0x9fc5362010ac1103, 0x9690d2f4abc80294],
   [0x0481281fb649ab93, 0xf2cd1f90ecede2fc, 0x301c378877734c25, 0xd20b8a3b7d6679d3, 0x33a8b5db96979da3, 0x13034e5c7269d9ef, 0xcfbce2ab85636d0e, 0x3f37a4c42edf4a97, 0xb63fd6ec7ff50302, 0x436b1e86ddc7362a, 0x6a54ae4b5c97b739, 0xf3bd6dd9365f3915],
   [0x4181aca49c9b271e, 0x49d4d7643da6aafb, 0x2036bf0f76786aa0, 0x7a42c4d2c7ae05b7, 0xd5ace3058744be86, 0x181a59418ab1c592, 0x77b67d60a5a07b36, 0x1e7cd334ecbf8178, 0x4c6e85d690a6141e, 0xf4b6a9f1be304bc9, 0x60d3f578fb9c343a, 0xdaac75db3c11fc58],
   [0x0864ae3ba35af1b9, 0xb6bc40765fb2570b, 0xd46b53cbe6a6f811, 0x8429e09e6ac7d398, 0x1ffb73140f60b153, 0x803d688fe62a93f8, 0xb41e9f0d9c051046, 0x098746d28211cd65, 0xe919f936e43f4b3b, 0x690416052f3471f3, 0x656d94333b449fc7, 0xf2b8a970984acf87],
   [0x8a3f96f9ca67752e, 0xce1efcd7a468c992, 0x5a4f3f1df0662069, 0xbece1eb8967e9e42, 0x872f99ff7891f554, 0xfd7cb913022fb888, 0xa4d257eb39902d5d, 0x67c99dfda1508416, 0x50cda61566da959e, 0xec462bbe31e2c852, 0x2569ce8db808f43c, 0x679a9dfdcf0fccb4]]

/-- `MDS16`, `src/poseidon/poseidon_instance_goldilocks.rs` lines 911-1184. -/
def MDS16 : List (List Nat) :=
  [[0xd1f72c94cc38baf8, 0x7b9e20d05536a134, 0x2e92d4ee40d4f6c8, 0x0a6df8304c4de7cf, 0xccf70b5c865b43bb, 0x787ab84e1263a290, 0x1d50d467d0f5b9aa, 0x58cbef8ffd65acde, 0x0dea77d8dd449182, 0x5eda51ef02d2b21a, 0x492039ed145f0cd8, 0x59a4fb63f3e664f9, 0xaa8ea2676c72e406, 0x9e154b4c8d76cfd9, 0x2807bfc7d27be022, 0x2d25215689be2b19],
   [0xcd297db5504340d8, 0xdf3fa36c2adc3362, 0x0cf6358eea36e7a0, 0x4cab8980f5a85fd8, 0xb31dfa180c787aad, 0x564aaa9121325cc6, 0x98616ba874ee1aff, 0x04c67661b89943a5, 0xe277630ad99e5872, 0x7924d20fc05e2fcd, 0x347efef6f0f56085, 0xaf65451e463d129b, 0x41b4d27e56d1e23a, 0x02a6d4d5d1046a0d, 0x1a16b42008443b2e, 0xf54f3d895f2ce505],
   [0x27964c37cef643d7, 0x65975ef102914d08, 0x12f9ca8708b5fab0, 0x5c51d4430ceec970, 0x646c7fbf68422612, 0x50b0681028d3fe78, 0x805ef6956438be6d, 0x298ea5dae2773292, 0x6ca8264c7b1b7e6d, 0x30e01cc9147a2d19, 0xee9beff843321f54, 0x943c50770d390bd7, 0xd9978166df59a162, 0xab4edc98711a172b, 0xceaa0f735083bcaa, 0x9419e491b4f7bd61],
   [0x46081611685b6f7a, 0x86c94214d3fe7e48, 0x415be49e0ab81705, 0xc0a09b1603f8570e, 0x5fb23ce32358a134, 0xcd73d8ad6b467a95, 0x90e9d8a8c9f18da5, 0xb999b5448ca6b939, 0x8384ee1bb9db6b3a, 0x16a667b8a4df7ea7, 0x29ed2d2af08096a1, 0x58c2fcbe2ed395ea, 0xf6ad06966b3eea7b, 0x4ebb81a2fcf4c876, 0x3a217f10a9d3fa19, 0x4e731cb0dfff8913],
   [0x01ca6125b505c736, 0x231600bd6c8c4839, 0x7d2960c8f3480dbc, 0xbb484bcccd7956a1, 0xf3f8063f399628f7, 0xb4b2258df84c9d3b, 0xef4cdc141c2db20c, 0xb6dd585a8b20129f, 0x0e59e8cbf20ce890, 0x3764c40406933776, 0xf645c43797a60b70, 0x5bb78d28713f21d7, 0xb725df332d753981, 0xb5023485e7731efa, 0x4461877fe4a4052e, 0x1b3ea242d9411170],
   [0xba533d5ecd1ba827, 0x96c7402d6c49bd60, 0x4550f909a264b599, 0x89f00eaf4e84ec38, 0x5e6e3d487906c8f5, 0xf173eb8791f13393, 0x38eb042903697ec7, 0x3dcd521766030a35, 0x4e7242f2e2590ced, 0xbcde2b17c6465f55, 0xa419b8edb51b6e4f, 0xa3ef8c7d6e68b1e1, 0xfefec1d78dcb8cfc, 0xfe175fbf8b5df0c5, 0x667e57935a45dbe1, 0x0ebd7ace9c8d4ee9],
   [0x773e50c25d3819c1, 0x45c85c224565241a, 0x64a03a2eef9ebf43, 0x4a02400f4b167ddd, 0x2f417842ac9ed456, 0x249949b1eefff202, 0x80243cf4c47eafb9, 0x18037a034a4c95cf, 0xacbefccaade70854, 0x66cf8aa07d35a1ce, 0x846d3408b710d4ba, 0x04aa48cee2a78a82, 0x6ef3e866d8dc086e, 0xcfcb1a3e3159959b, 0x59c94e1f3fec63ed, 0x862975f11117ac97],
   [0xa9c0df03d0096889, 0x125667a6e22bd90b, 0x6b758e10eaf466e1, 0x8303385b88d09832, 0xf27c4b1152bf6303, 0x260aa1dd16bd7a29, 0xccb3ee8963585ef3, 0xc91ea670d0764254, 0x832d87939f7a730f, 0xaabeb1c3b49d188a, 0x68dd8c924da85779, 0x2d7a73409dc5af2c, 0x4ad4dc809209a3aa, 0x7a790e95a29937f6, 0x9bc2517fc5470b20, 0x455d3ef557aec75d],
   [0x8c09b790b9924cdb, 0x6c142ef227480b6c, 0xa85307823bc738dc, 0x14e8f203e95e96dc, 0xa5e48f036434be29, 0xc783a1f3687d21f3, 0x78a7e06af0895d88, 0xb6a88527428a3c61, 0x0d4b3ed1059252ba, 0x73771025f87f2ad8, 0x60bec6b717adf983, 0x33bb3588b19d2285, 0xfeaf4100b934b218, 0x4f7a094efa1b9961, 0x3fea7bab3558bea8, 0xefb5a71995aeec28],
   [0x1f5c2be69b275cd3, 0x601ca94ef0f71c07, 0xfb79b43347d994ef, 0x69dc8d4f987b5201, 0x24cc03252eb2374a, 0x8295f9ae5537a22e, 0xf1abcc5b63ef006c, 0xdf51dc4b3828b280, 0x7f092a1158c4dbad, 0x9be76d66d200c117, 0x8a6def8cc4448c56, 0x610b4970582102b2, 0x63c913db43362d19, 0xf81eb47a5a63bdda, 0xc33a17e927948fb3, 0x83002b64bfc2593f],
   [0x1f2af41677d60c99, 0x7a7f8e62a9f41f25, 0x3120870e704735ed, 0x5ff11d9de9ee538c, 0xeb4bf76edbd8d353, 0xac405ef785fd2ab2, 0x5350c2f7aedaedb0, 0xb58f8976af75dbc0, 0x47c1d3783117e45b, 0xdfb5dcfdf4cffce2, 0xa8745c4cf5bc5427, 0xd581d168117b9b6a, 0x91e249fbade53f57, 0x5903a10df9872f0c, 0x562acf2bdba9d7c4, 0xc050686b81c9b093],
   [0x095858d2e32ab71a, 0x19a6a8adfac2ff37, 0xb863bc0e1b8c08e8, 0x1344624c09dec5db, 0x97c5cac341b8e639, 0x90aba2779f256eb4, 0x43f500942d9d35b0, 0x8aef02396eec3c05, 0x68f6492a7d63ec08, 0x4eeb512ae03c9f79, 0xdc24fc149014cdb8, 0x05fe22c8acac87e9, 0xa84c8912b19fa0d5, 0x1f87566955cc3ce4, 0xf89c861696efef5c, 0xce8308124ef615bb],
   [0xaba66ee6849b1d9b, 0x0ae907ae4337583b, 0x27439812305741b7, 0x327c7be21bf7c43c, 0x9035a91ee69f1dc5, 0x65e8945d23073a57, 0x67ddf6c74a06c9ec, 0x7828ed0e343036ca, 0x1c23ec99287d20d1, 0x516080796ce5eee6, 0x41110ae6d505e0f8, 0xe7c4e5644cc872ad, 0xbbb566b9d72a6580, 0x9b45a6ecbcfce6da, 0xde193c9a3137e2d3, 0x8563f8060ecc6704],
   [0x09d4c3e560c472c1, 0xb5917bf411e5081d, 0xc682348ad8800d21, 0xeea1d4e76023f198, 0x66ce6c9d45e93eb6, 0x5d3b80d1db692854, 0x951db9f8008de585, 0x1709f64a6e3ffa56, 0x806d2e0e401ed39f, 0x0d39f78057f53891, 0x1e810566bf1a51a9, 0x796a727fd89f3c9a, 0x64548b2c571f4735, 0x608a1f1a4445891b, 0x425a98690e5162a1, 0xef4deb7bd3c5f4a6],
   [0xad01626374e71d0b, 0xce02c3a4551b17c1, 0x363476bf74d27362, 0xd54e47ee97df11c7, 0xc6c657c070ccab05, 0xb8f830d6b8b8e627, 0x391b4e14848b3114, 0x41629d3dae56ac1b, 0x1912182a866c5972, 0x19fb91266172d39a, 0xf948468aa17a3aa4, 0x3ee0191096ae9b6a, 0xd09dc7117976d158, 0x1940bfb24dab5d87, 0xbfa79639475d9aa2, 0x260b6e80e416bf11],
   [0x6b61f1c6528ae3fc, 0x233c9299a2acaa4e, 0xde38fd357fa2553b, 0x2d5fa44f52f5a64d, 0x615ca0b34cff4504, 0xf4cf70b9422ae8b6, 0x1f5053c097884f54, 0xd443ca780d5cb4d0, 0x44922fc63b4e271b, 0x5ea7655f6e687f2e, 0xc8b428b75026f3fe, 0x4a8d88511d46fbf9, 0xcc356deef940bd0a, 0x96923b4dcdec7f6e, 0x1121bd7f89966379, 0x1ce32b4b19d1bc4b]]

/-- `RC16`, `src/poseidon/poseidon_instance_goldilocks.rs` lines 1186-1697. -/
def RC16 : List (List Nat) :=
  [[0xd000d63865fc3c79, 0x625e35f2cf528cb4, 0x11980e3aa17243c9, 0xb476ff23fcaa08a7, 0x7f0a1baae2432674, 0x8b56aec89ff6c7e7, 0x01f902395c689674, 0x95947693180687a9, 0x0ccd73f4a379482d, 0xb45fdd2f193b569b, 0xc7b212e43e71e466, 0x819afa4b1b0202a7, 0x9e027d1c2b610a5b, 0x0bfb9ec5c9f9cbb3, 0xeb9bf343723104f9, 0xae766e96252b2656],
   [0xda02515e2766a048, 0xa3921eb2015adc86, 0xa772fe350f22fb8a, 0x1599c6c592074c04, 0x9bc0ba13748156a2, 0x7381f42f653c176f, 0x53723090a31caa25, 0x87d8e85074c15c32, 0xc6ab4bc6b252f73a, 0x3b92c7efe30b6747, 0xf493db4ff9e6e85e, 0xc4a97a9dc5042b58, 0xe68aa5bfb5c0a955, 0xb2e03200ab273d96, 0x61a5a6b113268d0d, 0x03390549d615b9c9],
   [0x1b35cf0dc5a75b2f, 0x6a54080327e421db, 0xb73e75141cf92d5d, 0x6056dc7cefa54d78, 0x1793230346e0b975, 0x4ae6b9aaeb4a2ef5, 0x3b8f29130ae81d15, 0x3a9f434c423184b9, 0x1fc677d3508a5ba4, 0xc9d6a1b47b42e007, 0x195f995cbb31f778, 0xa7aa751c0ebc14c1, 0x3d03884de7132c60, 0x118ee67b4671a434, 0xbd89f76cd3957c0f, 0x6c329e14fa4fd371],
   [0x60b0fbea23b1dab9, 0xf5a23ebfd3ed4e0b, 0x2f215c1ef6f9c458, 0x999cd763f23cbb09, 0x7e4490aa9edd6bea, 0x874fa590705da731, 0x7b37b4ce8014d07c, 0x9f5783038eb65c5b, 0x3f42e10ee1591f11, 0x5e4369eaa49a3821, 0x89ef55a6fb2ade43, 0xb8060860b74f9c2b, 0xde592820e29b4497, 0x8319837cefd566eb, 0xf17ce493f83202ba, 0x8641b85c30af1ead],
   [0xede68830a4f41a8a, 0xcbc8935129b8b3ae, 0xd900f46e0bd9f835, 0x712ffe80a2b5e27f, 0x324ef5191380a966, 0x145c5d1efb4d2f2c, 0x4ece20b46bd9fe3c, 0xbe34c76999632f0c, 0x624e132f90758836, 0xb67609c571435444, 0xc3773930385a9ac1, 0x00b1a16a97029c2c, 0xe8a428ea8a9b1e6f, 0x10a0693ac3ef2379, 0x4fde81dd4f314e52, 0x84055b7abc500fc1],
   [0x88c97ea49cd1ec7a, 0x270c5b0171dd26b5, 0xe09c20585f668e5f, 0xa80c9f432d726ae2, 0xa3729b911e0f1467, 0x213d5fccfd3a0b78, 0xab866543fa3bb04c, 0x3c1d38bdad75eb1f, 0xa9fd54e3ad7aa5fd, 0x4022415a9b729707, 0xe5fd034962bd0ac4, 0x92522922a90ce2a6, 0x113f8176684744ce, 0xe5af7e3cc616d956, 0x7108bc1d7ff8a8e5, 0x3a8d56f1f9f5242f],
   [0x2a2c96094631b171, 0x2ec6427b5b51309f, 0x835f6fe82d4758b5, 0x7197288dfeaef71a, 0x32b138a01cae2583, 0x4eb52e3feefd5729, 0x64e62a868d35ff26, 0x4c26b4dfc666aef4, 0x2ce88776ee6e1224, 0x3d3013b22282ea61, 0x50b2aa4c2399c6a5, 0xa90c33e69e09b9f8, 0x1636915f9dcf0916, 0x73be99bef627a714, 0x3d57ed10a41be33b, 0x7f042ea08b122a39],
   [0xedca7a4351a96798, 0xdaa0a5ada1cc2fb3, 0x9dd60bc727fbc5bc, 0x2791fc8a389e22d2, 0x6c174a7d086ac880, 0x07edb6190c3e67e3, 0x23801a6f49e3e4a6, 0x7c7c7c291a29f9b5, 0x1a277b22cf85d7ac, 0x740738f1673fca96, 0xb15ee3cc44f33f02, 0x3498d0046f49b6e2, 0x94da571222f109a0, 0x2d353bde470ac14a, 0xecaa0c17e8055dbd, 0x5e2454e3ffdb18da],
   [0xd7e3a64fb3264d1d, 0x3052a31719b78a06, 0x59162aadd0b3f312, 0xb64608bd05eb60bd, 0x528a2c6a0617f640, 0x7637880938c26d42, 0x59e4ddbdc0182ec9, 0xd211ed10bac2fdad, 0x586f46c2184d1ac0, 0x78b786eed7815aeb, 0xce0e642f7fb52862, 0x12e626f6958f9565, 0x9493c7055845f65b, 0xd51320190b26e38d, 0x2c508bd722a470ce, 0x009d22a4c29ca249],
   [0xfcfac08baf9e14a1, 0x4cf798aa444a61d5, 0x46126bcd2f7a63d4, 0x9c1e078766e93c7e, 0x50f8748021791216, 0x22efb8d16a77f94f, 0x1712b1704ea7112a, 0x2a73c448ac4d5b65, 0xa45227035bd5affe, 0x79cb39c66ef33806, 0x6c38644bbdc61071, 0xc1f45a7dc1ef3553, 0xa85d74d4bfaf04ae, 0x8e313517a2f79099, 0x8d046211d1b63db9, 0x62f180251d281209],
   [0x06f7994127052ceb, 0x5d13b0a3290b908f, 0x1a0265629c004c38, 0xec280d7b23925d69, 0x1d6299932e9d2a8e, 0xa6a71d56f4d3e367, 0xe6a946e0cc6035f4, 0x6f21374b5568cc25, 0xc1628f13cfb174cb, 0x85eab0c54a183006, 0xe3820623a252e6d8, 0x6275743e5403cd8a, 0x932ce37e88729ab1, 0xa19d9df5d70202de, 0x2836927a604f754d, 0x20d772c204e8f463],
   [0x9f76028c1d55bb04, 0x5dab8100b8fe7988, 0xf6a0e11dcd8e0927, 0x329aafc9e7b5d6e5, 0x57969325de1a0c7f, 0x895e26cae3fc8189, 0xaf2cbe1f27176d3d, 0xd0f214ac99c66006, 0xae5a012a279e87b0, 0x84c1f38ec5f72b38, 0x40abb9d2714ae2e6, 0xef8e1878f1c6384a, 0xa13cabb7d7242b27, 0xac6e771de7832d78, 0x2ae007b1be327246, 0x9422d6b53c7e5968],
   [0x6a44b5f00103941a, 0x3716571d8b74b899, 0xc8410a92f75e94dd, 0x5e1d8cae64000676, 0x329e3d1ee726ecc4, 0xa32101d2a10934bc, 0x35d6181f5343688e, 0xb5f03e3daa363f0b, 0xffecbba4145edc33, 0xcbf46dafd7bf028c, 0x19a58b9ba090596e, 0x117b7413575a04dc, 0x78f1ea355a0c9757, 0x175d101430240370, 0x866209921c858707, 0xe3a2d19bd84ee83c],
   [0xe666636b5a656888, 0xba88d558a74f8fb4, 0x06b71be6eb5229aa, 0xaa5fa7f623becee5, 0x9abeaf9d20bfd330, 0x1f5d71551b536f15, 0xd280fd25f7415f0e, 0x7c7123b195ba9302, 0x75b866c72151e12b, 0xcf32198b0b3aed23, 0x594f7a84cd4ecf83, 0xaa21157cf7799f2b, 0xea66722bf254a1fe, 0xaa53769120658ebe, 0xb8624569a4b334ff, 0x8505d51f73c79848],
   [0xdf4f7401d0b6a2c3, 0x80d2a83296ea3664, 0x330c4da955cb1f46, 0x85c6dc8fe982adc5, 0x4befc2f3efa1469f, 0x130ab7449d2fc4f4, 0x033d5e212dae2e90, 0x7245a72c0414df03, 0x64527ad2a4cfdfdd, 0x3c3599450578e3b6, 0x4c67f97704b01c79, 0xbae39f372f35faca, 0x61a825cd44fc0755, 0x94c954c252ba7cf1, 0xa35da0feaea82507, 0x133270b0034f52fe],
   [0xdb7de91668b5b097, 0x7a0f7aaf33f14eb1, 0xd7385148e3f7c7e6, 0xcc74d169083af284, 0x57e8355765943e59, 0x3d6f0688ede3bbef, 0x481b403b9695cddd, 0xc045c1733f6edd61, 0x3fc632ceac1128fe, 0x449d9de7f5ba20e4, 0xa4d2f22eab5f49c1, 0x50f115112e95049e, 0xeaf3d84652e7d084, 0xc0e466033de73e49, 0xe54dadfeecad7182, 0x598eaa20bfb99a66],
   [0x289dd303b9c88b4b, 0x35db931222f6c425, 0x20e47f82475e0b67, 0xdd535f820a81d525, 0x23f78d0e5348f9ca, 0x0cf985aa2ff98674, 0x34ff2472dc6b00f0, 0x468ccb9a8ee94524, 0xb7f9fc3f817dec38, 0xf0c8233075a61866, 0x46754315ff97b18f, 0x2316fa75cc5add95, 0x8539f2c944bcf6ab, 0x2904619cc6e4b358, 0x3a6153c863ba43c9, 0xac03376516c156e2],
   [0x24746156aca3e66d, 0xee770137e30b7356, 0x223004f75d592e60, 0x185e7caffc050d98, 0xbe891de0a86f5933, 0x655f4f7ba641156c, 0x32b2c57ee017e02e, 0xb5331ca6db1cd369, 0xe724c737bdc7679a, 0xda2a83f15ea92eff, 0x3cfc2fd0a666ec00, 0x9fc3d8eec44f81d1, 0x180b46b5bb846c99, 0xc874bc8e6b4f5e49, 0xe806772184f95539, 0x2f98a307c07fe712],
   [0xf7ad05d2152cc8e0, 0x6184ff1c55623341, 0x7db76fcd1a1ad1cc, 0x420dff7b490b63b7, 0xd3909efd62446633, 0xc0a9626010d9337a, 0x6467e51bf3d4a159, 0xbcd86f8ed95c8029, 0x865395802d298270, 0xe4b1763459e41e22, 0x2da4f5a76bbef23b, 0x42702ba7e249fe76, 0x7b6353f0c4d29929, 0xd7f5676c38479db8, 0x4dc314866efb67ce, 0xe85869cfa847af8f],
   [0xef9f7c17e4a27a79, 0xabaf0627a707a823, 0x09455b5c8396308f, 0x428ba8cbc6f9cf06, 0xbe2c1090485097ca, 0x480a0d60cbaf82ea, 0xcfa057d3fa626482, 0xbc503c07a7e9f5e0, 0xca7975f1df177dab, 0x321e02d20e4e5d65, 0xcb6a32aa135a964e, 0xdaf05df856da4d42, 0xa10051d35e6e3fb9, 0x43718453b12ab383, 0x3c8ab6e656dbe1a3, 0x3ec17f317541ad0d],
   [0xd39b352e9397633e, 0x48bd29d8f9fcd3bc, 0xd748355f24fbe7f1, 0x3368971efcb6436c, 0x0817e09b59a0fc66, 0x24e8a91962876d77, 0xcc60978c7b4c5586, 0x64829552f391bdbb, 0x325bc8ab539a4c27, 0x49693d73a18ac412, 0xe929e1e64a1b95e3, 0x185f85788c07f98d, 0xb50d567c6fdf6e6a, 0x003bf8e721ac8a22, 0x4d92621b9fc818e0, 0x84d1ba59aa24fa2b],
   [0x8d316d60e8e75521, 0x9790a2f7ea30de17, 0x9b63b3ad85ae695c, 0x20759635de34383b, 0xeea73e79557b311d, 0x8ef4cdc3785c65f8, 0x1d431b940d8e1f19, 0xf4bd6f5afecc281c, 0x0d20aa83cbb2ad12, 0x96393ca0afee2d4b, 0x504abb88f6a297c2, 0x0b7bd427f9c766ca, 0x68ef5e0144436ec8, 0x350f612e4415e5a7, 0x583d8c9e3a70d1bd, 0xd507b357f62cfdd8],
   [0x9bfa89d56c7877ff, 0x2ba30d34f15b5823, 0xcb095e5eb639f250, 0xdab5126c8c219a20, 0x319844bf4a41539b, 0xa672f82bba3987c8, 0x4e3d25bd968bb8bb, 0x797add768278b6eb, 0x60bf02d0b26672cf, 0x37934c0e69acd0aa, 0x3d235d313dd8d3f1, 0xc5aa7f9292bea193, 0x09f887b635171f39, 0xd7bd52f89f018158, 0xe72f8221b3820d8e, 0xfd860fd5dc39902d],
   [0xf966a2e631b7d690, 0x42e791fa2be2ccee, 0xc033f72d38b693cd, 0x75f8a5c39e45e8c4, 0xdad9656bfce8c522, 0x987614dd9bc2108b, 0xc50ac80b4fcfbc33, 0x67f6b6ec58df99bf, 0x5cd288a2e6520249, 0x585babb78bc8102c, 0x8762bf9dc5d0a32c, 0xad42efaa96599cf1, 0x69315e582f1b459a, 0xf5d26e5c45bff516, 0xfcf3ae9b915dda37, 0x7813796bc1100358],
   [0xd0ad7352ed016598, 0x9db6bfcdb541fa72, 0xb4d00522f9672c57, 0x232e9f2d10f533c6, 0x05ac8efd78de7c28, 0x80af32d5532d5fed, 0x5577f2d9ea9385b2, 0x228240f230b2f217, 0x5394a71b1fb7aa85, 0x0b5a8ccb396a59db, 0x4ee98f09437f36ba, 0x7cbf7be4c085616c, 0x41c9111fa2784069, 0x5f6ea06b7b76c7d0, 0xcfb5cafb92bc789b, 0x1b2e25ebfb353232],
   [0x0339ad1ec3c545f6, 0x170b3989cd4c901e, 0x05999b936a0d08e8, 0x3f2610d0b9a2b4e7, 0x0eb14b74e61a97e8, 0x23ad4807a8eca40e, 0x4b025b456b647ad5, 0x0629e57b11d67e01, 0x06c032015700129d, 0xb23fc7f77d1765d3, 0x3006b8d5792b4fba, 0x6f1b1cb04a273f8a, 0x40435b1f6d00c098, 0x9d9f1b6a615665e7, 0xc5e16d0e6a022561, 0x0b2a5df381ce2057],
   [0x9c1e3befac8a72b2, 0x1fe72d504d48d602, 0x7ce7659ce3f56c5d, 0x4f29df77a478551d, 0x9fcbc22506d311e7, 0x992289d629af8e66, 0xc12270dc76264177, 0x35f3498c897aba9b, 0x2fcb5c8187b95b2e, 0x5a0ab40452f54c81, 0x8adcd8364189414f, 0x337b35f2c897dff4, 0x232594383801c32f, 0x73489782f5927673, 0xec3e0e552b1f03cb, 0x1646ce1d8e480f26],
   [0x24a68157b9163f07, 0xda9aa874a46c5784, 0x73464771c7aef63c, 0xe42a199798f2362d, 0x96fbd5d1f2a95378, 0x5bbe562687bbfec9, 0x4aaf67815e051ad5, 0xcec0acf60974e6df, 0x46572c4e6561e849, 0x92abbb4ee2ff6bba, 0x4101a993af9e3937, 0x815293a6b6c68a7b, 0x55d02e79935f57d9, 0x977a20d1d1fcdbb0, 0xc333167a6ed8d47f, 0x0b73e784b6252b3c],
   [0x51a1547e569a76d4, 0x73cb6ced73d1a18f, 0xa8fc013106e550c4, 0x59058f7ba21fdda3, 0x4a8c6ea4803fad19, 0xd210726ed054ae7e, 0x53956148027c6d24, 0x99b6d710f2e2c043, 0x25470228a5e271dc, 0x599fcd4e82da008a, 0x04b9379301480533, 0x2fa21f4896602d4c, 0x1c98db53b8a7fdc6, 0xc45156db2011317a, 0x493cf970151760b4, 0xdb69d4da1eee559a],
   [0x6b7f4a6fd72ea156, 0xd52d6bb2cbb87762, 0x2e06388870964f14, 0xeb93e95552706e41, 0xe2f9f82355e40c9d, 0x5ba28e864b42970b, 0xef58359afceeaa09, 0x0ed89ea0a3c649ab, 0x266a4798c1a3c79c, 0x687953b84a72e982, 0x26ce2a01e775ff44, 0xc3ae2291dae70eb9, 0xc455b857b4799ae3, 0xa6729a7261adaa73, 0x1e25f923e13bf80f, 0xadcbf556b2afde5b]]

/-- `MDS20`, `src/poseidon/poseidon_instance_goldilocks.rs` lines 1699-2120. -/
def MDS20 : List (List Nat) :=
  [[0xe20ee5c2654d981f, 0x518174152bab12a0, 0x281bc4a4a2de3e00, 0x90b0f6cae0da1926, 0x38b1839b7638a2bc, 0x54ec04dcbc096558, 0xd33eb141a213cce0, 0x8a484a2b1862d4f5, 0xe032f407201cd062, 0x870e6317b8339a4a, 0x2ce1ae7a8928d264, 0xcd9e09afb4351cf6, 0x48c956fd1250ba8f, 0x88ac92e12742532d, 0x3fb991afb66d427c, 0x0269a68d71720c56, 0xdd51b565ac70e33f, 0xdb14d740b08bbf36, 0x7cc3a28b7c06fa4b, 0x0ef450d56bebf48a],
   [0x0ceb3b278249efbf, 0xbb771c4839efaffb, 0x6b285fe38283bbb9, 0xb8fc67f589fd29ca, 0x8d803efb3ff271c4, 0xa2b8084c4f628ec5, 0x8aa133e515abb782, 0xfdc7d6f5fa3e7987, 0xe96b499e044e824c, 0xc83ba91943ec1875, 0x905ef38045bff728, 0x95af7ff95a95a7bc, 0xc05ac939d9f9f349, 0xa83aa4665d2a3dea, 0x4a1e8e834001972e, 0x3d728b9033d97470, 0xfbfe7cca85b3b75c, 0x080f2da1a30fbead, 0x875200f73196e6c2, 0xd7827fdb46055309],
   [0xebe0b35c6dbe140d, 0x7fd6ab6616bb1bf9, 0x717459d485d98a2e, 0xe5116ba24f65dd01, 0x8d04c1cf01afa122, 0xf40bd92dc7f748fa, 0xea29b69b8fe3bb21, 0xeadcb5aea5dea4bb, 0x4826cb34cbb71d6f, 0xf40fb738afbcc97c, 0x8888d4c4af2b6fc2, 0x674e54a1a362ccb4, 0x32e3f837973d5ba7, 0x59fa8fa72fa83974, 0x0d4226f6e8f4112d, 0xad2847094a7aade7, 0xb6a4b5229bd9d017, 0x06b13180699f85e7, 0xb6b7445f538f152e, 0xccb2069b377ddcfe],
   [0x814b5a240e8b153e, 0x746302a0aa0ad2bc, 0x3929e96b6756353a, 0x7fa42027e0611bfd, 0xb257d6ba7b39c573, 0x517efba54b1c1923, 0xacd00549a88a93e6, 0x5377fa3a29d4c1eb, 0x146c295978bf8ea0, 0x344bfb309bd0b204, 0xb8677bab0a14c312, 0x97e853268ca1c651, 0x46ff8798cf1f5762, 0x987ca1bc1773dfd5, 0xbc9ee7b36a6f15bb, 0x7cbc8c40769552dc, 0x66786b9f1ef83b8d, 0xd1e1a3a1c7a1b495, 0x5fde309c0af01879, 0x4c6fc6acbfcaff9b],
   [0x5929fe3e30df3a13, 0x58a40701953d7ecf, 0x406b59ebecf429cf, 0x4982d5c020f9a506, 0xf2027a297055a1b3, 0xfcb289fa258aabd7, 0x85a7cfda55ab0bf1, 0x7d4f9b12a6f967ff, 0x38490bec54936b2c, 0xd94f9e503ef03a40, 0x37b88607055d4cec, 0x8a7fc712c6116831, 0xd6b9b4fc99a4ac4b, 0x2026711056fcbc76, 0x9651883ef9101097, 0xab956d787fac85ff, 0xa19234a70d3ad948, 0x75e7287e8f16444c, 0x6fd7d292a88f03d2, 0x8eaf78617a79feaf],
   [0xb865ae019c1346fd, 0xd5e79938f71ec956, 0xd21dd339cc65b51d, 0xdeb97e384320b0ff, 0x7051681f247e9f2c, 0x22e8161797d8e4f3, 0x398e2ce0fe9d5167, 0x0b1487b64fd7a870, 0xbe0b3e3ec09150a7, 0x633b61628e35f645, 0x770ae56ef94a032e, 0x4e88ad7314773e9a, 0x728474f8c16e442e, 0xb3321043f6800e83, 0x06da583bbb2654a7, 0xccb97b44ce3b5ada, 0x792654a168963f84, 0x42674eea15035327, 0x5adfdff132b23e06, 0x25f4bc1b91a1a4ce],
   [0xecce5c4c0371478f, 0x7749a4c098d5787d, 0x2d81a0c7957becb3, 0x86e1a8daeef32880, 0x34f16eb0ace67156, 0x44cd0fb268d80f45, 0x2760ce25cffdbb90, 0xe0beda502b21ab0d, 0x27530290e9966989, 0x92e8fb8a3138c3d7, 0x21cbe77e06b5c615, 0x493cbf01ab150b2f, 0x1163dfd3a49229a7, 0xb6653a1f64c8a539, 0x7ce1a5653934f262, 0x444b96c25e1f6570, 0xf58490b9848242ad, 0x725535161c6288c1, 0xada88e4e12d38721, 0x86d97d02dae840b1],
   [0xc9a908289fdca616, 0x12ff7717cb445051, 0x3e685709c41d8c98, 0x0f41272b92a3b5da, 0x59da64ce2f138061, 0x4f52009fc4e61d0a, 0xe0e2ea9b542b9ed9, 0x92dffd5dd3b45f2e, 0xeaba09306d2c1a30, 0x12778f70c9b721b9, 0x3e7c37fc23d48ae1, 0x5c88591cbebc8115, 0x4274de695867ca7e, 0x1063c5c38f1af0a2, 0xd7db78cde81bd49a, 0x48dd97d20e157b12, 0xac9278cb86df622f, 0x42094d2446810c90, 0xe999ad90db75ccd4, 0x1e71630138525965],
   [0x9525b966cea721bc, 0x4b603d00f2dc6644, 0xd858007915f0bad8, 0x2a7d290ec9613069, 0xfb079890a3dd1be7, 0x1913c107059b61a6, 0xc6fd288a876dd4ee, 0xdb9c62469b5e9ef5, 0x9cf84070d111dc6f, 0xedc8957c6ed7c400, 0x45aeeae15e7b030d, 0x269382694ac8dd3c, 0xf00c23b469c2519c, 0xc6c0734764f29e4b, 0xe08ac27af8a3d08d, 0x9cdaf508fd24a7c2, 0x0935ea13ce0dc0dc, 0xd8f29918ca9b9b90, 0xf03003344ca923a6, 0xfb361c8a207ea0cc],
   [0x8d2d1bed00dbaca8, 0x6697c6c37e45c909, 0x25eae0a3d9301463, 0xc359baa32d2dc6ab, 0x1935122bc4596d52, 0x6df62146f11cf63f, 0x44349cd3f4c7abd3, 0x4874855f489d0e64, 0x65269d25f684f3e4, 0x2a92d1533eb120f0, 0xaae7a35483cc8423, 0xf56307bec1cc94ac, 0xf8f7783bdae7f1b1, 0x3f37784d54b8f67b, 0x15323ecd2ff996ea, 0x4dae293ba6ef3ff7, 0x6ed611497f3c5f39, 0xcc79ce692da5480f, 0xa49ed9d637b200a6, 0x4a4e37a35bbb80c5],
   [0xb82da8fadc09722e, 0x1acc35f387a5f90e, 0x5731d08e6fc6b2e7, 0xfe7c3d1da5a27786, 0xc5947c104c217477, 0xa7b021da22497bf9, 0x4de952cec8e048cc, 0xfd6ba9da155cac61, 0xe5b2469ed786b689, 0x8249096163f0bb43, 0x9a0fe3552f309995, 0x58b2cc6057db129a, 0x914fba165abd11f1, 0x807db1e013a20a12, 0xdca0f24faa68bcf3, 0x54f3b00e0ba8e832, 0xa963f5e5a994f065, 0x1a973b222311614d, 0x0b9da0756dc62df4, 0xee930b1f2baef1e0],
   [0x4eb85e70780753eb, 0x753bf2470b34607d, 0xff65c82dbee71189, 0x8234d6874e26bf0b, 0x148a152ea155efba, 0x1d8054f3c5667fee, 0x9dbb7cdff5015ee6, 0xcb832029d3efdee1, 0x036289daf9ffc3c8, 0x5d3eaa1b25a8674c, 0x2429af1681e55681, 0x0ef96fe4fd5480c3, 0xa2ec22ce95dd00b7, 0x1baf48a952da8441, 0xb8c13ac02177108e, 0x2955e7bce2836cda, 0x4fd25b6caeb45318, 0x9ac7b5a7740b6714, 0xb55649023a280520, 0xd4a587de36095f3c],
   [0x0fa5c31e2dfd5090, 0xe23454ecde6d2c28, 0x03e9f4bfdb5dbe20, 0xdea844b0900e4e1a, 0x890e6755eafd8f8b, 0xdbda7af07dca2223, 0x735c78edfa9a88c6, 0x53995bad3238f9b5, 0x4e255f732e930106, 0x48acd3ddf664ee5c, 0x8a7857ff22189606, 0xe996a52e14198362, 0x1ceaca4d5479e108, 0x9b65a03f391c1665, 0xd251e64208d69e4b, 0x6ea87fd5798fb592, 0x2bb5c300d5e6bef8, 0x822c28c84c048f74, 0x4a8ce2033bf58ee5, 0xd9698648ab79db95],
   [0x55d98c22ae08afba, 0x14323b66ef9a3540, 0xa35174222e5c136f, 0xd3a2287e97779a2e, 0xb666a7d72cd2ecce, 0xcb863f33c3062806, 0xae18c5ba869e6f9c, 0x14d2d3baa10f0bfb, 0x6567ad3ec588a95a, 0x7dde49fa34cdc26f, 0x18effa7ffa5dcc41, 0x95c2f94c2f3fa7e6, 0x37b1745e5cc29484, 0x77e49537520a0a11, 0x23fe139583916ef4, 0x79c6fe52cbfa7015, 0xcad0a50614338ec9, 0x6feee8b2b0ad09cf, 0x155b3f3f17be5ff0, 0x472e502dafe51581],
   [0x771c0e4f03f090d4, 0x72c0f6b672b46742, 0x9cb52ff7fecb72c8, 0x4636b524711adb01, 0x6e3caaadeb7ade6b, 0xce697b70473098d2, 0x0e090962d143ff2f, 0xdcc52e52afba0bf9, 0x24f2c535b9cb5cfa, 0xd5f5fe2c9462aadf, 0xab920942763151de, 0xd7ed4fa61a74ecf5, 0xddda0819fede290a, 0x386fec2a07520ae8, 0x2e887a9403f49a86, 0x2a14eeb328ad3ab6, 0x926c7187c1493097, 0x1165c5aa0c9a5d52, 0xb388492b1dacb603, 0xc2696bb18b7f239f],
   [0xa5ba46a402604b4a, 0xd1301db49fa9922e, 0xb96932147c16a69c, 0x1368afe741eb692b, 0x5bb0c69f730cea46, 0xea88e622c8a4ff54, 0x28d3afd211fad741, 0x7b54de491aac878b, 0x163335ba9960bad3, 0x15f7cbe083ba4835, 0x33cb903e8dc4a364, 0xc88e859a7338ec4f, 0x8ca490b846c03e97, 0xc679cb9a58a53fed, 0x655abad740fb0a7e, 0x19728ebea39b1bb0, 0x80a02aecdbc43ae5, 0x7f7dc2f4c1c0fd5b, 0xab0b2662998b4381, 0xe91870876999ee83],
   [0xd3a797047efd9a11, 0xef617a22f3b3c0ea, 0x70cdbcc1f4309512, 0x04485b90457dd6ae, 0x3440f55dd5c784a8, 0x1d128a8fc2b6c46d, 0xff225ba8bf3a500d, 0xb15640280aab0738, 0x9cef42a0d2bd5e29, 0x4430a3c2dda1ae8c, 0xe5d2df0338447c3a, 0xc20dff5d6a36769b, 0xa1434726235fd354, 0x1de859a6260817f4, 0xab2a59e51b50288b, 0x9cbd325d8d82f15f, 0xefa15d476c837b9f, 0x14b2c0623e2268db, 0xd2c8368c9176fd43, 0x3e52cca70618f25f],
   [0x49435d868e20f223, 0xfb4d62d9850850fc, 0x89e30f85e7d29d7d, 0x3f66597c118f2290, 0x1c65cc57d1d72c0f, 0xddb08ae2d0ed40c1, 0x34362bec1b7de7fc, 0xba86d06ffb019fb1, 0x4386e5928b36a732, 0x6bd033bca1ac0991, 0x101a67a76ff9d3a8, 0x0deceb9baeb6b710, 0xed86741d9bb29d68, 0x2c33db61ba683a4b, 0x409ba42642230210, 0x1e27bfbfff63cdfe, 0x9a4329a3ac4a1b3c, 0xb3b8f30a53423dd7, 0xdae36fb1e3b3724b, 0x1976687a292ad837],
   [0xba5676d1fa11b506, 0x187afbfcd9a78cc9, 0x1202741c89f613e9, 0x6c36605c4276ec94, 0xf859c461b9bd0431, 0x93264dc301b3d02c, 0xa1de5bb5b615d6e7, 0xc3b31a6ed078317b, 0x1fc5166e438035f0, 0x6c839e7a4c054188, 0xa589039eb5de3f6b, 0x7c85511e40fdaa4e, 0x685888cffb01e049, 0xfcb4dcf088cc8626, 0xa57cdf1cacf09e75, 0x07fbbe7dbd7102f4, 0xf6c750055eb27d20, 0xdc986ee13bb19379, 0x8f60d029732fc3bd, 0x579f0cb43d98d187],
   [0x9b8043cd47cafc6d, 0x9c238ece97371e15, 0x9d7dc25092653dc0, 0x69aa57e065c0f278, 0xfdbf47c79d4779cc, 0xdaecbea35bf7a302, 0xd9cb34ebc1b11296, 0x2a3e68f05826207e, 0x9b7cb28936b6e2ae, 0x264b44f8f4c26709, 0x995c953fb4775415, 0x0ce8a7dafb5ffb48, 0x8aa4fbe44c1e215f, 0x8a2c7d2ad065f634, 0xfe594429088fede5, 0x6451723ffc89d66f, 0xdf12aadccadf478e, 0x90581c4f4ba58b95, 0x8b7c2ae1e2ad3046, 0xd8a0d1998cbd7a92]]

/-- `RC20`, `src/poseidon/poseidon_instance_goldilocks.rs` lines 2122-2753. -/
def RC20 : List (List Nat) :=
  [[0x6981dad19a1fa023, 0x51440402c8038c8f, 0x726f2a9e56a645aa, 0x6d30607b5295bde9, 0x9ccbfcc05ae67651, 0xbbd3ff26676325d2, 0x42b30def6b8f3cda, 0x6e030c209f46d861, 0x5eacfe6a4c60ea99, 0xf84f85ecb1bd7d9c, 0xbaf56a4fad1aef37, 0x10a7784c3387efca, 0x389c5c8427b99ad3, 0xb1945685cbb5b4ab, 0x1118cda8fbbf444b, 0x2e2c20412df155af, 0x930ef973ce8241c3, 0x7d4bb748f94ec583, 0x1a398ea0df17efce, 0xaee08c2c29c11d61],
   [0xe65bb6f236f6950b, 0xdba9ecb83f901fcc, 0x6d99fb1a54f0f05b, 0xe0c7644d10614494, 0x08777f1bf349e1ea, 0x84b8821cc2b45724, 0xaddbc85a0a30b218, 0xca4206abdfe13f6c, 0xa6b8582a3d144726, 0x756fb643ba710e8b, 0x0b5e6b9ae3bef0f9, 0x73b7f419f0e22bef, 0x58dcef9c1774e191, 0x67500f3f2ae692d1, 0xe2640d1fd2a97b93, 0x60fe3b3a1c8f2e1b, 0xf920dd2ff8a9da98, 0x71e1319e103d4e47, 0x734e6e076c7f470a, 0xa95250e5b49b5f2c],
   [0x384f99ab90678ae5, 0x42fcbfa54d7fea12, 0x0a598f68340dfeda, 0x2d9478a02268f03c, 0x5777afb8ad76b03b, 0xc696ab80736c0ef8, 0x6fb36df17c93ecc1, 0xee8fa09b477dc902, 0x20e1bf3afe5104c1, 0x87982149446abd5d, 0x3c5c54b88fe48060, 0x3dbeb27b5c3a0adc, 0x66a5d5290486955a, 0xee01586e822598b1, 0xf98d7832aebad826, 0x59c3c278d8a3dc91, 0xda5f1fbcd8f67bcd, 0x151a9bb5c667debb, 0x60ed32f420551f44, 0x0ab9270b0b2edd5a],
   [0xa6c8bb848ddb3ab4, 0x07d3c5f11f27f3fa, 0xc2ea2dc436fbd137, 0xc5d2dc6341115453, 0x2b508d8b06d70585, 0x46b6744eb5cffcaa, 0xe4f75059fcb6663a, 0xca6ef10616df9e37, 0x335d580740f25125, 0xa5702d05a2425639, 0xa149506c8d73fc5e, 0x63e9984becaa8022, 0x30646495a7a3fa56, 0x52b1aaea836bd6d0, 0xdd204963cdce4901, 0xb4ec09d655996b1c, 0x8c38212fdb6d6b0d, 0x629bd92d0539ad0a, 0x09fcd570c2b53940, 0x3373bae8b375d056],
   [0x866440bef5e9cd38, 0x1edea195808d554b, 0x5610051a10a46d77, 0xc5f153c78769c8b2, 0x34d77d35a43796e0, 0x7509b1f0360a5b97, 0x1ca9999ccf432805, 0xb4f64d72709ebbd0, 0x9895b26fba394635, 0x0fa930199c5e702d, 0x60e226dff0fa47d0, 0x46a28dea42c2625a, 0xaedf45dfc81ffb75, 0xb103f01fabae41c0, 0x3c422fbb558befa0, 0x97c399bb52883fbe, 0xb0316d7b5cdcfc9c, 0xcbea86380c0525be, 0x4f3cd2816c9330d6, 0x0ba8b2e38ea783b8],
   [0x05a0393d147db966, 0xe615c569613a1aaf, 0x0058e3428d60c47a, 0xe5f71b2b3df39a78, 0x3acf4cad50583619, 0xfde069bad7f13b56, 0x1b27a15dc6595bde, 0xe6bde1b851713e2c, 0xe3d0b1ddf441cda2, 0xacc3675bfea1bb4a, 0x704e6c146656bb95, 0xf75a460cdf578c71, 0x9127686ec5f487a0, 0xa6146e65fd652511, 0xad5387f03299f1d7, 0x8409a605c755bdf5, 0x45447da64b7eb6c6, 0x5408e0a0e4a11a35, 0xeb6df76405e8d9f9, 0x70e522b76795ddd5],
   [0x1aee25ad0cbbf025, 0x596c9da9d2e26f82, 0xe2e0766ab0fb6fcd, 0xb3cc98eae9bd4e9f, 0xa1c2d10d84e23f3d, 0xb79a156feda57843, 0x73a17947dba62795, 0x9c8f7829d166f453, 0x74fed4905fb4a455, 0x6c2cd74e0f0b824b, 0x44e0cc34887e52b4, 0x735207ecee404946, 0x63afcb27ca58b055, 0x02044e83f8deb67f, 0x28f9d98a7f8298d0, 0x99e2fa5af3b1cc71, 0x351989fc6575bcc1, 0x49972db29e3a09f3, 0x883a656acf66e68e, 0x833468b72f4b5368],
   [0xae2c477a23fc5798, 0x645325608657487c, 0xad20d404920ecacd, 0x4c3e83ac02d774eb, 0x361c403678d392aa, 0x86cbe90e58111630, 0xc9dcf4d57ab75cc6, 0x38c1ef3c7de44bb6, 0xbce0e40d72d10742, 0x16717083d26b2e61, 0x206c4bb5f1c8b5a0, 0xd245e84024f84e7f, 0x396a7d3f34b1ca2d, 0xd441cfb86199e0e3, 0x41b9e2baa4c1fa65, 0x0397783d09608549, 0xa2b0a0681254c6cb, 0x126a01d85eca77a7, 0x2f144d0b594c1421, 0x583cec6b0e909128],
   [0xd66864540bdc6b00, 0x8a8a51ed25af17cc, 0xc7c1c8cfb232273b, 0xcdbc7cbd9c8e6661, 0x50221f54709a15cd, 0xad2df053099bc876, 0x854ae71f455b09df, 0x5cad6ab344b8da97, 0x7cc589839c1b86d7, 0x9fe8c273e76f7b89, 0x7bfa7166df42346f, 0x99944921fd8a3739, 0x33ee5ba799a75159, 0xb153a16c15c7623d, 0x04538cc50860152a, 0x4ec2a822cd8920c5, 0xdebb0a35feaa8d42, 0xb237c7cd54261a42, 0x3d7baa39f1db4c33, 0xfd3808a70a7b4e64],
   [0x880363b483815600, 0x34d65c0f37178891, 0x0cf0fa848759a909, 0x5440c89152fdfd0f, 0xb5ed727415c944e9, 0x10f454035525b8b0, 0x3089aed9f5151aa6, 0xec6b9cc2bd41e790, 0x4c7a2856a407d5ac, 0xe3ffd30cb2331432, 0xbafcf249440e435a, 0xe7b71246008d7a67, 0x8a493008b2f2168d, 0xa57bc90732254a83, 0xb857f82ad5cc55b1, 0xf46fcf0c66f25604, 0x24b46bd08891f291, 0x8ce8ce2e0ac82bdb, 0xfd371abf1fe19393, 0x921b6d3bd4718207],
   [0x81312036d9d541b8, 0x12e8d49422811ac8, 0xe5bbf1a0046c9cda, 0x46fa1d70053b85d4, 0x1ae07f59bb7bb07c, 0x1676c1db9c9f94cf, 0x58e165eb0ec38fbb, 0xf2dfebddf1339e7e, 0xb9ae4d1c99bbc907, 0x701b1962cda9920c, 0x8c8a0d66c96daa2f, 0x94d547dde6de5e5e, 0x2501a1939066e171, 0xc1492bd3828bc8ca, 0xabb078ded26707db, 0xe8d3986f510f9005, 0x34d5b7cf4fce48fb, 0x603d27a9c650d7c4, 0xd5b412151b366626, 0x4d6b160aceca3c72],
   [0x760b99e9b44230a8, 0x7a9aee47adc061a5, 0x625dd60e2f8e8f17, 0x05d37fac0dea663c, 0x18c4f89efc353d09, 0x83ad72fdfa5f04a2, 0xab589d9391ad6e46, 0xa9a0ff4c7176965a, 0x754959629ad54b62, 0xfb0c02335d60f3e8, 0x21a5ee17d909350a, 0xe4d497f87a4939c7, 0x697f1ebaf3f29fe6, 0x3c6d9ed21d024b0a, 0xca86de82e15da893, 0x0b44c3422826800d, 0x3a2802c65c7c457b, 0xbb970dc1dd4387ba, 0xea38cae3480ad28e, 0xa4f2778820068104],
   [0x9017f0ea3a000348, 0x064727418e5c3a25, 0x39004e2cc1ac023a, 0x13811e748f59ee90, 0xe8c578b1ba8e9ccc, 0x46dd5a359a575bb7, 0xd5c30f3589137b1a, 0x7d0fb50b30c515bb, 0xe80f79310b6fcbe4, 0x3db6d64a182de627, 0xf5269783662ed6a2, 0x0a15ef6aadaf2a81, 0xca02f689e9c58087, 0x0fed49279c3e6def, 0xfce8b0172f6e09a3, 0xf09d1a78efd1e4e4, 0x02a44058a74c53e1, 0xa45cfe667145cf58, 0x396058de5b01d1a2, 0x7719b6bf3778e79f],
   [0xd6d27ed48e0e929a, 0x3c8c452eac2a2d10, 0x7939ac664dec4c1f, 0xfbf99f894b14b881, 0x024f73b5ad40633c, 0x637ce50ac886aede, 0x845c3b6795f0bd2d, 0x54dac9281cacca38, 0x11b6b7a83258fb0f, 0x21c374ccefe5763a, 0xc5e78ea801a38c29, 0x8a7a3a3c4f94273c, 0xb71f8edaa42f8d4e, 0xc442c388e231e028, 0x9133f2bd27112dce, 0x87ef6dc9547b0320, 0xfe99c46fcd75b606, 0xe430c08956a330e6, 0xe92ebcefed614d1c, 0x9b5fb30e47a58f2e],
   [0xbe73033fc1fb86c0, 0x6f83571eaec604ac, 0xa1184b4ac98f48e0, 0xcb4e2db1856be5d0, 0xc037d0a379ee4c64, 0x4c0b3c0d23fead5b, 0x062197e720e9b6bf, 0x5a9fc20cf14e668b, 0x940853712de7d0e9, 0xa74b9fe6aabe1817, 0x21ce06158ae871ed, 0x9a7629dc8f02ac6f, 0xead315d3ba1b4107, 0x3b154b4eb2066551, 0x56ab9cf6af92ec64, 0x6520cbf30000e63c, 0x85cbbd5889a0169b, 0x1d31e96c49100d5d, 0xa189affb977c98ac, 0x531d9ab71fd34c8e],
   [0x793ec15aed4915a3, 0x32602c15df29b9ea, 0x21d11a1d22c95a49, 0xe84493d639f6de05, 0xe236eafd9d247eec, 0x30e118ab67352176, 0x75097c44a8e7f2a4, 0x270f5bc3c82c3b21, 0x46e67d8a6dd70ba3, 0xd76891eeff3a329e, 0x1d5ca8dc656d71ef, 0x6f9dfff675a02665, 0x405d51dd2020f445, 0x925bab30824f9d7a, 0x70e7dcdb9823684b, 0x697c0e1c532d99d1, 0xd1a04906b2147924, 0x5e9fcd664a825f98, 0x70c59c721457b47e, 0x2701639f15155d69],
   [0x82a0c088545cae72, 0xadfcbf408f1fc185, 0xbd86e6bfd854b914, 0x2e1396c63b2d5352, 0xaa4cbaa0bd693738, 0xa02dd7856b0a5b14, 0x3a9e88e07c5c2ac0, 0x3bd6fddfba1f4fdd, 0xb07efbe48245534b, 0x8e583cad3bc4f169, 0x466a490a4adb8f87, 0x9e37f35555d5cac1, 0x61a64f8ca78405d7, 0xc1e1668298333e22, 0x958db833024270e0, 0x38c5be51b7243f73, 0x46f7f839795a0f5e, 0x8ce9192013f9dc62, 0xe2effd951ae35d54, 0xa1344f400c62ecbb],
   [0x7d8fa818233f9ddd, 0x38d6b40915d75347, 0x8770c273a0ee75e0, 0x7c84b82c0e1c0f95, 0xb49c3e8a93c48570, 0x58f7faec159e031c, 0xda0f0e1b0f7902c2, 0x0c2f5a7a06c6949e, 0xa23124fbc6ee0bd0, 0x75f1f6f45e2f2321, 0x57a2ca8f30d8e07f, 0xd141a57918ba4557, 0x7c191e2934179022, 0x99340eb57cade48e, 0x09724dff93ec81c2, 0x9d1bb3ea60923080, 0x24289ed7a9470dfb, 0x456937f8398a2800, 0x20f3c16f337e5f33, 0x69f8082800d62bba],
   [0x3d8a3e29d1712aab, 0xe6084f6493e32416, 0x8717b3d380d9e7b6, 0x966abd1b8cdfbb64, 0xb1be42c679ad72b4, 0x6997b8c70fb96875, 0x9ce7612611a26f86, 0x8c4357d27846c7ba, 0x2b0115a45b5bed3f, 0xdeab0b07d76d8f4d, 0x4a29bd81c6bc26db, 0xa9308a607900061c, 0x9bece71795ae57c4, 0x61740338a47a6a9b, 0x87cd9d755ed61f06, 0xbf3919c26d4b6281, 0x953b9506b3079919, 0x228a8906c5b524bb, 0x0ae71c0b9dc1844b, 0x0d1ca2b18e47bbdb],
   [0xb71e1cbaaadc5023, 0x06aaf129dd7b383c, 0xda9170537b829d80, 0x5c77e07340af7586, 0x762a845b3beb704a, 0xce89a923a5f4a39b, 0xa8b88841d2becffd, 0xdbda39792d771bd3, 0x3c89b741475d2204, 0x112451051d87c1a9, 0x07756184081bd3e6, 0x21231dab1b10fa02, 0x43d368caf7389874, 0x41cfd943473acddf, 0x3e3727412d97e196, 0xfdf0c8e515780c0a, 0x4a7185fcc6eedfc1, 0x07378787276cb8c1, 0x3489ee3c726e4721, 0xdcc701e7bf1bce73],
   [0x35789f3b6effd7d7, 0x295d8f7c9ddb15ed, 0x3a62b7f625536399, 0x32a889bd0a31ffa8, 0x8792bc5d1cddc6c9, 0x1b1183b275380eb7, 0x89fb5c081e4e6f0c, 0x2b721fa4caa690ef, 0x3dddddba990f91ee, 0x147b23e51ba83238, 0x1715726285f384c7, 0xa7b4e10f2ab98d11, 0x144f5977d07945f7, 0x4fde5cf0899abbb5, 0xf8e402c5369bae14, 0x9916bf8add9effa7, 0x211a6bcd9b7f9f9c, 0x7b94394296d802eb, 0x1a86a72221cde2c8, 0xc22825ef48aac3de],
   [0xb8e5822dae2ce541, 0x8c89f54a8e30a809, 0x5a5c81b819af51c0, 0x64834a45cf45436f, 0x3c6381bf5bf202f9, 0xadf8e536adc41a5e, 0x3a4aa1ca52683373, 0x4ac936fd66fa360e, 0x91ed63748d7b8416, 0xc91bdf144c5ef815, 0x23d0ce26d30faddb, 0x527fee2c37ef79ea, 0x41f17d371c8ba782, 0x2080ee09b121480a, 0xfaa1e2a9a561a29c, 0x04223b32f93ad53d, 0xcd94f79b783dd70b, 0x099338f131bd85a5, 0x21d4cbb0315e5b25, 0x5a4b6af7888f6fb2],
   [0xa519b168ca98903d, 0x9e3739c3e89fc143, 0x9d8a18497eaab5f2, 0x90db0be00aea8f43, 0x59fe2f4a891e50c6, 0xfea17fdf26df588c, 0x25a691b5b4525e47, 0x7986b0398c8dd01a, 0x47ab1ca71bf9cdc9, 0xc0eae8d70b1845a3, 0x089db30b6e804ad9, 0x33e5a95711167476, 0x92907fd372b1adcc, 0x77a03cebfc0cba5c, 0x3ddd7f080ba54421, 0x88a3dc22cbaaf179, 0xde551384217267f5, 0x7e32462211286b07, 0x25cb66d9293ba22a, 0xd9262eecd8ec2a41],
   [0x2d3e341ce1f994bb, 0x27d4b85b927f831d, 0xf406412c789b46ce, 0xc1fc9171f3c4b1d2, 0xafc585d5de56a01f, 0xdc488c08deb3eb87, 0xcf59fd57e26b30cb, 0xb38da2bbb4116180, 0x39874fc9f208311b, 0xb1d61c3ec4161493, 0x27d7a092e373772e, 0x9f7e7fa29d85cf1f, 0xcf957f9a58b15541, 0xb2f31191e7c0481e, 0x30a089675775b944, 0x53752f3ca5969fe3, 0x49c615b232a1894b, 0xa11c26004b20a349, 0x2f3a10d4186afd47, 0x3cfb5cd9bb38072f],
   [0xc2d7eff7e41317d6, 0xf215fab688c82f9a, 0x7f9eacf075761ef0, 0x71c7dc7858d47d7f, 0xd80ecb9fe468548f, 0xf4246eaa9769747d, 0xe55b72fa0755b2b1, 0x9053f24090383428, 0xb3df6446569a3124, 0xe9220989cf5402ac, 0x03706f295a283f12, 0xbb911948ce8c3572, 0x5e874d4dc5c26940, 0x10b5a564dc0dbb7c, 0x0c1c313804a79523, 0xeb976aea56d5634f, 0xf37782a2e74d3214, 0x3e059b747064849d, 0x28052f01747ba6cc, 0x977e283e1fb4c09b],
   [0xe648f1c2b24db3ef, 0x9d8fb60c32e1cefc, 0xac7d7463c8e3faf7, 0x95a31610e6d9f6f0, 0xfcf120ac44e2375b, 0x4b9bb58165f9293e, 0x252b2c3c00086e2c, 0x9dac20406725abe8, 0x97b2e782c55bf19d, 0x6650b10edb6ef7d9, 0x2e99c528be0a82ed, 0xc243ef261056e0bd, 0xbcbe5cfa6f69efc7, 0xf50439a3efa6ab4d, 0x3fe63cbed2216251, 0xe8b44221c9487561, 0x6dc6df39b08d5539, 0xb7b40f791c2d6e5e, 0x3b51d4457932e3b6, 0xf849cf8be592a1d5],
   [0x755c048bafc608aa, 0xcfd7ffb9de5c3f46, 0xfb20ea446e196a5d, 0x28359de3f0a75593, 0x361c96febdbb2993, 0xde088f5cc8b99f3b, 0x2f58c248a386e52f, 0x271df056207e4b45, 0xf432599ba2016943, 0xb277767a1dbcd62f, 0x5d2ad97cae255d5a, 0x52f108a3496726dc, 0x56ea6dac1101bdab, 0x03c7072cff7416a9, 0x2690ea28bcfe170e, 0xf1e4f90b056065ff, 0xb8c4343114021ebf, 0x53cd768d0a2469c9, 0xea2a4cfeebcfcf29, 0x85092b96df737b7c],
   [0x5706a9b2f87b8e81, 0xbc29720c8ad2e4fe, 0x560c79e11bd3c004, 0x7bb0839cb613ecc0, 0xd3ad997f04011f81, 0xb9ca1b4e4aa57095, 0x397619d048c301a9, 0x18c4756eaabbcf17, 0x02219e17a043f5d6, 0x5533f13157ad0cee, 0xa047207e71f2b84d, 0x47b13cf1403578ab, 0x2157979a62e80078, 0xe8b73a6514aaf977, 0x85b98b7bd9a8bb67, 0x07241975ad5d752d, 0xc322ad54de1b3cb3, 0xef00fb8816b6e95a, 0x6fb3452ccec8b4fb, 0xa80cf53a1f387e50],
   [0x53f9ee3cf5940e92, 0x9165058a6e75bfcb, 0x9ae23c6a7d7c9d2b, 0x1b0d8228a0c19927, 0x9c40a9c9b9ce973d, 0x47d4f4df6d0e130d, 0xcbe6020c7577cf09, 0xdec0062894512fb5, 0x4e11bb78b98c564b, 0x4056479f3412e6ee, 0x075e8263608597f8, 0x636dcfb850778d8f, 0x57bde5d8b7e0f514, 0xd4e0eeb339c7bb03, 0x35912f2843b81064, 0xab5494664a07c463, 0x3e94a9175fbe66c3, 0x6f4d785849d7127a, 0x937afd5414c2fd22, 0x38c759800e58ad99],
   [0x8c85774cce01f879, 0x9650b10f187b2637, 0x9beafb25333046e8, 0x2fd4e6e7583a0767, 0x8746e29568f03a3b, 0xb0c4a7079c5cc75e, 0x6b22bf45f256e6a2, 0x244c9b3ea1d52f4a, 0x523d9b20b9262424, 0xcc8bfaa29bf05973, 0x07e7cd381f126691, 0x36dd9289bac4c64e, 0x83dddc7ac800fa88, 0x54578c7e013ddffa, 0x9d5704f714cb8b45, 0x632793c9c7ea5aeb, 0x59f17ddaa45e58c5, 0x777364e82a3fcb54, 0x2032244656b13368, 0xb446c5532c8ce895]]

/-- `POSEIDON_GOLDILOCKS_8_PARAMS`, `src/poseidon/poseidon_instance_goldilocks.rs` lines 2755-2756. -/
def POSEIDON_GOLDILOCKS_8_PARAMS : PoseidonSource where
  modulus := Fields.goldilocksModulus
  t := 8
  d := 7
  rounds_f := 8
  rounds_p := 22
  mds := MDS8
  rc := RC8

/-- `POSEIDON_GOLDILOCKS_12_PARAMS`, `src/poseidon/poseidon_instance_goldilocks.rs` lines 2758-2759. -/
def POSEIDON_GOLDILOCKS_12_PARAMS : PoseidonSource where
  modulus := Fields.goldilocksModulus
  t := 12
  d := 7
  rounds_f := 8
  rounds_p := 22
  mds := MDS12
  rc := RC12

/-- `POSEIDON_GOLDILOCKS_16_PARAMS`, `src/poseidon/poseidon_instance_goldilocks.rs` lines 2761-2762. -/
def POSEIDON_GOLDILOCKS_16_PARAMS : PoseidonSource where
  modulus := Fields.goldilocksModulus
  t := 16
  d := 7
  rounds_f := 8
  rounds_p := 22
  mds := MDS16
  rc := RC16

/-- `POSEIDON_GOLDILOCKS_20_PARAMS`, `src/poseidon/poseidon_instance_goldilocks.rs` lines 2764-2765. -/
def POSEIDON_GOLDILOCKS_20_PARAMS : PoseidonSource where
  modulus := Fields.goldilocksModulus
  t := 20
  d := 7
  rounds_f := 8
  rounds_p := 22
  mds := MDS20
  rc := RC20

end ZkHash.Instances.PoseidonGoldilocks
