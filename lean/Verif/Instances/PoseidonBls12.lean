import Verif.Model.Instances

set_option autoImplicit false

/-!
# Tables of `src/poseidon/poseidon_instance_bls12.rs`

Generated by `tools/gen_instances.py`.
-/

namespace ZkHash.Instances.PoseidonBls12

set_option maxRecDepth 100000

/-- `MDS2`, `src/poseidon/poseidon_instance_bls12.rs` lines 13-20. -/
def MDS2 : List (List Nat) :=
  [[0x26bd58d07c2c9c38d3d04f2589c840541b3b213406f095d9e5205ff19fa86e7d, 0x4c1fddf64b622c668476532b3129d66c1781aa29f4fc720e280dcec0c626f924],
   [0x23672c49f9f5a653914cc84486a5c1d7454d5c836b867249a09af66a55250d32, 0x1e24a7b276c216802da518bb74a3f0345c43e068d9559b9f044c859279bd92f7]]

/-- `RC2`, `src/poseidon/poseidon_instance_bls12.rs` lines 22-215. -/
def RC2 : List (List Nat) :=
  [[0x33c44ec03ba66f977c554aec7854ac9161c6f1dd6f775e7a9b7377e4613df4d7, 0x119c217e45db2ac458bd547faed210ab1e21678463c5d802deeeaf5d9c60570e],
   [0x2931a115870111c4e18f5d0cd7f9285b2e325cbf8a3429603a3ba07d733e5012, 0x412f98805b1076a639d2997a95cb0cfaf2d7cbcd48e72c6cf66132d238d57f01],
   [0x62699e86a72aecf3330295eb8c359ed85c503ca62e4da42bf83ccf7cf4961834, 0x4e372bf8bf4c910f77904fc22b614f46d266787a55ef7d9da4eac223457ce4ec],
   [0x183d20638fcc44f1de76e43cc91c1c543da80f58e817437d0a10572631308bdd, 0x07811d8cd651067a890b37195fd765ca4215b5a867be749301d42a3fb5da890d],
   [0x581032b78fcfe2221256ec65a2404dd5fe7edeca06b3541199b6d04af889db8f, 0x417f20678c85cd3b0653c7f2bf7b73e31534faacf5ad49bd6522801bce6899c0],
   [0x5124f2aef084060f6a4e25a6a4c9ef2c4c03e5f082e423b54a61829a1acdccb2, 0x2e6d3fe0b2b5bf172e6b0fa4c744047543dae1b7efbb99ceceb679edd276e114],
   [0x29ece50db87b0b9437bc95356b501dffc338448329005855a10f4071501f378e, 0x01664c2043f12cf6c1110bf47392b1ad16ac434dde90645bbb4a7f0748dbcc23],
   [0x4d405570336146d32624f10018786aa7c935361ee3da53f1090a48b4dc0edece, 0x238866ba500c487aa11fce328fec030b79d82d30345532a3738c3adb538a43f0],
   [0x35a4f450542d13ee3bb732b7aec1ef6edc5f482aee3c1e75c32bdc0e2469d1a5, 0x6fb736dfc36f960801de4e21fcf12707f5125ed33285c5b81e96994cd9b74dbe],
   [0x312045d99da5e33e5fad22013d329ffa116345eae930aeb7d6e342d18e97d0cd, 0x72d004d1ec2107768aba4233ac4550f876c5821d032367f33e88dccfae278725],
   [0x23134af3c42baf18e3ba8ca397c053ebbf87a272cfd748cdffd8956794c89120, 0x335dba71db486f2eb63a86475b07158b7dfbb44f50b04b295edabb365bf18f56],
   [0x3275f0b7566fe4f390b3417a2db656b827691a2613c1469de0d0b09f626c669e, 0x0a844f845512c5313ccef54c9729367fd48067869b3b09e0be793af448b7e287],
   [0x37c5111056a2fa7a285656e6f686dbcba7d50ae47f41078624d08eda2d5fbefe, 0x1493c055327226a0864cc9f9f31409109d11253023f466f160ed276b71f79d57],
   [0x6f048f4ac5f9cdf625f884e410399e2dc249b1c32d9d82abfba68525be345f7d, 0x065c36fa0c20f4194ae328dd1395614b6359aa28859b5456deefd760a75b24df],
   [0x44320b33e469ccd157ab5519934291a33bcff0fcf564c0ca98be60f215dca14d, 0x4c01a16f09b529501aca13106aa346acf3e458eba9e6fd5a38a409e6becaa3cc],
   [0x2faae801f274fe10f0801937541f416e5b1b23c0c1df8f3f9228c81a3dd26f9c, 0x6b36b50ae1eb4f781161fbc99f0c606ca690a72296caa06e5bec42760b43e2a8],
   [0x56d3e419dea1236dd4221b0e6504732d8cdb9f743f5d73dcc602aa9783018283, 0x4b63bd1bc2ecb21a3122d2d0d0e0d8947ca1effcd98c812183e34b8f92bac277],
   [0x699aca9c649e0b9c670ba7abfafa4100c5449dd0bdb6bfb128bd936f11cd1aa5, 0x336c7faa8fd98a9c534ee0619de42f7bd4ef83baa3f56498960b1d4f50d311e8],
   [0x5eb55d6d075bf6494ef2ab4ee94750b321b53ce1cae1887243744773d6b667ae, 0x3d0eb0568eb95d16d1b964997d964f33152945ee75745cbbcc5408f072cc93aa],
   [0x2c72583489dd1d3fc029843191b8725ffe0dcfb89b558f110fda9938907f4c72, 0x6f08396cdbe301c890541ae80989a90323319447b35dd843d96703e618287234],
   [0x49fa0c1d0047416c70141ec927d112bd0b5e8756136677f7ce0c3ad0fe15781e, 0x2a91f81906ef4493dbc674becd87b8430fa5df0b1340537ea3c5bd6183e1c2c2],
   [0x2b33018b6514742f22e2eb035a3b24a82c497f4ac77e30b30aa4b263e8428311, 0x117883ac4c57e126b832c1caec75cd75d68bc9f7f97597e14a028a6e64f5b231],
   [0x7063d93d1a06ec8060d65b0cf6294beace4660057ebbd2a512f8006b1f7f511e, 0x516909deedeeb203e18452fb65c345c84b25af205655fa5f6ba272088b550a92],
   [0x4297130620f1b68e5e1c7f69557f51a68dfc215de2f84f0c422fe8f7276a6b84, 0x536af368b7cc226615ec11b22adcaab60f1780a9bb6590403877cde9a5abe0e3],
   [0x558ba423a9065030cb22aa2197234b83bfd163b0b6e8cd896ba32ea607df61c1, 0x58d62f7292c54ff1ba4019642b0c62d62b95932bd53210e7cf509f3673eee0cb],
   [0x56b9d5b32268164d9a0d6a9666a5523e4316927069cfb8b87612c17f8479b96b, 0x531e79fcea1bac5a482baea1c68c5bcbc9375ffd76ebb7abd5006f51890e3ec4],
   [0x15b39f137c1576e637a56bf39c62dce331bb7c63d2565192236184b4e3d4e1b5, 0x40b847fa45daca80b4648668ad0a8b9e6c046d0192e72c6df3e42bfb52e88ac7],
   [0x33bd2d9db23a954d43b2a12df9c8702617334d3819fa85f1ccdd9a8bfc59819e, 0x4843433e027fbb3d2e175433b9e6c189e96c5c1aa49f1e50f548326fb00464eb],
   [0x3b94968d16e7fe269ee0ed04478888c8f9bfd28c2c8e2d8b2f3b2102c088f88d, 0x1481f21fa6a7c4b89fcb60554c32846affc169d293601d02ec4afee4618a027d],
   [0x2598d37376e054012d26dc8991e6f0c3509264a709f281a4c50675b969c8925c, 0x239e26faaceac9c4703e406a22b22d3d76bb46f6f2a3ec8a773f3ece196156f5],
   [0x168073bd0316312d97ca69028295855e1a7d945c4f6fb5fb2bd082a2b8181d9c, 0x3b807286151f40b071e682005c62b031839b999e9427f5c6df34853527994ed3],
   [0x0e06b0f67e724850da538f9f4e653c4ce540880233e57e0777de407b157bb00b, 0x4893c1dbc31f53efde5651561fd7641888d0b1425b2c88b63711feb99581daba],
   [0x66fae3ea71511d1eb5d441c9b19fd4b75d421c2646c683f350abb4306507a2f1, 0x46ded0b0253c2a69525cf83539ad0fe78f6d4a102037352bec8d20b80f258aa9],
   [0x362659c69378e23e24d7bff96cd20ffbf5b873db4f6fa8f2ec3285e06aa938b7, 0x549dec91a7bf38e82e9661fa4351e7aecfe464efb4c18067f4bc19e1b7592202],
   [0x6ac62167e59d4cdfebad258f5516ac67890fbbedfd9ec733dc405f83818e7a34, 0x72ead933045a90823901f63ee6e9c5a0dfe5e7f40f2175bf20f6c7a70801fc7c],
   [0x19ec3a56cdd92572466c099a549509fa08a3aa44ab77de5c83041259391b6df2, 0x6d0f3c77e6d1827d96b7b54d5382a164c2b67bf42e312497ec953c0efa85b957],
   [0x6749e837b1173ff2f93afc53d6077dba7576a7e406bf8fc5ea44ab5f07827c28, 0x4c2dd0048f82fd9d3846604468b813d326da1e790d65f69f6d023ec318120c54],
   [0x275102bc673c2e1a94203516916e972c7ffb87e786bc2008051862756a9699bf, 0x5d1508d74a12f3c45ba44bbff312f290d9867ad5ac7a0a8484d42557955650ee],
   [0x1a1dfdfa613e7b32e438db5f9a0e7828977479296365fbf5b86bded3454d14af, 0x19ed769ad672c867126796960796d82d568aeee358ec746fa0daebd89ac79393],
   [0x60fec4a812d44d18d660928a6f8d9c31a3b4c0b64d94f386057410f5f6f015d6, 0x48ad81e11f9bcdcf67293c07751b51dfd593f6f9ffa19eb6901a4f8e1257692e],
   [0x4a8b9cb910282fff81e99c9c3a240c5d3af5bee5537feac638d16150a018a527, 0x63180421e5b152599ffb20dc03617e9d2b81276af61bcc5c20a94a27bf5a4785],
   [0x2d5d84a6ec23caa6ffabf60bd3e8291c6b9b6e50588f50a1afe7d68b8e672892, 0x466ed9a5e4dd0a0a9b2c3dd2d8e22c32f21c80cfa7254c6da3d5ee28c296deb6],
   [0x70a31624e4fe63e6d10167964327beaddec614f95d9eed4b5982fbafc2985933, 0x5f68cbc5ce497506603076e2492158f57b5c45e4e511d8d69e33056b2c0dc9d0],
   [0x54b1b5a6d5b2543cd7f3c8f46319287fa9bae5125facdee58f9c724876b537c6, 0x6b1e4453c2c9090b27acf79127d03cd37513276abae392b553f7204a05b3d604],
   [0x011817d785e72bea13f5cb4ba298a7df8866cd49c225fc63443f7322488af682, 0x1daad928cb1e1cd26db5ddaadf7404782bc17a1a81cd739e9aa1417dbcc1c62d],
   [0x0f276af8f76871bcc2f501446baf49fc0d4a5b1506cfd25dc63cdf41cadb62ce, 0x64b96ab73ecf28e86c9272e5ec1172702004ac85311d37738ce38216e0b39f58],
   [0x070a57a48759b30bbf9caf20a0b31a4185817282ec8d51d78468da240085d7ec, 0x06bba486b149e14884317bd42679a0b924cffe3a5b15c113d3f78ae2e5e08ee7],
   [0x53287468bb6cc5ca4c5a73b60a4772b388f2fc4b6d6be523676956544ead28a9, 0x24dcaaa95635e1d310f6ae6b9c9e41b411e21833826a390162bce50e40434de4],
   [0x178ffd7ab2aa6c39064d07855d61c7963dc9e9d729226b99da1a592f84f05aa2, 0x34d8459e6f1a823cf37a07157e357979adeac8fc43bac7b9499f121c399025fb],
   [0x60fce60fd87efd9887a9bfae91befec797ac1b84d5003380d3b4a65b49697c61, 0x1c4eb1dbdf761c0898665ba535ab47a8ebf0654469f2b06219b5df3810b9f2d7],
   [0x22263e8333689bc74dcb6359e282e6e50b6c6e77d7b7014e87fb29f487c59b8d, 0x13129d97ea46d2062b9d64c48fd28ad89cea2b08e0865c70005861d5d1914855],
   [0x4adee2f6b95dd6b234080ffaaf5419dde1e37f57d947120695d9eca8a5c87a5d, 0x533794dfca27e99a025bb594f50ff95a370f35184f1bda1e8ab62b6bf7462b04],
   [0x72fe49a1d7c37f91b8e86a3e0910af7d79025c88f744d0722dd5ab054fc39d86, 0x677e1d2385e44449b8ad56a302f96c8ec07e01bb7f9d0098f062d42b4ba0d352],
   [0x34269bd62d56fecc4beb8eef970b95de303f2d4ec8e5cbb6229aa08f42d90409, 0x518b891f9e98353d4f89800247cd13352c57655bddf510c9f38f893c75d325d4],
   [0x0c6c2b12fe9df6bea6514c305dc61503b497bd5007df7b34554e415dd4a63d07, 0x0545983f1ee06fef0dadd702aee6525fcdadc0b6313b2730e097bff91d515be4],
   [0x5e420063286effe5821104c3c8b9a451692b64f6530f10b97d74f3d020db01c5, 0x15a84e279e1c8cd0335ef27a2c42fd9f1805cd58eea17137f41f4fb072bd0319],
   [0x6b4ddf9e9d7b5d0e241e3536711b44521c4ddb6023a30bbc88168aac2d8885b0, 0x29b9a2e58551786af9b4a4042e5b7fe1e1b17e3fe2670c9fd759f67543f3c558],
   [0x5dac5f1b46e036087c5b2614b7d10ea62cf89b5ffeddf35c8de7f4d1378c975a, 0x156cca5956671cc2e41045f52bf794476c12affe21e9387311c5cd0925aeaeb2],
   [0x56f8bc28c1bcb2f2594b7d286cf65d00c7e499349dbd7fbeb598e39adad9e4ea, 0x22ae62f26dd66b1b29673a6739a174d75f2dd2c7f5166b022e60f316eb111560],
   [0x4c34d8e597c5f235bc47c133eb1554d0d276eed12926fe97b0b2cd226e27df67, 0x7098bada397c8dd1252f89971ae197d032692d73957591a10376e4c65417f972],
   [0x33b9c78d3ab17acfbec44eb31642a92744d24f3531f858acb420363398b33d9d, 0x05ccc54aefbe9c520d91b311cb8b8d57dbbfff0c63d6b8760b88c5ed83749619],
   [0x6ea1e63871901b06f9ab9530b16b33c803ecd813ecf09b39b447de689cdd6e87, 0x1d1dac209564dbb750ef9f56c84a6cb90689468bb63300abc1bc72019b9e1212],
   [0x4bb40dae5fd9a8fad4c1623a7e5b810ffb1b7b0f2ea13a44716578be6dff120b, 0x4fdd5e048b31a3f0abdf70d24b45a3f6f9a12aa49afd88f2ea546ef6df2ba7bc],
   [0x0c96015dd68aedc5752b49cabfb5789b4247efd3420b5c5ab662f7c1a831786e, 0x30101bdea59745de385aa3597564fe45c2a2f3dd10cdc610af95d76d39f77ea6]]

/-- `MDS3`, `src/poseidon/poseidon_instance_bls12.rs` lines 217-230. -/
def MDS3 : List (List Nat) :=
  [[0x211d0c9c28920044b34c2ed4a4a2b4e3139485ee7cf3598c291cdcf51b48ba21, 0x0b27c81f25198de28b7637b4c371222a703fdeee65998039126851dc77d585c2, 0x04603216569f6eeaecf37f66ce250c1bbfd638e9209014c39a833d3757a46bc7],
   [0x1f23916bea4ffb4a28f2f0d759325de7f90f2e137b5482853f50fde61859b73a, 0x5c1e7a8011313fa573f806471815824b70fbfbe4bc3e81819042b6b4efad659e, 0x4d349bb595829ac30788875eaba85d488cbcf4f2c370cdb424be193afc109e7b],
   [0x59db7377f026a6f02f7c90535b93db9cfc82bbaefa1deba36f1087880e6dc2c9, 0x4a83f6ddbf04a70f99e13e1fd72e4d4e0a9ca509c1c30bdae07508503cbc8ce9, 0x65d256a96817f3ab2a30d19785500fe898df9589cb8af15ec7c4a2e33aaaa87b]]

/-- `RC3`, `src/poseidon/poseidon_instance_bls12.rs` lines 232-489. -/
def RC3 : List (List Nat) :=
  [[0x452088f7ec90c80818a1b5665f38ea30116456becd6709977cd8a2e0a2b38b62, 0x21512346b8ece60d5951c1505089c2b4220707ca56373bb9d828fa33bbfd2a31, 0x2b3a40252c69e83e92c548e199bbbeba4291e0d7fc3b4810193606753da588c8],
   [0x2a1a778e3f303c4187c082ea4475734596fb10bd2954843e12be80e8c1c0d464, 0x400df3a9dd4631e354222e1b1c2ab7092feb19a96eef425270e2016e2348fb96, 0x667e2e3deaf0278725697f5acc7222fd572e22944d04d7fd2f86c5c1c0cea988],
   [0x224d2355fc17ee0b5e46455d2ef3a85cfaa88b08689b0d0e4c111094fd780093, 0x6d82b530a685ea27a3f7d47626bb7997b59cf2c6ec2ac14ff28ff0562a95e22a, 0x2241de16388cdd7ffda42e0838b5d59bc2182f14bbef622fa633d8b87250a740],
   [0x6b9fc67a95a7a01f9034b58ac9130de47ec903c21c77cbd05258b011e904b80e, 0x325f11e96905193f6836e6fa2c727dd0261ea083fedde9873f1e7b9d90419833, 0x6e39fe041e18592c01cb0ae2e7cf51f57797c498be313f3485de24974129f48f],
   [0x51693257ab2fa82eb0e8040a6866fe4d121c59b8a22ff9b17c72ad78e4dcb42a, 0x48805d48952999e8f52884e543f775f6bdac8da75cf37bad19754415183c6516, 0x1cc541b9ed19280c216f6b90876cbe83d07ba14fcc6f2af068e1dda739f5acb9],
   [0x0f6f3f6703c0dcd136b24ddb8766fbcd69bbc9cb3bb20a1da2f7130c4ba62664, 0x352376600a75802c6e6c6da69001e0376328848bc7ada465176d571ba029a20b, 0x2b1708d59adc4ba04a6bcb2dd264c1b014e0b7bae9bb3af916eb276ee3a34565],
   [0x66c5bbb78c64b8369b845ed0a25af2d05e3a4ce053ff4fd056a5c8a059e2cb3c, 0x5e80c1b3b2e5b0b2cc4385a07f85777bf8d59ee2358ce694376f35c844d300f0, 0x6c2ae56c365577b154b04b7683b8910dd66808b89858e03cf627b50057425c6c],
   [0x65720f82218ce2bd09c504216f1fe44967596b1720ab267749537206c0ddf03f, 0x71a7333c7e07b20015f2c1f030adc0137e4d7453d795616eeda38b3a25e709b8, 0x161c8a77adcd1a5f8dad71c3b044ce64bab9de792195da91a0b0acca4f8b4568],
   [0x5b7f6f2e59eecbf4802a456ac633c38ba8895b41cdde35c1caa5dd1ff4bdef7e, 0x5a2569754178df0732e843339b2b7d55519590d8fe6f4f4bf9f35bcd8c589b4d, 0x5bf5026511b12bbfbde38a5394aa7dd9a8bc9a5055fadbcbaa541f3b523925e9],
   [0x1d53e37d6ddf6dd88beb25c0870b2d0af2a51efb6ada05c4ac7e5099a71499e0, 0x65e488523b0b3430d5f91e25b4b96ee6d628fbe0529c2868749657d7f7aa3f95, 0x0b6d7adb7b72cfaee0184354accbff821a14efb48b46405b397c037a5e15f095],
   [0x2444c70bc898765b95c5438156c28671cfd20569a8d31b3f08cfa60d2bb18d6e, 0x6979d5cf3da00fcb59a9832188456fbe515261a9be5cf052ab8e50c874a07ff8, 0x1eca31224b0d4ae965b179fd952d958de48a5de147348ca5dd00790d5c76fb2f],
   [0x5e1c8f87eccb7e8cd338500800ca62b6bed6fc390597c5a7f21eb7e80cecad80, 0x0c3f882f7a3bd8ae1eb328e026f6419db30a5026c279df1219499333ef8caa06, 0x38011264a16e7cf3e96f029dbfe344e778314b1e2e9d8a2f8f8f76ff5795430d],
   [0x3119da354a6f450bf8f700b89b8319a6f57d6278bfb0bbf9d8e37d55c9f3133d, 0x0bbe0649314a68a31d5e8222bfec7b1298fc5bc1e6ea098675c94695aa3aa221, 0x4dfb208e602b401ba661e37ff5a5fd971874a1082cfb00ebefc6405c2d0a73d3],
   [0x2238971cffd7a12e565e591c0b28c8e76a4582d57892d3db5c8be394a60ba3e9, 0x4c466e3153daea54ee62f719c6f947207e7234dbd7257489b4a8a385be7645ba, 0x1badbb1e2e9734afa09ff6c92e98038b9e329e0c5d0bac9a7d7996392f5caf78],
   [0x37dbb6c5059651ae1362eba3195c08716dab6a61ce8476b5cebd09274a53413c, 0x7154aa15ad1736497d7902f9e74828b3e65f43295cc20bf69ba2c622592c224e, 0x3ca22f38e795e433ae9a8d2d5f1d535bbe1a3c3fdadcd549a718e72cd257bb09],
   [0x0854ff209558742b8d9b0cbe9db7767f33668f1f8888458bc954025ffe84b7da, 0x377699a38c21b41939a5098a8202ed55b4d3472e01f185f4336f4c6c879051ad, 0x3492b7170200764635922920ad5e3c8761fbbcbaeaa2fc08a59f9ddac49a59ed],
   [0x372c88a6b45c1593f353789be4cdce85dd2ea1adfca9d8444c83b7a990921a25, 0x3d0996734441d7d414e14d72e46eb6cb3d403a822ce642357e1319d169f4ce6f, 0x026362f8c8a86b5afadc22b1cc0aa53e9da137607812778e47d5f86740722a52],
   [0x195b6294bdf65bb0c07569f6c6193de7e5e9ea5b17b5adc39179ff15280fda29, 0x440a155e09c263aa0c3fdfc62d5b6f6c759735d1b73efd60c5afd4deddbd7bf8, 0x5f0135b9b6a8ba9cc5d83221ba344778dfc00b1f4ac578455dd5d71dca2bb64e],
   [0x5d108be88e31ef2e03e46662075177281cdb28e77c120d158c89ce3850fd93d7, 0x11dfbb5f5e48ea973c6ef2ece89463c5316bc767896b67b88be18a1d858d6f52, 0x071180314ab2e242cc0552b728495b97e0c2e073970a264c43397356d6ef6c99],
   [0x13c1cc0a221c29fde3183f7dc644004d3f4dd341fe7626996ce68c69d73204c5, 0x06fc0f5f038d0ab20f4815ba721b366824bf534980265836b224fecfccb6fcaf, 0x122e97658c701fcb7b25d8ce0629f2942dd8f07d6ac06a91320a6f1f4421fd59],
   [0x3a19573d57741adba1942d72016391d115a1971af158cfe2a776cb506d714272, 0x4037de356b6cb97e4b73d9604342a7b3e5bf44dd44e4318cdc116edde917fffe, 0x3b34dfdced639990194ad27c8d3bebd9e6657350c0c522a2b65f2ace44dd16cf],
   [0x546b1eed6e680434955e6259f20ba428460181982eed9832898c945ce343f9cb, 0x4d144b9647ff9822cb76f838802bd249bc58c2782587d470f5cd906f860a79d6, 0x2d39cfe678f0816cf3bc7a0476517c070d9db6b0f20aa849fc9746e4be5bdf80],
   [0x69f92e5361b806c4e082661a39cf8ead1431c49536eaf8b8450804c99d9c8899, 0x1c2e919d0e061629fd6b5416898dc1d5a5cd0e130531151d18480906ea3d9cc5, 0x3dae30c784fd66c4a551a6b0a9551747fc1cae54522bb25238f06a7a3e4490cb],
   [0x0264c23f67c44aa792f1c731655e1c9eefc4b4b808913f6bb3806ee56caf9c8b, 0x0fa6d7c32c55e7621d72604c5abc1d970e7569dbf1475f989816be1ac248f889, 0x2516928d25d3fe4ca89ff71d5958f4f256d86457b58215dc8c1b02454314ff19],
   [0x10842e1683519bc44c3b3de92cf860e9185c5ed67b20662ae8c4f50008de4780, 0x6b7e2c013a40a2c5f5a992a0cd4bf198a64171617af313332c244edffcdf45be, 0x036c65d30abc46a63c4b26ea1e17c5325181354f800fa4c4f207ed1849bb8b3c],
   [0x568d2f7f0f8fb4fc28ef1bc673f2db513427dbab162b7c444a1070cd85f22397, 0x53a9fd8aefc965366ddcf373f85ce62ee77f1ef0bdd18243842c2eb313db9989, 0x1577e14026128fcbe30d7fe646e0cfcf5a91052f2cadc41553e10aa4ea94eb81],
   [0x38814490cf1681f17c23adf62ea2988d48fdce37b3a2fc259b090391d72be770, 0x3c24dd5b9460893f28e95b9cbaaba0e1b6af9c00d8182b66ec771ca957b4cb8d, 0x367180fac58037ec0d86a1932aabe6a5e353feaf64b1acaaf208a79f711fe35f],
   [0x28ad8a1ecc6d58bf0cbff23e654b824abecae09905278fffa65e9b0d634d9205, 0x56b8a175a8e0031f33f342e53f2b565f098aed0baff9a26e6981f7129b2a7b1f, 0x5b68b63c523f4fb76fcb5c63ee048575a221119373427cd74c5f32f542cd2895],
   [0x046fe9ca53b25a411a48d539b09984e2e04bbfe5bfdbb3d390e7489c2cecc4bf, 0x5cede9acf639ee099c37c71a78146aac713b1c9b2e13d8a587a46db424e19826, 0x5d77d40ebd612b82e63f42cdf351c96834cd60319d3fb55b812e263a211cdb80],
   [0x1b6869c3d4333173de4546f09cee0dea3ae707dfa5e1bcebf9d7671cf766aac0, 0x51fe61e53e88cc98192802e1df6a5eec1d095d00fad564f9013366bf9c02819d, 0x6c16983737754b8011c12b3ba9204894b7e8ed476998df08a4d2b5ba29133b7d],
   [0x1ac8cb354ad46130e09e72c559d322a6daf108002e5f1040c0db23e21ba7b12d, 0x16ff5289ab75696ff12f1a2207ee96d0824574cedc0bb3558f4a6ae6e674c446, 0x5a77dca1291f77077d5e6b6ff22accbc500a7065274df2a35a2c6b1fa82e6f04],
   [0x6b0e33788a959d17f135432898a7d6e610f28c9dbd60b9c49a6dc490c34ef98d, 0x6cf72c65df522e4266f8423fa1659ad66b2578b7f993ea6507d0721f28810f83, 0x5a8a16f926e64e5728140473f651e594593ffba73c8e0b3222dff49feaba351f],
   [0x718a33863594a8cae0d8034df7b5e9d5a695444b5df36b17f729ecf82ecf72db, 0x3b7f271e38ba8cde9b5fabbe82eae1b848b78a32022516d4cfa423062a3632a1, 0x23c4be170342843749dac4e883d34ef66ac377a41c53edfa136f0ba50d0fe5a3],
   [0x5c26d0a3e700edf5bf5aaa952903efa479f77e84294998cf64f10f7acc5e6574, 0x41d401cfcb2049b7ea928444a8683aa7c9f036572c25b1fc9eb5bf88a5a4e7c4, 0x5cfab88543d96c375141236314bc8f0b66a9bd70dfff1f9e5458c6ca7f2fd8e7],
   [0x366862ca8fd49db9b624d9a1e33b393cf761a181813955f48ff1d8d16d7d7d73, 0x2b12d66066df3e3446f8fcc6bc74aeb1dadb4f06f5d1b49646c52708c447cd14, 0x4c5c782c8c1541ffa5d1cc2d72f4ca7e0d269be6334d8694643a0fd716b02d9e],
   [0x0a88d5bde48f9b752b856a2646a793cf285473c38870624240b143758c0b5289, 0x5e3fe7b3d5cfb69f87cd0c2d9189ecc88d0f104bacb79bd8b7f53c5ed87ab646, 0x4c1c38bc77690ebcf900b9cd0b753e227339ba81624dc85fa9539f2dc626b2e6],
   [0x1cfea95345ce89e544d0447eb5a655610588ac2097f3008389897701d404c98f, 0x3a9ec343c1c6a122f3897126da51f92d0187ce6e0221cb23bb1797fe4ba72e1d, 0x3bf940ada3cf20415d3b0b12dc1e0ecededea4dc1e5d7d1587edb6b4c79342f6],
   [0x008621ee09a0ef69dee34dcea9261a2adfa38e8304e461a9635bf49c0f36d4be, 0x60acd6ad5bbf46cb3d215c5bcc362349d08cdf5b01f90a2c1b945b316df4c40e, 0x704f5c935383a8f4d020c56284fa5a83cbb9115d409754640a6e1c4fb97c7a88],
   [0x580b48c347475fd5bd329eb4f4e98576fe31ce7f8a406325441c039e5421656b, 0x209cd0df3e50c56186a5db349b595bad4395036a310c098ecea3d041576725fd, 0x6e55adc04c723d3fbc8da51643c004b68d40a93bf745c04ab3f8daa77de33fa5],
   [0x648b107f3892d7a2bcb36612fae09615c67f008fb4b9a9f168e2c1258632a813, 0x25b9a4649aa7d962e12ba088d37d5b582f5f5c160c8d28c03294c26a52447f18, 0x05ec12eb5698ef5afe1a8e225a299afc37b923dfb5094870f4ad979aa416fbed],
   [0x58a840d7a870788599df218210d12b95f2e0aae7ffe8cea8d03e093281286551, 0x3e682fbf59f4cca0b6d50829d76c246e65b7f78d939191d570c977e4c5257d0b, 0x0b850ec39f210fbf8797cd35565461378546c06a342edc84dc7831ce36614009],
   [0x68401ae3bc2fabff21b207f6d74201400cc3e8d984495e70b6afdaaa61e268e0, 0x290b9a83a1cb831f478bd70ebb8930d0cc23f44443b3d1e61dd60f41b6a49274, 0x4b69d520ecca8cea66882f338bcc0ef9ac7f361be13252d0b8a11d03edaf1831],
   [0x57b39cf1f0ea46850b019be2fec197260da68cb15b0675c41a7fa1530421210a, 0x4546c73d0c7f354b94a40aa83e09d75d87c9f11c865ee8cbe627eba08a3be38f, 0x62bf47c581239d648e958a838021caa7826a1513c1e71253a6fa98624d0a2a27],
   [0x4eebe4ae39389914984e52e9828e8ac485c4a0abb937767aa9127906588fd189, 0x04bc379725cf05684871ffeed475d2d2bba63620f86306bb445ab768ba2aa185, 0x440b5661c3d15e65143a090d6bd2b84b8b716e6ebd1b7d05771e91e7cde024ec],
   [0x5c77b598f3b97fba6d9973d25bdec455cbebac77d56c6acb1a60ee894409f8d8, 0x2328f4080eceecfef5ccd20da1be4bcd31ae5cc77aef7ae71c51e18c59c3f1ed, 0x302caec20a4e995e4ccc8565a77af10e49b3f7754b9a5967157944c30743b1bb],
   [0x10741146ca5ef1a2a085754a2ed15a71fb495875bb63c5438ee5bf9d10e8c058, 0x465a65f1aa261fda6a821a89632f22cf2dbdf84f37f2f8903afbae58dcdac5b6, 0x1a371581be47518396a1748d6538e2f4ff683d3405f7f5f73d6b9c52d1b99d9d],
   [0x049f92746cde1b4280a5d7e8da69b7eefe1a2c4905d2846a69c11f4c22e06bf8, 0x5c9bd12889f8cf15ae721e85a75821cb532e53ce79def307da6291f7e34f27dd, 0x7240300cf133215b386ab97daf5fda13dc874ff0253eef1cf9992070e26e2d12],
   [0x3b8e5dca75c3cfb9c2579fb74cae071c8dc339208ca47deec9065e78dc881ba7, 0x51e62a2d38bd6bed7480a0b4852d8f09ed0e339ec2073e5b0c513600cd67285a, 0x411a4c8134237ff4ad00bbd25479906ec6ef6dad629b117246003c31765f7fc2],
   [0x11a05a9592274f3cfd9b83b849c774f3c53dd187a65fdd807765337ffdb6ebbe, 0x32d4144bd5e6a92072e23ab63c252bf1bdcff45c185f2b14bec92202465278b4, 0x3d8a49dc1f8ff51cb94645a994a818a1483f37fe38c0a863610ae6d1f59f4566],
   [0x494206f22970f333d7d7efb2a7c1cb29e92ec199470aaf035a421fd005f9fbe2, 0x60ed9fa9211099f40edfe6b86e5435a8064297696b72ede5c0710adb400629d8, 0x399070ea6f6b8ec5569408200d7e3c9f1935e00ac893af9a766efb21166bfe36],
   [0x5fca75e89233230e5b85bc65f21bb5987c7ca77a090e03876982e0d444672368, 0x3242e136a19a866cc85712dcf62918bce13bdda1dfe67c24a4cabf36e365bc0a, 0x0f46bb63560d481ebfe015bc67dd4e51bb7463ddc546d3d436e5cb688bde224d],
   [0x0fcac22e2ed86b92c2bce7a64d6fe20785f8a64fc3cd44b7791798d6ffd2cb5f, 0x466defed67622325544f9da06f261b5adf6bc1fcdee0768d6afec8495c6b6d05, 0x56ee5fc88c2592e273326dd0196f088cd1d36758a83517355f7abd397c81efc9],
   [0x627635a23a4642ef2efcc5f71a6e48bfc6d2aa646bf1a78e03408b431493fc92, 0x0db2a01d98799909617028dbbcd9ca49a27accfd4b5aaaf03050d78ae0c4e707, 0x343c446f363b07a7baf45a6fa516f2f5234c9da12da24c5c950ecf9d3698cffd],
   [0x6ad60300202131f4765c2f822c59111b3e7170a91df9d9ccd3f4dc866fa2656a, 0x35520e3e9547534a00c2ef16d42ae1fbb4f63896a4e261f571f2071ff0a434e8, 0x18e2bc16686fde3f4d65ab127982160400583faec949be8a14c0be267273e24e],
   [0x4ea4ba1b3cf0122acf9cfd809ca7c2b331ba0397badf4704cc26719d98cb2569, 0x5aca1effb98ee8ae39c14f75f232f6b9f8ea43b015df9e6f9aed75198a2959f3, 0x47d6fb839a2eeceba8624f1a8e0aa57036f6538dfa236b18a0d970f5433337ec],
   [0x49ee5bfcea8ab9d70b1092b5381c8a149b398741e38ccf1a62b27af2a6bbda9b, 0x1a9d7fdef949af9f8f4d7be3d6df2fb11fbcfa26bfdc1ea7eb9dec8a5b018f09, 0x0e6dde8951c3906c528a73f7390da5a327c51bee762e85a649794366139967fb],
   [0x59cc9e4eecf44ec21f62b2ca73f46209b80d92a3c3afd34d00d74660d41eb3ed, 0x1224677711f1c8c1e7bf1cba520c187a6b0ce732fd15fec589a191ba2531e924, 0x5386031dcb90735ae19a680eeef02d9a48b0da8d5c2163dd9d3b8f79ccf72c71],
   [0x6869310f5c66f2ec7bfcd948da4fe0251097e84bf2a56d4d04cb759bae6c54d8, 0x5415058859a780ada562ce9e1a16c874846051fa2e89be4b716d38d90422f6ca, 0x00923f9b8d8bf4e6da72c660dcf6c73323ab8464c1be4165d7f9c825b6e378da],
   [0x3121dbf9153b81e93bafe8f7fbdbe1ca51d08ab1954e1d81e103727126c9f997, 0x72a3e5fa7527fe237cb87699f34b6823e67d054f9e042009e64b8c6b430b685f, 0x5962fc48f13bfed03d82e939c18c6dcea60dd65ec04f12c64f306b52da3909cb],
   [0x55f21d1759cb5a531f8ce6738a259224a20fdf087bc91c6457bd172b2cc66af2, 0x725a78363a24dc7828224d5970c70cefd62c6894a293acd68a85b64bcd9da6a6, 0x53037f1a24c6e43891eb1ffa3e3fa01fa6fdfc692cd079e136f0aea007d11516],
   [0x32bdfa8034123b28726459bf81a351107bb51072303742efac53c5fdf86a7259, 0x591049f0c57009233aa0d64a5bd3692f26dcfd71569a093f88741fdc1e403e7c, 0x67c7e61d817e9eec5eed0be358a7022a063425741b41e3d7b2c8a59a10ea3c81],
   [0x39fc1a25f3aa12efcc435280b2661c3d86a3f3c7c23648ea11e43b22c0e2e5cc, 0x4cd7811037cfd93c871802e6cc2f9411a65c38baaeff2e7b1a4edab7a69bfbc4, 0x498be8a014709891e4cb7b925209d59af7bd0c371c58578b36e534176a85e379],
   [0x434a51d9e320ba7b35e2f6007a22aa187a98132df1268c80696cf69155f15493, 0x37eaa43631c3bd82683a32d73e7776604fd3c46f9d0cbeac6cd0e71ce7c3c5c7, 0x12cde892a12a2ad78f3eb3031e103ddc74329294cf77b60e4ba15af6f0604b75],
   [0x6c07a97aa2b56da4694ce3b2dbca8465273de26db67e914b7b43c278adfbc854, 0x19205f51def8e3d739cde771d326347828b25da3abcb32f4b1e42fe327eadba9, 0x69f1206c9e4c4aa974488a83f1ae73efee515f52f0b2b7c1ab4bde43a93fabc5]]

/-- `MDS4`, `src/poseidon/poseidon_instance_bls12.rs` lines 491-512. -/
def MDS4 : List (List Nat) :=
  [[0x71e393aeb96e0edfa734d7481fdec069a8aa218d1bb3c010f62c64c52c704b2e, 0x2a0cbfc98f309fc444d61a4df09cf71d33aeb8958b0589984cd80487a33e74d6, 0x4329edbae3e9cf7c050e62d15624f5fe7df5d78fa62615c168d966771fbb6f06, 0x522df6442ef2bfcf2b8455bbbb867dae45a7a0a35b6466bc8312f731bd50d3e6],
   [0x38324987bb7c571d4a23776e274db73d68de6550742c54da78b86a4dd27d739b, 0x2af7bb313b37a74b0eab2c863d8bec4d5eefa2c09980b6e1df59262eaaf4299c, 0x67fe367e1618bee13e17b39462b8334918b9e0d68d11dbc82bfd8a05880c38ce, 0x001ff08ad2862a5741578d5808b9030da3e6a4e2059f32ee23ca73ece505593e],
   [0x48bfce21e3cb2ebb84b8f89091d3b5eab75aff648a161577f4de95b469e22b95, 0x1c214cfe4cb9e5c4e7c3204e02f7412ede32286b6dfb406b974aca4f7d18d7e5, 0x41c855592dfc6392f6cf66325cbbae841668361c9b7b6f43da5d3b807e748039, 0x112ab24cf2fc7b159ebf185d1bb3a65f0e8c5017a250946ba4dc64220096d0cd],
   [0x309a1b0ef284e35e7174c5352bdaa823cff59bdb7f6468db79d8938d3f1952a2, 0x65d24dafc9823f155f9ad1daf64aaadec2bba8bae97ad6cddd20089a439efe27, 0x29e8c0706893ef969679c5090ed73d6a15c4ad55a8eeb396d9d9ffd0d5a3ac5d, 0x6e52c37ea34cf0edca91b463a2396778b9e262a4bc35c67d5e95faa6939c8075]]

/-- `RC4`, `src/poseidon/poseidon_instance_bls12.rs` lines 514-835. -/
def RC4 : List (List Nat) :=
  [[0x435dbb70fe9639bb3d2e7e1948b167bbcc7c29bed7d24e2ae783b7258c3b9b79, 0x0307afe4a167ba0d1d93f60f15346bda015fa08615bc785bd204aee1741264d5, 0x5c0e30ebca2f181197c0f06e98379ea11ca0b657bf1dde1060041f9e959945d2, 0x181b9f96bd7efa33178ba5316e4441a392c2bb1e0d5437a8ff1613f5997cc4cf],
   [0x428c5fb2bb090a1139904e862c27c1de0beb6790719c72495e4b83053dcdc51e, 0x6966e075558905b9ce6122ae7c5bd2cdd5dc93f394ce03b64e2a6a6267b81206, 0x521a2ac09efda0859ac79dc6b7948ed9d184b70a93397757c7e1e78cb95e2ce6, 0x0e09bd2528ba0b94d6ed86121aa48abf769d47c65138c5993a573528d2f09837],
   [0x1360abae0b804b8f70007cc8953ee7697a650fba556e3f0bdacb8376f4ad5519, 0x0616b4bfdf7c135daf2dda0fc23649e67ecadd04666c0c20b25abcaf4325dea5, 0x30d52aeb1848a121c102f3cd4c26c3a8b33a012d9a5d5d370ec2469d6bb621be, 0x29179ed83ab1110b93767b25101a0ed78388651d7926f80d0bedaee66e4dfc37],
   [0x071e1b7a0d4251e03b897b26d64e19230a94d5579de0114e99172feacaa50f1c, 0x08c69e6eddea48915949a0c7aa08d1d01b5128f7eb998d97b870d9f51f1aecdc, 0x0ec55a6b06550b25d3df32a9c2e24ae00a89b1a19d65226986033c2bbad66e02, 0x38891749192cdac572a4eb14bdef515ebcfa720fd7170230bacfbb62862401cc],
   [0x210e13978dc5983b3efc3c3643b0df191cb26f2eb0085079578b1498f6c6f19a, 0x0e7df63365732c5484104c7db6676a77ce32e0a4a06f78a54d70e5fd655adbc0, 0x2378638e5e2c069daf8135babf89ce5f62d5fd5f374bc6a85d5d8e835df9a8c3, 0x429b476c33c844ffc774fdb4573a05fcf60f6c62f881b21dc2bedd7ce3d699d9],
   [0x0c1776202f964b1050a843ec1c09d0b2737a3562b0ac9a35d4d341a36fee7b5e, 0x214769f3449c3ec3a1d274c932b9b20b7d58606f1b39ec4d7c550f90f4980d7e, 0x2440ca310753171d1ecb3276fcb1abe78329665f1ee54031f62f02238467fe6e, 0x41d7fc31fb80088dd2e5050e9ca265bf0d3367272b97abe417e3889ec3edc8f6],
   [0x6acceda1e5b88a6d5e62c93a248225b3d019f22564f7b5dc2aacf619ae2f8647, 0x3bd0c24df838361cf463d5346262b4a83fbdeda25ead4bdf3a0ec683247546a2, 0x1c46861bb307c05ef9744ab2f3f1121944e4c45034ee6ac8f0272e755d4b6f6d, 0x0aff9e92f3b43678fe551bbd8f25c2613b03c0b8246079e180a6cd2cbb4c9c24],
   [0x65c86e5cf041918dd50f1459eae4988cdd99a4bf7d1babfd946ffa235de2e73c, 0x34456093491393fc5ae59ab7c7b6169c0b0939a52e085f495559c23a7c7e6c14, 0x39135f352442c5fa32c3400534c994e279913fabfcd9373bca18052fcef15803, 0x6354a55ec8726101d11a749214be3c6418b1816e577e08f1c1a2f435614896cb],
   [0x0d3b0448c50b68f7baceaccd94552a122b89b786ca620b863c02a7a5bfe774cd, 0x37de17de5d77d1aa293a04e1d2a9ccf8f5f475f1f6d00b2a9e279e20b6df70c3, 0x3f06cd79850df6108be46661a92292eee0981c98d05ec2f553b8e7a6cdd15a13, 0x1190dda4cbcc050860d69d9b0841f371e6ee0f1f3e318a193a3d254c8ea19930],
   [0x4d486da7382a041ff02f0d19ac57a8d10a46363a3ff70fe6166ecc52d073902d, 0x2b6542eaeb87fc42fcd92147064a91a0214004b6d838afd7346a2716b3ef92cf, 0x57511ad2e251bb9c3510331ef75a449de6ab76044785522e2c58118073734374, 0x3d8b02b647073d6bb96f2e9b27b0fb80748c9fda99003c8529460644a3999544],
   [0x4d01c4c679e545449955e318ee0d32c66969b9ef7351cbefcff2be6db93d6340, 0x0d148334ee5f03afe680a0bfbc479ebba90c149c251c38dc7214d192adc23d59, 0x51cb09abe4ca48849b8ed609a35530063d1e108bef461b57cb4ab256d23c8715, 0x6cb836cc464e1def59ee2eb012ece332dbe6e8d40fe5be20d467f1aac6463a64],
   [0x4aa865b463081e81767d3a0bb6d996b80b46e60d252d4acdc6a58b686981a4e1, 0x6d74e3ccfee94f471b8e2906f26117fa6ae0a5ecbeb8d5d6be7670950c7ad08e, 0x31de4d8889e45640c1ab6cb3c1e448a59251868082c8661e23ca2494fe20db41, 0x0cb45744245e16f06ceaa2fb2a7a867250aeb0b72c1362dbd59e8c42fc272403],
   [0x2022672836eb3a87b07d2b8e8d3d54e84ef074c3f3711f812ff4b917f724c9bd, 0x14a3a3c5e0772147a6099b58ddea285408e653738c665389206678f49cde7ed0, 0x64aaf5f888bb77306894f4197dd84f69ee9def0215594abdce5ea7981fd7b04a, 0x5966360244e5804391c0a967aa24682ed0d253169803f1de4d7a74610ad696fd],
   [0x72ab5d880b24076b9ab2bde88b7f6c33b0f7dbebacc7fbcb34b7a8257a7d96d7, 0x6710e136713dc87ff3f9cb210aa1db11394f00ce3b255a9c7c717edb53a62107, 0x0b4a708d71ca90ea133e0532a3328c3957ce53f2b9e3fc6d17271d47d9d35b67, 0x4c2375cffbedf2ecde0634f867383938a70cec4f409f728859244d9df7d15154],
   [0x604027adcb15669476ccba80d2d5c279f7284cadcfca2e5fea7a3dbf25a07ff9, 0x4b3f8fdba7c3c15a60e060fb40c89ac3774a5d05563fbabd283049c681dc3e88, 0x3e4ef282d1a982e9d194441da324ad190ebc272c35f87da4b493731d145ed9e3, 0x3ca36c11fab63fbde4d2b6acd740791e802ebe6888ff85be9be64a34afdb96e0],
   [0x59b6ac07a1c1e77c48969c3ff79699ce5c341a4dd7716bab3711caefd1e08983, 0x0585c41ab8870f47026fcb4920d5a1dfc46afd9193f71f2d6abe9e13f4a37c00, 0x3306f364dce1e440ad2351d33fbe5f15fbdf4d9ff17d27e8b21d14f00e95320a, 0x30a82fe3a10afe039f3e8c2e7546ff76a4a3d4541b58125dbdb0d2516fe8a6ec],
   [0x688ffb1af4d60ba856a3b19eb147ce65cd68ace786afda1bfc574c9b93250f6e, 0x1ce1b8d7866ead6b29cdce992ab8960686cf3a6bc7feb49c3d460abbcb069c0e, 0x2cbff76a00d623515166d5b581f0adc4f7f713eabfc757e853f667893c90a827, 0x63a260c6e46d75512b405b32c6ec7f8acdd64dd6d53eae4e2e395cdd9f5c520d],
   [0x42223d517e729c29cd0043929a48b7e3ad9251375c3a869ff7ac95aa98445a0b, 0x4db292dea742799cf5ec29f166d16703d01f66e48c0d2566dff402af4a680a32, 0x61740f9a82c6a4fa9abc516991f0e6b87f0d5a319bb8256026f184513919dffe, 0x66c2eaa8ca804300d86a3972bddb6a53817d1c36af548c7362f79da78aa6816b],
   [0x1519e66cc576cc14ce2956470e8cdb70420740ecabfa6181c7176a70e79af414, 0x6ebf120fa7c372ce9c7c17a07bdda63e9ea3b2eeb5f4a7bac8d908e7f1209103, 0x5395c9ae6af6ee4858f9344f430ee8208843fde1cf235f97b60bdc5a3e848995, 0x1fa295097c1d41e6fbd9f72fb0af9b5aa3d1a8196821b0305527bf62979b97b0],
   [0x42ddc7f384cf8f928cde8f88f4ee7d7b62b9163ac70aca740f2bf7e52e38228c, 0x54811c99d6c88a6277fa41dafe17b7a4f2b8ac8582fe266c751fdf7d2a88fd40, 0x3ccbabd0849789cc1c434dd0c7356a0ec71d03db3ab227aec51f2a5abbd8aacb, 0x40d6918f0d6d75cae13b6cc63e771b27ee189301d97a2a207019f1646dfbf810],
   [0x25a0fac67dce64b86695c1f9986dfd547f51b603f6d73b5c849c9548547e2b32, 0x2307d40b97903f0f59f5df01de9ac9a823edc818619d555ec3d9882bf5ad2fca, 0x398549f8aad34cb56e6f66bc76f30b7e0a0379292e0c9db49ef928719e83c4ae, 0x562b6d5e4cae80684baf14b45f5216ac45e8dd10ff8d99531a94332966a7d8d6],
   [0x0de2f7224c7db546a7aa0b7097c6d48846cbe5ab35adbdbc14a134581a399168, 0x6645f7389026a44284598c2ad679a73a487db8ce965577e57f51361acb684c1b, 0x47987c690cb45bd23189fe76ae6fe562ca7757ebbd5f861e97c6493f20e3058c, 0x6c158b77a9457918cf699d0759b2588e8c3e2083645e4acbc679ffe60b4ed081],
   [0x03a8f448b6dfdbab048b5f193acd1d89b3c0d8777449a7c9e82836d71fce09cb, 0x6f82e6cb42fa93680f1058179be9ff2463a16bc2af5cfe85bba7b6f78b057b6f, 0x6fdc6c0c05fba5fc05e81673a730002393e23f5d6ac931dcae63255550b941a2, 0x18fd1168c293c5075de568971d285277010e8cc19dc1bf17b2dae0a3a38a0bda],
   [0x61f681ade3a5eb4308a786c967a76ad142ea814f5fcd788cd326a18d861855ef, 0x46351a8e970814672c6c2a5b8a2c4bf93291d4a7086b321e5d774a214f6cee42, 0x2b48e2821ea22551541577ada2edc1066077c766c1c0a84abeed33b2862624c6, 0x03af5569027cd396d262908fbcaedc7aaebd9ce44995833b312607ad33cfc958],
   [0x6771e0cbfcd5854b869555fa79c9b46f0704f1ceddb2003538864ac645887231, 0x0c60fc4ac4bab581a11fea9b1b5e1e1e4692e78231faedc6719ada9a395e5c84, 0x0553b99c71556f4d8ed95945a96d6cc1bf70a0d2307f77d5e6ddcffe852278d5, 0x14b6aea2c0ba14365b3a0c56e937338bb8555c415400e287f8b7bbe67b59b971],
   [0x5b82bbc5b5c301000e0ce4a34777f6df59ab8540338a32d1eb50426c9bb95309, 0x35f07a3ebc8947fcc9a72c3838bdf80000c0caa346aff7d1fa45ddf3b5892df9, 0x158c739d41772ef413fb5b7b21fcf0e8bfb9fbf9a4318f99d5467d05ece81587, 0x2f7ebdafde0bbe158a265dee8b18a1a4a0151952d06d15f389b2e517292b96eb],
   [0x41da27c7cb76adb43dc3e4d1afc732aace59618f0e2eb0923372f66504ca3076, 0x0a80d961878f34b45b371a87b2ebb1f9b58f3fd2719e5376d802c238796b11e9, 0x6d3885078660fac763b5982bd1f401043b5ca158341d24aff76b84b1df818290, 0x12cec3917acb30cc1e15281aa7bf53d90419d216986623613fb10aca9be742f7],
   [0x58289c672e594998792c12773554138fe3292caace0bfbadf01cee48ab72240a, 0x31c1bcad4eef1a0d7a73bfc7291951c337860dd5730ffb7400bc9ec72a76de9e, 0x1a28349b10c85633174b26436ec2cbc372ed1afd4b29af83cc89cb94ef457891, 0x5d6e8ad13be5518ec892ed1520c066a64ae425bd392c77b8843b8e842512fbe0],
   [0x00a2a6963b53495afbd3d312c684c5babc0037651d8f180d35d66aef892b9d2b, 0x5572d3d64b5bc3a507568493f71cf86208611fc997e323d8e92bf909b07afe89, 0x2f4d74cea3c17f17d4778ce57e59bc217f8a5856d189079f0b60a681c0e325f3, 0x6689968d8d529724311b6fe789bde980cb92392a91182edc36c57b09f4405304],
   [0x4d51b3403c6ddcec7ac976e62754c65bc338d5ea651555a876285dfc24702141, 0x6349b82e8184a0f1da93e07a6901fc23cf25bed7d6bedf709249947ee7ed5a35, 0x18a791400b6eefa2b19c6f83e019f170aa6bd445fcf4915f915b621c1573ba44, 0x333d6751bc4ab5d168a2ae3c6ceb237e26ae948bfb205e8b060d383cdd674fe3],
   [0x374d51e4dee080abb1a2cc25a988ee15320ce11fad84e8eecfe3cf5bae13863f, 0x2b42981ce6690c373ff43ed24e5c784ff2e192d0911ccffdc8262dc532de4867, 0x04a8002ec5feb1b6bafb30fb78d65023254751977478d7af2c7fa0e87b83d926, 0x2f82302976ba29681c7cbcf49d0ad1e1609c1e727e2a40cf30260d3ce57dd6c3],
   [0x2bf08176879b9da45776d2fd57988de0f12f33ce757411f27dbaa181f9cd9a6b, 0x039851bff4e488eecb8e1f59168682fa47c2d057aaefec12315e2dfcf7df5ee0, 0x605a4bdeadac0722061fbb098c05f47ccdc26ebdb45bda575f0c9495d27f6de4, 0x609c5a5b62e3eb56edbe6dcf30f937502434ff935f5564c0a5d0f686b8c4583a],
   [0x4d041c087422144212ec8978bcccbf1b8f471799bb8fb5c527f7bf4902fdee49, 0x17e6b7fa91ce16fa1818c61b4871acbbed0e3dd902aae03afaedb7a14c65132f, 0x528644c51eee10eb8373d43a3980b12df839fa178de5791f4cc53fc7cfae9614, 0x60616ade433fdfe048b713947f8b8475954331d393be923e772ef97ba70ebe31],
   [0x668f41b34ea071e41aad40bc6b04e5102eb2a15500d515c0d6e7013677005d0b, 0x143b1f278815a0285a453ac96e232fd54dc965b7af415a474cbf204a6f4c2654, 0x493726bef63266b200039437e47ee655704f641c785c72de2a7f852653b2aa9f, 0x13dc1ab1544f728cccb110b5d8a3b47b3331e57cfa9882786adb86cc70e55e73],
   [0x6fdb4a1b633c3e8b52910d143bc78493505fc721a469ebae764aa9d5f2fbd2e3, 0x10c11599636ea832ab3aca48b1a46c1b9a97dd0d5df68cfe2e6ebb2a0d5c1b2d, 0x3d333054b81e7f1a488baaf2972d6b41cd228e7e2fc44bd0dcadde4c50520882, 0x416549b06324046bdc8ea26e337a0a6ddeb83bb76e85ed609f4ffcfee9556fdf],
   [0x4fc2c645eb8ef43ac68aaef6992cbb7ef2215af392f7cf0bb326efe04b029c3b, 0x3615cdc9e839c98533ce09ec9139c9fb703d65bee903667cdfbeaa374032becf, 0x3723d731de7ebc74575fbe5701cd94ba51dbdd04a37afdbfb917e8f75d52b9ef, 0x4a061269abad785b7d1e3910c2ce47baa807df2be6b8f5154a823c225ba575c8],
   [0x083a8a784a984f22564334b099cc5db6297ea2831f6c98b92222b48b221fa872, 0x618235c3469a8443bf0c02a5113d258ffa6397c348b5e96369a4ad47781e4f7f, 0x20a22918f833d921243c3d40791e5532bb96632e4c1e6fd65b4a6edb9d12d1a9, 0x15f31ec89c9f83b4681857307fc8b97a4ece66c5049e73000dcb3117c570648e],
   [0x1458e387ac0fea846f84590101b081bf90185387542d5cc0c097f440d51ec533, 0x3bd2626d79f9b1d5689ceadd8e91ff146972b91bf85006efefd2b01e497ac3bc, 0x1d6a3cb53bc3be5050418257b01d9d5d0b1022538d8d5426cf2ad130a84bda92, 0x408f60ba780bf6331f410c132919f21a91dffb689c2dfd1c8a1e74a202f41f49],
   [0x6ba975d7b853cc0321a7a236d8cf0dfdb056588ddeaf82f9b82778f6d0a78ede, 0x18a3b273d1e8715a336b3f412a928b81bff10be01094711965c6375a3fbc0730, 0x36fc46cd7f322b010550bc1036f1c7abec5aec8e1a5cf6ef77d7913b662a9704, 0x3418d0dfcab4f80176020091b5a8a8f98e8803122929e5cc9ff632fdb40d8b1a],
   [0x0d910826913820c68af0552f51222e023bef305453ffc848d52796855b43b5f1, 0x636f59eeb8428abed226c38296e39524fff76afb1525959108c0efaf049a47b8, 0x06d5f15e9c5bddcfd6f6f86b9a078f227bcf841a7d908786f5abcee128827233, 0x6e21dbe0b1ca7c453fc8629f3f0ad4e9d01aed47f6cc9d5ed8166c6b00367d22],
   [0x09d9434f8dc085dfc74a3d15f73d89a1bde46f2c79659015e87a86d4f61e451c, 0x4ffbf816fd76132cc64d02bf952c538b5fb3adc51a31421e718e8f8aaebb8b2f, 0x7061bca7b176fc8893957c8ad8bda36d884c4104895c815cd8e78f49f90e4630, 0x21ddfccc092128048874a0c53156c08f9504a21d94dfc3ebda4d13073363c89a],
   [0x25e8ae5cc161160ea672beebb4ab2746950cd878072e1264df907ae9eb8fbace, 0x121c45420abf8e5cdab3ec9632c1becb3c42fe32aea83fa5265855d4ce4b51ad, 0x14a00fbc9c1a0319a19fe7dab909e800433556a4d394d50810dd9e42f79cd019, 0x7261bcd2cab92a568d0f0f6d063161d3988579c3d37618775243eff31aa2e748],
   [0x108a5bb864bef87c1ebcc6dfbe909eb7a792e180fcaa4fb60ce02a48e3f0b03e, 0x34d973e68a2b1179db3fe9937c5454b3adf89e495219ea8df5faaeaa67d30415, 0x1cc5702ef8cb0d489d447d08f7b66d22deed85b2e9e891317717fb1a8e8ac826, 0x1276800cddffa60515a5e57cc2cddcc3419cf1eed8791474c2188ee27eef0a28],
   [0x26a5bb35746471b63ef933bca24a49d366a58ca54150f0e524592795e1f4f695, 0x25c0a52e174ddcc11b5a3713702824a0608baabe32b55d293b201a0a27c2964d, 0x2b8cda9580ce03aabcd2508cce9bdbdf5b48fa7563c89dbd2db16cba4575e3b0, 0x48f8b225f65fa4f33d31e10698af06c59e387647d421d2005437d3a2a250ca2d],
   [0x112f07705f98748cc06f8ffd03e31f467d969fd05884db149a21e48537b6b0ef, 0x1a4923cd0a20ff2e2c0c3b89fc6069408e6b594b73061b26d781035a1c3d0872, 0x083130d75669dc95c0ca482e1a10caaf51863cf55af33ac10520e63cc8fc27ad, 0x492227265ac1e9f4b7679ee9975ce8d0b1adb3f9bd0b009c0a740b1de8de057d],
   [0x56c011941817140f9d524e7bab7c6ba0141bb007ec3699f8b998ce206816fc78, 0x34033f30606670727f5aedfff6be8d2013f3694b614965ed91cac1d8081187ad, 0x01ee164f8a35c64a2c356cc7db807cd83778914344b3549941090bda2c4ba39b, 0x42bb3cf5995d0f35e0214d8c0de0f569ab41e9ef75e71d0674012892d68ac68c],
   [0x283963400a7600040fe3e0fef299baad9b753a3a95132383e941453fe608cf69, 0x5645c81a6c057a50c7f415d774883607953b3865578cd9ba28101724b1751d05, 0x380a6b4359b921620795b3da872d508b935b811cb6d02c805667ffcb28af4d24, 0x2bad04565d6cc61669143b6ece9a1a77093ddd963c55e3a3cc11c53844041ea6],
   [0x0cf4a15499ae28bad732654915dc1d5b67a511845737909b1cccf50680f5ba31, 0x17c34ab6a23a149f249d490c9e88afc957ede5efbc18eb787890f63327e628e1, 0x38383a5e3b0fbf5350d048c4f16997705e8b9aa0e64da87252a3b21979e11ac5, 0x44f69eb8e9f7e53ea84bfe91293ab3a65f1fe6ab8bf7494e026afac6ac2bf484],
   [0x69a6655b628cb6e9c6e3b3b94f1ea8a2641c17a561e4a37eccbde34972624e3c, 0x0e072d0b971d68d536b76352ed16c6dab0440eca585cab64a4e0ba1e08615410, 0x4733e876b3b3f74ba58cf56b64faf89a95f1e7052599606c84b0b50e476ba880, 0x6d802356b1b924cee10d0bf2f0b480b54306b994218dcb9225e5400eb81b65ef],
   [0x60865619d73e9c6425faae1db8f9f3a491401b32b578fed491191d4dfaf2f3ac, 0x0b04d062c0757ef7ba7f8e54af428969c013d257e1f3d41d0dbbd0bad7711723, 0x22ac7eecc33347bc1c2abd26c1a9b35853bce937c75c542932aa1e87141f3ce0, 0x3ae3a7684111702cbeb86ceb67667cb3abc3afa2c93f0d8d8f2805fdf42c7594],
   [0x3e6b658310803f709adf8954c9b3b02864b37a490a84597bf74d380c06d0287e, 0x0273dc3b92d063f1d67c3e4d61e7bf0dc505f84aafa1243e9ebd12120317abf1, 0x1475088d8c356e610e5f4763d203c62e5bb941bf73a1716c43af9f1d50509f96, 0x1386d879763a44d259f99582124ef6d7302d3da8fd135fc4d8304117bc067fe3],
   [0x1daa41aa1644ebb8216172bcd30fb28e4e13ae754bd5bb08245fd3e39434e687, 0x124218390fad40862326265e6de2a7651ec5c5a6d422e568952b8fbee667caff, 0x1504f873a252e20b48d74663014532b2eff87628ab2955c97d0c48892c90b9cf, 0x1110bb10c565de009979db75bbe47c466d4cf37b822113f2ce77453e0a87f621],
   [0x316437b96f9cc8c18cd320e919e0d024fa4a4c487f7d78a2ad03e35df9b24d49, 0x70b15b8c41cb5fe087542b0abb05767d41fe184e67b489f4f0483265c45ae8d6, 0x24699333c2f08060595bea2f67d5c69e016d4dcd6399e9d1dbb6e69de7bc82d8, 0x5f6868c658998b59347d630ff37f438b8ac1cee1156c87a34972c6632d770f22],
   [0x328922bcbaa152406015cae1a2a1ca9b15519c6cd36588d5f51856182fd5a232, 0x5f1e4cff7c62b3a5bc89ba6fc70e7d20e61502f0b57ee51442b4d40da806b1e0, 0x59b1e88b79a00ed114839aebfd02b95dc11c61e02d871ff73c0ea986b95b409b, 0x4544ccfe8fb21d6a49db579aaa2d23939b6afd73bc8bfaccb9f8e13052638f9a],
   [0x47a0138447359ad695a898bb9f8f3d7770e74d3d1a382ae786af997d281c20d1, 0x3e385dcf88eca0c3c48bb0efb87d79b7f8da55e4c511f178af6b2d1fac2e12a3, 0x183b5d3b2d59067eab3a4422c7377c8e3f2e752eb9b22c97a8b7389e4fd01113, 0x37562ce51991499f8ad4cfe18ccd472052bda02c9ee4dbdfe3463dae34445d75],
   [0x421b21857527aa12f79a0d1e1712b31ee3c12f4f82c2e87954cee5bad9899d00, 0x34446ddd54ad408830dac6f68080e4b7d3999eb1cf32484e47cb58dcb4efca49, 0x052f2e208640f3d96cce87b89d5a1f1e100340ee6b59740b613c736e1dbbb7f5, 0x3d4fe52bc2ea3d112fbdabd937c13094cfb2d2914fbb21f6b417c5e08db84af7],
   [0x23957ffc11794cafe82485702c3e550f9c4254ea1c170acb5f297ada1d6160dd, 0x074918240e1ea0c22f1cb2ab87f019c60c93f97b3bac35766ad9675a9b698880, 0x72a6cb8d1ab3e1c262e67b7383af5989833135965ef0939d3ef5b9a772cb2075, 0x006ed13064351b11a6edb5fad36c09dd2c8ca35a81bed8429699813f0f52c676],
   [0x14b9a2ca056d4af215d7c4e767a773934bb878263244cdf2fe3d91a923037824, 0x17b7b4546ab94959ae33fef218a61010cee1bef29fefc4bec925b29004c931e8, 0x127647ad48ff4c00766303f7f11ab9e50d3e454a12fdf6e1f0a65d3ffcfed25d, 0x156e8df1f40957f9cddb9109a36990e6435f8f3192475a0421a24b50831169ee],
   [0x14a93d5ec7b96474fcbb753a9705225989e7222185d3ba3ea98425288f61f947, 0x342428fa567003be2117f74f6e2b64f92d1852b3a19785c85a9dcdc6414739a3, 0x69728785a386d98f1415897eef703c1fd12ea0ebbb08d1a4b86ca4a876970e05, 0x4205dbfd44798d218413a9ad69d1bba8c2171fe686f8d5e5161ef70e470a2dc8],
   [0x110e7c6c09c770034a4a3159af1552b93b6a5dcca36d4fe17c4d1ad25ef98a60, 0x2995c20c83bb958c655d9d7331ce04fdefbe3795bb41af31346836db93857aa5, 0x2f638c37f8c9b2fd506acc1a6716cbc2e035e6e3c6b7a18bd656bfab5f44bb7a, 0x09163acefb6a19112feb57a0d5dfa40ec9be98bc7393fa651447c2a08b2e92b9],
   [0x000a14e2951283469d27d64ff53de85bfec39491c9cc17d7867d34f4ac2c7ed1, 0x17cfd1f18d6a19c63f3eba4742556382118ab17655e3dc2a2db314448afb563d, 0x4329d7e65590b914a826cd44e44e9bf40bcb7795dbc9967cdf22f7c235e54944, 0x27ae8b032c813b4068cf9ed7a33e4412c2c2a542c0b852c223488e1835e090f2],
   [0x071d2902bb26a43c8a22c8e1b0e2c90c0b9e6855ebac5d2759842fea1576d85a, 0x5f85259bbd72609259df9d1eab84634decdd42bca99a7915b1ce0d2d13bc72fe, 0x2694ef88035366770006ac71a69237683c9338cc3170d8ba53af6abcffc0e029, 0x5b9711d919c871e2856571ed2de34f76bcebf1f6338b3149465f1b266fd36c9d],
   [0x16880111cfebe378ce8f8a9f7ed97a8579533bac735afc9e40c06f5495409075, 0x4d836438f0db187658eed75bae31ce7d978a1932aa894665235fee6e49b77abe, 0x2c03d6f3484ca56c256ba91a1d71a4210d840f07749196ff752c491c79e427f8, 0x350594d4c210d6e66ef4fcbda72c80cd55b3dee5e91250a63d4cad3b14b77478],
   [0x5d50f9c8ff9b251d03b712c6f8d60f6137d192e69be0a92380a64d310a084e02, 0x1375498a707afe69452fc093e90d23a54563582fa18813f02bfe996d35569f02, 0x23e23d46ea3bc5cfb9aff1642e998710880b414a2048193b5dc642001a9fe1aa, 0x09dbae187a8543426c478b15560ca1838400236b1bf598dbdb1878b35eefe09e]]

/-- `MDS8`, `src/poseidon/poseidon_instance_bls12.rs` lines 837-910. -/
def MDS8 : List (List Nat) :=
  [[0x6c5ba3546502f620f39b97ba50894b9a84f1c957a2a28c35d75393be0805d24b, 0x22d34163106e552d46abe358c0d249a62e427e5ea7ad1c1eeac5f948ddefb078, 0x40b7304cd3aa5cee20c662ddd9891628a1455e4d57b9001ec28d5e5714e5fdaa, 0x67a7c5feb090e8f1b7996b1f3eff2194d930aea080790d782810a387d3d8993f, 0x1986f52607d7634054e4134049f37f65f49e8c85de08219745ebfe1ee647cee0, 0x23b5de7cc8bd70790b226afc4b393592c45e8d7a674984e040c4fc076f386cde, 0x62d677f7ead47404d6bc1ca9d788f76fe763654be1d71f55f301551db98acdf1, 0x4774077b8e23afa80e9470451852ecb8371cd95f428e292a5f4ff46f0836cf90],
   [0x40d32610f59bace7bde9c429c46037933d4cf67366a4f04acd62023dd9f6f724, 0x56e5d48f11ed89f976375fe3f32a1afc25d57a66cf5261d0db27f92bead64014, 0x00a46b6e8b5ca9090f041c58b89fbe5e811565f3f8dc1e91e71ef6858ca64ee2, 0x6c9f4ab63b31bc1eacde54097ebb8849ecba2e4c149a21dc5de34b6cb1ac9435, 0x3b378965dfe9164c314d299ded2023f4aa2c388821f20f29ca7f47351fd04d56, 0x3e3272ed5042e3b3c4adb12049b66fc227a8387873a625a10dee69f2a20bf1a0, 0x1f2192f8453986487a2a645a12c240f13c40b7e68d8f17a1f058f0d70cf91389, 0x02f274c6a3ace9257ad8fcd256fd119e2b59c87ad32b2387ae83ae0b0556e6ba],
   [0x3cf89f5e1303e355a33be8ab7f3d331c2d0615fa07ecd7281f31551b14085ad5, 0x63804b9ebb96db68fba23f264b9e9b1b41d0f73d18311fd36cef1ebc5f46757e, 0x20dc2239afb0eb0369ec6c2587d8dc96a4e89052125033daf6faf53daf5e6783, 0x03a8186bea6f8bf94a636bfac70586b622825c3d7b5edf6ffdb3f809a3552348, 0x456b585221e5984abb3f402e18566061b78925d5fbc3868afe8f7b0646003c0c, 0x22860aabd3781ee5244a9c3f11da93a6c6da4e72f92ed83f1c268d1660655eaa, 0x013339db35dc0195e1b24f1375fee41e22ff5c07616873d3bc5d91cd4af65a7e, 0x3a9f31b460bc076a5a6c66b457e93591a5af54846b637c33384b2324976e67a0],
   [0x05b16b69ecb6fd55a46f167c6adbd44d0bea28ad5def1ab65ecd224ea65bc4c1, 0x52aa8cc24e2c0f89aacafa837c4adbe0b3ec9d0cf87958d56ada5b3efdbd4c60, 0x50de12f36d047b3a53760ebd16b1cc2840dc2e9bab6336bb3d997a709afc0200, 0x0260236915d84353000d17965d96154276e65d89a1781207a1bf0dac081d028c, 0x1b199b40a32f2264f84fea42db37838733e8fb7f7b9f9840fdf7bee4f775d2f0, 0x1bcebea446418f9cdcba4edcbcc9deb7f65c9e6bafc738d6b1980b9aeb623546, 0x4a9be2e8a7eaec61b375b8b1d0017be3e0bc624fcb0f66e28b0a57e0bd612fd5, 0x4c485ef1dcf2db101a77e541714883fc56cb10ffe0652b568f364265d0ae7fc8],
   [0x056d799b8c8e31a79bb77b69ca9245529b84ffde1ba9148b4c76804d64d2323c, 0x6c25f41f1d3df6f7afed791f683477e372e61a12b70397e3f99ead5727979cd3, 0x560b1fbec48f112b5740fd50aaa34bced08d49b4f52fd04b62a54a78d88fe5a5, 0x6a5d2fd2b741489e0f37d270b453d2fc8d4963de08590373d6facfbd692d4bc3, 0x5e131eb2f6e32b6c12fbff0d5d2a81b1489fa4060cf85c54fd37aa40d13e5daa, 0x22fe1c488aeafd36b86937b4bf191023bca003e675035fa076b5b363e01f8a47, 0x41be1612b45cabde1eca63eb4e3e9dca62d5dd9dbd7cab74575924517bc70857, 0x4f2b02ab9940cb9224cd3b0207af98c20b4de37103e558506e5ec161e2f7d59e],
   [0x4e0ff8de28f04a277859969fe5ad645b8f612948de4a455cb2540b15fe212b2d, 0x5f188ee842338c53d44397f943ba679eb5fbe6ade0822da9c3e20d122f036ad6, 0x64f1c39663f88d3e455f7e5506e9b086b3ab5f59160d0f14137c0bcfa14acb93, 0x28dff44347e5737287655c952cfb718bcfbf2efc7a8b2c3e9569cf676ae61138, 0x6e9b7211a9fd3cf5178efe88b1c1b1391c3abe9784c2401df24cc67a503ad70e, 0x657ecccb9d2853b3e60323cd6e1b5415030ac419063fe1fcc9a33219c0e6b9fa, 0x0258e88e78a251cbe5d2f8391df91e9cfee4dcb4da83a2814ea9fffc23b1d36e, 0x6375d0a2ac93f5975f47b97bfd0293c64c3fd1eb88ef7767b164736db645170a],
   [0x511b33325dc43fe93547269a2456c3c7671bc0edd8eff9d96e42e712176fd3d4, 0x3c57227ea626a78bc04a1fd586d883495c64f87788ccfe6dd64b1b622736fa98, 0x4a055384d2dca6cef7804c23574946e9e444584edefa5958addd96afe173aef7, 0x1d4b227c45afc84593877fe09fb1b13d532c44073fac0ae9ec0c4d3143787928, 0x41904b1cc17b343633bd658c8b83cc38021d3b6c3c162c3861147528c0737071, 0x08b86c3339f720892f63696d166ad711eae0dd25641d10c3d64fe6f9dcba9c38, 0x095a7309e3e1ef8c7dc57d0c5b496f1ec3a7152cd6e4593adcbf1805f6990f5b, 0x23bb11b4a5a91968acbf56e64b342233ffed1e9bffa482eb93213462b2fd85db],
   [0x155fee196b15d58b36481d3392508babfb3671a7668915631eed201e266bdb6e, 0x49e2f8c2dcb40a8a6f7b7850c3c7ccaa93d5f2e36939898751596f84621ce407, 0x5be696a88b97a4ae12140330698689dfe935ebea4389fed9369febb65600b646, 0x521d660926ee91272f3c4440cfe07ace4027265829ba6266cf5e8272b94d2ade, 0x712a8b2e416cc02c970353680f14f2f5adc02ce2275602b8ceb0494c8ec2d8cf, 0x63ccf532a1d915ddd934ef25a3cba7f948379ac02cf5482173102f8a6a5a2bc5, 0x01b722853115c9238eb6a6d8e78b066ac766ef52911d39efb865542a89b6d8c0, 0x0c4db18000ca210327bd5b53b214f962af41d1fe855a7719867101f91b54ef2c]]

/-- `RC8`, `src/poseidon/poseidon_instance_bls12.rs` lines 912-1498. -/
def RC8 : List (List Nat) :=
  [[0x0b033ae725ef356d790a3626bbb80ad2661f511df9668a6a4be1f7c53f36dc1f, 0x13f501d0d9dc8aadb12b05bbaafb081ac0708ebf1cd9b8f9ccad2f1dc3ca1a21, 0x46c9504b0d0f14370d33082059912b7d50ceb8bb5402d40dd460134715c5492c, 0x460704ba881076db8ec107657ced05d8f4d71e74bd4dd837835315410b5e3a05, 0x63dcc2ef09747b4b5edad46eb8a406719dbf17ed140e6bb23a39be3723db3b0e, 0x733e1da903b29ff523fca0a872b82b14237a51980773e3a104ab8d3f87081f33, 0x6fb59cb719be2ea6205e4e784ac902fe50bf8cde969324fcf910b6f19ae9ff15, 0x3228930f17e942783e49a4adf7b0f34dea733a0416d3132f072b7942e2a58c11],
   [0x5c6e0351c649a2457b899ce619f78885f0968de1d3c6397f1b46bc18b9d9b44f, 0x63bc9a221b8951af5fe8b26789d9615caa1f6177f2ed13abf4173a702c4a370b, 0x0d4adc74f38b0ab99060432732ae7fc862634d2cd88baac44301cba8088bfa77, 0x172f969ff6b74224f812651a47fcda05e0164f6d18789276e4108cdd3324ffee, 0x2c9ebb1dbd840a7cc234b775ba5499556db1e513ccb73c91ed759f8178e528df, 0x2fba253ff4460a8c696b20c30b1cea0d89f017d3e519c2d4eb39f71b9f24c468, 0x6a372e9a82ebdc14cc641185574b08b416da51180b20fbf7ea5678d99f2bfaa0, 0x16b52700a4901b3dad12625dd556738df899100f4a44fd10c0d66ebb9cb46ecf],
   [0x612a6065a138039fe1342406b13f9377b20d92c9d1f6f2d95888ddd51b34a703, 0x1090491c728d9cea14bea2c56f944d8bf47e93b394dd08038ec8c83c3f6319fc, 0x2be26b9e3d33efa0ec16d4329c81ec9cf660108b7f456db8c0f6ffa9d479e81f, 0x389b0935cb76634a207842e2f446ad8b6413cd41ea4b3950827fcdc04aa6e455, 0x23765551f9431a4ea6ba6fc49ce178d19b90fdb1ea2eff797be29b8ff9ba372f, 0x3f1e118d8790674e68e1a8dfc2d110ae40d3863e5195b46a673356d8620e461f, 0x3bd76283c6855da53928a73bb3f0a67c40a08dd201dd4a0e8130bbd59afe091a, 0x6f7abbac981c2b3dfdef1ef81c1fab3da676dd57b2df15607c282f135e73355d],
   [0x057c9061b4cf2baa5a2c6092ff10eddfccc68ec3cb793b9afff4f4d987dfff8b, 0x388251e0130c0532c41f2024dbc256e6f6627dd9bb7d0c4a9283fa9231d02f14, 0x57305db9977331d8bdcc3b0442351cb3fa20e3644158c5f654c3a877748d326f, 0x1cb8e043bd102caa4da36428829449fbbbd912b24441f4c2b194dfbc9f7ee644, 0x2c766830b25517e3f86992ba960c8e669d8129d7521e0440f56a6d60e6f56427, 0x12200dbb28f810a625eb52453516f910d81aeb50a90462bcd919e18e7e1cac36, 0x738406770e09d74403c3be93e1b70e8c266e68b6e650ca9d6b2913ebfc5f50e4, 0x645880a7f8e5721e5dfb9e30fdad628a1385fdd9d2c454c4e93072efe6827285],
   [0x209cd24a8393d11059a65cb2a5638a7335310f200362aadb3a2f97a6a0f63866, 0x2caa7b0be15d347cd3d7e8e626acd94173f4359a0f1d3ebcb4bc229d4b11e19c, 0x0d0d24753f2de9df8a128ce943e7957842702be51284feb94389a5b893f2dedc, 0x00f7c085407091f8f157749070e0b13c8fd31d659ab32a2395142b54151c9d57, 0x3f0cfae133d4e966b0de49613b7293829985b9ff96f5409970a7cffac4cfee9d, 0x7144a4bb523a0b3314d3547e5754d5cec7c592a9318f50825e0fc4053000f1e2, 0x63e9c7fdd9f0a58da87f62399f5755df671e11e473eaa6b3b52c515acd305048, 0x5efe13c53bfb2ebf6dc0c722f4764b23174eb00516ec4f42f8999848de661f99],
   [0x47deab133f354f5227e18641eb31ea357bc6633d6622a4c2b9f6185e9c039fc4, 0x4728819ab318a4a70e34e6d357f2d5663c175cca5a28d41c17127e203f0bf38a, 0x5068db2c6375a60c2fd3db39415eb93fc494b49b49c534908fc95d7f37b76935, 0x661712a91589c2b1033ae91606a738d1e7a300879af0beb3f14ee5b7f1d1f26e, 0x20ee69608c6e115fa099304c011fb6a3d98101148c63973dd7dbc47d1b5d0891, 0x0ff0d36b9dfb636d233a43c4e20f6662144fb6e7af975b560d95898b3910d87f, 0x2d0783bc52c092a6b2af90359ea10ebde8e0d09e66bc6fbd57ac4267756b46d3, 0x3324af6455056ee3cbc4ad594faf71b75c62c5bae2a9c035caf18909565d7024],
   [0x089e83de456b22781ca3d840a52c6e80dfcccbbfc05fa827e9cfb6828f32087e, 0x5ec2b008e4656fc3b87d11283fa54845d55497fb4a537022b84243f4d73530c3, 0x5f75485fee83944f011a0771f02a524024b39dd4b0f4428a483ba1dfc7c6c7e2, 0x157e81447576e04743099b31fad5e09584bc3dfe4136fbf7085c687dd90098f2, 0x71f723b2e1e4a411ea3a25d706b2d87da26fd6d00e7b7cde3faa0d1d089bb23f, 0x3eba7e6081f8b9f21c7bfbc215caa09339dfd3f687af1e3d1b08703ed1a2b8c9, 0x1b67b550e28c938ceecb310c40355e1d57c24d002d5342cf61ba3f1de982c099, 0x70749be6f730add95381452121dc3b8138aceda4c40b824b6dfb8845d7e7487b],
   [0x2e91a4aeedf9e0f4dff37031448b32f1b2eeeba64547b4ae101869ec56fcd143, 0x56bad264b3887b9827f3d535352540ad43c49fc20a846b1f0b57730b25b30ec2, 0x3fe4ac878bb26ae3aa41debceeb91b1940ed0dde74a1db8e0c4c0bac8c45bcd9, 0x135f058a13d290da4ee09f487ec3513aeca343a90b1c337b7cecb44122ab3e0c, 0x187a3df85148c17835390fb98b27591baef17d39b07a0bd34ebb72b3376e46ed, 0x235150705c6788b8244b635c900328dd10ff204c3509230cc8b577a92bf6ae73, 0x0a420d2f3967d55e24bd48eddab05e5062f636414ff8ea622d847525d2fbc450, 0x0ea2630a17696470b9475b8b4894e28fc450c43907f14b93c0159edd8ebaa58a],
   [0x02ff12701962c2c2ea702b0d4535d32304d786a67b1f80a0b6c3e86175a131cc, 0x249c72d1a781dda5697b629bbc81b2cc2ec3edf3dda53caa51eb04c9f3902321, 0x2c1a96d37381ebb98eb56d7d195fc5f52b3198ccf555f860768d8a3a246cecc7, 0x60fbbea474a22ed2603d06504f5d28f924c9e1ae7e84274f0ff27b4934ffb969, 0x30aca38c52f97433af25cc0ea57bd05f5d9523a0e7d14ffd4a4aed5c6f73a9b9, 0x16fd10e125dccc0019ce94b853895a3aeb303aef40af592a3d4fa7e986f21a58, 0x64d7be0299d6c18da3cb7a9052486ff4e0764d66af632d8a6d17c59b10396b42, 0x6787abd90f9cc80d650a3c77fc0636da8fd884c38d582353330ae887da3329b4],
   [0x6329d1afc57c6fe6cf9dd931533cae07e35bed2b76cb7986905679bb84a1de1f, 0x0d114475cc50173d977a399dc8b78674da3bba456c124f508801ce17df4cd27f, 0x15891d7fdf65cb4b55bf656a4268f88065047244a40d64a506abaa2e77b298f9, 0x2048fea7830c0cf075f66a32c6e45ee9b935f442591d0107abdeb4440c322653, 0x2902ec2978667a8ab684a29e566d60e47482369f98dcbb1ace425e0d28be76d9, 0x00387340f70fa33921bad8c8a5221af173bced29dc4521fcbd164fc063c4e0b7, 0x52c2cb22b4f9f812daabd072c8b9bfe19d3ee0d5069b1bcdded7d0e274752e05, 0x644658706a4e46291b4b4ffa129dec4199355c638e029dcba68412012667ba49],
   [0x1ace5a9fba14e8fe2c04f2e0fde0013c3d60223150098f8ea63f363376efb2d9, 0x07ca497f4db85b083e230703d5be4f9f3e5baaeba5f8afd451fb1e5fd7618337, 0x249f7ecd516394dc1dbefa142f5b0d5a2461ee0e4fff04d4938a49b0f70fd295, 0x667c254736eab9f63cd156eff57654c530911204f04d4bc812ae8fa4cf6e287e, 0x2ae44561a5d08f74743ce18a73609f63e48fefa3ae4e405298b8b051004f8439, 0x10e4029bfd28c1687186730a31077af0b504f16f48a4a3a8490e1c13a2debee7, 0x197e8f996546c6cafed54c44fa1779d037eacef3eb2163f74651bec20aa05b2a, 0x34cd1b44c4926120cda562fe2d639c0faadf049dc763fe5888e795d45e68a5d7],
   [0x60ffe67a1203c1dd9ba6ac4ce6f8bb859989cf4ffa93018bcb974f3e4c6e6ad6, 0x3546cac12f45a1253349c2b5d377355d2302571380b2f09e05f9a63d917de932, 0x1678f342785d1b7d6085952b04f1c80ab441ab8cd7e19828ed6580207db932c9, 0x4a6764f3cdebf016de3098b001722c3378f94780092e58e81daa3ee951cccb90, 0x4d97b8236fa595aa18db0e6fa40f32cbd734a59760f4aa412ef0cd6b07c213d2, 0x4843a6e1ec9fff64cf2db08bc10057d63594ac23867b07cba58a68d2e91ba758, 0x45a782230a552090ed8ed68b0aa1ce796cbdd02d27c99a24bc82a8db0f28c1ad, 0x37e59af0e8e97b43c757abd963c5d1f1cd9f7fe6150afd8c6840b6bdaa98e0bf],
   [0x2fb402f1f023a9a148eeaf69cf6b8df708d272fdc5fac42ba5749b726fb4225b, 0x405cddafd8f83a183d4dc343e128f79ea5f0f1a24dc550bb70284f1ee6af0493, 0x5b23705ace20ac8ceca9d8b006f9a3b6833a21080f7657016fb0ae6b83e20a4e, 0x33d3e4ac2bea2ea4c2ca78ce5e692f56febe06b66638717c712ce25db10ce538, 0x2b305dec66f17bd9f7371d8326dd77e087d58e7cf57576efc0f513301ad4c4b4, 0x6e8c3b1855bf1a4bc82ddbcbea5ac2070dfc5727d54cebedfa38ff75d08cd0ac, 0x152bea024826b4449e40cc75c78556dfbec0b8e8a9c7f040a44e82e0396ca1fa, 0x2aa65919ff961bbce12a44ad6b4cde0962ae21ded56f4dfcddb5efc72ad5e8df],
   [0x374c8deaf88a37c09b1383a0ee60dec47b9cea67aa1ec6655873da81701d7b50, 0x1798f096286abc5e3a26be543a7f5a67d406cc679c7bb70156f2569226927f6a, 0x4b61eb395d32a406698afcd3bceba77b280cd4a7432608838b6f718936decb60, 0x40a533b03628a36e91083d517d24b4e19c05e099f881e75e099310f449045b1c, 0x66e57c3a704c8ff4887c6bade7415b366a95ada5c03771ab64f220adf1e29028, 0x4992d50f9ac872d84fb33b893b2cf5cb2d830ec115cc1dd0c9bc903037c33928, 0x3cc89076e8115b9f33e3e9d224dec8ed4f4afb9f9deed8a5252ccf1c10fbc55c, 0x1ecdf7e7dd57b27ca7e70754be273d86a2d0cd1c54af7df861d54690656e5798],
   [0x347b101c1c0c749e723926531b8c2cd6e8944c568143f47a81f90e88d1688342, 0x0b35c1d6ba8aa53713edc4d1aa7ff4df5d1355c2fc6308c9e53d7dbd427acc8b, 0x2c44168a13115314354e0f2d75771199f712eb794f012d70a8e5b0fb64aa1393, 0x22e67453043596e9c8832ac08df901823817fa81e19a3e91a46c78c88e29e4a4, 0x5ec0a988a904d2932b7c36436bcf5368353007d6ac4b85fb13f7f6f993fc39cd, 0x124002efbbc2ab2724ac6d3c22d05b24678b30b7fc6b4d51b8bb194a47e6f292, 0x5c14595a95275399b9bbd7150cd57ab7f649eb4da8e1c32af2a794032c8d83af, 0x294e60c8cf275cf8f6568f2763f3587acb4112d0f02a93b871d11ea981f25600],
   [0x2954b846096e84e3ed28e306897578a0e526a8ccc449cd71ddb887aef672f1ed, 0x70e9108a99aa50ce4f521442e75eaafa65fffd361c6fd804f46f7dc04d1db694, 0x1669aaa42104e18c4d1afa6d947e40686bb1551732195b2cd7490289eba30761, 0x662d383af206e986e3504b2f753fe97a21b86c14e1c913aa0ac0a3517d9cd277, 0x097de29bc29ef0918518a1808e17a51a899180e86b4982b81553f1a17757d618, 0x4e434ec7a6ca4ee3bfa744e08051682fec9e6fc0eaebc963b8bf29a62e0607b9, 0x0794c7ceb813c5b881b8cf882bcdd492f80e3bc950ee8338beab07f67fd55b79, 0x106ae3c622cbdc6933a9fd0887d7563658c8512ddb83fe17cbb6b2872e1c5407],
   [0x213cf31d70d23e18b6de03520a4089e88297f5b65c31dd0ccd339b271e1466ee, 0x2f75fa3fd8327929654e81cd89da470f953a6b284c2b056992354896808f0458, 0x575e530a296d7b1ab64777e35c0930a81901efc80b19717cec4a201f3583d7da, 0x14ce1207f57e048d89c58e5f46680c08f430fe92804c4bf52c522822786fa706, 0x3fc8a2112f642fb6838f18223183fed98b5329b11318d1f7ea64b6b1319c5bd2, 0x3ca0f61757e07a5c643431b5b2aab6c018ef15a9fe654430556141cd4dfad961, 0x1f176129b7373f53f044d44e93cae59e48f0553a135d6578c8b2d65a7e9cc1d2, 0x19e0bcdbf928a18c3b1448656209be3951ec29b38b8d7cf1a5301242f88fd767],
   [0x19ce240cfc708c963061d12b7fea2cdebe93443707e56fc4f50a8fbfce9734db, 0x650e8541cfa49b7b139e99ee1ee2ae787fd956fe4fd1c989bbae9e164ecdfac7, 0x6cfac57e36ff1cb3f2f8c1369fe0b069b60f738ec5db71fd7bd0e0d86381e907, 0x033985fe39b19d6dc581f1a54f8f7cb115325bf2ddefb6019a8127565bb4f89a, 0x45a715baa1cc2daea52a15ebfc11bc8353180f579fd4df17d2a69a88e6a3a0d3, 0x2e09444f486eef70f769288363963d5f6f175bbb87e884f28da8b3ea58f00feb, 0x2dd12a99b0af639499b6a1456eeab724f13ccf318a487675a14412f908db2a27, 0x63b092656a5afa73141bbbc5b3e04e7d86ea0b227c825d13a6914dd1d70dae52],
   [0x3731dc2d437c050589563493cf5615fa2e99bc1bad985eac45a350b5dded976c, 0x510d1d33e7faec62fae748a630e56aa0e05ad2be9d4d449080480a166d60a0b6, 0x5e93f4f2d5a06a1357d3afee78d53c37e29344f9f5b534661b2342e842352f54, 0x588280483be73c138a1b83735eb6d3ab475e988c70e15d7a774e84801cf573a5, 0x4464792eea14a02a62c718afc37db5d632afe7b00e3b382f18b3857177637bfc, 0x1c990d143f24dec225754897ac76d8a18b63e2a6fca0ab4a34026551417edc06, 0x02b01894b0e0c2ce0e934da71da32ed420231ac7bbde0a2ccd036ad67b2e1a7a, 0x2b533d70f4c4feb22accfe1926de14fc6c59ca5411b1c512bcd9f1900167c218],
   [0x4289d156a8360e325b5b2aeb2889bf09627524e52168ccba9f6fb30cd3a631fd, 0x67231fe5a0ec8ed7e8a039c3a1602573b3e7280b9814c6be9ccb9bca3906c91c, 0x4e937e0df2287d9de5202a37039a232daa5a919c354329708f0c0a63ced25049, 0x0cab0fb17237f92f733d906104fe8996ac0f563bb31d50b1c57a087817ff05fb, 0x6f88c59917feab568ab485369e632d114dce43a7a7880ca4807a4a7f1ec14e50, 0x260dfda28a3734c4d43b1707f481aa5a32329eceb23091628031cdc311a5dfd3, 0x4cbb316075e9c827d2688a8607a0efd237b899eda1f67739f9dac13e70061926, 0x52f0ba82652f8319c2568b117793550eab201f73654b610eb6c584ddbf787658],
   [0x5d7d20e16f272f1dce04fe924dbb98690f4c8ad85cf90f7ee16ef76c7fa7a532, 0x6424656fccec5d59f676e37fe2f001bbe4e5eab5324f43752eca568d2b9b0000, 0x230a9affd632bbcd576138ace94ab935d64504775d21a33fc893eb214b49e782, 0x0e7e66ba2d87142dbe6fb2c34e0ae1e02c77c62debbab70d31c9e0a5a273b8c2, 0x55acac006561f96fd4fead1cb6ed270fed13dea03e59e8a547fd64003384386c, 0x45e0907f0551ed6bc15214f68960b602ad96d73e998b7aa407bf90364149cd34, 0x3c7820b68c4d272e0c625605af08422cef17e5b4dc7ac252810b4298c4081822, 0x15f38235f3132c274a9815795f8ea2e056b91d9d3946178a8c896a0767a62f64],
   [0x0ddcafe91c3a32db6bec121081c3c52e8c32d33fc83e834340ff31f6ac3bfd71, 0x2a262c139b849a9501a4f979285b8ef7bc846c51b1b8c79a42e208d30985ba8d, 0x3f0e31b6bea9e3cd231ace66db1a2bd3fc1357e4deb6fda6328b765d8a50b452, 0x4ff8e729d5285e87177f10a6c4dd10bb3abba581f769e1452efa6a0d98b7805a, 0x2fa64808ccac0013f6bcf6270afcacc1842632784722ad73b9c4f61d76a39776, 0x4719ae36de82ccf52deaa0f797bfc0e389c599aaccb49e9639253c753f248b17, 0x239008546115f0b0f6e265805f085b2ab8a6fa32c3879adf36cd60e59ef80472, 0x2bcee96c31ba7ee900147c1c6f27ab2fdb936acc70741d8685d16dcbc525ff5e],
   [0x5942bda6a6b93f52c7535fbd3eca6225edf55fec2e107f25e062d85794ff330d, 0x6fc710394c1e6574a768915e385471ef74bac22774dbb3c48d11e61474ce2ea3, 0x2cc4792275da6d8e5e35f9716e851636ea11c43e717cac9c5a94ef33672bc975, 0x0d9063326136548ad0c969c57e5b7d435b5884758685a47269768e89d4e33149, 0x3b2271c9e5da8e62a57edc3f2da026ab68945be73289cd318214130143ed3a7b, 0x5abc208a2016ce5205e70c30e22957a3e961210bf1b2feb6e6d8d66c0449600b, 0x64a984c7e592d491a12a1b7464f0cc2fbd9a98ad1afb82ff0ce203bc9f545210, 0x68d70a79561a1c595098b3abbc4b40f703517db97c771427103c4e13560c6f7c],
   [0x5ea9a4f3ff36e51c51448028a1a45d09ca89eab008fa32a271b1e0f5a544fa56, 0x120fac871945e3a5dd7d960d6f70e027fe18b436f9a19cad78b41ecbb820c435, 0x56d2f3150604f3d2a1ac936bf66899bf45b424a4b567ae16e3afc735a3274393, 0x3b6079c61f300ebc374d6c17c0790f07f5c6c8066939cfb929f1291e39be77e5, 0x3dc1bbbb99421030372583b9a24a17354cf3ce41ace2c181d14999760c78c0b4, 0x2d9929884d35f735222e47404354c31ba82c86abca3de90cbf606d128f1a8036, 0x6608fc31f5dc064424b9fbe4849c6d5bc925a37038f35b149d94bdfa903bf4be, 0x413a37cad9f5bb481d18161180925f1198b8eaa4881506d2802131d548d10811],
   [0x25e2b97e5d139f588739d10c628450a81dd437a215645eb8cb467d88a416c397, 0x207c3d8e2f0714abd5b91fc5c791894651c7ef619ee04f557c81fa2ba5ee2393, 0x4fb906478c81ad60ae1317bdbca6f8bfdd5ff46fc737a442ec9841036476e423, 0x35a80837d48d9be9dd03b86c81ca6d643d3ee984007686e332e0be6ab304a032, 0x131e61c429e16af1762a19278c29f81a496968f6888f2353adb39536437766e9, 0x4e9911f1c55ae0036cffa6a519515f78b38870b279e701833c7973771607286c, 0x443687bb07c5c6a897d07d2b9fc3c50418546136c520c31bf1f2d44b51a4e319, 0x0c154893a8c7a5c4ddd6b9d04bf1d228c2ecf90b845396442b8058a401d47858],
   [0x45716809e6d3f508dda200b765b608f00bd6ddaf95023657b923ef38c27db8f4, 0x447a3f08f1d9ce6067b38bc857cb5e593e91a5d8bca37589910a28a672df5fbc, 0x3a358e06db86af986fc28356cdb0663d95930a15e229ddf35adcab7dd157f77d, 0x698c132a0b9486af652fe13cd5d8f9419580d869505c91f73f92b13fd60e727a, 0x2cb0fe65ccd92206dfcad4269ee5296763abaee2f35d0bec182a0fec89a59a75, 0x0445887f62c370ca31716352c11dd6e2a4cb12da0070e1393260bbbc2e9bfeda, 0x57ea7e8ca99a76b3e8725177aa5e3183716cf682d7c3457c7a52c8a28144924c, 0x18414fc09bf0b93ab83ff0171fc028f91dc78278aad0e9b24e1b33ebc8276b07],
   [0x23d770c254ffdeeeec328747398c79faa99a9b499afbf34d4022e4021ac3b6eb, 0x1bb66af0d0857cff901ff3bef1799bc20799deecd4676b43d34a238f190c32d9, 0x214b2d23da0429f5b182d9aff248bb2bb67f1f120f99ad3a1741894976d3ed2f, 0x6e6e6f1979556bb834bf1fd02a2dc8bf56ba74ebc580751d98b0d9ff49b12e95, 0x290ee8a0f6f7fafc95c4f1f8d59f2a16c062709793aa6d6dd56bebb3de4cbb34, 0x0bf9a0d26543c9e7e8c3f354c2c6af517ab63cadf5740756fceccb10ecc422ae, 0x66d1b57d1ba2ead37bace74ac82ec03894044ed361d8be9bed7e8c62ff516233, 0x0540357074f85256638a3a11ef5627d9fb258164a660a9aed6e1fda759a4a9e9],
   [0x06a1fd2e0b57d30db2139b74789578c71acf5311937d4ef81c79f971d5ad1d62, 0x4eab6ef2c623818ba1cfc6756b3dea87b3e411d3a77608fd74326a6bc9ade714, 0x5205238ca6c4aaf45bd9e69299f10915162ce2db506b207e97a8119836c8fc2e, 0x503f55b1076ad5ae85470651ea230a323e35d09f293b9d4da4e1c301843ffbb1, 0x1da8bfdfa9b25e088aeb75a0ea480acf9504ab09c6feb790a393709af833761d, 0x62eb993684ca7093bd5709d50428e6ceb93ba910786ab4c5c0b52dac4dff448e, 0x227bf8f5e82b1b5927ce14b2df47c6f017ae86b2238af7644606efc0ae91a60a, 0x47d929cbd8616e4821bff074466635332447df7d47a3ccf756de43eda8c40bec],
   [0x5908dc801e15139ad165aca3f7b8de0541e7aa1ab670f6a6fe297114126edd7c, 0x3b0ec5e140fed08fb7e05e6639a8a6981658c8c2a3c3f8fe00f37aac9172fe6d, 0x18463bdafb22e0e4b493440f29bd5bce7161e1fbcb405bf05bc0fb660bd50785, 0x52309c8636f40555d55ea528fa1cda3f30588deec832f2c01571b44ef7f5fcf6, 0x2d8fec4258547cbcdc87cec2c9449991030da9180d2382450777b46a0afcbb7e, 0x57e7a802d876ebe8d8b958481f67a396e87d06dd6f7ce488949b4330ce58a6fa, 0x5a56b2543c4054e135f9d94011674afb9dbec22bf00d83e28a9bafc580a3b37d, 0x54d1ac40fac4f238a07cf6635203218cd0a015b59817110a28ae98f5ef742981],
   [0x1a0512f9fd16817c96f5ba4aa9a9d32d8cde2c108d6f7dd59773f3e9d43969ba, 0x3c3e1ab1280b8e0bdd516cd4a274df530f0070b2ff3bd25477b8f732b7beb7de, 0x1f486f671848ff022d1e91d0555a509f67eb804df975dcfe0b1e738fbfa03f78, 0x6a4879109894bd10fc702ad04a284b9ebcf856d79f3901683ed20aecc35d2555, 0x14125ba9bfab4689a22eb7cb0185c488e087aca3f91b87a1de37604e901f1802, 0x56c142920396c8953e92c9a878a81ec76883d7e15db11643c3c8516b3d9d3bdd, 0x4482dc582b0f5ac456808475eeb3a119271ac6463103dc21152d892a01622af2, 0x65dd5979eb82d9703b53be8322d78a02b339a16607c82969297e89b4c2839e3f],
   [0x0383c656215d431e10607389b74c44ba3b0453bf6125d1f849a61c1e7279efe2, 0x36c3095d34e604a0a9c6b53af6569db2919720a7f74e18ce90adcf7d3fd649cd, 0x0d24d37109e7949a02810672d8baa774f4c704d426901a3429ae2803b54af426, 0x3f325ca670342895e58095da6f3ecf8864ae8790af947612c23bc409e7a2ecff, 0x0a5481ddefaca0bc4f64fd33f5e8f0b529b3cc3c563666779d934d6e1d22cdfd, 0x3d33bf170466f45e12af60aeba172b5cdae9158560f56b8d4fd4eabb9125e5dd, 0x67d561d6ff9e94acee80d763170dcd546de8e461b36ee9dd41e2bbd547b3dc6a, 0x30d38c146d3cb5c7cf6a3f3a2d66863aaa000f4c2f5512c417814c92d0a1180b],
   [0x02de9b2e6dcb33cb90ddc5b55d28e0a337025a5ea75855394b0550eed9747d69, 0x3e9addf6d5d1baf3b97ecc470012f868347e06f124dc352b2e7642f6d2b197e2, 0x5eee7b66608214d1d88ed2208403fb219902b10cca7759d177a8780b097d76c4, 0x67cadedbb0e5b83e9afd1b903308165fbd99d8e526189999a96b397037adc3cc, 0x0438eac6cc7ecaafbc8769fe2906502626f7015c16ec3fc31fe6feb74e42be65, 0x1a80f33da67af976d9cc34e6e5e586ed94570ee591566c92c5d2a70f9d0bccd1, 0x08552538341de80e662c3d1ed1667dc8c41fba374b10cc4066e8ea0b80965de4, 0x447e6739e5d10cb910a8542920ba8e0124eb591d38f520761a08de09fe06fc23],
   [0x0eae7b91ba88e8c94a90a74d9f763edcad5e3b7ef8a0b4ac2ce3f5b9739bbf63, 0x2754636bd85b3898dd1b49187f7f666e01594c701cdf2bdf40af44371e463494, 0x6d68a5ef160ba9d356fa704cbd693ff644403d2de6ed95ee6e270e43bb2e4c68, 0x2ede3d8e6d3350069b2e3af54cbcd0e0b587fd22383408b573a448b4cf99e114, 0x40119a35f93fdcfcbe29cc42098ce3245f0b8fff031757dbb23f75b3eeb638cf, 0x56a705a5ec983ee01eb1bafb65d7d47d86589fc0738aad26c35fcd4bc5719fa8, 0x6606dbd7660d30ec42581b5545315e9c637091b5f8341ee100dc9f8598ca0aca, 0x71bad13c4d7991495562b35cb48c9545c3eee2d1b141749a4cc557f4dae5b4e9],
   [0x4f8dfcfe5455a1ab0bf3d9b432f361504caa5cba5a8164cd9a355014a84bfbf7, 0x1069fd84bc2572601d7d0e5e97154431cf28b10fb0acb7b516a3800be0dfdf21, 0x63c8f2fe4037127e64b10d517407c5278fdf2d68c4f24113e3624771c803d03c, 0x5d1090b701a84a4235e7260c364b3632230af555325abe85a2de0cb56f0fb490, 0x2e5f634edbc7a48b7e0139466283ba5280231d85a2b6c41adf14eb3748db6ee1, 0x67a1fbbfb23d84592e22e433af759b49814b9071d0d1690795363b35518fa4fd, 0x3047d72a1157b967920805e145d0e5a7655c1537418e2dd6efbe49f5463c5d3b, 0x3a17e760e3bdf96f399aeb17c330d0e270717ab2627a385a5610cb2ea73219c3],
   [0x49dc0dfc7be0fe7929d38a5f4120dd7d93d899ab717a1280c77a981f5410ef48, 0x45a1bec4fc552ea0d6c4cc4dfbfe378ffd7222053df1835d10a04659ea59204d, 0x068990a4c1affdf36a1f30968dbfddee1b4eb94bec4c7fa792985df431387640, 0x44a7258115046662d7a9bc0f0874d1a1dca563a42114a718649216a350915c57, 0x13a12baf4319255d7752b74354f781460a6ea9c57582ca9d1957853511446d27, 0x3c1f00645c337fc6b91078d96259c285418839482da35adaff91b3cab2102c52, 0x5d6bc5f2587258a51993b91caeaee852613120017bfbe6d35b34d4fa9ebf347b, 0x0b771124e1c3d19a21fb4ed37880a0cb7863f5374b5ba5b43d4c85dd47fc2a59],
   [0x0a8ac03bb81dd3de11619df7e67a9e646776f292231bd7f21b0d4a35958c33dc, 0x0f907eddf366c7a355b1e5f382e6b53a5d5ab4e90b524f9d148f655293dea25f, 0x4bc7a24f5aa6c1616aba5a49a4c50a195f111c02774465861d90ba4761c08785, 0x1d6a8ee384f6057182e077864063742a4bff3719385e486348c6a0fb3a9ab736, 0x3c5ffb8a30ba4ce92690555ee478be9f425ee9727d2f74fd0ca74486eafbe1bc, 0x1ef5880a5d39d6846a7dbf57d10aeea1f1fdeabe3a5a83f218be29e20c00638d, 0x5fcb6dc876b0de5a91630fb8f1cb3eba5820b3e9fe98d78483f07f1b554bde9e, 0x584f51da6992d3c552f7fbc53202dad48fa2d8dbaeb91148e19b9f13aa9f0b51],
   [0x4ded68331271cf9723a3cc5ffaecb5bc803b85cd61ff4af88cb24086ce76b265, 0x1ceb071d0625680ec8dd9a33a51861f488a391e5be6ec526e9ce2c6d9cb0698a, 0x2d85425f4a6f21c4d66cc2c315f2f6f7fdae16b189677a24f861d68dfd9bb8bd, 0x19fdfcc046c033c5643589502c3247da87b8616bea85331af8340bd026cddb4a, 0x6e3b3ee4b244ce4eddf470e4bb0c8b830904ba6947ca0f67846cb31431bdf11e, 0x245c5af8421f034d1cbb075eac81cb1f3e1a77394a65c97a64be68b606cc7aa2, 0x4d896a20f357a34977204f1d82a08efd7cfea4f35fd422258ee0b42a2e572f07, 0x5aac2b5f9b8cbd719db529ec1f99eb9ffc9d5d9c405ca845c90e11a34c911dfa],
   [0x4da52510fee121a60050a654a97ecfb0251e7bd8ed0248da5d76bf4a075450d4, 0x120a3cfd59a705d259ecdfc7fe686c8f94fd7f9d9f6a91a46ae1753aff972345, 0x6c0a2ef8499a11af392a9d223caf437ff21343855d5059225e92109d02adf2d3, 0x3a53264ec6729effeb1220d308b22993606aef5729ccc5fb1e3693f99be56511, 0x6f6faefac4646d49c69c369f25156a4b13c5a1fc192b696a0cf1fed444d050d0, 0x65ad8ac1be3f446b18b83541c70cf5639d6b8f1ce85471c13629f90f2c3c9896, 0x33a4ac24e4741f107d8dcb8868bed9a31af47814313f9d18e30fb6e872a21d36, 0x03d53679e230d3928efe5e9f4ccbc3b5591db4c2a7259e833d7db6522ed9d6fc],
   [0x0c1f8895bc7a8b26eb1d820ac978bb89afe99d6093c1aa88a0c92c1f5916af2c, 0x31318f321e0d9ca5b5b424f8e8b8e49fa3a525bdf16a53353980e906a1b220a7, 0x59d67303bc026c5e471b97cc712aaba93aeebe4c1a4354dcbb82d0cac212f27d, 0x481a8f1d034bcc8b9dbf4ce100dd9944bec05e3a4438d8a3d93f856aee7c91b2, 0x3824afba74120db766f9ceb6c55ccafe85b6f32f157a22085760349e84855907, 0x35dfacf065bd4ab6dd922314d48f2356373e23a07a49d08b71a0963fda7fc96b, 0x071a907547b9675595e5e7ecc11f0cb6f742621277d0d4338486b008408c6be1, 0x606863f77b6214718bf1525e368dd8c3176bd9a6a640aee5aec67aba650226ea],
   [0x4fd5b9988f6b3b83a6909922d629eb6b602ad365443f3d4e0f7620ae0d6827e6, 0x0aa9aaeb76d1933c1990fdcfd654749d95e57118e2a084fca99f663b9355ff0b, 0x159083112e0ff191df9016560dc9f037fff7954ea80355bf09be6bf228114cea, 0x3d2d27d380819f73e27f7058667768496144319e9a62cf8bd271b91579b98669, 0x3cb51c41153c378e25d07fdd8fdced6ecae40f8d7eded41b65a63993134a3a35, 0x3b03d1f63c93f107a5eff9e2ef6a1ff7e91f8267a5f7b99ef4980ec173f24d48, 0x1988c021fd37f3427456960fd84cb2e8b69727135deebcad5ae4a69dd1f72933, 0x2c14f416a63d78713b8bc4bfe0dc3e69cf18a7c0d52a50b8e37d5d2ec238c640],
   [0x6a1ff64849eb06884a0c8f522507aca747b0fb1891a756c27c7a1ddeb5e63a29, 0x40852fa840516fc5c143c13a4dc556c9892db76483a35c0acda80fbdaefd5f19, 0x0552e3c330d2efaa8de29a292e249dd4498d902a0ff2ea6cc96e0f163a336370, 0x3898801a72cf08bd3b236a7f2c9144cfb56c042f86e96aae4c256b8a2d8d18e4, 0x25ac8c0a240de3717eb2df0adcdce25ef1b88d8b0e4937889c3afcd151cc57e2, 0x5814a1990b117293d8bffb79790316b799ec3edec6747eebcef975fbdc23a50a, 0x0bd1bacbdd75977f0ccca8f8c46919c562c40aec47cffa1f28a35199e4c1745c, 0x295c66b39977c3d9cc0ae96391419e0f66a478d4129d4cad5c1645da28b26bd4],
   [0x400384c6b2f5f999534522bbd04fec82532b88ed6f4bbd40d3a98d5450eef56a, 0x1e19d7dd91c9f211148b5d4f580c52d994c6948938266b4f73370f62ee7386b5, 0x533bcfffc3bbe595f6585acb68671e4faffe2eb7ea9265f5d97fdcf6dccce9cb, 0x2a76daac31286fb1514190a47271be5225357f301d8bc8369bdd4e43b630f9d8, 0x46d59b394cf19e41127c2647ba03a45eb9b4db13a8e1a1457a99014cc5bd4d10, 0x0ca9c15d60714e138a817327938d21b84dcd84c148a3ac4f5e6abedf8dbe71ec, 0x50f0bca7634063fbbdd51516c717f18950062834f51fdb173a62da804050b062, 0x1c580c0a52b924dc32b980e8ed6579afe1561510758b42fbdb9ce48835795eee],
   [0x19ddbd0225d9e7c87c92ed1d56f28e10b8eb9d2f10efd0cdb562725699b2ce8b, 0x5a0cea66b5a6a5b9afe70b76e3ce39c34a5fb8fe7bd77997a56b83ff89a769d6, 0x5ed1d642d416c2ca0e85b8ff2b4100edada36f382b9620f4748fb94623c53b8f, 0x7202b37959d09c83b9913d6654e342640d2c393a20ee491fd79f0977951ee6ee, 0x727830872b6c2312c1f4e7d2a8bb223cfc5c7e2b64816af30d26214f0072e0cb, 0x3ec128d64068efa18f3a500df65c85cede50df5fe8308930d5420082bcf30da2, 0x20c28bf5fd98e55c3846fa321bd69480653bf4bed9bdf69b81e4dc6fc485bbf8, 0x4c2da3a252918646d292750d7e4b613e50eccf12232d1c10baeaa4fe6e71b226],
   [0x1f42021fc8b9cd9b894ec824a723930c3338d8c16a3e659dee9e03f50ce9e81f, 0x40db5c954905dca9bccd335e24f7195ace69fa9bc8be00e4efb452c78513b80f, 0x1448f8c3179202a88608f341a6bd0624612a104924c66899e95e043cea888e99, 0x3e42795c59fe033d598bc358d2671420dc043257c432c6d897ce09c2cf352483, 0x1a0558743d31846aa1218add25f763f0fbaf1a1627fb72f4fdb8e83d4a986f16, 0x273f99ab8d4d02c7575fb4dfa4fd829b338a403e43cd26cdf3be87ab3000dc1b, 0x3c4c3b051748a10b3c6077b0dbb2924f3d023356204b3ab5c64292d456faceb2, 0x69d13312b5ecfd4d1ecf946ab1af20922810fba9432546667bf27d80b3c35ff3],
   [0x6fa8c66d04e66dba01f9e0129a4ce0c513330fc783bca60f1e75a489dea4b1ab, 0x03483785b6aa053be68d99e0951d3935d9867afb5fe2c9334922aeddb785007c, 0x45236039656acb729c65647b494348d42c10f747de9c82f52a802b523a86559c, 0x59875862daf39e15709f44b5e9c83f3bd2448747225fa94e0cfb27be44fe39cd, 0x065803c0532adb706846509f2be68b883ff57343b8f345a94954c5a7a46ed62f, 0x61106f139e0d2e036574deee8ea2dc8aec9469c5c5432e97e124f564a8b7cbf0, 0x490e3976e7bccf87716e5b0a94d9cfa1b36e994bc5c93855cee88ab2eaa82a1f, 0x68bca32c4f9d11f767fbad9dafecf2cdfaf137f3612582f58b893647981aca77],
   [0x1bf304a087195603c6dd49782fb94a186bf1dda17c00ad778280788cb1805ae2, 0x282bc5861c1822f2cad80f0f6eec1ef78f2e64da13cb5fb3d25b9843b52476e1, 0x16d7118fa321bd801fade7bed8dd97070087c5147e9d3e116e25c4f00e1e1f40, 0x2a5b0b4ee1bfa9ba3d2ea4d9d0ba2bdb97a1f8fe473dd9cd688462aa4ba5d2b0, 0x0bddea87be079e19efd536772e69cb53f4a03b086e8d6e220300cadeca4beabf, 0x714a94ee6676f740de0497d7e52ba43a33596b3c0cd4df0b20767e5a49720e47, 0x0c53b2c9f7a14ececd01041f452bc6138c44424808c8e949841134e11819758a, 0x09c0102011f654a175911bca45c86976d6fcc318b7ae76c1e3ded760518f611f],
   [0x471663a39f64a3d67f1d6d4b8fa8f2710e63e04ff7a40ec636de3cf732e8ace1, 0x2d9d673c28d7e5867430e0371cee622f9ccced259c2fa6294a71d1c04ae3686a, 0x69f6c979c2bca47022722c642ce47333bed64d3b196457760bd0317cdc10d1f0, 0x53f976726dfbdf25dcb814969f01093592fed01b3d87ed43b13bc28617b978e0, 0x27f4729d2c268e25983ab283ecf7337084e8012584be3edcf27c6c2b8996ad07, 0x6dbb70c626c07f8a5d00ecff3b1b0eaab3f8c4638a27979e587581126b03336f, 0x005676d8a773cd318b09b2afe2be83fb1c4fbd3ab14629f19d100b1f310bb265, 0x2aedcf74c2e3bb6eba40681a65f592d5522a8bf3adecaf55d65bd92605ee38bf],
   [0x62b0e5255a3bba1896ba23e4ef2515881c6b3fac637b2042eb78f83f4cc66c3c, 0x3791b9efb35f4bbbc4dd01fa6163b49a24bcf326a6265f0deefb1ac9b2527537, 0x5ee5e6e3cefbc074c63ebaa983d993d66cc34817f3c4469fa51d285819b0392f, 0x4dd7d152bbd20a0a242ff70fb28f119230f975e6d9fa601689aa9efdaaf55b6a, 0x45c7704b50cd49c4a3d3a90cf48481f1a118b36f6f549f2bb6d70641fd13ca3a, 0x58a30ceed100544abea3d93d94841fa9c0d6ac4cebb5a9a072e49eea3d606f79, 0x3847f7b5109b01c37e280996928899da97d1aa6e8801e89b9ffce727070829c8, 0x605d3bdb9edc409851b322b8912ba93f86c906c8a397288e626bce513cb3f4ab],
   [0x4b7df081fd6ff9225da4d88e3741414e1239dd87b44ac459da26addd0a53cff1, 0x6766d0ff9a0bae40a5ac994655e644bdd3c5956c9fde18e213b8e87645c57b7a, 0x425cdc3b3ad5d897d9037190045dec7d8a4db7d1adc7727fd10f2a4e5fc7d166, 0x2e738ce46087b1f6723e01c8bc8b77722d5e00ddea334cd6ed142725f7f3c62c, 0x1cf2c38937517dfc2c51fb0aa92b6cffe2d30ffc5250cab3d7c6a6d1127f6666, 0x0a56ffb62b8df27da65338af0d354a5c295aac25e7f8fbbd143faff13da9c748, 0x1204142f9ce0dcba00fa919fb69a5756ea6a731057dbbaacaa7fef3368afc226, 0x21053376cb5a1efa559dfa6bf6e5b54ab2f6494f983271dd112b891b4ff50a04],
   [0x31754013e55f3c1c7ec3d5e456f2685c9578811d4b55f948acc4c4373643d8d8, 0x470751fa85a3cc494d70b26896d87070ddc1652340482b3b0970e49efef0dd17, 0x5f6d47af2a7ce45f8f251fdc71c3b35be15b599cee79f3f965afbdee2a708d7e, 0x04319f7c90b193b91d3f4d396b1b2bfe72c2d6bbd38822e075396695c87723c0, 0x657f5ed80f45dd891389c94524b1bfdba5d321bd990c800b18afb42967c049a9, 0x6e1b2acb150dd1c81e1edbe0651e80dd5b5ef53a99b597aec7563d21bed99a35, 0x5a850a847cb89114afc536d9ec37e87de8902449df6994a759742df594594415, 0x0cbd2d789bf9b7582ee54bb3f34b80b040956fe3309295a98eb51d2dbfd3e522],
   [0x240695c0c8e863dd0c2d1012e3832fb774f5fd0c1a0ecf4a7f4ac5b3c2bbecdc, 0x0ae47e6f2d847ff10b5b7cacb571cb302f1caf9a581b7719a0ee2ced13d75efe, 0x3622fc59527db725baa4c0a521b18904b04848579dc8ed32adf275c9ee72b11b, 0x2a4cf9ae09cb2e5d0f950db7f1fc13e8275b55ae02f87042f9cfe4fc6bf949a0, 0x011a65e476915d6ed1433c5b2e57e4f504ac5e6a7f83a14252c2847ea4fd157a, 0x04e13a752a2a1421f9c215e9ec5a85bbe97fb33ef03edca6b4b0f852d8e6f812, 0x3cd3eee6138375a030e15fa7c74d3b5a25b66b8754e52f92f5e1204c89b97f9e, 0x23c0257c5641da348dcd88bd53451d8c3edef3bc5c452d28294e707f1eb9842c],
   [0x25b022f0f0d39a723828a8b3242b31eb304bbc0272a493077a1a1b22ba3ca2f3, 0x001a72ac0650854467399c5d6f9b44d53d1ef696f4ce85c3b6825193b351a487, 0x0411c84177688f90337e5d9b4d696ceedd3e0d53c6811960652bc1a66a02ec9b, 0x3d1b82965d1cce661b24d6017fe37f81026bb91bffa8263083899b8adbe2b058, 0x5401e51ccffe28e15209e94cc6eefcb314aaf5170515a315cf757fa2058d3953, 0x4e6c5349af851babf23b8b26638bdf3804fca96463224160e1b386612919eaa1, 0x593cc12f9b763a8baf06f91b6175d61bbf5e25e09b0e73e28f6c908fb70ad33f, 0x1a78ba425e3da46643d4db371787772b1f4f03e503aab3a038470f21d33a3ecb],
   [0x40ab3b7c2643f1b01fedf36c5acc374dd9da885a2579baa4235d9c6b19899515, 0x0aae9e6d7dadddfc3b395daac00ac448498f6af585d209f19f805413216a83df, 0x6faabadcd0b7db0467922ea8905f18476e6f5c821516f75606b3832cc34410de, 0x384847dc71aff5cc9a3c64703031c1065753a4147f59593bb9adb258c3798511, 0x5109e1f2a468d106af2038c0240df9dd22470942c1f0abc295f636ee2b3996c7, 0x2243f66da211988c106605aa1710118984fa86e6021f55d5368344b843a2f53e, 0x6be595a4d1faed8ce7a0a61ab2a73dbe685883c1bd5cfeed658d33926d778241, 0x468a8d70d64bab6e97d3dfbcb49696c619c0c165098425f0e94f1543cdabc7a9],
   [0x13e1b6098b0793cfd147c0e583295b9abe40a8a2415db3ed9c25192f0edf2e06, 0x7297366f5b34ab6141e96b997b92f70becca4579561aabb597bc41b942510e3a, 0x2ce73ae32d67c1efcdee2e4d4223eed58c742ce15601638c7c0b17c52223d55b, 0x729e5dd5a63d19a21184fa009a4461520a7212cad17d14a38ff86f6b57cabf44, 0x4a47d1b7aede724b0706d3833381f03a7ff76b7fd3a5d4bab38b62d8530d4f90, 0x283f0c2189cc4879de7166929a888056ad45c5f632f4f0680f76a230efc93a75, 0x55c6af9f505f3fa11a103e2b014cffa9f4098ebfbb72a315455606de2518b9a0, 0x0afafd1fb97562c7f91e286b1ddfece508947f19c407837e13bdaaa7cc33808d],
   [0x0a4a56343ca116bfb2f7a731f2aba94f9faa2a85d0b19a32b7b94763021760fb, 0x0c242afc31133ec77c3e7bdc151a82fd034e5f947ab468d8c9136562b0654f72, 0x4af3b0444f35b35140196e7b43dd066618793bc78ce84220bd93f36dbd73d300, 0x64e23af88f673d9bf3aee04a93d42c9e616cb1472506500d48831a7c75ac7bcd, 0x6224da607d18a816cd559be353345b4d9f8e416aa04e10fcb6e2f391e5fa3dd9, 0x0bf5e185735653afae0c694a23ad5cbe6d2163cd12104927324cb3a991567361, 0x3dd28d4bde0a592ea0778299876485f1e33bdce972f6101bd11a88dd2b31658c, 0x2c246c4a2e620c8d9d9b0d82ae0f703d74e43c258a42e16aa3250b15f58a8360],
   [0x57355fc7b3468e4ae3b08ef930797a042790fde8db17a99670c0fe4da2fe3a55, 0x3d75feff857c36de5c6199f96d9cf71a7e2d8f34fc84b1aea599ed1b7191ca07, 0x61733711c0337c9bb90b42372f0fb87047c4b2916a276668381108f3bf2635e0, 0x2bea967e100cd389c66bbb2493e56bd6778aec25baf043e53db42cef8ddfdf5a, 0x3f4413cd385db8c97332997717417de7633fe93ad85fc3e9ab8e16b834aa7765, 0x02b0f38b01b01c88b922090dbb5a6fa1a2a53cd7bed1705bff59a91d615ca6f8, 0x297bd06cdebf1d2cecdd48eacaa3835ebb41bd6c80bca4075a9636f676e6b9ff, 0x730e3db658387ad162b0f4a5348e77b3f79f6a104cd54a35129d15686f7e0554],
   [0x015d7a1279d09e301a4b1c60ae16377e53f797df534172c9cec4707ae22dc78b, 0x55612aed76a3e66e57f34729fb9d3787236d56751f11de4b3eba1376bda80953, 0x1ba0f22f542921902c6a741dbad08de5f2707c44071ec9aaae06d48fa9fad938, 0x0c731eca2eea18dc95c03fd03cd6f17323710fc011501061bb057302814c0bb6, 0x5c6382400c56e0dcebdf8d5d2deaf6f215ad448a41babb011dd8344765e66da9, 0x35cb49fb9ea9b45950a27debb225463ace1bcae1df501bb939ac526473f4cbac, 0x46a0052daacdb75115402cf0432fd6650c24acef6e8fda1f8162123076cf8105, 0x4ea7cb868699e6550276fccf49a57b23a1b909e38d8ab8c3cd10cad2b62e513d],
   [0x1bcfc05a8c52ace4ff92a5f2557b43cbe3181635049d79a43dc27fb10a1b2cc3, 0x3baec1974d191fdaa769b509ad7c53b4f6d1c6d4244416fa3d90a09eaf06f1a0, 0x6ac388c05971d76f02d333d810dfa9bc83c0ba3fdf398f0272ecb6d1139b62f1, 0x186819d18c55583868ff5b6377af622dd30206868dc995b6cc583ab10cb40b9b, 0x4b9df98c26e29c98dddb8936fbc75270e1a9b8fb3f152b7b6f6ca184ea5e678c, 0x0d96369a6c30228931b4dadc8ed6fd3f4dd5935671c7941233edba8795ab77ee, 0x0c5ca6788e546902f21daddba2c4bfced3b441ac0edc10fba93a7a65b4c4333d, 0x23e2985b76333abf0a72bbd2caa7058be53a598203e3dfccbdf0cb8d1038ff9f],
   [0x091b99abc1c66eb141e594b735dd9f2aaadd7067c0474300e0aba99cbea9ff44, 0x1b0125564d3beff57bec24bedfe6571f6253089839330202a702e5b5708d4379, 0x4a098142a5db3f462078aaea9a243fe3d1bac2eddc8da9fee55b16e659a45f15, 0x4581071985fb1e1a864795732c04243f635178084c17a9458847b657a729eb2f, 0x4d32a6b4449fec51153d9ec04834ec3bb5a149111b024257b0971b472eb2742c, 0x6aa5c9c9d5f4e19fe22a741526f1e50672dcd185858ce2bc8a35db572c082d5f, 0x21891089c810a20a4e955a23cd9ad9d7677bc2051ae6b3db01a5f8ecacfad9d0, 0x4ac14ea57d47e8e20082dc06426a249e0965e7e03336b91b29333d42dbffec1b],
   [0x34576fe0d3f80b09305c3476e37321bf96a25a2ccf8673811d07a9045eeb708d, 0x0d3d8cc45c7892d7b60b8d48bf9beade854000b2273e7b56395daffd2ca7593d, 0x1171f14b2d51830047ce64be338dc4521313a1c04f41331fa8076aa38fd56738, 0x1aef9598678b674b2ca79784a7190df95392c76cb9c0fed08c105f0599b39878, 0x5005baa5bcd238fc679f83bcab69334b37cfee3d1937e0703d7364700a060ff4, 0x0d87e1282d8d6b605a10ac10b428850c15e95dd33f5b925fd000c038a5902b37, 0x18247bea3047f73406dbda0deb04fce7b5fd70589e4e14032bc7c39d844e36c0, 0x08b2e676536adbcd631b158aa41308cfc7dc8ecd5abe9efb8025443b413d0862],
   [0x37e19b87ae185c06edbf5b011bf41b9ac90bdf94748f5543b60f175e84ea864a, 0x4905234c6be8498b30ec4a0d951515798aa50a4cde93c29b367c74d1fadc30d1, 0x1b53b61d773b2588c4acd57ebfc89a34a0a56ee6e7604d12db5008264594fdd9, 0x0d76091c416911aa36b9f69060ddb3f82dfcb6906009f7fcfb0daa03b8208523, 0x0a21126729ba7f2ce6456883b855ef0048c941049a14ecb2752feaa877649909, 0x3c3ba3b089c469c4d3abce417d8206c2de48518259bb6713e1f8e472d15b0c72, 0x51e3bb58e011bc7484f091eecebaf8d8bfcd637f54aea95f248725fb8bbe1d9d, 0x6d92204d6cffa59a5510bf42a300b6723433954e8341b28a76e79890d7ac07a8],
   [0x3a2dbd1fb9583a17cf7524347aad3e08392a55ac5395383ce9f8122018a2ba38, 0x174a90162490f149cca5c52b8b885011b47991872d10af5a4da5938226b69472, 0x203ac4a3f9d18f92c80527a519a19b31b16509e73cf97e43ffde2fabc2e9d245, 0x5d21daa40781030cace022271c704596e1c98176ce855b8b363f74e36b5c078e, 0x237074bf71c808d206d786660b77d8e6532f2de335d4071541ac3953e3fea984, 0x2feceb4d3098ebba4afe872c99f52d73e20e7338a536b2e4826f325b120685ba, 0x53d484f75c5c95159a5b0c26d86c4bf7aeaefe816533270199ffeebfe1c7eef1, 0x382de3a8d78b5c4a1fd1c578b1a42c4b58bd04d0778858d7d3abdabd9d3a5792],
   [0x2a8b45648c502b336e2bb5bd30a959648d09ee19a4fc2a7ffad06df64189469b, 0x1f4631200cf902322d8cecd8ed8cd6bdcd3e13d22bc1c75698b946d1983bf268, 0x1b2f82c9b49e9aa2f5ab8be97457a1143d84935ecc77fafb5445d355c53c2769, 0x2674694384b41b5639ffd14164cbccbdc8303afd4d208d3c8d123d6e1c12d7e7, 0x65e85b0795a4bbe99f82cc591ff5fed3b2565bcc141d64a6cd8f5782e39fede4, 0x4903affa7974f82799b5f55efabc096bfcf6437e9e2635df298e56c90f34d05e, 0x628ad2feca23122703e2574ace49f3999c3c0b4d46c43fda5f74560c64f2dd3c, 0x6ca89c4731db664ad5183d91fa8f11314dc0e4b3ac562c8713e7e63c785610f1],
   [0x16411a50d3256a6b4b08539465b3abafc7a753e4e98692795ea86d1e1b0f6f1a, 0x2b6cdb9252d1f9766b8a05948a6fb497a1a439996982f1094233de5b9d0771a4, 0x061f5caa2228a78f9f56b93d5b7cce948b6046b7d4a797c3c52e07a4401e3edf, 0x66c2c354f137c46f29be5ab47a4c68118cc67d8368d068acee8fb36f2f996c87, 0x41ec3500763bfba608f53d8f458d57db713ef4a56b93f9f08fb5977b525bdd5b, 0x38944fded0153a5853bed16032a467da45aed406582227a7da38073a7a728e7a, 0x545d6bf1df368ee4f80bf9be336ed763afa412b98a7da6a2a8ad7571f489da30, 0x18782101e92b640c1f3e2ac28c9cb408db6d0fc39c84832ef0a338ec48c4a20c],
   [0x03ba294fec33a36ce5f4cee4e2f64c4dedae0a6e910059478db29aaca6fa7b80, 0x1792778db3af9e3d94c4b2453b8b932e1074a0f1a6bf4ad426cfbb1494dafaa4, 0x282ac7102d3b38681b1b26c77fcb7de7e576b5352d24ffbc6174c8b7e46a972a, 0x722ce05007bade0ee54a46cf10911cf245ce6e9f79e98ed3af300a6e918db66b, 0x565680602280e15038d87ab2f6a0977ea66c2652445695b713bbfe6cfa39b5b0, 0x705285efdc4c08bb7cd1be013e6cb6a5088a158068df0d6d77a649e636d7840a, 0x6e8f61e4abc8099344a43ea925c5130e18e912a3120bd07abaf602e7f51b113c, 0x25f0ceb86f310eaad0959e9e43c5c4de113c7683bf2a4b12d145197b0d79c3d0]]

/-- `POSEIDON_BLS_2_PARAMS`, `src/poseidon/poseidon_instance_bls12.rs` lines 1500-1502. -/
def POSEIDON_BLS_2_PARAMS : PoseidonSource where
  modulus := Fields.bls12Modulus
  t := 2
  d := 5
  rounds_f := 8
  rounds_p := 56
  mds := MDS2
  rc := RC2

/-- `POSEIDON_BLS_3_PARAMS`, `src/poseidon/poseidon_instance_bls12.rs` lines 1504-1506. -/
def POSEIDON_BLS_3_PARAMS : PoseidonSource where
  modulus := Fields.bls12Modulus
  t := 3
  d := 5
  rounds_f := 8
  rounds_p := 56
  mds := MDS3
  rc := RC3

/-- `POSEIDON_BLS_4_PARAMS`, `src/poseidon/poseidon_instance_bls12.rs` lines 1508-1510. -/
def POSEIDON_BLS_4_PARAMS : PoseidonSource where
  modulus := Fields.bls12Modulus
  t := 4
  d := 5
  rounds_f := 8
  rounds_p := 56
  mds := MDS4
  rc := RC4

/-- `POSEIDON_BLS_8_PARAMS`, `src/poseidon/poseidon_instance_bls12.rs` lines 1512-1514. -/
def POSEIDON_BLS_8_PARAMS : PoseidonSource where
  modulus := Fields.bls12Modulus
  t := 8
  d := 5
  rounds_f := 8
  rounds_p := 57
  mds := MDS8
  rc := RC8

end ZkHash.Instances.PoseidonBls12
