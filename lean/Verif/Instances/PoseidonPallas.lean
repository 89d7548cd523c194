import Verif.Model.Instances

set_option autoImplicit false

/-!
# Tables of `src/poseidon/poseidon_instance_pallas.rs`

Generated by `tools/gen_instances.py`.
-/

namespace ZkHash.Instances.PoseidonPallas

set_option maxRecDepth 100000

/-- `MDS3`, `src/poseidon/poseidon_instance_pallas.rs` lines 12-25. -/
def MDS3 : List (List Nat) :=
  [[0x0bbb93cd90b0c2527f670fdfa51f0884d1e4f75289fc0679f83004d1e6bd6d21, 0x1176db587624f6a0b7b4bbf1aab8af8d23f1b40f0b124f61ff1852c88303ed50, 0x3e373e5615082886aa72d0515f04e77372a3ea8900a642f4e839b9395df797ba],
   [0x0692876b54e1bd25ce7bea10ff484f9670a48a5a26ac9135e5ac1c917f7c590d, 0x04f9623d26fc95af0562007262f8b0215b79e7073a61f3e28ccc060eb08033db, 0x05ba7850f6b9bd6876be251e3da54070941f0417e07908f6513ecc665d85b47c],
   [0x31e149810213fa66946287d322b699717b74a15cfc9c58e42b3309d7f7c62e8e, 0x01de81027417e415387f210fd12b8a1fc6be0a49b56758a07290011b79630fc3, 0x2afdf890458ca50905c3e2da3f798eaa90a3a6861acc8abc4512627f75625c66]]

/-- `RC3`, `src/poseidon/poseidon_instance_pallas.rs` lines 27-284. -/
def RC3 : List (List Nat) :=
  [[0x21512346b8ece60d5951c1505089c2b4220707ca56373bb9d828fa33bbfd2a31, 0x2b3a40252c69e83e92c548e199bbbeba4291e0d7fc3b4810193606753da588c8, 0x2a1a778e3f303c4187c082ea4475734596fb10bd2954843e12be80e8c1c0d464],
   [0x224d2355fc17ee0b5e46455d2ef3a85cfaa88b08689b0d0e4c111094fd780093, 0x2241de16388cdd7ffda42e0838b5d59bc2182f14bbef622fa633d8b87250a740, 0x325f11e96905193f6836e6fa2c727dd0261ea083fedde9873f1e7b9d90419833],
   [0x1cc541b9ed19280c216f6b90876cbe83d07ba14fcc6f2af068e1dda739f5acb9, 0x0f6f3f6703c0dcd136b24ddb8766fbcd69bbc9cb3bb20a1da2f7130c4ba62664, 0x352376600a75802c6e6c6da69001e0376328848bc7ada465176d571ba029a20b],
   [0x2b1708d59adc4ba04a6bcb2dd264c1b014e0b7bae9bb3af916eb276ee3a34565, 0x161c8a77adcd1a5f8dad71c3b044ce64bab9de792195da91a0b0acca4f8b4568, 0x1d53e37d6ddf6dd88beb25c0870b2d0af2a51efb6ada05c4ac7e5099a71499e0],
   [0x0b6d7adb7b72cfaee0184354accbff821a14efb48b46405b397c037a5e15f095, 0x2444c70bc898765b95c5438156c28671cfd20569a8d31b3f08cfa60d2bb18d6e, 0x1eca31224b0d4ae965b179fd952d958de48a5de147348ca5dd00790d5c76fb2f],
   [0x0c3f882f7a3bd8ae1eb328e026f6419db30a5026c279df1219499333ef8caa06, 0x38011264a16e7cf3e96f029dbfe344e778314b1e2e9d8a2f8f8f76ff5795430d, 0x3119da354a6f450bf8f700b89b8319a6f57d6278bfb0bbf9d8e37d55c9f3133d],
   [0x0bbe0649314a68a31d5e8222bfec7b1298fc5bc1e6ea098675c94695aa3aa221, 0x2238971cffd7a12e565e591c0b28c8e76a4582d57892d3db5c8be394a60ba3e9, 0x1badbb1e2e9734afa09ff6c92e98038b9e329e0c5d0bac9a7d7996392f5caf78],
   [0x37dbb6c5059651ae1362eba3195c08716dab6a61ce8476b5cebd09274a53413c, 0x3ca22f38e795e433ae9a8d2d5f1d535bbe1a3c3fdadcd549a718e72cd257bb09, 0x0854ff209558742b8d9b0cbe9db7767f33668f1f8888458bc954025ffe84b7da],
   [0x377699a38c21b41939a5098a8202ed55b4d3472e01f185f4336f4c6c879051ad, 0x3492b7170200764635922920ad5e3c8761fbbcbaeaa2fc08a59f9ddac49a59ed, 0x372c88a6b45c1593f353789be4cdce85dd2ea1adfca9d8444c83b7a990921a25],
   [0x3d0996734441d7d414e14d72e46eb6cb3d403a822ce642357e1319d169f4ce6f, 0x026362f8c8a86b5afadc22b1cc0aa53e9da137607812778e47d5f86740722a52, 0x195b6294bdf65bb0c07569f6c6193de7e5e9ea5b17b5adc39179ff15280fda29],
   [0x11dfbb5f5e48ea973c6ef2ece89463c5316bc767896b67b88be18a1d858d6f52, 0x071180314ab2e242cc0552b728495b97e0c2e073970a264c43397356d6ef6c99, 0x13c1cc0a221c29fde3183f7dc644004d3f4dd341fe7626996ce68c69d73204c5],
   [0x06fc0f5f038d0ab20f4815ba721b366824bf534980265836b224fecfccb6fcaf, 0x122e97658c701fcb7b25d8ce0629f2942dd8f07d6ac06a91320a6f1f4421fd59, 0x3a19573d57741adba1942d72016391d115a1971af158cfe2a776cb506d714272],
   [0x3b34dfdced639990194ad27c8d3bebd9e6657350c0c522a2b65f2ace44dd16cf, 0x2d39cfe678f0816cf3bc7a0476517c070d9db6b0f20aa849fc9746e4be5bdf80, 0x1c2e919d0e061629fd6b5416898dc1d5a5cd0e130531151d18480906ea3d9cc5],
   [0x3dae30c784fd66c4a551a6b0a9551747fc1cae54522bb25238f06a7a3e4490cb, 0x0264c23f67c44aa792f1c731655e1c9eefc4b4b808913f6bb3806ee56caf9c8b, 0x0fa6d7c32c55e7621d72604c5abc1d970e7569dbf1475f989816be1ac248f889],
   [0x2516928d25d3fe4ca89ff71d5958f4f256d86457b58215dc8c1b02454314ff19, 0x10842e1683519bc44c3b3de92cf860e9185c5ed67b20662ae8c4f50008de4780, 0x036c65d30abc46a63c4b26ea1e17c5325181354f800fa4c4f207ed1849bb8b3c],
   [0x1577e14026128fcbe30d7fe646e0cfcf5a91052f2cadc41553e10aa4ea94eb81, 0x38814490cf1681f17c23adf62ea2988d48fdce37b3a2fc259b090391d72be770, 0x3c24dd5b9460893f28e95b9cbaaba0e1b6af9c00d8182b66ec771ca957b4cb8d],
   [0x367180fac58037ec0d86a1932aabe6a5e353feaf64b1acaaf208a79f711fe35f, 0x28ad8a1ecc6d58bf0cbff23e654b824abecae09905278fffa65e9b0d634d9205, 0x046fe9ca53b25a411a48d539b09984e2e04bbfe5bfdbb3d390e7489c2cecc4bf],
   [0x1b6869c3d4333173de4546f09cee0dea3ae707dfa5e1bcebf9d7671cf766aac0, 0x1ac8cb354ad46130e09e72c559d322a6daf108002e5f1040c0db23e21ba7b12d, 0x16ff5289ab75696ff12f1a2207ee96d0824574cedc0bb3558f4a6ae6e674c446],
   [0x3b7f271e38ba8cde9b5fabbe82eae1b848b78a32022516d4cfa423062a3632a1, 0x23c4be170342843749dac4e883d34ef66ac377a41c53edfa136f0ba50d0fe5a3, 0x366862ca8fd49db9b624d9a1e33b393cf761a181813955f48ff1d8d16d7d7d73],
   [0x2b12d66066df3e3446f8fcc6bc74aeb1dadb4f06f5d1b49646c52708c447cd14, 0x0a88d5bde48f9b752b856a2646a793cf285473c38870624240b143758c0b5289, 0x1cfea95345ce89e544d0447eb5a655610588ac2097f3008389897701d404c98f],
   [0x3a9ec343c1c6a122f3897126da51f92d0187ce6e0221cb23bb1797fe4ba72e1d, 0x3bf940ada3cf20415d3b0b12dc1e0ecededea4dc1e5d7d1587edb6b4c79342f6, 0x008621ee09a0ef69dee34dcea9261a2adfa38e8304e461a9635bf49c0f36d4be],
   [0x209cd0df3e50c56186a5db349b595bad4395036a310c098ecea3d041576725fd, 0x25b9a4649aa7d962e12ba088d37d5b582f5f5c160c8d28c03294c26a52447f18, 0x05ec12eb5698ef5afe1a8e225a299afc37b923dfb5094870f4ad979aa416fbed],
   [0x3e682fbf59f4cca0b6d50829d76c246e65b7f78d939191d570c977e4c5257d0b, 0x0b850ec39f210fbf8797cd35565461378546c06a342edc84dc7831ce36614009, 0x290b9a83a1cb831f478bd70ebb8930d0cc23f44443b3d1e61dd60f41b6a49274],
   [0x04bc379725cf05684871ffeed475d2d2bba63620f86306bb445ab768ba2aa185, 0x2328f4080eceecfef5ccd20da1be4bcd31ae5cc77aef7ae71c51e18c59c3f1ed, 0x302caec20a4e995e4ccc8565a77af10e49b3f7754b9a5967157944c30743b1bb],
   [0x10741146ca5ef1a2a085754a2ed15a71fb495875bb63c5438ee5bf9d10e8c058, 0x1a371581be47518396a1748d6538e2f4ff683d3405f7f5f73d6b9c52d1b99d9d, 0x049f92746cde1b4280a5d7e8da69b7eefe1a2c4905d2846a69c11f4c22e06bf8],
   [0x3b8e5dca75c3cfb9c2579fb74cae071c8dc339208ca47deec9065e78dc881ba7, 0x11a05a9592274f3cfd9b83b849c774f3c53dd187a65fdd807765337ffdb6ebbe, 0x32d4144bd5e6a92072e23ab63c252bf1bdcff45c185f2b14bec92202465278b4],
   [0x3d8a49dc1f8ff51cb94645a994a818a1483f37fe38c0a863610ae6d1f59f4566, 0x399070ea6f6b8ec5569408200d7e3c9f1935e00ac893af9a766efb21166bfe36, 0x3242e136a19a866cc85712dcf62918bce13bdda1dfe67c24a4cabf36e365bc0a],
   [0x0f46bb63560d481ebfe015bc67dd4e51bb7463ddc546d3d436e5cb688bde224d, 0x0fcac22e2ed86b92c2bce7a64d6fe20785f8a64fc3cd44b7791798d6ffd2cb5f, 0x0db2a01d98799909617028dbbcd9ca49a27accfd4b5aaaf03050d78ae0c4e707],
   [0x343c446f363b07a7baf45a6fa516f2f5234c9da12da24c5c950ecf9d3698cffd, 0x35520e3e9547534a00c2ef16d42ae1fbb4f63896a4e261f571f2071ff0a434e8, 0x18e2bc16686fde3f4d65ab127982160400583faec949be8a14c0be267273e24e],
   [0x1a9d7fdef949af9f8f4d7be3d6df2fb11fbcfa26bfdc1ea7eb9dec8a5b018f09, 0x0e6dde8951c3906c528a73f7390da5a327c51bee762e85a649794366139967fb, 0x1224677711f1c8c1e7bf1cba520c187a6b0ce732fd15fec589a191ba2531e924],
   [0x00923f9b8d8bf4e6da72c660dcf6c73323ab8464c1be4165d7f9c825b6e378da, 0x3121dbf9153b81e93bafe8f7fbdbe1ca51d08ab1954e1d81e103727126c9f997, 0x32bdfa8034123b28726459bf81a351107bb51072303742efac53c5fdf86a7259],
   [0x39fc1a25f3aa12efcc435280b2661c3d86a3f3c7c23648ea11e43b22c0e2e5cc, 0x37eaa43631c3bd82683a32d73e7776604fd3c46f9d0cbeac6cd0e71ce7c3c5c7, 0x12cde892a12a2ad78f3eb3031e103ddc74329294cf77b60e4ba15af6f0604b75],
   [0x19205f51def8e3d739cde771d326347828b25da3abcb32f4b1e42fe327eadba9, 0x38e671a88e7ea69a5336d12d7b5aae8f58e651fb75e039d8bc265931375bd3fa, 0x04a0c66f211944ad4bc0697282167fb11c64c47702338f089ea114342a55b78b],
   [0x05ecdec57657e13785f7ad36a1ffa3fb2a14f77f8926f380c995c8cccb4615e0, 0x0caaab97b61470d5520bb52c6d80db0eeff0466570135b548e10be1908e21628, 0x313dca349c300fc98ee07d5632d2a933db15f4ec42d4dff331a1b63b73956726],
   [0x2ba53c3c516996e4916af3b5382b329d23332b1d06d70e3c29a39195e2a777a6, 0x0a90bc8fb0098bd2f28105fac82c67e79e0937cc6173f4620a8e452548c08caa, 0x0937d48aea070a92fb4e6e6109c1c9f3b48076b96c1ea1ab1be00da1153c08ae],
   [0x3f0e62be22dc88bc9bfa2ea479e1106c72347fe7b690ffdf9c3b315ec9774561, 0x15f84c77fd056ca65029aabaa9f89c30457038625e2acbd907748c1a1407dc98, 0x3ffa267d7075b5e569e74351c9ae79bae3366a389a39a03c1306f34f5f782af0],
   [0x1a63c024e9499276f257305343bd414e61680ec19e2875f61fcc4826ed37f2ca, 0x149244a452669510aaa0313870302b2ab2358efd3a0d677822b540de99f71df9, 0x20f8656afdf2dabd445deca1acb01b48dec203fab738d0d4e72f2e17b4b36476],
   [0x181ab5b402f3a6b369641e4a0fce79af06ee1903bc21d3d65ebaeb12252752a7, 0x1c6bd7a9bc3ff680213a81bdb8c1face289e0c03ea94fa5c85a44eb39ef74686, 0x1c51955a943fdabc332bedd4bf233c9212aa14862a743a332b131dd62dca9315],
   [0x1c20514c7031d9f7905657e941b4b383c78be92ed79b3f2719280cc4e75588c8, 0x1adc7f31b027151581deaf16af2b4ff63f3cd799280c8df8afadbb5296759cbf, 0x1724525f10f4c2427de1c50c7958e6c9025d2050e338c25e69b0fdddc47223f2],
   [0x36823d305483f52cbebbe1849d395e868d5baea2988e4024d44acd16b67fe0f7, 0x285342bd16b96a9a380deffd347f3a4dbd9f8d6fdbf9a57b658f6b25cd22a0f9, 0x1a40a8d28f86a6f529cea2203a0dd140404f40fc57cb733d5144bede73ab2c09],
   [0x0ac11b4d07808a47ddc422ceb64729823d6dc0408517c37239c8f49d4a2705b4, 0x388eda0bd95f234ca0c82d5397d3201e0258fa8e4f8b53b8efe89a9eae4671fd, 0x3d0092de09764466e5f76e44fd483682308624abc0f3076f704fd5bbd85882b1],
   [0x11fab3bb290502127c9bd893038d972382a3a18c4ba85f82585ba54f6609cadb, 0x353b7245b9a556d652edb91992a8dd8a7f43889482df44ecded9927bd8124f32, 0x0589bba0be66abf64414430429d594924cce5bd9d3ebc591b85f59fb09ab5dd7],
   [0x07c14c341bca58281a258db8067a487a917f570e00f451fc912d21d0413e922b, 0x16a2c60433e264e43b615638020578e04a3e333a6f68837abbbfa5e6a47f220d, 0x33d9e47853a0f2a6992e8223c0f6518d29fcbd540b650b63c5223686a822b234],
   [0x0c2cf358ea7363ea144587d3652f3144a74dc6c7f723a6ee2fc398aaa66db2d2, 0x39d1e6d75c580b1bac29360206470e02e975a8b9f011ff10d5dd55bedb289e51, 0x0ae4f2bf6600d8c9dce8a8ee44df1b443ad3443ac1594ee2c23f1a8bf6aae26b],
   [0x3b389e83e83ccb6f4b87183e75cf5894a6e6bb4ecfa3cc4321a7fe0184dd9985, 0x380cc98790c6d5394220905f05ab4dafff7fdb5516b1754ff0feac9e5c848460, 0x151882cd1d662381341a7621d9f85ab38f0a75939070c2d1a0600135ea19d8b9],
   [0x1d82462abe46617be0d9702f9d4a38258ae72fad00e3a720e0c5fd02abf3b387, 0x0f14c20b6de2f6901c39e2bd801d84b25c3232b4e563b9b589c0f5a503018ef1, 0x21ca5c74f16b9f33b128978493e8c1f32cbccc48a5472b255c8ae51f1b2c5cf5],
   [0x3d59a6e9e5f8d49ceaf2d9a9bf74d1e73fc9d80d7b3ddd216c90733ff2b046a9, 0x0db32d9d9938475efae1b47d9e4345864376d8ce1f2368056912fd6cc1a5457c, 0x2c8c795f805d4421526b6b36944192d959ef9c1c24540f85d4a2a5ee16392685],
   [0x3467b3994d4e344f8f5680680b9ffe2affcc13a2c033f08c450180e09a19fd65, 0x29e8231e2262be0512d87513a09f0b8fef8532d3c6bc740d66f17c3ea075c345, 0x34424bf30fa49002d07046482d2201cdd2f851261248b0c5f8ccc232ef1da29d],
   [0x376318402678c5926d4a7e7a21c9ae8cd9a6b1de873485ca6396492e68774302, 0x307566c786b878f0f7ed1d5bb1aafe322f022ae43790702ea6fdcdd22b03cd24, 0x343c1414df47ce2ad7d2209d8431712988c1b157393d8d7ae75f554b81f93a0a],
   [0x3d36f4aef7a7cd3b1607c39beb565d80dd38294b12ce648e96514a4486db53c0, 0x1d3a85787e45822c91269cacfa5d0e3d10af4d6c2683c3a41ad5b3e223d94449, 0x2a6fc367c12c0622e44d0cffe8e8232eca69cdfab386e68635236dfcd5d459fe],
   [0x031ab82c9a6123a6ed60c330e5e8006788e3a55da177285050dc2a8246dd1809, 0x2227b96ea6cbd1674bed1d0007e01ec08a559784b95794285084cef3e6734f4e, 0x0e8d7e1fc394f283375a899b34a9b37a43fc28f9bec9eb99be8fd2145979e1c8],
   [0x007fc35401b8b3e36a9245dcc5e0411c7758c70e58669c860a945ea4fdd07696, 0x30b9ac5b60e480809919d882d94449d651fc10a03cefc7f4e7943c78836f9ab1, 0x249486c0c6406c895a8cc4f299acf0fe10cb3cb70feece6ea792218b8812d93c],
   [0x3db4c586b783c121ac523a02a364a31a6f95c58982cd631b42a695112b72cbf5, 0x17c4305989fba2d8d95a75657b26523a135a38403093708b61ae2a462ea11205, 0x390b10a6d0fdaaa51e632e6f9c0ad19491d171a77142eeba3de6dfbb0236a7ad],
   [0x2f7c80cfc5ad2d1dc9dadf1023682a41f11413403fd417615203428afd650128, 0x3fa4e843af0b91128d62955dda2ccfb7f40db9b0865de4aeff3d4d8a0bc584a7, 0x01d8cd955e5bb2d2aaa89fa97377b877c2a40dc9a79d1201e6c5d53ce82bf12a],
   [0x123e6e1df8b9599f5f781ee9b1b92e29432a0961418cbb42dd92789de0cc55ab, 0x3db03520ec3aef4257c5e271d30097eaf8e54f569ea2a9f28ce8e61832c67fd9, 0x35dae5ec99859906f27922d5c28310165177af321376651f3f4379485dbf36f3],
   [0x141af4761654e69799e6ff9a92384e427f0c8fd79b6a68e2cd50eb6f6b79ec57, 0x0f4ad273f8f60818ff5d808367e2d11dbf7e96c0229ccbc7e5b8c1317c1675bd, 0x206d4fb1decef5a3886dd148559c94670746dc15f346726811d875476b7fc6e1],
   [0x21d31cd4d9c2dfcf67b847ab8a5bc7923e09ae66f08ffe7aa70443637edbf30e, 0x2c9b66734476906935f73b69f1b321b2cd0cc756a0e76a9a0b315d9db3d1b7ad, 0x1ecdc0247e585ae987375df5e172123e92a6f8ff71436e2ecdb82ada41942194],
   [0x212f7278b3c0cf93a97d52435ab7359f73b66fea92c7743fcdc2fd4653da2a07, 0x379e42c19c376122e5f1590ceb24a221840adc7763aea8e93a99fe27400314b9, 0x2f357ba06f7bd7822797a8879e326e033e42714e84b84c1334edaafdff3d6280],
   [0x223d6c2a250d159bfc5dfbacdcd37020271a12833d42090cc43163ef8cac7ec4, 0x11a6d6112f26784b31ad06f1f8bf8ae1281f1d04ca64e3bc387dcd05d8bc809f, 0x31d8e18e44c744381e68bccc797464017ea3510615e617c7a363e29108851d69],
   [0x27fcc6e060cf62a2465e36b752d90c9b162ae2bba26d2f58bdcbdbb62b1e5c0e, 0x283810f3db7207faaafd6b1ade54c91a215da5f29acc22fb6db3b2d132e92580, 0x232a2898c1aed25feadb5bc4977233585ddfa058afc52109350dd80eb351c07d],
   [0x3925a95baecde32ba2c23536fd93d3c329ec2e19b46874876083fb677aa050a9, 0x0dbaf0853320c3036678491bf7b7c60d16a23e062a8fc836bb3753b9f6b9e04f, 0x3f69e46b36699d66f89757f9b084a723f821aa15c69e58e7a5ccfe1c9dac8323],
   [0x10cce8dbb18beecc2ded4cde87bc2d1dff4ebd816fd82a5722d93d10b3486fee, 0x37c61ce90fd1421afc2c7fadd963f0c57aa68ddb18fb6885fbdb237738250737, 0x06bf2f6aad10d4c96fbffa34f68cf21ea05a42c85dbd2220f5fff88bf27be629],
   [0x267c54cc141b8a2e7d4aefdd4bddd23891904897fbc4fecfe4b40d780a5b09a2, 0x34fa47815fdd4e079876d0242f8ebb5cf865c6c623daa35772e4316f950eb11b, 0x2bd08eb923d8ac5ccddb4e358005268673c89fcf18b78559b36d07c25bb73cef],
   [0x14762e17a0a72ffe82c82d5ebfd3994c43787c441d588c12701c4e9893908fb3, 0x2876d1bb0520c704eabd40c32b854076d3edc44253234acb1a5459fb57481b03, 0x187111914378033a4f9e7b1b72bbc5bbdf1e1b2050617de92b0847b9161bd124]]

/-- `MDS4`, `src/poseidon/poseidon_instance_pallas.rs` lines 286-307. -/
def MDS4 : List (List Nat) :=
  [[0x3555a24ab8c5966b7a626dbda5d951ee215ac2de6ddba7d6825b2d2c48cb4c93, 0x0524e88085f4870c3370364b817d0d573d531149002377b1accda96788600f27, 0x0a2ce5b6bd01eedbc52d1d08ba81bb8c7f3aea69a551d9db8264b17fa0367cca, 0x37f5260ab21394359a16a2a94c842e06253573cd0b53a2aeb07c24fb878a1823],
   [0x06ccb650e61bf1d05cb3fb43a343dd0415ad9f3f55559919d0356d242724f223, 0x022e9881ee3e855c6b0adb202cafe2bdb44794da1caea0b3400e5279c9665cf7, 0x398d8af097ab260470fd956ed44d18758719e11dad9603d899e569a190c4bca6, 0x030e5a38e740c3ddf782cc4bab9f8e6673143ce0b4b8e987c3a81aa45086a3c4],
   [0x37b2573f09ca7c3085ce8f1e887cc8d1757cc63ee19c458dcc7cfe0b5697f6d2, 0x091c0c3513fe4c80db81a80ff24aa97153f9da91346b571bc8824c00815d0aa0, 0x2a1e2343e414c2cc25963941ca625f0d5ee808be1fd623c25b115332b4305b5d, 0x3a2d3d5d59d6355634185334f6865fd7a5332367bd89b049fa4e5850ad478ab6],
   [0x2ce190c02b8d79975b46cd4a1b9369aa39b04e396c365b034b30a5e97164add6, 0x24c1dfd1f89084a663df55e775aba93e3221cbc25c4d2f76d48306c8155085c4, 0x3293a61edd08ab6992d197f4f93a6865bd09ce766d6d4ec22541c50c0ecabf93, 0x054b6df0fa79bf0191b014cfdb76eef8db4296b5543ff925a99ca63725c52de8]]

/-- `RC4`, `src/poseidon/poseidon_instance_pallas.rs` lines 309-630. -/
def RC4 : List (List Nat) :=
  [[0x0307afe4a167ba0d1d93f60f15346bda015fa08615bc785bd204aee1741264d5, 0x181b9f96bd7efa33178ba5316e4441a392c2bb1e0d5437a8ff1613f5997cc4cf, 0x0e09bd2528ba0b94d6ed86121aa48abf769d47c65138c5993a573528d2f09837, 0x1360abae0b804b8f70007cc8953ee7697a650fba556e3f0bdacb8376f4ad5519],
   [0x0616b4bfdf7c135daf2dda0fc23649e67ecadd04666c0c20b25abcaf4325dea5, 0x30d52aeb1848a121c102f3cd4c26c3a8b33a012d9a5d5d370ec2469d6bb621be, 0x29179ed83ab1110b93767b25101a0ed78388651d7926f80d0bedaee66e4dfc37, 0x071e1b7a0d4251e03b897b26d64e19230a94d5579de0114e99172feacaa50f1c],
   [0x08c69e6eddea48915949a0c7aa08d1d01b5128f7eb998d97b870d9f51f1aecdc, 0x0ec55a6b06550b25d3df32a9c2e24ae00a89b1a19d65226986033c2bbad66e02, 0x38891749192cdac572a4eb14bdef515ebcfa720fd7170230bacfbb62862401cc, 0x210e13978dc5983b3efc3c3643b0df191cb26f2eb0085079578b1498f6c6f19a],
   [0x0e7df63365732c5484104c7db6676a77ce32e0a4a06f78a54d70e5fd655adbc0, 0x2378638e5e2c069daf8135babf89ce5f62d5fd5f374bc6a85d5d8e835df9a8c3, 0x0c1776202f964b1050a843ec1c09d0b2737a3562b0ac9a35d4d341a36fee7b5e, 0x214769f3449c3ec3a1d274c932b9b20b7d58606f1b39ec4d7c550f90f4980d7e],
   [0x2440ca310753171d1ecb3276fcb1abe78329665f1ee54031f62f02238467fe6e, 0x3bd0c24df838361cf463d5346262b4a83fbdeda25ead4bdf3a0ec683247546a2, 0x1c46861bb307c05ef9744ab2f3f1121944e4c45034ee6ac8f0272e755d4b6f6d, 0x0aff9e92f3b43678fe551bbd8f25c2613b03c0b8246079e180a6cd2cbb4c9c24],
   [0x34456093491393fc5ae59ab7c7b6169c0b0939a52e085f495559c23a7c7e6c14, 0x39135f352442c5fa32c3400534c994e279913fabfcd9373bca18052fcef15803, 0x0d3b0448c50b68f7baceaccd94552a122b89b786ca620b863c02a7a5bfe774cd, 0x37de17de5d77d1aa293a04e1d2a9ccf8f5f475f1f6d00b2a9e279e20b6df70c3],
   [0x3f06cd79850df6108be46661a92292eee0981c98d05ec2f553b8e7a6cdd15a13, 0x1190dda4cbcc050860d69d9b0841f371e6ee0f1f3e318a193a3d254c8ea19930, 0x2b6542eaeb87fc42fcd92147064a91a0214004b6d838afd7346a2716b3ef92cf, 0x3d8b02b647073d6bb96f2e9b27b0fb80748c9fda99003c8529460644a3999544],
   [0x0d148334ee5f03afe680a0bfbc479ebba90c149c251c38dc7214d192adc23d59, 0x31de4d8889e45640c1ab6cb3c1e448a59251868082c8661e23ca2494fe20db41, 0x0cb45744245e16f06ceaa2fb2a7a867250aeb0b72c1362dbd59e8c42fc272403, 0x2022672836eb3a87b07d2b8e8d3d54e84ef074c3f3711f812ff4b917f724c9bd],
   [0x14a3a3c5e0772147a6099b58ddea285408e653738c665389206678f49cde7ed0, 0x0b4a708d71ca90ea133e0532a3328c3957ce53f2b9e3fc6d17271d47d9d35b67, 0x3e4ef282d1a982e9d194441da324ad190ebc272c35f87da4b493731d145ed9e3, 0x3ca36c11fab63fbde4d2b6acd740791e802ebe6888ff85be9be64a34afdb96e0],
   [0x0585c41ab8870f47026fcb4920d5a1dfc46afd9193f71f2d6abe9e13f4a37c00, 0x3306f364dce1e440ad2351d33fbe5f15fbdf4d9ff17d27e8b21d14f00e95320a, 0x30a82fe3a10afe039f3e8c2e7546ff76a4a3d4541b58125dbdb0d2516fe8a6ec, 0x1ce1b8d7866ead6b29cdce992ab8960686cf3a6bc7feb49c3d460abbcb069c0e],
   [0x2cbff76a00d623515166d5b581f0adc4f7f713eabfc757e853f667893c90a827, 0x1519e66cc576cc14ce2956470e8cdb70420740ecabfa6181c7176a70e79af414, 0x1fa295097c1d41e6fbd9f72fb0af9b5aa3d1a8196821b0305527bf62979b97b0, 0x3ccbabd0849789cc1c434dd0c7356a0ec71d03db3ab227aec51f2a5abbd8aacb],
   [0x25a0fac67dce64b86695c1f9986dfd547f51b603f6d73b5c849c9548547e2b32, 0x2307d40b97903f0f59f5df01de9ac9a823edc818619d555ec3d9882bf5ad2fca, 0x398549f8aad34cb56e6f66bc76f30b7e0a0379292e0c9db49ef928719e83c4ae, 0x0de2f7224c7db546a7aa0b7097c6d48846cbe5ab35adbdbc14a134581a399168],
   [0x03a8f448b6dfdbab048b5f193acd1d89b3c0d8777449a7c9e82836d71fce09cb, 0x18fd1168c293c5075de568971d285277010e8cc19dc1bf17b2dae0a3a38a0bda, 0x2b48e2821ea22551541577ada2edc1066077c766c1c0a84abeed33b2862624c6, 0x03af5569027cd396d262908fbcaedc7aaebd9ce44995833b312607ad33cfc958],
   [0x0c60fc4ac4bab581a11fea9b1b5e1e1e4692e78231faedc6719ada9a395e5c84, 0x0553b99c71556f4d8ed95945a96d6cc1bf70a0d2307f77d5e6ddcffe852278d5, 0x14b6aea2c0ba14365b3a0c56e937338bb8555c415400e287f8b7bbe67b59b971, 0x35f07a3ebc8947fcc9a72c3838bdf80000c0caa346aff7d1fa45ddf3b5892df9],
   [0x158c739d41772ef413fb5b7b21fcf0e8bfb9fbf9a4318f99d5467d05ece81587, 0x2f7ebdafde0bbe158a265dee8b18a1a4a0151952d06d15f389b2e517292b96eb, 0x0a80d961878f34b45b371a87b2ebb1f9b58f3fd2719e5376d802c238796b11e9, 0x12cec3917acb30cc1e15281aa7bf53d90419d216986623613fb10aca9be742f7],
   [0x31c1bcad4eef1a0d7a73bfc7291951c337860dd5730ffb7400bc9ec72a76de9e, 0x1a28349b10c85633174b26436ec2cbc372ed1afd4b29af83cc89cb94ef457891, 0x00a2a6963b53495afbd3d312c684c5babc0037651d8f180d35d66aef892b9d2b, 0x2f4d74cea3c17f17d4778ce57e59bc217f8a5856d189079f0b60a681c0e325f3],
   [0x18a791400b6eefa2b19c6f83e019f170aa6bd445fcf4915f915b621c1573ba44, 0x333d6751bc4ab5d168a2ae3c6ceb237e26ae948bfb205e8b060d383cdd674fe3, 0x374d51e4dee080abb1a2cc25a988ee15320ce11fad84e8eecfe3cf5bae13863f, 0x2b42981ce6690c373ff43ed24e5c784ff2e192d0911ccffdc8262dc532de4867],
   [0x04a8002ec5feb1b6bafb30fb78d65023254751977478d7af2c7fa0e87b83d926, 0x2f82302976ba29681c7cbcf49d0ad1e1609c1e727e2a40cf30260d3ce57dd6c3, 0x2bf08176879b9da45776d2fd57988de0f12f33ce757411f27dbaa181f9cd9a6b, 0x039851bff4e488eecb8e1f59168682fa47c2d057aaefec12315e2dfcf7df5ee0],
   [0x17e6b7fa91ce16fa1818c61b4871acbbed0e3dd902aae03afaedb7a14c65132f, 0x143b1f278815a0285a453ac96e232fd54dc965b7af415a474cbf204a6f4c2654, 0x13dc1ab1544f728cccb110b5d8a3b47b3331e57cfa9882786adb86cc70e55e73, 0x10c11599636ea832ab3aca48b1a46c1b9a97dd0d5df68cfe2e6ebb2a0d5c1b2d],
   [0x3d333054b81e7f1a488baaf2972d6b41cd228e7e2fc44bd0dcadde4c50520882, 0x3615cdc9e839c98533ce09ec9139c9fb703d65bee903667cdfbeaa374032becf, 0x3723d731de7ebc74575fbe5701cd94ba51dbdd04a37afdbfb917e8f75d52b9ef, 0x083a8a784a984f22564334b099cc5db6297ea2831f6c98b92222b48b221fa872],
   [0x20a22918f833d921243c3d40791e5532bb96632e4c1e6fd65b4a6edb9d12d1a9, 0x15f31ec89c9f83b4681857307fc8b97a4ece66c5049e73000dcb3117c570648e, 0x1458e387ac0fea846f84590101b081bf90185387542d5cc0c097f440d51ec533, 0x3bd2626d79f9b1d5689ceadd8e91ff146972b91bf85006efefd2b01e497ac3bc],
   [0x1d6a3cb53bc3be5050418257b01d9d5d0b1022538d8d5426cf2ad130a84bda92, 0x18a3b273d1e8715a336b3f412a928b81bff10be01094711965c6375a3fbc0730, 0x36fc46cd7f322b010550bc1036f1c7abec5aec8e1a5cf6ef77d7913b662a9704, 0x3418d0dfcab4f80176020091b5a8a8f98e8803122929e5cc9ff632fdb40d8b1a],
   [0x0d910826913820c68af0552f51222e023bef305453ffc848d52796855b43b5f1, 0x06d5f15e9c5bddcfd6f6f86b9a078f227bcf841a7d908786f5abcee128827233, 0x09d9434f8dc085dfc74a3d15f73d89a1bde46f2c79659015e87a86d4f61e451c, 0x21ddfccc092128048874a0c53156c08f9504a21d94dfc3ebda4d13073363c89a],
   [0x25e8ae5cc161160ea672beebb4ab2746950cd878072e1264df907ae9eb8fbace, 0x121c45420abf8e5cdab3ec9632c1becb3c42fe32aea83fa5265855d4ce4b51ad, 0x14a00fbc9c1a0319a19fe7dab909e800433556a4d394d50810dd9e42f79cd019, 0x108a5bb864bef87c1ebcc6dfbe909eb7a792e180fcaa4fb60ce02a48e3f0b03e],
   [0x34d973e68a2b1179db3fe9937c5454b3adf89e495219ea8df5faaeaa67d30415, 0x1cc5702ef8cb0d489d447d08f7b66d22deed85b2e9e891317717fb1a8e8ac826, 0x1276800cddffa60515a5e57cc2cddcc3419cf1eed8791474c2188ee27eef0a28, 0x26a5bb35746471b63ef933bca24a49d366a58ca54150f0e524592795e1f4f695],
   [0x25c0a52e174ddcc11b5a3713702824a0608baabe32b55d293b201a0a27c2964d, 0x2b8cda9580ce03aabcd2508cce9bdbdf5b48fa7563c89dbd2db16cba4575e3b0, 0x112f07705f98748cc06f8ffd03e31f467d969fd05884db149a21e48537b6b0ef, 0x1a4923cd0a20ff2e2c0c3b89fc6069408e6b594b73061b26d781035a1c3d0872],
   [0x083130d75669dc95c0ca482e1a10caaf51863cf55af33ac10520e63cc8fc27ad, 0x34033f30606670727f5aedfff6be8d2013f3694b614965ed91cac1d8081187ad, 0x01ee164f8a35c64a2c356cc7db807cd83778914344b3549941090bda2c4ba39b, 0x283963400a7600040fe3e0fef299baad9b753a3a95132383e941453fe608cf69],
   [0x380a6b4359b921620795b3da872d508b935b811cb6d02c805667ffcb28af4d24, 0x2bad04565d6cc61669143b6ece9a1a77093ddd963c55e3a3cc11c53844041ea6, 0x0cf4a15499ae28bad732654915dc1d5b67a511845737909b1cccf50680f5ba31, 0x17c34ab6a23a149f249d490c9e88afc957ede5efbc18eb787890f63327e628e1],
   [0x38383a5e3b0fbf5350d048c4f16997705e8b9aa0e64da87252a3b21979e11ac5, 0x0e072d0b971d68d536b76352ed16c6dab0440eca585cab64a4e0ba1e08615410, 0x0b04d062c0757ef7ba7f8e54af428969c013d257e1f3d41d0dbbd0bad7711723, 0x22ac7eecc33347bc1c2abd26c1a9b35853bce937c75c542932aa1e87141f3ce0],
   [0x3ae3a7684111702cbeb86ceb67667cb3abc3afa2c93f0d8d8f2805fdf42c7594, 0x3e6b658310803f709adf8954c9b3b02864b37a490a84597bf74d380c06d0287e, 0x0273dc3b92d063f1d67c3e4d61e7bf0dc505f84aafa1243e9ebd12120317abf1, 0x1475088d8c356e610e5f4763d203c62e5bb941bf73a1716c43af9f1d50509f96],
   [0x1386d879763a44d259f99582124ef6d7302d3da8fd135fc4d8304117bc067fe3, 0x1daa41aa1644ebb8216172bcd30fb28e4e13ae754bd5bb08245fd3e39434e687, 0x124218390fad40862326265e6de2a7651ec5c5a6d422e568952b8fbee667caff, 0x1504f873a252e20b48d74663014532b2eff87628ab2955c97d0c48892c90b9cf],
   [0x1110bb10c565de009979db75bbe47c466d4cf37b822113f2ce77453e0a87f621, 0x316437b96f9cc8c18cd320e919e0d024fa4a4c487f7d78a2ad03e35df9b24d49, 0x24699333c2f08060595bea2f67d5c69e016d4dcd6399e9d1dbb6e69de7bc82d8, 0x328922bcbaa152406015cae1a2a1ca9b15519c6cd36588d5f51856182fd5a232],
   [0x3e385dcf88eca0c3c48bb0efb87d79b7f8da55e4c511f178af6b2d1fac2e12a3, 0x183b5d3b2d59067eab3a4422c7377c8e3f2e752eb9b22c97a8b7389e4fd01113, 0x37562ce51991499f8ad4cfe18ccd472052bda02c9ee4dbdfe3463dae34445d75, 0x34446ddd54ad408830dac6f68080e4b7d3999eb1cf32484e47cb58dcb4efca49],
   [0x052f2e208640f3d96cce87b89d5a1f1e100340ee6b59740b613c736e1dbbb7f5, 0x3d4fe52bc2ea3d112fbdabd937c13094cfb2d2914fbb21f6b417c5e08db84af7, 0x23957ffc11794cafe82485702c3e550f9c4254ea1c170acb5f297ada1d6160dd, 0x074918240e1ea0c22f1cb2ab87f019c60c93f97b3bac35766ad9675a9b698880],
   [0x006ed13064351b11a6edb5fad36c09dd2c8ca35a81bed8429699813f0f52c676, 0x14b9a2ca056d4af215d7c4e767a773934bb878263244cdf2fe3d91a923037824, 0x17b7b4546ab94959ae33fef218a61010cee1bef29fefc4bec925b29004c931e8, 0x127647ad48ff4c00766303f7f11ab9e50d3e454a12fdf6e1f0a65d3ffcfed25d],
   [0x156e8df1f40957f9cddb9109a36990e6435f8f3192475a0421a24b50831169ee, 0x14a93d5ec7b96474fcbb753a9705225989e7222185d3ba3ea98425288f61f947, 0x342428fa567003be2117f74f6e2b64f92d1852b3a19785c85a9dcdc6414739a3, 0x110e7c6c09c770034a4a3159af1552b93b6a5dcca36d4fe17c4d1ad25ef98a60],
   [0x2995c20c83bb958c655d9d7331ce04fdefbe3795bb41af31346836db93857aa5, 0x2f638c37f8c9b2fd506acc1a6716cbc2e035e6e3c6b7a18bd656bfab5f44bb7a, 0x09163acefb6a19112feb57a0d5dfa40ec9be98bc7393fa651447c2a08b2e92b9, 0x000a14e2951283469d27d64ff53de85bfec39491c9cc17d7867d34f4ac2c7ed1],
   [0x17cfd1f18d6a19c63f3eba4742556382118ab17655e3dc2a2db314448afb563d, 0x27ae8b032c813b4068cf9ed7a33e4412c2c2a542c0b852c223488e1835e090f2, 0x071d2902bb26a43c8a22c8e1b0e2c90c0b9e6855ebac5d2759842fea1576d85a, 0x2694ef88035366770006ac71a69237683c9338cc3170d8ba53af6abcffc0e029],
   [0x16880111cfebe378ce8f8a9f7ed97a8579533bac735afc9e40c06f5495409075, 0x2c03d6f3484ca56c256ba91a1d71a4210d840f07749196ff752c491c79e427f8, 0x350594d4c210d6e66ef4fcbda72c80cd55b3dee5e91250a63d4cad3b14b77478, 0x1375498a707afe69452fc093e90d23a54563582fa18813f02bfe996d35569f02],
   [0x23e23d46ea3bc5cfb9aff1642e998710880b414a2048193b5dc642001a9fe1aa, 0x09dbae187a8543426c478b15560ca1838400236b1bf598dbdb1878b35eefe09e, 0x39494e9510b51cd018c807f4c4df84993d4f887540c162cf0d50eda9a1bb3b13, 0x22af74be0c760a7d90204039b06b82d9dfb7fce0184736915e53a131a9bb5b4d],
   [0x0c0e38bfa05194ed7bd00be53ef82dad907db331bd5cdbcc5c700abf4a5c52ef, 0x2925d5dbec55b238b4b68b043f49fc2502c30c8f18fce77fd1a8b869c2583b14, 0x206882bb9cfe9cb65e7f4fc5df6675538dc689a39cb3f019108df8291b8820d0, 0x0f96b5912cb8cae748b542c107027a255453c7c36f73670bd2efe6d010521ee9],
   [0x0fdba87a19f12a80ec2b49f01204b808e84b065114bed932151f27979e6fd1b7, 0x104f2bf37290c7d9fa725db287f38d55f5700fd8ae28f47232c518703604b8ee, 0x3bd7eedfa1540dd0b8e253b96c4c34fb5980c2ae860f9cc5dba8e20fc6bf9e3e, 0x2b2e74857222ea6d7af38f29d63851b9e3f15943b226e40e2ec17b9dcaac1091],
   [0x39ccc41796fbdfbe041cdcda22f6b52b72997b1cf889d5c21618d7978350d052, 0x2f64ecb2d344854770c195c2677e0b61c2dc5fa1a591e3ee6f6e5f1aa492670b, 0x1048aa029d225a4a466484f9317da0435ce5e0002f57f35786aa25396081be85, 0x0573bc90dad60a5a6e062e53e48500e3a3c89a1726a4cec0609730838bde18aa],
   [0x3cdc73858a114be2d2ffbac4483af344478e70dadbf4f940ccc2b36223c68476, 0x075dbd4a7646e34794363c89a0c1ce14e9cf23f6958e466a0d57a6febf522572, 0x0f39ef57e6ee147aceff90e393f8589fe14d1f4ddc6f2f52f2f75914ec478e8d, 0x0b97e349c1e08f6a536708034508f8d53f1d62f80aebeb67cf1246b770909eae],
   [0x2c635142c0620e8262c5c327c9af7535c492bb65de0b2fc37cca4a9ee3a4edb4, 0x2e4e1465e4230678081be8956cfa31d6b07f8ebbd762c5fd505e3aabfd249b86, 0x041d2cb2e2f2cd8c803d0b416bd1ee6f1cf7ceaa9ebb5f2af38e61a2e95aef29, 0x065a8e7a131e83e18ad8cecc6f25f02f2dcd5f5e43ec8841006e4c5b2067dc65],
   [0x0b8d2f6e81b5dbc2aab6b74f8df4e31cbef296a416401447aa70860e68002cff, 0x3c6d4fb269aba2a11a226b465766a06aac02ca7a912a9bdb02bee88dedbb9dd8, 0x107a99d7a81cdd5579086cab321edd50439b347d765491162880816819ed718e, 0x075f7d42c99a274aa32ae3fc3d333ed01436e50fc3dc10db097d0392877ea21e],
   [0x04d00c811a9eb2110402fc844314106f5c4d3763d60796492ed2d05540d7afeb, 0x3d44490d9d860b72b691e7fc4ee144fe2d7b633d192bb25d967a0a17312ac4e2, 0x2d9c62495c7f42cde5144760c33a35503a0b7e42388477e8b64efb37b560567e, 0x38d4c660ae37af061c09a42748f5cdb982856375d684fe9033ee8f81173ae423],
   [0x204ea64b6ca3979afa60d175adf47e3420275cca92dc9503123ad4d8cd17bc29, 0x125b1b0477fe67c16f318a9833286cc4809a14c2b09ac8445c082fbe9bee9182, 0x1ae99db8c0f4eabff6fbe473ae4f2926e8bb7e7866847138661e14db0dc140eb, 0x23182dcacfb37e09828b8a2be2db83b2b628844d512ebaabe587df0243c6ffe6],
   [0x27465cab44f7250bce76685adae5c1e4aa25fbb8a4b7454efb46a1c4dc4c0eb3, 0x233d146704f5c9478da2baf0a0784cf7e36e34fdd7044c391f72be2b71aee2d7, 0x251101d75f3e9f7808d8eb91e9f1fba2df1ef435bccb6eff38beb79d380b81d2, 0x0fb145aa300e367d510d43e239e56b43589c70b2505ab91ec659cb65ab8eaa03],
   [0x12461b001c098f75b614fcba0d84f71841f4932f7986fc51fde3ae5c8422518f, 0x0d4a05a783f2d7778e191e52cc01a2e49f43d5bddf908436d4459b66f74b22f6, 0x17c926339fa2bfe17b0c03e0d077275035f98204e68c8626ce0153c116abfbee, 0x1762de93e4a0761e538610fc867ea2d4abfdf26c11b33a5527f6ac854eccd3db],
   [0x307e8102af80bf27f6f31159de310352f839d066a3ca259201bd36b3c398d6da, 0x3c7791299a8e7f0f2346843d0109ab9341f2202ad4327384bb1de1078101be21, 0x3808d701d552b10bb4053333900446e0e0a17cf1361b112593d0fd0e68c0ab34, 0x31bb907a4ed0f5b31240b8a2d6a1a5943a6cba8ba13c0b30a414000b3449d399],
   [0x06f52da5b0809ae3b74f6b1adde3d47496a83118886d7304d4506e597752024f, 0x19c587a10b85e4fa16520df3dceb8827fcfa3a31bcac94ad2e4e42250c6e8ba5, 0x26c46890e742b76a62d903a78da4345c63dcdb1a45d574fd87e00b6fd7d0bf67, 0x2cbe31ab9000137af068f9984a9cdf404bbd17e37c9cec13f597bc02e9518457],
   [0x18d74d92c48a5b554fe2243dd30b2d00a9c155b61883753d94f12bdb80ebc037, 0x34e716cef633c8f905b0af3b6616ac7e217e8aeff35f86a7b7067c0e7c4eac70, 0x1cd8e6d5daa1ac08331c5b650ffbbc5a68b7e027e4cbe8dbafb72953bedfab60, 0x31f0e0ef61a435356e966fd33c4714a0dc7c1f1660d2b66a2cc5e2b54297b6e1],
   [0x2c9aa18d4262a838706ef268a20d53045b760361663c91a8dc35f9eb4a538f1e, 0x21c49b7c25a0c7ec3ecd4171b0df811b63a148698fd4ddef1571c96dd6ad76c8, 0x30986a7af5ee0e88088c235c2382f1748c8664b23c76abf86d007c3ba6de6603, 0x3789eaae30f23742edb14b2626a686d6d392bb0d91878414227e00f63a51e258],
   [0x03315e27595f2ea114a37712e88fe9fb13b60fb65adc917c16ca73bc9669a514, 0x292862ba6971c1fc0cddd41d8998c1434c745fb574deb9417c8e2626c0f7f004, 0x1c152a6f34b06a1de1d739b8ff6adeffa632b5cd1ab703dcad87b33322b7ded4, 0x3c3282d84d24a3885e5549d932821dec95c39540016b4f34ae00c98ae2277421],
   [0x115d3397145e58b4d076a89fc8ca48cc982b0c5192990359d0b6298240107179, 0x0d9b98671dd9dc25c0477fc290a31fa714711b066618b9b6f26812b3753917a0, 0x34ad90b39e056f9d9c33f7834ee07191018dfc326dde510e4ab8dbd379d378be, 0x3c3e5fa19a32980cd42e4825aa8d92d5b4678c12922cd748d8ee9c586f13200e],
   [0x103e4a124333cfb63fc56a7df5f3ba95b9949049f6a10a8f4409ce796f4937c4, 0x3a991d883da83d78e8c4b50adbfcc7b2a023a93aa884c36710cd577f8e93fad2, 0x3cca9e88a57090a76cbc5100cd894f353c81afe8b00feb7a654b39c540f1684a, 0x0b0a086191c247f31bd3c855040b37c65adcfe7a4f971c5d708fbc7a3c16ee84],
   [0x3cf06e77f082a72ab2d1fe51854923724d7756d4980813c403146e59944a4ade, 0x30ab710b10b148e2514f162d0779f1f187c6f5e912f106e5a3af174095be1dca, 0x037e3203d7a4e9faac9de1c2f3e348685f40be247e21ec07e8eb614b59520758, 0x0a2b934da14176abafc0a3b5c8c0c2503acaef2ea781190b3ba6bac220e1c8fa],
   [0x3287a9ef929e4d38129ad8afaeeecba43c91f28c7ccef47a54780b3765d2705d, 0x09ce1d635edfe67a644042e133052e2fcfa869de6a5336bb42268cc74db6d24d, 0x0f33e07ca6ec449013ebc6efd2b6106496c3594022e85132ae33dc9efd68adde, 0x3bc978d9d90e35aa42ca0ac93d58e062e69ea071b97886fe409a053f1df1dc5c],
   [0x1178d5b5d1eb67b90d9c96b22d5983c2b577abcee78d5613683f4fc2ed1387ac, 0x0b1891c175680272c85e023f2f80feb91efe981663500b850979bcd994b67389, 0x0f252e753cd5d5ed9a487c9f690678faf3dd0d9dff3aaa09b6d8ae1922a1d494, 0x2f86f2b42e01861ef1ad04e5d70040fd50e1244e96b09023db4835fee34c030d],
   [0x0b389a3793dbed5c08676b96955f5c32b096bdd1360df0ae88133574ec2edda9, 0x0a286779bb7c74cd79f496117fbef3415fe019025787710c081787352187c328, 0x337f1eea9a4b6f21631045610eb8b762c3a10f67ef68952488116ec99e7af818, 0x1738555382e047348176b0f33691cff68cdcc65542e156e181be085aa45fa956],
   [0x2d8ca5d05c4157e8cbb9ce47f1f1830621a25bdb4a6fc8f7d01d25432e60976e, 0x04af3d0a38018732c71c67f50cd5d932167acab7c48b51aa4a9c841eeed7bfdc, 0x0d61fae23b66b3ff71663774b3c5afea8188223ed677a194555d187a787beb91, 0x29ba6a46ae4c0073dabc34e252f91796adba2cacc946dc9f641f11eeb40bab64],
   [0x3d846d1f4dc4bd9d68dafab12b5e0406ea2c4602c4f8fe45082ac357914c6280, 0x07f6bcaaba4b06ac6fa782214600f01048a89e3b56690303c30f5e69c5352086, 0x15e8b690635c30a7e4dc364973f547ccacf37cac4e59a0dd47f0f81df16614c6, 0x0c7a65d6d0a09446b786b2654113d3dbc324b4eeda22531bdfc800f32fd832a2],
   [0x171aacca27b8cc261bae34bf285fb653109e8e6fce6c9580c2c8c67201755418, 0x1b361efb64a2300e5f391ea0e08bb96b6060d7ceec6ff2d2895ba1671617a607, 0x06a0c4e8df30788df294460a2d09e409130b0745f3340e3daca3b9ed7659d79f, 0x0d60ba76566d922ef507ae49f878d62ffa76d25161779dc5632b414513644d4c]]

/-- `MDS8`, `src/poseidon/poseidon_instance_pallas.rs` lines 632-705. -/
def MDS8 : List (List Nat) :=
  [[0x133f36ed72c6e419d7124b25f65b5aeb5618cfbe6a1e4c08aaed28b7268fdbe6, 0x0ea2f93031487aee2a9b66476885397f22f47c9ae0d625c470c1a86147564db6, 0x35937d6d0a6cb423c4e824ebd022e993b4ca9d0030248f12ba867df1d37594c4, 0x150e5fcf96663153153ffa2807909d1edfa72a02c7482b2b423554ef42f1c6d6, 0x050eb722d2fa092f43d2ad2b23f17fe77ab539d0f16a125cbf3064071270c727, 0x04f74dd8e748b31a78109f1be3d864222087bd75afff37e44eda36bd54fe808f, 0x03901fb6ae52e35ae908a11188ca4281f7d1d8aa07855668db02e805d144fca6, 0x1c6e1ad00dcf3104966dbd929742399bd6f87928722ea9c120e15096b2d88885],
   [0x0e430f8d3e06348197901a6aedebe11748db6d2e349df0e23779837161a2527d, 0x04dac4705d296d696882d9fd81136c30b6afa16a78b1714deea2e4035d15fd13, 0x0aa29d5a9895e742998ab16cef01f9a3e8fce52565840b2ff0811d5b0b0da614, 0x2ff3096631bcef2a27525613965555858dd7753784dc091160406b7d57927676, 0x09b72a5de4d666cb3bd566dcff207e101dbc0cfb2f8d96ab8982bbc59961a838, 0x3aea8bfad4bc0e7cda61481c717d15f265f6b325c4c3f171a9c244e3357e6a42, 0x1c3a405f1e91a124b67a11c50edf6a19dae01304beb543aa072f28f2e9677a8e, 0x3cbee4d9559162b552024930fb7eeb553a6ca0e1628dab002831461fb6d06408],
   [0x30aa32292162557118d76d0d687869a19e56f1f7949b400e4cf9892ec7fdb7cb, 0x1bbe6dccd1cedf425b05211ff54be3b58da35629f39abe958174723526a38cb2, 0x1c304176fd1ce05178066d3ae129cd18f020d8c2dbf79053f0c01aaaac86d400, 0x20a31c34a687e363d5e5c1375cf74d8079a25a212b934b2061527b5b384f1068, 0x2b54da20946195af2b0255a9561a2534ff45e7fc6f2bee5dcb8a4b4392781f30, 0x2d24b3b0156b09a30887dc9561b744a2e5263f0827664529aa44567445d63e62, 0x286abc2d84ff64513920eaead71210cbd52ee11657895e89531ef7d2eef7bc03, 0x2717d713d3c90dd076a5d80570d0f384433cafc190df429030010ba36d6e456e],
   [0x3094078f85082168a8b25b742ca2ed209641ea79cacdbe3987a27666c2e7d24b, 0x14b261c994d46d6e9e9734515efc20f39e827783e8047a4ebff37b6e55dbae81, 0x14a167a0b33d68808f9c19d6d4439cc803534fbc23e387056cce82afbc137e07, 0x3734b733066f507acf8d792b8e6f5260a0cc04f154d51e58487a2fe9f21385e3, 0x3c420ceaf6d9ce74180d5fa10ae5c9fe95193a4ae266dc9dc8026c933a65e1ba, 0x12cc6eab2952e706b5294d8b350219685aa769a3da23f5f2945976361e1edf50, 0x055391f0404f2e9b0ea136b4bed0fef8f9ab9b1c96c1f36e03e917e86e8f03c8, 0x03348d0d159d36bcfba5455b5b739ba1d9cfb35aaa04916a6102ef61eaf25054],
   [0x176f5026f6584704aa93fbc06316ff7ad750731aa4419b45e0ca6b14fa2b286e, 0x032df74c929a3272862019cbe7a8330303d203dad12d3547a4921b3d8961c4c5, 0x3ba2606f9a3e4c6958a702385ae0a14387d3df1555a6ef72b8e08d1a5eaa8103, 0x27a5e73c2ba02e1828efa2610943e602374174489a95978aa9a3ba3f7a4ca832, 0x141579c62cc29ea60bc2fe5c1fbe0cf348a99135f8f916968f627a45c6bdbd15, 0x00ca974cee25d8f1e6f0da3d4fc91a35177ce60e24f47cccd568ce8f7204f80a, 0x1b45c9e94877bb5c7b9d7a7eadaa741f38e2006eaa2e88020803e5c330435219, 0x036378417186fa2cd8cfb323972d432e2315f7e41d0612bb3977e6e4972a9621],
   [0x2057668cb54659a3aa13bc81e2e2a33be5294023b8dbb65c14a00161aac0d490, 0x07af4a03c127cac4c8cab0c6f5453b0796b7d5f512b5b3359c1db67aa9d1a92a, 0x3d08e512ce2d126aaece1e3a9b7c311a61ce4a4f4a16b587cc28fefabd9118b6, 0x1e5ca156b9ed0df34f568f30a26504347529ded2bf88e66695e4aa753e292a1c, 0x357b280dbb73c1ff94b11e9ce4e6570bf53071fb98ceb42a9556a9d1d12cf56e, 0x35d2ab9c71cf7ef95071e750e1b655e2b9a0132f6b0c507443cdf3ed2e62f5db, 0x02804cafcaa4d1a84afeeff74d9bdd1bbd24b9c128fa11e8e6bf17499547367f, 0x05fa9c377db96f38e0d1646ec95288949afd0787024fb16be648f578e0c434c9],
   [0x289bbacda6d154bbfca75a7a2b37fca01e0945f1aa25571a4663d583dbcb872b, 0x143ca7a4191e81e07762808f62127fe49f90687f86e0d1cfdc3524915bcac7d5, 0x1910baa3585b7380dbf629e7fb959c2710ff9ba4859147b76d0752110ca21ed1, 0x29788adb6cc14cbf2c89367fafdbd0a03700c4272c94a7fd40b8925928e5b0ef, 0x38a7bdbe2afa70712781a66d70ef3cdf0d1c73392fe575e27783082195286234, 0x3585925dfe59874a7aa5ecbea7610abbf99e9563af3adfda1d945788956026e9, 0x056dbaf5a430c4993aec3e6bbfcf96b667bf4e7f9710969fec487d77ee947d3b, 0x19261959c376b137a6b8b0f625d9822016155ad75acd969d44916e58b60ae59a],
   [0x14b7b11e1df77e2b6fef62422b4fd1fa113a8cd3fc37bf18a827845f48c869c3, 0x2b0b3c96bd69a48f29c3bac3ebb538d68077c8897eb3066412d23e044b9ba3fe, 0x1c764d2ee8653dbfcc6b56c3386059e91457806f00f3749c5cb7cc893b5e20ab, 0x383a104e308f29dd8774ca9bdddf01dfb20d9e1dcdfcbb85b66055c5480318c4, 0x1d44c638202f41419a7c49d33c4bba9c2555e49713eb1dcf965c674062fc477c, 0x1b3a94384229ff2b14352c4a9e3fa0d7d2580ccc9e9b82ca403f8204d7e5e14b, 0x3d36805a95f5a64f15ca09cd88e20b1c6884a782cd44425bca3fc14f5833c8c7, 0x1a466afd83a17cc1cdaf48926e20d8d06d90af4f04cd47c16046d6ddafedd6a7]]

/-- `RC8`, `src/poseidon/poseidon_instance_pallas.rs` lines 707-1293. -/
def RC8 : List (List Nat) :=
  [[0x0b033ae725ef356d790a3626bbb80ad2661f511df9668a6a4be1f7c53f36dc1f, 0x13f501d0d9dc8aadb12b05bbaafb081ac0708ebf1cd9b8f9ccad2f1dc3ca1a21, 0x3228930f17e942783e49a4adf7b0f34dea733a0416d3132f072b7942e2a58c11, 0x0d4adc74f38b0ab99060432732ae7fc862634d2cd88baac44301cba8088bfa77, 0x172f969ff6b74224f812651a47fcda05e0164f6d18789276e4108cdd3324ffee, 0x2c9ebb1dbd840a7cc234b775ba5499556db1e513ccb73c91ed759f8178e528df, 0x2fba253ff4460a8c696b20c30b1cea0d89f017d3e519c2d4eb39f71b9f24c468, 0x16b52700a4901b3dad12625dd556738df899100f4a44fd10c0d66ebb9cb46ecf],
   [0x1090491c728d9cea14bea2c56f944d8bf47e93b394dd08038ec8c83c3f6319fc, 0x2be26b9e3d33efa0ec16d4329c81ec9cf660108b7f456db8c0f6ffa9d479e81f, 0x389b0935cb76634a207842e2f446ad8b6413cd41ea4b3950827fcdc04aa6e455, 0x23765551f9431a4ea6ba6fc49ce178d19b90fdb1ea2eff797be29b8ff9ba372f, 0x3f1e118d8790674e68e1a8dfc2d110ae40d3863e5195b46a673356d8620e461f, 0x3bd76283c6855da53928a73bb3f0a67c40a08dd201dd4a0e8130bbd59afe091a, 0x057c9061b4cf2baa5a2c6092ff10eddfccc68ec3cb793b9afff4f4d987dfff8b, 0x388251e0130c0532c41f2024dbc256e6f6627dd9bb7d0c4a9283fa9231d02f14],
   [0x1cb8e043bd102caa4da36428829449fbbbd912b24441f4c2b194dfbc9f7ee644, 0x2c766830b25517e3f86992ba960c8e669d8129d7521e0440f56a6d60e6f56427, 0x12200dbb28f810a625eb52453516f910d81aeb50a90462bcd919e18e7e1cac36, 0x209cd24a8393d11059a65cb2a5638a7335310f200362aadb3a2f97a6a0f63866, 0x2caa7b0be15d347cd3d7e8e626acd94173f4359a0f1d3ebcb4bc229d4b11e19c, 0x0d0d24753f2de9df8a128ce943e7957842702be51284feb94389a5b893f2dedc, 0x00f7c085407091f8f157749070e0b13c8fd31d659ab32a2395142b54151c9d57, 0x3f0cfae133d4e966b0de49613b7293829985b9ff96f5409970a7cffac4cfee9d],
   [0x20ee69608c6e115fa099304c011fb6a3d98101148c63973dd7dbc47d1b5d0891, 0x0ff0d36b9dfb636d233a43c4e20f6662144fb6e7af975b560d95898b3910d87f, 0x2d0783bc52c092a6b2af90359ea10ebde8e0d09e66bc6fbd57ac4267756b46d3, 0x3324af6455056ee3cbc4ad594faf71b75c62c5bae2a9c035caf18909565d7024, 0x089e83de456b22781ca3d840a52c6e80dfcccbbfc05fa827e9cfb6828f32087e, 0x157e81447576e04743099b31fad5e09584bc3dfe4136fbf7085c687dd90098f2, 0x3eba7e6081f8b9f21c7bfbc215caa09339dfd3f687af1e3d1b08703ed1a2b8c9, 0x1b67b550e28c938ceecb310c40355e1d57c24d002d5342cf61ba3f1de982c099],
   [0x2e91a4aeedf9e0f4dff37031448b32f1b2eeeba64547b4ae101869ec56fcd143, 0x3fe4ac878bb26ae3aa41debceeb91b1940ed0dde74a1db8e0c4c0bac8c45bcd9, 0x135f058a13d290da4ee09f487ec3513aeca343a90b1c337b7cecb44122ab3e0c, 0x187a3df85148c17835390fb98b27591baef17d39b07a0bd34ebb72b3376e46ed, 0x235150705c6788b8244b635c900328dd10ff204c3509230cc8b577a92bf6ae73, 0x0a420d2f3967d55e24bd48eddab05e5062f636414ff8ea622d847525d2fbc450, 0x0ea2630a17696470b9475b8b4894e28fc450c43907f14b93c0159edd8ebaa58a, 0x02ff12701962c2c2ea702b0d4535d32304d786a67b1f80a0b6c3e86175a131cc],
   [0x249c72d1a781dda5697b629bbc81b2cc2ec3edf3dda53caa51eb04c9f3902321, 0x2c1a96d37381ebb98eb56d7d195fc5f52b3198ccf555f860768d8a3a246cecc7, 0x30aca38c52f97433af25cc0ea57bd05f5d9523a0e7d14ffd4a4aed5c6f73a9b9, 0x16fd10e125dccc0019ce94b853895a3aeb303aef40af592a3d4fa7e986f21a58, 0x0d114475cc50173d977a399dc8b78674da3bba456c124f508801ce17df4cd27f, 0x15891d7fdf65cb4b55bf656a4268f88065047244a40d64a506abaa2e77b298f9, 0x2048fea7830c0cf075f66a32c6e45ee9b935f442591d0107abdeb4440c322653, 0x2902ec2978667a8ab684a29e566d60e47482369f98dcbb1ace425e0d28be76d9],
   [0x00387340f70fa33921bad8c8a5221af173bced29dc4521fcbd164fc063c4e0b7, 0x1ace5a9fba14e8fe2c04f2e0fde0013c3d60223150098f8ea63f363376efb2d9, 0x07ca497f4db85b083e230703d5be4f9f3e5baaeba5f8afd451fb1e5fd7618337, 0x249f7ecd516394dc1dbefa142f5b0d5a2461ee0e4fff04d4938a49b0f70fd295, 0x2ae44561a5d08f74743ce18a73609f63e48fefa3ae4e405298b8b051004f8439, 0x10e4029bfd28c1687186730a31077af0b504f16f48a4a3a8490e1c13a2debee7, 0x197e8f996546c6cafed54c44fa1779d037eacef3eb2163f74651bec20aa05b2a, 0x34cd1b44c4926120cda562fe2d639c0faadf049dc763fe5888e795d45e68a5d7],
   [0x3546cac12f45a1253349c2b5d377355d2302571380b2f09e05f9a63d917de932, 0x1678f342785d1b7d6085952b04f1c80ab441ab8cd7e19828ed6580207db932c9, 0x37e59af0e8e97b43c757abd963c5d1f1cd9f7fe6150afd8c6840b6bdaa98e0bf, 0x2fb402f1f023a9a148eeaf69cf6b8df708d272fdc5fac42ba5749b726fb4225b, 0x33d3e4ac2bea2ea4c2ca78ce5e692f56febe06b66638717c712ce25db10ce538, 0x2b305dec66f17bd9f7371d8326dd77e087d58e7cf57576efc0f513301ad4c4b4, 0x152bea024826b4449e40cc75c78556dfbec0b8e8a9c7f040a44e82e0396ca1fa, 0x2aa65919ff961bbce12a44ad6b4cde0962ae21ded56f4dfcddb5efc72ad5e8df],
   [0x374c8deaf88a37c09b1383a0ee60dec47b9cea67aa1ec6655873da81701d7b50, 0x1798f096286abc5e3a26be543a7f5a67d406cc679c7bb70156f2569226927f6a, 0x3cc89076e8115b9f33e3e9d224dec8ed4f4afb9f9deed8a5252ccf1c10fbc55c, 0x1ecdf7e7dd57b27ca7e70754be273d86a2d0cd1c54af7df861d54690656e5798, 0x347b101c1c0c749e723926531b8c2cd6e8944c568143f47a81f90e88d1688342, 0x0b35c1d6ba8aa53713edc4d1aa7ff4df5d1355c2fc6308c9e53d7dbd427acc8b, 0x2c44168a13115314354e0f2d75771199f712eb794f012d70a8e5b0fb64aa1393, 0x22e67453043596e9c8832ac08df901823817fa81e19a3e91a46c78c88e29e4a4],
   [0x124002efbbc2ab2724ac6d3c22d05b24678b30b7fc6b4d51b8bb194a47e6f292, 0x294e60c8cf275cf8f6568f2763f3587acb4112d0f02a93b871d11ea981f25600, 0x2954b846096e84e3ed28e306897578a0e526a8ccc449cd71ddb887aef672f1ed, 0x1669aaa42104e18c4d1afa6d947e40686bb1551732195b2cd7490289eba30761, 0x097de29bc29ef0918518a1808e17a51a899180e86b4982b81553f1a17757d618, 0x0794c7ceb813c5b881b8cf882bcdd492f80e3bc950ee8338beab07f67fd55b79, 0x106ae3c622cbdc6933a9fd0887d7563658c8512ddb83fe17cbb6b2872e1c5407, 0x213cf31d70d23e18b6de03520a4089e88297f5b65c31dd0ccd339b271e1466ee],
   [0x2f75fa3fd8327929654e81cd89da470f953a6b284c2b056992354896808f0458, 0x14ce1207f57e048d89c58e5f46680c08f430fe92804c4bf52c522822786fa706, 0x3fc8a2112f642fb6838f18223183fed98b5329b11318d1f7ea64b6b1319c5bd2, 0x3ca0f61757e07a5c643431b5b2aab6c018ef15a9fe654430556141cd4dfad961, 0x1f176129b7373f53f044d44e93cae59e48f0553a135d6578c8b2d65a7e9cc1d2, 0x19e0bcdbf928a18c3b1448656209be3951ec29b38b8d7cf1a5301242f88fd767, 0x19ce240cfc708c963061d12b7fea2cdebe93443707e56fc4f50a8fbfce9734db, 0x033985fe39b19d6dc581f1a54f8f7cb115325bf2ddefb6019a8127565bb4f89a],
   [0x2e09444f486eef70f769288363963d5f6f175bbb87e884f28da8b3ea58f00feb, 0x2dd12a99b0af639499b6a1456eeab724f13ccf318a487675a14412f908db2a27, 0x3731dc2d437c050589563493cf5615fa2e99bc1bad985eac45a350b5dded976c, 0x1c990d143f24dec225754897ac76d8a18b63e2a6fca0ab4a34026551417edc06, 0x02b01894b0e0c2ce0e934da71da32ed420231ac7bbde0a2ccd036ad67b2e1a7a, 0x2b533d70f4c4feb22accfe1926de14fc6c59ca5411b1c512bcd9f1900167c218, 0x0cab0fb17237f92f733d906104fe8996ac0f563bb31d50b1c57a087817ff05fb, 0x260dfda28a3734c4d43b1707f481aa5a32329eceb23091628031cdc311a5dfd3],
   [0x230a9affd632bbcd576138ace94ab935d64504775d21a33fc893eb214b49e782, 0x0e7e66ba2d87142dbe6fb2c34e0ae1e02c77c62debbab70d31c9e0a5a273b8c2, 0x3c7820b68c4d272e0c625605af08422cef17e5b4dc7ac252810b4298c4081822, 0x15f38235f3132c274a9815795f8ea2e056b91d9d3946178a8c896a0767a62f64, 0x0ddcafe91c3a32db6bec121081c3c52e8c32d33fc83e834340ff31f6ac3bfd71, 0x2a262c139b849a9501a4f979285b8ef7bc846c51b1b8c79a42e208d30985ba8d, 0x3f0e31b6bea9e3cd231ace66db1a2bd3fc1357e4deb6fda6328b765d8a50b452, 0x2fa64808ccac0013f6bcf6270afcacc1842632784722ad73b9c4f61d76a39776],
   [0x239008546115f0b0f6e265805f085b2ab8a6fa32c3879adf36cd60e59ef80472, 0x2bcee96c31ba7ee900147c1c6f27ab2fdb936acc70741d8685d16dcbc525ff5e, 0x2cc4792275da6d8e5e35f9716e851636ea11c43e717cac9c5a94ef33672bc975, 0x0d9063326136548ad0c969c57e5b7d435b5884758685a47269768e89d4e33149, 0x3b2271c9e5da8e62a57edc3f2da026ab68945be73289cd318214130143ed3a7b, 0x120fac871945e3a5dd7d960d6f70e027fe18b436f9a19cad78b41ecbb820c435, 0x3b6079c61f300ebc374d6c17c0790f07f5c6c8066939cfb929f1291e39be77e5, 0x3dc1bbbb99421030372583b9a24a17354cf3ce41ace2c181d14999760c78c0b4],
   [0x2d9929884d35f735222e47404354c31ba82c86abca3de90cbf606d128f1a8036, 0x25e2b97e5d139f588739d10c628450a81dd437a215645eb8cb467d88a416c397, 0x207c3d8e2f0714abd5b91fc5c791894651c7ef619ee04f557c81fa2ba5ee2393, 0x35a80837d48d9be9dd03b86c81ca6d643d3ee984007686e332e0be6ab304a032, 0x131e61c429e16af1762a19278c29f81a496968f6888f2353adb39536437766e9, 0x0c154893a8c7a5c4ddd6b9d04bf1d228c2ecf90b845396442b8058a401d47858, 0x3a358e06db86af986fc28356cdb0663d95930a15e229ddf35adcab7dd157f77d, 0x2cb0fe65ccd92206dfcad4269ee5296763abaee2f35d0bec182a0fec89a59a75],
   [0x0445887f62c370ca31716352c11dd6e2a4cb12da0070e1393260bbbc2e9bfeda, 0x18414fc09bf0b93ab83ff0171fc028f91dc78278aad0e9b24e1b33ebc8276b07, 0x23d770c254ffdeeeec328747398c79faa99a9b499afbf34d4022e4021ac3b6eb, 0x1bb66af0d0857cff901ff3bef1799bc20799deecd4676b43d34a238f190c32d9, 0x214b2d23da0429f5b182d9aff248bb2bb67f1f120f99ad3a1741894976d3ed2f, 0x290ee8a0f6f7fafc95c4f1f8d59f2a16c062709793aa6d6dd56bebb3de4cbb34, 0x0bf9a0d26543c9e7e8c3f354c2c6af517ab63cadf5740756fceccb10ecc422ae, 0x0540357074f85256638a3a11ef5627d9fb258164a660a9aed6e1fda759a4a9e9],
   [0x06a1fd2e0b57d30db2139b74789578c71acf5311937d4ef81c79f971d5ad1d62, 0x1da8bfdfa9b25e088aeb75a0ea480acf9504ab09c6feb790a393709af833761d, 0x227bf8f5e82b1b5927ce14b2df47c6f017ae86b2238af7644606efc0ae91a60a, 0x3b0ec5e140fed08fb7e05e6639a8a6981658c8c2a3c3f8fe00f37aac9172fe6d, 0x18463bdafb22e0e4b493440f29bd5bce7161e1fbcb405bf05bc0fb660bd50785, 0x2d8fec4258547cbcdc87cec2c9449991030da9180d2382450777b46a0afcbb7e, 0x1a0512f9fd16817c96f5ba4aa9a9d32d8cde2c108d6f7dd59773f3e9d43969ba, 0x3c3e1ab1280b8e0bdd516cd4a274df530f0070b2ff3bd25477b8f732b7beb7de],
   [0x1f486f671848ff022d1e91d0555a509f67eb804df975dcfe0b1e738fbfa03f78, 0x14125ba9bfab4689a22eb7cb0185c488e087aca3f91b87a1de37604e901f1802, 0x0383c656215d431e10607389b74c44ba3b0453bf6125d1f849a61c1e7279efe2, 0x36c3095d34e604a0a9c6b53af6569db2919720a7f74e18ce90adcf7d3fd649cd, 0x0d24d37109e7949a02810672d8baa774f4c704d426901a3429ae2803b54af426, 0x3f325ca670342895e58095da6f3ecf8864ae8790af947612c23bc409e7a2ecff, 0x0a5481ddefaca0bc4f64fd33f5e8f0b529b3cc3c563666779d934d6e1d22cdfd, 0x3d33bf170466f45e12af60aeba172b5cdae9158560f56b8d4fd4eabb9125e5dd],
   [0x30d38c146d3cb5c7cf6a3f3a2d66863aaa000f4c2f5512c417814c92d0a1180b, 0x02de9b2e6dcb33cb90ddc5b55d28e0a337025a5ea75855394b0550eed9747d69, 0x3e9addf6d5d1baf3b97ecc470012f868347e06f124dc352b2e7642f6d2b197e2, 0x0438eac6cc7ecaafbc8769fe2906502626f7015c16ec3fc31fe6feb74e42be65, 0x1a80f33da67af976d9cc34e6e5e586ed94570ee591566c92c5d2a70f9d0bccd1, 0x08552538341de80e662c3d1ed1667dc8c41fba374b10cc4066e8ea0b80965de4, 0x0eae7b91ba88e8c94a90a74d9f763edcad5e3b7ef8a0b4ac2ce3f5b9739bbf63, 0x2754636bd85b3898dd1b49187f7f666e01594c701cdf2bdf40af44371e463494],
   [0x2ede3d8e6d3350069b2e3af54cbcd0e0b587fd22383408b573a448b4cf99e114, 0x1069fd84bc2572601d7d0e5e97154431cf28b10fb0acb7b516a3800be0dfdf21, 0x2e5f634edbc7a48b7e0139466283ba5280231d85a2b6c41adf14eb3748db6ee1, 0x3047d72a1157b967920805e145d0e5a7655c1537418e2dd6efbe49f5463c5d3b, 0x3a17e760e3bdf96f399aeb17c330d0e270717ab2627a385a5610cb2ea73219c3, 0x068990a4c1affdf36a1f30968dbfddee1b4eb94bec4c7fa792985df431387640, 0x13a12baf4319255d7752b74354f781460a6ea9c57582ca9d1957853511446d27, 0x3c1f00645c337fc6b91078d96259c285418839482da35adaff91b3cab2102c52],
   [0x0b771124e1c3d19a21fb4ed37880a0cb7863f5374b5ba5b43d4c85dd47fc2a59, 0x0a8ac03bb81dd3de11619df7e67a9e646776f292231bd7f21b0d4a35958c33dc, 0x0f907eddf366c7a355b1e5f382e6b53a5d5ab4e90b524f9d148f655293dea25f, 0x1d6a8ee384f6057182e077864063742a4bff3719385e486348c6a0fb3a9ab736, 0x3c5ffb8a30ba4ce92690555ee478be9f425ee9727d2f74fd0ca74486eafbe1bc, 0x1ef5880a5d39d6846a7dbf57d10aeea1f1fdeabe3a5a83f218be29e20c00638d, 0x1ceb071d0625680ec8dd9a33a51861f488a391e5be6ec526e9ce2c6d9cb0698a, 0x2d85425f4a6f21c4d66cc2c315f2f6f7fdae16b189677a24f861d68dfd9bb8bd],
   [0x19fdfcc046c033c5643589502c3247da87b8616bea85331af8340bd026cddb4a, 0x245c5af8421f034d1cbb075eac81cb1f3e1a77394a65c97a64be68b606cc7aa2, 0x120a3cfd59a705d259ecdfc7fe686c8f94fd7f9d9f6a91a46ae1753aff972345, 0x3a53264ec6729effeb1220d308b22993606aef5729ccc5fb1e3693f99be56511, 0x33a4ac24e4741f107d8dcb8868bed9a31af47814313f9d18e30fb6e872a21d36, 0x03d53679e230d3928efe5e9f4ccbc3b5591db4c2a7259e833d7db6522ed9d6fc, 0x0c1f8895bc7a8b26eb1d820ac978bb89afe99d6093c1aa88a0c92c1f5916af2c, 0x31318f321e0d9ca5b5b424f8e8b8e49fa3a525bdf16a53353980e906a1b220a7],
   [0x3824afba74120db766f9ceb6c55ccafe85b6f32f157a22085760349e84855907, 0x35dfacf065bd4ab6dd922314d48f2356373e23a07a49d08b71a0963fda7fc96b, 0x071a907547b9675595e5e7ecc11f0cb6f742621277d0d4338486b008408c6be1, 0x0aa9aaeb76d1933c1990fdcfd654749d95e57118e2a084fca99f663b9355ff0b, 0x159083112e0ff191df9016560dc9f037fff7954ea80355bf09be6bf228114cea, 0x3d2d27d380819f73e27f7058667768496144319e9a62cf8bd271b91579b98669, 0x3cb51c41153c378e25d07fdd8fdced6ecae40f8d7eded41b65a63993134a3a35, 0x3b03d1f63c93f107a5eff9e2ef6a1ff7e91f8267a5f7b99ef4980ec173f24d48],
   [0x1988c021fd37f3427456960fd84cb2e8b69727135deebcad5ae4a69dd1f72933, 0x2c14f416a63d78713b8bc4bfe0dc3e69cf18a7c0d52a50b8e37d5d2ec238c640, 0x0552e3c330d2efaa8de29a292e249dd4498d902a0ff2ea6cc96e0f163a336370, 0x3898801a72cf08bd3b236a7f2c9144cfb56c042f86e96aae4c256b8a2d8d18e4, 0x25ac8c0a240de3717eb2df0adcdce25ef1b88d8b0e4937889c3afcd151cc57e2, 0x0bd1bacbdd75977f0ccca8f8c46919c562c40aec47cffa1f28a35199e4c1745c, 0x295c66b39977c3d9cc0ae96391419e0f66a478d4129d4cad5c1645da28b26bd4, 0x1e19d7dd91c9f211148b5d4f580c52d994c6948938266b4f73370f62ee7386b5],
   [0x2a76daac31286fb1514190a47271be5225357f301d8bc8369bdd4e43b630f9d8, 0x0ca9c15d60714e138a817327938d21b84dcd84c148a3ac4f5e6abedf8dbe71ec, 0x1c580c0a52b924dc32b980e8ed6579afe1561510758b42fbdb9ce48835795eee, 0x19ddbd0225d9e7c87c92ed1d56f28e10b8eb9d2f10efd0cdb562725699b2ce8b, 0x3ec128d64068efa18f3a500df65c85cede50df5fe8308930d5420082bcf30da2, 0x20c28bf5fd98e55c3846fa321bd69480653bf4bed9bdf69b81e4dc6fc485bbf8, 0x1f42021fc8b9cd9b894ec824a723930c3338d8c16a3e659dee9e03f50ce9e81f, 0x1448f8c3179202a88608f341a6bd0624612a104924c66899e95e043cea888e99],
   [0x3e42795c59fe033d598bc358d2671420dc043257c432c6d897ce09c2cf352483, 0x1a0558743d31846aa1218add25f763f0fbaf1a1627fb72f4fdb8e83d4a986f16, 0x273f99ab8d4d02c7575fb4dfa4fd829b338a403e43cd26cdf3be87ab3000dc1b, 0x3c4c3b051748a10b3c6077b0dbb2924f3d023356204b3ab5c64292d456faceb2, 0x03483785b6aa053be68d99e0951d3935d9867afb5fe2c9334922aeddb785007c, 0x065803c0532adb706846509f2be68b883ff57343b8f345a94954c5a7a46ed62f, 0x1bf304a087195603c6dd49782fb94a186bf1dda17c00ad778280788cb1805ae2, 0x282bc5861c1822f2cad80f0f6eec1ef78f2e64da13cb5fb3d25b9843b52476e1],
   [0x16d7118fa321bd801fade7bed8dd97070087c5147e9d3e116e25c4f00e1e1f40, 0x2a5b0b4ee1bfa9ba3d2ea4d9d0ba2bdb97a1f8fe473dd9cd688462aa4ba5d2b0, 0x0bddea87be079e19efd536772e69cb53f4a03b086e8d6e220300cadeca4beabf, 0x0c53b2c9f7a14ececd01041f452bc6138c44424808c8e949841134e11819758a, 0x09c0102011f654a175911bca45c86976d6fcc318b7ae76c1e3ded760518f611f, 0x2d9d673c28d7e5867430e0371cee622f9ccced259c2fa6294a71d1c04ae3686a, 0x27f4729d2c268e25983ab283ecf7337084e8012584be3edcf27c6c2b8996ad07, 0x005676d8a773cd318b09b2afe2be83fb1c4fbd3ab14629f19d100b1f310bb265],
   [0x2aedcf74c2e3bb6eba40681a65f592d5522a8bf3adecaf55d65bd92605ee38bf, 0x3791b9efb35f4bbbc4dd01fa6163b49a24bcf326a6265f0deefb1ac9b2527537, 0x3847f7b5109b01c37e280996928899da97d1aa6e8801e89b9ffce727070829c8, 0x2e738ce46087b1f6723e01c8bc8b77722d5e00ddea334cd6ed142725f7f3c62c, 0x1cf2c38937517dfc2c51fb0aa92b6cffe2d30ffc5250cab3d7c6a6d1127f6666, 0x0a56ffb62b8df27da65338af0d354a5c295aac25e7f8fbbd143faff13da9c748, 0x1204142f9ce0dcba00fa919fb69a5756ea6a731057dbbaacaa7fef3368afc226, 0x21053376cb5a1efa559dfa6bf6e5b54ab2f6494f983271dd112b891b4ff50a04],
   [0x31754013e55f3c1c7ec3d5e456f2685c9578811d4b55f948acc4c4373643d8d8, 0x04319f7c90b193b91d3f4d396b1b2bfe72c2d6bbd38822e075396695c87723c0, 0x0cbd2d789bf9b7582ee54bb3f34b80b040956fe3309295a98eb51d2dbfd3e522, 0x240695c0c8e863dd0c2d1012e3832fb774f5fd0c1a0ecf4a7f4ac5b3c2bbecdc, 0x0ae47e6f2d847ff10b5b7cacb571cb302f1caf9a581b7719a0ee2ced13d75efe, 0x3622fc59527db725baa4c0a521b18904b04848579dc8ed32adf275c9ee72b11b, 0x2a4cf9ae09cb2e5d0f950db7f1fc13e8275b55ae02f87042f9cfe4fc6bf949a0, 0x011a65e476915d6ed1433c5b2e57e4f504ac5e6a7f83a14252c2847ea4fd157a],
   [0x04e13a752a2a1421f9c215e9ec5a85bbe97fb33ef03edca6b4b0f852d8e6f812, 0x3cd3eee6138375a030e15fa7c74d3b5a25b66b8754e52f92f5e1204c89b97f9e, 0x23c0257c5641da348dcd88bd53451d8c3edef3bc5c452d28294e707f1eb9842c, 0x25b022f0f0d39a723828a8b3242b31eb304bbc0272a493077a1a1b22ba3ca2f3, 0x001a72ac0650854467399c5d6f9b44d53d1ef696f4ce85c3b6825193b351a487, 0x0411c84177688f90337e5d9b4d696ceedd3e0d53c6811960652bc1a66a02ec9b, 0x3d1b82965d1cce661b24d6017fe37f81026bb91bffa8263083899b8adbe2b058, 0x1a78ba425e3da46643d4db371787772b1f4f03e503aab3a038470f21d33a3ecb],
   [0x0aae9e6d7dadddfc3b395daac00ac448498f6af585d209f19f805413216a83df, 0x384847dc71aff5cc9a3c64703031c1065753a4147f59593bb9adb258c3798511, 0x2243f66da211988c106605aa1710118984fa86e6021f55d5368344b843a2f53e, 0x13e1b6098b0793cfd147c0e583295b9abe40a8a2415db3ed9c25192f0edf2e06, 0x2ce73ae32d67c1efcdee2e4d4223eed58c742ce15601638c7c0b17c52223d55b, 0x283f0c2189cc4879de7166929a888056ad45c5f632f4f0680f76a230efc93a75, 0x0afafd1fb97562c7f91e286b1ddfece508947f19c407837e13bdaaa7cc33808d, 0x0a4a56343ca116bfb2f7a731f2aba94f9faa2a85d0b19a32b7b94763021760fb],
   [0x0c242afc31133ec77c3e7bdc151a82fd034e5f947ab468d8c9136562b0654f72, 0x0bf5e185735653afae0c694a23ad5cbe6d2163cd12104927324cb3a991567361, 0x3dd28d4bde0a592ea0778299876485f1e33bdce972f6101bd11a88dd2b31658c, 0x2c246c4a2e620c8d9d9b0d82ae0f703d74e43c258a42e16aa3250b15f58a8360, 0x3d75feff857c36de5c6199f96d9cf71a7e2d8f34fc84b1aea599ed1b7191ca07, 0x2bea967e100cd389c66bbb2493e56bd6778aec25baf043e53db42cef8ddfdf5a, 0x3f4413cd385db8c97332997717417de7633fe93ad85fc3e9ab8e16b834aa7765, 0x02b0f38b01b01c88b922090dbb5a6fa1a2a53cd7bed1705bff59a91d615ca6f8],
   [0x297bd06cdebf1d2cecdd48eacaa3835ebb41bd6c80bca4075a9636f676e6b9ff, 0x015d7a1279d09e301a4b1c60ae16377e53f797df534172c9cec4707ae22dc78b, 0x1ba0f22f542921902c6a741dbad08de5f2707c44071ec9aaae06d48fa9fad938, 0x0c731eca2eea18dc95c03fd03cd6f17323710fc011501061bb057302814c0bb6, 0x35cb49fb9ea9b45950a27debb225463ace1bcae1df501bb939ac526473f4cbac, 0x1bcfc05a8c52ace4ff92a5f2557b43cbe3181635049d79a43dc27fb10a1b2cc3, 0x3baec1974d191fdaa769b509ad7c53b4f6d1c6d4244416fa3d90a09eaf06f1a0, 0x186819d18c55583868ff5b6377af622dd30206868dc995b6cc583ab10cb40b9b],
   [0x0d96369a6c30228931b4dadc8ed6fd3f4dd5935671c7941233edba8795ab77ee, 0x0c5ca6788e546902f21daddba2c4bfced3b441ac0edc10fba93a7a65b4c4333d, 0x23e2985b76333abf0a72bbd2caa7058be53a598203e3dfccbdf0cb8d1038ff9f, 0x091b99abc1c66eb141e594b735dd9f2aaadd7067c0474300e0aba99cbea9ff44, 0x1b0125564d3beff57bec24bedfe6571f6253089839330202a702e5b5708d4379, 0x21891089c810a20a4e955a23cd9ad9d7677bc2051ae6b3db01a5f8ecacfad9d0, 0x34576fe0d3f80b09305c3476e37321bf96a25a2ccf8673811d07a9045eeb708d, 0x0d3d8cc45c7892d7b60b8d48bf9beade854000b2273e7b56395daffd2ca7593d],
   [0x1171f14b2d51830047ce64be338dc4521313a1c04f41331fa8076aa38fd56738, 0x1aef9598678b674b2ca79784a7190df95392c76cb9c0fed08c105f0599b39878, 0x0d87e1282d8d6b605a10ac10b428850c15e95dd33f5b925fd000c038a5902b37, 0x18247bea3047f73406dbda0deb04fce7b5fd70589e4e14032bc7c39d844e36c0, 0x08b2e676536adbcd631b158aa41308cfc7dc8ecd5abe9efb8025443b413d0862, 0x37e19b87ae185c06edbf5b011bf41b9ac90bdf94748f5543b60f175e84ea864a, 0x1b53b61d773b2588c4acd57ebfc89a34a0a56ee6e7604d12db5008264594fdd9, 0x0d76091c416911aa36b9f69060ddb3f82dfcb6906009f7fcfb0daa03b8208523],
   [0x0a21126729ba7f2ce6456883b855ef0048c941049a14ecb2752feaa877649909, 0x3c3ba3b089c469c4d3abce417d8206c2de48518259bb6713e1f8e472d15b0c72, 0x3a2dbd1fb9583a17cf7524347aad3e08392a55ac5395383ce9f8122018a2ba38, 0x174a90162490f149cca5c52b8b885011b47991872d10af5a4da5938226b69472, 0x203ac4a3f9d18f92c80527a519a19b31b16509e73cf97e43ffde2fabc2e9d245, 0x237074bf71c808d206d786660b77d8e6532f2de335d4071541ac3953e3fea984, 0x2feceb4d3098ebba4afe872c99f52d73e20e7338a536b2e4826f325b120685ba, 0x382de3a8d78b5c4a1fd1c578b1a42c4b58bd04d0778858d7d3abdabd9d3a5792],
   [0x2a8b45648c502b336e2bb5bd30a959648d09ee19a4fc2a7ffad06df64189469b, 0x1f4631200cf902322d8cecd8ed8cd6bdcd3e13d22bc1c75698b946d1983bf268, 0x1b2f82c9b49e9aa2f5ab8be97457a1143d84935ecc77fafb5445d355c53c2769, 0x2674694384b41b5639ffd14164cbccbdc8303afd4d208d3c8d123d6e1c12d7e7, 0x16411a50d3256a6b4b08539465b3abafc7a753e4e98692795ea86d1e1b0f6f1a, 0x2b6cdb9252d1f9766b8a05948a6fb497a1a439996982f1094233de5b9d0771a4, 0x061f5caa2228a78f9f56b93d5b7cce948b6046b7d4a797c3c52e07a4401e3edf, 0x38944fded0153a5853bed16032a467da45aed406582227a7da38073a7a728e7a],
   [0x18782101e92b640c1f3e2ac28c9cb408db6d0fc39c84832ef0a338ec48c4a20c, 0x03ba294fec33a36ce5f4cee4e2f64c4dedae0a6e910059478db29aaca6fa7b80, 0x1792778db3af9e3d94c4b2453b8b932e1074a0f1a6bf4ad426cfbb1494dafaa4, 0x282ac7102d3b38681b1b26c77fcb7de7e576b5352d24ffbc6174c8b7e46a972a, 0x25f0ceb86f310eaad0959e9e43c5c4de113c7683bf2a4b12d145197b0d79c3d0, 0x041d167c30222ba7ba2a85fd060fedf4298f5a66c4cd51c47884fb2e1b29ffa7, 0x23e698272c1e86d6692aab093c4acec6325b1449663f80c5a8dbdbb11b5b88d3, 0x2d45b018c936c37ed67b74a116ba07f308716a8591f291e00eb277a8e98df658],
   [0x0bef78f70bd8a1e316251e2cd216bc9521b945e8480efb729fb9edba7d7bef10, 0x271243003a39eadebdb30ee2180913ab5cb2984cf53c689b6d7e49a8b3008955, 0x082f8f4d3c03f7544d4bd21d59dfd6f30a45e9392de36f1afed2900ec22bd3b5, 0x16698999c8e7aecce24325384644e7a4de25020d7a1793b19833c24ec953af5a, 0x27aff07ca569016e2001c14c8e85e65254c6659e465413945ea60edb50d58a32, 0x38696c49058aaca49614a2c27f6f4a521fdbab841eb18285ce4b595581048c26, 0x2872523253915811590efdc1866d001ed9be108ff44de16faee3c28d75931158, 0x0f460d8d90b5d24ad76edc74f272f016cbaa1bd3271702e6dfdca4de0964f574],
   [0x224b4b7022653cd00503648a4145c5e3253be616535c134de40d088751136196, 0x0551551741011af1e80a4e1edc921cf0226ee43332bb703f30d3811b77b0f304, 0x060dfd1bc07669d6a388e674ebce7fa936e723a25e61142dab324ad5434ba500, 0x0e3b813f3af737b30e0af63bd29a4ba86562314216f2708dd0cf2b94856e5863, 0x3e742b6a5439db4396d112e1bbf25872c45da2bc55145b2ce538c8c0dda213b6, 0x19691476ba44b8c2b273dc865de038352e8d0d2d6513a96b22f058499d5b5d26, 0x364b1ad0ab32e047c215bf05bf00ee5c787c204a945c53c6141a0e56f88a962b, 0x342978319a34a28654b480eaa95014202c839b46fd0f0c5c652a3eee79b3c58f],
   [0x2abe75020c369f733fcb1ed10018be7aac566572ba4659ca7c82926d65cc1de5, 0x2c6eb4047a09ca6b7a9e3b0ef60442df34d84dd75226b4c498952855e77857f3, 0x1e2d29457e5fd563e73c62426d5b97cc18cdbc28db582d02f146f769b7cbdd02, 0x09bb7cdc81826497dfe6369b26d045a2ecb952dbcf03f8ed1f9c54fdaeef0c22, 0x240c3eb5b81045c38cabee734a087a4194445a704b53fdef0152bdcc5d1fa61b, 0x3bebb6dcc4408734cadea9c963e4d4b21fad8843afdf41f19adc55ccf749a391, 0x087b4921760190482db8d7c6b37f69eceaa9d6ffea04dd3a8a0232a78310d767, 0x175d12ed3f458b36b0b8e7471e0c7533f7dcdc4032e4ff42668f42235833f549],
   [0x17c1117176ca3af89af96d7aec453757b37ff49f12b1558aa73064b2d41ef289, 0x1360e36ed54192306312c0a180869055b7a203238635150b430eabfb0961e1b8, 0x13e4966c3d716cb53da6aa7733fa3f79d650209c32ba13fdfb5d8dc4adbd9c7f, 0x3de33ceacf4c9bec509558f68dd6f977121c8a6656c8983b0396e3754baccaac, 0x220cc78988849b2b808798451c17ba1770b7c62dfd194f4c73db2b867f9cafcd, 0x3e0099dfa48c452de5f6407d2caf6e88aadbca6d34588c04dab183de1b3e06c3, 0x3c7160d2d46f25c4d3dd58257b7a2ce31b657fd3c8f374a87555d08115b94397, 0x3c936e771e02874152d102f66d96dccf8e6bb9e8f53a86eab5b7750028c69d7f],
   [0x17f5ce5d0cc8e733de1edbe75fe9fac7907ff1b8856e646ff06efcbbc5bd072e, 0x21dadea74bf1599031a1aac8d9034935c3a458164f96edcbd73934ec0c91c859, 0x17fc30114c3dc14fc884d7b30f3795d877674691c99b81aa5f25463b0731ab31, 0x0a73023a13b662fd8af95635897b0dc48770451a04b00b546a2ca6bd2fc4d6f7, 0x04b41fdb74f59f995c5e6ccfd39bf1cffbfa8f7c222f9191507a14f12c2008ef, 0x3629378ed01eaf3a8377bc5cdb7b57c0153c1541462ea9f7b2d21b8cf628c48e, 0x04f46af2c4334feaf146e96fed3832d0fd11f0e80efb859f1414c60ac123e36d, 0x076e14796ef1d8202f049b1b45f6cee0649bea19a242bbe99a37bfdb969acd6c],
   [0x25b099aab7b28533c0ea3fc8f30bd98757a4b208622c9690e23e734df11cf326, 0x170b6c541063ec2f9911b86952adff18f7d6b0e811f7cb48e998ac99dc53e5a1, 0x0a397394ac8cf66d1ad839e6250c9d4fe2373c31ee2143ac4dea1dd132aa78e6, 0x108675819ae8e5428dfa1d2c3237f59c9778a72cadb622fb33b7ff2901b76d1a, 0x34ab589217e47c882ab2d3946f3c7152d15323a70592cec9869aa7e7e40f5ee8, 0x0ffe3ca7fc0a465079d5381b4a853d7c71aa039aba6ece93422b5591774575fb, 0x1878fad4c74b3fba97e6262646849737b4eea2aaece24789f94705fd6d2b2e16, 0x30fe6bb00bfecb8b34b926b529519ba9cfbd56125b09ed310967d3eef89949f7],
   [0x1059bdb4162da64e3c95dd8b81d412f74792b5425475b9f90a8f187b2b609b1f, 0x2573cc8eb1ff989716475069fef5c34d2aed1fde1db0fee7450e241e55820e96, 0x0ab80a1c218cbae692a8509b0417626c5dca4be60839f5cc0c24369091a2f8b7, 0x07bc4c9a588c2d2600e15c0dec08bc0bb9ccea0014a4fe032ad98d3b20faa483, 0x01417733a59660de6f0a16188666c64cef5916ec0252256127c1d6e7da67b6d0, 0x3cc1de04a95fcc1b78e63fbf034f0b312fd9d7c9df72fbe32096da1be02485f1, 0x32cf802c5a8027fb74f8bfbe28490e63e2f1f89e4ad5fedfb127bd946f83e14d, 0x379e242ae4f27ac122c4c7328188dcd6f76efaef3e1b8b50b0e05b7c35f00eea],
   [0x1b4fe28f046c3b5fd07d387cf6b126fbcf26ed7a995344f9b1487d71285909c4, 0x3b52919eaa3d060534424920e81adfb19896e3a5e61d4a12afb25b6e7d867b74, 0x067524529706982597efb5ac02d24148cb7eb4c4088043b95050af71a205ffc6, 0x388c165f719eb35aa31b301d4e135971ef368768701ef1aecd0f05bd591599ab, 0x05a7eb289aa8c56ed3fe3f0c7703f7a4f1c82821d8534e76e917c41df15352c8, 0x20457c9cf13905adf408ba030cf38c94178d65ab4484c85a65738f48943aaa11, 0x14b2b9df7c43dee864e18f196a0f588b84cb63f78addaeb6921dea6b4619b52a, 0x21964e79cda05110172d43a4d8b2744ba05d66432b56d21b6b461286f741a1e1],
   [0x0a9a742828c2f7ea8e6378bfe4a92dde611203dfa43cacce4160909c4792f3e6, 0x2e3d6f3ee7a656ccf8ddc85e5549e6cf066e739bb374e54c04653129a568356c, 0x010136190056545786a8e3aeaa980fdb59c1836fba23556b9e381ce0c20da60c, 0x11ebc98f1110c006d6a5312e037883c19753b4471b5193525ad84ea1a1cb7eab, 0x1d82546bde4aa546f595e0bdbcc6d4e72173cdea093a3a1f57e78db63bec925f, 0x2feeb603b744000cf8a8caf282ae0f7db77a8a52a5ceff2a73f64be10c38f2f8, 0x3c6d906fe84db22781e605e7d63d92ba9c2363758e520b456e68fa17587722d5, 0x19c17b6fb9aa9c4f51f527226afb57890c52ace34eadb6f1a7a5ac84dadc24dc],
   [0x3c8d1724a10f75ee462f2453e819a5ed43fde203a87bc3c656c766dcfa515fbc, 0x1852395f5a59e93ae99027642e90fa6c47fcbf215afbabc3a39357583378653c, 0x1e92edece6db2046f0d24f88365a7ec1be6cf0b86b6fd6806d0b064cf656aeb6, 0x38927fc5b2c663af2622f4b1a44c330ac243803f5d261dc8a9cf1d88d9dcb31d, 0x33bf4db21e51699b74024017618850d0d02ae008e22ca977b276f98956c77b1c, 0x2b552976f45727e857203d9fb68c1a1daeab26e847f8110d803a281cbe7358f7, 0x22683eb9e53f9a3aac8d6a9d1e86800df623c669d86446f4e4c0147f6ceef9e6, 0x36466f6e3af390e020e98e7b2f5d89c0ab535f97443b337763861b2af08974f7],
   [0x2478c3761fcd92559a5a1f1b0676c486e61e5252777cf4f006f8d0aed404eb2e, 0x2bb995047e74e3da5e6a0d34db05cb7ee0b533b55a680f788a97019b50478f6e, 0x22909fa0d6fac26c7d7d383a2185dd08bc33f74431678cfab35284c8d760135b, 0x2061ec230240841a46258a15e288c6dfbf0c3f2480fd55d884ecfa263b3d7b19, 0x151b9e92a9ada46cc80c5fa85ecd8c517033573ef5e5566c3a916b36e9e50d6c, 0x1ec87e9e35c01c82cb1540cb5792fdfb65a9e6ed0e3cc035c7e846fd0c80e947, 0x2e3e764a6cd88d7318b99b7c63a559bda63be9a480c679f10bf32f6d67a5a55b, 0x37700eea3a2ac18c2c5d174286a8771389667a2a8ac2624343db196a8e107e89],
   [0x30f3c3a3a141b33838e7db0748ad94ab9abac84c1c59fdf3a4edc9d29d3ca83c, 0x01da84c477b86c8d5652f6c2f3c76465fe56d8e7730bdcb07a456bdf54092574, 0x0798d495dcf766b7ca5b68b2dee0129aae13fc788116a498806d8f06a6bf7c37, 0x3890ca3fe1a023d0365450dcdc85b6c20d2b69b8c3478bebf999f8016fdc76d2, 0x27d8e4387220703a9ab916698d4594c0aa7c368a9423fa3c5d617605ebd0e527, 0x22c2638864b244020a23f660b8e2ed78441f255301e5195ae0e0345ca5cd0ed0, 0x2b151ea8c16f490868944d213eca7b80b8e4f93442d3569d4e106802b26e1f9f, 0x3974f77d41c9bc4f2b9c1d073cf4a91809ba536ca9c729e0a87ccfcdf9bb22d1],
   [0x0c42d0c993ea1894981a561b7cea616a07ce7614897f20151716fbf5af72d716, 0x11b3d7992c3b9e5f58b474f0aa5445d8ef83fd264cec8ecc6fd2a379bad9d8f8, 0x1a76230cc740efe5df6c6bd84335b69a3d31dc97f79139ab840d76a704194b44, 0x22b3e1ef512886077479f2171b96e1464f87b1896e4ddc902256eba1480e8773, 0x2053ae2bc42fdea089442cdcda999934f04b980475b1342ce9942a6ea5bc30b5, 0x1229d32a95c233363931362dc351a2474cca64868ff75b611c922c6d6e9f0eb2, 0x1c83b880ec8040cde41edaf048eb4d297cc023649d8d94fce322a4612e16c10d, 0x0f7e7828bfb3cc56d19485917b27f1a9a0e4443674b55346f98675b27a476429],
   [0x09aa251f67298a21f2f320ea4aac4e4ffa96951c2b73c6d9c336ea1de4dda3e5, 0x006166e64bbf85c4b8ece0f6b7044aafdc5b23569e1b16d4ef16dcb09e53c87f, 0x32ca6731a636172b2f573c8e7a7ddd64952888a48a4f51d5c72c524fb157dc74, 0x3773828ea0ecaa6b2f88a0bccb74f96d2da09396c26e8aee54863ff1f40c136a, 0x010a581abacbca2ae16cec5d7783af45f8df386688f838757000533a138d5a4f, 0x3bdb426899ff92383d159f80f4dc9058599beebc4d3fe3a2794a51ce9ce299e0, 0x14663561a6a9c7367973c12f636c81b462ee0683b01e5b76c5dfd3242712432a, 0x1dfbf8055340e1b0a1bbafaa9069150413a1a5059bffbde96ecc961f35f9ba4d],
   [0x1ae6f77e77f2a32b588a1a10a06670c8fb80fa75d1ca8b810667759fed5325fe, 0x3a775999b9a54d553a5cfd2c4c6034db25d33a8d8472a0d1ca67c5d3f3217802, 0x0754257a0074ec702262656f455e60c755963880eb07f85655d6f43a189c3800, 0x08c1c840e128dfe1b5493cfbf5a4aa20930af42e598d05e26dffe579a20078bf, 0x2032d4db98b04b23d7d45d1df09728e44825650bb8ff4236c46c5fb808bf8940, 0x0ee5f49088b7420fc3511016e625ac9e2d9d7afdb047649750513a1dc9098bce, 0x1f3d2af076ab3079e75b58774b798f8769d2d442fd081beaa2fe7b8623f7bef3, 0x35d8eb69a3067ed4b1c19cc9c214db574b4fefa7c49bef910cc8bbb21e313466],
   [0x3cd9da99cab2f6a918e18fbe9c1fa1a0653938d6535c7f40da6a7b4ec0627878, 0x01ac4c2eccc3a446e3470a847c36a7a7716148eb298e6ad78716770f7eb0c346, 0x273f95cd1368ba1eff81bd26df79ae910116ced6d5942bbc92e574a3ad373f22, 0x258d91ac5120d6309469b285bf029f06c6fba409a6293fee27b74d3ae903f0ae, 0x0e5d00056095f8fdd13b48cd56635447b0e2c4720923604ec7a2fc2b556eb59b, 0x1bddccc8ae4ed802f7b689c11c5b26e70587669ea72664ec6cfffc21692915be, 0x19a613beaeccc17b5a381c5070815aef4dc5f79d2b2e99183b746a69982ae03e, 0x34ceae270158649dfea308b180aed5934f3242c6f437aa07793843eebddd278b],
   [0x39a94d211f7c61971eac110934eb69f1b33abb592ce8e4aa5f531b7f48d74920, 0x1f892319597dd6b243fa7a715e278e5e2cc36a5525c2e3a5e6005cd4db0cafa0, 0x2be6a5a9c73946de12e8db71c3a8ed4958d1dbace0b897e5d7d25e635fa473ad, 0x1f56b05f4f78acc8697e23bb66f9ab6a4490ff1b3b618a2c0689b9bca60329a2, 0x1c3ed9aa499f12d05f0360160d24346ad4887f82a76a30494febbcdf3aa98d72, 0x1b8f4750b23081ab480695e1f30b1cf55fe543dd6e6d136c6e0f3686f7632e84, 0x2d104ca9d83426195d9a8742ec9137fa5ccff69eaf004022990448cef92db179, 0x3f2457b88222eb8d5841eadf04a954a99ade9970484b5f70b35acb42bcb934c2],
   [0x004145223f740884c44078f2c9282ea913818a6ee7138bebe114833218d7f02f, 0x2c1c6214109d1cc4846764361e32bbd2846be59bf6960e5eccacdf34130eb37c, 0x1106211a295d98f3a47678fa92e85705f851fa9089a0fd68c1d254e3f837c7ed, 0x2a7f095374953addd500bf783d0bea16c185cc5bfe1b0b347677a0a511d59392, 0x0b2a88acc3bac336a8008658e377ec987d8ae085ac22b7067a0aebc88fb17578, 0x36af11c4b6f0b1bb3a699421e75636c33ea24e990a59414a711d4a1ef3d6cfd0, 0x2953470aff8cab2ea04dc415b074b755d05215df44803805c6806c5c187b2d1b, 0x0e291db96cee0d07e12b5ece38df35c9b833156f24813755926cfd9d8bc6e981],
   [0x13fd56aa43894c751ab5ff18d5ad3fce437b2cc96ec84c846ceac4ac2b2aece0, 0x2a3f227b577febb0f4510987cb2c59597d0686417e7e724b78a51437e7a05c23, 0x3086c5eb422aff0e8ec21046ead5d89760bcea8a1a2f027764f86ddfa7c98763, 0x2f6ae9c63a029733f15427e8df5e36a04b7a27147111e56031b6de9de4f9ef82, 0x129eaf15ad101683c91513c6cb7f433306cd28a20a7524f4b22b89fe07c1d4a1, 0x09cf5e0131dce8c0b3dcbced92eca5aaec28fa5fbd08704a52ca005194fc336e, 0x05f382eacfdb648e4f5405f5e05ee07d7409697658e0f93e177739ed00acc086, 0x207f10310658e7182ebd8e62263363a4d1f1fabb57df64daaa7f2893acc794d4],
   [0x18ae50c3f5d88b0cb160e524f4d5d60dc34208610a89d65c690065eb3c4a18aa, 0x2d0d61d8252df33ea3a4d752bbd62c1b0861984592b41156cee6912c9fe45d64, 0x2596f1800c62f332d7aecf925dffa62e9ff720913accbc875d21155c5c8bfc06, 0x1e37ab16e4c682c59921a512f5b51ad575f1e0059230b94d83563cf5858ac27a, 0x381a1ba23f026d4515abf7d952448e9fc29ec8d5562efc7cb562ba2ade681580, 0x26ebb9ffd348ecc555674a957c1d85b0b1a350fe7742d758482614047a062b12, 0x2087bb3e26da7c99cbfc945648a8153479bf9ea989b35f0fc0827842bded9777, 0x279a5808a3b5935d3a0cb28c36b7eb9c9027dfe6fc7b1c33e78a9fb1f2d43706],
   [0x1a8b95d77369ea9e74f3bc865d1763f8504f13b065eeddb419aaae02398b5027, 0x1bef3f47b5bf1262f753b91b108e13d9bb6469e5b7bbe1ed66f18d748e12cbbf, 0x39fd1f084b7851a1ca9b4a1f8fc4f0300141d8cf5042333e3f64689ae0b326b7, 0x153c9af228306f4a3acc6d03488d535b4b1fed02364f597a288c53ba359d692b, 0x33e571ec2984ee02b5bcd2e1ab57cd909f7f9d1ae39089b60f8358f709c74a42, 0x06f6e06155b5b6b0b7a78cec6afe89f155e6a4d7a387211a6eb4a05b64130e80, 0x2cb4692cea8b03bf2bdca603e551c322467b06ab63b8bfb4036b18a3c0d7c167, 0x10472ac825d96af8bda47a6cfe7747763d79cd4b6dbeff3fa16a6778e31b58c2],
   [0x09e9dd4693f60e04c2d8c9ada4d5031e997c3c800565279862bf736ef1111a33, 0x18119b76684bbb01e33d8df4afd10e6989186d66ac1e338a198fc43fe47d5f59, 0x2021e69701c88d902159118f00c87221b14a4c28146f509e4281a19a1fc23dcc, 0x1ce541efdb80b080eb65b2b333aef5f3a0afd716dbcc0a90b7865386ab0104b2, 0x0a2554b19303f1bd832751a9038be58144c2bcc25e21db768b0bb87c7842767c, 0x34716f5117905775071d9d109182cccf3d2fac6d46a9a05d1781fa9b1dd474da, 0x224d1c3bc8b04c7cccb06f8895234a7b6e98b68fcfe11cc30144634f93bd9c15, 0x2e13034d0ff142404a7d6d8748d0bb4ebbc0b422a22a769b14bb1c46fd34ef5b],
   [0x2c5477460e1f2ef711591fbb513598c269257e601a7f4f80b4054f8d4c02ca6e, 0x3786adcff2e6e40dd2878334af99f0e77291e213322fb984af88c519a22af847, 0x2729d4560885697abfeaa351b453c35dc5eb7abf883455708cc0d7041d485d3e, 0x3a30c89af01ef20f3a13746237af34e85184176cc9396eaa4d03b35e1cde804e, 0x208593b31bed299831c18abab0e55d29594041313b12ab01cf2d0c64323bc56f, 0x365d3206380ba92f6df604f65d5ca7f0849265e15b830ac786247909617aac86, 0x020ac111badfd9892fe0a2ff072d984ecbff2ae3343c9f61a1769f9eaa2aab5c, 0x0aae47dbb820e9c0ddea1ef0c52281ffa9fefee996c8c5e9a6d2d657d543dcd6],
   [0x2faad14d241eac47d04169e677e6ffb2849e67c97d6df030b83c02cc3cecf26c, 0x26a23232d39d5a6c54ad6d998e18aaf4570f959fd6f14ff84ba85a334833d3d6, 0x3be36ba143643cf398c6e9d57380f3e23af5f375e8dc54af51e14e91db423da4, 0x2540c73d84700a8c7bd91245db9b8743b11e045515502c09f609aa0845fdd2b4, 0x267907d4db6899b28eb16983453803cc6d0f6b647412e56ee8def1d3d8144361, 0x2e2ca4df9a9ca8ff182893d9ad2da07128793ba0d47440d0cfb32726ffe70566, 0x21f95fd32321f0a1a11096996e6d7bf40125b5f1380199b3cf9bfa1989f745f2, 0x1f22e3d0ed37dea2b404bb7bd2168316a1ea0154f8859cbcc7453491178d87c1],
   [0x1e40308b0a606e2c23ce264079a4d88997aa9e5d92b1b26b78e6989871c28d63, 0x0770d3747a6a3812c448776d00a97c12a30f646db289f9360a4a6ec34e17bb6b, 0x043334c1d702a521076b9dd707a5597a73334d40758f8fb73847bdab11406d97, 0x1a83c9bc3e59903a17f684c71fe6569b259657d8ed29660e6a50f1f09b3fb1dd, 0x36da3e293181914ca1a83e6e4df87019fd7ad0a2bb587e66d02df97f9327f94d, 0x02465e364e097922f3714c73884b8c162028393c562bdb716841879c4322d2a6, 0x1d9919e9bac3b755dd51f839627aa026aeb3f1bea92e1d4e31093c9b0a5a1482, 0x3776e0d24cbf66d4b6ae4ea4ca0bcbf4250a7f8f76360bb642f171e75d4ff399],
   [0x05594cab3084264975c87be4e789744a22c45b42cc22f29b8826669abafcc3d9, 0x3919bd7ec30e4a75f4638cdb0175c2e93987da5527e62356a20815d946f3a229, 0x3c8086d31253d1c295d89e13454f7cf9d0662d7a2e7b9f67b38f284550214f74, 0x1e0539d74fa16d8c2d6b83473788235947de7b1b800de69a3f45c1311fd00c08, 0x0b16db0e1802d3fdb5bb74067d318a5b30d3e743d5f529e78ecb01ea7cdb8159, 0x1ed3a309ce5c20bced32fb712e8c0a11207436998271cae4c1f10fd4aea37e3b, 0x009ad152343a4f238e7b745873ea7e30b6bccfa650e77a0fd445d090443b096c, 0x1d849e2f5d46c8121ebef1909bb2b34209493c5585cec0b0c78a0e8410b93653],
   [0x129b3e0685e392c1ec2594c7dd741a27abb563cdb69d3911fe7d37cdb4ebbaa1, 0x09131680c5e48375e0de7147644dba55005ea6fb41889356bc92d6830e801e34, 0x1c7087a2c04b0cc9a182085d9000537e2dec00ad9d7166c369909c8e46d12753, 0x312535137e52776114dd294cc9030bae449d0a619a951da91295ff256bc62bd8, 0x358aadf3d8174717911364ce54958eff7420c0425f3fae4752f9703957c23e08, 0x22f2419cbe325fd24ff52e8cdc27d4068ab32ba606fad1bc959ca715023d25d9, 0x39a17986068e5b50ddce9fd9df1ac2d6ae1a9a00c389bc01e7590209621b3762, 0x255b0bce1b5bb89d139cced6771cc79bd6d0e0a6edab5558e1a317cb8ee7b08e]]

/-- `POSEIDON_PALLAS_3_PARAMS`, `src/poseidon/poseidon_instance_pallas.rs` lines 1295-1297. -/
def POSEIDON_PALLAS_3_PARAMS : PoseidonSource where
  modulus := Fields.pallasModulus
  t := 3
  d := 5
  rounds_f := 8
  rounds_p := 56
  mds := MDS3
  rc := RC3

/-- `POSEIDON_PALLAS_4_PARAMS`, `src/poseidon/poseidon_instance_pallas.rs` lines 1299-1301. -/
def POSEIDON_PALLAS_4_PARAMS : PoseidonSource where
  modulus := Fields.pallasModulus
  t := 4
  d := 5
  rounds_f := 8
  rounds_p := 56
  mds := MDS4
  rc := RC4

/-- `POSEIDON_PALLAS_8_PARAMS`, `src/poseidon/poseidon_instance_pallas.rs` lines 1303-1305. -/
def POSEIDON_PALLAS_8_PARAMS : PoseidonSource where
  modulus := Fields.pallasModulus
  t := 8
  d := 5
  rounds_f := 8
  rounds_p := 57
  mds := MDS8
  rc := RC8

end ZkHash.Instances.PoseidonPallas
