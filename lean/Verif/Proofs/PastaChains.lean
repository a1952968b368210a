import Verif.Proofs.PrimeCurve
import Verif.Spec.Points

/-!
# Chains of multiples of the generators of the Pasta curves

Generated: double-and-add from `G = (-1, 2)` to `-G`. The chains are checked below by the kernel.
-/

namespace CT

/-- The multiples of the generator of the Pallas curve on the way to minus the generator. -/
def pallasChain : List (Bool × Nat × Nat) := [
  (false, 0x1c0000000000000000000000000000000efee2ee4411acfc1303c567b0000003, 0x2b00000000000000000000000000000017076ec9563fb75e8aea5cdf3bfffffc),
  (false, 0x18db920d8e4a51c0c4a477d7e357919b4040698b612794f478b8bcfb8ebc86fc, 0xd704e91a9bd6f5acbf46e1b97ea629a9a1503a7d7ba5091c2a901cb92f46ca2),
  (false, 0x345decb06f7143c0e80d53270686b6b3b84c38dee8808b333b5598770d94ef07, 0x181898f3218e4cb2d00080755a06c04b4f1afb240f892a2fd97802d8799aa41c),
  (false, 0x2b63203d6bb657e0ede720751857d3c1f06b175577cb291ed5257c883aba0521, 0x355deeeca4dbc28cbadc25cd79c8c2c971006b88172028529ec717347049162),
  (false, 0x265c52030dffe97a301de8df7a70f23f533f18620327c59869ecdc2154a63432, 0x35ec1e1693f594016520f2f09eda039744ea678c809710acb7d94ffb7ab186d1),
  (false, 0x1dcb77e18ee2dd61653dba29d2e8ef0bdcdc76ea475b39978ef280d15d6f2f1, 0x44bfe275f3f6d7d99ab6d516aeb3f8b8c57dfce5425f88e082ccb674f168341),
  (false, 0xdec67c5865cc934c6c5f772ce6499723d8b8b7729276803c9db0f675b85d2a3, 0x2c298ff148170c34f2dccd047400e54b3b2eb1e7d1c5472388f59094785f10bc),
  (false, 0xb44afb72675365751d6ca10461092b3166a62b56be9aab71b8e3afff069b68f, 0xc20b4a0a6d52a3c74faceb593becb22d7c3fe21c2e2d132eb7dd46678d0801b),
  (false, 0x1621e5595864e44b33b75ea156b673d6765d8f3717ebc8f070ec6b31a0e622f5, 0x81077d968634f8408ad9af4306e0ab159c4cee57d5c69afd4cc358b0f604ca0),
  (false, 0x1522d5a4b71211939dfe3b7066d27c8aa09415d0c215c8e5446bd74b84ee40d8, 0x23e876003359803dc60f872641c1bcc4798261c3a4eb2e695ef4c0c4fb24f54c),
  (false, 0x3d44e14b2af0ca7c860cf263844b2fda5407114285d469fd538c99107fe07e85, 0x357a6c19b568003750bd33bd740cac05333a7380f0f5abd572ded84f78f800ce),
  (false, 0x27ab6ea080287abf0311ef478169bdebadb9270bde76ff472e77f48762ace3e0, 0x3e5e395f8592f16946ccf350cc844b5488bb69efc5357862c0f2086de1289ee0),
  (false, 0x2138dec9d478796ed51797e095f7333bc0e13e4b347b9f9e8008f2698945e3ce, 0x15036e0026cb3247cac264892dcdccecf5f8ed588534dc80431c219a048e0b60),
  (false, 0x10f76c4516380b855d60518afefeb8e302c6ff6888d8a0dc948e1e8a64e5e9aa, 0x2f1a36d655644917f29274bff2c764b46b7dedc3f731fc15042731a97024c684),
  (false, 0x1a190c35b5381ff30797034ce87e85ce8bd87a664445ba5d222db63cb7ec8098, 0x1ec9cf8b2b3afd39cff9e378157ba2869e149948fa6565d53d3753c19dbc36ab),
  (false, 0x1f7867fbf8ba29771268a7ee1915a2fcafe5fda4b5f7c321d88066c30ab72815, 0x30f57754008e27fe58d42fa2d3a4c1561046b07645ff5a1cf4a292c9984d166b),
  (false, 0x30c2b90d23688e8e8c59017c01555aa20e77c1df3ca7e07442c63d679ba12bfe, 0x2a68bdc88d29a3c20e3f696ab1a552410d8452d600dc1bf12bf40677b740b870),
  (false, 0xaee5c862a583676a8b39aedfcdfe48fe8b6e2b460161432ea07084b47602381, 0x1b0d60ee6506167c1038cfdefaaf503d679e88efc2912329149ac5f427abd5ea),
  (false, 0x29fae509ddaa173033eab1e9bc38fd8980ede4f5e1a56e5d96c940e6ae3a2cff, 0xecca5fbcbf7fcce23a0937c06912d4a03e8bdbc13d22e957fc56e45619765b7),
  (false, 0x790fb19ba1df50a63011b4128e2c9a5383602a3c2dd336c037d0f92827fcfe6, 0x394cb062cc5445723289ec9a17762e7c9e6eb91f638ea8b41c9dbaaef22a3fd3),
  (false, 0x29da1f6d3f1eecc149409d71a4519c4d3a1e3f5284293e132474052ca5732035, 0x35badf7fe4b509bca20082d919e071ca78a3b4016de704fe21d429603d61d868),
  (false, 0x16dc2168a0d326fd416a3043ff4756d9ee6bd72e2c5e3f50e478803134fb5cf, 0x34bc35c9ea1e4aa198e3bd4ed63c0f790f71ab84be1a4756690a78c155477589),
  (false, 0xb7c01915180a093574a08e775040c5cd415474c3717a5768a09ce2663a40ae3, 0x1ca6a7dfc8eaa8f27aa507542cd75ddb5a56670e149b173b59451d67c5a48768),
  (false, 0x1e02bbb526ad11a8f323731cd1d949b30635adecc1a91303e354182c9a771a0b, 0x2f7023d6afa7132e733c8c97df7b74c5b534a0d19b66bdc4172cb5c590a14b23),
  (false, 0xadece9b94a0141da7378b261047c0ca24b1c1ef05e2055d9ace940d47867319, 0x2d599dd661fbe1d728439b139c0d83b74e9f3e6986e68f7480545d4ec4d24c97),
  (false, 0x635a31f155bb759e792cd7369d30b4827cf05d698f808a1e09b8ed3ccbe410c, 0x25d837b03942c22c18ed80769d94049310efa7504a119fc301843bf76722ffd6),
  (false, 0x1c2f5ace99662c8c5fc41a90821f504ee995c6b518338216a9d7a0aff7e5b078, 0xa5766d9c4d4d481ba270596b29320bbae382f74532f5853567340b3fab2e6be),
  (false, 0x7924f429e6518fa218e3b2f7e145a1a4249c683df9a383b64f103dadc3934f6, 0x365ce95b3472ef4180a0fad6c13c938386a4c75726e2a90f7ca7de2df7024b15),
  (false, 0xc6d1ef4a7bb76fa0dea51a6f29757ba631ea1b1ab5fb37ebdd3bf0d454c5810, 0x1ec32414d9cb13c061057ee3bbc3c0a61f54f27b15c40c6c3f90f28de489c37c),
  (false, 0x2c151de39484f31a2e26677cadc0b95238ca9599feb58a91face89ec92d510f4, 0x350a7ae1dd43350ae7bb0229270a44425e9f2a9ade777a28704b3fc15886eec3),
  (false, 0x24eb81f7a3878002004c0823d822924e17085a3779e20797e9a42d9530343cd8, 0x50f5a5422c181bb5cd873e4df4271ccc8799721c7103728f9ac27d89760a231),
  (false, 0x21d157289595ab885baa540827876005ef3d888b783dd9d85e01c472f042e69, 0x1be73734a22fcf5583800907de6bfd85347f9d41af31daefa9e4216e932a5e4d),
  (false, 0x4644a391082cfe1e4dc87b5052a2f03cb7fc002f15bcec498daec07b5866da0, 0x246d590bbc908f43d9c97b6565fed08afe7f7b2af55b3fb6db6f00571f991ad2),
  (false, 0x39056dc14eb71fb4565c2400133ccd33ea4b0a296ab539f1dff3669d750b7217, 0x1e8aedf00646a9a8f8ea16ef04b1464799348bcb71a0379a64b55326da1e6f4c),
  (false, 0x29bf55c6a1b3d869028cf9a456b8d0f6e5bd916d6086d726bd51d7e59ebb25fd, 0x1923c47b6de4641d8c4d0e4db8714b4bb820246069c5f2d8abd849141c2eecbb),
  (false, 0x2df7af6ca1667f65c26be671503960b355e160b5542e33abe896a3f7780c5839, 0x48ed7c5183d4b233d3837daefb04736f25d599235cc9d3e22513f505c29597a),
  (false, 0x3f93c36515527fb128fd02db96b42fbdb6aa4233f1615aa0386ee16170928277, 0x647120e85de3d817447faa657a1263ecd3a669a9d7c110d262c548b71f22b13),
  (false, 0xe6bd9b7d980656782558da27c481d4317bf074484fc4a9140cc8c3b6e5f1fd4, 0x1d24ad963726ec5f0f6086bc8162d2ed39dee55206acd6e0cc54a32cc69a3292),
  (false, 0x9bca6400ba14a8cb30b02c7de56f4b19ffe9f0eb3d0bdcabd004fcd02040d26, 0x2fa05839b3a59bf86503103d0ef3afcba66da39ceb702e8a822fdcd4931e246e),
  (false, 0x3959635fe2393dc1b12ec306b1aca45a80574b74b7e46f39b893e430eba317a, 0x372086a11251e56cbcd26d134fcc6540a771112084459055d6cfde47b6b54e17),
  (false, 0x124b8e410673f2faf5571a333f187a5b523fc93b299ea38e06b3369efca7d885, 0x3d4c832b628a8c43989fef63f8520bea8fff19102c574f4bdbb604ea8e9da4bf),
  (false, 0x23f8feffc8f3542b3ebba7c9fab498e4212c88b6c63461cfc48beeb41c2e56b6, 0x69dc27140bfb23ab904565f80c311cdbf6a74ad60234a57987590280f0a61e5),
  (false, 0x28c82b5d9111e0ad77369dcadb243ae7b9d27348ccf3c681b1de635b46944452, 0x18369f0f53baca3c56eabb9684cb46b09d136858e269d91f25554d6ad14252c2),
  (false, 0x1f28af228f130c497dfd82f0e9a47667bfa3a1a7ed9be1f6c4e06058e623d214, 0x582773053ab044ac5fdb3cb912e2dc473a049a54c2cb3fedbdf41b5cc3777f4),
  (false, 0x2358a15a5cb2ca3b41afb49ec3deb5e4717e7e30ced5bf0c81a12cc8d271f9b9, 0x27ff431277ac44fe7feae0f22619e321bfa2338f2ecd37a8cdc304acb4d98b99),
  (false, 0xf8f507d03a3c83dee6b35d3274e32315f6a1101f01b5530e885974cc1994bfa, 0x2cd572e546d48b096d07c189665c94e83c7162e986750be2a6170b75ea6c9400),
  (false, 0x3a5661498701c8fda1d2a559b9ff33b553176e5ab943cc111188505770ad1ed0, 0x4ed7bf435500bdefbbc0a30c79f03d8a3e94527fde2c7db547938c429c1f506),
  (false, 0x1ef6020b4fcc34e82fa94efc4cbc296847c275f04a18dd3f076bdeefb16d91e8, 0x37674cf0b4f7a0619d35c8380ca8a119882dbfd434d7b2f19b7ad5a2426e38ba),
  (false, 0x35fb5064c1dbf0fa3c81ac263e078d0e75793c2f0e460c79a784b0109fdc161e, 0x1b97e3f8b26afd0cfdd42df624dd0c8fa26641ba094a19e116efd1660cf439fc),
  (false, 0x130952bbd3248496af3e964457dda7c950c976365b145db2c28fbbe46beab406, 0x311af6b7344612edf5fbd27cd0a60a64ae428e3e07dbb78cb76246a1b4ac195d),
  (false, 0x28bbc8af20ea27cbc4ed4ff0dc331ebbc92c183093d1751c17c44462584dc67, 0x3b6efdfe7f82453fe9f8dbe8e727770c92f41089270f58fc10fc8d4adc061d10),
  (false, 0x1d46588618dd0f1332bc6a096ef6647386de899a13088ba28fe738e3bfdf1e0, 0x3149bc6b844df39f0ec954b798508405e2a402009b8aa454eec19ab3e8a344a7),
  (false, 0x197c3d4e654df01f5a6f698352e8f01924a10974aadea8a3cf47e0a4cdaf8873, 0x58337e02b971cd7ab64085ad2b3e0da2816b0cfbc2bfe5040307ae1552db319),
  (false, 0x14ea947cb5bf1a5fc9bdb250d63c13ce2acdd0382f21be9767996531559ccb70, 0x3740d176407cb7acaecde4575926e1efc99f3dbc3f9f2f22614656c98aa9046c),
  (false, 0x21335f7d664d3fdbd9c75312e1cc4f6d1d4a1fa1408a28dfa3a4dab46f8049d5, 0xa832d47034111eef9339c524d2a36abce7863238d1b0e439cdeb50e9c0cf14f),
  (false, 0x1ef552a5563e0067b1cdcfb5b51b6356cba2defcc611f6e66ac1d9078f8ce4c3, 0x317289dd80d69c5b650fa199839b4b47f8ef6d30f1542b81f7500a0cf6bacfc7),
  (false, 0x3cc8d835f9597d7b0c0e583798dd8e5e71075b0c2f1cee02b51c18ed5ad439ba, 0x136754541a3a66542787b5cbc754861a17c3a52e4db54c63b921eda8462d03dd),
  (false, 0x3bd3d42450e89e52078b029c8d1d6869ada42e72451091dad3f403103098377a, 0x1adf1d0241bb0640bc5fee5bf48c43530c4b587d052978629e5b4e5889f9cb4b),
  (false, 0x317643e40593dfc3591a4b56154df4cdb5b6adf16fd5e7e76b69160ca6b12eb7, 0x13b329408dea78142fce7c9f3e45d18ee32148b03d1da4d08d47fe4d33d9e6bb),
  (false, 0x341588c87e47ad03355cb529d2597d966b9e2831f6e6271cfcef98f126497c94, 0x3961dc68e699b62969b2ad8f51c8932c280e82e26a79ea9aebb769f01ef5aa82),
  (false, 0x37c04b0e8b2fb5fe57240e3a1d1d7f804607f3ae1297830268a2fe3b5253c298, 0xc3653926df82b90228234aeb3d11d0f6a1c618fc5171884af66c1ecd7217bfd),
  (false, 0xa5ff4ce9ce51af21e562d49218e7c992d2153928a99d4e57dad25b84f6dfdf2, 0x3e6e3fcbdab4b7d27fd4d366701dd14cb8a595d2bc2a1083332a115a5f600808),
  (false, 0x312f71a93850318356540c97e275cd49534836983f01608ffbff006dc6c08925, 0x2c172125db36f94cd9593ee7107625438adc0651ee5be265870aa1827e57007d),
  (false, 0x12eb20c0f1e3b41075d11e1377733bdaf59aec6f02287f6f6c3a1792f5893616, 0x123bf128c699d4b0b5cc14bc52f550d34093e9292c68a7d8e16db1f2c344a88),
  (false, 0x33cf0e04587828e6df9b9733710ff973795e2d3e2acba9c9601393cce6ebf16d, 0x3b6377d933fe4f588d8c4a3165290956eb662d103e4a9ab83c38f150dfe74fd5),
  (false, 0x12da4ecf402a4b01ac1590d96139b46f7222ea91e0eaf75baf0ed59271b3a065, 0x176a3d293726d9610fc2e4aaf50944a3aa174f4bb28fc63806c58ebf45cfb0c9),
  (false, 0x1c621dd39f4ef56e83d007dbbeab64589cc61bf7befdbea26a8fcf621dfb0209, 0x3b386fcd639f613a25cf21e004776804b8eb4e60c75c2882eaefc7da3e007fbb),
  (false, 0x19b8a35aefdf46c1a8f306a9f1f400bac778f754916b7e503d33c862bd1e40c6, 0x222169fb47e530d7a5b55e0d18fbd2eb768f603c1d7cb2a2ffc13d289d98566a),
  (false, 0x2c28c6566def7e48e835f41784f4d8751b94088bb4e40299c7fc61454926133, 0x8b11299d10336689cb41e64e8f218b6f1693d16fd616fd2668a0e4b81b3f45a),
  (false, 0x34fd371d45e30d694e9aceb9895b4f954422a96fe87388e6870c89e882f2043f, 0xdc5da2e937787bfe843e4d0ded70d367fed5345bfcf8feab68a2cdf8d5d1bf2),
  (false, 0x3805525b1aa97a81c310e373ff2c35c2a9ed24a379606ae0a1feece7efea086d, 0x298b86cc29d480cc759d948b8137e97e359a9326f148e1abe42026ab82c1da0e),
  (false, 0x1eac995d37c67f8943dfab6e8c6c86f16c736aa076b34d36e4e1bed4f9e27953, 0x2a16fd8524bae178f265aa8440420cd32a703747d4a405daf2a97af680cab9d7),
  (false, 0x178d4fae174ad48898b0d06e098e5cb68a4e935c651471f7c0ff7205953046cf, 0x20f9fb62e3c1bd199d69f93ef87b6686dc6272cccaf229ea83568e5bd1b196e0),
  (false, 0x38e4dc0137a00a26fa1e69025cbc72a2aa588e4be01ca99ddcb52bc26c3fd7f6, 0x1b9ab3302a9ecad83c27f377c2305c33d9ddbee0723ed566af35564fbf019373),
  (false, 0x3e14e44cb836d086ba1a7f772eb54266a09b445dfc45b978f94b227b3ac4ae07, 0x2c71b6e15cea71d36af50911f3bfff044475fd587079f3916914d7d0c640af2),
  (false, 0x3e29e02db7acf0b38b362ed996a8fbb0aa2c59b5ee61aebc7d4619e3443d8047, 0x2272f93b4e44566d3584b681b9e1df0737f45b42dd4a8955b40226948baada78),
  (false, 0x2e5dbc4812d53fbbedb1500f9e579a534fcf7dd5702946c7c137ec6b998aee8d, 0x1ddea4cca1651912791f816477a82f393333a4ddb430060d8e4172caaf56a8fc),
  (false, 0x1cca1e2228ec1bcc4dff785ce3babfa62e9defcbf522d8283b36aaa98679ce1c, 0x5c47cddba67f09edac37dbe81b3b47e9d377afaf6263916e52f85c0343b9672),
  (false, 0x919988ed62b9758051278a783035cdd1ddb3dae2752ebbaff3ffb6493e67ef, 0x372fc549086ed31fb252c8a4c6caacb37c5ba65ab08e812a1c601bf533e78a71),
  (false, 0x1d96f2353d165ef480592df096702b7ed66e90067646cfb82f3bc0e8b3e0ee9a, 0x31cd0b8dd59519febff09321545ba30b9608586079802aa37c06548c78092865),
  (false, 0x399b891d77866fc3e2405d396eaebcfff19f307ec57175a89ca5885041b2b775, 0x21ff7a90c95d823cc6b5b1677e84d9af9a5adcc653d874444991e561427efb74),
  (false, 0x2117e401d3e13bac36cf67ba4c5e4087dcdb1a432d2a3c730bfc42a22713a394, 0x398367780c937f6977303af2f2482ac00a51a916ac21c7e6919045d82715c278),
  (false, 0x2dc9a5a820a261810abd458dff96f13c4daad3c1b5b445e601db53a8fa20b6ff, 0x21c3b450e70d20a43ccb9cfb5ae0149d10d54f371332621ece7c9b3acf97866e),
  (false, 0x2f1a05cf621d8856b2f52843f1b9a0c9736244c1a7e15d57ef9f1561fd4148b3, 0x2714f2b391f4925e6397afe298749509fe039a419ee8194aac047239fe40679f),
  (false, 0x3ea8913f98ebeb383b5b2f162a9530492ce9fd3d7646ab9dbb6757907bdfd724, 0x251238ec2e313b3cd43aa7e8ecedb1c09106c26375858d91deac0ac441cc2792),
  (false, 0x3b3a02d4b2215eb165cb57b2578db5b7b5f2c3870744715b173d29afd57f4bbb, 0x38bfc030e314d44746a9ef9ddb159c2e77d48a4c58943de11834a6394de31910),
  (false, 0x2e978eda27d9b5cf88a6fb6010f1c9ff586e32b798a91031e4a2e88ed499f395, 0x359d2c1d639c5e5fd6b9a8d4a675c3b492d564b31c7f6065a5f37e19e7a9dd63),
  (false, 0x34c7ed8d723956c67e76039bdd4827d83cfef1e70fce6b8877b96d32f0a1b89b, 0x239f941d81b947c2dc126db7747f54a7dec3d747dbad662161edfde0857f9a00),
  (false, 0x2ff7d38f45a42ead7e65e3d08d9102304c862395c302a2f155ab4487e92968c1, 0x1c5f071f50cc7598145735d8d925100b1b80393975545b9fe623e0f7e2db7e64),
  (false, 0x3a8e5905a49d8188bd039389c64b4b78ee9c4b8a33759be917161ea9637bd5d3, 0x1258814f826646085f9a08fbed26aff6bd06534a670b26821b0eaca2fd4c95ab),
  (false, 0x3eb800206cdc066757c6d725ada8bf3f275c828857216967797d095e4f7c39a2, 0x3ad2e5d24e3999e553a4718e1dd4878230db7462182a47efaf41347a743e02df),
  (false, 0xb84924c4ed1ab1d78322e215232d5e37aaf447e4a3a01bcb95b8a16239d050f, 0x2da5bdd2d1fd290879662035cf649da05716239316b1977d58598c8188fb5e2a),
  (false, 0x3689775aa683b195463182cf2878b4696890ea73bd463631ff71210889d8e261, 0xbcee7315132efaac0c00375d4537c14bb3dcb7ecacddc3d922a9d47ffeef59f),
  (false, 0x2f7f60f5abb9d3f79d25dc740ba55920d510e2f28911f2e80e863a01eb23bd8e, 0x14c33a4ff9fbd09a049824fcdfcda55e936a99892c68c2a3582c56c301d68015),
  (false, 0x3f822db0236c349669a1f328ae66fe05d5e4526964cfc5cc7994f53fd2660a07, 0x362604c6b0a64611db9117ab3e12d4ca86485b5f0fc3ab944c77f99c439eed10),
  (false, 0x23d276ebb53c746cd21e4939eb9df50f1e7e4cd51cca84efcb56353f9157718f, 0x1920393c66c3e33facb8b5ae5203a3a7e869f1ebce78e577eb7167b69f4937ee),
  (false, 0x38012b92ee0e5f07f69a5bfba3e3630ce88133ac9d97ff8f6958f9f23bc5424, 0x154eeba8c7c1e69a7d7fa7315fce846bafc185076ff2e0d216474356171277d1),
  (false, 0xe3ccd969be63fbc860be966c486880dd8032c87b77c3688ab8bebe57ff79815, 0x3dacafe047a833e2d916ff7eb584cf5b39622a6dac51f3520b4cf66dad245e4a),
  (false, 0x369a17504d8557a02277c8c90c01285710df160fafdb641ea7c1ab500ed8de98, 0x26823f0084c7d30a78cbd1103e6ff07a063899e74078a61f1d31494e8e469c2b),
  (false, 0x12e90612cab7467e9521b465f994d0ff22a93872a2334b81771c18d6591c976b, 0xd98a58d4559e667b85b8ce3caf3448730d4c1ecabab07be96ddc51539440538),
  (false, 0x36d086e2bdcde0b492281b47f1cb441fcdf48356079e9a93d869a649a2011540, 0x874248238457aa40443948e11bf47e227eda1cc7d6fb129aaaf4a6530fdf213),
  (false, 0x346a0a76bbb4d1f500a89c3ca81436d092b55b38d8b381e58b1d3ce35e34787a, 0x6b15c91e02f9cdd195a2a0434d81dca98e9191307a792bfb9628e4b122c376a),
  (false, 0x3a4cf623912214bc4b88ab6ebe66abaead76c68ed1037dd62fd83a5e73f89722, 0x774b1cff13fa9c4682489c71dd00f22b15320d93dfc2700ea4ae46a5718c72),
  (false, 0x106445fe16ebd2ebc8fc6c9b8b7c5f914279ab832e56f5c0f93f5c669659e693, 0x1aa96d5e811e6dc09cbc77352015d992f7d659e79db7b2775c4bba585df0d16a),
  (false, 0x216194f22d21fb98634d239cd9cdfd8912863dbe1ec8f689a1d04a6fdb1ddd89, 0xa85cde658370a51fd4955638d15502df2dcfa8652ffcfd7d9927339dab7ee61),
  (false, 0x3035aa0368e48e8b88656ff400c1b03806de26e3f2d4642e6395e9bf21117ef0, 0xbcc0549c42c600f4bcd34f5b76edf7e657fa1b9167c07a8459f5893f266e22c),
  (false, 0x23227fd5b26107f9921c2efeec4a37959b9dfb8d07ad7cff48322e2d0d07ebf0, 0x237b4bff24ac7faea23555af725c0b477f72f99e5ba16039a0a9f7a90ee7cd1d),
  (false, 0x124873330b9ef9f69182afb7d680d8642ae78a6076fb54cfd4c429582aa87ab9, 0x8fc955cc30f90b4507cc351614fed303a4865897c5493b107e9efcf491b2b37),
  (false, 0x3f5142c9e8af8ea642c20826c7e727727034b9b0a4c0ba7a554dab4740a3c6cf, 0x9fb2cb426213adfb49d7fc591bae5307b0ff15e4d011f719cdea4d262d69699),
  (false, 0x1bc7245f35d9a8423da4bcd4a7718894da69c28e4595b4f517219a094241f1f3, 0x1837ff685f7b8105261b0e09c52cde488e01cda663dcbac50aeae09c5d73fe1a),
  (false, 0x258e1a63b511a0a1b0513275f30055e8b43b14e382e9979ec5c8559926077479, 0x3cbed7c75c10a12697cbc06a92ee724fbc5924fbfe1bbe40575215b1f08223ee),
  (false, 0x1f55b7f8c14fc4a8c2a04b056ceae5bdf27b1d0d32acf07ead926eb2509e5b43, 0x1d42fde71833be672d1bf1cfc60df48658951a6e35b24daa876ee10ee61e269),
  (false, 0x9fbdf0630a8c1de6a00b14c436454418889be07362ff3574a484eba3db7c09f, 0x1f613aeffadacb9d9ddc243f5f7bab7408eee8e995cb657e9c7c16fcbc83282e),
  (false, 0x3bebd1e37cf542c6b7052ea242b6d9da13714f2a9bbcef594567b79f550f978b, 0x2431bda20b8b09bfb50370a590920ad55c6c84b4783c814f834bc39af0f1ae00),
  (false, 0x1440f0216b8d4c5883905636295c283d3039c791e32afd7ec04f7c312f43b8b7, 0x1ceffd8ef75739eb5b474b50755f74cdd6208f39d0d542720237a40d1f657cc7),
  (false, 0x2b5ccf4558376c31c0f5c5c07de080e65b017afc8b38d12a6f2b60984e592bf, 0x2048c994b4304c468d1e9d1bb1f139bb905381f94c54b1bcce91b3135bd1df20),
  (false, 0x13b2079f17d3ed5967a8a167dacdfc9e71b4d2f458f8bd8a3a1a3aa156b96d46, 0x1f4b1756c966b66af0dd914a75682fd131517c82b74a07eed736b17b39bc9314),
  (false, 0x19b543cc2bbf3b6d4a5f9de2e4cb85fed093d48a283fea4ef1405464080d11ad, 0x7d6b63204f5603bef1a5db7458e22d61599af83d8960a3296f8c48fa6045ba1),
  (false, 0x12c7d4a97ddbd4e70173f757034c28c3fa8d219f1bcf7716d7f1fcfb1b058864, 0x8ef6d2a01b0269f33f842a6cf9150d77cce55dd571ccf71c857c88cb0dc43f5),
  (false, 0x20745b2086c22766690a53732a79f769435e719a301b2568c7bba87af7809a3f, 0x3a6a518d776f3d129bcfc1a321cb01eb62c6abef57273dff5b98812f677dc5c4),
  (false, 0x3ebd3d7e0ea0ff89d8cf19b14a03b6c049c4f26d6e27cc5eaa4fabdf74f3fccf, 0x102fe26179c4c042f6d53e3b35b9c96fe03d85f3adcc7ed3ffa0eca4869ecea7),
  (false, 0x1cdb5a2c15a74344d2fe2f0e56a3445ea5afc678faf0aecff4193c63a8eac3d1, 0x2e3ba26cc349f552c7784cc5f638bf108a82a7555549088b96c10602a9d827b0),
  (false, 0x1e2034a979ab868d3dd5f236b63c34fde73de0aa78c75e85c13b004ed71fbc8a, 0xdef270fa70218a3827c3e7402c682afec5c05d593a0267cbdec625809d6ac3f),
  (false, 0x3dee2292e0799f13fb15160ca9cd2d536f152475e6c2b0f975b87b788b1bc86f, 0x4acc6be3c516facf7847bb48e17513cd998d30ca02e02b4e6122ac484f5b39d),
  (false, 0x92116eb7bb7be8bf676e2c7d46ce68fb377fabb813dce945a7a2b8a61c0ded2, 0x3f29a7905a87ed7011e16e014e3ff6770a041c911f32ab3f7dbb2d5a6b0c89d3),
  (false, 0x1748ed88c20c39315ea66567ca88ef46a601b40d786490e374f59014696432d3, 0x1b866d50ac5ecb45db20d50db492022d7c65b9402440159653a7cceb6b78f24b),
  (false, 0x3ddc2602361790f9edb41d2ecba5a33a58095e73b31f2e4869a0fa0803dc4843, 0x2350a7f5001193da1b879f9cb5b9bb172b1850bd5b3a0a14559d859b845787b0),
  (false, 0x38f3c936b15ee2160ad890574a21e5f33860d5aada0b1613121f138c77e3ea1d, 0x1c920e1cc11ef46403a7e6219b83b79023910e4ecaa0379c0d4f1bc3784f0244),
  (false, 0x227f72a2fbf5367cb53cc6ceb3589fd0dd7b112decf20d5030df9553b972e2c0, 0x5e2dc4478ef9ec69895aaa625673e90e381400e6eff5ce1984a9b8abc2cad0a),
  (true, 0x2bbf124bdd9675d0ecb4cc935f573e32db2fa1278433b1c8a6a2497d500f87e5, 0x1c1cee06be9242213543dafb234b2bb712eeba55389371cd1a5c9a878924cfe5),
  (false, 0x2737ce69c7f81faee59971df3c17dfb4f01d3f016c78f677d926eec7032020d3, 0xa4a5460b94593100f36d17bad2a6ecd9a851cc4d6cf46db50d544ac864f8818),
  (false, 0x11f7f8aab12b585c5071d273bfa4d3e4265354db078c02790dc78e0bac2ab569, 0x1f101b728ac01ad0fa0c0c251a11b1e8fda1a45dc22ec6335c73e8bec9a0df77),
  (false, 0x94c71767de0e511fb5a1256a30e41afba012e39323f9bff45a867bec3fa9322, 0x12f1257fc858a27bb5a86dc2c7a2a4eab127818bea52764c97d96619ec02fb29),
  (false, 0x35f843d95cdaf5f1d2cedf0b5114a801c7fad3a96d8c48d6fd1483acc7040480, 0x1d2325c2e166b5ce5b523e654afd854ae21f82d4bbe31ef0309fc55dd3009305),
  (true, 0x29b08c4f8c4cc3809bda3ec7b2576f9ab3abd3a389882befe121717bd1d05983, 0x3921417719b71249af8eb2c6cb8b4ff180505395aeff757e36b20f7dfa5b98d7),
  (false, 0x2693e51d3b667cc986496ac5f52ac0ba6f039790bd0a368833b28162ad782196, 0x2ba366aaaee026aa1e7c40ae4acd54c1950329688c08f263eaae0c4e426823d8),
  (false, 0x2c16fb23ee48aa25b1eefbdb3cf12afa051930d86f25b5c3b0e364883de3062, 0x345a87db5f5adfb6ff4b739a61a5ab1057e807e9b4e656c1db4f69d302d2885),
  (false, 0x26b4555494cc3964b2dc09bbae5036ff7e16c73defcd125fd581a9864c67d4df, 0x24f087fc3838c67e703a43b44f00a807f3ce9919211fc13eeebc5ac778f6cc58),
  (true, 0x3348f3c80a7b343952f0ae14390b83d0b33c440e4cd18f5499e564e553d8b29c, 0x23d60ae9bd8f1873ac877f363d516b103aabac8feca3c2c46bd5b8241dd89b7),
  (false, 0x2aee1a8fe0f6b86a2aac47150a4d23e9b3ec322e9442f68bf3f50d8c3063f06f, 0x2655cac71c8485d9b9e86f5ae3ffd6a6c1c3a3a56a277224358f0fcccda07775),
  (false, 0x597f7fd312b6c510edb0555db58a7f1b4c85bfbe1bef693c29d142434f91fb0, 0x59eb5a4ecf11bae64352e60ba7ba04e4d8b3093cdebee3817e93057bff23d58),
  (false, 0x33bd54698c149cc27c4c8c4cc8d074542625f178b5d3184b35b6f9cd6ec1b170, 0x31741acb876b4d8b2a9abd822562a4e71c0359371fbbcf7ee72de510e0050a7e),
  (false, 0x36f5de46c2a57a54c436968c69ae14c7112c2f97ca175e90f00ec795037d00e5, 0x1a5f7a386ce2131c4630aba5df1efe2f681fff2d7542be530e51965e4fa3cad9),
  (true, 0x3189dae0d63cdced56ed33c2f09ad131a6cb8f2ff50c147048798a2d76d836c3, 0x29d5ef43c339463d84dd7249db2ebd06cc35a00dc0543b617ea7f6c53e4f9d9a),
  (false, 0x1fb75b724c86b5d9214db286f733b04bb7620b192397704fcaedf8f69bed7869, 0x2189ffaccbfd5e469c4631493ad29b015812a624ba64144595d47a738da1f52e),
  (true, 0x18c603dca2bd3bbb4617f104c4601e5d9d9868a3af38e5cde5f442f383cff1e5, 0x23854a30ad434f0763d1f0222f4dc9644acd822cc09a621e83ff27308934b3e3),
  (false, 0x12c7454a14bc11c3dde7ee85dbdf0e56e2c622c562002da7a0bb59f85dd9a1ad, 0x34d6415d88b830b696c6b050ac1f26dc180dff87c7c790ddd9c06ea0b9a6440e),
  (false, 0x1f868e2b98f6ae47878dc24e4590cf08916f35477c5605cf521031bf5ffe8400, 0x26742c51501612b4fdbdde8c6173a3c0fbb550d216106708178640777c90ccdb),
  (true, 0xbb0692f9d5a4845c130987c2eee684450148b5b6aaca7f5d2ddb51126c93a21, 0x30aab5fd95cebee0b477e0893677a70a9655bbcfd08e84c475cafc3cebf0145c),
  (false, 0x174203f224fddc58bcce0606a9585edce16ef21739a5225a1b96ad81163c966a, 0x15c58cdeecaf0c08f19fea584498bbcade8cb2ebf118495a19aa89b98328b17c),
  (false, 0x24d276379695390886d2fb1bf27cbd8788ef393eb5ecbadf6ee55ceeff3e5217, 0xfdff56909d8e5cf80e751cf8faaf12560d4da2fddeaa9e23d242793b3549089),
  (false, 0xb7276a0791756ce83d61a5f56b490a9becf0931bbf043a31d085f18252de270, 0x11909e6ae706960bb59dc347e0052ab3f93e9d05e27319acf042c5b7ef2a8a88),
  (true, 0x2254ae96a5e2fba7c27c14ca52345ca1d4c6403cdb0f514c0c6bce4abb47946d, 0x2afdeaa8d2386263169ce885549f06cb9c0a2b53a956503000765930fc07e0dc),
  (false, 0x18974d000e57d30e9ecb310abdf2df6fc9cef3bfdf38491dd44846ecca382c41, 0x2c3d973ef83ad36f971e9946be34f3232f6e8c5bfa08c3cfb71c41c563dfdca5),
  (true, 0x2ba7f7695fd7c90a62711310809c2c5de55e3df727c433f339d7b51816cf89ba, 0x26bb09f6d7751f03edc23591fd61d6801ea8f5d5791e8a605fe1c728fd8f9fb3),
  (false, 0x242ef67321d57e20137ec7faa82a662877bfec4f276e7bf7fe36a8b9fcad7188, 0x533d7fc5c767881e79d422c64be9af31d2c2e46f97ba71f9b78934aea165f25),
  (false, 0x2be0b9131ffdc64cdce271d751756fee248adb4486c9ef91898886985cdddf45, 0x22c506eecac1ec806ce98c724706c3900c26ed1c55545087a8bdef570ad02550),
  (false, 0x32ebb1608e14dc74ccb9c26f4d86b38ada592459f0cc41bdcd3f3728a1ca7571, 0x1364b56748f29a0d624a730303a0d5a780d48940c8ecb1bc2e86553efc63bc9d),
  (false, 0x2c79a3f61c98e13e09158aebb06d7fa9037bd9df1ac957215315f01d8d7e6a96, 0x14a8c6450f002e4c1012cd2fd2c4d5fe4579698dbd4ad237529c56ad38b79e46),
  (true, 0x19d236c92e2a16bd9feb14ff67ad3688aa6818dbbe7db13db93d040021a5edd9, 0x1d164f73916cf71a59238ad471c59bf52d5c57cc614380b8141e094acb5c5b60),
  (false, 0x1621c7e2d5d341cdea117c2de670cd92760569410bb13b59fa29011261d24723, 0x33d0f01468cab834a732673fcab060e89b3cd41244720805d0789124ab76737e),
  (true, 0x25056afe6ac021c750fcd08226373576b32a7081dfcf9426ef07dcaf9dab7013, 0x1ff91d8dfcf8c7aecf8633b1b4d9be04256e4d623d5dae77137c75d25e1606f),
  (false, 0xdbc2396b998ab1ecd8893eb1ac698688f61d547f1070da0204576d716ccb3a5, 0x2632cd7c0bb9cc03af0b7f5f6a9fbad525ef916fc7d889630f0f378c2d16a153),
  (true, 0x17f8a2d5ad5052a33975b258c4b019854c60d8da6b766b238fc90da193c543c, 0x1cf659f65b62d3c89a50d6af74e1d1c5fb4cbf8f2a97a87303c4417dc5de3ca1),
  (false, 0x29f594cf95d54cd76d7b5297a3e7a5954cad43bb55e7fa642640b06afc728374, 0x6fb4483a34dd3c54324a8fabbdbd69ebedeb805c09a2327709d2487ec992d66),
  (true, 0x398f1adb79c61176edb4710b4ecc2698d233b0f20beeb6ef08165dc96d3dd9e2, 0x1c71db6013a1a0786b3575dd645b8e52aa93274f42e94bfa89333732efd916c),
  (false, 0x1637239ba2ab54d91421932783941b57dfc75db3c0a12aeffab46af2a9331f8a, 0xfc4da3eb08304435447849070c76a9033912cccb2274d9033e14bf1d4b204fc),
  (true, 0x31e4f015fbbb2ea9c4a7f0735850fd9fce26385862fc7e8bd81aa907627a7b5d, 0x11d230a6464307c4c226e1a7ee192a553ae5f25d7b011f6a0a75304bd6fba4fd),
  (false, 0xcc1b5a9b4b1f1f2798ab7bed815a72abb5542119c2c50624e5416f6d5e54173, 0x16fe3221a89ee3b1fdfe77f90af7de07bdcdd92fa1a2891a20652ef8517ad02e),
  (true, 0x1a10eb710268a52a10dd8ba53fcabefcd59220a683ef91210bf24bb29dcdc5da, 0x3c2cd0f834114b6701027106be922b9eba5f651a216c90ca07190475d91690fd),
  (false, 0x3f212866ab68c68f7ffdf9b2293ff9e3409484bdb7873e9464f37611c71b1767, 0x17b0e4a458762136b638eb822c2968cc0d869825fc46d082c34166978253f37c),
  (false, 0x19e0e699eb40a33eda04f9f31e12358fee985d879e3432bb3aee78c05eb2113c, 0xe2b9ba52c9ab2fd44d7f3d4180b52d7be7cd6d2b27a19fab53e697f0febaf3d),
  (false, 0x189ff733964d93aa4f32f8e26da06550b0434740d4a865b741490ee502fb3540, 0x2261a72f2d6dc78776c79ef0b07e6e16c9e3163778fa6da88a632f6d3bd10db6),
  (false, 0x39bc8c9563315d4e5d74ee62d4b8bcb8f02b5733d4a0353804398352dbad0a90, 0x31314233c49060edd280b07369dd0ce9311797f11b240fe0b63f2ec5c7bb4d26),
  (false, 0x254680cfd42af19c90b47940a5b184475e8e5dbfd6ea1abbdedc8d65adf95232, 0xabef1a3372ce4c7e22696c70790e32a8b3386532d4ad921bc473b7c31e59328),
  (false, 0x399129d9103e35e3b24e44b6259ba91205a329d8b581dad79c6d01b6fc9e707e, 0x17eee0ef5ef57f2c50296052532b7e3c118ed4e7bfce0c9600d2209ecebdf9f2),
  (false, 0x27496e81eee204f3acefe05f035b82921b4d7a9b9fb443730ead94a11c84bd1f, 0x251a29829f048731fc6b696d37d1b997677acd446d3934c72176ce16600b0955),
  (true, 0x2061dff610ab98eb1979ea979cc519263d7690803d85e629d03025c7f4556d6e, 0xf05634651f4e8594708d36c2413e756a38f87cf977e4beaffc6d5ea0ab1081b),
  (false, 0x1d725ec9318f6adbea5744f1a7d9028aeadd13a68719002cefc6a9282bf116f0, 0x21118be13994d94a6d28739915cf3aa39107e56a7270135ffbbdd6679a85a199),
  (false, 0x3a163543accc94254821360ac4830e5365fb103f91df0d60c901675be1d32b97, 0x28b0a0f9f7e263da1f92a9f245c0d50b20d1f78b6ace0b50a122bc8a8bac1feb),
  (false, 0x336a2d3372c6dcf102436a2720aa1abd4b04ccf01222b31d31a1d264a1e5645d, 0xd47cf890713d7d7d191f09231acc231a47a7873053e9dc3e1abb23470a0d96f),
  (true, 0xdc31eb72a010e9177c7f3b8932645e57f39d322ff335f99d56a9a890a9af9fb, 0x2c32fb02bb1d1f9bf9254eecf11e08e0ff3ba3551fcef686a72d80488605f9e0),
  (false, 0xd02efa0dbc36012de1609196fcc2d2f292688725e9d5119883bed21d3eaa3de, 0x181b61b617034ea4fee3b84af1b095d1370049ea11dc63918d985d81a1291106),
  (true, 0x38a12347e45147e500a7b7b73621f90c06ceb7b66cff410105d7f00542d05042, 0x135fd87de078677a7df32085db1fc9535973a23912c72e1d557beead68c8f0f5),
  (false, 0x327352654ccd89c03f4b112df1bd13a1c3540f123dc60ea7bb50109bb9fc0729, 0x3a40451ddb1d15d2b096336f5636f0f1b83c55084d5ed9a3f0bec728a6be2505),
  (false, 0x2283a72b20f30da2bc44fa8d715047073b49585f7105acc31d5fb6958485dc8a, 0x23088d8bb83b1950fa96fb2feb270073734c378e2d0ba423613de8fc5f4f4aaf),
  (false, 0x2347fb2aa3fdd650863f257660529dd906f5d3761881e11584cb4b9166873cf5, 0x3e8d95cfe097b87b525e8791c94d7602301e99a97e4821e99fec558faef9fcfd),
  (true, 0x9ba82c141d4a70f8c4a0697bf75914a0f9696a0e960c5842f9bf57fbbc06e80, 0x31f0f2102755d566417a403ca1d7db7ffddf81bb2404340b5637720a5460ea3b),
  (false, 0x8da9ed6a631a2fe43e639d09cfa9e695681e8b0c89e9241630720526c7862e6, 0x12a4393d79c2069dacda2ce2906a3c0496a94ab96e805bbb0a993c3ce886628a),
  (false, 0x1d63e0d6d53c4f3db2bde76b2824c3c9259c5ddb98c08b542eb9881eb237c315, 0x50cbd1e1ee329f3cca3030a456c08deff10a9f9d390b3a7c6053f9ad0fd9b9f),
  (true, 0x36207211dc78f286fd0eabefdd86bd365c523f962a68db61b1506afa088d11e, 0x1d916599c78552ab49d2510ef4d689b61e744e080f87f69682d1b1e908509630),
  (false, 0x36ac2d9106aaee64ef689f695156f3ad7239226012511505dff295d0bc6d6bea, 0x3382357f597b05fc1f3be85d74272f05a1f43e6f97bf912e2017c6dd0a74a71a),
  (false, 0x2366b9a66ccbfcd35d3b2d980d5a291e2a6e809cb0064b3e422e393b26305972, 0x20376138ed71f2193d8f759a31b01ce45392a21cbdef88f44e70ce6fad1ee163),
  (false, 0x151677dd63594a19ab8e11ed0ad3bdb1fe6b944002c9de133df87d3696f249b7, 0x313a1240cef963b281fff488d09c9f07c7c9bee0bc0796f784621aea3b655134),
  (true, 0x2da95588b24ec13bcebaa19cf942a6eebe5299a418f4e1fd179cb9b83fd571f7, 0x77fce9b8ba12eee7a5c62293bef1f710bca5827c851afaf3669e5049f39cd9c),
  (false, 0x393343fc9237506590393d9f38602fdb8c391792427d1548127539ae261c3266, 0x2dd9d6ba3475f1818f112e679c1b04c083cbcb905881f9d4e790755017cfc72a),
  (false, 0x2c68a8458528c8c7418344506d845a5bd37261a5ab827461d113ef64885180ea, 0x104b7a94d396606f35103e929b4b01f2d4d057d0baeb3e96b2777492bafe1c4e),
  (true, 0x154a1dbb77f6f5aef0a1d8b97b50003ff10be26621a87b042f0c70933b67c4ae, 0xede1cb44661a8a0b64325d1cab812a7a57b9921bebda29c2aa2491d8b0a086b),
  (false, 0x2454ca734101209cef18ddd6d4968f0e6cc569a3ef0b5dfe5b101d6a59b8e298, 0x2f25039d3b6a2bbcb82812742d06d0d8e64a3a5b8b6efd284330d45c86fbf88c),
  (false, 0x30257d8a1f428bc22375505780f16324fefd71f883169edacad6646005969573, 0x24212dd57e63fdb47e729eb6058b2c84d6c07cde4154e639d19321bf40210349),
  (true, 0xc633ceb2f28aa03464627ac8f575aeabfbb291b444805d64838ef99e0e6a189, 0x355d87357972dc742c77d44a0c196c5b2f2bcd1db0f623fa0cd1465d0b892d5e),
  (false, 0x1476eaebedb9e92fc81b3b9cf09b64f8a6b77a1a5055d78b1f2196a1c3995a03, 0x1fc5e26aace9dc7d5b6a2f0fa40bbffadf13774617b60b6d7bd83e6cd1db2877),
  (false, 0x2ed18bdaeffe0d94a05534708a94086405ab3b634c28f09a368d67904f663657, 0x364925b9ecba8d7b565a381486955408692d825059a869b136cc315279853298),
  (false, 0x27bea0e3009540025427120b885562d6475ffdaa67f4d670568bf5dc030dbf82, 0x3eace003a0aee1cc85a7639cfa6ab81e322481dbd630b10629564dd3fc2b6c75),
  (false, 0x3d5f923c295e8ba4853dc68e6ffffa69389a160a0e6c71bc02a2f459ae3a3419, 0x3412458b114a2ad4321b44f2b46401f328645a77c2132d0fbf2aed5033ad5296),
  (true, 0x348a7f2de4365925182f1376501b557ff3923fa8caf9ea1bf251e0441d2225b5, 0x184d06c7b54bb3dc923f43909914381f6b2e724cd284ba3974a46d94c920d55d),
  (false, 0x7a5b4f2cee2500e24c1bbc392716930b9b0310a7fceaca9d1f9c9ff87719ef1, 0x1dd299b81abc39ccc05199c9e53e1d3df771282dfcf49b46661059e60d040497),
  (true, 0x966e6c893e9076b87182d8fd135ddf676999b7fdf4e351bbb299c3fd03f491d, 0x3315734c45d1ec293cbaba7077ed31a840a158b6936fa0112494cf00fc0e498b),
  (false, 0x374a2c9f4dc9f7e1f8eead60c5aa745ec20ccb0af5ecfea3fb39336e0a9f2ed5, 0x38a1cc4fd3d2f21e3bdd169db7033017bfd59fee28db5984199e0761abeac0dd),
  (false, 0x204debf46036c2f2e7105b983261bf73c2ed24d415727ddebfa15ad92eb62057, 0x28982bd8c9fdaaca1fb7e4649bba78e6dc89c7bb0df56e579e1381ab859b449),
  (true, 0x2180551b88406c9a4208c4b593d40c682f948e8116bdeced21380c1c5274fda9, 0x28bf6d4d85bb982159f5e07086db2c2317e1fb18fb27c527032df9bbf0e703af),
  (false, 0x14a5eec201d6acc37d3b9175b1c7b18e5e84fc6f8639435861af013b1e933a77, 0xe83ac5ffdc2de74b834593b6d116b9c343462d5ab53372627eb8068f46456ce),
  (true, 0x1442f19748f6fca52c65d9bf6797f1ca76d11ac26b5123ac4594532b97286203, 0x11bd3053fe0e0a3643ad10508290067e6d013d677a53a476089dd288abfc4efe),
  (false, 0x2b068e795063630bdcf8b91657d60d3455274750f13b9841128d65f63582c8df, 0x5813098496b4049705e5a76a01e002dcc7bcf3ecf595294ed5e9a05118b103a),
  (true, 0x1c7313d97cfb2bc71fcaf97c09c0270b0dd0bcb963676cc3f08d5b3996202b6b, 0xa5b71d6d3b4854aedac6e40f8636da0a533f6f94fecf1400a282363c53a886d),
  (false, 0x24e17a2fc704cef3758dc966ce4215a4da75c612bea4b1c237dc3e2656449aef, 0x1fa606fc43ec6d21ea2aec0a24f13806c1e0674f1c04303be4aaf6516d5de274),
  (false, 0x248a5a985088680dbad55edb82ae7290ac6a5a5478f124d3c84486e160a27374, 0x302bfbca548468a42a67eef4846b1b073eb5b4082d863b39e548d617179ac548),
  (true, 0x70606452cd31bbada3f88fca61498aeadf0f6b336917d6d54bf43ceebeae502, 0x530dc8398a5cfdd830b1a719937c143b3101927b3bd458378ed1974c1ee69c5),
  (false, 0x13294acd314eaf0e3f7fdba5bdb309af8e14a8a1b304e2344919a004c2023fea, 0x304e891195a087a0a3d2fd2b48fbc41e2b3d214077f0cf25ad63527adda3a35c),
  (true, 0x2b9ca6d492b29a64ea51686bcd042a3ea3218140fa6525de526f138d124e1197, 0x3878544f8db332ab6edfc0903a3cdb45ab5fa6689c8db8c0ddc838e02c38a805),
  (false, 0x2c3906ef857fad9811194861c2c9212b393277531e86b5fe130a2dd88e3b8f00, 0x278db1aa1a6c0825b476189f3ce7b5b3ed2ffe56bd034878814d82e6457dddf5),
  (false, 0x27fde68edb602cb2cc00ac03238da45cb2849cb6c4dd9a86552a13e81e9e7915, 0x3fd463e16fb633af2eb7f3d49e0a4d4a03b27408beecddb1d1f1a3e2e7eb10be),
  (false, 0x2fc417f203030e2087ea67bfa68b418679ab42aca5cdeaf6d1aa9130fd03eaae, 0x1f39976ca1d80b378a7ec370b798c27c0d0377ea5b063e86a307aa90b68f71d),
  (false, 0x184f38f6042f8954e582adce6e073a75a5739bfa0531076273cc36abc8f7556b, 0x33b301a6927afb80424075b40a918b730666eee3fad622d10894da8fbbac1b03),
  (true, 0x35e0ff8ec463a39a6dc913cef64007b518a5267c6face808d34cca9efba96788, 0x29e62912d8bb5353c331a4c2df711328b023d4d007ef14d6df422effac8343c5),
  (false, 0x17689a70e01caf3909badb7caca6ca423d8825267837e12c1ee7efdc8cdb2dca, 0x37c4ef161dd98d57f23fd25d0d79140455deec8dc94b25c5c78725731f84d408),
  (true, 0x12e1c818ca7e1b8388fd34e769389780fd41e767b244c75ebf2303e233019f86, 0xd285f0f597ebf0ff777c6f915178f9e6aad20ec3cbe7105707af6ac4e4215fb),
  (false, 0x39607a4c19dcf7f516e9d65922b64e6a0bdd9d9e6c2fa3134312a3a9bac93513, 0x15faced5640284792addcc6f0f6e28d373437cf87a00a1e37b4ceae3a8f892da),
  (false, 0x1d7d61a657c96b785628a7e9de4c765ef8df080f279fdfa796e658f6155aa7c9, 0x39832932015b81ce3f7c70d57a05fceeeb688ca72610ff6f4c3cceefb684914),
  (false, 0x35ecbeae63a64e5a97b6139f3697b90722c0956515867a80c6aecbb93dcaf9fb, 0xbe746856eba275ca00a0269691083b26dd57bfe78d8b8b839d98e316e0ab5ec),
  (false, 0x23969b96f5b333cd78ac2fd60bb4f7cedc3851ff37b579d2a399cc90e2f6172, 0xc974886d186f4fef2aabf429fb7507f9d621c244e1bf3b2e5957027c7d39bad),
  (true, 0x12bb20edf6d439a7040a4e2c9b341d55b153db5edb48e4fdf4c4d06447cee525, 0x30fe3c55da4347a68c2b5657985c6968ff8d1b0deaae2612a6951ec6015ea8f2),
  (false, 0x3094a51711a4498858d59198ba3daa1ada0814de38ba1a762e75dbee955210df, 0x2690730fb925036f56fcca211c6a073037e7021759e7fb037ebb1b152c28fc4f),
  (false, 0x567ffca7f07a125c8e566979bd062e561914aeb5e0dd0d14d11c554cb31dd57, 0x298df907e524e93b3bfa61897a07d21ad2cb06537d410a87863c591e4f989589),
  (false, 0x2784fb735490ce3fe24531c159a9f3c333fa7660ca30862d4d6121ea7255342a, 0x208a9e3135591255dc0d59f76926b876979da98a7b371bcf66a7772998a4829f),
  (false, 0x38ef56904a2a5a68d36860e2dbc42fb930d2f005b89c8e3bf808fc3502b7977a, 0x33c04499b1ae7a842d7e538e98cd90479a3c5c282d5c4b1a10b80ffffecc66aa),
  (true, 0x24e413a3ec171ca5f829e98e1185b20e57e2576c24a9555b517dc6b94de11741, 0x14bdb6b21ae99b964b940e675cbe5dfed82c12dd4ff018709803fadc93014f71),
  (false, 0x1fbaaa0278ba83da3ea840eb7d29ef505b923e81328329592cd7d9dcec01c707, 0x3cb8969ccba5b9a17f10257b9823c828c5d63a464f40da4ab7bc1d08984c603c),
  (true, 0x4d3cf9c835fb82071be5731f17566ee7b63eb44889ef799ac9f83c1fde49310, 0x370eb4811f01164b8dc85616a05571ccc3cbc8301321001ff43d6921d5730779),
  (false, 0xc7fd866cc087285caab364ffc9c5e0bdf7fe4c06e552d39d11d0b44bc3b472e, 0x3c32af14a20deaa7b1a5f2a019f2a53a4451efd2a9b7856309bb9d04d6163ca7),
  (false, 0x25e3ef66d678ad46a14f2f6a95405984cde282099d89948fc24247c34f39c077, 0x406cd973c44f1fd7d5dba55666210f7d4284e70476760a192892092ee5316d8),
  (true, 0x2747c2e2a56d35b2fa1d18625bc9597601a5ef01f3775d5d5593d674f6bbad24, 0x20f26dbf00791a845dfd09e6e735020b9f6560c0c6f4428ac11aab8eea7519e2),
  (false, 0x11127eff931ea413d67a49bb18e8ed39115594fa17e9402ce33a2bc20ca6b56d, 0x19167e5b6f5f3f89d4e0100ef39e5dd911982e8044469957d0870311e438f8e1),
  (true, 0xc153afbdcaa6900088c571faf94239728f54da5fe562afa22988beca97d18dc, 0x1ce8e32ca33b67fb8e712909970e17bf71c6630f59fd8ff18c989de9fb460ad3),
  (false, 0x89f86162279b6b7726f54503f5b30303c688ef98b7070eed8ba577123dc16bf, 0x3f5e504da4af8e6b73579687e45abf6c3e6c8cefb306b43dd4b6a8b154a9e87d),
  (true, 0xb637c075a668289f2c15b21f4e6cec232d442cfec7b993df8a55979b1689551, 0x100244f47c1760ea41f2c6b5d501098ec986879291d4de7256e8216ab2d5e2b9),
  (false, 0x2c0029a547d24d563853d42ec7b4828dec24b2a819424a2468abf971279a9b62, 0x3e3ac7efc6d1dcd1251d7ff11943189b37fb413d63fbcb1acf8db336e4862c7a),
  (false, 0x2f2f37aa5c0c8e2d6fa183030cdb904b29c69f959b95b7fcda828938c3ac10ea, 0x14467b8d12f3dfd0a9124e0f08e4959e51272a80464429ec0f86e10435044a5a),
  (true, 0x53ad54069c763075a51860c2af074be78270f1bf28243bef81c4e7acd1f2945, 0x227d7087e12d02056e6fdcbc078f05fa6159afd2e462dd9956a8f9992fa6a1f),
  (false, 0x17cc2ef13afda21361d9d39041b95ec72862ab54653f67ecfbd647e7838ec831, 0x13abacc0ae095bbf2ac56c2c240b83c0a4e47b86b14e05b19f0b52be9ef4214),
  (false, 0x8d478f52d2bb3ab95a7895c9e91b0dbb9dd92b62a99b6335a32f0490f188997, 0x1b1aaa143fb9beda3d100f1dcf5d528b8391b26c5d23754bd77b0237adf826a0),
  (true, 0x3e9cb10e4592d8aafa8d6df22f7179ae090e16e33f35c5cbff75490f0d9542f1, 0x2e403754984c2873e38ae5a5e0bb1c4c0789d6a9deff43cbd16e6cc129530273),
  (false, 0x22b233a303da71c3819f5b7fa5786229c0de7b1740fc84f8f6663a8194efd358, 0x360bed36d6a6485f944b98b0620828161792b6928a6dd1664171a97c24663c03),
  (true, 0x10a0c731343ec88e63f442159fcba27d2b49b7f5bdbd861eb4b44971b696fc5f, 0x2f1cb451fc71627069d44f5c16d427a92a57188b031775a8a9615802743d127a),
  (false, 0x1f70587b354d92cdf14ac64385879122a05fc621bafa0f0a073d41709689ed44, 0x1016ee15a875b62c3d4a7bc8510559cc3536ea8a998c88fb2a59a69338fd74d0),
  (false, 0x33b08234af65bfb0aedaf1a2d80c61abdbad86ebc3e2bb92c2cd9ec052ec5c7b, 0x370132bf31da37fcff3ff77f43351a00cc0ea5edd57870af613a954a49283b9b),
  (false, 0x260aaddf2c8e6938d469de6904a3b44eef2ce82aa457bc6be9bba8717aa50ed6, 0x316bbf40fe03957ecb328fda992238dd80e8644664c585972975ff1a623ab7ad),
  (true, 0x3d62c6e999f6a4cb1fb03bcc7fcf64a008023e79c3105286ad2eea68c345df07, 0x3273ca168989784dbbcf34974ba6e4a6acac9a29b120a219f58039b86d04e79d),
  (false, 0x4500b7486c951e74574ca4a412d198c088b4aa89e8fcb5177a98d9d27eecc6f, 0x2acdce741cb49bc2125fd4da617e77c0aa9eacfd9ea2df2c54683ac6d4fd9b76),
  (false, 0x1d0fbcaebcbc6795d87bc1860f120c7aae477b941b03f6a74862a18226aa3da6, 0x1a75fbd7867b52375d2a62c51c0fa5dbf00182bb135eaabf6b87674ae1e0f6cf),
  (false, 0xcad1732436b57a2f345774ecc8cfef00a0529edbc2c25b4e52c1a72776a2c69, 0x1774994329f6ce5ec3dfc14bbecf4554d4dc77340e9eecc22e9b710ee5286ac),
  (false, 0x4b4e8a3a95549a2141c5751a9884b9ee7cf0ebc4adedeebedb1e7607b636683, 0xb96aaa60688c1462ab900a32af21281f43669a628430e14b552fe60bbde2009),
  (false, 0x28a4d49ec8a9888bc4f41f1b93763aae4758e34b2032b744a904e292089f38c2, 0x12f90df341d9b3387e67c099779f013ffbbe0b5a64fb88a031adf9e93284ca7b),
  (true, 0x3219cc1f1df6ef607a32e0be810923d4d6cab39c6b1b972b7e24afe1fa7f7117, 0x239443f3337f197e0f0ebd120db60712d9fb15c5b6f415fbff710d8dfc1b03a),
  (false, 0x3d55bd175739667a5cdf23aa17da056f099cf8988b8527473885bb43ec906944, 0x3dd9258765d849f4b08926fe000e4b55b5640c147b107f3a986ea603f7560327),
  (false, 0x1bb3790510d22b581c8f49367f120efb912a2e822d2a91f9d32be96f148730c0, 0x110d1e89368c963fb2a6499de7adfea804b763d44a4559445fa8134c5b048d40),
  (false, 0x125288bd3c4ab0f2a7b9375d7bd68d9b4eb290ca234e89b1d4d493f9335c5f8e, 0xabaaabffb1f5d1e62972d3db7ff96d53af27e1a6e9ac4a8e6a039c7e82c8edc),
  (false, 0x285ad4aac3058935bb766465f3dbe9f4add614d4aa761ad0c135273a3186c319, 0x15b39f3564488b194b9dff4d1d6eca08a6fa4477ba32a6e90e6674f30a0a8c4d),
  (false, 0xcf978084f6f79028b0fa6bcb99474734f014b003be64358acc6241e079990f9, 0x2f00954f4ace91605506f1972cfb28bb77ef7a618c83cb969978b2f14c14120d),
  (false, 0x1e31187ebb3f74e00c948d55874338a3bb563fe4adbc6cff98a44e3526093060, 0x337aac6ebecc8d93575a8e60b2d40f1a56c13ebf11421f4371ac6886d899749e),
  (false, 0xd6c134be1af499d6167d04d93373bc7389bfccacd0fb0424e0d2a5f106028b0, 0x3824e6cf2dbb935242c98895643798a460436d2aecf64a0ffe1e64e24154f8fd),
  (false, 0x2756e9c6cd53bcbfe6d45bb9c25258ec0bc3f7c03318878cc8e37fc2875aedd3, 0xaf047cc6efa58592f661ead4077289660ce3fb856788d2f32e769cafa4b3cc7),
  (false, 0x3640d9d25c20324c03712ebe3d25371596d2d59305c351d2c68c708b3b2e9638, 0x3192d7d90e279a48a5eb4c943a0ad201b3907e794dccc850232eeab34fe2915f),
  (false, 0x2266aac284b9c2397c0f7baaf813d7daf6b8949e587529c38de634832c732195, 0x1f116c2b436c755dc2c59b154d43e0355a2f53fea9bd606310751fe5e5675cb1),
  (false, 0x2a318a758eaff13c7e92a71e97dbef1262b13459957ef8304a220d6fc7be8c4, 0x64f8169cb93666a5477a9f4048252f0bb56a7d130dd4a3560601ef787a1e3f5),
  (false, 0x1466f8a559cba4cd7f983ab44fbd8b56d0a289862c7ebeb2489d52fbcfc87a5, 0x25ec9a8e5557629dc7737e3c680700a7f2f6834555398dc4d96accf42cb596ab),
  (false, 0x20691de500afbabbd1d3c686391c7e751570c64e41746ca2a6aa4fa2a433458c, 0x37431019eeed077a257f798a4c38956c4ceebd1622b9db38d801a9594ca5ff50),
  (false, 0x20f8fcc7548e1fb13d024ba5439ddf318a9b987d2897859c133b699e7bc3b77a, 0x24571be0231b13bc1cc0f4598b9b4c58ed01298424b022521f9898c4de15486a),
  (false, 0x1329d41d32f217732cf0a859ffcf79720357235b5b13ac57024a71623b0f89a5, 0x2ca8062a2d2ccfb9f661f59be7bb30649cb14110c8d0f6678a9721e8dd4ceea2),
  (false, 0x2e44d39dae6d2788874e7aee4181387091b02892a6cfe925aafd0b0a6b19fd4e, 0x324baf96451f215239758300c961e624a9feaa1075b7a7d7f78de64edea93bff),
  (false, 0x7df9178a03d57d305c47414e3d26bbfe98b400534ae8bf4573cad78819cbe78, 0x237e0d819923b9bb756a449d0c341441446b5c06ec241b0a27021d9d870faf20),
  (false, 0x19ba44c44fceccfb67c564bee7059847acffe183d170ba451c04fa7fa093a622, 0x7ed53254130c39b7c3f17241e0015796d5fd4e53f3c79e8a8b8c6ddb39fffe6),
  (false, 0xf0178db9610fc7ef5660a6486335b4d4b964d6d5b18c322a1d31397bb4c9b00, 0x1e1a8a0eb8a026b0075e5951cc3a735c39d364f42276cfcd02d5335caf3cb05b),
  (false, 0x39febc7b2b78148b4a8029a25d284317a2c1df6cb9b229ee575f19830ab01966, 0x2dc68b94a728a3644479d2d64fc5482e079d809edb686e8573e3fa8aac8c9792),
  (false, 0x1e9d6e60ba613f0cd9468965bf736e1214df6e04b18e0b99a52b112de041bb6f, 0x3ec862d2804d6653194ede3276d4d20b2034eacd39c9be6efd2b4159ee055711),
  (false, 0x34a27ccc1d6ecdc2533694eef0a4223fee117dc6a757060cf5878e9e4c7adea5, 0x1ebc393cdb1212aa687978bdc42e5c213b7924b11e530d03fc301496cb6b44c),
  (false, 0x122c3d2df5d05aaa93235cbeb7047f720320208ec6a6a8821bdce1080f8e03ee, 0xf47b26db9012f2307f8304d9acc1a081ebc3a62649d5c90b597ea3cf88cb4af),
  (false, 0x293b89f286baecde0c355dd298bf4336ba19c91e0cd78e188c8af570626dc37, 0xb660993fd1256a01a776b97facd3e898b619d85cff4713e423a6ce219500c00),
  (false, 0x114fedfa7fdf9b47bd7c5a72299a64f2dc6a7d5fc50857e6d41d02be08eaa38e, 0x1e06cc7eaeb1a795fc3fbe1ec65af4b4af3b6220c2a7b98cdbed49f4efbd2ad3),
  (false, 0x2d9222b058b12d947e66e717280d85885076b27ec987cd8b3567de2c715e1985, 0xfb4a0af9c327bb6260d9d1895e9559e6553fe460f0f69791945a321f3c3957f),
  (false, 0x3bfd0957fabd67487c7240b071ac05a2368721a6b76c103248faedcf89c0212f, 0x38caa2b2d54e805e11e7926b265e2b78fd89532f9545ad15600bd5dad97d961b),
  (false, 0x66234901f7ad23de6ec4cd396232a0e6038251a71cebb848101bfe4f88a2e67, 0x3af167d72892ff91a522bcab151cf3cd60ce66e41ceb5b561b2afd886e8cbd8e),
  (false, 0x9ef51212b01e8befd968f931fe162d585813091a4cec0df91efe636798d4d77, 0x21c4f329cd12c8bdd47473db4dcef934a3c3cce822dc0304d2789490d5d0044b),
  (false, 0x39f6bdc84ceeab1cbc4b3b33d57be70e621ad0f0f25bf27148def3bc02008f0d, 0xf626edad48ffa4d085f1cb30c10b8e100ed931596164b5c1688f931d9eff6dd),
  (false, 0xc376da060916888dae60f42ce13f6e97865416c09f327e5c0ba6527af70acf7, 0x17a9db4ec26a7523f372497ad0968cb2c36d942037670d7adf56887b807cc21b),
  (false, 0x40000000000000000000000000000000224698fc094cf91b992d30ed00000000, 0x40000000000000000000000000000000224698fc094cf91b992d30ecffffffff)]

theorem pallasChain_ok : chainOk vestaOrder (vestaOrder - 1) 2 (vestaOrder - 1) 2 pallasChain = true := by decide +kernel

theorem pallasChain_scalar : chainScalar 1 pallasChain + 1 = pallasOrder := by decide +kernel

theorem pallasChain_end : chainEnd (vestaOrder - 1, 2) pallasChain = (vestaOrder - 1, vestaOrder - 2) := by decide +kernel

/-- The multiples of the generator of the Vesta curve on the way to minus the generator. -/
def vestaChain : List (Bool × Nat × Nat) := [
  (false, 0x1c0000000000000000000000000000000efee2ee443109e0ed5f06de70000003, 0x2b00000000000000000000000000000017076ec9566fe174da3fa5fa2bfffffc),
  (false, 0x2be57b298030bf8e8f3a0764c099646164c666d826c34d79c0a2267ea73790f7, 0x257f509c18db376307a5af7b0ca26e106dab3f8d433f87d88c7c0aea5ff54191),
  (false, 0x1715ce9f12afd69d86882f62eaafcd32517db0ddc493391e46959b32bcec2cab, 0x378662b17b9931bae3ff5f1d458d02a60e22b5fba94d6736d46bacbf0ca5791c),
  (false, 0x1f1703395c616d57e8b2426606e3de1d598acc117f8c1a8ead6de1f74ba3a9d1, 0x16c76407ccdeb81930847b93ace4ecc9f7582cda6668b797b4523f78aff3324a),
  (false, 0x3edac16e708680b65ba1ee265ee37b8106c2f05927fb3c375ebb7f685da9ec9c, 0x6aba404d82f1bcb2eea9b519d6a984f996f106049af65078d729ac0e8d9299b),
  (false, 0x2e706d20ff91073b5fda2ea2f4c69f478ce958db0ffe604693a486eb978bd89f, 0x985f2b1e2b47310612425455c68f2a08c6e78ce19310aa31295c05f28ebaf14),
  (false, 0x3697ba3291d7092fe75f8056e878587c61fac226d18f55113fff044546ed8973, 0x158a75f869ca18757eb8cb7e4055fb750157b1ac819fae121a022b4f5c774bf5),
  (false, 0x2c0b036cc5567b40887d0aba84a762cd802b69c0b69077e7cf15d614a70f823d, 0x22cef97c200fcdb9521d708ee6caf5dc45f118cc6926bb094e6702c0e2142a60),
  (false, 0x2e6c881789912748ccbb0d41f9b378d40a5773f5d7b18a810383479825073f73, 0x2a1caca8375af4605aa8c8279de67f50b8e830b22c1ff2cfc4444e0fa0a3eb29),
  (false, 0x155c55c8dd8da5d324526e1c64d8be2f677e152c8edd6e8fa78d95997a859ee8, 0x29d1685b3fee26889581952195dd13149d089713abc46b9ff7cca95640eebcf4),
  (false, 0x143fa335d77f0d9be852e2c1ed6d27c533f11403d48bad967498194318d6f590, 0x3d4063b42a9f5dc0401e3e60f24257b0c7b13d9a0473c5d29886d314fd0ad8a0),
  (false, 0x377dd972a276572bad64770360f1310ebb969f52432def6d59d09a5760117645, 0x1ea91ff26375176e85849aaf0650c037716c0d71f268c713aeabfd6b9244d173),
  (false, 0xc9b765c377137acf3f752ca367e11889468903cf922cb6be409e455e7638fc3, 0x30884694e2348cfedb4ed45163670fd878d3b5c6ee4b2c53a2e5ebd0325464d),
  (false, 0x252133fceade856856d1181758dc822da92a1ee1b27f967fefb07b6b7625b500, 0x3e328e73db464844f6fba02b8b148cfc2205d2c707aa730b03bedf5290dce1d4),
  (false, 0x88e0f5bd489c10eec0d55525e75368caea09bf81ef445caec269d8ee47ffc48, 0x16f59431a0e1a58dccb166bb04b6e48b1121b53a12b6d38b8a080940e573caac),
  (false, 0xf5c555735d2553ffbfcf4e29b59b3d1d9b195c73eddbb94df9da41565553528, 0x263a7f84790ae6d489d170d7d6da0d5bb20a7e1f08eb4b22889f98ac31785e0e),
  (false, 0x9765cf6ef47a4dd083a283d3f29f3e64e768a972cb24c7e111eaa23f6430ea, 0xff3f0349d8b341a7279949fa8cc4e1baf061dfe3e0f2050ed8d84c15621be9a),
  (false, 0x8278f0d94113e1d6ee4a757c41cdbff5faea55ea8764b7cfeb8057c9e84c9d9, 0x3437a9f35a16794d730fcd1e23e8b9f2ed7e40223e5b09327a76c47a820dacd1),
  (false, 0x1de948bcac0721fa11b3536619b1e6fe35d09808b955cb0b00191a66a27d2a74, 0x2d71f6e0a437f189f4ffad6c3be7508e2eb86ace8cf35766bfb365ca798f1fca),
  (false, 0x286cc3c7ed15cf386a74ba5bbb2cf2e1bfc0d7fa09fee140c16b9aed3e840d15, 0x16262e447fb59f7d23c291679f8a84babadde142a266f5a05bd7f685dbadf79),
  (false, 0x24aacaa21c5d45592c815c1233c615d3be26dfe69ade573b878ba4cb19100a48, 0x29caef8b6152d1896c735eaec03b518084ebb52f5f3dd78d80a05900dee9f9bd),
  (false, 0x38f87b6cb3e90c86ef6e80c18ae09f92b847a8993c726d558f7d50ba8c214bf6, 0x324d084c5e669284351d40081e1a96e32d006472a37b9dd6dcb1bc5a18d9fedb),
  (false, 0x38627f237f4dd74bff840c23a113c4215cd090eeee3440ce96b427aa466872b7, 0x353bf69433d0bc360472180da89f92a76c10c1b33b4c31fb6e2cd2d0b2a1d6f1),
  (false, 0x3f42efe963291a4a753f2d437f5423d1458fa3376d1f05e78ee086b25f542a03, 0x2739eedb7f0a2a227ffa09facf9a0f36f1370293d9867c94df1a34ae959723b3),
  (false, 0x27d838d3ef4f5cf409618996732e285fca6bf24945e23c9f2f69fda175ab24fd, 0x332dd533bd0ab56b294c5cc85c4d34e089054c4189fa2ae73269218d430ac827),
  (false, 0x15f414aa4914ddca2f9fcde452811dbf634351d40229c2a3db385716711329ae, 0xde6d832dc23cfb31fd2c9e8588dd85219f21b727996e20d0c1e9c08889ecbd6),
  (false, 0x3567d5f81f9fd0743b75e0c954be4f13fbea4d2831c2b3d69e07f8a1218686a0, 0x2e011e5692fd3e0d47157fb07174947a5389b5810108499d173842f00833ae89),
  (false, 0x9dda06b787f1b707c19e4c1fd74c54eb6243ad86c898a425346aa35fa86742d, 0xd710b1419442bb4e1d002d8214937a90c7966a02b69c28f9298b53ba408d922),
  (false, 0x161805e9d0f23c3d5ac40d346804824d0da0ebdb21c213a2b2d23d8e048162c9, 0x3027e07c2f8e46ee8d5b8c8f976dbab0ea844e205372011e6fc1118b7d637462),
  (false, 0x25a309e186cfe38c0c10d68914b2c48e761a4e6a15a7d4cfd3b22a6e7bdaa538, 0x445f3d8cc8de0c97da644dc07856010bc37863d6dc3b09b185a734be08373c7),
  (false, 0x30c269933fc8733dda97e81664d951877ffdcc7dbe74effc6469aaaac86f9ecd, 0x3e8c3df2c642675e75c6fcfb23409ada9d1476c3834c28ebbbb6bcd37ee08cc9),
  (false, 0x5010e34013caa265d88259bc4a7680f60d3f4a839ad268d59a14663b6f6eaa5, 0x38dd7fabdef1f554ac901c00a5c439038d4714dcb831cdd6d26eec2849043e4f),
  (false, 0x22871dc17c3a8e7985674539f1f206e6094300cab50cd86fd02147f1ec0c859c, 0x24d2d6e588b8e3346badebaa192dcb03fb98f429c0b314121e8fc9747979a006),
  (false, 0x33c94820877c27199bd38eef09752d514b195ded9eccf4bce21ecbda892e88bd, 0x1431a1b7bfb9431a58accb49fe15f8c933c1a50bd46f6aabaef43ee9b0398a7a),
  (false, 0x350d376165e169c6fbca5dbbe0b8023e76cce996ec933380b6ac069b070b4b4f, 0x10c85ff80c7353c9af6621aa53bf209f01bd8abc0b6d665777b45461b351b1a6),
  (false, 0x267f66e49614ecbec67e6cedae3b48b648f3cdd54a54eebad97ceeb4275b3c16, 0x1b22314db6e897833ff5386a1bbc4d298d412bbca5b1b2a474f1dcf5a1ffd3f6),
  (false, 0x2718a9498340d86952521fd7918e6124462acb4c653c0378e7909c60e7269de0, 0x740320bd84943d64a193cdd8bc6b49e0ef094391d4bdda8a1a70d48f89581b1),
  (false, 0x38b9015612056179f88521b5c3f810c2a55f47c6e0a7e89b8b15961c7e08db40, 0x347c0e3d35d96d267ddacc833d42d26225f71049b36c1d3035a015985ed3701f),
  (false, 0x269dadb1faa25c882777437c6511230f73f2e7cadd886d17f5d8a96916682b09, 0x2be16a1f805b524a173dade3c0b684b95781b4aa21489862094cc1c654173953),
  (false, 0x2e8c7e1aebe9ded096f4200ebc1e97a9faf8df849c57b053543b876b3d8503a3, 0x2557ae1e0d6c5ad8f2dd84c1a2252556c6b4593bae4e2c9bc665d89077941b0c),
  (false, 0x2ab49eed117db8d0ae69b00568c9441617fab163cb2a756f1c844a9ada152bb, 0xb5d23476fe538bfbb1c0ef5ba1c50c2585c0b2b830401d82cafd9fbe673f3a9),
  (false, 0x1edfedc9a1f86c7f42669f4a8e7421c892f72191e076643d8a1c2e0e4e253d03, 0x2811b876a95ed9baa8a0c70388971291fa0edd661d054d6655a9c4a64296e978),
  (false, 0x3cfe28f7dd101228333cc5e20508d509bfe628daf8c9e2643ac213e1f3d7a2db, 0x9c62889a5f7ec27ae5da85a087b35e3e22c76ad474701df457022a7d7debb9e),
  (false, 0x758e78c6c0783f8080c7e51beb4abfc695aa1a674788b8f25cf706be4c7065c, 0x282a148bb98992211e815454ac8d26d0bba15a0bc6a0e8ea332c6cb362ad432b),
  (false, 0x1f7dca89041bb7f891a26e49ef55b546942908f78cec4654a0399276663aa213, 0x3efceac1720625108410e667b0d3eded5a5b1da66f606e70b3a4d5510e357e0a),
  (false, 0x2949837f7abfaaa4cd4e7ac9ccc1d65f2fd486a9a9d7b7fe9f02b72efb780b27, 0x1da411e9fa7d9af17cccfdefddba9eaa85a9c52a9c6ad6d1c1c93fe3dcc2b996),
  (false, 0x1b1b095b9bd361fc065e6fe901886c10f4074e302cb67f7d44456b85a621eb3f, 0xd2a3bef57892e9274a70d844075b64a5e86da3ff9384e5ca578b9f56917d26a),
  (false, 0x326a19312b5df68139dc2a53af0e83462e59b6da20d396f7cfe29ba0b3dccdc4, 0xbda299d0b174df65c37b17a9c03f7f6dbc944a5aa8c426d584a297f4bfe3921),
  (false, 0x2d3a46e0ddb897075e8bfd008e3259e623d3332e99933473e227a5c9a456f306, 0x20917bc78785b4d32b2c5692aa2c61b42428ea479d24ff00c4b8b3110303d622),
  (false, 0x1e17d3b6ebb25be09bcae09c283b72f75f4aee05990880274ef7d9bcb0d37eab, 0x38c8e5067bb62cbeac06f2a485153df59057ed255411e0f767bfa495e1ba57bb),
  (false, 0x2ca6682b2ad34fd3512672af2dcdb77e827ca5b1be65c517b1b5d1f887efad7a, 0x2532a40fb22e8354b4f878b1cc4eb0e019209bba4953f6bd5e3a8f0c1bdcc945),
  (false, 0x3adffd9e9249e3d6b9f44b8bc96b6e25e29bb5c46e77b7c4df9aec483e8c3fe5, 0x3ac7beb254b4e22996a96ad0169094f24af15f1d0df2028fa3937019a4bf9fba),
  (false, 0x39534942f5e4800fd9449cdb94f642e294cf42b7aa6eb164426c9efb3bc76c92, 0x5372c9f6590fba4137176d2aff300455958a91417ef72bded6a652915c9fb57),
  (false, 0x22bd1c8df2467c41788f5b942c73d5fc15d5bbffebd2e417ace4f34ad3eb72dd, 0x1317429ca4c93307d96ec226823587ee904a5db95ec66662ea14a34c6e3151ea),
  (false, 0x3101202e0034169c1cbaa46014fe76e19847ad885bd24c97deae43f8ef49a0c2, 0x294969fd76acf1520bd81e04ccf88e139e04095fd3b3aa79439b856f5b76cbfb),
  (false, 0x1489b22481d954fc02cb25f6ec5254dcebbfd295260af2b0a1a010f641face77, 0x2eb32627d574a1ce699f3aec79e0c8c6b1347113077f5b5f4edf391da856495c),
  (false, 0x3810acca00b212662bf4d411c4d5fc2a9ecf36a5f4c5940c4f3df62b4749dcc4, 0x28ff2ca5711510c404eb207dfbdefd1407d1b728a948be4f3e6804d6ffe78f62),
  (false, 0x23a930aef10866631fc043231030933f3795a9678542f69c045390e34f73eca, 0xaeafe1e83ae9ef2d44d6e6f52eb9f268b784de6a1a5545088dddf3fe64cac43),
  (false, 0x1d0f1fab729bd97d09c692e516b8e4c57ff6d84f7ff9eb23b649282d6651a90e, 0x4f8e5ae7d00c6478e54263cf44ee3b0f83cb3c0d167ef1105deb5e3fd380202),
  (false, 0x125a1eaf1b0fd265a2e9a4242b06b064c97aabc8c11d92ee3516acbf1e155b2b, 0x180b961551489fe8b5fb62f2f01415953c753aa154ea3d7aa0823d56561363f8),
  (false, 0x13a1b6ae321ffb9fcd677802978e94b2f6b2065040ec4ce7bb83980b3430b369, 0x178fa3c8e8f0aeac0b0442e6242d79ec4c3422e5d22235e5b6158f7de90f13ac),
  (false, 0x16eb4d876918bee1b73af6218193b1f4a3a12bb15335172ba41c19619bc6a07e, 0x3c8f625cb8f39c1086c376023fd364d2f4eefa6e08d6f24162f3910b053bd81d),
  (false, 0x223bf50ac89cd4597e2b75db5d2092e8604bd363ee2003f0d415d499002c0ad5, 0x26f443948eb50806ee4be15095c321824b38a2722a98cda12bce4c78f40586e6),
  (false, 0x1e3e16b3db38a855634e8776aa14462722ac6dee997f51df45eefd64812f2798, 0x30732dfb1b1b9ffb11e8d87496000dbbfca901074dd840f370129f3964802080),
  (false, 0x264346b73c5a8c31659b3419ce6fcbb196e33f24d13ac9c2d5bafd09ca689af4, 0x13e9d424e8b77a3c1263202ebb58e337685d76e4e1cb40a46bd26edd029d388f),
  (false, 0x2f52d1ee0611cca379b372ed93f1805960c650fa230eeb66e53612e9d8edc9ac, 0x131cb97a51ccbcd69eb6a392305c0a28cac138708b2b31be119cecfad75cb37c),
  (false, 0x3182118815c5ecc29c1d0b3e1683bfd5ebcb3f1fb34fe821ae669ea7667b3666, 0x2635b11915714eec3bb140c3811a5a6a67dc4132fae0689aad9cdf74c9ee10fb),
  (false, 0x2307fe5b91b56436a06a6a7b2fb42bac6d984c35008433bf2e5944cf023978a1, 0x1609e72abbc2e0687fb88696c780ad490a24efd6eeda5fedcfd85a18163220df),
  (false, 0x172c6f1f71817a3fd242661a1f48b43ed3a69cf8d6b6565612f22ed6bf8722ee, 0x165fa33d828d810944a2a71263da4dfd461134ff126d45c4c53eca63e13e41b2),
  (false, 0x100ed65194813b1e238737a8efbb32f451794ed07e6928aa23a77f4a1dec0888, 0x3d96baf401163ee03c89c0e945e591302a3aecc2068404672f9023713d7e9cbf),
  (false, 0x3f12d3c5d72b6b8dc77e6ccdee04fdf1be5494563d3da371367280c899907232, 0x3f03197e7659eac2c5534416730727d5fade0b613492c0f30cb95671d5583014),
  (false, 0xff21ef8c00b7156f2b92883323c67dd9ebf5722f6b8ead6fffcc78a8605696, 0x147c10ab47332ff01d1118e8ac442882c64ba4e467dfc93a50aa2da7416452b4),
  (false, 0xacee39eee8746bca597a13d55ce6ea56edbc51154988d7ebb2d0e048ac172ab, 0x366e3b3c73f27e2b5efd07169b94dec5833d0f0855fcb516251efb12d0829d3e),
  (false, 0xfc8b59363f43bd59086e9731742ec8a95daf189b0f6a38893a4d17135cf95d5, 0x1880c101a80bea3e4b4c683595b79ab6910955e7e3a6483ddd51823d7b016522),
  (false, 0xa0044eca4f592c9c7c70d7c9efe384d22b61b0a51ebb5ccdb2437bbbbd0c27e, 0x1810427de8b9f30400523733eaa45fe502b96e204d3593cbe8f97bb7ef43629a),
  (false, 0x3fec0e5ea4ff2ce1e1c5ea0ea140ebd96622cc5897eb6c0323ce23a8632d5e9b, 0xcd6e3e53db2e5e04c003f061f13ad0a62076d672e237cb82fa1d2d6227c0132),
  (false, 0x3cf8d722c427fc6d45fe04e634bf234e14858461a6d882f55a48e4857c1348a4, 0x3770207d8fd5c7318c6fb5ee9a711f512dff380091d406350f995c90fdc5e5fc),
  (false, 0x2bf32ab94bb137c6d1e75992d2ba4b7280cb06898000d9be095338258ecbd462, 0x3cad9282e6ee7eddc55675ddb1b68939adf7a726047ec5a4a1ab8dece1007cd4),
  (false, 0x2e8ea6dc3ec6874e1a44c43c76bac3b7e935108422aae9dcedb1ecc939205ea7, 0x23d3ab49dc6b713e34d7a59098a58b6fb65518b1f27b99886fe83fc4412b1e29),
  (false, 0x34d649fcf02140be6a9c33c9228256fb14892942c076327faa2042bf45571306, 0x2f14d7ce22b637a57cdb736bec9fdeb6ae3f1a8ce0d12aec195380cb828d53fc),
  (false, 0x1ff601246eca5aae4d308f6da7a31c41482c03d4b7dfde2b5f63ac5c1ed1b533, 0x21351e987342f00deafd132320816a582b0c3362bfd27fd72969132fdf823b6c),
  (false, 0x3bf7f8561d91d89e9cfa0895b1eaec6726686559ae439d1e671e15b730af2960, 0x363b10f8bb7f583257ce12dba432a8af5ab392f950acdf81786324fde9815442),
  (false, 0x41570ae49b4559d89b2283e9f734d1aae25bf8f5527c5260e4249d2adc59e85, 0xe0a507c465856ac5c7b8ade8f8e3230c42aeb2b13c0274a111a31d7f22040fc),
  (false, 0x1f93278f1592e2e8794e2c70c55c3d867e6b427f1345e3491e8a6fd621a25d98, 0x1e0aaaf0c2ffaf7cd0b7f54601e6d7c78f8f48c75d7e06a92c497e58a2bd515c),
  (false, 0x36f84ad145ab60be2fcd589835c33461d8fc3dc9a447013c56dd8c845e06f15e, 0x3e8c5d588038eba51b8a0addd736277d86d212cfe073511d01a5a24bfdef5acc),
  (false, 0x16b5161c6225f03c6f2f8f69c83f670ca4960558c092ea646069459d0f20dc04, 0x11a9acdd2a8c473d606e2cdae508d1ebd5994bb5119a454c05be13846247ecff),
  (false, 0x248028d3b185e0799143583587c0769d5945c9db170c5228a54cd9bd6e746126, 0x2994e704b4267fba5177a393596704c41f549977434ec8fcc9692ff5e4712f78),
  (false, 0xb51c25fb9e1828b4d29ccff6cfc73254ecb45eef4173479f36aac1458de4308, 0x396abca1c2ffcfba100cc0f83f49ba645d2f82af97d9793df84ebdb30a6dd79),
  (false, 0x32455d88d791a2a2bcf294648a08ecf583e46c25df9698b9b4aecfa00378653d, 0x683e3ac3c9c4edd059e8b43a5e943f8df77543cfa3992c0f5cf08c55db1713),
  (false, 0x80255b0c3e82cb7ea279068e59ab742a1140784e234145cdd010039a9a9122e, 0x26aff484881f8162a40b7a7c6c81ee1dbe943b337cc78c702dc53e44bb0d9e4a),
  (false, 0x117014d80b3777628e3bbdc16134cf4bb82dfe181b51f5372b93b2ae4ab5dea1, 0x22ffd994276f021f7b806328629d3d74d31f174da73f8e3853951ab7e8764f13),
  (false, 0x58820562141aea0ea5fb9645d5c3815db0ea6e7937eda1bf60944eaf94a0058, 0x29710ddaab60398e1a5d30d188a7f1b1359f31facd5c74a73857ad907119760e),
  (false, 0xdb90ee88bec66a54dfb2b88ce598493b830cd4916fec7f8ce5a4a2f12b5f346, 0x10575755ee905330a0342ca651dd6ebdbc746ed0b3268a75a7aa9ef49cf0ff8f),
  (false, 0x1588093b69806a4eba30ecd36264968d12eb65f24593e16aac31a8c979518486, 0x19cb8880d67f33e8ae433b07f7d9fce403ca593d3f645e58caf241d40db4640f),
  (false, 0xda0da1a35aca7b41560b00984b951d0881a818a4e047a8874f3a6ba755203af, 0x6d87c25825e9cd8052662c26cd5e5a7c9c25a58effd1aca72d0fc3e9ad1b8ca),
  (false, 0x39db7d74d038dcf6ae77cc5f053bdc44826b5a576f93fca146ec54b0832e5a34, 0x17f7e26833b86787be2f73061fe71cae4fedd4d14665f0143ef87b4e7062302d),
  (false, 0x3d832eaa873d9f478eb64fb92083240bac465716e4f36fc11745338c72ec824d, 0x232f7f1dccb1ac938bfedb5b6eafd18edb3a8cccf44a82a8d2b6894a93c29c70),
  (false, 0x222b30eef1b00c381a494188d08574c7d84aed2da355ea81de913ca56d5961a, 0x19fe3483a62d0cd2bdc9806166c551c689dec1670253e9dc3c864989ad3b8bb3),
  (false, 0x2c16260ca0bcb47d5d0046eb7bbd1567bd5d08f5114ee7ef2e40bdf167240283, 0x1487efdee991420a87252a49b7f5527807e3dc890f10c9cc0b3bc91b2a74f93),
  (false, 0x33e9dcf120c24622ba360feac26e425738a32950adf57924f15f440fd4c2c783, 0xed78d8b31e46a3ae31552ed7d976dac97211d1b1f26553dc86bdaf4b196a062),
  (false, 0x36e3bd976930975e9d8dca65900f0a8ea78a8f8a5851fbec653d6b56029b259d, 0x1f36f0a10da88c288b12645db29e908d9c344cc956b468d7fa8658fad007d3d0),
  (false, 0x3c3bd9f248d01baa9db39bbf0ad58bd8ac59bb810871f16d6aa614fc1bc3f573, 0x25fb492b06fdda3aa0c5f64d77442a5c4821a1f6c00d8597336a0008636392c7),
  (false, 0x3c0011a148417164bb83c267a558c8685adc6a2a4f67b2b3a9fcc75e693addab, 0x130308a9b15ee6e8b759c2d82672f420ccb4b5d2aa77894584194d008a03ccbf),
  (false, 0x2d2dcecd2730406d75e7ff76082a0dc2658cd4be719f77b7b642fc920e4a1ca8, 0x13046f62468331934038651c7cfc6a04772ceae2f09fc48fa2ee23475336cdf1),
  (false, 0x3606b19ce4a6215b11c5e29fd0d683ca33ee3a6d25e5caf24168906ff6ca034, 0xcb0207a27a112511d75d85930eed0a99d7cdc5ea0de6f76fc8040f62d6eae49),
  (false, 0x11c0f2690643d97542b97f31ac557835913ca4157671eb6460d7eb219dbbe31e, 0x18e3ea836658bd208c165d610108f0245bf4543bd9dd2e250c16dddcd5229438),
  (false, 0x14a81dcf604494d092fbc1aa750916e9fd073cdd0508b89d486c38cd248d744c, 0x26adf7d619a64a348674fe185d67335ce38fe2eb391e879dd2cec01714753bd9),
  (false, 0x1acd88030e9283f824e4515d4c168fb4f47084928c5a6e01a4b8b208b2af2554, 0x38ff87513be1c006081dfeb7ed033aed5ee05a2c46aed1f4434f43fcca513f97),
  (false, 0x1679d622da4bd5c079cfd3dc66d7118d5da5f9ebeedcc0b47417bc922c8396de, 0xc05260dd3bff678d47e4b85a3bf332d2efcfdef8f82e23e544d625678a28950),
  (false, 0x368f2593e2aee8af05a7025d40e3468ca751bb5cd4f219ee15a0bffeb2cd5c24, 0x290d00fbd8fbc339c022e0223eba67b4b1672275e8908367a96f7494e953a660),
  (false, 0x229d47a1b36f40ee556578ee2a38dd6567cecca7750cace9169608781f5938a7, 0x10e89d1240417341bdc071d2f95400f2e92553e6f8f1f2bd74aeca558c7ba920),
  (false, 0x27ae3d357c930bacae2197c929933ae4d9890a06b0dac59b0f0b45be5defce49, 0x183a68b2ff900376d2b6819b568cd3f452a3d6c42246d997d56656c415443e97),
  (false, 0x22889156c8a0bf7da943ba83af3912736f400eba6a95f4d7e144d5d407f39285, 0x129c0164df42298858943ef346c7183a63c4480a2f409b848f7529927025015b),
  (false, 0x7f9e6a2369bdd6ebddbf278c9f7bf402014adcc5f523ac9dfb93745eba1cb7a, 0x39750c5cc0bb9759c7f57f705e9c0568afa8abe390556b07a78526b81b8766e7),
  (false, 0xed40703b4e0777e5abd0652306ffdb4e6366573f5dfc82849db7958fcc8c683, 0x126e6066238d090cdde1e9bd971a5031a7a863c1e2d28e71a0437dd1ab5b2a02),
  (false, 0xa37446e9221a76f35af5bc2d739a7e019d6d040070a35e79844146106d136, 0xf8bcb408fa8126d8d5943141a251e30c0cd8973b3697f282e7871487c1f702),
  (false, 0x37021f9569117114b1158a354567cb6f8986ad2ac3ddab6b3ca91f5d0d848ed7, 0xbb833fcd0667662f585c0a9708cb54881b865e2fbcb72f78f23665cb10cc29c),
  (false, 0x195e520013c45c5184326d310e98881be3ac78cc4b7f693cda8b2d6e57b20cd8, 0x2900ba38e8db260f46f1e2dec2a4e5cda777021579cd6a2cbb4d2c2635a34f3a),
  (false, 0x32d85288189640521297336a9bfd38b0463a5c0cfd31ef2210df13223608867b, 0x3df4f3d77d9451ba416c9f977695920f7755947c781a3e91344d06016de87882),
  (false, 0x14be0da0ef96ff0b95f1ff334f73bc90bbfd2ed0aee0b5d9cf4dc081ded30a5, 0x2fb944d380edc953334f53b8afb1eb5821076c074880a94f12d8a5d8c6e2cf19),
  (false, 0xcdc255078d495f01be237500823686752a87f6d5bee0a9eed039d8fa341e98d, 0x4b2c30b403cf1cd47aa4a35831a0fb9c02f60a3a11eee2f3150335d8c84662b),
  (false, 0x3ff5e4b02220cacbe85794571f5f11e2aeac3edd39f6d4b8e7d2c582aedadf2, 0x1d0c0a8c28dbc972dcf24d870907201548906a1919f241cc9c5687abd9d98a16),
  (false, 0x2a1401cf4bf4688393fa49377d34f4d6021f5bed6150730f3cb0619cdb2262c7, 0x1dc7a32e03317b61b321921afb9c29ecd4a3e5696f1ec748affbe2ab1038a163),
  (false, 0x1cd4e7f22f028d462ff3b93665a81106d23b2058b2a2ea59f67b91335f72c97c, 0xef5e3cb2a6dbf4693f6e32c44b21f5dfd1fb77445affde81fa6b1904f54f7c7),
  (false, 0x3818ca67411946bae7a65359a6e551bdc7688a17e7a95ed40c2e287415a8a2ee, 0xd864a326113a1be486936acd165e89daaeb552ccac3e0db8819effe57c60873),
  (false, 0xe245707ea3315c68b9aa3764f5d53fb5e04108b17a623d77cef3f38dc73697f, 0x13b8d475a56ce831d5d15088c6eb01f82bf0296ded2127c080731f00d76caf3d),
  (false, 0x18331218993f55469d2b790ea086318cc6aab1817a91d3420f60677de11721d, 0x34f773d6e8d4141b9dfa93931879d4707a9034244b36ec4f2352a52f0dc66700),
  (false, 0xa9a84573427e3dadfb4f368fe872116bd26e24c3a7fead8da21335949095f6c, 0x15dca3087301864139a83fc818c3551a777ba5bbc66f58b36307f917eccdb466),
  (false, 0x862230201a6337fb2b92654c3e6c463a3f659701a874b8dfcc5034ae0cd32ad, 0x1b07ef6ed9331cf1f3b7eb6c335405ca402169357377ce45bc0605085b995211),
  (true, 0x1d521ac821aea0efd063d90204b9d4f6e78a86afa0f28e0e3c391d4a9175b9a1, 0x1271158698f65961bb5e958d361c7fffac6f24452f4b1f3c19134c35049b0e6a),
  (false, 0x3e8557f5f94ee4a2eae1405f9ddf19f03ccba5401711e3482b2ede0efc68a78f, 0x1f77d656060f657bb5c8937b51f8b991ea582b237e310829eccde5e7f87a0cda),
  (false, 0x24e589a86045dc0ddbdf8ed1f9fc52924c76c93becc5678d751a8b083ceec0d, 0xccfd26b0eeaad4d549bd1f3354848bf96c3e78f85a623de92da2999194bfd9),
  (false, 0x25687dfc4114951e75df10f79d38f90d218e4814d9deb6bb5ab887a82684ae28, 0x2c093e0ad39bc3248ba94989e60472a5791741ed155533db39cb94ebdcb8721c),
  (false, 0x102a966fd6befee01670d256f61c27de385a446d296abb81e999a50ee400fbeb, 0x3337ed58d72baf9d61e9e1e8e8819447085ce9874ca84dc3ab621faf2efe5190),
  (true, 0x1f16ac6de1c6b00a97ba42623d0622d68538b0e53a172e3a6b8ad924ac8e4a2b, 0x18f6ffa9a6e024243668d2250205a80feee6bab54465df353428482e2ea610a8),
  (false, 0x41d7fbc16cbe0da9aa2c023b73cb5d1f3aff72ea3d306f4e7d1b6e6a872643a, 0x477a5090cf5fa7ffbafc25529ebbcbdbbcbf32d68e273770738fdffc48f63e4),
  (false, 0x33b32ac78852afebac164d91fd999b11438782c1d17353b33d79df82445d8d56, 0x121e1388cebbbbf07a7575ad13ee7c8f1de355a08aab988433e8f9726729192b),
  (false, 0x3f4e66f4d966d694c084a2b23c8e36e9364de6d8bde583343c451ed7d6cb3211, 0xdcdb9d5a75fb9fc7d0e5b7dc0f16c6f6fe635e3671967d1aac6393b74c3fb10),
  (true, 0x7f64576543d436d8f25a6d596a20a6a671e1e96ba14b8059329a02a74214101, 0x2ba6d0be3863d58c009898315c0dcb2b58dd2a472d83a1f78939135f5550a8c6),
  (false, 0x3cb1116adeeb2bb7f44cf8e75b48eb1d78b338898d83c8a400b3d06280eab649, 0xf1ec1d45aab854695a6a1034a02dc9e4f7cda597f8a088c336910040b25fc3b),
  (false, 0x1a419848ed790949a740685bff02e9e60ad52fc2462394ab202daeb8617c8814, 0x38175ec1eaffb34ae1dddfe3cd79901b36b0e5fb23d84ac8b86fb5df33a25a4a),
  (false, 0x3ddc7126c1f15d02d2ec32a077f3f7679ddb41bb98893d1859185ab9c5fcb38, 0x10aabeecbc528cf5ae40e933f0aa48a778217d9b0e7af67441d19ff0eabfd54b),
  (false, 0x199c5999375eea3000c5e8f5b39a29ea2cb1893ccb6bc2809d559bf0577f4246, 0x107dd4e29d1dee6ee3c599edc4cada79e0d95863987111b185d0551e64913844),
  (true, 0x3b0b2155409a32518422a1d43a923bd31121d0ce9c51a30743dfa5ac78cd707b, 0x23f14822ff011e9bbe30ff46a5afb08a1fae0339e761601b95d78f546aeeeb8f),
  (false, 0x468d3f2f207a0ad064824f47bb2b134115924434aa5804dc72d4015d242457b, 0x18291009cd8f8d2d482e0f4790b540299087ff5111bd257b64a368b458054861),
  (true, 0xc9ce3d4e5248aa6b081332babdc62dbe8e80279f7d633c2234d019b3e40444a, 0x3acdadd2c8f2e558501125bcc08b395a4ed292eef43674978dcc4d9be3509d51),
  (false, 0xaff28c9a354f1d162517696dae865e26437b7f730fa9de401af6d4ba55905c7, 0x3599730583473c49795515e3d0b6a8222bba8487d62dbbc01ee57112d7044d40),
  (false, 0x23a5862d0a57355081c97a000d5d0aee3ab3e7f5d912d7acfd921f2a3025d80f, 0x1c616d09b44659a436e919c1d8ea0ea70ffc25983f89fde303ccd18060d0541e),
  (true, 0x3eb9370986772712103bbf01c4ca6fe757ef28fdeff47a5a64604a07b993272e, 0x2e143d5b3baceee9124d6b415626ee0d8cc819676d9f86cb92687696dee79b4b),
  (false, 0x6826eb10d0e7ceb6d4bfe1ca02efb2c61d14fa0bbaa9b4ad4ea8e06cb14f207, 0x369d500bd450276ace3c0fcd78f84810a7cd13374152cbcd5c74adaddf66a09c),
  (false, 0x35bbca28b5ec1039e3512e44eba892baf4cacfad5020f40f89d16292c141f88f, 0x1235b4fb8f9a3b5e1515d503963b51cf9c3cf54e7ea13b477eee3a8a13b17f4d),
  (false, 0x3323deaefb05df71d40660ce23737e63b0d1c97dacd6ef07e9144075e6281e66, 0xb2365e4988fc3a44a45047c45c83b58c3e2c237deeef7ef856aeb37843b9ac4),
  (true, 0xae5ee1e21a70243229a1032fd54931992fcaa87e2c6bee77180466eb551ed9e, 0x31294bcab91bbedb34f1b40236a6ecce596bafc6e82993ec8eabfa543f4c1ca8),
  (false, 0x175c3655653981710527834c0fcb675aacde9df6f0a387973a0efc154235981b, 0xf51212a3382b256e97ff0bf4735cb22127f68cd6a8da00f903a6ac24fce4cde),
  (true, 0x2c8d8cdc87ac169b394bc0f14c29eb485aa922f51e4109ffd6fe2ebafc936a04, 0x90bde72fa13d178d0b169b7688592a3d2938cdc2f9eabf5d0bd63df61363549),
  (false, 0x2173584898c0e737a242c517f2300d9fa7b54917958bf7976ce56864fa111e62, 0x2727bcce112a57853daf011da36752806d088dfd70e572b8635151f3b81c6732),
  (false, 0x142294a3a7601e99b1ec29140d3bbdc5e64ecf365a1c4abd06d73f11a7b03739, 0x356d645d55fa02bb41205a418027c4616779a72fa500655e910c08fea899338f),
  (false, 0x1de5c71088dc4f667b2a857197a8f0c8eceede11be7b2e62a74bb0f6c095bfa5, 0x2b916e6067df759dc446d16fff8271a4dcb67c1001c31cb2ccfa23c2bf6c4e82),
  (false, 0x1b23219b7361b2d1671bf71ae88c9af84642af1c229063d7224aaaa07f8cf3ad, 0x319c8c1404d5350647e29438a25007ee8baf506dfc66d861339b41f040f27d04),
  (true, 0x868ebba89d6e97ad4d205ec80d056f1f3c524415be4deb0d9a55438fe58b472, 0xc49013472de32274395c603322e85aa1d386a4b0e9adbf9d3ae5233094d61e5),
  (false, 0xf571235709dc4552570f111cfe56148b6d031cd634391c56c0cdc6f2a1551c5, 0x2ed791cd1f165c97b19e5747c10da7dd0f80249b68f1ea9b346f60cdaaa2c17b),
  (true, 0x1c0328ba4eac28403b69c94e9734467fd1a890588942748afa74a09e423efd36, 0x17b6d7ef8bc952b93b0e1a4f37e4f110107920053a4a1c68b9e90eae17e04af2),
  (false, 0x33be780de8abf6228f2ae83b73d617a1920d52fce33b876fb01a1f79044ff222, 0x128933e7dbeaba71997103a2cbaf62f4f7d2c36a5c2699a8f2571cb31470ab05),
  (true, 0x36b2649236d11ef199f71641aad595274e9ce339fd299f14ffe5b66f24cd5cc6, 0x2d38539c189d46245ce7deaa5f94f3822424a0a166e3c36582b8741702021f81),
  (false, 0x2458cbb8b03d21d8590325c366d8c24c34af742b083a8e3812eb5c6bcbc4e8d5, 0x19da6a7fa01020a25ddee5d9b908f6d49fb8c71237a190802fcc127265867c90),
  (true, 0x3b53d32ae158f8ba1112e9bea8063c95ce36f3b6e1902ac20b9f5aa1af00d8c9, 0x1ca4f5aec0d267765532aff32aa45217a05865903f2cba8df8c58c8c74919b0b),
  (false, 0xb1d0eba295d6f51398c76cd48395b12b2a39e0c99ec874a9a50ba965fc9bf1, 0x659581a951cd403c4aa32fc29f645889c8142f0efd790ca50a860a9d38bd5c0),
  (true, 0xe9e724be3045adfbc1795a5a1159cee2e7abbdb794347b2a7bd6d905de032d2, 0x3b282dd5c378409eec65478b3bea31843e81bb0c0127a84ddf3268308768beb1),
  (false, 0x2eb092d983b6e8473fdddccd422fb34f8e82fb873c3cc697e1c1c3c0c0bfe32b, 0x389a737bd18d8a68c08b0cd29f37cf7ff9d0a56c93df1377997b28173bc7bc1b),
  (true, 0x2000d775bc10c824d1ffb9e155f266bdbb3365d03d219f5ead539391d23c217e, 0x1d4a9db6d7333b77ef3c41ac8f9e66824d0b90d71ca627ddd0908c30380a1bcb),
  (false, 0xf68e2e7b117775c9ab4d6a23ef21c583a9ea4b0003204995f2b95b83e578fc3, 0x36dbd66dd5e18d88bcee7c21db2c8dfee65195fe379773f62323f7336d4e2d29),
  (false, 0x3d3b4bd9b614fe6a9b129813a184ddbf479206b5c56781d367a38182ac5a8d80, 0x1c0370bde00904e0c60746e4477e07fcca1d10e8f56cb17a1cd5381ef75b3b83),
  (false, 0x320c03fb1e021defc29adf4408b8ec3e14d6534da61ea6a80a95a258931b843a, 0x2bf976f84917ac34f71ec38b2aff396873c0774d3fc17ec0f670e4b1fca108f9),
  (false, 0x2256b3324630dece6b73d3bcacfaab68bfdafbe9ab3b44291b4a8828f45a4eeb, 0x26a75d15bce5c64faee8a255e2d4936f8c440c51bb3be08a91c214f7fee1833b),
  (false, 0x32cf7efc995cb70588cf2311260e5f151179e400f40f88d8f8a87ef59955897d, 0x3fa5d76e70f6aab371d23102e6ad91de68c9d7c0920651a0918834e11e41df9f),
  (false, 0x3df505ebbb8ac5197c71cd1566945e549af6cb43d3001e491262be1bcc5653c8, 0x12d61e75ec7285dc0c2d0a2a46493e18870163c9164f6a8dc58cdc8b7b7d5950),
  (false, 0x30764cd5d3e9bd003bc2b11d0c62e375752a52d899c09816dc8c0d0c6507d2f1, 0x30f456723bed63ae960fcc21991756dda535b1261c8ef1ec93c467c50ff91742),
  (true, 0x35624139694612cdec775864f8f174f18e5b02050ad995019f29c70b2d555601, 0x1ea9d6c6115fae92d9c2e1f1e902f3ae58c9947d6ecfd1596012ac5f4b49d0ad),
  (false, 0x1286f411eafa1089a04d4f97d9d4bc56ccce3f1edb6d947d07653ad81c1a28e2, 0x38dfd13288f6a41b00ecc9a108e23df2e015fe8a9c233815f9fadc9c302b5fb2),
  (false, 0x39d6f1004ece90cef7de11f738681f9e33985f22b05ada99763b29cf47e00edf, 0x3d0fec909213300a5db68ee0723fbfcad2a085c0ec9af480198ab827c0cb887),
  (false, 0x804c8bc0dbbf8fd5f28539d0a402154c664beeedc0760ac5559c09ea228fbd2, 0x5b5d1ab2405c5fd71dcbaa6ae02678a5ddb7a484b9fffba5bce195644859245),
  (true, 0xd62a62bd87a01e431d4576ef8d86512647c7816761556ea05696b6de883f09c, 0x328f0784185052aa83873170f070c545142b3d13c4c6585f8de93ba2b5c56839),
  (false, 0xd310d4e6a7246b177ca7948d0eaa6ffeb795271d1effc2c80f2367583c0d3f1, 0x3b5711fb9286f5b1ca1f2ed290124d6a824042dd82c1dd8d451ebe593c091adb),
  (false, 0x1d10a9e9b69b4f094eff1b7c84d572f5ee8682c7ab8a4897e5d6e0634139a365, 0x100f9c6fc57853258001224d3072cd0d27dd2b2306ae946372b039c4b59fd975),
  (true, 0x270f7a037bc0b9a98e0a13eb0a4fc425ac6ca73be59cf35c9b86fe437fb54642, 0x107a4ad397a4aa9a3407fbf13c9a1efb253bdb3eb74a518ba722377307bfd82b),
  (false, 0x1f0dcd5ec4bb35db4fae53330a9051c823706ca6f184b692dd244843f4ae4c, 0x10575215971b17a7172e3ab8dc80ef50768d5a0fdc83d6298da8299629af79fa),
  (false, 0x36dfe301582c11f32c94d38fc8a25da49ba1039512dff76e6871d41824807d0f, 0x1c2e1b28f69baceef39ca9587b3406a4e3aee9728c2a445962a41838bd962f37),
  (false, 0x10e9804a4685709a0b8e9f21ddac36e57b364ea28a77f24fc825182a70bfc31d, 0xab28770aa5136f7bf75c39ba3fdd4dbf90160dbdc8c51dd4891a7958d7d3802),
  (true, 0x18a789d72f51f7069adc1b95fe5dc27cce7bc9f0f13f0a63e24460c34020c08d, 0xfbaf63095a8c8b66c1746b135717d6010364d31e232400b31f0a128c126c93e),
  (false, 0x3001b95e7c7a2a91d9fc1a1d7e0ab72c71eeaf267a772790463aa0f7fc6ede2b, 0x1452fa38f11860b92c05d39a91d5d88752e7dd5c16eaf65bbc260560cb727361),
  (true, 0x13dd94475dd8ad1d4b1c95ae4bede7c012d98172124e9a7febb85c1981fc6154, 0x1d5a290774c3a161697c8da0e703dcf34494ac3cc0262bae66da2201c7edfbb5),
  (false, 0xaa8a5c5852fd3f61ffd1485dd382a6e6c66daef8ec83fc173c4826cb66e518, 0x207c42c6c3ddf31f6de16fc2c6c68d3c1144dad516914c41476b2a742c828b0b),
  (false, 0x29e912d10d7bf8c607eef7ad851a4b8ff3c84b48b0daca1326ee9ed1c360f636, 0xa4d89adb6ae74dffa72d934528c2be1873b5a5bfd820f5c4689962775f8d7fc),
  (false, 0x2d88028b0002501c11996ab5bd6f1c43486d102e7f7fb21a05b1679440a6d3a0, 0x24abcdf13418f343d79bc9e088a7209b74d0bd085febd02d1206da8631d43c7c),
  (true, 0x18793230af06ce2431fcd0f7559beab213f477bb3044ad4d9c486de9897c7ed9, 0x1ff261471196e2b43b6ad51d405437bf85bc20840c23f4326e7fda501b3cb269),
  (false, 0x3c723452d15d5b8afdd69e0ffcb17e102e0665767ce5346d2fccdcf163e1d572, 0x2b142172328017ba812faf81e274303f1d4b084a9c4b0157e705d4939c1089e8),
  (true, 0xa5e48334d095aff23aa268d50040459c9490d68fcb6635db9b539321fbf5e61, 0xd723a697b698fed25e295bc960f76d3cdff87b8f92f13324b97e5d14d8f0a9b),
  (false, 0x1e9cefa24dacfd64c86b937e050a2e0bef8cef6e443d01ea5fe84d1266204f71, 0x18a40bb7c4f461eb62f8b5b9c1a261a5e8dece88cac2900a25dfda4b237185),
  (true, 0x36ac393661d53ba314d37e867b913027b6e5d73d635f6475a7a6858d5f501e53, 0x36a9caff64420205c29e237c876279921e052998b0c91fed4aef78ead06a5ed8),
  (false, 0x20ba67a5e2f2e1d76f7b5880377ca748d2b4ac00f8ab4686330da648697f58dd, 0x3ac9f7858a2a31836fb8b649c1f32298913a4f3bd147b3a0171e58e090e736cb),
  (true, 0x3198e79d3fd1b679f3126ebd1cace57f2a0aac1bdbbe27afbe522b908cc3e173, 0x18d810b5941aa123dd2a349ac775eef49b213e3fddd23868a01f8deb8c9e16e5),
  (false, 0x248462f19d57bef997096ea12eb82e5b3ed92c72436754fa85d61977cec85432, 0x2a47b969b60bf87d6bd4e84f2ecffe2b53ffe8d95bb3cfa7ff2e6d50e7d50897),
  (true, 0x2af429c65b6703492f9eb9cfce5291d391286b5e6d5f3b32032bb2e5a0166b12, 0x83fb660436d8b45fa6f9255b41de414835389a0052e6abcdeec23e1d9470328),
  (false, 0x1ab2f3ce108b6799463e56f20edfc2c7a5db13b143d6971d99d9976ffa28e608, 0x2a1c37a2cf683db4d09ba1ee48b726445908ef2b2301e8c298c3f620dff6c829),
  (false, 0x216cf5d5a0de058490b17629dd33a6eb146db2062f098be290227dc1563c35f9, 0x1b701673dcb112001718139016293fd7a628fe672201193b6420b29d7b076733),
  (false, 0x3e76a159e42c24314281597831257b7c0ebd733bcb1102f727b6d4791e380fbe, 0x1b2827128b0568183ed4f5ffa5bfffe232e20cf543c662094b415f76f5c47383),
  (true, 0x32d7bece4990724db78c9339ad3c75a818881106b2570fc733857125d9ae78e8, 0x1f05ae5c6de001a05bc8e9d3ee78c4de9172ffc96d7c12356781e9010ae48096),
  (false, 0x496911537d69b92f68b1717b60e01265a6452401a0acd4a71fc07774edbbbbc, 0xacd7ec9f1d53fb1e21db65db4fea1a0196217053bf275eb28e5f23fc89359c),
  (false, 0x160291c0d21203fb4b45fd2b49489823a774e6da8227850ae4662370e3fe2224, 0x1f487054e1a33a0f87d89640bf4d2106e6ee04f15a4a30aa76d20bbd1c47ac2),
  (false, 0xc62c8bd38809300ce982c0cac232d94c161fd3f0a995b82529fa96994194933, 0x131812de5988c5f375e32538c54472aa5092e36dc447644c5498abd968692bab),
  (false, 0x3dfc439cd0d1201bea3efad976c12f524d8bb3e13eeafc3e34d7843aa4b7967b, 0x14bb810448ca9553706d5b0526ef3e82339bcf167d906aae0134e7e3dc62693a),
  (true, 0x2f87b7582628e62cd7a19df472f075607842d1a10646f44e43d4bc1526340e1f, 0x1740ba4dde8b5bdcad69fc4c2070f43a619e39292d3172fa3cc798a9c8a79925),
  (false, 0x25c1921987c93fb5852f7e0dc6d8f6cb07b75bcbd225de33cbd30a04222b1184, 0x1792ec831c5cab8953b033e7acd04ffc8e1fb1471baec825cf301a9c20ab43a7),
  (true, 0x2602a540ab5b843b498fc9accadae2627fe62776251c38334d7d61bf29d4448b, 0x2439b2244fff84d1747de1acede12cc83dee54b2649579b7cc45866d47380d36),
  (false, 0x33295456ca0f17ca5fca40eab3ddc6a6edbd7ee35ab233b55e412a51660482fb, 0x349ec9cac4a31232540d6927363554bc9e7c5ef330a638b503711299ce8680a6),
  (false, 0x3d1a6724a8c5c17005a569a782b5d106242227446a5f8f54c83f6fea0f4191d5, 0x1a58a57f65d7e4db3b834d513e14b5ef4a6f40fbe3e4f29397b3a5e5fbf2e4fb),
  (true, 0x3bf9fdb0e4040e7607726fe164073d61fcb08a68c17d252dcc74c3072de62d22, 0x3fe74e50c9a3a5c7d57017241455a9cdd1d5f8d6ff6be18919f2d9b4f625c920),
  (false, 0x23676e33934b3ad21d64d267ec2155b7cd1e8ef379310b08b7fce4635b48d712, 0xde996e9548fa53e8648d51818c51ceef1301823151f731b81bba211e031a6fe),
  (true, 0xb1fc692e223bbf0e551ed006e3d069bfe78216d87712e0d7186c0d0215f26d8, 0x34bc3033f1ca42fff84e70d4202143a07729db68059916efa2d44366ccd0ffe9),
  (false, 0x315e0ba6955127b8b068ea250547b97a7245d61c5a2af6269281b5bf00e46979, 0xfacc27f15839257124de142f046cea27624f1dcc9a0e21b7e5271ff9681e130),
  (true, 0x275f23d20b06c1daf27553cf790b754f8c2717fafb0afcacfe851f1b2ab44159, 0x37722bf0251e8f75469d5f96e4825e81530cbe3f8f3c7b19753bb227cf3e15f5),
  (false, 0x3222b8bfc2c2213f03b1eafcc87a17214e430ed01665c1d325672e90ff009f63, 0x37d99b04b1426c7246816154eb712163b55fccb0924b26f42ad261524fcbede5),
  (false, 0x36c8a74a1d7fd4785c3e1d0dc9aaaf03b10e354c9aaf07dcfeea15a0f467d1bd, 0x1efcaf55d2ec3873173a0dec9d6546b35553efd2550f206b6d86fca9309eb967),
  (false, 0x1d7912f971f7ce7d0425961a1336ef583b9c103cd3e4fd496c4eb2ec75447bf5, 0x3efa4ea03c82c253538325f0a9475804325b41db623dd52073f278e909185f82),
  (true, 0x3f6bd9d9afabfceb9a8eb6a91616e237f47ed19ff7e8b0e41788146b77a7e7ff, 0x144f898d8550431d45c373a08f213ea08443e3f6f529f7108ead64465a705c1d),
  (false, 0x13e0ef3cb16dc4aaf2986c1286560b60d855ec8d88059968f37c0a271836781, 0x297621d1c6f992df30892db82b307ed2d2f071f25de9b4eca4222649d8764ac0),
  (true, 0x11b3aaae9f17ec9c40a8f6e9d2dfa927f94cc0e892ecd3698f4d26acc50385cc, 0x22643a5ad5de76d8ae7b9f8fcca165b04f5200760f5283e125b30cc322671196),
  (false, 0x3785f29ab6811f7cd03a6a483c3cbd7cc3649981585a78724b786627d4ebbdbd, 0x23ec9a54b0d2660c9c6801dcee2c4230c9404fb14acdb8cce469f6241b532233),
  (false, 0x2e8b81393e7b8db676a6a66bfe2fdf78cc3129e102ba94c6e9f941050bfca72f, 0x249c800cc41d970b98f7abe3061f551fc165aceba8ac10e2e6c9bfda27bb658d),
  (false, 0x2590de97b130ff4ffeb2006c8b77bae4654a85df51208b2ff72c7a547758c3c3, 0x5d444f9e596d0d2c3fcf6de0fd5a9a707fcc9218ed98ecf90f187cf79f5e26f),
  (true, 0x510bdde389916fc166bab053a8b871ef52752949b9dbc3522f14a0e4bcd635f, 0x211668093ad21770bed27fbc2fda0bab322d8b4a888debac4d915651714f606),
  (false, 0x71d1f3b0ecb3f8dac1d1cad019e5e7fec3c030270f1341b07b0a37772f5f29e, 0x2cd72595f325c0644c15bb43db48c41784e12a728c1c4c28437af7dc602ceb9a),
  (false, 0x2a8f2000c0a5c74a6fb8af219cad644be264d90b61988df880a3a67bd8461765, 0x186158ea2f7c944264527e0b984822feac898beac1f2822c57401666859e013c),
  (false, 0x374274c813d6e6d9d84b6d64399852ffdbff75ca823be974609a434496352f81, 0x316b49fde5e702ff434328961f3803afa6eb00bad122750b928dd4094b3317ba),
  (true, 0x1964da0ebc416c0f88a7f03c4f3c42c8528dcf8fcf46b6a7cde8e3d72f7daa25, 0x2f745605a1d46f80aae15c2d9d9b9705f9a3d31e4f9c68d4d0e57f2404e55155),
  (false, 0xdb39bc73985e8f22ba8b779314709d99af37b1820ac31f084e008324e8368c0, 0x2b9d93a7eee92c243b9a8495d3b35de5a12ba28d4030e7995e4ebafbe8dee816),
  (false, 0x3daeb53c31e13b48cd95214419a33f78ac6eb54bf933d01c8a0ee24309918df0, 0x4bb1d9f3a0c790c5bebac3dfe6b08e671c14060ed20df16a81fd5a850ebda34),
  (true, 0x1f809b7144f20c21bd8d3061c88fd135a0f2321d7c3e543b94cbce1e4b818778, 0x351860c12f320f05e92e63fc854a7e800b6233f609858fc6aff3a3ef77149886),
  (false, 0x29f7710ecbdc383cddc818b31caad06a9e9a0f55b4028048aef1d5d6a6417a1e, 0x21e0bf633ea2c5e1df88cfa91ab4bebf6bebc626d8539e90e25f82c9dbc8e709),
  (true, 0x2377edf3672b9df273a58cd57c20a2a974cd03cf4a6492338f8bddbd5312f542, 0x296eb30704e0cc4bf9fd4c1d7feb3d431a5a4bcbe6499d195ace6f2fc4bce67c),
  (false, 0x7257368dc1732907b41bc42deac344ba3c9e2a912a9395437dd7c18115665d0, 0x23399eb28df8311d322c027473392ccbfb333ac4d6c3806f475704032d900a2a),
  (false, 0x10b6e5c435ce9ddeb2b25c7096e10582d0b32f9f1cb234aee10d598107d257a2, 0xfcc3bd33209c5c5b263243d1f824d68b9df3fb61816265fc1eca29b65f864e5),
  (true, 0x67d465414bfe4be13ca2e3f69eec224a6a44be046b88d210a9b1d050b096466, 0x10368f756bfbf5150092d4ff6af2b70ce7ca9bbbae0883f1fa263d105bb9c258),
  (false, 0x1d05fd8e3a734bc045cce6fb18aac97d050baf2d1825fd050f377c5fa719cbbc, 0x2147b8c8857254b791b28b6d9107453e3417dd727e0e9ee2c9a1d34868f97bf8),
  (false, 0x3f74e063e6bf023f51c08fb4087397c08916fae4a47e25a187908cfe65ecb1a6, 0x28880609e83bce9ca0026e06727d9b595fcef65862af5622c14e36fa86b72210),
  (false, 0xfb31378df41d1b7fdeb560aae8e89de9e9dbd85ff88e3ce1b52667be1468f37, 0x2ad20692ceb6347f511bbf0994dee9c30212ff6a6a726451195f872edc11dcb0),
  (true, 0x348416fad78195e3a87cb71d228ed7fe4c09020f2902e278bf59be7bee56d533, 0x18354977e8d927d24842aed74541f26a0aa8dcfb101f27e518ffdfd01cc6764),
  (false, 0x332e46e28ec2e250815f887e41d3d17654605f43c2cae5e68021e0e54352c06a, 0x19e20a7bbcbbdf23afac32797cc5abc9a49d6287f69dc9672108045c78f7a56b),
  (true, 0x3fa6d01d5abb620d893f6d674663422a7378b2660494cd86666dbc270bcb3bed, 0x17c03cb2e15d78476c2d9df7c0cb9be83950d9a96ecd189b7671c06123a82649),
  (false, 0x1b4695a0a24733d14b7f85b9bcd82a854f976f57624e59d59fc9ebf7861d725e, 0x15d790590488a92762918a48e393d31426e7be2c96ce86fcdff6ce111b7c7745),
  (false, 0x3f008b9351882e38762cfce2f57b7fc022bcecad7bb37bc69046cdfc00b47925, 0x1170e2c6cce38579a6f2f36bc2c2a572490073605cf3014725746cf0a62ac1ea),
  (false, 0x2f88dd4917c4a5394bc8e5238a3bbedbaf94db409893cc5b395cc68891d10ef9, 0x111b673e9b656aa2f5a7b0be611113c48211e2972cdde093225ded10fd937a89),
  (false, 0x168c9c7effdb0fe493ad4f82748cf30adb28b350c396fecc992bde032c87c51c, 0x1a250dda8add0a8dcb01ff11ebfaa58e92a494a29538f80203241004e818ef45),
  (false, 0x31a3d77bc76d4f185ddaeb99224e24ea165d6c0c5d8d514ea5004adeb229bd47, 0x31e72466e8c8d4fcfb8e9aa7ebdfb30c38a7eea456702cb97de5be1d11b2cce1),
  (true, 0x2077fc7287a4f7b0bf461706747034f1528fb12d88377d055add221581b84ac3, 0x111606715f032c2b7999a5915ba914e1a5bc7ef054c589ae759fc3964d105e85),
  (false, 0x9c82434d071322cb0646e20d248a4ec373cab51e1279c386c4dc531835bf897, 0x167340a6d269a94fba0e986098da3ad4b7ab992e26b98b952b9a540ae9e91992),
  (true, 0x1d44b47821079294ed465d57d5b398f36bee8a098b96bc151716b3b02da1595d, 0x11177ae963cdf78c45a97230aaef50d852734a089ce24ed20a06d1e7527b8591),
  (false, 0x2ee67eef658d684a97d7f4052c85c7a0f621cf60a8e8e22b95401831920a7f75, 0x35f297a78502dd706fd6783539ff513d27e4d1fd8cd11b266e1e6da28d939472),
  (true, 0xa20329df589a39726e1e597ae71edae13eaa67f72d91c4fb680775960c59712, 0x1e7207da7f784f04b1c72eacf80902ff88f3eff503b35d88cd3ce763d0e4bad),
  (false, 0x364d22f6f00723f1388a4b50da18edc38edf7d7502372affba63240cc0c35a57, 0x194220a3aa50412452e3275b09f09430bf0743d467519e7fc1abcec2cc49a021),
  (false, 0x18bf5a1c6daad2f8ff9c943e8830bb03a178a62c2efda668abbab6917cccf73a, 0x306325c1d97514140a075207792aa1234f17753940418ae95040513dc36ce502),
  (true, 0x272b7fd61e0e8e688895b750a6f9565f2079656124c696878433d238b43ff30c, 0x3186c557c62efd677b320061fcc6fec7058d9deb79af7432e1d0665d20cf8b0c),
  (false, 0x417c7e06bc934450b228656242bcaa08b7cfdf3f81270d8e3bb89b197864f5, 0x2f2bef193fd6d0320f888f625f3176f9b73b372621c49822c35fe29c9ce1282),
  (true, 0x20274bda8be05aa7aab95e5b43af472d40705d626da210e2c1c6e1f07979334c, 0x30a956eadf856666474817d4e633c2f4785e832431afb1f07cd2b9c698e6a51a),
  (false, 0x4240f3bcf91864ff0c2c560cfc2fbc010e20bf0fcebacc82392e086e76ebb29, 0x34eb71a12e4bc74fd6ab3bfd9f5001fb12eea21cb96057e0234ee99e71dfce87),
  (false, 0x19c77e1c6510c0a23d93628c51e2df334354e8916fd601e78caf2a244416c761, 0x3c3191f8266bb7e952d42f3a1864e2d5a95a48f4ae7e1c5442ab9153a2dc93fb),
  (true, 0x3f445f97a91894a694a3077e1c586ab69ffeb0886e0e5cdea7e7505fe35c4b83, 0x163dc07b2608d9b5c81fd33ffec1db1849537ddb58b5471dff9e9a2e231881cd),
  (false, 0x40985faaa45dff34f485c038d91389f250fa0a8569f58df4f9feefa516f35ae, 0x1c8a90db67ec5496aafa43b36c0dc18a06e70b8155427fd31c3f94c3fe516e60),
  (false, 0x325865e12ffe3fbfa235d0233ce05aedc75d500db39098e2b903bf6db18ea875, 0x3d40fa7e4182baed8ba4b3edef5ad5376f2307fa847d15c1fead5c6be82c6368),
  (false, 0x1934ecd865ccab89d9d2070a516b4cb35bb1ed370ccc3c1f004899198d0cdd7d, 0x10912798754306c73d77b9a91f79063410f7771367eb74ddf1e7382a51b87b26),
  (false, 0x2988ffc14321d795eba10a62fe9ba3facaf911787593bfb06557b35eef63696f, 0x210550675e3d7471484946c5f1866fa4fdc59a80a515b79362e7a74010fc943d),
  (false, 0xdd1739ee3f1cb5fe2537f7369d09dd5cefdd2502107b68c27a39c99734e0464, 0x3c89b086ccc6d8e84d51a469ead4ab2172a3c89cd726e5e58e0cf3e1cc28cade),
  (false, 0x27b08647b0667fa1d00e048ed369855d657e37772024b0752437e69fdd7ca680, 0x16f8015af327b037f9fcbd2f977822f542baff12b4cd9d28be9bebb8e721a903),
  (false, 0x2786ea278dc98813e1c0b54351750a1b31e6f1bd0407b1eda59d7a73abe6ea84, 0x494b8720db5f3bfb26da073967e6eb30ed340d885aebe685319eeb571be6401),
  (false, 0x1df84df60b1c3b45ddda2ad0ce13de8c41d3f3fb3854de55c4bfcef2b57b76c2, 0x37b180e7607b367eb58303512baa4108f54487462ed037874732515c08b58daa),
  (false, 0x1b565c0e90e31597ecd4c16f00871ff9a64ad23514096d5c3c7fd05da656c06f, 0x35bb50a250cc70e9ca4697677515ab08bbebf9d8a3a3fe7f06ab082333ac468b),
  (false, 0x1e0460fe5a5c2015692efbeb98b46ec1a2f7e3e15a36a01109352639350744b5, 0x1f5a886d39946ce570c396790426e7db3febe60eeeaeaf21991fa8de5029f290),
  (false, 0x2a0bebc249958c8200e0feb5a97037315000710bd20ca1a5ef773dc6ce4ccbfe, 0x13534d4435b6d238c431334f7d7b0b5cf9fe0ca84c0360742cb380f24a3b6dd3),
  (false, 0x2f0efa2f837bd5df0e7249ff1011463ec8cc5057d212d4dbdcefee7414a7653d, 0x667c1502b25c44026f80c6bef18d3188374068acc7ed8614aec07e6c6a215e0),
  (false, 0x385e5656d76bd81cc64b74f20964ddbbebb93517205d3e713298487d5bc47c16, 0x3b0520b32de4a9f19bdf77e13342d33b2bd4ac88534666bcf71c6385d8a6aa24),
  (false, 0x9c4b9cfdfd9b6701ec0f2eda4c442ce16582d92aec86ce67b77e6bddaa83f46, 0x2beab71343d5f76af6b89e3ac3065e993e493483797faeba61be444afaf07b4a),
  (false, 0x3ad35d7c3115efa30c04a8935ac20586649d13874bfbe3c1f4de91a12e594d9b, 0xb3617261d9cfb6c6d6bebf09dddf6720f3915346ae5825f1962e681a5fe0e70),
  (false, 0x1f7cd4a8ef1deadfaf5c7a4c299022591a542a21dfff164277bfc0b66f1e2aab, 0x3444c950e2246c53a4b080a7e45a8cebb43e004f11bc749830384d77171250af),
  (false, 0x115c7065f30e5b5aaaa99df1fb633d15c2ff6dca93faae3876b3853a2a1a085f, 0x23b2a8421da427754dc14bd2a701439fd05fe03f618d1f91c5c9fb9cf9d09278),
  (false, 0xabfc05d717bd219809845565bd8321b888b4091efd8d9915b80da73083002d8, 0x1948f30125891a95eb7b25870a8f4cd7b7b5267e4a05e294016f39d893dd33b1),
  (false, 0xecb5c7131faa9b906f4454e0d21515b95e4957d286bef04052e89abb6bf3307, 0x18a507ffaf9f341e2022d032c5f6c9b6f71d499598820c2f622a2dd17947ae0b),
  (false, 0x3a2764460099d60f7ce147e2a3db52b916e1768130b413cf05a26e98e1ef050e, 0x2a912ac2b620916fd5694f5a5612d516aaf20b1ba7b26d63528faf0f905e52bb),
  (false, 0x1ad1a28d86be3ffcaa8c3a23b03ea6c0f6ba0d800b6fdd1e3468c8447f12d1de, 0x145c5dd2ba5f0edf10122a0c677f42baf501e8b9b57d2242621265eb181ad430),
  (false, 0x35bd3c5d84d36bd2834f9276614e029fa5d6777ea7408f73d1491c1adefc3ff7, 0x29b35465452a33127aebcd92580b3f8538a795c6350ecc016dec6db2a697275),
  (false, 0x3b59c3219125fbc4f80c391376d172d4e088b5532e80326486a3cc8ac771aca, 0x3f582262a8316b8a6322b9e88b42ae9be9270218bba1bea9c24576ffff3e1ba9),
  (false, 0x27eb6c30fef1875d79757772da57a04cd1587578553730b7f2403d19e5b2e8d6, 0x2f5a33ad4a8a11de8dd8a820dbcc5c1f77a8dd1659c33d6d8aaedaa68189f99f),
  (false, 0x9e7663bdd1f9d0bbe7fc317a7e2be8182b2c80cb32efa786df72f8adca3132d, 0x2ffd6799447e5c159997737521c219da16024589b5371476f7942a9f73f03c2e),
  (false, 0x2407e86316d246d239be6e1fe61b5007282e2669d530e183220c79e8ffdf03e9, 0x380f08d1550f0472f6278e1a08c4a0f6e69be8bfbb4f4ea416bb56f642dc7fdb),
  (false, 0x321f06e434c83733da861903bf21e4ad16121b81fb5bf94c17651418b136bf7c, 0x143f97f3754e35a56344edc8b741a4deb1c1138251861c1eee4460751213e610),
  (false, 0x19fbad46b33a449c4065c27d9acd86bea4bb54eb654b998e1c5e6657217c90af, 0x2922c74e5b20905a8107a04db0e5fbd787f6a58f1d811b403aaa70f3fc79b13c),
  (false, 0xdc1a651a32934c8da1c03baf3bf812aa222aac583a33f0ff14dee7f69781400, 0x2b3a3b556695a1c9ae7c579d8834f14e34df0eb658d2a94ca0b61227a0b5aca9),
  (false, 0x1915a08d9e29fbcd47c0b89b7d53c6ce4a7dd2ff9ddad83951ca72e01ac79e1a, 0x2d2332ee66d7e7e3dcada1cf068ea4daeeec2d7e560f347b85d47c418c13a8d6),
  (false, 0x27855ad5b23eb036f84fa0cc8fc9ffcbcdbe894f14c1bfb6b7df5b85a62e2cfb, 0x374f5576a6c9724f3574ede136d59f549f5cb835b7497d3631f46767c566e7bf),
  (false, 0x40000000000000000000000000000000224698fc0994a8dd8c46eb2100000000, 0x40000000000000000000000000000000224698fc0994a8dd8c46eb20ffffffff)]

theorem vestaChain_ok : chainOk pallasOrder (pallasOrder - 1) 2 (pallasOrder - 1) 2 vestaChain = true := by decide +kernel

theorem vestaChain_scalar : chainScalar 1 vestaChain + 1 = vestaOrder := by decide +kernel

theorem vestaChain_end : chainEnd (pallasOrder - 1, 2) vestaChain = (pallasOrder - 1, pallasOrder - 2) := by decide +kernel

end CT
