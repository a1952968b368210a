import Verif.Proofs.PrimeCurve
import Verif.Spec.Secp

/-!
# Chains of multiples of the generators of secp256k1 and secq256k1

Generated: double-and-add from the generator to its negation. The chains are checked below by the kernel.
-/

namespace CT

/-- The multiples of the generator of secp256k1 on the way to minus the generator. -/
def secpChain : List (Bool × Nat × Nat) := [
  (false, 0xc6047f9441ed7d6d3045406e95c07cd85c778e4b8cef3ca7abac09b95c709ee5, 0x1ae168fea63dc339a3c58419466ceaeef7f632653266d0e1236431a950cfe52a),
  (true, 0xf9308a019258c31049344f85f89d5229b531c845836f99b08601f113bce036f9, 0x388f7b0f632de8140fe337e62a37f3566500a99934c2231b6cb9fd7584b8e672),
  (false, 0xfff97bd5755eeea420453a14355235d382f6472f8568a18b2f057a1460297556, 0xae12777aacfbb620f3be96017f45c560de80f0f6518fe4a03c870c36b075f297),
  (true, 0x5cbdf0646e5db4eaa398f365f2ea7a0e3d419b7e0330e39ce92bddedcac4f9bc, 0x6aebca40ba255960a3178d6d861a54dba813d0b813fde7b5a5082628087264da),
  (false, 0x499fdf9e895e719cfd64e67f07d38e3226aa7b63678949e6e49b241a60e823e4, 0xcac2f6c4b54e855190f044e4a7b3d464464279c27a3f95bcc65f40d403a13f5b),
  (true, 0xd7924d4f7d43ea965a465ae3095ff41131e5946f3c85f79e44adbcf8e27e080e, 0x581e2872a86c72a683842ec228cc6defea40af2bd896d3a5c504dc9ff6a26b58),
  (false, 0x6d2b085e9e382ed10b69fc311a03f8641ccfff21574de0927513a49d9a688a00, 0xacb82eb93309ad1cc739ddfa33604a83776238aa0bd5ff248dbac47a17f388fb),
  (true, 0x6a245bf6dc698504c89a20cfded60853152b695336c28063b61c65cbd269e6b4, 0xe022cf42c2bd4a708b3f5126f16a24ad8b33ba48d0423b6efd5e6348100d8a82),
  (false, 0x108443b948d1553584a271333f7fbd043c4d66a91706edecbf07f6894c04f299, 0x4e7b5daba34fbcf9f055520d4db8c49fd60282d32adfca555b04403db9581a9f),
  (true, 0xe3e6bd1071a1e96aff57859c82d570f0330800661d1c952f9fe2694691d9b9e8, 0x59c9e0bba394e76f40c0aa58379a3cb6a5a2283993e90c4167002af4920e37f5),
  (false, 0x6df7b5a7a126a6112e1e0ba01ad1a0f89f055dd3c1c7e5336938ad32c494b319, 0x9e2599b420982535b290cf45325af0b4a81efa6b414a583eeb09520a981fdf32),
  (true, 0x841d6063a586fa475a724604da03bc5b92a2e0d2e0a36acfe4c73a5514742881, 0x73867f59c0659e81904f9a1c7543698e62562d6744c169ce7a36de01a8d6154),
  (false, 0x5654834268843e72c300e97d5188fca2ed04459e09ca4351475a62c4bc8ade53, 0x1b33a3362bc0738019cf1c838c69253cc6ddcc39676e2ea169394d2089481e75),
  (true, 0x1b38903a43f7f114ed4500b4eac7083fdefece1cf29c63528d563446f972c180, 0x4036edc931a60ae889353f77fd53de4a2708b26b6f5da72ad3394119daf408f9),
  (false, 0x6e8f70652c33ef0b8c69d32b0c8528d9325e6d15b0827d6fa4e269ab79ad5a63, 0x29c04770e713f5948732b9fd07acb6f2a2eee650ae28544fdde57f00e50f833),
  (true, 0x8ec4fdc39891f6af1374e06f0c44b81501b8254175fc4909acba5941201af62b, 0x2dc6cae5cac2d88783dca0e503c798f8fe067bcf5fc2975113756cf7ef4e5f1b),
  (false, 0xbd617ee5b1191fb3f8e5220d81dd1a513530f2d521c51be83acb903eddc804d2, 0x79b1cf66ee7d7f70353c9ba3275d80d35835ac4c5526806a22ddf79f64633a62),
  (true, 0xc7a363246aeb7c8c991b2aa710abdf5cfff2991230b3a69fbe2dd4817c7c3e0a, 0x1298fdd70e448d2d799863026b4b2d4902b32148d6d1e5f815f5b0c005c9e21f),
  (false, 0x60720c8ae444f84a46c48a5d3f93deac72ecf016e687ff4ccdf6550c672874d6, 0x20b8a17687e7fa481ce712d8a4e512aac181fb35efb33e52d39a287d13f0bbc5),
  (true, 0x7aa4afbe29b06a1eda9319d572572b131df68f741b5f8d8ed00ccc0480f8016e, 0x15f79a9fb77b85877f02e3c13202b972423fd00d937c0d2dc9d94b1753fe7130),
  (false, 0x43745cf4237fe538de5a22f63dd71da51ea0ca94e772626b340d93821c0010af, 0xc1a07dcf71d0a1e98f500ee8e102fcbe55cfb45fbb347f5419085383d316b501),
  (true, 0x9c2198986d202467c055c7347355750506105b3e2874dbf28f7f0c3966e1af88, 0x8637496c8eddff12f9dd414636565e0fefddf5cd52d484550ec9fb2d8dd0914a),
  (false, 0x3642d44d253126fa9fa636e2a0b4a88e5119e9729eb515ee1d276a317cfa9132, 0x524a719c3ba68740cd2903e81134a26644021136f6bc5234fe213240c16ec603),
  (true, 0x5cf51c1b02210d859d765e17321095148f03fc5751004b6a91f098e2e2711596, 0x1eeb19e0610df4592c31e58eaa2a2148017fe9eea3995838f395bdcf26d5c3b3),
  (false, 0x5a595109f75ab4ea4a0113acd1cd418e6d7534d622c61ca20dfd5137f672817, 0x8e9e53a77729af6ac2d00d7d173ab5de2d61d4c07dd1e6f8bc23543b8d85eb59),
  (true, 0x1e70619c381a6adce5d925e0c9c74f973c02ff64ff2662d734efc485d2bce895, 0xc923f771f543ffed42935c288474aaaf80a46ad43c579ce0bb5e663d668b24b3),
  (false, 0x8a0281df5d09867ffeb0ed06e39fd53b739ec9daed30788cef9513d86c7707cf, 0x98802f8e011886313ec17def1b07c6658e0516878a4ba97b43d4280afc9b77fb),
  (true, 0x5540d643f215291adb3859d432cfa15b0a7c3d1040acace7e7a62775dc58c0e5, 0x18f8b0dbd91ed136b17d5ef54e2033aed5241c525a0a1e7793ba65e2ec003855),
  (false, 0xbbf22fbd5853b6ff02c5f12f2b65e547f22abb11919fdf0231bd229575e7a91b, 0x557174490b32f97047e7a4f448507f94d1ef81ea649b9cc6f06446cc91a40d2b),
  (true, 0xdc27130a5e29d465f8ed0ec8c9032add3165def4a19421a6aa709b47acf7efd0, 0xfca03dd32057fc6ea0e41c0934b26aaeabff1997e407be325b855796dd8b1300),
  (false, 0x508de24cc26d8e981f01916d499506c724a44b03f3e10dedf65c50ecea317383, 0x1318692da5f769b0d263b0a8abfeb7c0e3160967507227bb6b9d0adf23dfe856),
  (true, 0xc021ac993e1e035fa0c3771ba82aea2cd5ea322a1b83c1f6f498c288a497dd89, 0x7a74eec7267add18c1efc0053ef0d3333f201291d2864f6b119b564dae1d3f7c),
  (false, 0x6cba95daf38dd2b0b3499ea9fc9057abf82851d831baf93974a03789df998b8f, 0x80c80c11d0ffea76fb9d0dcdffbf449cc3fccf0b9b3718e827000bdc0aaee86),
  (true, 0xfcda2fabd363ace8ec666d14906031294e67ad81197aa72f91e48ef052e9b5bf, 0x85f41abf428271ef2cf3296d27db9bc551b8ccf8fa35198b5877d32ef0227457),
  (false, 0x8266dd91d610c409921f841681fcaf288e285cd98d870536e998ed2919e7cc93, 0x76b2af36dd9810af3224f17b39eed372e35c9c6274f0791575a838b00317ea04),
  (true, 0x25108e238c7d7c5d6e6ce302f4468616688d220814897a16d4cf21b09078de4c, 0x9eebb63da852dd4ee931bac47a279fd6414b00247efd21a1d3597758876c220),
  (false, 0x5bfab6d6df5e6db47f633948988f7506a21d16bf63e94bcb59c08b32833cd127, 0xa8ef69ab9022a008b83a78bda88b7b2a3dce45956a72d4978a25c702abbad7cf),
  (true, 0xe5f2018d37069e0eab27c2f881a447e668dfa363377edb831b8743db5d65be1c, 0x338e5d9c9cb6e864d0f73fc0165fd3e1723c81a30bfb0ea08f5465fe8f111e),
  (false, 0x135ad831018b303767636043ccfa77a70196aee2322b0a05dffc7aab4f8a7d80, 0x681c91c4fa55564902381237cddd8f18c912daae53252d012fb7854599066e85),
  (true, 0xf0c6e83245bae397eb9498c3a4ab388e7331ade82e6761e4d5d4ba4e395c01dd, 0x359eefffdc59e2dcc9b155e9e50709cadc9b230e4e9883a7bb5601d714b94c76),
  (false, 0x42aae5a0e349e94d497d4529a1c945d06619daeb9adfa88750c95e1c8e8e46fa, 0x8b297558995d98bce4ee6f60567d1676d87aa83e42c863d570db999bad5b346c),
  (true, 0xf6d5940515d0b09c4d49e8cbe8de8ddf9a3cf28575aef627a387ee5263988b34, 0x2439d22dd63fda6e0781dd9e17f699e5708ce35384d796e2d943d1a753b43907),
  (false, 0x45685b52a932ee1f2638b9ea3b075f8be2ecd902e14bb7eb1ff0c24c22bbcc5, 0x98d0f44c8eaf53abd826c20ce8034d4d867daea7e0b6990f980a6d6d4ebec0d3),
  (true, 0x1760cdcc44158e6690cb190b1f3c3f349db9c5d9b572a8349f4eb90829d38ca0, 0xd2bc98f630b636e52c0d2bc53474e79e2f7953db25bcd79620c038f953f69fa9),
  (false, 0x9b89442a982351d113eb312db1700123347bbc098a0e887c0cbc9378021115e0, 0x1063e9384c94adcf5704fb94a9025b2e1fc194e40d7ea1c958ad2a1e33579b1),
  (true, 0xa4243001579d4316161e54e46080e5d8c7b2be1396f30e930d7054971eb2b9e5, 0xf3c4854ff5a4738f2016bacfc57f2d51cc34ca710c7146080ae06c8f8dfa5ee1),
  (false, 0xbce9996125b8568b53511f02ad8dc2a60710a7113936047cc2e217df6f8ebd1f, 0x16d30bb2bebe008b25475da7cfb489576601cdfd5d67d9ae51e8edcd05c5b821),
  (true, 0xe785ae5d44cac354b410c1b2b90ff2ff848333f059a53daec1fd693592a47c7d, 0x491b8040ed7a05bebcd057cb50f8427abced2a6bdd5028fa16f280faeaf60cee),
  (false, 0x9f86dc0855de2302ebdd6e42a5310ad98a044616d2d5a183489b7d1a9b95cc88, 0xf4e87aaad16e8eddaa48447d63a6c9f67eb9f711829bfc9514f09fa08843bf6f),
  (true, 0x89206a1bd954ef099c5088a606a44d6be18aa96ae38dd1563087dab733008dd3, 0x50795eab16a6e77b6eaf63a6a51f66ca73b7ea24484b9b14e323cb30774206),
  (false, 0x4c10cea62c85171fc15f27491e74e7f984ad7fd21e90966625d9b95270c6a9d1, 0x5a1d804587f00193d435f4e05c57d60810ffe9af89a2e3f9d2f1ad9fd2b3b828),
  (true, 0x1be1b99823d9cbe52df34d87bb6d7e99f135fc38ddfc3559219d7e27616e65b8, 0xc89421c01a3db133a2ca1000fbeefbad200b9f7dd25ce463f72cc687cf09944b),
  (false, 0xc21deb0cf4f4b9055e6b380445fe24dfbd8a42aa366db46f8d8b541fa215574d, 0x4a4dfed071279c8bddfc4bf57f3faca004197a2d00b5544ae55885d6f9740a15),
  (true, 0x5091541f5851647a93df0c14152a4516169b5bd6acf793dee8c9dfa27710e4b0, 0xec29eeaf3d880023f13d2608200ec283c971081ee88ec05247bf6d65b57e8537),
  (false, 0xf7970935472ae5c94d6ec18bb244f880eb42c11aa9fd2e3f17c635bfa71fb9e9, 0x5919f4ea83e179a72e81a0de8588ceef6e4f52c25ded44e4287ea80672e0d5bc),
  (true, 0xb19d2673eca5e243f1c31911340594416bf091de07c7913318c2f3cf6617c23e, 0xa69ee2f47d2dd9b0d596408e964aed25929b222cda616c4b171a40d8821b990f),
  (false, 0xaba15a8a305046eeb0b8d17ac8d178f898059e2f9bf6cc330eaa963207eb5b80, 0x63ba30fd20383cedd6d81eb0a27de080f2f5797cd8a67404fb35db7e1bade23d),
  (true, 0xda73c8131e2e6e6371a06cc795d28e7f6a17169a18b397a9f166941b0b7a2059, 0x7eca5490e62aee0b1f00e37a479265ff4124fb874d9bdffb20e2cff43eeb711b),
  (false, 0x2e020ddc930b30921eaae4814dc1efdcd42d8904cac5765f95ba663c416dfb3c, 0xf7251e58f94510d94a2055fa0ce1f7c6d103a47db0ff2c03c72945bf5e193c3b),
  (true, 0x29aa00ee6fd4630fc9c99dc934eb89aee0c600be9b29f96510f6f4ba7f1bf6f3, 0x4f4d9e632326c0f3778a3035a88376dfd151c329f056556ead175fada5652bb8),
  (false, 0xc913c5c174537cf7904f3ddc1be161da8afd731de426043765d87fc39ff3e1b7, 0x14af55d0081934f6eb9ca3ba1dbf93ba5d8c308e73dbd6258962560e287e823b),
  (true, 0xba7e7b78e1ff713857bcc6432dcee5f7c6ca7fc8f84af479811bcabec921305e, 0x9af35ca9e7eb93ee3a3dbe010e3c2ca3522a78c826e0d8bf2942dc057e7c48ac),
  (false, 0xb13c3c5ad6ad58295335bda8f31dca8d7d0c5e113967ae99ab4bb325f2a432dd, 0xa8c48d1d310fa2a90cdc96d07d4c1c27861e302089e999e7d32979639fe6e808),
  (true, 0xae2fc2c46894bd8b6c1e2be9cd4f96394eff4e894ad650183c596241c771972d, 0xbc2da1c8719a02c01d4d9f9fbda577ce239cb062bf649e7b957d700d44a851d),
  (false, 0xeae9ab6886a650d4a2164ebeef9df2307bffe9acc382dff3512f27417dbb982, 0x24d302792cbeaa7b9b0b87c9c3bbb6fcb382d57dd711d9e4b9f243a3537b003c),
  (true, 0x70f0a449e8b0a1f0771cf4139b37457bf4fc3a7876c19832da1a716d9bbea678, 0xad2dd5e1e989c3e17d98cafa0b92c98444e22421d2d4def873043d7994ebefc2),
  (false, 0xd7eee2be7070043e94471595afa4277d18b3fc9a14317e0c787123addda0bd1, 0xadd2384295f3faf830e57b12140dce6a27406998806ad9b4ab539021dd9b09b9),
  (true, 0xe13ee144b3542b0beb28a828e543be6eca9c8220476c5863e05d252746961ad6, 0x62171f802f60fc863d47cafce8c65dd727b175c824c4f40229d08d092c17ff4f),
  (false, 0xa08f0350bba56e7950225f99bed7635397ed80cb92f515ddfdb48aa1f6ced06f, 0xe1871678108b5875a744b1f6ca68fccb2a198195ef3d7154e00af6aaf1dfe03e),
  (true, 0xef2f63c8623a24ee11f1267272e83312c5b22f59baa7058d173bdb69ae49d08d, 0x8bf841e9c5411178ea137331449e6d2cdf706278d425c2727214d0712b40b9ea),
  (false, 0x6b91db3d3e9a6d2d58ce76a0801b2aff2942e5a4d66a7f91b7a63972435bab1d, 0xd718d29ab9a9e4b569a6c7de00c39ad4e6d277a1f440962e3295ef3cea08a943),
  (true, 0x5c80e967f23c46f30f5613c5c603c4f5b00e7baa13ef3edf26a1f2c9ebd05ee3, 0xca83a556f372bc3fb19ec49541636d5cce9f48aad64ef508c2faa983125bb0d6),
  (false, 0x7ca485c2f4ea20dfacb7013cbbcac1fa5397baacef302c92e1f840a54a78041e, 0xb20a8fd5bb0d8d51b59f5e525e43b00c0df30fd8ba619536cb2410b06804dc3b),
  (true, 0x8c0ff854cd20543bad4512784da03c67599eee0c933a4ef03763d3a4457688f8, 0x167ba1149cd05126ac16fa949d78e9e331a2d62af211e0a30ec31385c75d88aa),
  (false, 0xc043d6081fca2bfb1871747fb2f854ad2deb0d94af937ffba0604c5199138d86, 0x2329cc4d5fcd9d22cd26375614a4c164e75a3d2896f446bbd3fa99cb4e0ac40f),
  (true, 0xb672254fc15aa38206bea89025d8c38ba964408ace1af13da272288e1ce2a42, 0xfbd842c296c3fe391e73197bd3353c21f3712008ace060dc9b51ed8601b88d75),
  (false, 0x85d711fea9b580787505c392214f6bb55a80d7d8d2a3ae5e16cdc1e105f21a2e, 0x6a0d9c1da4a0459abfa11fcc1b44f3d731e8bbe273f2b71150907e39bef8fe84),
  (true, 0x8c6e95197ce70054c890539d82fda732739c173479473e99f2146b4012818614, 0x29a7b0b63382d7447bb27759a4594d2c0e980318479b915f7d5f73babdbd733c),
  (false, 0x567f3e328f3ae0994490dc553ede503c71ae979463b6ed70142282a5e6652076, 0xee900539019fa09e3c86f09b6e3cdd4b28c98b62f6ef68aae61d945d7c9bfeb9),
  (true, 0xf1336369db01f727ee421765588f5db6413bd6cad2af95d0fc45cbddbecee781, 0xe1d2db4cc4f920541b283c230605e460c203e04e1b409b1e0f4c16dec4f3bfc5),
  (false, 0xf93472e1293d9b7b952485d41dba485e97868d7e345943212538ef438ed60965, 0xf833944e1c597bd1e593c1d03b1eaf10847cb029408e1c281b21096b94569b3c),
  (true, 0x21ff143c17ee373b7f66ac345c054f134440888bc76d3150228395ef5c9c01bc, 0x3be70aeb10991663de51a4b8eeb56742797db57dc8769fdf82794be0c6131607),
  (false, 0x73c975311be30a822540cb91067c5a389289986adf8c2aa842a7dd8398990a74, 0xc8e30622fe2c233806192dfcc1e13bbd566d0c66e7aa0798db4ed904a7ac669b),
  (true, 0xed7f09d8fb9f0df7fc51b55e13da851bcdcd506796322f62e74698ce8f409c33, 0x2fa3b0a656a43cf1733de2ec250adc26f72e24fc618d12ff8d1021fbd25678),
  (false, 0x83fca6fefae308407ec28f2d56f9284ec2d7518c42b2e136243798ceca8a56a1, 0xe0d2d5e611c2cc9bee143276c4ef1d5eb3d12be1fa2545b38005d65431a86ade),
  (true, 0xaad2decbd6f81096f56d83f6d468efa5e254ed96de60fbe288501d4b08ea1994, 0xc896d9782a9976f21b4dbc9202adb0cfae684298b56069f0b035f356b2756dad),
  (false, 0x88558a71945b8e6d228d499bf955c1092f29fe21735fb0a2b0d92eb8cba96302, 0xb7c64edf77a00e6948f5421dfac21f889e80b8e9b0ed8fb1652b50a53ef060dd),
  (true, 0x9f31763de5c29243026bb1f8d89fbde0ab09d7ac686954f4ce61aa9142768ce, 0xe665e5637999e0b2538455a63050c416900dc9d2de52bbb820842e350eba279f),
  (false, 0xc973b772f97c0a359bfe527bce55a1b968aa122864742e68ab26b7620614071e, 0x6feae0f77ca29d289c281fe2fdd1f02fcf60ed37298a867cb10fe1f6d0bab75f),
  (true, 0x762620471b98aefaf0bb63852401714bab504843dd5d5984fb32684d42a7d971, 0xd8d0fdab756772bb1b6f5332b4d90751a0ba6f22b8435c28b84d6b4e70761356),
  (false, 0xae34cf24d8814cd01647969be0e0cc38e9d8c62af82432d0fddf9294944c6f26, 0x180b6b6dd47308c81f1001b047a4ba0dcf61bc204b740262e3c1f5b434c7db03),
  (true, 0x84c658851f4a62881595c02cc1de0c6476655b3b99205ffa4bac16fc4903ca22, 0x7f6d78643f592f7ac7e2763a26cdc006e083e4d6b4826ce16844114bc24ebe7e),
  (false, 0x6ed8ec67515a306836d525a544d9a3dc972d86a5425a2b44692a7736b2b77ed5, 0xe391545f48be53d89bd2fc70861c02fac0ae613ed13953bcfde20df263e87bef),
  (true, 0x682c8480c4dc3fe3594c9d39e37ff9e428e7473fafa4fff78303a7a2ee74c195, 0x421a39469daf6a27f295b9eb7bbdbcc481c5fd2387e2df15790f771e5a65cad1),
  (false, 0x9bb40fe28808d025989a6cb52c98ee1da9de25b266f6da543894f842a7267977, 0x21d9963cf8f38ecd8251a4db949b4ff5b1d7557c7c84172a142293feb569ea53),
  (true, 0x4a3d382c03f335698f7858468d78547c7a1093522c809b7a596805feea841dc4, 0x2316409e4050d87689e41a0a2d10cab065f8776fa3b100983df6780beb891f2d),
  (false, 0xec1f2f07fa75c2cc70b94e459e6f8ad1d450a4e320da66b5a1181e622970fd2c, 0x7476db7cadad42eeda0629b30d0eadad560c1ccfc474bbe59f4da19f00da09ca),
  (true, 0x898e40879d9c33341a879198fcf9c99dbe6fcbdfa7300f2ce50ddf2a8917e028, 0x2765d6ef54e812d0a67bef03e9a0e624e721e4fd4032b1a5537265b1f04f1c9),
  (false, 0xa933ad582c6f72562808ae4286d0706cdac4d3c6a5a1b45cadbbb2fed40d27a1, 0x7af17934739e656f2b0d68a3b9c0c2fd21f519aa60168b0769bf57253a0eb708),
  (true, 0x21d0fb8dc3374534f5c23cafc8b0dfbe6642ef663d2ce149a06a7290293690f, 0x4b84f5b6d9e190610b5125d65572cd3a120ea92c4d2733e180c47fc402aee9dc),
  (false, 0xbc3f7c4f8fcc91ca07e7acff73874db9d4b522b6a773b0c70e90ef08cacfd08c, 0x81f064b3572f1fe821c34526f5d43983c1e15f4287bed6118f145f2741fddd69),
  (true, 0xd7b94c32e4506585a45f668439251be2a0d064739e831594b6719092eb32c710, 0xfc1dabcaeb827239535be1dee794255af0aebdcfe79783e9644692416a382c6d),
  (false, 0x139fcb9c3dc1e385003e0f064759a8ca85f1f2d6b2e00d692b1634b0076936a8, 0x9a8272bdb97fcbdcd42e3349d93c2c3387d02612ce14e76901c1620f35ce1d3e),
  (true, 0x83ef8b9191ca25747f5b37a1539d3ad1762b5a5cbaf2d0ee00c6728a87b38e3b, 0xfb861e0fa344375d5835ad9b5097cabec4ecd0a7c420aefd3b4f171fcfbfe1f6),
  (false, 0x502f1d391821f5a85f7809b612bad773787e992d40fe7ab33ac2e17f0d28de0, 0x1758bf90880f2d3ece3f7ff00bd8ac8364730cd395bc8c2ea38c4067dde58198),
  (true, 0xd8e2c3e19bd02b15ace3a77a5acd97b92c9e97d7e5d109ec33f9cad7583eb1c8, 0xff22eeeb67273372cd8435beae9db45d2807a1a6ceb87aa3391b8f40ecc3dc4),
  (false, 0xc1f62d4f047c4e535573512c8354a074c5b10d8083f46c1922edca76c1cbd620, 0x267fa56577a75fe6929f65d8438178957fb699c4cc151d2f05f6a3ed1e35281d),
  (true, 0xf2b8c03b0b71da516eaaba7470e9b51e139ea153909277001693c90b4e29fdf5, 0x88699681aa8094efa79151275a977a5179a6f76077582f11da3e0d719921e640),
  (false, 0x34effb055e4edb223fbdf0b4fee33380e68bac8b374a990621d60b5ace010998, 0xdb38d9709bbbf2cfc6a859125b3dbda276191f65df9011781044a9d42a4c92fe),
  (true, 0x10417355e5627cd891eb37c55d52882bccc83fbae2145e7ab3aa48fcdcdc1e24, 0x7eb9f8f1528dde8c2127c5adf229a417dc798a91962a44f62a5699e6a6718198),
  (false, 0x4bca298cda97861a3bf5e3e2110a99880956d91fef37b2c307499b26c70a8cc0, 0x2a0045e00e756a280b2c817bf451b3a80fcc5905d538c558f3e47566f0797291),
  (true, 0x5cc9bb61bd6befe91f37e9298853502599c08e9b40245fa00bec593039f6f532, 0x27ff3a67474c99018a8607b8fc948e0db906f5cea70e9ad23f66113c08f5e393),
  (false, 0x9a4f2e2923471765eebf1c9f0011fd91d6aebd3204a8c250b97cc44e5efe6d29, 0x943fb1a73f20af678f70df0efde5cd793d85684e1fa74878647a5b55cab39662),
  (true, 0x7f7ec21dc9dd2af1e4cc182dea4b6c617f768c20d6ed5515be81767b69dbf318, 0x59c05847b30220bb72c0bfbcbcd39e078d7b8ba437f03523983548dc3a5280f3),
  (false, 0xde5edf8c1fff2313eebc0c055e6f1a35dec07b24c91dc5e51840b84800dc3e8b, 0x88d8f0bbf80a0a4b48f4bcf39d923662b231b2b8470aef1e37ea3c22e6acd26a),
  (true, 0xc0e4d6bcad041c7983abee02026fc2983cbe736545dda6cef035b0caaae3b25b, 0x82fc196306edbdfa04ff0260e052001b3cbf5387fc7b2980a91b9991c4c61b3f),
  (false, 0x5f772f4fc9c401b8e33737e5b4c41b509875a094e61603f236dd87a8f8bdff7a, 0x9231b346b6214ffe1d80f4c5ea5858b4caca878b2de3f67adffce29b955a61f3),
  (true, 0x5f0f49ba4a40833d40b93b12b12058ad4f419718f20731aae01c8704be1e02c1, 0xb860bde2f5fb72450d601f4bb6920264dafe4473796106cb2a371cb5375811a7),
  (false, 0x4bfa225413e8d3bf9d8a566ed1790f1ca0b0e4387f9387160c1a4dad16494e2d, 0xb2b18f7b06be8b8ece824c7f1e2acb7fe4ccf66d451b8d576c7750e1b9f4a714),
  (true, 0x4390240e586f6406fab46fb45644464c8bb3894296879b88434d6100b096a72f, 0xcef9132108a58e03d8d157ced925298b0e79ba49083555baba3a7df55ed151bb),
  (false, 0x1680e664dae29b0d61e54230e32c04e14950a81781f6c2fbea0ad59152758aec, 0x44487cb2bf97f9bfde99237189bf5bafd4b30a66e7f40e7fb44f40630a7f77cc),
  (true, 0x290e8085f1a90b6a783996578339f28754e09e0f97a7ed7731837c084ef61309, 0x40ee370ba0a6a83d6e5fdd8c114c8d7baa7ef2c57773b37962d0f60a6165d0dd),
  (false, 0x1b41220d8f65d424e5b53b080fc057e25d62f0b5d92cbee639bdeb1e1a6f1754, 0x762e31c4e77213f19c2d66030d5f544ace2c02a0d8be7e470af0967e444882ac),
  (true, 0x217daf90deb73bdf8b6709bb42093fdfaff6573fd47b630e2d3fdd4a8193a74d, 0x5c24544534ee67c11622a3f9caabfcecdcc0e9ff783b2da08f5bd4c727d0a08e),
  (false, 0xe1670f22c418b910b269bf6db2a9ace620445f718b6b14c490fbdc132483ac7b, 0xca79e9e989f94203571073f2ece4d17b60e3fb69a80ef000aa80161eabd5ac2e),
  (true, 0x30de2c8bc2010aaebbb647c5bac00eb8028f78d795f2cd4532bc6c504c0e01e7, 0xc0d5c28aaf23d4094cbd1cfe466cc43bcd0de0f04f6eaf0ed010e43e8d02ead9),
  (false, 0xfa4b165033692a8b75a3fd73ff327771dcb4d32036a38afaf277716aa3619348, 0xc798a3abd11b3ffd2f046b1271f9f88b9903637d13415abfc21f2d4ce4a1b792),
  (true, 0x75d2a3afc5c841df0b2641024d0a3f5e98ac5b6609cd6d7ca41e82fcbe6f03a8, 0xd132b7e26ff4928728628f186821c9cd910ef6e8a57923cfab843e38d0b6698d),
  (false, 0x3f4f40338f6e45c4d8232ce190bde577b47d932de5231c820b83a6575993a351, 0xc26da80852d921a90adbdb0d67703b84841438942cdd5ac618dd9b760877dc9d),
  (true, 0xe6c694ff43eb93b1e4c0b547013c665f5493b0a800c80b22665880513abb4890, 0x806870a02c5a5ec4f52f5c80f09c46893ef53f0a49eb3eda9a130faa93ad1c6d),
  (false, 0xdef8b6920fdfb447254421ee84ca0e75da4c328d040055d6c0c048c6a83d1098, 0xb883c1be9315aa9f2e47ef79b66d5194fff12f75c71d2117d1e608d65852c68d),
  (true, 0xc09cf8f24ea3a1f88129adedbb4b55de3f2a3d338866829f559160d60c5b3ed9, 0xd8571f3fae3996b71e75e9475d0d320d8b6238a236074d3b34d0edcb40d6ce97),
  (false, 0x4d346daba0ac6f70d05dd51c34c1eec64f371f5882ef52b11de6f95e3d69be98, 0x1be41231f6434642286f34f2ad5522eddbb364d3f2b263a8390ee6232b42af61),
  (true, 0x8e9ea22bdeaf9b913617f7ceebcf75fc92e8ba3ade29276b182fd441f0bf90a0, 0xef6fb9d1de069aa07b16409d1fbc62314a3ce9a33b3607034907aa4e85460611),
  (false, 0x63f7863cd87255db3a8ff6a1aa1c1aa65f8fd94fb3d4f49723995caf024961e5, 0x3400a2170b98c4ec2c396b73411f23964861cb3a5e8a6e3d23feccc167d997b),
  (true, 0x45c2c9108d48806948ee0c67d707e8148a04e224fabdd5c4ecd5aca14da25757, 0xa6ffc7ab5fb066ee00730c83df3984615852f39bc77eb92bd5c811a09acde791),
  (false, 0xe7edc34d6b9ef48c4c25f34c2a57b2fbdb167e76e391e473ff44e75762c260c8, 0xfc7c58fa961addc28717563d24b82e04ed433d6f791f108fe4a91a1fd02fd3c9),
  (true, 0xafb9b133069c555429730be9f8fb0437c5722997e8c39c35e06f4f14396adb07, 0x10f64d80db946f0a7fc5a18f8d39cb38e31b8c636b6ba2b4a53acfc038ede13e),
  (false, 0x6383b606dc62dfc967eaf6085e03a210a91452f7ff84c177229b03d652a8d51e, 0x4cb224982f59bea89851bfbf91a1937c952db9a231443427beeed30dfb1473da),
  (true, 0x58730f5f270ca87c2f791e44c38991bc65df9658c40a8db10338b157631c45fc, 0x8d4c67a250ada16dd3bfb24e56457aaecff13dd11c7341fde9b4e82762e0bd97),
  (false, 0xf26678c1f722f9dcc02c469bde9cf2836571e11a04f6f9fccb6762a65ca201e8, 0xe3d92f85a64249996b8ce1f7605a3e03fde9f31c1014e81605e26138525aa3a8),
  (true, 0x61fea98934f8e61100d381b6acb5915e75af087315cee78d367075cb0c0c987d, 0x8f738a798e2d82ff500e1032daa3d42a5633473491a6d63d06d9a3a5cd75f2e1),
  (false, 0x4c5354f1e1e7ba1b12c649ad80cc7eda7f51a1d834d158db53db247f90b94a8, 0x8183044eeeef90a9142c39cc280434ab7226c2ca43e494502cf6bad5363ba90f),
  (true, 0x72709df6ab8d12bec4fbded120eee5755ee0fa98ee342394e699f5f00aac21f9, 0x6c017fa063602bd7961062160da287c97248a84cbb2a8474f32f4fb10249b320),
  (false, 0x894c9762afc63e53c59c7cf901af6abb776d790e4ffd7dd6d480828547128a16, 0x9c59717b1c1ae47654f6562f0f7a8c8177b8a841282490e0e0dbb02f7da2c3db),
  (true, 0x397eb92210003c652dc0008d2fa5137aea146d06f155a2e6f8bd9307dad04be, 0x71dea760def6c3de20db969bb5ffbef09c88516ef52b87f1d3262ed364f68f2f),
  (false, 0xb9c269c674dd9eada421ce17d1cd777ff9d13db8e52a72724854935148621970, 0x6fb25abaec29130f01873742a627af5195455646bf4ed857eca89832c92a038b),
  (true, 0x952f5dbb44d036f19f60def64766f6041b486236705175bd485e75968b4745ec, 0x64f01bad6223ce49ff618ffcf81a0441001ca56a7cca016d7fe180bc062926dc),
  (false, 0xe06310b8adb6ac82d7ed2f8ae46f77977434906b4c462fcfcc7c7d598c969050, 0x6b393c442f6cfbf1b20d93215a68cc8d82d1c9943129cbe94a5a2eee7366a4c0),
  (true, 0x31a285e5903b08dad4d65d5380b17512cb92558e3bb270a34af3e69ea4ddd646, 0x6e326e0a604e41fbdd93ad6e158bdf2e098b85e8039f6b1bddf7ea21b844a785),
  (false, 0x7d6259d9e3a7d969be8185d6ec0b527bd4841e324589be991ce230ab0f36e1e4, 0xe99a00e8941ced348469d9882be545a9405cb3c75c1ad50354a81b53088ed310),
  (true, 0xd64a61bb86cb95298086662a26ade54c73ffd0960ba3867c0081a80d0628a16b, 0x3368a1c3f8179ace8868c14003c4a8009721c760d97ccbe2a2074636488f55d1),
  (false, 0x458114d03107d7157af82de89133192a4a5ff2a60ee400405cdc60dcdeecdbec, 0x8cfe6e907930703b98c090640d8ca495c408121feba8b0137f9c795ef2769cfa),
  (true, 0x14de84090461b86555531d7abb52f1ef53ba185a88689260ac11c144bfc23c62, 0xd9de9efe6e790f246df55c8dd29cf798a6db0c6becca5a71cde1298f2439ad6d),
  (false, 0x244f4c9d18837192b3b344627ada08a07bc9009a2a2674007cb5f86b6b8e353a, 0xe397596bb18930e69b03b4d54a26d9f9ef8f2955cbcbe93bdccc4e704a32a47a),
  (true, 0x6e2d283819cdf704b4fc7580d9a909eec2d9cd8ef20e131bd1ca0acd4d6906d7, 0x1061bb23e9595f9b6afab7b58bc8c8601d0f4bc42d386a59abf52e8514ad340d),
  (false, 0x43d76e9f44020521225377feef7cc0f3b7f8e1190a4e7014560ca90202e53b45, 0xdb8cfa197086d1834b50273f6e557cd8aaa6979e6dcbf6fdaa5fb12e8a278012),
  (true, 0xa004783299cf8c8e865c049926d0303bfcd38b3cb69ad189c35199ab16f56afe, 0xee26c02754debd4717392d53cbc6468448bb1f2844c380d2f413db84b4c09d05),
  (false, 0x5e9f3c5aa41562e796041b0aa65eae3e1ecd6e9000c246e617f9e8580634dbe1, 0xd433b4aea901c8eb2453670cf82aeecd87e00776ea24023e5cc7e09e719de8e7),
  (true, 0x56cd0b0c8aa4efd3f47fd3fe532ca75aed859180d530921eb19b7cb58e4e0a5d, 0xd85e87959a603e13d58f91fc51278e9fdc8a39a9ebf8a53238896ad3157af402),
  (false, 0xce2c2e21be9970e08af3bf9b43661dd60093295d1e5510bce8f3debcc8e99ef6, 0xa559540757062a0179a1cb740c429cb37f6d5a2c515109dbad71c364d9219e63),
  (true, 0xad50140ae0ca70df22b26a20e1cadbb96d5cbee3cca687c14aadecbdbe79c3f4, 0x7839b8080de5ea139741d500da76657416180a278e711eb879adab33d93c2ad1),
  (false, 0xee0823dc2dbde0818a1013d1fda4a62499df1541a9a8288173f579637477e35, 0x81fde1c733b8515470b003b813b5fedcd18ab3be13e5502c5ede58406f465505),
  (true, 0xb0d33807f4cab4a522f303720cb42ea339b840d02463a6d69cc7bca66428838, 0x3577534673bbfadc33b8c13ab08d37098a0a90fbde04018f666a3f71a486df8e),
  (false, 0xcd2505a45cf38f80a544ae674c4c257751adb5057e2f438ffe6862677bcc5123, 0x91d7562f5f94f5b480a53f046d5e8d31397c8eb80cd4f68fb5b214fbf95db29),
  (true, 0xa5e5cccec9d09ad0204eb1da3b20dc76fe561bad5c7ea65b358961eefb8fbca4, 0xaca3bf848da49840907946bd0a48d43fb61b8af5bc119d60bd2289da9eb57bef),
  (false, 0x171ba68785a30662c12512fa55e71cfa139b8a28aa191aff207ea96e746d345a, 0xa1b2b3c5b63b946aeedf4d4d68c7cdef2afe8cc21c622172504112cdca8ecf0f),
  (true, 0x26874cb38a05b45dda3afaa85f2f0787cebbea8fdfbc26a81a2bbc5c695d6ace, 0xaf7f8c29e7922f01e5c62f18a65cc3db123908944624a97ef26f8c469bddde8a),
  (false, 0xd72b239325be31e2406b8f725506138795f5a10d976facbffbbc591656973ddf, 0x79c7573b0d44666e783343e57ae54547dec857e54eae42fdb5e6309646e0a87b),
  (true, 0x3a3ffd18616b83c2cc57bf91b07bef18f6c2c5f5d374b09b6b4d3dc5d4a3fc89, 0xbce1218825c7ccdfceac32214ae6319dc42a4f5b626b0040e9e8db29414c8c64),
  (false, 0xc0a06c5e2614c45c5b4fbafcb72816a5dbf02ef4bda20ea8713ad85c1593f532, 0xa8c5bfa442efc7ec18425969c78d761550a7943a974dc2e304fccc9427eff4f3),
  (true, 0x2829c01921155d571eb1bb0a7bc6296b5e9ac0d3e5b037e00e2fe9032077ef13, 0xb7cd2246fdf6e4f14988051977b3f4330d60d5eecdc6c0a7a4884fd826741109),
  (false, 0x8f681fcde150b5b28ac4b50ca1202044bf092e9b642bbfb955dbb7e12ec35ed2, 0x95194259f850976f0b2893cb9ba755979a027090fa85b2c77e88b9be825d1beb),
  (true, 0x2999af665c50cbfee3847d1ee4dd7fc62813e3109525ad315954c641db4f98aa, 0x51827cd769bf144b80985deea62e40c4d987aacad58f1abc03a997f7f5340300),
  (false, 0x7cccdf2c1e884b622a2c442424879d14c62e89342f476f18de226e37a7d5d52c, 0xe21890d1e1f8f84a4018acd0005d8b739d2a71c967c304a4617b376ae5f45980),
  (true, 0x3fabd885ee2753a8b66053df7b74257342198ef4f5451c638be31a70f3ee308, 0x2691341c77fd6ffb784aec7317d3d671e44cca1823a5151418dd7d85f8108e6c),
  (false, 0x7b55dd3688c82485c54230b183b18200fd00285f6e7b78ad039c1ffadbc1d69, 0xfdd01a9adb3a3c1c045a43a34853304bdeaff4f62d939f919498771d92536667),
  (true, 0x37a150f37f1ea41f7cefc778d6ebf8b5f125acef9d84c806c0e268dbccbd6c01, 0x6e8fcf0459c8edcbe8f0ff084f97c7425ccf3ddc2bf00f0844f8dc1f65f37dc5),
  (false, 0xe0ef728e83ed5f23ea2273530482896b0563240cf2ca67e8b888428195b45b5, 0xc59e80f2af74ab78456fbd4ba072dda32b7a27cb51d883ed8549842083d0933e),
  (true, 0x91d8370f487e263b8a6704f566a946087a101848e8229a1b0776324b3098004c, 0x10820fc68bef068b809be7e3cf6f12895d77c91c1d4eb0942a60a652dbf0d2f6),
  (false, 0xd4940ddfe3f1db6cf9f7d5c177a6a5d7c55aa4f90901710774077c8c6d44e5d7, 0x8b25077de158e8904bc44fe4e217fa3372173fda9e76619c971d88ff7d6497ae),
  (true, 0xc2b6e8a9180170f8d964db12f2371a32e71813a2976b863214032bcaf87e6c84, 0x47a540dbf3c5b8af07829275764f7f34ca67e7519434ac4c36b18de9b751c040),
  (false, 0x7f207258a0a18affe2659548300f82f199e567186c8c997b47ee7b00de6d5fa5, 0xcd1579b5a4426c24fdd40409bc1c0d01125e5b0a5f50ce47a194cfe1a2165574),
  (true, 0x4a63fe707307bacbbe25bd953cdb75203959700c2e36f1a89b7e4b79831271c3, 0x95cd92408781958596cb5376d4bdd2f5674af68a531087d97a8cf6ba0711fa0c),
  (false, 0xb6c9c52daaf8732ff0bff8ae00119b4c013e38cb09b41c4ef48db34bca8ccaa7, 0x3edb0526dcffc2ae43f665d285a26c82d6015d7578029486fce1defa37211892),
  (true, 0x977df541fad961acb980bd3f50f4e1065b6740635ddd4766d9429f55e569ba0f, 0x83b99df5c3024318cce2c77abfb309d8fac4fa5876148083b80b889a6d8efd59),
  (false, 0xd726c8eee583a4feb84ecf4fb7b2897867bedd870d2396288845b684b334133e, 0xc7ebda888cf489bc915f94692fd46cb92b7d19819bdaaf166fae9e1521a06d91),
  (true, 0x1e2f51f5bf6da655d686d6f9328a8d42ec127a995f075f50ea8a87f85ea3b33b, 0xfd7602f2ef82680c2aa07bd0313e79ac52773c748ee8353334b0581d4f2a3c1a),
  (false, 0xe33e7fb13378a6e050a8ba96b325125e31cb20342458c3bff216b9a506747f4c, 0xb16c222177b9bea044b441e7065e174b5799c50f88fc63a526ca2e52ccb1a22c),
  (true, 0xb75b8dec5aaf789530791e32dd90d045119a8eeea1f46cba155b1e7152ee655, 0xfe65de0041fa94bb8e951f8a45aff0c3fafebe0f22b2ce426e3e955994650a76),
  (false, 0xe4cea826a3d8a1e8a6cd3c6a5739eb5fcd4c3e1843c6761f084b90e050dcc65, 0x66773ec95592e269992515e2a1b77f774946af7e8a165a8c2cad1de04399a913),
  (true, 0x1be44deddd63f159caa3d59faf7cfd7faf0c9b92b212f9f186d221a20cb1eb06, 0x8e23cc66857c3c2228ff35f283f77b7c528772ccd5fa0d3b35dc70210b783fed),
  (false, 0xee042c6b5a7eca8aca1d69cb0b98c1aba5262a4e719a623657ac5c67126fd4e6, 0x840dc55dab1c66f32603c1e400821e2c610cd8f69862f1206fe0a1b8c97f77c8),
  (true, 0x4a06eb369221af14f2d17be74991d27b7ae8abc534a6ac6ac8f0de321aa16527, 0xeaf46febefb31fba0c2d35906f6b329b6ae8650d1ddf1e0d475b482e82922544),
  (false, 0xbcd8ccc4e5e099a6be7fb72ebaed83452a8fdca1e7ec10d96eeb91e6de2fc028, 0x9c8d174887df7a903a0dde15850d1697d9dd9435d05d4ae977ce4a3522454032),
  (true, 0x19ca2a4174bbf49227f46f19b358c83b11eb606271bb41d1ae64ce8a0c4f2cd, 0xa626e8b07d355a13b3717a1ce9fadaedfa40c06ebdea61f23ef15e994d5b5acf),
  (false, 0xab505273b92c1e00b0104a765361d28274dcf8d3cb80b51c6c71385dd5bf3db1, 0xf5d0647c0d23708f2d32d46f3b454e379ab6cfde0f72e07b4b15d8a41f335856),
  (true, 0x634b919284195e8665e08036788fdacde7a72a487f435db1e79445345aaf8f10, 0x2acc34b723aedb521026ddb514cda930069bea87adfa5797ca5f44e35aaeff66),
  (false, 0xa0f82a212dca499f66d5b3e56ae9677b62aac2a5f3cfc8ba41c5fef365ce052a, 0xc2ac8102d1c42e61208c15ca021a704ca5f77729fc83cda33cf346881da3170),
  (true, 0x17c5ba204be5690176ec11aafbc37360dbae5c23a9a2e821514c6aef580e59b7, 0x25b29c0b3742a8ffc4cd5b049cf2d84e624e3f525686b5a190428ad014a5bc2f),
  (false, 0x99683792a190e02404c1aa03871ca57e2f0ec511098a6b861eee64c385dbe613, 0xb4cff92ce791aaa6c349f2fc687203e18d20c0ddce3abf56c839eaf01023d638),
  (true, 0xea666fc3d99716053261d452ee7d4032606eda149f646908fb6ababc0c698916, 0x22b99351a672a7cb301ea8c03e9d578b3deff32bd1ca079e1dd2a3532c05c5c2),
  (false, 0xca1b8b53813477ed64e57dd25349c3ccbecdaf6404237f5c45d88d64275514ed, 0xb9820abd5e0cc594ca2f98ee09d05f58b1d8c8fbab0ce257667541d24ea46aad),
  (true, 0x6a413d3843e1c47fff2bd8197eab5e22092e37a6fe48575776c86298061695af, 0x670ca8f5411af81fc31421bdd9fc937c206c793e54d9e4e070f565f83519b9e5),
  (false, 0x23dab5c1fe9db8426551ff7cb1951e123ad82dd80460cd0a202fa39edd43f303, 0x402d76bca7abdde60641e599e8c383221cf64fce1cbd1642dc114a7101ee6b90),
  (true, 0xacc1770b3d8724da73c08938a001b5e0ee3096b5da8be418f99f9d9f83236735, 0xb32db0a787a423c6b0c4d4cf46677dea6caad39ecb29d0e515642d9ed71e1daf),
  (false, 0x97ff76bca3fdcc64a45860f7f812499f910ad4599e03a2d8f1b8d82dcbde852a, 0x5b1b9b544b645771dcc1ee52edc2ba20c09dbe0601b5765255312ed08e44f721),
  (true, 0x90a575360eb23ed2760370699ca0c76e6a2889a7994eecde179974f6dfccd8b7, 0xb823a8d433100d07ebfe0aeb334cdbf8703ded02f52781f1ece7f7486ceef327),
  (false, 0x2ff4135aa14f0fc1c3e6f131b51d9f64738185a05ffcbbfaf0838fdea21b83a3, 0x50cf607679ac18fbb146e6b48021bdde13e46d0690e37e10f7f2698199fc3172),
  (true, 0x71508d7904dab129aea362ddbd898a550ba3e727a75c2d9cc77766547331bc38, 0x370e543297103e0433cc54edf37d2afaf5b4f423b0780a02c19a6515ef82d756),
  (false, 0x27f95ed478641cac695798dfcdb9ee84dfe86b5f4d02ac6f1d38e137d5466573, 0x9d8b3b75cf8819978a90a5a7ac4b5b21479123f02087baf9e51ae5ef9ee21aa5),
  (true, 0x8a028cca08823f05130cef5a0d9d12e1b125c1c3f409b6bb948c3e935289c823, 0x710b02fea39da6e8b98b563005d6c13be81658d63515bf0e7e3f9f761df10bd1),
  (false, 0x855f4b1abc0d138594a39c3fb66829ecd53c568244c3d4dd6a920fb9a6beec55, 0x39328374292e54db5fab542017bd0055cfbb2301b30ee20f8e4fd1ddf9f6178f),
  (true, 0x218aba23672416ba6df934e22a5948d4568907b3952982d4236cf8309e1e72c1, 0xad2f1e0b09568da166d13de43bc0092bea462c43fb80fa5d07e528115d1b88f6),
  (false, 0x76234d4fdf530854bd37e97791e950bfa338375db5a14ab225adbcf832f10e40, 0x1dfffc8030aee0a6e10bda5476713a5cd5b126ac95f6a577b1bbfcf152e56921),
  (true, 0xc816d3f037568d2e064e5f1fbee9cb74502850462153ff6237d6281a3d97de92, 0x3101c588668ea0ad9b088890137ab130386c39949d34ea722019bbb14931bb7c),
  (false, 0x3f9b16385d48e4e4503fa4d208d4651880ed0fe812814b0a6e4eae57527cf721, 0xea11cea9324cef2c3815d9d0b2d483e9c750dbf08ddba4933149043dbd8f3d85),
  (true, 0xdb009a8eca6a87bcd54ac948f0b59e1ba6a4519da47f807c1b3ee79f09467453, 0x154bb22eba904ed61846edd49a17d8d0a67088025e66b75f8e544f3b5ae20048),
  (false, 0x591b3dc93135181fc72540c7b428a984b1dc948be0bf6e9f47682acb6c69f08b, 0x30bfa451e0a2fa1b97376f4e47b55fbfede68c16eb37b5237795711d4077b8d3),
  (true, 0xe815ae6dc02788d52bfd964ff91fd3ef5fe2a3d740f78b0a81a8578c1ea4d019, 0xd7180d288ed83aa078053c4cc97752938cf10752b42c2da2be9258723d6bc453),
  (false, 0x69eea0277deb863fcd939ef50af8ee090149d5ced6f840c4a42cd7e05066b075, 0xac5abd011187b4f055843915db861dd8de66f4582d581c683a71af2748f0acfc),
  (true, 0x25cb1d0ca4c4a07ea23301094c15b5578a4ccabab9428a0190d86b4e7411aece, 0xbefa58707a37402aa4289a495557302049af3dfe8c7d5ce60953f991c4882090),
  (false, 0xf3b2dbe23a809ff0f1526be5653d6c0331bb49c7add3f48e60da6fb63a1f418a, 0xa6b8f92f2147e311179baf8b534be991f28be976e53130083c8bdc4a0478d502),
  (true, 0x274a5a67e77ea9e83b65e6e2e1e012001c96119efca3237f2ac4f2852963e25d, 0x2fecbc968f8708138e151b48834a32cae0567fe0f9060f4b6c14dd92b4ec4a25),
  (false, 0x33ce8bc8e8f68a5ff13f50400592a23da6825ba75fe8c2dcdc1920b1102fe403, 0x51ce4b4f8194be188bbb60dc0a96a3bba7c4a40c0ff5fc1ee165b2f3bdcf2c65),
  (true, 0x5562b9372c12373f55c5192d8df2c786f0e08984650f8d0e67153bc3024cf50f, 0x3137d0e1476dfba0c388c117dde2fae41283cdaff36658fcf1d1d088d64cd02c),
  (false, 0x26369577b83bae1de163a7e6fa0d8d5a094660500808ec9ac2208473f59be060, 0xaaa5fb8bdcca170e5742c1a384b72c2d16e7190fecdd9080571642baeb1beeab),
  (true, 0x2acc3964b33341729c6aa479a413ca9daaf887046cd155947b1056d243348b3c, 0xd8052a4e125a30d501e7d3b3754e071e3dbae2c5ba79dea4329d6e9cca7099be),
  (false, 0x65cbf4be9a7535d63bca6f1bfac55dc18b3e621c347cc4036b1fe40cdffc14b1, 0x7a70ee4f059eaa5f81ad36ef815a47bccb61a914e30f7a7923d7ce473dab8f3d),
  (true, 0xdc13f958aaf4f3cdd8f8711ab95bf79f0bd6c041bfaf2e1e3d8a85bb04c64b09, 0xfb4a9e16d4d266063e42d81a4cbb3887f24ce6177cddcd14ab3cfc7f2d06694b),
  (false, 0x66ba3e281e23cfd6626890c434da2b7d857a5b7376d20a3c7e78932d8d794237, 0x3c2fadbc4aff6cb8d255ddeeccf2e62176ba046351359ca2b8934e0d1373ea65),
  (true, 0x57ade6d8f5ac0a9cb94ef7b7c89ce5b7370dd981f6d50e892d59a81a07826dba, 0xc8603a2c5f4d342e4b555cce28f9201e5424446029635e418a9c6495e3004890),
  (false, 0x7c732b6eab4541aeef10a32aff3c558e8bbf122ae2e0a65cc194a130fce77ac5, 0xa80718a9c4be0f9a1bc26c3d03634a58854a9b256f73dbfd7c15232f5ad35ec2),
  (true, 0x5eff16779a84a86ce10e6786b029ca14888d45ab58af46311a33b0b8669cd0d0, 0x3e282cbb88fd72cf1e577d536e2a9f8d47004ac84b61c0807ee873328a11db16),
  (false, 0x20c9dd1f055a3072008d8a13d98f88cc2de278260cc73b73cbac32a420c3897, 0x14c3b334b58260259770dd24f7bc61fa77c66ca92433e7c3ab711ed27ae67fa0),
  (true, 0xb2f16665122b6d52439d3ad8505e35810e05da5a334b3142cc4e207da002a963, 0x166f3c205aae7e1762d3a353f6243dbdcd5c04f154a50efbc5eed457b0dda2d3),
  (false, 0x71e59acec86ba47acd578f3feb417ba2537940f6d9fdc8f852aea734004b1825, 0xa563b178333611a579d0230802cdf99d4a896df8fa051c343db9a45fffe671ee),
  (true, 0xdc9b3642ec8c0505a04954428018023a936bc90ffcb32f086c19444f9b933f7f, 0xa8325164745dcb9147d16f5222c52f44442e66593df3fe0e7cd345c880641449),
  (false, 0x52d44ccb34ad407b267feb1acca7e920dde4fd4c0b49f6b0336cf495ed43ea3c, 0x4f91d250ab8a78c72ffd152fb85bcb620ec6ab92ac036824ef363ef4f9d0ccf1),
  (true, 0x4f4c2361653dcc780421dc3cf5dab322e6f4d267bcdeb634271576a4f0af26c, 0x9be924e2084b5cc9f3d49d43f4862254e2f9b48fb020112705a3430725868eed),
  (false, 0x7a34c874a35627d0034ef01b41a46770fd4aaa58df552e00368b94ca8c68ae6f, 0xa0934bc052d08948ccf81d2b410d53c5f74e95ab09eab18158e1f96f4d6bff39),
  (true, 0xd7f59f5c424f08acea1258c2c77cb16a4481fa2fafb95282f8e97bafd298d0cc, 0x5d661910b8cc4edce0598ddc92f8470cd59430f3681de54249d1928b8cd5c70a),
  (false, 0x703272679fa450e28ca078f59dfc149645e5017b82052e381c5935a0f5dc4899, 0x91878c7de2ce20ca09ce900c36dea2cc4821e303e79f5698b5e8bb0933f506a9),
  (true, 0xfb521344069816dd0889535e1b5afa68ee0a05d6666e0ed7af394b0bdd07310f, 0xf82a308deca8a6ff0e340e3492bb53b10cfb8ddee65bb3e8516954b3765067a9),
  (false, 0x96ef4dadddd78e5959f19f39e1bd036157dc41f5065028eb3f28c3bf43e5ed0e, 0xef21a590f956de4233ef347456a2fd27dbe98ab5d176042badc0c62459009fb0),
  (true, 0x430b6ed2e9778b86f18a065d81137a1aa1813969d9412923821dd6a8267140d8, 0x4a76cbdca9661e0ca723a0697e23c874c43be6e60fc08f83880dbfe92e41307d),
  (false, 0xd2f44d19cf5e788622d1861c38d2faef61cbfc17abffa07ef63ef63982b43a52, 0x5a915ec07af1dc772403c1980cec615e91b55912bb7e111d85341cf20f7fbe2d),
  (true, 0x2daa8c06c7257356ba77c848908be4e869cf10eb8b28d216973c926cd23642e8, 0xdd6b6ee7528b3523b0f7324cf17ec8aae541139549b41135e55635722080ff94),
  (false, 0x8fbd4130dc2289716961673c3f3c1a7791ea4d2dd42f183e504bd58a13b63684, 0xbf75e5f494f48ce84a3ee369d7f0f589369609c894f375c780d9388b71285334),
  (true, 0xa59c96ebe637b30d81993ce256e2bcd5f76fbd08b01fcec62609872770632bcf, 0xc1cf6659d1d5139cf6f42aa13987b0fb8e7cec538d3df7c91e2420b6754c1713),
  (false, 0x40707f4904e3e8af195490cce709fe8636a326f2dbe90d0cbc52bc70a2c6e216, 0x3dad2073e660ba8acfb14a553e22535b29f4da2fe119e43d0f54006be438a26a),
  (true, 0x852c3bd77d6641016b3014a298f65ab0f44d8a192c404bc49250756cf08b5426, 0xc5e70b07eba23c4e04603dc57596657f0df3f6b0845e8ea2c05dc35b09c4554b),
  (false, 0x97de6003a550284732d1c7fa7db3083ba4245faad278cec04faea50454211e63, 0xe250f63a1b3f2710a409af09a04f8c8207c3ab50e81c3cd62f25c1eb8d86d3f5),
  (false, 0x79f7e0385028e6bf374075d4e15db6653585ab3e7f333365c106b4e510373068, 0xddefde6f36f57e13ce9427c029f512654edfd8bbc301d8a46771182566280b0d),
  (true, 0xf111eed24d3c12eaa38296e9507f3f8e12bb9f302b7ef030b6f4ad3362f9298c, 0x9954cf96a7a88032d456fa19c483c0e2464c6dd57cd82418889420eae011b3e9),
  (false, 0x80ab9a1e2ef650f673a1b6e7cd801e33c7e9980a09de97e7bbd9dd4fc67e97dc, 0xd40804ffd4b63f60e597f097cc8205a34d672a9194dcd7b9c3384f232c6fed90),
  (false, 0xca9873bef44fa882a28d15089c7a405656b6e152a01a39cd87ff4f9b06d5e6bb, 0x7943b717d603005a1c5abec0d92db19ad8bee54dbf01f9b65ca58948250c71e7),
  (true, 0xc913c80a97fb7a9e450af6d07ac2a2a69648331ae182891b9015ba2653ecfb7e, 0xea4548c69ab17a6448df4fe7f26817f97b25f07073764482821d08b17f280f46),
  (false, 0x4e863e07920a642d7e90fdc59accf6c79b464fd98c64f9adc18c122f44d8abbc, 0x3c1ac8843c8b1f13ab4a9498da0f93ac35da06c51227d65aa6bd43a51ab64302),
  (true, 0x4682847e9c7485791818f9d084f23bb60b072ca73160c577208d6774707c6ee, 0xf0a368501697d22c2c7b73d8aa572370540f10c106bd9b74299de7153c593009),
  (false, 0xd7a9228d61117472405743fd10cf84524f51bf9606ff00e062f454ab5a8b2429, 0x2fcd1c52105d01ef2c1d0d95304f8be2c1f0294b60b3186d8b4abeb74c8dab3e),
  (true, 0xd0bf02febc52ee01af579c159cdd315f46bd52fe3bef3d1750dae81f737dd7de, 0x42f743f47e273f0f4b7bef10be43fc9103ea284743373635ee23624baacf5a40),
  (false, 0x533c6a40903be272c8ee503315814f610409187ce9fb0224dda1e5f1e30a3c95, 0x2ee1ee0d8cac50e426565c521eef21e534c86b8cdeb3e7f18108564821637029),
  (false, 0xebbe2e249cb146c2becb491b949dd0ab4c715812c6f436ea87ab2d8ebea6b422, 0xddb057745f13c9f1dd02f0a4319e9a7a6827fed1da51286306340f000e6a0486),
  (true, 0x780af848100bb1bc5818cd18d1b2da7c7d9b8da4fb88561a39053fb9113b229c, 0xf9ced3f5adbf87828d426e05087e6a4ac16d31dc5ce24b58236bc218b4c51915),
  (false, 0x33b460cf3b925b3dcb1580bb7762692de4df6ce1bdbec525d18dd4e07997f5c4, 0x76a4343c645fb7e19f89ac38d038ed6d2a97001a99009edee6bab0bb535b8ce4),
  (false, 0xb543de2b369e0d7c5e3d0c5c03e959dea1e9e1ad80702ed773f69cfcd699b9ef, 0xfa345de0778dd3311769ec21064b2e61b8eef48c05f315c8d0018e75c5cd74db),
  (true, 0x1938cb5dc672daacc89a96e318d877916a92687463570cb0f1009559dd95a5dc, 0x714ac18f5120f29b27a37f56344c06e95973ff260fede93b272a9ac8db263b25),
  (false, 0x9ef96ca531898f5e40fdd9af0334fb82e61b050fb8d68a36d2efc9d1e5cdd3d5, 0x6388542f7d57e3b4c11196b1bd26b225c5b22679f80dc55680617f7ebaf845d8),
  (false, 0x2111412de6da753d25f8ae05191053116a726a59f93940016b4f8aea67a4cda, 0x1355c03bd704b13e9e288d2ab18f90b5833d3764aaaad3ebbc250253addba25b),
  (true, 0x9cbd74ff9ff4cb2f93555e34611d8fcb54b8772369c860c4262d0a3313e4d2ae, 0xbb11b4997661505adae9bb877f45975e577757c330a91fc51e5bfdf984ec021f),
  (false, 0xc907e2efdd5454f92ca5da56e856db8badac950a1cedc457fa0ce424e47108ef, 0xb74055faa18af036c3546aeab35bd2cf7dd7065b1be31f7256ff0a7fc5db11f4),
  (false, 0x7181e2b92bef54bf130ac8615d96094d615691047456c472d6752ab832b14a82, 0x6d8346dd47ecd48f7c767af99987d676e12afa3487f6e07e38cf32f08e858a6d),
  (true, 0xa6cdf85d7c1c0f670e79bfd44645359fea723720003557a8d1f1997c88f05e46, 0xdbd0dcd1e85f12faeb1d14bb555e701ebed7bd614505d5aaac1ae4fc230bbfe1),
  (false, 0xea1b1f2ad77464b2ba71d1005568cd64bdf9c6922103ef7f636c2feca3f43101, 0x2bbebe84194c76708b76fc0bf6459a90ac331c8377736686ed424879b83badb6),
  (true, 0xcdea01525d3f5b6264698e797da45af764c1e11f140138dc50d51b7154cccc22, 0x5ebb80ff3797e4c62d21e95eb2b6b7dad7910cf7b10fb5f5638a1932d77b8410),
  (false, 0x1eb71ca4d174992566665395fc4502812bd278bfb0078d3a9ad3331432080833, 0xa801512795a5a217799d47d94d258acb9dc7fd01a119f0eba25d59029a7f3963),
  (true, 0x4d8ae46daeeb49dd33b41900ee0e03604884a95a2cedf1fff3c3017fd2f67320, 0x4bba8e454d976a25355161853de2b423d2a0d2728d656885122fe7d14e55b1b8),
  (false, 0x3f338980b32a474632caa6518c97e37384aa655b30a9429db756c457f65dd34a, 0x1ca16e3cb9a84f041157d2760458ae745c0c3e434c88d72fa2a09c25ddf025a),
  (false, 0xb1c8fd9dfccca00434e98fb6f5a07c9b3577378de34fce4735e38bc033ce209, 0x1fac202082fd644e909a882f42b455e107bf985a063f7755406cce0149bab3d6),
  (true, 0x7887357e266889b30c8ab231ac7afdb66a847bd6032bd5787848694ba35e4e68, 0xc2bda4c16301284802332a364f2a0f8657a192122709e442b4514eaf554ad0ec),
  (false, 0xe65b090a95a2914af5d2c3e4ab2a2eb64c1cf5e96c3bb6897081e434e1431053, 0x9ad7d4494086abe2e1a7b7198d5163e7e0d65d8f0cd58dc12e3cb3dc1ab37d73),
  (true, 0xd0849f96af8ab107a9bd686f1cec0a3b6b078368163bd4eda9869f68679602e7, 0xc8dcb987377b0ad99e7563905453c5f8c52f25a097dcd6ec833ea01c8a7068f2),
  (false, 0x6a94d1290d98c5468732a9099cc29785b9f7ef17ac1581ce71a85cd9da4046af, 0x525432c5b477a8f59e62175cd27284ad3213fafe4708e4f18a598de8598402bd),
  (false, 0x4e55741fadcb4ecd0abab603bb2d17fde39da5bd4406b13e63ab35433cbab2ce, 0x4f8133efcfebc1baad58038d83eaa3214f797b900abf5697c2c22c56c5981ff9),
  (true, 0x7350d30989c0c2e55c1180a58f73794da940a9761775afe368c364d76620ccac, 0x31fc9822bca4dd25938b8e6b467633b1a395eb80dabd74d93bf55e4c573d9bb9),
  (false, 0xdcf0aa99eb2d27a8fd5fc5addb253ced35ebe07e1dc9ef30001bbfd54b55ebec, 0x137de9aa5e1c5278e8429014e236ef93d6a204af85c2e66b92319d04d25a84d),
  (true, 0x9ddf73d324a02d720bb2412029ef61c63a935fb6c07606dc5f4bc5c9fe65f88d, 0xa3d99bf2cdd499a905d1c5c9718c07d30ce2fed597d45da41e79007ba1a9ff99),
  (false, 0xbecb4683ab10841efb77d3e16532afdc0408278a9ef5c8854d1e6ac596b6c180, 0x2f6eaeea4fbad661752feffc4d85d8d026afd78692d7abfccf22a595e69e8f50),
  (true, 0x7f3884e02c4ee06657c57e693c15e73846a188ae5020553a6554c6e88d46ae6a, 0x86e51ec3e50750248ce9bc60f9948053c0ea9cf0dc5ceb46318137e041d7763),
  (false, 0xc9340d137d8eaaa3013a5bbd04185f63e2184e38397177d6d1c4637742b4ed8c, 0x79330f1ac4a4157afcd03d587bdfb89c74388c802b54401b42e9c96750e0eede),
  (false, 0xb371f028126c676cd92d0c7e533eb71231ef7ba784204fe84bef76f34b1679d8, 0xaeb5fff8faa3dbb780856dac00bd751d207a43f71c97f23566251b400c028c6d),
  (false, 0xcd7ede8005d27060e40362155446dce717a85a03f30c784f5c124af6b8fe4e0a, 0xb13c0f7bb59703da6956fb17a266362b9ab150b9ab10e6bcb43f0c0897e8ce38),
  (true, 0x89278f84d8ae41396327b8c3b75fd496e88c3693372c5deffff677ca1b1af3ae, 0x14ccb071e40653c9a75febf25953915453842f1db5211da75b1dde10a8db6981),
  (false, 0xea794f1805d9b9a353d1dc7f8e090f3856c216f924e05a44e35bab81dd97dd73, 0x9423b937967e3a7e8ee1163e84db40eb079dc450db2bedb1a5df10fc3018f007),
  (true, 0x58c2a44f4182d2b43b1a210b177c95d92be2b4fd5f1a73dba5d2742769ba363f, 0x6e355be74874936149c42ce307d8d3589c9dd56fcc04e8e5c7da03a1aa7bd1d),
  (false, 0x615cb51877aa4c3fa2ad6a6b6a64dad62a9ff1438f82fa4b501179afce7c3689, 0x5065542da163616b7edb4bcc5178df2134a203b60d103dd097e81ca1bebcadcb),
  (true, 0xdde4dfb5dfca4fb57a8ce9ba2ddb2e52380942165cba4719d2a925b9a4ff6ada, 0xf78d44a4251d5af7ca3ef4fce177626ffbc755bbad781c7ab0b12bd7972bba37),
  (false, 0x6d18e5da0bb638acdcf053a8a4c18563ac2f25e7a5fb7e11df1bee0c6bfa399c, 0x26ef4d15f51b5bfadc9158bb92987ee36faf52bd1c1f26cd6fefaf6be261663d),
  (false, 0xa2e971319e811abcc472a10c00a63c01b36015b9f4c903a66eee38bf78b69063, 0xc9e48179584f643c3ac90f8c01979d80da43c28aebf1488a5eeb82eb428ee39b),
  (false, 0x4060295b881020868808d601fc617ed310da680dc1272afeb51d22d5c641d012, 0xe52b58dc425e36900b93810f9711f4341c4bee0388e86a5c1007e8306df3ebcc),
  (true, 0x64376b21db0e240f0702e4ce7e5db4b6d288dd2a8f1692c172b5442877dc1e68, 0x3460b832e999a1f06414a052ff3c73c092eae71b2b9a1d13e918b1daa10e3254),
  (false, 0xbe92cb550ccf151a12d7e8f4b31d84905f1b8e8ca73b2a06ae5d1287bf4b9aff, 0x24037ddb37fa377e0f77f7a707eca5629c5023de82dd97a65a31cdc84a1ad5d2),
  (true, 0xde625ea4e553f63b2dd771fa4bd4a55eaef1e3162f831079f0d5e1753a1f4707, 0x66265b318080ada3509f0b767c8e894ccd8cbec6b5304b56f8de686d0eb6d577),
  (false, 0x6875495401a76dadc19220b0da504a054f7a470b9de35fc9aa385ca9683b1a7f, 0x5f04e25cb19d290a14c25e38ed7d03d288b53fba8815f4bf1e8acb22d182f2e),
  (false, 0x435605ae5afb180de74aa637f81ed1c382c26fe31438d711f624e46e8ed475b5, 0xf547e8b29bd65b0fe1e6ab48654b445dea46f4d7d05d012f543d6159c8b5730a),
  (true, 0x1aa54b79b46b53f6c0ef8af06c63d079781837b8505c60d6604480d427d2de71, 0x79114095ba226d1ebe73182928e460044aaa34883f653f481aa7765f115464f8),
  (false, 0x21b3dd09141d3ea81aa2d8202220fd0231b0af46f80af5055cd0241b27d6a9fb, 0xd0796f6f48b66a800848d16b6b855f2a97c70960280de5a044cb68e8cb291ea9),
  (false, 0xbd68db6f221b99f8092066109c1e26e7d34769d6aa94b9be6447bf444df65416, 0x11a9e7aee55f7eec3709280d32a864f5611f9793093564881e0672ad90f7561a),
  (true, 0x1064259d72ae82f5ea700aa95cbe20c8fb18726142ac757b15f75a8dacab132a, 0x616af0aa10d3e4c69f8c9f0003dae01ccb5ebdfeb06d6f6eb47df818920cf537),
  (false, 0x8d67d8a424617b252ee8402586d0af21d66ee38a0b92479ba7fec6ebdd119f88, 0x12a6c261d58bbef8d69558eb93046a6f0cb4deb6d055f1aed863ffabfd00b746),
  (false, 0x1bd3f4053f1ee58fd22d848e77c79100d20b2f50b5d715372aa9766e2f7c2f89, 0xd1388c8905e5c09e980353ac185559827024786e0a9ef4d4d38ee287c5fd2564),
  (true, 0x640fbf6a19422f4a0d09f5efd974af6853f3f7f0da58d0cb0d6e21a093bd1ade, 0xde69a3b23101c4fd8fd1b4fdd6e46e382f35f4872c5f688dc221ce40ef90da11),
  (false, 0x72acea11a9586775aabdd4945d6169cf7e2af30f3b9d2064addeeb35858193d3, 0xbfe6c5b2b62931529cac291f44f94d260023e59a482edfd26483c0927dbaddf7),
  (true, 0xabaae3174d100d86c374264261264761872505fffc55110606506b7c5cea7739, 0x43b513628f6be648f5601cf6322b0d940a84bfb2f1f3c39c7f6aa58e40b11134),
  (false, 0x2a9e8a01fd899fa1697bf933e44f9372f7e4ab7475a65ac5f9eedffa158a2945, 0xf9f90f4b4d45d2caeacc4d6e65c7a921376f8697db69c940ec3b7e119ee69bde),
  (true, 0xa437e9ac01b5edbd44371e4836e9f75372b2d57c82e318fad8a1943802cbb03d, 0x514f19747e15a1f5dad3e00c699d827f89be057f687e50a42c65ae32389822ed),
  (false, 0x58ec90e5ca62e680b73b769658151c97d5c32b5253a326cc992da56c3486a2cb, 0xd0a42b4910e2c6e83a8adc76224688ce59657cd1978b970ecb3df995839f837a),
  (true, 0x3a41b097f3b1f47679b8ee258ed73eab4bfe769cf27ebcbfd80adbfc962c2591, 0x668b37a247a80f04a38fad09398aca9b0d04e52bed2cb2ea204e678c6f1737aa),
  (false, 0x6981aec0adc4022c3012ac6185a0dd9b0958d134932313d276940b9dd9ef8aed, 0x1a35d4f9990db04c2ca787d4e05cae9bc3b476c30cc76f67125dd5538402e8e8),
  (false, 0x7b7dc4ffcbed4c10c76c29bfdf82718250ad3be97b4d778dc31d83418e89ef9c, 0x4d912e38840dc7741fe45a0714d09ea588d49ba1d98c2216cd33174c44b2e5ed),
  (true, 0x13dea541142fcb5bb5900f4bc9ef2d44c14546438631805e2267cf8d875930d3, 0x1a6bef85f512c47681f5651d2912fac5815ce358c428fe9938be9c16bed02c6b),
  (false, 0x1c3f22027346472faa1ddd7b1ad00e22a10cb302ae191c0fe7514a34660a7987, 0x429e960a772acde7e164e0fc29e217957dd4c24443846dd0510bc8b9ded5ef95),
  (false, 0xdb7c545312db194e8c651a291317b7c9c8ab3cc48ab0fa9ccbaf1b9826fe4907, 0x104503edb8425128433e33ec9dc1368629e388efe06efc5dd77e7e1b49eb316b),
  (false, 0x95c65a08076f8d8a4800dd9725a647fa11b5334676bee2d9f514f40212559943, 0x51298cd0f9ebedb7936f3ca5e825fc7b6b7365e75af348a2922b55276e287630),
  (true, 0x5c6d3f275f8586c9f9d495a59d6519eaab7638908e6dd2e2617e9ecedab10268, 0x662779f0687cf46f8d2d7105a90b7add59950e9f9e4fe60aae55b22f8e5d924f),
  (false, 0x157992523f500d24a0981c07238b5097fdc7113ad4b7850c48e2513adce9fbce, 0x64b9eebfd9dba130d1a89bf7350985589326813ef813b3256832a54357d1b4fb),
  (false, 0x3e6fb8825fc86cd3ea21f178c80db94765dd94e6182b9ce70351d54613a586fa, 0x75474f302f2e26e1040450c5c21ee4bb4cd61198ab848778e195e21ff75d3458),
  (false, 0xc0345e6a332abc4c820ac910821ba56f7b874ed568db814148e83644e55fc8f1, 0x83cfe84d2e5cd5b3cf8f1eea5ce40a12eca67352bc7503a23795350b9320ed37),
  (false, 0x32010f12c0902955acdc75b3e601a547b3212691c645eb0f8c85a4fc94766b0d, 0x55f1229b81ea9c07076323ec016824b167ba9ecb8c71f03103c54e041497f773),
  (true, 0x15204ba630e2530b643e9ad6385e3ea18bfec0aacf2ec3343225908e36b9bd55, 0xf705bbce0ffc5d3f8b787ba9c763d0e2aea597d19d0072d100929c4aff705f0e),
  (false, 0x3b8cb57bbf18b91d243d6cda29af58475e530eb2442bee4dc6030820d9161ec8, 0x3a67030248df1f93ff202a5046f8ea0bb9ada2e37b385cc681f735929e441118),
  (false, 0x31ef101ada872621f7cd15cbdc5e766964c51424046e0594875a7cb758317cae, 0x6739b90dac8e5f1a4a9e50e5029421e9e9551febaf3b80485c82370d81cad5de),
  (true, 0xc0e4e84498489a714c6b7bfaabdc4116de4db0f226e138551bacff0b553ebbe9, 0x48683e0b9f0d0b9dc14231f638899be10ff716313dffd4d3871337ae0dd8a5f3),
  (false, 0x4d2b3516ba0049854e67d41695eb8ece643c93d17e0994ec139bdaeb2936827, 0xaff453544e112f0d859b53ef74bd999079ad82b5d367e4276892c886635a4418),
  (false, 0x32f44a983fdfc81f9a4446b0aa6d39a2433544bc32890e8d9fac2d5a51a0695c, 0x142054a4949028894ae64f3387f36615d713404186a4ff8e9541ce5a056e53c5),
  (false, 0x8852100b59f344a5da2462967a73a86424fde8eff20521a1cc77cf49f13dbd95, 0xd2fc2602b0d516972659d99fbee83123088fdbc8cb6c5e400f64e1e31c72bfe6),
  (false, 0x348ed1709ceef43fb91b6f2100f419c3b906c5fa564f4e78a2c44a31493cbbd1, 0xbb0c5e0d14d4a94f277185952167db14b94d9104e1949125dc8456412f369a02),
  (false, 0xe95d6e1c9fd8291dd247b53962d73f534efcbc59d8d81b8fc63a7e19d133e390, 0x5df18b5af183919b4406866aeb31e093d70472fd950a756745e949c574840571),
  (false, 0x28d5a32e04c63c8d89b67e19f92b11fa1875c4c0ebb20c458ad3b3142b4a2bdd, 0x27ff550a06dc3cc2b1dee4b81dfde2b8f7c27566c382148a051a0dd0d9d010c8),
  (false, 0xa865051d205a77590fcf7f8f8086a44b77b601032d8a5cbcfe8906759a502a18, 0x22762d113664ad234f22401711c6efeb3f655d46416925761d89e44b34005ad1),
  (false, 0x32ffd9cc2c00b1bb073c1b9bcf1dd42f5a9099450c8650530be639a7e03f5bec, 0xe36d33df66afd2b863cf1e34a69ca74d62866b6a7bf984bc37350be6ab250657),
  (true, 0xa4519aca72e55260e0987994706c7fb35f0ef20b151458d4cd5304bfa1982d76, 0x8423b13a44e3a2373e4ae45af40d8ec62f7fee2e0bea944342ad07fd8f35b5a2),
  (false, 0xff0bd3cfe9e6384e4a6f8aea0c49820f8a6235c26b7df3b1303f5b24f9350857, 0x10b09396dcd3b62745a71a1960add3720b9f9357d5693b41c806c81cfe566f83),
  (true, 0xe3ec00ae68d06e88174ec35765f7d2fcbc3720d7f8222d3e3acbf826c3bacce0, 0x51c3f8296258ab99fddacc54984c16028d8d2aa6c9ff3719e4e3ce8e04c67f22),
  (false, 0x8fd725c034c0734d49a2d254a648e0d3184738ba4c910c6f7839a6c60ac646dc, 0x28fbcfa879b49694db70b9275bcf103f28af4b1050d980ddf3853d14555b0810),
  (true, 0x9bb191252e3c7aefc01aea891370149906915295af0da2fc1f991d21e340eab7, 0x9a2e6a56b0be01b2bbb74f98e3cd8648f1fda226a207fc47e99c74b7870e7d0c),
  (false, 0xf9956bcaa4a8536f6d121bfdca14367c3a7f407d95b05521825d1c75fe003f7a, 0x7626c0c1ec505ebf8c8b8308219cf1b0d8222178bdd36921aeb054dce24b8904),
  (false, 0xfc6e16a09ec446a0a3dbb97c2e5253a958b416f5a142ad914b5c2841b9585eea, 0x48f69ee27e5d650686e385d797adb24ad7ac6c19500b16e93d4f1a1fe729c601),
  (true, 0x333c745e38525f4077801afc00e5b153165ca879905b88a2232bf567668d897b, 0xad5c81be95a3c618736bc8769584b4725b5c175483aff1451a466bfe9b8aa67),
  (false, 0x8c36acefc7b137558fadb08ca4eae40bb89792da1ca8cc569ddf117368de9028, 0xdc9fae4bb0dd94923ed4b272c55cc13999d27b4b55adf26716a4aec636b80c06),
  (true, 0x28d168b81bc1b9c268f8b95e9e6d2ffd2005aaa5988c3ee25003248eb3741e07, 0x52d4f7a2a77b07f5146a3a4a175ce3613fca612b43d42599c30198eede3006d1),
  (false, 0xb1607b85c363aa347a726885b5bf3859b8f7d266ed5264145a1e3fd19809b1f5, 0xa705db1c424a0e8da6eb29fcb742aa7bb31a5cbc0785138ecbe54061db2dd445),
  (true, 0x78bdb5713a1af9bab2918547d7295252a37f7c8246c29f72c2e2ed16c0639d33, 0x4aa387075981262f7815edf745310d4e6cc8603aac5c5b6c22ef573b8bf3a709),
  (false, 0x35518b8b14db9f85ef2119d3382e952fb197ddde9a6405cc7028f3ad8d81f204, 0xccd8592986054e1324d25465d8c4b5b2de82202bec2335cdcca9bd4adcc2508b),
  (false, 0xba4476dd3bee70dd3975db4565d2652178009a57cdde3cecd44f17a464ca05b1, 0xfd75d93e2a101a79dda7e6d101d4b0367a628541713381be8c3a901867549c2e),
  (true, 0xc34ba389ebcbb47b218f4bb20f37d151f9ad7ade205ee5562e31952ceb7e4806, 0xfec9c82b32dfdc57f4cebc0d13d46269b1744d8ca317fde456f8d42f982b3605),
  (false, 0x75512db1b8a2301dc0d14094b45bce07b92b9783cf8a8621af6a162efdd62c9a, 0xc9e3a5ce135fcb0cfab3ad40ee1b35815f6a404880973f6f045419294ba5073d),
  (true, 0xcbac422272a5b598555ee9838c889ede0111f760dbde6288fe0d067ffbd0b3ac, 0xd3bd66fa83862fea0b75144273cd12810e847b26c1b602f6e0cee239b7cf3edd),
  (false, 0x32598726f07a142d93c37d975645be29a85fdcdaaa86c3bb0dfe00ca39e131a9, 0xd14bc7ea2d0e08ee08c91b41e5b52cdbc1c8339ebf27656457d529827fa8ceb6),
  (true, 0x145ed8bb3babbec4512f57058bf953fa84653c92e870f83fd49f7801feef077d, 0xc927f09b051fd0a7a11b771b0443d1b59e995731aabeb925c21ca6140abd1c11),
  (false, 0x8e7c6804dafb60aea739a510ed9175885e034064aa7561fcd3eea29927847a61, 0xe6dcc029a6a117dd3a129b62b6a3e5fcd9e844435b9c59df744a366869b11e67),
  (true, 0xfd0f7f968e5941d82225833b2b09f2f759dce1f348e316b7a14b11d9aed8f289, 0x9310014764b2da94e7a92a0e77c21d7d40a3f9457ccbbd713d7bc6295dc114d9),
  (false, 0x3d3f4046963c51c45dc311b7a736a119330ca3ad22e91601bc1e3d372c348261, 0xf77bc21a6c2d757ee69775b746aa4b043627b806e80eeed168ac10a7858d2731),
  (true, 0x7ca9a7b123ccb56ba2fa282cfc90047b83ce7191205baf5bc6d53a2db1f7da9e, 0xb0c8088eafee883df4f419c30220eff64d4d05d0341d1250340a87bcbc04613d),
  (false, 0xd3e20ddea64b43c9d5c41a6016a69cb055dc8870adf4bd4a5d39acd003e0f7f6, 0x5e8079aece6171e65d1645f5e3ec9538799e90cce259d01d9bd97c1f11269593),
  (true, 0x6bdd2b3b017144d4e87cada2b03f36790e569cd0d9caeae11eb287c025297191, 0x8f5d6634efdc4a37265019bcea5055db3a203cb40f05e16bd81a47b62c6d51eb),
  (false, 0x18a70863f2f053b022b6a54f788e6b420e8386b4b0c0a4bd0b71fedc557a92ac, 0xddfce9d809f0627465653e001877e847c7843e02421ba2f0ac7079f56ba2f048),
  (true, 0x27164e2777658edf4d5455b93d864dd1b5b59a1dd1e6f7736d5c6b51169256c7, 0x693989ed1b577d228fe0d54a002a8cb626bb977c54b396a5226ba813a2a37cf),
  (false, 0x2b85b15b80dd331e23c173a5e9950e40f76ac65b1d8618373ed0a7cd8908b018, 0x7387c7e789213e526d6ffa352da854d7ce553520d3cd5b0748bd8c1a4e0043f2),
  (true, 0xf91a342f3e683bac39d6ba71606f586545e1e0c3360f89660a118c9f5bf94e3, 0x3ddb80e975be421d1e224fb8b2af83189f9cf1d3fd2168708c44198435a2d906),
  (false, 0x87a2ee0242ccc236378a6e820f80aed4ce33b04584c18953845750ee09c1f7c9, 0x336ced8552f14e0bbfeab7840cbbda7d1b899ba71325e5c485921d399ad63501),
  (false, 0xc93c1b00bdeb3e4962dca57a3dfce74d11824db2f164a366f266f8cfd67e640f, 0xd790eaedc41b3cfeb890bc2a078df7f8d531aafcdec7141c503aa103ffb3fa50),
  (true, 0x29b2a9955317107bdd2bd03faa821da45bbecc9cd72df5c4b5a1d8db76d14d80, 0x377814656cd36d9934081511184dd683fd878dff026f84602e0796ad4d6e1653),
  (false, 0x79c59c014e469a3f7f63af79475c7c6244639bbc0bae6f7ffc6a3acbd539f5ab, 0xb59c06de63f2084c981f3ed26e8af1b9ba22afc2db9205594b034224261de6a2),
  (false, 0x2b4032a979726ff75c61ea2f5cf1515e2667d28b573ad363f39a6374879ea326, 0x64f2a2685f47aa90879d53c31dc75261ab11a3ed3b6dc4d3e1ba31b9ff70817),
  (false, 0xc846dd9636a5cd2c03743b9a02a00ca1fd959147dd8f97c305800a9f73dc490d, 0x58497a09399bdfb6664bc9ad5be141f74fde899f7e000e3e596efa3ea47d283),
  (true, 0xed9634a7e20eedf6befdce7ff76d2fe378c8876d9cea93a37093eff21b0e988b, 0x95ab171125c2f49cbef93dd1c70b5b9f49c59519e3ecfbc2415bb714d19bc92a),
  (false, 0xf7931b71bd6a67e7fb47973633283eb6e0cc448efdcbaca935894ff325da38be, 0xe80340c413fe97d7e7576ca033e14f0a4e87411e9b4578a6a447c3f2a558aba9),
  (false, 0x5a840398a1e667ce83a5b4dc189e4e8aa986a00739950f11d9ec8a41a11dc185, 0xb555d8106f30325012d4ac66954c2c56b2bbe2a24e4a4409fc7b2286c440e2c2),
  (false, 0x6a9c9affe752e09b0fffd6d69f00e9319a5a8be1216cdd204b2b76adb7fe430e, 0x76f51b82933451a432e792a1d7d1b68c83d45826099ecbef8a9eb9835b6ee2ec),
  (true, 0xdfc437815a4a0c1d022af30de49e99d92fe49857cd1eca852f3c784c62aff48b, 0x97027fefbb5cc1baed3b037ed1bee6c82bfb3af05bff706d50d7660e92b6068e),
  (false, 0xa7803e7c26adf3e7091062d77ebd9320ca585587009482bf353b748cb1d43c8f, 0x8bf55d7da401c5e21da31c9789f106746664706b5d863b3d4933fc914379e6bb),
  (false, 0xb0071f18ba01f069d5b38d291778e1aba0bb5665e27071cfe93aee8761a8737d, 0xf1219f911c2b584a6c25e50652ee81ea244aef982b8c1da80a02581445dee978),
  (true, 0xff7a83c725783b4d5a8c668a775c1c75c0ecb0bdbc1dad3aac3705d5c7269b55, 0xb73df9cae6b7142866c560121ba82c2a43eebcd920c2d7ad7418cb7b64037e80),
  (false, 0x1baa7fedeab751a330c20e249e67c8c5b9c315f3f07ae334f585dedd486a00b3, 0x1e17ab239c5fd28dfda0be56ae22468d3fb2a3d3b614999184c3bc0d0db7fcfb),
  (true, 0x48bcdcec6db543bd7c9f656e069e38c762a97e89a56c7e36ab379ccffc928932, 0xbc89bb8f112699cf6ac80307e68ecc935578d9590a00da2b48ba149d2a765abc),
  (false, 0xf0b3eb104d8398925ea1e23bb396297c3be5ecc762e66aba4e1526383f323ca3, 0xebfd6fbc4158015a43c836fbcbd8cf0edbe24ffd6f8c96ad1e957c224d08309b),
  (true, 0xebadfa67481c83c43051088ba89433859dffac4a0159f10cfc2236c8912bc903, 0xdf95d23ac3f14cc23b715b7cc83e1c347d0bb80ef85d51294cc87c7efc32aaa6),
  (false, 0x11d7bbba14cd0892f1caa88bdafcad193d63d33826bae8f37566b03afc72893b, 0xbbdb995104e8f64c626c8422107a6afc5998bfc71cda39c2c3893f2b7b189a8a),
  (true, 0x32abae154a169be2822476ed1e837893e8e28bdc64b39db396374753a0d79ca, 0x621c0a80d91cdda24502218b9cc6ec068446430bc38482275055b7b97c59c04d),
  (false, 0x9808ecf7beec7107c9f854e501b955cf1932e8aa4c7c4f81b1769b880c253b10, 0x1e1baff0353575305f5c273f355c74432530749d1388288bf2a1fa9ca4e8d220),
  (false, 0xfd688f03cdea65a132bffaef52e13ed3464ad04781006d48fbc822193b917e49, 0x8b67caf6ebae54aa22940dbe7b2665b0f7453385432e945aa7af332a458de381),
  (true, 0x2e7f27e454d8593c574e5cb89b99255a11b15f7b6d98582bba98be008febf717, 0xef2180a04227160a5e81dc2fa77a744368864e39f866f8c295f870a8bc616b94),
  (false, 0x8b8e7d5a90a242503d8b4693ff8770ef129070011b32e57f65f20ebe996f459a, 0xdbb3730bd44d388e6b0820a4d5fbf257cc0de8318600c5b3e2cc4660d9073336),
  (false, 0x1d191a0947f67b870c31c0f20d3da6b66d4fd0b5a49a32c5a07a776e6c734262, 0x3b2a3f3972f2d8e46eea82d5880997bff2cb652e3faf208e96189284c63ce0b7),
  (false, 0xb7da96bf13c179bc9a9c90bdb7b6c1ef9d555e6799bf4f76750b6567c651b465, 0x28ac804031a2b0068154809ef06a8f48f6ed63f5af4c9cd018b66e25f5de12d1),
  (false, 0xe0de30e176e9157fe2531a74ed6bc1578e41cf851c0e4de0b26ec0a4e00d106, 0x9d02684dcd49f8739bbf58571755cfcc2792091938cd923db7c2d847dc197ab7),
  (true, 0x9a5304fba67910bd98f4869e07c56de41e09209e665ab15f423f1dc1937ae2a4, 0xa90e1a01bf78666966e55d4e59a83440d9a4565bf11606af99035611aa33bf9),
  (false, 0x8bd000916fdca7d9bfb18caa3927b9ad205bc3c4a095b3ea5ea249bd17556262, 0x31ab9e17c27df01455374bb56fdc79217dd6c1b9af79b0f2665f6b9a8429c65c),
  (true, 0x77419938fe9d4d183c6ae247d7767c8255558f79293368541e8f28ae2d59db0a, 0x8c27c4622729de14aaf233866eadb3a459c798d14ad351de9092d7dfd8f31e7f),
  (false, 0xb9e371aee5cdc7090ea3329bd143a940d45cf9cfac79365fc9e17a81dc55ba05, 0x2daff17326a770da5f89bf10782385d7e0275a53616d417c7b35522644101836),
  (false, 0x7510b3cb6e7dcff96e4ccb661b959a00524dde58ce83aec00ac8e4d627a6da61, 0xee3bae36ecb330bffbe41537b2faee168c6be58f1dbb5dfbcfc3032b6653a673),
  (false, 0x4b6701f85dd590c9fc6a1b968e883c977ae713046adc38de3fb8dc991ce9c97b, 0x230d4174960055438eedf28f9bf2fdde7cf39cef3460e603d29c88d6d3a34024),
  (true, 0xb72af3058b1fc76a171c9925feb71d0da742c0a554e36cb5a86f7a08239dfdc4, 0x16fa2343491e387c6738fe94495c3b9d22b3a03496f2c3512ff8ba401e3c3bbe),
  (false, 0x2124fd95be7ec4ec90983d29978ebdb0a0be356a18f4758b91957aac98c76b36, 0x6ada6688a90b7190957bee08838adbd310eb63ffadd0f2f4a62f97afbe7f9a36),
  (true, 0xf7bf95cd74247863e1e94cead464864357e16c6bf35eafcf8028c41f493813e5, 0xcf2b7c5ed5f782e85fc63fefe2e7410cbe3711c98b1ef7de08ce1a20f7f7ba94),
  (false, 0x2675d6c93721ea437088c933eeffde4e66294b619ce91f85ca6df32f9047e5ff, 0xb7966ef8909331eff1091208954c052bda348b7b48d110b3c196b102927da5f8),
  (false, 0x4cd2114f2e8603244ab075376d2d00df0062dc86e2d780b81a62b7adf17444c5, 0xac847c3834db991dc3d7dac3702091ae1184c2689ce0fc68a932d1fff9dec08e),
  (true, 0xcd559700b304f588f65ddeecd3cab1f2357770ac27c27f0fd26aa681937b6c0, 0xbf59d2a1afe067dbdcf248e6f38d5f4a7753077d0d06b7062caaa1dadd5cc71),
  (false, 0x717f3cb8f9a9480973abd9d07b11a6af00e5f7f782df9713cedaa351dcba6d9e, 0xa8c848d088acfe8a3b55637da8e7d077f90d13e7c95fd67430386eab5ebe88e2),
  (false, 0x77c639032f4393edcdbe84e3e4ad619eac36e0145d109daca12ee5576459c9ab, 0x89fb17e7a23bcc1f51711fef97bb5d9566535600b54def4772a109fc42d29291),
  (false, 0x5829aacacfb75d57fedc9919ab2a302d39da56b7b655c6e96800bb5a9d51cdb5, 0x512a90c5fc0c2627ad91f8c657529cda4acf8d2da5cf6e57aec20cb55705bfff),
  (false, 0x117364d1a188812339342d6faaf9b9d8c4b41fe1fe92733d8ff4a19fac5ccbd3, 0x90e186732ceba6b53d27529891ee2e96bb2bad9ad152d94feb5ed854ffb1160),
  (false, 0x3c58748cae51b1cf8ccad71af45f8d62dd0561bf168a99d696253fe33751ae1a, 0xf091584b70288f392823a9a6b25c2c8d04c4868c2221a19af737e1a8374d1f41),
  (false, 0x8e25b7ae51eb379cea6e4db5e69b4d2e48ba771c81e3cc77061c680b9a85764f, 0x756d0a9f3b40d862186e88fe07cd243b71e0eaeaf657297ee03e0e6e1b3ef5c2),
  (false, 0xf702e92b07088ccf1c7f7c5e68541310b3dbfaebee0324fecd073b3158d0c2eb, 0xffb186d5a656ab5d58d1c9e5bd82be3e93e53eec9e7720cddce0fd3b54ea7e79),
  (true, 0x23120c600275fdf907f4c63f66c9ca1fef2db61fea7608c53f3d9ec9bcb075fb, 0x22b0f3ff8b73b4c61901bef0e342e6bdbbaf17a1022aa607381afcb5f94f8700),
  (false, 0xf5318bf91a83e7098ef58c6ddd8decb543a809e8a13e4391f5031bbc0f533f64, 0x45f1359a62d42359056e2ab80954c9e96c762d8dd9dcb1c389c0f5d8531151f0),
  (true, 0x2e290428d3faf014030143470ce6bca17ab9345b8e835de7d1e639bba1e5bdd8, 0xfab5a0ac7d73217f68491376c75ae3e207aaad863a26c5eaa033f83d0b373a15),
  (false, 0xdfe90ca5548408346de9aed2f892e1bde88ae07b61c2e28fb1fccad902d49020, 0xb7fb7c9ad65deef36a0544b0bf4f7abfd1b2a06e0d566ec94fac858609d6cdcb),
  (false, 0xf800c24e1445611f69d3f2ec1dfb450482695c555c8ccb19dc9d7f576c46f979, 0xc20aa0642780b46c5ff70ba929e92fe37ca285b337c90d00805a4341b6e22bf0),
  (true, 0x6ed3c7cbbff844edc35dc20bdfdd251767ff30d0cd26ee1b9bbbb5ab5540ff60, 0xd1b8d380adc7fafadb5dbb8b2a46053fd7b83489e7d12c0763bd4dc9b0186799),
  (false, 0xef5275da96b0c77f493c66241f649375eab7514c7e92234a18a61b41f9eb06b0, 0x6d98d5a7c7bb178a5464147bd6a8b1058f71312f223236a765bd261b31a05df5),
  (true, 0xd85b9d81804f75b76744ab9371a216c8e0751ab93d5a5ce5fea6ebbd32c3ba4b, 0xdc82012ef0b98f7bf317786e69826cb148812dba5f80d789b32c417e0c7194f0),
  (false, 0x834e691bcc30d8800dc8c6ff0481adb1ba197409e5eb48a54e8f492653bdffab, 0xec233f67fa7c0714ef529a14ccce39d3ab595b1ef801313b19f03a013aac0cb4),
  (false, 0x99dbd8fe234c8516a84c21ce12a81a46187041b71f3ca6a05225b75ddc9d636d, 0x103db3cba4ed3dfeb36ef511e484167fa0c84610b3abae405a40be34ab8c1411),
  (false, 0xa0245d83b1457b6611d1231b98dadf9201f26c638cb03e4060f964e9807f0e16, 0xd67e2cea73c2b7006310fa22e059eb922acac7d257de4116b4b86f8de58ebc5b),
  (true, 0xf4295ebbbb524f05ed096edfb57704113ba4ca94d1b1b539ce8f30440394cf39, 0x2fee88754a5d53596be914326dd9d0435c5df90e470fe8394b1d61cc0b9f0165),
  (false, 0xaccf43e70c4900e56c9414fd57f2206bd9e8fb55ab1e40dd1af539373a58ed81, 0xde83c3749ce258f98118fad43cba0853338f81bc2dc6e39bd810ae0622e70422),
  (false, 0x8b20b1ef875b4f0ea0782fe906159da0c62cadc18b9bc14d2a9598b5c189e107, 0xfa223d773182d041a44928656832f024747ea14d1690b5ee8497c49d262c956e),
  (false, 0xea766aedc87ca1b9ecc5c3bb0ba49b43c2edbedc673707fdc234f74c7e76a0db, 0x927d17f351b6425e359b7f2e13b963e717755ace4fefcbd20dae78caeaec7fc5),
  (false, 0x1188f346c1e0517f809acc50daa6608f04175eb95fb762606fd62573196fbabc, 0xb05a2ac6c1d2fc12f33a67302428f25d84093a864644692749363566c71d1837),
  (false, 0x5ccdc614cb67789e573d7fc6092e47af6eedf507a4cb6097a2872654465071db, 0x9b25ae1bff2ade1558886a8a9ecfa421cf301ac5c765c4bde6be69734402b230),
  (false, 0xb89b4aef0ee4749350d17606d549453085d14c129ec4917f24adac9713778657, 0x8021ddb2d8e02118d9598ab5d87c2e615170e583c727da0dbf8331b2814ef6ed),
  (true, 0x750c48ea743e024ed6db98d688af9feea98d19605b8c35f41f7689feb4947673, 0x18fdbc55b1536ec580b94e206c060f3da0bba66c48f82208afc55028bead3906),
  (false, 0xb2ecd953ffa503c43af22fa56ebc56fb8901494c72b5b96aa3f4308287f5e8c8, 0x4d5554054d04eef6ff7ab6a9fdba62504329d19cf70bcd1c854e5a173c50c538),
  (false, 0x728794205f90f54bf5d1e505b38217947322fee226e4434451a4b91167a47c8c, 0x464f7c78b01df1503055380621c3cb35c8f8bbf3afc4bdf9e665e9aac19a71e8),
  (true, 0xf4f5086c4adf5d72f97848e135ebea1f7c3231ad2827e12b61b38a0ab54af9d3, 0x7c49403601263860c0b8e2c0535e9989e39b3ed60b5034cee4f38fe3f368c72c),
  (false, 0xbb2228d3ea32cb3c1eb160cc824a4ba8115f9a7f415d18ddcaac8193defc2c47, 0x8e07363833ca066474d5432354792ed348ac64c044ba43bcc4c426bce4ca3ddc),
  (false, 0xf978b7a80b10554c847ef8b259857af1cd5060fe394894f17a5cd815f896d363, 0x43b86e54f0380b3bfcc19605f90aee73e0b34528976e3fabeb5c7e34f8cbe5c4),
  (false, 0x16f9a89d6da61f39bdbd7aa1d99d6c4fe7d35c91ae777df739678098dcdf2247, 0x398c2a7f1f5f6cd2ff426221d4bb58c75dbf1c2ac7910ca6fc185b157792aa03),
  (false, 0xa6b594b38fb3e77c6edf78161fade2041f4e09fd8497db776e546c41567feb3c, 0x71444009192228730cd8237a490feba2afe3d27d7cc1136bc97e439d13330d55),
  (false, 0x3b78ce563f89a0ed9414f5aa28ad0d96d6795f9c63, 0x3f3979bf72ae8202983dc989aec7f2ff2ed91bdd69ce02fc0700ca100e59ddf3),
  (false, 0x79be667ef9dcbbac55a06295ce870b07029bfcdb2dce28d959f2815b16f81798, 0xb7c52588d95c3b9aa25b0403f1eef75702e84bb7597aabe663b82f6f04ef2777)]

/-- The coordinates of the generator. -/
def secpX : Nat := 0x79be667ef9dcbbac55a06295ce870b07029bfcdb2dce28d959f2815b16f81798
/-- The coordinates of the generator. -/
def secpY : Nat := 0x483ada7726a3c4655da4fbfc0e1108a8fd17b448a68554199c47d08ffb10d4b8

theorem secpChain_ok : chainOk secqOrder secpX secpY secpX secpY secpChain = true := by decide +kernel

theorem secpChain_coprime : chainCoprime secqOrder secpX secpX secpY secpChain = true := by decide +kernel

theorem secpChain_scalar : chainScalar 1 secpChain + 1 = secpOrder := by decide +kernel

theorem secpChain_end : chainEnd (secpX, secpY) secpChain = (secpX, secqOrder - secpY) := by decide +kernel

/-- The multiples of the generator of secq256k1 on the way to minus the generator. -/
def secqChain : List (Bool × Nat × Nat) := [
  (false, 0xc17340f13398a692e5f455d1275059e44c085f188a12ab0aae2fa282098c29c0, 0x18b1dfccd9b774dd05e4f53a15cab27b781f77ffbf92d7617935bf32d9288812),
  (true, 0xbfee81e7fa8480a8ee0a13d4bf21fdcf37beaa125d921fe088f339b1549819fa, 0xeb9e37d68bf1f60965432b007419ae9c7875dd9929dde2536c905934144c5ee9),
  (false, 0x913a752f00885fd297143ddb30b12d20da9de38fca2d6d85fcae6fee914a60eb, 0x24fbd890884c8a782bc08710d4f4ca0bbd60ca3875c17eb907e2ba8ff05ddbc),
  (true, 0xfe60ee504a86133e310f6effc6ae4d04284d73ddb661c946eebc77086a8551c1, 0xd34d28c6196fd290e0e25b4754f4b82ff03d037c6d06548962d3b67a4b452e38),
  (false, 0xced27ec01e6b7ed0a2a9bf5e9f912eae24ef64ab1f367d83b0d877b35aeb8c5e, 0xb41f89bd967757bc3c16a24236b065cc6b972fa60a2c3e0e5fb7d2c1ba435a7a),
  (true, 0x7269fdbc96182be2557167aa10ba0d113a9c8a2e96c632d3240f7848621c59c8, 0xb09a7260b9a31002657602a6d7073d510fe1909fc9ba7b9dace8f5570c25df37),
  (false, 0xf6b650c009b8e14e991327551e272632828337a5962fda724d9bc7fd813b98, 0x502be268e4417809c3e01f5f26acfefcf9f3a9ba3258fabfe593cb7f4876af38),
  (true, 0xeb00fcbe48a76ff35b1ac8c96dad825fd6c2f11633c3b8a5932dde677de0f3d, 0xe53c9adcfe2cbd941ca828049719ccf9b5303e61224c2467df23c7bbd19dd371),
  (false, 0x34672f0258f91d3e882ed445d7da9a8dbbb4119d21efb53b2a5556ce02b95363, 0xe275a9b57cd84983f3c289e36592d1a66bd161083aee2f302ced094daca18362),
  (true, 0x189c9434d9ac6e142cd5c385cd4b703a8650e14bdd34236bec742a1b3aa0cb2e, 0x7cd2a4ee5810ec8598ff60b28a5de09cb203a79ed59aac4c32f823ba95033487),
  (false, 0x7e0e3300c620f973db234e17d34e9c4622c46492278b41aa2a8fd7fb90d7f1d9, 0x3ee43b2275e242d0e97898d131dbc11b991fcedacb306cbfff6a86e1da1a550b),
  (true, 0x3c564aa982739e8d04174c52f264676c636bd8c4d48f5cefc8e3f375596fb09c, 0x72d8e5a6c5fb3a2a3540496bb33f45517f7d05ba7c908171a270eecfd96bb4a1),
  (false, 0xbdcdb807a5d40ff3ec6a0389d6cb50876f05650779acfb36ae47fde31db95e2b, 0xbd4a5b2f86d75570632cb468cceca37297bad51a93c95712eeb3f398a8723bbe),
  (true, 0xd3ad5a6b114a792312d2f88ff47250c0ef80fffe2acc4232a560f9722db2f0f4, 0x6f38b22397f4ee35a705523cba7e0181c5993c5a353c2882a0315b95cffcc9dd),
  (false, 0xcdf395095d3262c8a559289f9d6d393d406e1bc52220f8dc3140c346de000979, 0x9d035770cf1a80334d7e4fc8937f46191e260acbb86d16f161391f00e4171f5e),
  (true, 0x8b54a90d0db72f6184a358fbbf6bf57239e4718612672b21965c34b0ddf72e41, 0xfc342e3cae7171540a47a13a48e58f4ba341c21e270ab60a39158bafc2ebb58),
  (false, 0xa8101ef88ee953291396eec5defb7d986d21f6c0413267a892472d8b62f7bcb9, 0xfbfd3c604e9e4080bd0ca12d8a430bd60065fb0733d6c40b7b390f662d11b8f2),
  (true, 0x4178c290c924d0f8fd8b462e0285cf2bf5459ff2d7e04fb320e28dff4311220b, 0xb841b99ef9956f7c64d3c10dc6fd97a34c7b66fa1fe913617fc2cc9579caabed),
  (false, 0x7810280ef5838bbeaa556824e6c9056e6663b2a4017345f7cb0ab2813eb9555d, 0xf969bd8ee7b280d009c4f9ea29300451fd60c1a903f0bce243b9f11e18bf95a1),
  (true, 0xd8ff209e4a16a593d3562a8fc26013c3565f1ad203f8402b3957476f66821689, 0x8152e646ed4035fcc92c27c508b986498daa41f5e54b8dac688ee084fae11620),
  (false, 0x252ed7c6e2d4c63039f4b784cf496f16812cdf7aff11ad5878d5defdf9cd9e4f, 0x6b90bda2e5128ae2ceb73f0f75c60b1a073039c000c418cedc2f35b6d8e755cf),
  (true, 0x42ead7ec167f4f859abe9211f4dd31b751641e0f8d7ae202ff9568eee43286c3, 0xb58115226fffc83fcb69c119ab9b69ab9460182cf02f41905ff80b418cb847c3),
  (false, 0x5e4c7262427343d9916a30ab5209eea035cc791da133a49fbab86bab8f18706b, 0xdbbe4abbd6b1d7ea89e8a9a1c949fd314fbd308c19742741806780314bff092b),
  (true, 0xb809dcd6af191753521708d59a51db39299c23b0bdc12f26923fcc78770b3f49, 0xcd5bf469c037a4b49c654600cbdd189c469b6b83f2f561f0cd902e948728fff6),
  (false, 0xeb7fa9ca3a33432e4928e8c11fda208f598918dbc3f3e3b059bd79280aeb72bf, 0x8ff380425cdda2f0ae7293af66346e2b36dc1d9b5942a75f50332c5c6e445ed9),
  (true, 0x385d1804749ca0e6908627a8d06841f50eacb3cbc2f8ec42e679c70fa562eea3, 0x916fb60cfedfda7953050798606ddedca716970f99ee5bcd687f2f1737f5e036),
  (false, 0x2977eeea95ef12f3bebc37dd28fae128280e2def7ecaa5073f8512acdb890e2b, 0xd443261d7bac3b1aa28f9760f1c80698d09fedccf86762b478d51e9463563a4f),
  (true, 0x7ff571425b33fad61af76ef9f48ec31751005744dfeee6512b8879519e8e9182, 0x7cbd2223656715f7679a3b4090befa0d9d41641ae8a14af13bd5e0cd1ca13d06),
  (false, 0x81eb90a37497d77132e81d780fbeb9caf04e5acf7517261db519441cb6357d44, 0x49a2333c121108e2d52522bc9fe819d045a1f12185c54e3c235a8975dc3ad843),
  (true, 0x7d3e65e30061ab7c0b0735913f2c1d8f17dea893b43ca068f97e0366fe2775e8, 0x8c758b3921e64cfddefc487740f569721c739cdc6d83966378a1b6039cf62507),
  (false, 0x57f19fbb125eea58e54cb87517e8a778035a76f0a7ab1eaec9f02b763230ab77, 0x2ef1648b81ccb94189171bb0a660d9845de4a9c32e54608a01b27dd499bf0159),
  (true, 0x9e1b0fdcabbe2ea5c5a6505cea061f8b2eb45b1e5880775b744ab2bac556a1ca, 0xa9f02a44494758853bb24729825d70511e204bb73d60bf3f6ce16868a036d532),
  (false, 0x63c465741af1ba4bd1da42c08ec7cef7aaeb6c2bd78f6de087140b2bf1e0e18, 0x2882cd40a9249a2d8742eca6097152731909fac68f7529a9df7a8ddfdd43c089),
  (true, 0x5dfbaa73383f14ed87af01c557995fb1e6eeb2e4f38641a5bf0fb4e755994241, 0x4dd3b29bf31f45595485434f5df1f2e35db21b9b38a0fdf94db4a22b76f4e92),
  (false, 0xe3bfeb347f8f046bc0438ec8eeafba82430ae06ef95c25a36aad4fee1717b4bd, 0x8e008e6f8abfab700808ffc99c178f1b7f55a712bbdb0c9bc79f807ed0b227e8),
  (true, 0x19a91d512439272ac4035ab1458c90844aa883dc05fe51670c7cfb41ab8243c4, 0x59783482f8124949c3fa5053d3dfc501475a7de568c641aea1c4b363891c025a),
  (false, 0x1300f8abdd53db0545f315973069e65a34c7ac563760d56fc9e54b87d8f5d9dc, 0xb5c2bfb5f767a9ebcec14131a2dff2428b3fdb2d12bad6889c52844f644aacce),
  (true, 0xa52e488711f5f6b1d4992ec83f30fe147cf7251081e2e0c9abfcf0962fd6da55, 0xcb99965deb732a4144760dc307884f17eb8ed7cb23acce3d92c46e7535204aaf),
  (false, 0x8bc5e8ddc989be3e2a035f3bac0f239578547d8df4e0baab1b251d0289882ce7, 0xcb65ab6bf2b227a302c952ca9acb9bb73d1f9b7169d04b3096f49200662760c1),
  (true, 0x5ac88a9575a3903139f1a470d66de24d1d8e3404ec592f3a5d42b6a75d407610, 0x9a6155547fc1c33c48465eaeea94eef1170650afdc5f6e7f769d24387fc24a3e),
  (false, 0xc9886be951b93303b68e7eace10a7519fe7f57b86ae9c4ecc6447e56074872f2, 0x26367a5c546722ee6f58ea9d2bd77cd0a4b2f9126562e07a8fbfdc5d5db580f9),
  (true, 0x8382a5fa5a326950af43d8ea50cf0609054305b0109c425a5fc377e611296ed6, 0xbced5cca79ecb1c432fdf99aa4eab87ec104f741c1ae0f21a94cc16b38afcee5),
  (false, 0x9a0d9ec7ddc98a8b9e4452d76c46e46959e7d00f0efa0d8928df8fac7294ce73, 0x8cf8147dc79379b906e5f19bb7f1a7351a258808a508a8479c7d52a2e2fdbd7),
  (true, 0xe452c77b0c97781e565d9652719994e9096b2a6331087bc1b2b4d766ef37ec4a, 0xfd34f9cba8a139dc401a9a07a6d3c064369a80448e8534cbc043e502da0e8472),
  (false, 0x56061912484d339bd490cbf27ea823ffe1f9c3b1467e669c8dd8058f2afa1441, 0xefb8bc2151e0ee23924fc409ea2889fac41dd1c9f08fa4c3b29514da8d68ad78),
  (true, 0xa664d121c3ffe5e6764760c44a4d0fd4df22d66f9ebc69bc1dc61983ff53cac0, 0x8ab59acfdd59d81509cfebb7285fcedf5f201c85a728b112bc2b272b8aa9bccb),
  (false, 0xebf2b2c085a4e645868bb35fc0477933d54f0d9feb82684169456958b56a3486, 0x524c4c41ad17b76513e6ba91f624cda6ee2230cd6e549846f7874ed5bed12405),
  (true, 0x62f146aee869d54b3b282c53b549cd7149c2dc08d206a4f9033d67267b935d65, 0x44bc4a6bfc1c86df63e7e02907758c41507d37f1c76223a18df2c77dc6e4a558),
  (false, 0xf693a540db9071fca6fc04be66187bd84510fcd295b98ef17a6bae8ff26f1f41, 0x35ede902caa24e5774321f500366ac6001ed024c047d1afa40714e88def75bea),
  (true, 0x11e3a0fe294df893fdeb281609216167ee93beb6bb3917f22364652da0103563, 0x5acd558bc481cfee801b8d95bb869edabab9e1e650ee4f784e3b6058b63416dc),
  (false, 0x3b359af290c2193005eee0149e5e18583cc844cb6426e5931366257a826b44b3, 0xac442537d3556b4e199a4b2104b5aacc047ded705285e6a98684d9266c88053f),
  (true, 0xca830b9f72ef0f85bf4e3baf91262f40054912fe54d959d9c23aa6fcbe2af6f8, 0x8677969606d10a9810edad462122e21abcd53a7268cea027eb6aa8c136c8246c),
  (false, 0x3589fbd7929e004d1f71f0d7b050c6c07e84c2c97966834eaf58b56da868f9b, 0x518f752cacf4a8abcf509d72bb78381e5c5e2e83c08d7afde2aa67c1c54fa28a),
  (true, 0xa16a8a91e13dda105b3dade903dc992fe956495523b0ffaafb6ccaab9a9f42ff, 0x68bd861fe0349fb00cb10ad549836c623cfde33b7ad44a88af076ae59a953cd7),
  (false, 0xf9f84906e2be04fa7af21c6ccf246da952689ab40d5f104c63e6edc9b9d7afaf, 0xceb59dd92054643fa6df4fb44c58557f884f8bf475b4f98acf18d657048ad03e),
  (true, 0xccab43ce8546ba9c327a209196ea0420a19983ba47693ddd58124c1ead072085, 0xe9a41badb107a71a4454dbce4050b447133cacddb9af3bf11363fa93a78a00f1),
  (false, 0x39641c432eb05ad4c09d785fb02681855f8eca8b7ff0859d8e2c412db88c5fef, 0xf07af0fd292f936ba961860d5badfc1bae8a24381da9bf0655581c7c09b033a8),
  (true, 0x5d636ef087fa34c013cc15b94779ac88228f8c47e2e55c4bc502530fa9eb4877, 0x8c45f09212cc87b8514963d2ff39fb373898886e8640ebeedc95ca4822cfe78a),
  (false, 0x8ca471686a80694342c0db6d71b2213dc1400216aa6c9eabbc3e1f9481fb14a4, 0x4e53f111b6a226b4ebc6f3cac66e3fe048ccaeca8a9a81396d583a711bea0992),
  (true, 0x3fd2b2147adb0ec4c62388d047e49bbf193fd7c63d60ed19dc883c06f0f76b7e, 0xb6d283fcceb48488a84ffe648dbddcc92e3eb012ef467245492f5063033007ba),
  (false, 0x1486c9bdef0c41d0667a1f0dce983d05a542d263b7669ab0a7220595495ec5d6, 0x342c95f18a8234a62d30ad9375305483c4eba2b2823222ecdcb1e458b9e515fa),
  (true, 0x1db01632d8e863b2f843d0fd841897e07acb20a4cc4a4335102061ac6b0ad0a0, 0xd5301f618eb56179aee3060052cb2abd3729f761e6b06a55295abd99e035c53e),
  (false, 0x5eea5d5c5da02f94ba7fdc8b10bad2a95ef2fe9e94d489ec11bf320f50208f03, 0x98c27b8d84b3d4cfabbeb9cabd8222cdde2ff799f9f293f329ca4418e086a3a1),
  (true, 0x805ef608ea52e4d151ee5ee1fd3c389cc5b31c133edb0ce917ebce96d76a8042, 0x366c66d8306f21781098ef88f6a89d0060981eec478a153b569bdf406ec17bd3),
  (false, 0xb11b78dda7f43ac30b6ad894997e75e7ce80d994c50b2db54abf853af5f439e6, 0x795437f565cc9f8809a60ad7bc375d8185ef75514c62c2ab7bedc49d37fa73dd),
  (true, 0x66c01f21f2f7bda5ce4f7094a7efbeb9640b337a6a9357903d4ee55f1342f790, 0x3c1b4d2a1875ecc939b01c35aebd92c6243954d2a7dbb3fa2370570e60b865bb),
  (false, 0xca8779a695e37afe317caa534ec99f379b837d0fa2b5075ffcb05aad55e06d14, 0x1d00f42c9c856e260220975faeb5e062f94d52cd6893bb6f6f4c63cffc8cc49f),
  (true, 0xfd76e6467f85bc6368248e076a60977b5a74c6775baeff0be38be1f3149ba91c, 0x61595ca63e20f84e3e5a907b8305db1ffd2a3858329b2c09129c0df465b2d30b),
  (false, 0xcccc5a45b3731ef1cce53744e58f66ac5e402fa2a86373bcf18a4e20462c64b7, 0x5998faf79d8a8867db7b8477884f4c6ba75e98ae0c2b55539f7ad2afd00dc9e8),
  (true, 0x81668b8979a02f845f82f06b0d0cb523a79304930ab76cc8cfa7efad11ce67fd, 0xdce512ab205156fe4979624ec9636dbf4bc8db880a360ae53924cc298d881c13),
  (false, 0x21bc8c513c978a0fc7426cbeb4895c70527ce5a3c2a914c7de8a50ecb717b466, 0x7d699da1155ed96a546063bff770de874aba6d2b83b662924bd4f186065b1672),
  (true, 0x807e2fe5969084f3283c1419406bcaf4bbfc9dcd006dd5f61a8bf1b5b11086a5, 0xade8ee3969499d24492d440e239866fa9f16d0c4e5d41506f59c8f1152ba7355),
  (false, 0x1504180e4c0b34606b548678b48c46418a193d10d98b512cc6021fc5d5b336d3, 0xf21d59442a30909438256dbb4c8cafb820d16d85c108a9d5775fca6adcb9598),
  (true, 0x22a37fdd73d6bfec94203f929ece7b24fafbbaeb3f849917b272974f348dc737, 0x3992e4eb82960fc749878a28e816a8ce4c495d7de21534e4396c3d4b1d6756f),
  (false, 0x1ff742685e8c776d5737c7625e2832f690e503cb5112d636af086bd80d3ce5cb, 0x382ad102730ca3aa8f74742f636f1e97b0177289e70bc8f3c0be78307321222a),
  (true, 0x2776b7124ebdd8c1c4addca1956896d0f920b4687535f29337418687d587935, 0xb1df69fdf865951aafb20bcc788a975658806afbea7be3323e8287091dba7202),
  (false, 0x2d537f174364d4db6dac0237e3aff90fb623be2462a7c68513386b446f53f19c, 0xf9d0f5460db0a2351cfc07c29279ccec03cd2441aa8bbc21e61dace03bc7bcde),
  (true, 0xe5d1377303bbd244ad3b14cabebe426e5016220d2b0cf51cf6774b1d6c8f8df1, 0xae57c389a9983956f477071e76d9298f2e532322d943c62b26ed189db3dfe252),
  (false, 0xa2238f82725f7788be20fb21d4f30a8bddf4ac4797a5e5bf84ca3532681d2b26, 0xaec2c572a72a62e7e1668c8a2767dbf6b841fcc93ea6e8907e4fb483cca32a13),
  (true, 0x7303ce44bdf7cc1d40dc23d0a111a9115f988301d211803a3fd4851c31df3c6d, 0xcffa5c4e44d734d57421843dbd0d6aa4dca5bd1a2ea0066ff083d503b6f3efb9),
  (false, 0xd9c773bbbd4f54a890cdf11ea7df91a76f710222a5cf6edca1ff14ff6e088d85, 0x2d1b0ec19724474ed1bf5826e3ef097380aa4ce99cabf05a00739bc9e82b7818),
  (true, 0x39b3885592b28f309d3519960eb2251d2bd905cb97e74f6f58de4f10595f6748, 0x510bc651c594d52cf8df64233d11aaed5ad7a210f6170ab5e18360693c223124),
  (false, 0x65e2f7add25c87473be94c60de7a756b2056b65439ab75b3bc68a8c6ffafd8e, 0x7371549330044feb4836aca14f7d0f0fe16aad8a00046c98c0529023d74fdd0c),
  (true, 0x1122c1ceeab39040ecfd7fb2dd326e9ede315771f8ab7cda14f2c32f78658c5c, 0x392dfc50ff43a701cbaac14437ee8537df71de9913241a6f3678fb15493f112e),
  (false, 0x60fe1e0d839965d2c3161d232635616242db3850d990c3f04a6cf9704f4012f, 0x9a5565ec54b197f3db85eac0aae409dbf0b99575d9b2915eb10cde14a5c581fb),
  (true, 0xf1f2a86c75c2f07d05253d7f8a9081f0772ef156072c43dc045f8aa40ece7f3a, 0x8f55e1732b4deb1e330b325e456d1e3bac4343d139dd9339e0b62f4dc432f66f),
  (false, 0x5baf0cc1923af73e81118ac63fa42bb7c82cf8d45c7c9dbe4451a7e01ea3bb86, 0xe28e19edf84ab0fdc2a6bee5b67307cb0b3b365ba4d08e37de626661eea418fd),
  (true, 0x60bde82972ef9393d64884e71ad0cede5eb0e1cb36931c035abcd1e99abcf6e0, 0x269874d9b7d60acd9051e4d274ec5a707b4c752b3f11e555dc8122c639326361),
  (false, 0xe0b389ab721e2303ed3ccf24a76242cb696fe66aa34c6bef823d44a149675ac5, 0xa963000eb5a176ae0844d7c0a3edcd721cb63de38436162b587c5d13c078622f),
  (true, 0xf73dd5fccee586cd3eca8a8aabce4d3a8497ff3b6aa07364380710f6518db170, 0xc88be0831c6658c5023dd4f45eeff01e514f16da937841b7765b49a1a2a1d357),
  (false, 0x18120e37e1cbaaef32bc81cc36f6b88a4af63555ed4bd74ae6f3cdb9389fd222, 0x8bdae0724d4fb20700232819d520587d97014cec9c68bdea264f3435da9adca5),
  (true, 0x90943d999417c99ad51c9448e76b7a185d3e3879a278028e0f6ad1de7ba1050f, 0xee20f331b3c43cfd5bbed87996696355ec43c7805d1cc9261c68a5f9b6636176),
  (false, 0x15182c01440df70bacad1693de52b345c445f6b4ef7d508c38a63122fe96887e, 0x4c1ca2d0887e03bd8ce7cfddd25cbb3f467c4cfe623f518764619b2e5b2b629c),
  (true, 0x27c557d2f5b1e3a08415157f13028ed03923ecb3bc31a937b14b001433d499da, 0x6203f6c1b09b81964729d452cbc9063099f135e6770c9a453fdc0b31294556da),
  (false, 0x2672b8bd7d398c726c6aa17c83cf925fdd317503cbe486525b723210ee09b967, 0x77b8533d4be7b087b58641256e8f09948b2beea444a7948cf3b5361d8f45b30),
  (true, 0xbe6dd2fbe3de09d5d8981d8a5f1ea05dd91df46765f27cdb3d37da1c6f478a2b, 0x95d2bbae7d492addea977676a53f3b02592292871b20d47540507e9aab1b6bd),
  (false, 0x631bd3b2b7828117aa3cd591235aa17e0e8dc471312d614371e0a3751e946fa9, 0xad97eb85acb78938f2c478aeab6bbed59d495338f84ea9380610e3e746417057),
  (true, 0xb49d8a6916971d25e470faa9438787e5dfbfd28d2f041b68d68a500849a501b8, 0xb480bfd427c5815faebc590e8a830dd02501d18f82b8c2d9be5b11aa94077e4e),
  (false, 0xd68ee3765f143f8ac15352a4f0f0d9689eb37b88608c2cdfc8ef877442c2a1d3, 0x29972c8a8e84e2448931677e5721486d84d18a919bce11a31a1f201746b85379),
  (true, 0x7c9472cafcbd2620a7adaefdbc6e304c4bb8d35ee6800f33438ba28bfa1d6997, 0x164c4918f49b97ac54c54bc53fb51557263c92c7e25b027ad8831f03384fec1a),
  (false, 0x70da0a77d75855fa0d115c76fdc9a05d65f30147a8d37736d60e7d869a59219a, 0xc12e73740939499cabb66962bd59dd4ee7a397ab577e54eeb941bc9a9bc19c1f),
  (true, 0xe365bfab62e0f7cbdc056c6515cf621a5f23dba5247de0cbfed7bb57e79c46a3, 0x9ee5353ae147f434f4ee6486141f2e950407d13a2824cdf9b1b8f1e39d34d9d2),
  (false, 0x1aa78e7ee3eeb7543c954f40e6520a041bb34153dce52df4c388c119c7b77b02, 0xd46d559deb04118fd14255f70d2cd036285274f530a5b7a927dbf240f733fff7),
  (true, 0x29633844fe8eca1edf94afab4bc8f742ed22817fcd2d909cffb272b611a1eefb, 0xf4a87eb6ded2fba1489adbb06426901cff15f76beb85bb70efd6e96104fd036),
  (false, 0x4e274b4e114cc3def8053c241afc59718be0ad45906ebb21709288af666c48f8, 0x140faa1b3be129f9a380be3db193378a63ee233ef155f607b35ff2ee51955cb4),
  (true, 0x62c3f13b68e26f252d267a03f5c95fc6f3c6ee63ff3a85929a024be8159ead85, 0x1a309d017ad037ca73ca3295fadb3a54e5a99b81d432581dd5be8b937129ec93),
  (false, 0x5bdef5aee68d20a51f719e071eac232de081a2e7a24386a7294f15b13f0e5696, 0xf19ca4823989b84b7def7ccbc47797069885acd06b1e015786e280e88d2ec4a7),
  (true, 0x5173c8998afbd30e7b673e3f1d0e08ccd07bfc2f6b6cd96f7b07f2eed84976e3, 0x1c821ba937cb9d3b7307d29d417bd529c8e15fe23011d13c6d9fb6df12f4e1ae),
  (false, 0x114bb6fe3fba1393f26cc0ce669b6f4af2647941f5900fac5b3fa0dd408bd70f, 0x198ef178d0c820cb3efb153105149edc3d196bdae46e6a3c0a4abb7ea2244d94),
  (true, 0xe246ff26dfb9532dd6397cc40fd6a2fb9b60afe1a29e7859ad0073b7679a1c7, 0xd0acfe2f54f93aa161ab6fed6563a212d46eb10e2aaa50bdba3c68dc8494e645),
  (false, 0x643eb7a04738741f284f1900a9cc2715b3b7afd9b40cf6fd67477be13a32f72f, 0x46774c4156dc15989a358f2dd97fe48cc72a430ae64b1271a6f76124220d9b29),
  (true, 0xd7b78cc6efd9b16d607a3f821f35b0eab278bb133578e1cc41f0d3911f51c46d, 0x726b0ccd00e0b1289916b2476617eeeaefec7062706f20e3ad3f11740a9c85d4),
  (false, 0x13d905ed33907f7263cccb553857defbc48f7b8fac42df2f06db3669627e1d02, 0xac78cc3c44de8d56f8500b3b8f79b94f84433273a58d28ba45bb0085381842e3),
  (true, 0xf1c73ffed768dd96adb1517a13087d05267fe016d4adbd0f1758e91889edb9bf, 0xca275b259d4722f744f7f871601e3ab4487f16986bbd84f28dd83c0054a516ac),
  (false, 0x18a11728d8462ea0b9e07ec9b9d7bd8746ec7d11c59f18960549d774efa93776, 0x5cf1042051487e5ac5f017e0ae41e008f3c42742af5b552e579fdf7531e848eb),
  (true, 0xf2784cb0623e8a5444a97862661e689cada1574a008b829ca85a875cfb3ca080, 0xaf8684cde5edffa6ddd4a036d79cbdc0bc479744c7d68761ff6e7962422579),
  (false, 0xb59d69ec607fe623b7634fd07c91868e806af7bfd51f20d1ee3e57ec15c66c6c, 0xddc258af2c1e785f7e9c66d14e84b98785ca67fc6c7a081e4d365fa10eb26880),
  (true, 0xe2ecb33fcc0bd71958787a4ce2361d6335a8725c38b33bd5d98488d92fe7c131, 0xccda99b9a511911a708a11cdc2e2a02815844c13e4f3a36d0cc876700fd7f04e),
  (false, 0x6588d734b6a3fc7d1063ef8ee7f1535e2fba78240e34c420654d491adec889a9, 0x1d2dc1667d9d0ca1835c12fe09d5b75e79fc72c8ae12212d78f4b26e8c6b263c),
  (true, 0x62be061a0ac0d1409f524019755ffa54738f6dde6c035ab0e1417374721292ea, 0x1a1c34fca5c16897c589ea9350541746af08c4270cd71f6975fe1e576aa24396),
  (false, 0xf50188241bda7eecde29321ff503f29966e3f67a28c354c5743ec55782d04ae3, 0xcdb2b246b581f222d5766f935184c3e02ab6226f5cd5150519fc1c25f9788268),
  (true, 0xacb30ac3cd6759c3f721b75849577807b7dcb61a61f71482ebc26abcd9945677, 0x8d0f03b8279391b059dd92fd1cc73f81371aea6e58ba189decbe47031a8ee1ec),
  (false, 0xb0721956ad0787dbd89ce9166452c23b8d8c9139ba198b7096fef757aeb94702, 0x2007681dbecc3d6f920ea3bff591b252da40adb24f72de252fdb5e1467f43307),
  (true, 0x3c33656d1ffa73384a9c86623a2a7e4438ff7898253a864aaeb127c972cab860, 0x924361697e90e99ea6d94212871b1b694d465e2c351a5939de7d9d403cdf9fcf),
  (false, 0xb06bb023120212a538da0a757d187e258d46298cfecef69d223b2dd2c5d060af, 0x8ce668ddc008efc04e179fa86f2c61cf592c9fc1c96264445a622b8a78bd7e64),
  (true, 0x9502798142203e56ab97750cf7f101871839f086a8677dc8c437b9bc1da1fe7e, 0x9399e04d57f2f50288efd4796be46294ebe5b4c245fa747d59189175c80a61c0),
  (false, 0x39bf1efadf2cc441f53302814e3db22b3c332746fd3d2d5382e524da37cefd76, 0x94560ff1f7e7b1cb26082b7695d51d63c43c4ad541245fb86ea1967b9f839b66),
  (true, 0xd477f508b1e0591e84a7c76990d71eb98a34e9001fc22d59498837c7346fc5a0, 0xf9681d47e7e085028a1e1a1bac183b714a2159aaa5e74d7fc67e646234c27384),
  (false, 0xef7fee331a7cbadf740aaa6662691d7e7284c4e999b5422007c5ddcd009861dc, 0x2bef434a0523553f557ce002c636f18040cc60fc04ec5b1dfd86ca4c20440d3),
  (true, 0x6f5d48c3246df5b9b752efeb4027826aec763e77f393b4ce39ded1232bcdf106, 0x10f5b4d3b82687b4aacc4324cccdcc11332b4b370d2f46fcccc4e891259432b2),
  (false, 0x9a4a2a9489b81f6bcaf4b761adb18f3fe202f44dff028e8d7a1bd2258682b690, 0x9a17b9c560a645a4a4d124d841b240af9832ec7f2789c0facc84c3be674168fd),
  (true, 0x8f62a40779d45089fe8512e4f23043ab26b25d9d0ad0ed37e276541dca33f51d, 0xc6c05eb0c10b09021c61d2ff7522dc3758d8b2666824ab0b4fc45428dc72ef97),
  (false, 0x154cdca8238627d880bf85b02c8e62baa21b0eac826e6832098d2db3c056b8b0, 0x87723c468a82e35a6e497cd1b341981e572257c9422ca244f69c057c69de2120),
  (true, 0x9d75a04730cccefa7f2bf30de239a2356d33f50cc2130cc6c997b81166ad69c0, 0x95895193dec212b11d75b9d59b8004f309cb29f7d2f3a4c08e96b11ca1e9eb60),
  (false, 0x328c1a20deca1ed2b9a3ea69a8374f889ab1e2fd06169643d132e51d4bd13364, 0xcd8413848628857fc0b1e6ac6b546c0df835e6210cce1061f781d0b30eec92fd),
  (true, 0x1ab5f3a5141c8a3188c5cb6ba7aa7f54e3cc6e1160e3fae4059d81649dd7c1a8, 0x8ab4812c5091d16a4816a932f78bffc6ba356dd650f6cc8408776d9653eb4e45),
  (false, 0x9759c7157f05d6112dea16a3b99067693090cfaa6647565e1c69e6244211d815, 0xbfb97d11bb4681bd955dbe5141c7d992792a41dd10786175484a076614b1cf23),
  (true, 0xd90542b85dc4b126e173d80a543f373a4b8658a64ccc49be6c36c98044f83ff5, 0x26b6efbe29b9417cbd13b5ce7a76c7d6be00280d160689676045665ccfbda5e9),
  (false, 0x7a3f47b512a88ddc385305c0887079a15ee868f1fa116f50d0d55ff7f2230733, 0xfeb189c6fb7fe70d3d099bbda0cf8ef7f94f125bcacee19fded1b308dd0de517),
  (true, 0x42d775b7df0d8bc55c46f2f3a653424fd20178676bed9edac68047e20369801c, 0xb5e4bd318ab98f3869c379765473ef7ce9f1a6ca43b1dce99da4e465906e737),
  (false, 0xbc0e4343526c44606b730ee6794ea0bf8a66959f652965c44bb41fef1a65c998, 0xdb7af52efa870562965e8825844ea6b216ae011120ecc11ea8f1855d217116b),
  (true, 0x16d9886052a691616b1d95403afc0a36100e9ebcafe7e679ce1ba768b820f055, 0xc2aee44a71a58cc304dc25eee3cde4fe171132a1458bbd0a048d583d816ca7c2),
  (false, 0xabb44325e5a64b956732b9542e9e36509309d88d861b809a532a377bec3cfdb, 0xd26a3b4fce8d92b0815587507b7f562d282d5654ef241411c984177bb37de6b9),
  (true, 0x847818d17a78f4376ab9d6048f81d5419f6280b3eb06c1e73a4fa5f1dd95c802, 0xc7de9e042c0543ced81e34a8b224894c79ef2b6aea310c812c584f461ce49486),
  (false, 0x48c2e7e8b83cdbf3e96fce91edfb6315f7d3f5b28f0b5ef4ef75251f78049ed5, 0xe4e5a42c83c8640dc374f14898e890e8305cf9cbd58ae46340784e52c0162579),
  (true, 0xf921bbd374b7e3056270880fef206fb62fd3f5f6aeb92e878b7b7b66e4618fdc, 0x2e2d690eb3b1e1f3e802fb551f3ad0eebdaf76291695ff5bc464498ff1ca9a89),
  (false, 0xa2f09ca16a2a25abb8429fe9103279b7037601fa78b74af7100e3748edfb7fb, 0xe54ea767cff578c6d51d5a74636eed5cb447b5aec331955efc60ee1a030937e4),
  (true, 0x16a00a39e192ce32e972b31933a88411499280e0ecfd10d9e1bc7a4d5505286, 0x831b1b81fafa3b43881553804aeb722a2bc350d6954f938159dea8547e8ea7fa),
  (false, 0x77cf639407c3b2538596e2e29a8f9a697b7a65c471cdde6d500c61d423bb46de, 0xcb0e66afac73c6b896f877bdf00a6d8bd4fbc515f6beb7fd80eb07abc1fbfe22),
  (true, 0x87dcb265d6fd9a3f5c4fa8423d2e1b5bdbae9d9eb41bbb26f3d54834d7ccc5b3, 0x7347215ad5e399e0a456ea10d31c51ab4f1c377f2d7085c4b1f4d46c0e75d01a),
  (false, 0xeae6609bf381db7b5cdc40ecd20febce31060f519cfd07f1fe47364d1544f584, 0x6f8e114d06581ed5fe2c41044f1b36be2f431a346507c94fde1fdcaf4695cd84),
  (true, 0xf48f2fdd4f04951855a7a213085b5433a2c95fbda012f7d1b7267d14e1f7fc61, 0x5b121ad66e13fb790a91bd0618967e3329509c6a5c53681aed0e50115c62edb0),
  (false, 0x28b1cc00269c96d8d6ec37e9c59e60ceed78315329f3fed08bef5331d3fb1795, 0x14be523fbebfb6cb2c70c40ffdb06d4a8d5da846d81b4a0cda9da60588a9d528),
  (true, 0x267b6f2f9a967066369a7c38068933648e01fef8f6efa039aa478a62b4636806, 0x7ebb41be48aa438e9181f0a7172046feecbbcac4c4160ac0ea3e04b9e3a3eb35),
  (false, 0xc0582b2c42546ad7616d268bb58f8c12404bc3fb956d57f818a269afc24cc238, 0x9fc40e195ae4fa5da2cf9af0c1ae058325d53db29121e79d4cc2f098e53c0d61),
  (true, 0xd45070590d762d2b3ec53598ddb9c947a2dfe03e5fcc2aab72fa86d3d370bf86, 0x60c5c4af82ad2fb75e1938e50b720c876ffbcf431dec15fac2ddf9e453c0cb41),
  (false, 0x3464c29a2c1d28bb495caa51122ad9e83185f1a474eaa7f8df980e8118c0064f, 0x763d248bbccbc26eb9234e873c9d315884b7cfbc034562899519642503ec3067),
  (true, 0x496ad7ea04c3fd7683241695e48fde4402d863214221c0fcc409c0aef7c9edd8, 0xc839673bee2647610841c7f54a59b0f3bf905d5d4677505218aadf233e15246d),
  (false, 0x58c91a4fabc2906cabb876292ca216407897ded290b4c90f8bb3f7ea7955f6aa, 0x23748be92be4eedd7a580099fc55cda709d6b3a45ccfa4d08882787325d99322),
  (true, 0xa1b32cd4124cb1ae8e1f6fbd93c9d57960210f3a57f9d5801744d93f24a9e38c, 0xd107cd05cd0c69311f71cfb715117d5e281ca173c7323ab00da9c5b9c75e5faf),
  (false, 0x441a0b06bc27d5f04c88417cc69f2c78d4e840b510cc6a3fc3e5f2d3c6810580, 0x78d35eb7093546132bdc001660260907f0f1ea5d2dccfb31e894d538fd030012),
  (true, 0xe1d527f1224163a9a94cb2cd6ef9258de3b617e7f3c76f870158565fece19763, 0xdd6e599b7cc5ad3887910cc94a338e988ed0f2b3611ab4e99e21554fb8d9c9d0),
  (false, 0xf7fe58ccde4f562d07e5a15ea797d33e601a80684e0c8fa50afc4511177c9b70, 0x55d15b85a8e007e9b55297697797256b410b1b00b80f11b168f7f531f4af2796),
  (true, 0xe7c6d54761241e7881f2a21e2ad47ebfa070910a3a87a53671b71f2a430c193a, 0x6131e05d51de08c8aeb775120b998f4bfa20d5d852c2766b00c9dc88b5f7fbb5),
  (false, 0x9d8ea39b33733f1f98ca0e9b6893f0d85c4c9f2328b17a9cec11bcf5a43fbe37, 0x4ed64a67b01a06d07a0ef40fb23441d1aa671450e259678baa150094d36866e5),
  (true, 0x7d73462121e38f58b4081d58dfd3926763de5a7096f455723e68422a47722c72, 0xed4c75674a58cd2a7911c463008721417ebb503124d3020b9f188f653a8e867f),
  (false, 0x47781abcde73e3d96f5c9f3adfb22ddb0a906ad4ed2776bcb7253ad6473029f3, 0x6557a321eaabf6d69b7aa69b8f38ec956608f9d8eec95f89def15ca1b6f69426),
  (true, 0xccdf70af575cc0f1b3b8a996b5f126baee6794560cc92df3221b8a001e90121a, 0x82b1cac10e92bc92e146ac2011429b239b282cc38c53f0240c59012a9dcc0306),
  (false, 0xb2d30c4ed178d8917b5f9b4df0cd04eff9731c2b055b401c511c1294aa1e83e4, 0x53af15a11fadf9dfca43cbdada547ac1dbbd4a9ca9df447989cb032d2e2eecc8),
  (true, 0x30274b2dfcd970c554bffcae72e7df02c7aa9849b8805b28dae1243892ddbe4, 0x54fbdc4e93befbff93f9db5f9df613142c24c612a432b9cfcf27c3e448f2be18),
  (false, 0x88f322725db05f342ba445cf54eee75c760b61d44338445c938f26bb83d23a9, 0x82d2e44d2a6c85f0ca5a945541d461612b6b95ba618f3066d111beaa8276f850),
  (true, 0x29ed954edc35a7bf5192c69198406ef7effc5e3d8c4b852822e96c0c65de673b, 0xb5a0f29f6fb1a45e79eaa0b09a5c1cc2b5a13885a447d33a891e334aaeb71d87),
  (false, 0x109ecc84f7e898acefb114adc3cf3e0c530e269d1d6f7c1b8e176024f5cd14f9, 0xb70031303adbb244be8b7680a441fd028b151837a5d71356fb59a5f798d66473),
  (true, 0xdc4f252d1c9202fab36d4b92c51add3db29a7865887ec6a0cf79a364722122fb, 0x1c013ae751930119431fb005f19ca7f3d1996eb446d467707ce1a6268f514cad),
  (false, 0x690789f773de179d4f7e050bac9fec2b74de843aa2fd2fccdfc26dce3ca1a86, 0x65542ef88710305ef74c449273068031c1b143c02b6c26a17bf5d3a8044874fd),
  (true, 0x3e2937d8c1645a79360ed7e65383e5ed7c6f76fd78fa6a4dcd34e4ce765b1eae, 0xb19bf9344208d6e7615e8a947fca97c65aabfe672ecd50c935426e4f785e7463),
  (false, 0x2e5f38ad09deeb4aad8c7884df7915df9a2eeba717ced1dc4380aba6e187cca2, 0x8ce5ea843086af78181afdbfcd013492bacf0f17b63406be8a17f2f5bc27b364),
  (true, 0x568fe0c8d2488aadc285758a94ca6cb90af5abdfddc1732498d5460f4911a011, 0xe1d75967a92fba95102f8b28aa5de5a0ab16e9a94514be44997f5c58c0ef225e),
  (false, 0x898e61d868ca8cb97473bd71f0449d570b90fc1a5ae7057625a8870ef20edf7a, 0x855920c961806fb8fd1ca586993ae2a44312b272d143ff5a95a2686dd50763d5),
  (true, 0x4a9d3103026dca0bf02c096aa8f762ec779b1e4ad9b4b4ddded6068c81b114bb, 0x5697e091afff2f029a45a5b607e5d0d6a2dea10bac194e59195c99f92b2c1023),
  (false, 0xfa97fa46273f3fe5774b8a11841693f83141f6a583f372857921ece7caa39d20, 0x555dc5527b59a27ac6ae4ac67e323315d60cd8ea8b2b1cac5052b829f6f401ea),
  (true, 0x8d00b666fdc894795b03a5af0c43d1e8b2beb3fe35d834a74b828b99a24c0400, 0x50b2461b3dceaf3bb0bee2281223d831e5603afec884cd61ab89966c96e1e6e9),
  (false, 0xcdc3e5737ff0a2cd800d7a0041970b65db8c8c4eae157766ad419ecff91e527e, 0x982c2d01aaf3342bb72272ce5ebe8e070964b250cd86759d44f48a213784bae4),
  (true, 0xfa61c05a8bcc1234ad1db72664573ea73fe689b541af5ddec444b9a9688691df, 0x89c9b5cb654aa0222c23a291b936b16dd359352efffabc1eec839aacbc9b9e1d),
  (false, 0x19d9b30f00fc24154385fc137c9b906e4eeae4c09599273a8d8a4eb0cf593901, 0x9b547de01e1c304ed607e034ae85eb34f68677c673a0bf32935a5eb94be8857),
  (true, 0x1414c78c0e7e9dc7139d039c80d20e214e8d9463a4ab59a678bb7e351810027d, 0xc180a3c91c6db0555319910380029639f6dbfc4ad4d9f7baf6aaca4a6356b78e),
  (false, 0xa596980aee90dee3cdf75ca3b3466184c60a99fb81d9d0787e4082d33d8661b6, 0x9ab355bd93847d057c7e6ffda11324677c16fff9520475b33b8a4291bd571fa9),
  (true, 0xfcea0cd762ba647b0598f880d7edab634d42ffd4ff7af5e066be8b492bc46d87, 0x93daabc5cd49d2d6ffd383e7360b7c2cfe4d5daa78aaa3ba154c99a58511483e),
  (false, 0xd496c97ed81539130275b364a73a7ab286ecde049535fd82857fce79f26f80cc, 0xeb74cd47ef79f052f87e40022392c821c51a6c20adca00e0dc18896590a7931a),
  (true, 0xb3a49e24eb69c315241ceb4af586e428d3a650c4812fd6acbd042acd33a8f652, 0xee721e514e85bfef8952c0cea407e4bc0417624b6690ae4efee010ca9b5c03f8),
  (false, 0xccee5d4a7b5ad6e631220ee0c91a22652055c00025e99071dd3e4aa3e3266508, 0x9e04c7b638fd5a43d449c8434ce24e9c6087305942d7c612fe3c260dffb93a75),
  (true, 0xec92a28f2a1d9fe6e725788a3ca461d50a6c3e0c711cd1efdf6edd8a3d6420ce, 0x6b5c2489be03c15b24c9d8340ddf1eeb7720071a30b6d755cea9b2777f8317ea),
  (false, 0x50e069ff43a517a120f204f140d1381a1b6e1c1e48394a4fd257a86fbfddfd76, 0xc93bd139429402a7a7bfa79a1dc3f5022be3407b7b74fd5e115cde6694aaa1e6),
  (true, 0xf1ac50c14557ecc749f83691d658c0e1d59b17742f2af6a5976fabcaacdd3154, 0xcfea46d88db9f3d255d039577c0c8d4ed370d262f6b97cd8dd13f921fabcbf0a),
  (false, 0x331229544d0a6f686c43deb813472645aa6750c10726c227bb39ff6570532a41, 0x44f7dc08a53802b03220ad5d4cd45ca9cf4fbdf6ad84730d489d13d7995f4d80),
  (true, 0x762ad875bb2a916569e560857217ec3431c74599a496a38a39bd5521c61e8862, 0x6b962eb6782f2d229ee49e4f26974a363552a9cd9f61d3b87b6a0dcf49bd99ed),
  (false, 0x4af6b0d2102e7616b10e761f364f8bf8f69092941eab6b8a3ee6c22b3436fc8e, 0x4d90e83495758382e5e433c1fbc56c23da9710d799acee7c269c0dbc75708dd1),
  (true, 0xf13e94cb35a53dbe0e805b515edc7df860c5fff413e2f91ed33ffa3fd73bd90c, 0x18276c97ead091b16d1a8d4f72c8237ad297ffbf78a927111dfe0e3c84c9c912),
  (false, 0x2feaa063b6e7746ca1fc263ccfe8237fe5a05fd444bc828890d020b65540ccbc, 0x88845d4b07a99430d1b48f1d16a4d9034c9de229e2c6f3e64b856803150af03c),
  (true, 0xe68e9ea41018fe67c58f36e9ea2ef75ca0d50066e2dc8e0de33c39267b288721, 0x4715ae718cfa9f22f6deff7e94c6a0fe2eb2996ff98be90c898b998feb07dfb7),
  (false, 0x30246718ccadfe67b5f9c8a8934bb1a53358948096ae37079e01af9863c64a24, 0x290083f100ac2d1c13527e213027bbf835781edaf87ea1ee053ac8aa9bab76d4),
  (true, 0xdc85573016b245636716c4858dd1030cacd4554072d46d60e9965b0b27cb248b, 0x4c091eef11b889c168e47834363cd15b7bb426515fff1d5c322970f2ea538100),
  (false, 0x4b3b0d62aff0f8f89163c8d3ca0e47e8e49469ac9843fc92f2a84658106f8f8d, 0x1935a233b422212a22c3bdd4649b57b671b0b9131189a3bc7fac02787d237c8f),
  (true, 0x8d39eb792be78160b9fa4e685a6c9188e7a3c39e8036d657b3c85d5335beb9d, 0x60a5f20cb0354da190fbcfcc234815c60823940d74127743c2567fbd27fa28fa),
  (false, 0x7c484b3b2646d4aaa34cb652507fc8bdc63bd2f3e17ecd772a0955069e0310a9, 0x2926a71665d7a3122a7f55c2117e323bdaac15c3381f94886ce14ecc5525ef47),
  (true, 0x50740c1079519474a540a412141a199e4146d8a28c2a83a11d1eaea4c8e1af97, 0x2bf2c9b96b45a09d9bf19b9274fbe20d67d1df71bb260f6eec2e7c2681b926b9),
  (false, 0x58e6881b8988d6658e06c29e5714370847e1b600cb7a1b38792e66e04d4a470b, 0x2dca10a4c4e83348ae9e115cf0bec586066a2408347dcfcd0c4d9359dd26a50d),
  (true, 0x5e3b12a1291787d26d062a21b5c392659e7df0cf4425c73a281cf4a3c7c0fe7c, 0x9e0e6b5accc0986a79efd39c8da994e2482f90eabcfa2cfce3eda4e58f2fecbf),
  (false, 0x1951bcf5150d5e8173b7951ed3ed80251f5015b0ca8d4ea72db079a21c88fbdc, 0xa787560b3551845ca4bc285e29a2e12c7bc4531d27bca84887c31591926ed311),
  (true, 0xf52a7b739129784b052e5cf4a6b55aa3d7daf318f13cadaeebdee30ecfacb4d2, 0x3331c11dca79f582860fc0241c369294e5deb9b61a055e6fff72eb9bb13d6e29),
  (false, 0xba40ac254e312ab17ccbd703df28022018f11b260f67869a0d33bc690dcf6816, 0xffd86d85880de23fa3a8425637bcab7be04136b6600deaf3ca1f675417a8b5ee),
  (true, 0x7efbad72760c373b117fb84deba9b02490687486edad40a912182ebb4af79fde, 0x261ac6771e80d403e3a78e05a8ec7a104d81a8e4d880b3b1b9921fa2a794e832),
  (false, 0x601ec599c3c615397ac064005efd3b125579fc0de4256f6e8d21d0528dd1c175, 0xd10bc6bdcc0300b8e82e33cb3d00c5f7b33842f7766993c3205edb624d05161f),
  (true, 0x144f741ae4da0d913babea1468e8fa4ecec13a80d8a5f0ff3c29d1994763b534, 0x90e3a30fe1284b5c734df8fb1e6fb82c5231eb5b29b277d05820cbed6ff4fb85),
  (false, 0x5845e75033a7b0ebb31e35de796d2868c53ffad4d4c7ffbeb16c7345cdcf900b, 0x848d8d2a95deb71953a6e60d4a61783225010e2d200d8521bf8a5580868956c0),
  (true, 0xfb8d08291e4ee6864fd1de30f31d51da6d57bfd9c0466ae7353bcd59ed4fcde2, 0xf3f4f5293f85b5418337231208fdef9c16d56e38ecae05890e19a003f686006),
  (false, 0x46894f1a935cd8bfbc5d05239cdec622fd86a239744c6e615b258d6acf7d688b, 0x12a41796b9ff4f84a5af3f322879b06ad09ff1aec3dfc812820fec32cac3fb61),
  (true, 0x6237b9d57108c54f684943c13963543f74ace3b19230668ed0fe00250a7b00, 0x2d9cecc27e20c5be8ac5bfb6c3043f3322cd6a47dda12776119efa72407937eb),
  (false, 0xdeb66443427ce9cac06b652e4cfdf1d1ee663fea840e5c4c6411d5f58a9071e9, 0x8d83554c6ac07cef7893bcfc7db2fcbabf3ed9c0984ecfe10f6c55d379439ea5),
  (true, 0xffe3de64c5d9c9e9b28dcccbf659322b7a8cdf7752ee038b74e8d5d5c74c237d, 0xfcaa932e5f49372977cd7a25ca91c3613d997bc6f22fec0f7acb82ccc9a9b222),
  (false, 0x11e7a4ba260f198c9b30c56cce9f660d2824d5b85623a89ba0e95b35e506a6b6, 0x97f3fb6dab623cccf36b212c630488f8b6925ac2467fa60ea2d90ac372e42eed),
  (true, 0xe300d719815277852313a85d86ff183c5a17d6743f917fca41d8d09a4460b986, 0x61375a902341811de0e10750d2831d889327d8f8795d73e5f13480e6c3394e26),
  (false, 0x3526cb47178ed388e3f0fc002f68d97561a7efb8d61da967d4070261fdff48d3, 0xa5d02418ae21fbfdffe68cdb3ff5c9d2e256fb1a3cc8dc65d817aa924c548c37),
  (true, 0x51a49f76c9d911c6fabb3c7a4f110d7451f02823c3abea238b12b55be527c138, 0x78a26738f13d927e80973e5e89a916b085fbbc6f181322259a2ea9e9722e3213),
  (false, 0x93bc7e39df7d38920c93cd5edfb93f18f9b2acf593abdb146fced64e888c1b1d, 0x196bc6fe8e1452210672bd9594a1907d3773a4531cf75b373db1e16956c836de),
  (true, 0x3c421c5f2c13986da85832b94edfe18b50ef90af5c517f08661713201c8dab29, 0x56c4fae2bd68fee9b4888390058dff3a4f6719c83f0edad895e60633ab7a4295),
  (false, 0x2bc23d0b4cca0cdaa4969ac29286db65deb5c03ec01642c05a27e386dff9278, 0x4b91eed24f736bf4c509ddfa38b963081969485bd9934324523f0eadc2d5083),
  (true, 0xe6415a66ab08e833ea4c8e677377b8c3b6b4900bb7283e825a0e0076e7f3b593, 0x688018a140e5ea2d79458e4b6a7c643d5b6f7ab9b7ffea0e711394f592b7ee29),
  (false, 0xa5025981fe8795f029cb02723f0891cb92f5f7edbea55f8c8357149d9b43db3e, 0x9d887626d5372ab099f4e40e008b5fcc795b92f8fb34ff00b5bab3d6ea507718),
  (true, 0xe28802ba72f9b091a86b4b1afb9c1d432172d985c6029107654f2b8711ab4d84, 0x6d3f5b8d9d6c80f3aeb2aa9cae1c29df3f4c9edb2bcb51d7d8ebcd0a6e4d981d),
  (false, 0x59dcbe4d0b3dd2dfbb1d9515ec4ac69d0738c44e1d1553d705c8055247990968, 0x705f3714a5a0a68fe704b9399fd2e6a1cda57e749d0456a708ff2dc651c9ec72),
  (true, 0x526738a9e6223cfacf07b57c2c84a0739332e8d5f35c88804e8b94ac42bef5b7, 0x532664fb1b334a1299c1f1be72dc5b9150b5a8fb9f10bfd450ab509c1a4c5da1),
  (false, 0x83e44896d9316653e0a790c126f02d3fdd4c1e37d9c7710cd666e17a69136c58, 0x938b1b19cec1f0a201fb57fb9324a57f8212ea07409a7300f5adf1fd18579443),
  (true, 0x531b1d3a9693c34aa3447c6179998d34df70fe54dc9fd2ac8b877546fe513ee7, 0x9ab7391d87f1dc74cf1757201f0a31c5fc0e446a80bacbde3be297fba979f0a9),
  (false, 0xd7f2168e077dbc0c8e4f2ff6e328d3e4f290057ed91fe47eac533e75cf76c4c, 0xae36a012fe58008f96cca377939971b43ca25f179a2e582d7f6b0796fce3dbcc),
  (true, 0xa6e1755676292e568c0d849cd7a25ef29e3cde8ec8c2ab534bdc59a7db021919, 0x4ff5775e32ac92b1ea5fc41f57a47d3d1d2c7d662e46965ac2b880254d865667),
  (false, 0xe3bf2cbac1832b6a8e123f84cc3c42709643c9a20a5f15e78748d728b766b0e3, 0x8a60aa63dac00e1a848449536bb2214307ca991d579e9f1564a0f44c1c355811),
  (true, 0xcafb3051b403a292a0be513cef90c7edf44d56bd0de2a99b59a42cdc1d5d264a, 0x40f330479d48cfe53bc185eb8bd5aae57def7a08d24a2a703f7e57904e460db6),
  (false, 0x427fb77dc96d69783a933baaebd414e76da90827db0ffd4fe9faf0048cb3ce4f, 0x86e0d8ae298126022636aca58aafdc6760efc086deccbe7352755436655b0f58),
  (true, 0x61e2aadd3f1cbb8903b398fcb3c0402e5160c444f37a29135380ff00bcfc6d72, 0x843cf1c353c7ebc3a33d9557e20f3fbb0c033f76b9dffee8fc131ff639e6af7),
  (false, 0x9d2c9dd628de185b48df1d1fba9b46681a349efcb4733f555f4061e6d44fe900, 0x596a243840e37cea8ad4de746d1d24cb877bfb5a999f384136f332938bab8f29),
  (true, 0x8db35f6cecf04e144e47a9837996876be3949cefbc410d3f811831eb6a419df1, 0x752724fa97d4e1b38af0d7a52de5422b6c3c163db7ffdad9bd2266d0df6fdf94),
  (false, 0x9f7dbfdcf31b2636c400694f2ec19dc79a1d0812e87d715f5ca7d1e82d0216e4, 0x16f5321b208b7ced418e02106868d51367724c485963fbbd4ee6092f478764ec),
  (true, 0x5f498f444cf37f12ed4988f4a2e79324fa712b0221758a002fc4f98478fe33f9, 0x68c1c2ea31308718a03238e6bb75b91e0fca10c4532c7e82dacd490cf5214d86),
  (false, 0xf0078ddb824e5dfd7425ef3d810b90b00411a05ecc3905eb22d33c02fef9799e, 0xed473f40077b67dd48242691744aa10b04474c786af0ae207ae7c1bbe249525a),
  (true, 0x35379c7773105dd7c87292a2765a095e41d3f8883e1b0806fd1ed268dad0c995, 0xb6fd32658e25fc6ee2a75b2791bc10f3fd234257814d07210b1676eed119cab0),
  (false, 0xb31b390a0205c3e137fc477ae24bfabd4faddf85007afe1c3fa8d002b456c40, 0x5f2ca94347750e5c39e3608b5d8ca233b11cda313a13302ad1b93fda0eb14db0),
  (true, 0xcc33dbe89e440ff5d3cc9df1620fc1a6e630d662aaef92f99c6fca902386623, 0xd2cb95a6e92df22a20b957afecf73b040fe16da36515e6ef78250c064974eefe),
  (false, 0x54761918606afdd0ba9672eaccd47e50c69712e2e501f295ee367af7cbd9e135, 0xa5b783ec0445653f74706bb513e8f299be37a7c6a17f6d77387cdebb59a6df3f),
  (true, 0xb468700f298d8b78998001bb47d5ace726bf374204f2c12b48eba6af008de546, 0xfb13b7617d4f162f626670ed3e5422edb98a46d5440eba7afe56724fc4f45202),
  (false, 0xdcab2bc7758470701e4f80c0a9b1327824e347dcca7279a9295616f8dcaeba6b, 0xd5860498a1fa1d910175dfe139fb5bc07e6982fdbeac3efbfa73d60250d38396),
  (true, 0x8c0812a4bdb22f1129be12fed3b743e0ca41a13fe595972bf06ca4e05a535b76, 0x7d342bb91a0c57524a1fb30e631ca8636bce00a502908618b2a840cf19b0b929),
  (false, 0x5bbcd1c76b01804250d66095ba867dae12476ccc5f38a192da16802d8eb692c9, 0x5042f57c9266ff76e0a57407fa8eabec199041a4bf8f2e76985f425462b7f344),
  (true, 0x1b7316061659f1455f17c3ba96fe55b89eafa946c1d89bbfa9c7e65178f75b17, 0x1062748417320ed39ac4cdd9f85ed34a16e00f04f2c5c8f5fedc8066ed77ab51),
  (false, 0xd937a555c760001819f8d80943add9cb92204bcebfc1b6fd323dca915aa144d1, 0x398d7c5feb8bc35f301ee5738793468fb1d225eaa9f38a3c4dbdb45803f11e0b),
  (true, 0x163859fc5b8c0d8297204c1756f2be7f9e714bcd2edc36a0630b283f31d132f5, 0x3a12be41ac19b646e6cdf6153b2dcaae939dca9144c8cb775dbe4b87a4d684c4),
  (false, 0x7d40308c255fdc7eb5d597d33066ce7b6abc5ebb58d17a578ec5c9666840f63c, 0x77f1901efa006f8b2c5504c6d958d46b0a6177952c9b3da53701915c4adbfda1),
  (true, 0x584ddcf5818509f76b5d80b60b849358c7782a726c1ff6c00e17a8b02e1d8f13, 0xa8798831bf734563a38a75edd1f981811ca4ce0897f8a72d4cf857603192cc68),
  (false, 0x519614f9a0394269edfc0afd994abe4e88a9b658facf09403c3ae862d51ba83f, 0x4c09a42c285528aa5bc1801691bc7eb683599b6525aa70e37fcc994ee4ef0fd9),
  (true, 0xd390d8a325ae70c27d5aab6b30b4ffc4f15fc03444ab747b94aadd122157a2db, 0xcf1e584a625a068e6bc0265912bc7ad349794d27ee8e04a581732fa2983108dd),
  (false, 0x6ddad85ecd8d71695864fdb48cd9e6ff8ccc551e92bebf407251a46b6a364a39, 0x8bd4f90b3f57b814daa7cc25e66624196c4a88fe75bc5af71a9ac55c68fb19c9),
  (true, 0x7fb74570c65a551197979d117548c2a73d504df7b38e58a0de9d4820b4fef1ad, 0x8dd2c5e3ab57c7863c1b33c0f4a4fde19d598005d3d24b9b082c9d8f09f87958),
  (false, 0xdbb54eebcafdb9c6ac9609bb1ac46cf063dfd8e2d45a9a899be8fc74fb986a55, 0x376e8144ec6caee6266120fa75808f4c472fc2aaba90b09edc7979b9f5c7bdae),
  (true, 0x99e4976fc349abb2567ffa16867fa79722472cab9ad2999d485f7e507048e76d, 0x2ce52732c9099d8520d0e2605e9c3c62e21f47f341c3868254ef50c7a1fe898),
  (false, 0x93be959687f3bf76ea69134b7edc9c445e3cf2bf24640d3eb5ff02a68ac66189, 0xd5f0ae6be578492aec08b00764aaf451101b432078e1ea4aa22b7040c9745e55),
  (true, 0x91c62c9fcaafd05f663b40500894c6e42891dd045755c9e759045068819126d3, 0x8820ae95256d1a2a331064c03a99c4c9e621327656290f1a9629271d97a966de),
  (false, 0x11492b9c149ee1b3483070d4d20419221bbadbc8d15f69f43f5a86ccc7aedec7, 0x540b8902dee07c68dd25dfaf82842b946cc9bdb0eadb123c39f35c85749c0b9c),
  (true, 0x682a3863cba79ab4f0b513f2864338656e5140882277fec19ef34b2bfee78a82, 0xeb9de13a2adf80f16736f2b43ff0d5b8bbeaf8af8bd70896e4177fde453739b0),
  (false, 0xec4ad43d7efa5f33e24343bd1a18f1ad14b69aa2a942faa9312e095a973f9a23, 0x89c5a9312f11aebf820ead840df9bc6660653d59dfeff99b4f62aa7a10c07b60),
  (true, 0x14313b2d94e3290163e375c1c232e8cb2a4efe31d252f96b532f869f682370cd, 0x9afea8562da56afb845a88648bc186720d1847dd094a5e6933e00c4a56be24cd),
  (false, 0x5eae39935cb27bf71718b7a46489715217c1c9a2936a79a9517018e766a29657, 0x2cf9d1ae4943f7e369a7b3c4dfeb08a4280777405216b6df5e5c6397259d511c),
  (true, 0x55f2eb7a2b54825b377699f242ef2eee8ca806ae13f08a82114afada32cdd2e6, 0x1413608efc5e886a203b4fafeffe80a848db4fce4ebb9fc7272e8806a9503883),
  (false, 0xc1b7dcefefeb8cb9c7045769c60afadaabb5d624f1ca9d77ce7606f094c2ca0, 0x45ee605ecc947f62cd2dd501a5ed2ca752484860927f01e13b4d79b0cc444942),
  (true, 0xd2cc1d338b9d0c5fd9622e20b87bd969f00a7cd80e42bb0a8cfff4a6e254eca1, 0xa7c83d91b93040babe5088966c0653ce0d7c9f674a89e0e0b4db6acd8c909f88),
  (false, 0x59229bb2dea72d07e9046e0433943f3654d91bb10e0bc7e309daa5630a0fb8f1, 0xa1b3f2b6a99f060b8c41c127de01b163a28caf4794d401e9cfa3166eaaebcf8b),
  (true, 0xfbd593d313123d6ef9ac89d2a723c641e8a3306907fc00ca028f8f5a2de7ceb1, 0x999cd69d4798cd470afb717420048f966eb87e8be15bcd35e0a890361f9ccfdc),
  (false, 0x8197f1ffc528d043e6c4562c22465157042f74b27f538babd7961b01c07d6116, 0x357c10a0e3eee5b42b5b315396e8a7c7dfe2ad8f049690572def9a446e856b98),
  (true, 0xfa2b78cc1512f93daf893865729d4f32c40edacdac8f4a70bfe7e7e0d64a9e75, 0x7bc6106c43dd2bef908523956410cc636e49ef5d6af0d73742a41e9ef2bcc0c5),
  (false, 0x9e74406f9801db6e11624447d4020b8c9c0eae8bbe41fca1948acf09c9f746ef, 0xd6349a284054ccf4633ad291e8f00d34c2eb281835560d65b193f371b8ddd5c),
  (true, 0x84345c15dfef9d1ecb51d8cb3296929b8c1052138b9bcebd0a1f72fef4807f24, 0x17cb6c0f2d2e3fcb7afc71003365a1286d87606635123a5409a1b056828004dc),
  (false, 0xac3ea944566761bbd92a5761c64878e9dd2925d5a7d4be809da2e4ed496dda85, 0x5178a7216113991304fb5d54622a6306bb584dd0b2f6757ba849a25465e3ce27),
  (true, 0xc90229efc8bee602a764264969bcd27f954929bc3a58fce080bef136d9fea6c1, 0x2d7a647e0f0957877d9b8601b96d948af2e4f9feaa994d3b3e28d80126d3c1f1),
  (false, 0xfa212a53ce0079ad6a57ef9519a0eeb369948142dc4b785160cf8af67ba8633, 0xbcd4c7d477037163f72ead9ed16bf8282880fb1eefb99dd6ad7925ae1cc7231d),
  (true, 0x4d7973268c759b13972ba032c343118dc60fab7b3c31336a15a76a63073d4fed, 0xc407af214d622f9a5202f49e73a0bbef167a759c05929d1bf23bfd78c768f1c4),
  (false, 0xdf1a1c0dacf7975a284143edb0b4cb896ea572b85de106aa3c48768e2795718c, 0xb0ed389b57fe64529940dfb7724469efc5d067f5688808eb695cb69f04ee9fa4),
  (true, 0x6e6127ca9381e487d7b2e55cfcc07d424f91493dfe67fd8563d96cf24b072407, 0x1c01e824c09131c1208a0a773c9dfddb57616eccad5ed658e993a747a52060d1),
  (false, 0x89e39cdbbc6cb2f3fd66c15709d6b17517b9bd40e477681c592c9b047d499ca1, 0x4de79e36fc1cb780cdb47309f8492477d697328dce5548808c756f47d2c35d38),
  (true, 0xa7efc09496ff3a1aa393ef91da39e9bcf6edcf5b086b4345ed275d301e93f8cf, 0xddc6f3fc6619784b2d4ebd1a5da715daf2fdc37558ea038409081270ce9aba16),
  (false, 0x5680700d69457b50a51f544e2010d3dd223a70a0dafe620a632bb5459bc5c2cf, 0xc394e9b9873954329ad46321deaca70a02e2493f0b05c17bbfd78b84b1e893bf),
  (true, 0x11d9b989906fdbd9298cf611c94a8c3dba9d203cb7431aefdbe7c1200f656cce, 0x2c343d2cc40d98fd90621e742975da38a143608dd257a1e759218f08f458793d),
  (false, 0x547d13d1af855540125a64cb2cf20d184158d6811988a119c1137fd07e5f2b1, 0x88fdaf14e4bce1609d8af4c23a9882d48fbfad71ff797056c5ba45df18e45f5d),
  (true, 0x851a25a492dcc3ea9c0a929df67d724d224dc1973a40c274470d1744b12ab673, 0xe3985840a8d81d97d025dcdd748d33f59f81b3d8a58f7355dfe20ad1874ae1f3),
  (false, 0x7093f194b6df7a353a3174c47468927f8ed2422107b3cf27e0296c1bd3b53343, 0xefeffbbfe34f509877029e453ea855f34017a9f41aec73446f74938694658aff),
  (true, 0x7b3027730f7e83035d45a17197d33a629519c204126f071ad834a7c655cdef16, 0x4ac45f71e75abdd615db59545df6e32a12a537fe615b025143d66be47f1ba309),
  (false, 0x667afd6ae138a01c9da1f1f83ac7b9a444548fc1dea89d24dc8722314c142a18, 0xbf3efbc527391f775f143bcc1b73625c9020cddf0de4508b8f9983aaa11ac061),
  (true, 0x7388acdbd14a8b75ac20ae834eb09f8eee70874096eb123f75f7ee29144fc172, 0x3858e175468684f5f41fe4e28914829d09ba6ae9bbcc44ca561133f9aad2eb1f),
  (false, 0x7237e6190468c5ed41fea8ffc59a9a6c0016c2e5a456e51cc5498c0eb33cf936, 0xffc84cc66d4c25931f5d1b4f7cbf37449953a0f7f80d05b8cd5a9bbc847e1d98),
  (true, 0x6bdc3a06c3ab473c5f1e6143ed80a136120307fe1b7e9bab01bb2d50ef8704a3, 0xa3b7c4bc4cb36ffb42327ca3d42e82b6b81358f6a83bd37c8b859bdd39675b50),
  (false, 0xead492c27082669dd937ce3cd0282a58d3302658abe8d0a3cc1e27f3528c0da8, 0xf0e120e3333e8d81a34edeba609f1094412cb645c0adf9ec15c20232e4583136),
  (true, 0xe54ef9b8f6a95bc2536faa128c221cfffe2397bea5fe6b1c9f11a184c71d61d3, 0xa61a0995f2d62c45304353afa150bab2b64edb8a8a58a46a7f4e0b349fed1e4f),
  (false, 0xb4c756a2a0f547bdd354776937872ac94388684c6ae9eabc3463c37a3c3056c5, 0xc4e9376891de5799255cbf77bd395dd6147a1684aad9b5c55f861feeb0bc4faf),
  (true, 0xc7a2a5eb5ff6ae36c60be321ec71a70fc32d87b241b66757ab9396906e8dcd84, 0xc36eaade6b09f6727114357ca68fcfb1c4a352324ae23ed7c5bc1a6aff0e87b),
  (false, 0xc749274a103da17303a79fd1f504b17122ffd70293762f29483c5b64db82812b, 0x52f74ba70d6f925bd3c35f10d365309a239eb923c9037a84917927e35c05d625),
  (true, 0xc11446e68f3e0983190054ee04b286668b78dd3cb6011c397e14b36b625da5e5, 0x802985e2cfc6569c2ec495a46207793f0ca56cef24fdc473fed97d4445dda88d),
  (false, 0x314cc858ca512e66471a77311fc5f7831736464a705209148006618e0d73066c, 0xf1307601ab88c69da4bb6599c3eb6fedb2ef411f822c9f10e47ace583c0c0061),
  (true, 0xf30594cd4e52f6d06de1a21c237bbaaa0ca3acedebdb45700db64b8b9dd84293, 0x26e56ce33f7517114b153feaf6fb4d36cd2a9a16223b9a19c4e4a29062ca2268),
  (false, 0xea66f1918e34003217a29dd4f3addc9027c36b02559f8888ef17301ef8390542, 0xc5aff4db34335f0a53432711ea8b378a5757b8a9d3c6a793c6019ea297f9a79a),
  (true, 0xe5061ff876701d5543098daad5337d815fea415419e6d1b1abca8e349da5244b, 0x314a2f02f9d1e776ff79ebb62393bd506d2caf60dfaa933f5120803324543b62),
  (false, 0x46832ff171fae15185383b24dec3871bc659635025bf5939d7fec426e4ecaa47, 0xfca331b10b5563a50aa41a33de0adf0f99b218552594cf955afd95c758457b97),
  (true, 0x5488434793118fedec7b4fe59b5b9efe590aa440d83580d6ab85db33d4c0c567, 0x27f7e8d47431cbd0e09905d37fc4dff55c3781fd553b9a46a4c36eea2708103),
  (false, 0x13a869edb70c1415434bb9440eec64efc8500f31ebaaef15fe111efc6e66f4c6, 0x9bada9ec7bd764554770fc29022c841722e7ebc7abd95c400d9c10d71b46910d),
  (true, 0x2cab32cfc4bc3b968d91a2e9dc556fbd5b501f4674359de08ac3aeb80e4be72d, 0x3b1b43b761a161c10c0f09da665d824ca3c9c94d8186ea5ca0f1edd357392a06),
  (false, 0xc1a9250fb23ed16e4fa82ef16dcdb190c3f75baf9cd48f4ebad32ff015509d76, 0xf2312a4c7d2975c155b9d436b27a0a3be0801991edd39f36d2015abab2bd085c),
  (true, 0xff5f62ef4fac521c6f10750f442143148b18e65a87ec271cf7dca7b51eca7848, 0x5d956a288673c67b119e3bd7d7059c06f417ad95ce6ea53b68d91191e1597eb4),
  (false, 0x9aeb2b8bf1f7801f041f4769776b26632f06c9c0fd5345b3fbf0da7d626c24fe, 0xb37c5b056eff2afb6dbf29d0290c72115a13fd863f4f1634e131592b1ad43194),
  (true, 0xa44894fd4bfd422968b833b656de49f4a3b6ef4ed075f068f93c95a26027050b, 0xe8fd69d349ea5544a0fef214a57a5bfa40f06d43c1d52d48985599513f9bbf13),
  (false, 0x9f6f304e9921d736ea8e4e740c96fd2f0bf77fb97e666e2cb4899ed177d926c1, 0x44d5b1fd433d59e26757c69730c2a159d61c00c93dd92efbf7413fc0de6202f),
  (true, 0x1a8d109cb43afaf2f7fd6e51f788a0de52630171c2f956b659b78dcd952e7859, 0x83ff04abe64de063add15abaf09e070ffdad657ce4e1fb9e7c0ce1e8e523d5c1),
  (false, 0x18d14807db0c7aa60f6d75c2bb739188ae8998117db0b6dbed97d5008178361e, 0x7e8732fe4c46e70962e3089909261f790832f07dd8c376340fb20e4a566567af),
  (true, 0xc50317efdfbafb9c859fe8d404f0b3b0c53d506e549922fc1562cf52be5b5776, 0x1357c2651fb9e109d30e27496ecef6abae13b36a9cef2da6c8ce155a7469faed),
  (false, 0xc83ddd76e1bf5bedf813a3ecb1e8527a9268d3d6c3b88d2f01bc0c17a51ac3a5, 0x65c7d487d9ee969be695463ffa21a45270f649b6227b4a87a935fc517b86e783),
  (true, 0x71341f0c21d7a2a8c4333a5bdb75308239bddebada633f3e6e493e6380920717, 0x8082fecb1bc7cba7ad5df0b75295c23223c241b153b008ea483a30b0becfcb78),
  (false, 0xef45fbcaadd633b2eae300de161aa90d843a33fd3ca8388440bcf25cbf7f6ae7, 0xeaed943c95da09df5e9a0a3b420a59699513175b0eb18a4b73ba483652df5d5c),
  (true, 0x77fdd45528b0b3148e71800a950e7f66da3769f30f4cc5d2e13b923e628a00eb, 0x9e4b79b7d20accd1c9f139753f6776b6bb81a14871c41365fcf5c6ec1b6f5d65),
  (false, 0x75314d0716d223b98ea44e98d38e03ae92b3587e1a2385870d176a968c77f520, 0x36ca77b3b78fc8cc06e14bbc07f788c1d436b2120131762e6ed2bdb9370eda7a),
  (true, 0x895f2a52ed4b99de04279ec5d8bb11ae199e3a03f4dc0dec673e764c07a756df, 0xc5f38bc443207d2fa74d8848b8f432fd1590b9f3c01f34ffcb72880c398678e4),
  (false, 0x555382a39417b99f8429fc14152c5926bc4ad81126690911a4d8f768edff2721, 0xda68682afcef857acb14e0f9ae6afaf80a299bd92348184a7bfab2ee20d34b67),
  (true, 0x6f0c466d34d5beaa3d6188d10575877aaf4ef701de6cb30b17cc82da40f1dab5, 0x87832125ba182e88fe64002602a742a691071979e8ca7e499fdf2037da167f81),
  (false, 0x627bce8b01c06ee20b85a40c28a9838ae623167b29b33319a54394f5c368e754, 0x5593097895e1a2e6543c62f1fc9cc3c8752581b725ef31bcaaf57403b1a24d13),
  (true, 0x4734b51071c1370568e89eb80a54c2c90cef745f37b703791e277ff8e9eb0710, 0xe6cfd037d8ae7c64515980dee0dcb573924bfade2b1379757003a153d0b63ef6),
  (false, 0x4c370d0d190a395c26a4fbc0d021517995fcd26467c03d62f5dbaaf4d3cab853, 0x835f65a0393c2ef112dca2574136b490d36d493dbc352f6a85b3947c98f529ce),
  (true, 0xb610ce7c7a136f11b61e5a4efe746c17f89b6cbb95c0e904487f83094318df3d, 0x98ecf0dea28f86e7718d0038b097430427eaf49aa20fab7bd65aed2999cb06ab),
  (false, 0x627ea73767344d10a5205da7cd2e2ebc5b272fa46e954ca514e9f0735bd62ea9, 0x4bcbaf832273a68a8620cb06023e73bb348eb5a15d7e668c1156d5fe9a2e1280),
  (true, 0xa5a90c15be619542e26d83c7ea6de569b536479efc0cb4bb9ef3c319dad38f24, 0x6bb860622949ab14644e43eaf7d7c8c7aabad2dde5573b2d8685b474aac358d1),
  (false, 0x97bbf90ac8affcf860465c6dafd43dfd03239b429b205978c781793c1a5e00e2, 0xac0af026bf7b88984cb15bc37770d0eb00953795763c30b5733d78ec50b2f0d9),
  (true, 0xd728ca6f6d6557eb93e52a82bc864c94f8f60c994f5ecbef2411d886dff991f6, 0x8f35e5a9cae0e68bba1e19e634b9baa1de6382052da2c71b730c1777adf898d7),
  (false, 0x41b3c91eddcf2b7035880b904c722579fd9b55c68bff61c776c2b22c1adcd713, 0x383262752783e55b37541353508aa32402f42ac343d82860313e53e59fdc27ea),
  (true, 0x46b741f82441170b7dcf54dceb07e65823df3dc6d0d9ce2d0da86f1d7f830a4, 0x6cae9147e3a3cbde1d69e965be04871f1f10f03c8a7e6da04d6200241eec8c5),
  (false, 0xc84909b8b5a7b473655082b1ccd2346318fa086e8193dd4857658b9b19a83807, 0xecd92d105c5c95f83c63e8a252dcb9acbf37ace9813f8ce71d21be7bffbef58),
  (true, 0xdda78d0099c76936a59dda04e3941c56dfe62eb3b8bd085c9ca3cf26ea395d27, 0x5399ab62a44bca1cd2b8a19f14c29da9fef2c04935d44c9493e9c29485a9516e),
  (false, 0x47c3bf59ba94f9949954bd97c2b489b0b3d49594a9af86d21f91ef5db0bec167, 0xec835b8817eee854ddc69a5ef8220731ed95f68d0d303f2339ffcf31d0937e95),
  (true, 0xfdfa41076dd171f4daed7b100af2cbcd9d7743955a17050aaf3b334a4ec6315b, 0xc29a92effa41500b695a9df3194c264f919882b8f1177cf2d557e556aa7ae880),
  (false, 0x5dbab1a127291652ebdb7999fa0bc5c096388f3c87f4c55f73b2fadb2e96739e, 0x224580af14b68ec850a89f83cbeca1880fed6af6fd2ec7fed4c5ac2633758c71),
  (true, 0x1dccece666a33ebece197d6946a950e0ed8c6f4399e54c9a6e11de7c5aee4bf2, 0x7350e088f40763066e67fac56c4e55e3b2832f44ce5140c5af9a917db95343d3),
  (false, 0xd2fc8a2fcad3abc1ac22b92f71c7679c771d08b29575a36dc13551bf62d4e019, 0x4c732946536adbb552c653a92a27bd6873d1caf2fb39617e55179257c01a1688),
  (true, 0xd41bd394d8e02fc6609d44234dfb4ad9245bda4c85b688b0514d56a0171a453, 0xb0a8e2779fe42b934a5aaeae8c4c9b7d3386c307919da22302439d5d9e2ed31d),
  (false, 0x7951dd2bf727655b26e4c6a76b39f7f35e12345e48a27da7219d05f08eed5055, 0xa367c85e04a0bbad7a810ebe9578169cac4e3dd5d715443759918092d81adbce),
  (true, 0x5b3e6709dc029e54e00ab611b048068612a4e42f420eccf8179be3ab84f8505f, 0x5400f5765d7754362136c42b5230d5c21de9bca5cec3747bc4d61d62b39fe4e9),
  (false, 0xe1c7944019719796aac0d4eeb1fe976b3d6d700502d3d4938d7544be80f8eb98, 0x62105d4b43dfd3173cf5992c3086f7ec12947f39d6c2b05927013a43953e44f9),
  (true, 0x87d20f7c4f2b0e14bf0f6504aa79e5030ce73e4bd7c98a30e47724b859b98e34, 0xb5ed02724be0a5412510b5df46c8aa3e34eaf8d1f3e0cb3f47f4d4737bf2fb46),
  (false, 0x5af40058abd1086d3e1e90a2cb928700d0523e44b43e4ac29a5fa2fb72a55d46, 0xdba5580f2ac573e6cc24685cd868015cb30d9a36441f961291df10efd9cd2461),
  (true, 0x943f2864133534b84cd2b83f08aaa4d2ab0d4d59b042749f766c9fb7811a8e9e, 0x2aa5db425fe655182ba9fec6d36e5c0f1ee4e1aa045c9b06b81d1b14be635859),
  (false, 0xe97481333e2be8dfad391b7b4a87c2664623c0709e35017625bb71f5b3f32d4, 0x2cc9f612a452fdc7b574c5e18216aabcb6aee8763f960057fa29bdd7af6822a9),
  (true, 0x5193ad418711d7c5c7bf98179731e8cdbb888bdb15a516bf71742fc6d71b318e, 0x21b329fd176f4d0f3cf1bf0e037b2e32403c848c18ae8539da8628f3d8c79ff0),
  (false, 0x76178f2a689211d6b5c10919c9fa27317a71b81f3c3c2a913159667115780005, 0xa41c0c2f61216aaca37e028d3e85196da7b8d99b745ab39cd5129d3d0fc88f9c),
  (true, 0x7d2042b2209c8e35431f784b3849c95ea9ba3946178e3d91afe1037f5b6cfcd6, 0xb124731ebae09a844bef5ccab5abee25b174fe25fa19563a155cefcfa6a73942),
  (false, 0x8557588b30e997b8aee5980ed1359647bc4757bfae1563c4ad4b53983e03cb1e, 0x28bd70914a47e2e510445d610f0fc67b845f600838d1a6808d9d5b6bca3bbae2),
  (true, 0x51d6648081c0eccb5ed0de7ee378830401b6cb3532029f0041c6af88efc9c61e, 0x9c2af7c7142ad781af8724795b57ce9e4d644fe7dc0d3cea4522538b4f058bbd),
  (false, 0x717f85f9bd339764ff1546089883656c5bbddec3709cd9bff4c771e266dc250a, 0x6b5b9e67709ee0dd3f45f88cb1879053323bcf6cb3cee695547d3811f7e0b1c),
  (true, 0x960336c26d41ca2a329762854aafc856387ce31a2960c248bc60b284e07497ff, 0xe04ee669ee5614d98f6d074aee79b9dc1dfeaa8d35c43aa59f83b95db2667a90),
  (false, 0xab06e9c2c31fff0020ab5aedafa84ad6a5aaedffe7b7545c79c0a00de2bd012, 0xedd21ae0f762f1ee32310cbe1ab9b560e6f35f895bcc3da4e483f66408c3b036),
  (true, 0xa9146eb03a2e066f540012517111f5edfbd51ae46d4409be549ded49be025a7b, 0xcc2e0238097783e798b5a22a163dd92c91940d75579a911ee4dc315d2b6a0790),
  (false, 0x71f1f338bd1f57c5b4ba834bfe5a13ddc23bf73aa83943f7037321b0fe16c6e2, 0x6a163068b5ab3ce305f3c976a5e0f1c6a805065b235585802a2102170a8544d6),
  (true, 0xf2d7809b79955675c14712189fe9065cd8571e5750f6cdf9e164eec6cf4abd90, 0x7ce7281d46354b063e5fa08e6c09b5a66336ae7e83dca0514b46ae70d712096d),
  (false, 0x931de8d9ac31efa62ec8d41f764bc5094978d72c32b43b8255eeb8f87c21b49f, 0xb57de135163af600de3132c126d45ee3f4b854d8d136c25cf2c6623e73dea395),
  (true, 0x3536e913cd12150f7ebd6985d8123759e72db4d667c1c757696f31e4123b8ed3, 0xf449f237be5622a9a6e06ae4738d72914c2ca1bc81bf70f32566f16f56ed0238),
  (false, 0xc0f1d45e35443dd00b4eab05b595a5b39f3c1c26fe9e30523d6816561dded9ac, 0xc68790be926f120e94d4728af547afec8ffeebf643222fcc60f8cd800c0865ae),
  (true, 0x593a27f630b725bcae7229e153ad177cb60744571fbd68410c8724a719e3322e, 0x96c087ac316376741c1ab55031e04b97df48a5684812ecbfcfc45a01eff44665),
  (false, 0x59a38b0537b9bb8393ea06f4162bbf7d55d4b904f8c61a9250a960df5c9850cc, 0x1c21936437470bb742d79547921c6b15037fd9f50ec17eb93df4fcdcea34bb36),
  (true, 0xe8f97955dbe2680c2185382b381853b44cc09a0d67bdef9ff8be2c89957b3ba2, 0x1e03074d84690d305bb0e1ec8ad8d007d0d374b9093280310c19d530aa568020),
  (false, 0x9deb3b3b5811ed9393a687a32fabf0715428291a3e6083d0cd6b746c5295f039, 0xdfb34dd33ad6eaeeff47fb80a71b592af472a44109fef9c0e95a0ca6035ff4ec),
  (true, 0x5a6ec8cf540d2dcf31b5b1e28cf1aa839c95a72b341a4ea4910ffce8cc663f6c, 0x7be61a6bd374dbf4ed8ab9342080000862591f34092f5b421f07cb0c8b45e05f),
  (false, 0xe680c434f2c826a7d72a7a9bd1641f9d7f12d7f71c5f4d298136d8c064732d1e, 0x6cd1e5faded04f473c026f40b8d482663318fb4fa28feb629b4ddb85077c39c7),
  (true, 0x25c9d8dd44895d35f2026cb16fcc08b57b6a773f33402fb47905f4db59470199, 0x703d3a9967b14336496f50e017bd5e01e7fce3eef08cb74e922f1d08c7b9c719),
  (false, 0x17f1c978f590d12c16f50a771f6a2cf99a30abad3edce2cb7cc9d81bf62c7e51, 0xbf4b73ee383caba611deff07b0dd1e1f33d0aeb07b82d4c23f3450350c4a8dea),
  (true, 0xf7e4372e54851257241f19f6d62b8d0082f15225154c2ea251bdaed5d630e2a5, 0xd20f87add2de5624c6acd406910d18179d7054c0deda4fb43cbc7a0ddc8703b),
  (false, 0xdac6a27abae8ce132dfaf66712d35908f2269aac7db431af709bc6cfb29c6f46, 0xc1b024254bbf3c91bf802cde6fdbaf167130707f918ddab09809f1b95598a3f9),
  (true, 0x5ec9a2f4a6c95c735f514bff46d8ecd3cc764e5f6eb596f05c588c778139054a, 0x34a074ba793455582e4e85599acb406b1991077cd12066451fd413abdd810001),
  (false, 0x1224a2357b38eb8c00667be92805b2bad473e1c5020c7bd81cbed5cee21b2163, 0xe49498461e0a086e4d1a65dd6871951cc8744c9427406a6337abc8d95770b78e),
  (true, 0x7bb28ad6ea75989e4318369e389dc24ccf194957b8e28bda5a9d9ac7795d60b8, 0xbd1082dcf622fe6832af66cf04dac7e7c11e7e28777425054db90d8ea11cb8c9),
  (false, 0xe47d411e460534698b1007ebbeb4ac1df61ecb3711a1ca14f69583b837acd70c, 0xf7c09c9485f7f12c9054eb497b4a11aa1c840f167770c2bd305c67f402637dec),
  (true, 0x81e91920b8344899ffa215ef2b7cdd7699cb3f9e5b5aef437c223bff1cb2aaa3, 0xb848eac376d20d1df46deb1830fe88f496f0434cec35f77b486aae30c160003f),
  (false, 0x6873493a3d0bc91392faf93a3d37a8b059f31f5a1a940f8f3b23b064bff801fc, 0xc44f1cfa3e290a7c34b73910622b7c762ed738aa4f1e54744403030a36648b5d),
  (true, 0xd67385ef1fd65b960ef2e704ec897ed9eb360e73e95a66cee359eb0eb7c8868a, 0x784c57214583391567f48fb9fd2bc2430dd101a147880f62c27cabbe035fdbde),
  (false, 0x6947b4e390dcb2acb12bac18a27df83ee5e1a5e4bd1e65dc9a2836b35fe9bce1, 0xcc5ddf90aac6d8a0d279c6eac9e8282c7612d077799b875cf09cd342d53ce142),
  (true, 0x3224f7699b786222f20782c74537d2e5efab156224adf6b8a39ab3369c4b088f, 0x22f44f3c8c26c999358f0ae22ee66320de4353dec7552798951a76fb3d9cb095),
  (false, 0xf81f3aa69dacec10737084656b6e6bd37bbdff5de84b63ee65c2ac495e3439c2, 0x466990bfb7be1567d9b199c5425005fca4ce52efa76aa9329d36c4195163d374),
  (true, 0x9d1ad036493ceabbe1c6e8d996386ff56ffd1fa422c9e31d0ccd16dca113771d, 0xc8b05e0d3e87460dd904c01bfccd994105f34848900cfcb86cb0da6943a3b430),
  (false, 0x37eb378a26042b4b79dc5dba1e0382b9b4eaff6de7eb7f4f42b45d5ef1d73ecd, 0xc6788ebd10fa554329f7afa3531ec7b1a6a6ddea5f016e20bd941c6180a4a1ac),
  (true, 0x36982838bb66b6594c253b3d5c5dc8edc57e3cf16d4b5dbec06696ff5c5452c4, 0xf2de826cc160088d07292272b497d1adb7cac9c613fbbca2e4f53c6a01aafa4b),
  (false, 0xb36712df8a2c32ad3318920850bb029e54d14639d4ca8ec3860b9f5356bd3401, 0x35f068ccbd7b7846a27217064933c4843028e45abf4ba74eb647b84746e75e7a),
  (true, 0xcbad0f3cc877c3e8917dcef34694f6ddd442feff707453293ed100c30eda0de6, 0xd3a44916c67a0924e14f3d7532fe24f4575ffb49dfbacdaaaee7ae9a837b185d),
  (false, 0xbaa8be41f3bf628da7924e0b6d5afff118f263617e33920de16b51142501d0f4, 0xd2b39b72217e679c286762ff3b32a9210af1705a71395aa765a0ffd4ed318d94),
  (true, 0x2b87e3ed74494fb9a69af29103b9f77d077c7b4d0d84e14882b8cd727075993, 0x853f5d3f26d3c300cf148265cbaae2a3359d88d925360f00aa5b42208ba76905),
  (false, 0x609a6fa4ec5c8426e5afc07b5cca582caf86919bcd249abe9182d9b6aecf976c, 0xaed2fae273a184e543d9ebeeb033ba3985b6e969a444c0aeb7db251ebf6c91d),
  (true, 0x20b9a8afb47bb5da2b06a4b89369e1d977a64876abd65c00228a720eecc39109, 0x4159859c745cc9479d0a4ad91887691844224af52da629c23f2ee2de96b28b77),
  (false, 0xec13820686617d447be610b66959444f8d52261edb5974cf55dddf820054efe1, 0x2ecf435cecb3d9d7ea9a9c20b4ab7e811f6bfe7e644d732e34b5167fa63c3861),
  (true, 0xdaf628b9a93b3c243b40b8c0034b6421ed1c32dcd51be00098f439f31416036d, 0xfd76a42369af1bebd5b15464378f1303dc02116808cb011fe3cbb7ded14653ad),
  (false, 0x507528c2f7dc3a39fbcb0f6386f7627cb99ecce31fb067a9a650b7f569a32123, 0x54deba0cab8e72cb519539d322e4782e9e183bd21d6115242f8ddb856a3cbc2f),
  (true, 0x3543744fb6c6381cb17f4ab4e025125be5a6cbd494d4c4fbf9b5528a0d8fcd16, 0x52d84942aafd785dbcfa76b136a64e3b30674034e6c628f7530197eb8cf34a91),
  (false, 0x383b6ea70d8bbf11a7abac308ed47f4c2c44da81e08940a41f5d76818ee79b42, 0x79a180ea6a408367e747652f1128972cf34dac93d1d9b096372260d7c11e9e07),
  (true, 0x99f81f79a1b93872415454b60e81a4fe71240a0b71e8650293f0d5c14ac815a1, 0x804c15d8a0a1666b51aca955276f8e760473143c7655108075aed36ce19efdb4),
  (false, 0xcf1195a48a705677829e135408f31c4ac136853943cd8dbf1fb22ded0e9873c4, 0x4e93676a53b55e5d60137ccb9bea67cb6e9af4a7accf3fcc29919c221ef61482),
  (true, 0x8d96f6554e9a2c5906bb7ea28fcae15a7967a60461ddeb1322c80a25f7392749, 0x81b61e77fc9cc943787e72a2e33e448015323f4555ce211673c43395d2263d23),
  (false, 0xae96e83476c5df783d36e17e2b2e7eaba8d4c23b222af1c2fb9d663cf276e1df, 0x4129fa2d07aa7ca46ec072543d61489c3c148428f9ac7d3aff9600388fa65e2c),
  (true, 0xd7bd1c8cc6a36d4b2e3090d4e24ffa9d3f3cb5ca2dba59555894039550770f4, 0xa9208a601d0f9cda4fd02a27d5224683d942c1b29ebafa1ae9b7482c84df5353),
  (false, 0xf362f7c122c0fc0b4e86eaf471429237e6bf6e39290dc927609fd2baaaaa898f, 0x93f990fced9f6d984a1682150839f8f0dbb75245448c458ad8c4d827bef791a5),
  (true, 0x1ea42dbb2adba93a65130374af64d873eb0886565f2634d57d4ed9dcc3946af, 0x263ef7cafed73d79c938085a39f705ae496aa1b3039d67373f89a95dd59bc57c),
  (false, 0x957c52c8bd78e804854d00cab724343ac75b065125c6765de9db7ca1ffa99db4, 0x39066cc700974df4210c5108b37489ad501b0887827181275cd08d8e0b17a9cc),
  (true, 0xd49a6afee06be36a6bf2906e546dabf74b969bf2b695bb3bd3994118179bcb2a, 0xf684b895a1fc6a17f9cee4d5059231729070c2c0717df0986d44d5f275672ef6),
  (false, 0xd5411cc574e106b5e0c2fb1701944be83876bd7c29966946130dd4acf355ca07, 0xa8cf771bff42167b98621063131a1040eaebbb09a4bde8dbd4b7a322a1f277ec),
  (true, 0x24812bd170a3baeabaf28c2dda739ab191818fe8c1fd88f987060474513e7c0c, 0x4a5019b0d7bec4679cb6fde95d129c9047f462d2865a3cc59d6d3f5160440362),
  (false, 0xb0cfc2e6a17c699f3f3757376dfd524c179bf321bb0963dad6d91ecfe47013d4, 0x3b6716cbebf17c1aed7122e42ee0ad4918acd180e5383c2a8c0593dec72a6ba2),
  (true, 0x6f7e6f73da8ff3d28cc35bb56751ad4d912a42e6de55ca31f2c82112feb4e1c7, 0xb8ec6813f38091e29472107a82dd90bee8bfb8bda2f62e4cc25d38d3e4a1d374),
  (false, 0x66278bc30bf7e171f906b4a4b2e4558c4801427a9be81111da18acc3c30be415, 0xfb1093e6c881e344b3aef7b40642f569d2841c0ec0fe6701bc07e06bd30444a9),
  (true, 0x31ef04a40363b7ac551828411423ecc4171259e8605c02f960d4a0d94babab77, 0xd22f020d662567ed6bbf52836f68c95269a8dcf8051e05717d6fdc96d6dbb2ec),
  (false, 0xb610e713aa08320e3c56aaef856cd48fc90e7602805a6446a6ba9520699465ca, 0xd526c1923c1d043ab1ec7e1eb1eadac639f9a970377fb666b1ce45ddf6bf8f59),
  (true, 0xafcbadfbfcce1db733894eb3be882acefc7be09ebc09ee88f5977a0fbcdcd0b5, 0xe36477935b19fabc10719acb5cdd33c368e40824aa9a402c812ad406360762c4),
  (false, 0xdec9a5d513d64d6b5c70853ae9ea9ffc3b9afa811c7be510cef230f69a68c32, 0x9241d5310f724d5a1df9c794b542b7d6293fd54fab9e505a42e62031d23a5a35),
  (true, 0xecb9b20c39646626dcab6ff51b88cb3a46b45bc4510c13f1c5438fd1cde70f51, 0xc41455805f622f625ee4aa4988e4f5726c076efb8f4c2fd614b1a3c53db0a701),
  (false, 0x36e5dc9fdcf09d38c64e27761b2ea9cf64df175bd0a77449a7b308b10da93aad, 0xc294e7ab3504ec0093d2946d60ab514807855d708bd596146256aefd893f2440),
  (true, 0x769886b8ccb35d6502031295c1c5b2fdd463da4815a7b3c488b9f1f9d7dc6af5, 0xa7bfbac8fd6baf8cad6cda60d716a1e604ddb701c2f214a76755c0251ea50522),
  (false, 0xe4bc64a51dd2ff9abfeb1f0cc59f45cc30cc5faf0149f2bac4e75ca78a7b04e7, 0x6d04ae271a94709838ae9b52f221b7d10c8c99ae54dc4bd6ef509ca9ffb118c9),
  (true, 0xaf992da289617ac7b771519bb9d0f5a5aa38015cdd8642a5dc83a110e64a6a60, 0xd72b49bc024f463a5178c9d3f2ca52a3b1ec1fbbceadbee493a3b76ec6c7e966),
  (false, 0x37c06ff10094aa5e0e81b66bec5ac17f48ceebc6efee11e4711a53431cd43b7, 0x465ec47cfe98a099c3b15c8c43af8d755988b8568502a242899934d2a997df7f),
  (true, 0x6b85def5e60dca53e9cb10f49befdc0f15ead37e40fabe9988aabb24d1bf63b8, 0x336bcf53077d07667ac141132750cf997b2847de6f7bb606fa974cde24865973),
  (false, 0xe697e67c155328801672cd6affff9291fbd511f7a37c1bb808703cf097646150, 0x72d4fbb677147d4d69031ba3a4ace45d71e158800755be6124fb50f5b6a3f409),
  (true, 0x28cd150a4386daf3e7c72ee7bf4555b701611cb0467116e55baed674eb89ee35, 0x292f387abbd3dd12017dec5ed28e6df18a321e2124977a189b24e8f16ec0d4e4),
  (false, 0x99b10e2c9aef0904fb94df137d089a62210eced89f0eda1893d5e253267108a, 0x2c54261eb508428fe7954062947f41a73ecde345ef741d22c961ecec843a87c0),
  (true, 0x87dd94efb97df097ca7953dbb13a6dcd1ce6484c30d39c51f3f32e3c5d0be40b, 0x50c59ccee443acbd992d5a8ca9b48895508adf06f23783056b6568e18cefe6b8),
  (false, 0x86e176284bb50b60ffd2b1c214a23c27382d900a779544d7b0f784b8a1064cd9, 0x69fe8ee87c25dd53cd735e4279cd7f961e9d17b321d5a5b110da0d50672de88e),
  (true, 0xbe91513bf152b9a07d592a57d7e311f01ad4b13732a8c5ed44123e01575d0b5c, 0x7f3127a1e69157e11d5ff38efe751ce631046784089bc4e4bed6dc962015e65c),
  (false, 0xff252c2c9cf3c682786ea95bea16dd2a0dc5bf691e19982b8b4561258dd2e262, 0xa3b3d20120c9131f0f3e239f287ff65ad749ef4390d88c8f0336daf6a5e42cec),
  (true, 0xd385eb06fcce3fbe0dc46682fbbc56fa0b4f0fe369052203e78c50d275036528, 0xa7c433485bb768496d220f8b17e54de2b984afdabb78611492eab2182636cdef),
  (false, 0x4388bd868c51a56e0c3754741fafe75929ed1e974e30e6b62005ee8a1e2c1131, 0x6704dccfb848badbf9e6c96a5a9cb19104a48f1d1442547630f63b36ff3b5115),
  (true, 0x99cf2943c0d8245dd004fcebd962902b2da9b7f8722a82c8dd628e23e97b6b8f, 0xa06b7595d3312ddb6bc6812592a8c9797ac45d1c324d4db6288078b8de94210d),
  (false, 0x88cc21de8e553fa9c61069d7032bfe5ee2aa2528b6f3ce97ab2a5f1439b2a72f, 0x49b122c2e82c8e4d204385e93c0c5b950eaed3a2ac6bee3a1798646ed944319),
  (true, 0x3b7508de6b81c7097ee6dd048378f462d54dd4dce694c10b075427a1638b0e72, 0xef04667b7c34aa752a965ae676e1e0c92966f56feccd2da52a3375dc77ecd81c),
  (false, 0x83db7e317ffe52b794ab0f85655e9df80f3517ab6ed63ed89df4109354f41b0e, 0xcb6e7e1d94d2418f483d54828cb2291f200a6e8357809053cb4c5fce09392677),
  (true, 0x20cbd5b47f330804a6321723badc79bc79314813f35b06dc5155be754232c56e, 0x835aead0a6bd792773fa1a41fe0ee4306f02ffe67f69af2931fdf1f73ad0d528),
  (false, 0x48066ca40416a4e01415e01d2b08baacd137cd9ccbdb62697cb8370a3a100fbb, 0x77cecef498467a4408803db51a1598ff872adfbfa869bbea89bcd92499ad81c2),
  (true, 0x264b77345a77fcb7b4cf4be3a3693ca0447cca5b7c9e974721ed6535902eec7f, 0x6f6d697f3f7a97b2e5dbe912f67febff898f418e76fbe8ff251569a3c7fdcb77),
  (false, 0x10b1e18c3825c6831e61d70563d4cbd873e3bfd494086fb6b37c85e0dabdd61c, 0xc5cccbd9806abe2b1faf634e0c14c1fd8833b009c12551f60197d125b1360b60),
  (true, 0xdd9d009aebb0ac383d5345ad35d60b5f0d4d7cfcd89cc67aee0f4edc4a7930d1, 0x43f645e15fbb5fbc80c912aad822d00125f56112464c728017a1aefca3c65402),
  (false, 0x21629adf9d83f6487dfbd016456ce0d1ada8fa504c9a0ae2950e52e5b55f683f, 0x265a5d32553ee4a434b3a85630535c29485120f4041fd39fbaf29bff08a3895e),
  (false, 0x3f6d002213f9e3a6730aed991d5b8b49c16a3a9b4eaa67d14f35dc6fdab1a063, 0x5001a554c51d4f2338d9e044ce4081844baa15f7c0a443a59e8f1c673cd9982d),
  (true, 0x95bc91c8933c6d2173cabcc9b996435bd8e2c8e5ecac35a626f005e09c79b3b4, 0x4f5b8c3b34412d01f089da374f674fd17a02c6864c6fd6942c2b9a38e1045d36),
  (false, 0x5060374720d82a945549d5f10d3c3acf01f4c8781645e49aab30ee5ab5129e95, 0x3ba2614db563be820a64e806707dba8532e45cf2f838fac94d2b0f63fb8e9561),
  (true, 0x5d5ff7956194fac166cadb77f45baeb9782383ce19eba312a31c179d04697ee, 0xf4ce6ae60019406f73e60a123b1b8e3fc808de0df7ffb046b801e6612672680a),
  (false, 0x9a283c7dc2ceb4bd187e30b672adb03880c50f09743f555ddc9078f3c07e32ed, 0x7648600809b038feb70740b03fa1b4896d3d4e7fac2b95136b7960ddeadd8655),
  (true, 0xbd5d0c6d1057c8ad250bf44e4cc877a380664d0a21be554ba27390c19535af0, 0x7c85e1dd6d2cf5bafcb5039bef3b6ccf77acd075e29133780847596d7432f488),
  (false, 0xaef1f14befc1a89072acba21feb2484f5044472ed0b0ab067d3d33cad76839ba, 0x2119158b00aed305b19dd46b37d83c71906e6a49d72a9b4ab82ee990ca93fa82),
  (true, 0xde8b8af239883ed7b1653832f053e98f19d03af9893216489d81db84235f1097, 0x173b58ff9513dd17861f76d3765ca40ef391a5b2eb905f7bdc201841b45d83ff),
  (false, 0x77744de3e589cf095163a40899b5097ae51ee39d7ce493ecbfda3042ac7e63bb, 0x7f462d704415718a62a47a924404d5bea683e9ab3c9d143c4afb401679556420),
  (true, 0xe80780fe3b5ab548ec276a967f645b70813aec066f22d36b0e5eb31c6b41fda8, 0xf544af3c7deae53a55aa91ff36ddc301cc6bdf2f2c43a58ef752eddb04a00dda),
  (false, 0x3c656a022e0b5ca7ef2636e00f45bc4b421a152f5447b558881e808d80278473, 0x2dbe93d9ee4a80f2747c382e8c8822af040ce15efa64ec98fce1c7a81bd6a81d),
  (true, 0x3b4f978b539c5176e9c18fa23c09ca5dc54f055a6da60a21d24a418323b93d1, 0xe77eed9d90b16c6654355404f3c90eeceaa0c2aec60057fac5b50478d5f35954),
  (false, 0x4932e039492d3df417362274af7ef9d9be7f44b1b769c236e36649bc663a6316, 0x7e600209ee0250fc05f605a0efe69779898ad9efc91e5ca528dafd8d0e22927d),
  (true, 0x2ed81f700366a98dbaf9fdf23cce2cc4b6164d4e6a05cb567e69f311f4cfca5d, 0xe0447e42b97c789353da56a812ed9cb35630060050015189323e664e5540b8f6),
  (false, 0x6c5464c6997928e203c63d0cf0a935e33ab433e9723af66cbb5f723e23c6f448, 0x5b7be4b7deda1de31473d012294199dd6829365993687dff0726dcdb63f8af90),
  (true, 0x8880263e61ce4801b7830f3698691a9626b48e93127fcd9dd07c41f2c4501194, 0xbc858788a4491379c1f23cbe82404fb3f8e554f517e034ed8a270f05ea16c45a),
  (false, 0x3621399aee9c8e8c60090df9e6bc01fb54f9c2394c620fb3c964d816d8362ac4, 0x222ac2a13969e2eaa7719439f49776e2c4e5482861fc54fad233ce43f35c0095),
  (true, 0x7309b1a15d77aef5fbb1defc5f06c76849b93f8fc71f56e69df8fb5655cd2586, 0x66892d2ac5c80d09cadbeed143ffb7a737efbd5483969ca732a5376425da4a6a),
  (false, 0xb96cac1a65405d5381e01fedff9d75c742779e42b34871cac1b9155485150ad, 0x1ba30db3c8adf78951b89735f51aacb5c5b9006603206d0de44fa428176ee539),
  (true, 0xdb072e4adec716d4239c75620212f3e41fc0162f576802baf0695b6cb2517714, 0xe45894aa25b399772c3b8c4dfd154de2560cd3a3d3093bf960bf320d18efbbeb),
  (false, 0xbcb74d1ee7ae8398f89516bc6e03065d23844c125a3936e0e70000feb5d12813, 0x6327beecd55abbf909c5e773dc804fa8e3c1c51c7bcf62d4299bda0bf9a0fe03),
  (true, 0x781126d254b3ee7520a6077681a8a05cb6e0a1d260590ecc6e7aa93b1191740a, 0x64f434398e29f3312df75567093c5e3d4c8463d96ddbd555ba5918aa4eca786e),
  (false, 0x49e4042585c78fb6d4901ee87de1276ad51e29718aad42ad8b48ff01d0408aa1, 0xbb2f357d4e3c8a7b4bd51c2e91795431764178d971915f58e2f99202309d3ddd),
  (true, 0x2a10c3bb05fa8ae1880573e3380959fcf4f3e0e23e97ba2d08dbb2ea72fe8e21, 0xa62b942d717bd3e44fa5fdb2f6647ef1326da9e8e41276d842b012708113d125),
  (false, 0xf8fe1fc303b1a6e6339cab00c4a9315b5d16a72ef4730f9707f2fe79e1c1468f, 0xad47f2b01eafd9b6303cafca3e28a29428c66a23917b6d7b682eb1fceb040259),
  (true, 0x7b14e28dd5e060f154d4181ce16731f91f29ab2bfa118075bcc14a4266f4f637, 0x3e1c00591cfef37f2afbb2525e7285a21e1ab7f66ef357776708f1cc1d52e55d),
  (false, 0x5f8818d38f7584dc48d1419ed12dfa72b99cf885fd73981b4a8d7f474aa15bce, 0xbd01f64fce221d9e5331318b06425b35922824773d83787f930424cbf9f47678),
  (true, 0x9dfed4b69dd2a7bded8b882d572841adf4dbb86e2db9f06688f9c05dde310171, 0xc874e465f978c309c2cd1b488f2aeccfb7311c8aa94aae269099cbcb8272be5c),
  (false, 0xe30c0ff0b04a56cbe347c94c7f0faeb53e93199b9d3049ffc384452079296ca0, 0xaa2e354f429ff05e33998ada3bfd2a2a5390beed079dfa124924f637fb4c3d00),
  (true, 0xd63a71a2c397481f5bb9e8a6f0f01ee7caf4f5e3003d50075b30f6baaec5299a, 0xe153c60d86bbda44d3aea7338feaa7bf6f00024205a7b06525866a4cae4d9fa6),
  (false, 0x8375bf375d21049933b0f8fd5c49991e9d7c90af9383d931852cd6ab3744dfb3, 0xd6a7e761260d239bce1b00f5c1fef22fd259d0c6b06f240a6ca6cfd87ad150a4),
  (true, 0x6fe05ef502afa3d66dffbed81519526d5ecbf534f424f1e33078af7f10e25be6, 0xa2538dcf963320dfb91703d8f179dcf681d4ec232970eefa9096b365c9a3eeed),
  (false, 0xa2c1448186da8b2c3bb4864d81da258dcaf85b3b34c8d0fb999be760113c3ff7, 0x4ede8b105a6ac0327b370148be0c2067d7d20e0915a72a020a16aef49e661127),
  (true, 0xfa30460a016caa0461b5d67667d6227b398ecd06c616153e4fa64733fc5636ad, 0xe3030b48c15ffa706ab979412bde6580768187acc2f0c6a4723407e1c6f8d8c4),
  (false, 0x19560b5d48ef67c1460508af693541999d8d529b8c540ed97e36f313ec70aec9, 0x464dc2ab5186e610c6c0a3e79219cf8c4f89993608742b47438f5d872e8cb041),
  (true, 0x3e2c825a254dca51896f114df10274eff83a80e1a213b2f305abb90e244ee57, 0x1b187da1ad4a5f5727cdba26a49061d38ab24c89ebe7836a82e539fad211d326),
  (false, 0x1d9fee6a1b61cb66e8b9c964c1009190741a5244e19cdb9758eedb71f8ef6796, 0x2a2db768bd8d229f974f9220086ebee06e7f41c5e262362b58a16c55e116848),
  (true, 0x834e22fbe4a57661b10e14f576596e3b7815249fa2ba4e965765cde4de8e62bf, 0x7d2a462ff41d3e30f0cb8eccd353f035b76bc056baf0157ddfd63570da0e1bd0),
  (false, 0x77a0d8f7efb2b2a4d006eb3e9ba469d0cec9fe218571e230e1f3625d0fa21c2, 0x70f9021a2b1d2d5d0ec601de1ccf8d9703f34cd2c4f1cfa2d0fb359d1efce3a7),
  (true, 0xe4b66977e50002a4030c346408c2a66530f3ceb7ba9ab382609cb685a1246ad5, 0xc1a51ba7fc23db639516096b6a6986d48913daf3c67119e43c7ab0c913207c84),
  (false, 0xec5145466b03c82454f97cebd4e747dd16dc72cfe4ffc0c5ae57fe91b642cc, 0xd9e70ce6492a678be8f813b86151cade8f3534ae5352cb58655551377248856d),
  (true, 0x775ef7c1b0b9942cbb19054ff8fac90f9a4418038b9469ff192635106161fa99, 0xdca69a97e7009d6c973c11729e2cb1b440702ea4200244989faeb93dfd5e3e38),
  (false, 0x8622ceae76f0e49966c3146acd9a5c5b8938c1be706fb9b1e8a471db763a8a4b, 0x9d87e0842ee4b0d3bb6f5cde8e3b40a2f5540ea748f51368bd9b530d05cfe8b6),
  (true, 0xb7a4bc4fc19950d6622100088608056efd147310b8e781f2b0577e36a7cb50eb, 0xd67d3b1b1941fe669e96471a76e6eb0eb493bbf6fce0b6961455405b0bdc9825),
  (false, 0x7d62add331ae9c199c79274281219c1805f18f429bab14aa4c67d907114417bb, 0x4b553d2928142ded4d677deeac8c3846e9cd9ae1ba4a99bcd2671b91ce2cba97),
  (false, 0x6b464769c64fed4465e02f81cd8deed6e8a19b6e7f65c53c9ac77fa6637fc0c, 0x8fb4a72e7acc833d002c53592d57d2037379ab4b9dc54d6a7c5a2a6d132b2b6),
  (false, 0x33385393328be7d8f3bd3612aacf3700089a70f591d28e5893511d6d63c6a951, 0x8e6064a042957694e54f24cfe198b4eb792db949bcc61505f18717511da0efd),
  (false, 0xb4656fcdf31b1b0525521792713c5b9831fa91567e112e16b3dc250386e195a9, 0x2513e5120b64512606fa55f5cb87a099ec83f7f7cfdc53444fb10f3eb86b33a0),
  (false, 0xf58bdb816b98e9db534d8663c80f76a089ea5a9ca0de9deae87d4b5cfa7070c8, 0xd6f5cfd0c34eda129939990b89cf611fe6841578495aa5f4328c1f60ef65fca0),
  (true, 0xb1d7b5c70f1855c89bdf5412f0ec3b62e34eec5d1a66aa74ca0652972468625d, 0x595a7b163c7e62de4331b1ef5c69035e3c60bb4723c0ec0e364b411b31d755d5),
  (false, 0xb9a575d51adbd2b004051740ad3a4d80bcd31c74cdaa30a6c1b73e28dfb9d20c, 0x9083f63fd90de8ebf6f26e276cc12d3db90e912cf238b01899a975a1000bf165),
  (false, 0x147ec111a6d8152d9eb474f0a457d5735c70d8e87ccac05db8e062311ea97fb9, 0x2ff04a4b8f5311f5960fdc0ccd18110ffa90ca0540a0dd94f82a08212c52b1a8),
  (true, 0xa37dc0434f0c7bce538c253efd488655377399fd0abf9d5eefeb8d124077a5d8, 0xad3618e4b14939efea75c571d48a0bd2836f9ed461098ab2f174f25c047a698f),
  (false, 0x3210cf2eefc28e0a9ac754c6d64fbf11f73ccc8889e1b81df9e01b60c6c9f378, 0xf61580896d8bf448322ba70038fb7b94a2397c1afe52c9cdca33e83bb024c884),
  (true, 0xb7ac0c3de7a970f12df0bd851baf07e14e8a63c0af2e9e224e4b3cfc178db3bb, 0x1d1b1db6f6a00cc7370ab38b2668df52f9a32d5124dfb73efed9fba5f6abc0d3),
  (false, 0x37e9a8a69fc9952a70be4e0ef98dd19f33317f9fd6918119e4e9d3489dabbf1d, 0xadde90ddc71e548b5ab62e1b5955e15343320743f2b257c0320da3902c635f83),
  (true, 0x3b78ce563f89a0ed9414f5aa28ad0d96d6795f9c63, 0x2ec11ecbd8deeaaea41ac615888637dcbf93a1202783c8632b24231c2d6c07f3),
  (false, 0x76c39f5585cb160eb6b06c87a2ce32e23134e45a097781a6a24288e37702eda6, 0xc0039b9384d6e74a23d2d9a5717d5806e925591440badfe61bc050b1f6e3d9c2)]

/-- The coordinates of the generator. -/
def secqX : Nat := 0x76c39f5585cb160eb6b06c87a2ce32e23134e45a097781a6a24288e37702eda6
/-- The coordinates of the generator. -/
def secqY : Nat := 0x3ffc646c7b2918b5dc2d265a8e82a7f7d18983d26e8dc055a4120ddad952677f

theorem secqChain_ok : chainOk secpOrder secqX secqY secqX secqY secqChain = true := by decide +kernel

theorem secqChain_scalar : chainScalar 1 secqChain + 1 = secqOrder := by decide +kernel

theorem secqChain_end : chainEnd (secqX, secqY) secqChain = (secqX, secpOrder - secqY) := by decide +kernel

end CT
