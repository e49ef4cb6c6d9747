import Verif.Proof.N2
/- Generated: points of small and large prime order on the two curves, with the slopes of the chains
that witness the order. -/
namespace Bls.Chain

/-- A primitive cube root of unity modulo `q`. -/
def betaLit : ℕ := 0x5f19672fdf76ce51ba69c6076a0f77eaddb3a93be6f89688de17d813620a00022e01fffffffefffe

def a11x : ℕ := 0x1522a8a5693443e2de416c49d0f4db7938a4eb083ee190f332969d0e3996bdd74b67d8e0b46f3cd6e7fecd72e60c4bb8
def a11y : ℕ := 0x1b6a2096f8c3e7106980dbc969493472e94e3e961d8659b6c9bfa056b81f68b921d18d89dd77c885ad4b37f56f94dd0

def a11Slopes : List (Bool × ℕ) := [(false, 0x197abbcb714ab10e35ac872e3d2f70246d52c40ac2c5f6474662f854eb682bed586cb4badc0582b45f94fd9524d1690),
  (false, 0x70f31a48391237f0636dd315480d8f756016f9957842e8561ced473ea9f01d9b9855af64159e39023430609c3f7c50),
  (true, 0x1298c466f9048512a1f9cfaf27248d690b2e359e8976604a839e845107a9bd6c46cdaf9adf5f0e6794dd46835e154b0),
  (false, 0x14237606b64f40a253b1a6c014fad6b96b0109fbed68136c78b797da739e85b15ef677e5e27536b59f24138f631c17bd)]

def a10177x : ℕ := 0x3c3136f8e248acecbfaeb84a72820eb9bb1fdf571c8b5607f3b8008c623a2e6275daf6b5e264fb41f40b896d6458b6c
def a10177y : ℕ := 0x141ff77446e90e9b7d9d3f9736bd7c0582fa2b86be9d0c7e25dba99e40325d87533839a6e8f5e23dc3085d079dbfb79c

def a10177Slopes : List (Bool × ℕ) := [(false, 0x89276c0845e628194a47f63ea8c5d15d8366a0f93455f45ec5c54436ddc14cb5f42deb1ea3c9b460a93f66c9aed8487),
  (false, 0x19a75ced9fbb17a9f1e370081653eb0d9c336fde42c463c97626077babf30d693105c318cb6462c0e58234c80d02c631),
  (false, 0x1340f0428762e4920ee4acdc379a2ad3e5907d35dddbe26d744e316500a8a26949b2c505f05ee87cc66babfdd6f4504f),
  (true, 0xc47ccd2a0129aea8d86d31555ea17861cc05627e58ab4dbdfd4d869f76e5b487ee5429d9b03b510048d3706f389c11c),
  (false, 0x1775afb5533ff3193d723e6df9e2c1ef28709ecd336d3ce5a9090044f42635e64460afb6b3712ddc72288e87835235d2),
  (true, 0x2e45d4afeb113f292c2f7090789464b687667a35554a780fe11bf45f742737f905ba15c38a27df5859f0e977c5b328b),
  (false, 0xa4a2fe1f528a6848d502f9c57fc5f794c6e1c8fc355765673232f184014c1a2bf3ebad55a26135d54e3f8de60423aa4),
  (true, 0x668e741231595d6146d235c9c12058ca76041d768977418e0c3c2f3ebedd7cf7587e85392e792577543338319f35221),
  (false, 0x11e0c698064ebd87941965983931bc809b042fd43e138172da354356671e6287c9f9e66914b699a6e076781add2da591),
  (true, 0x6ae02a610ccf8ea8b0bab3342320fd49e8b40b067eb3db9a9c134e8f21c3f77e390ffeced33dfb620d818d9db3a57a5),
  (false, 0xe7697a1265763787ab365556eede84f7968e17352c49e5b067ad65e6415d507fb085ec9427580a8533d1a8c677aee70),
  (true, 0x1362431ad7087adc0d1cbd7ef58b37e22e488aa48a58ece7daa51f1b0947d3f757695311cd6ac14855432fd84733b15),
  (false, 0x30c639d7482e683c28ab79bebd66b98895876bd5330778614ca6d413398b8fb7ee20bd19466c82addb66d78f71d8ce),
  (false, 0x5f4678505986f408350505024c8554677e62a1a53f2497e5c2d59af51799739a92e38a641fe53e280d5671d7cf9b800),
  (false, 0x55af02ffeef91fbe12996261182d9de098a621a2ab91684f7a5dd3d757eb0b433b1c76f4d2f535a6ee440c460a6b80),
  (false, 0x3de7dfebf80017e512684ae0e45fa6bd4d144adddf093941f63aa7aaece8a40b7721fb284b754c99bde49e0f7e5297d),
  (false, 0x12f7397ac26dcc21889b3eb5d17e587f16af517cf50ac1782fd59e4c44ab5dfd7831f9413ef0b0aeacd6e618982e21cd),
  (false, 0x10b35ab58502303621ef6f57eafec5f133b0694871b866722109c110e6cb9338b81cba51c3e1b130780612a312b0741)]

def a10177RSlopes0 : List (Bool × ℕ) := [(false, 0x89276c0845e628194a47f63ea8c5d15d8366a0f93455f45ec5c54436ddc14cb5f42deb1ea3c9b460a93f66c9aed8487),
  (false, 0x19a75ced9fbb17a9f1e370081653eb0d9c336fde42c463c97626077babf30d693105c318cb6462c0e58234c80d02c631),
  (false, 0x1340f0428762e4920ee4acdc379a2ad3e5907d35dddbe26d744e316500a8a26949b2c505f05ee87cc66babfdd6f4504f),
  (true, 0xc47ccd2a0129aea8d86d31555ea17861cc05627e58ab4dbdfd4d869f76e5b487ee5429d9b03b510048d3706f389c11c),
  (false, 0x1775afb5533ff3193d723e6df9e2c1ef28709ecd336d3ce5a9090044f42635e64460afb6b3712ddc72288e87835235d2),
  (false, 0x85322e6cc55b74bd7f8ac0ae6972311b09aeb4fd17a5d0589bb0afd0567884bc9c8c1751918bd71b6a95689067efaeb),
  (true, 0x18807ccfb3ca995d73f8be8de72ac589f2b835e6494d3edaf259cbbea49c9cbae1044c8e26084ff5ff0f72769bd86f5),
  (false, 0x1894df9632a41d04e3e7f759a48b731a4e6a5df95ad9605ddc014c1541114046a0e3eb87db5aa1fc7d50ddf3a198a333),
  (false, 0xf56d4b5f85b46dabde7e617010706ecd833853d666c760acee6e8071965b9003894f1175972a71562f7e30c8c7fa9b8),
  (true, 0xe1d9dabd0be5d159ddf6070c700afb89a3d4668382faa6db5d5da59d0778a7380d0ac140a12e74a04cbefdc00e28f58),
  (false, 0x6c21be0a6a2453bd6b4c87f96e7fc3ca719199d6b5f1cc14ad2ee763d17cbec63993db03b0b04eecceed44ef4e1480b),
  (false, 0x2e4b4463cba9b61ce41110a63878d166b1d2e4d403e1db8f1086f598fd4aa2c44147f2efd8ef5a1fa98239cbe52ccd),
  (false, 0x2e87749ed6396d0d76ffd6e02cbab1de2d3ad246dee18578b72a868cdadb0bbf3e15d6795ca9f60ea5587250943db6a),
  (true, 0xa504f5bc49c4cf527ce1119d729b5f6f06e135d737a316492ff396400ac02c5f7069aee31bd5fc08065be47c02270ce),
  (false, 0x19af39906dca2855033981660ebe2490b97fb4a2b2c04df22508ec7c293d3fc5ace2ac5b19b0f3ee2bffdd7fba3674f0),
  (false, 0x4c69f9da4b5ae3dbfa237811c9d83bd17bb635290c1b0ed41c3eb678bfa2f31b3c4bdb9bd5d93e93b2bfa113473aed3),
  (true, 0x197145ba2618da9ff8e6f56f3659ab9bd0744712d37b75d9a948918bd3e1f258bf9a89cea5160781672fb3f2ac6ab281)]
def a10177RX0 : ℕ := 0x1797971b5a38ba97d40f1de6b8a8305e6c9a9424f7c1a1bbf59e025a0c8f958412255640a2cc98506226a83918b420b3
def a10177RY0 : ℕ := 0x2642436ffa14d7006e8a3a705ae4a9fb6481f4c43b0120034ab49b07bc27e16c9a627f307b0945243917acf7e32d4ed

def a10177RSlopes1 : List (Bool × ℕ) := [(false, 0x89276c0845e628194a47f63ea8c5d15d8366a0f93455f45ec5c54436ddc14cb5f42deb1ea3c9b460a93f66c9aed8487),
  (false, 0x19a75ced9fbb17a9f1e370081653eb0d9c336fde42c463c97626077babf30d693105c318cb6462c0e58234c80d02c631),
  (true, 0x174d53be5d5fe7025d8b5c91f8be56639fca6771b9f2ed68d63de4db89eeee64c18b21c267a39becbd0260d39d7f92d9),
  (false, 0xdd99dedd250a50c3a40112cbe843b2545704ac7d8d44ab5dd506e09f6e8df444b82e82a761a1428466bbea233734bdc),
  (false, 0x7663ca20ae00808ec7cc4c1039dddf6e0be94dded5ea1327dde35e717cf397ef4ae408c41f2e2c6a351076437c0993e),
  (true, 0xe360ab41571857f7fb376abbcf6f5c2bf6ba22fabc597ce133f26c2fd0316ecf058b50c94ba4736e0e4e68a6c86293b),
  (false, 0x10e2714a234fb1b304ef2f39b0f10ab9cb0655316c353fcfa91ab11688745c74c1da43275b11eaa8cc72dd2056a69845),
  (false, 0x1934532f3278e5bf870495db297d45c9a96cbf991db726e8fe917dd7b2e9939199ad166359a75fb26b856b09fb283d8),
  (false, 0x117249bcd4d4b0a02bf597bd75b12cbd80236f84959a7a0c972ff493117cd273e1d2f2ba1eb263540bc5d06caedc88e4),
  (false, 0x1340af2e7f235b1968a0b5d99d14fa525c6f2b34c7389d2869741b27c2d4589ee34e2a2a5b3cddba146cfacbfe3ded99),
  (true, 0x1394fde877e951938751b4398bf05378e968f69c75f144c8da755ca7a008dfafb42c4446a74a4ed016ba7aae3b0f901a),
  (false, 0x6f1569fd4a3a7cc9dea9eb6667f157223cd7a711305796392b6c9998c3b0fd6d4e9ac26997fdb49fb43e6285a1faa3f),
  (true, 0xbebea0099c98035e5d54fa7c94068009f25f50ae5e3b7e8a677cca8dd9bc8e942ce6b2e61ea83f0a77d541cbf787a2f),
  (false, 0xd8eacd99d633a3d67553cb70db7c69c53ca10a0539377336d565b6a9ab5215ad358d077160980c6c5a3afd9cb3b9bc1),
  (false, 0x484c8c951dfbbd1acc580ca86202ee86d1ffd4135d4dd4368385563110db8615f4430e4c4c750299199b8ae21dac4c6),
  (true, 0x19df3529ae5b1859faba4168e5fbeb669dd9f351bd6a65dc4d2121f370a2e115a7c6da0db37791dd2c43163559349011),
  (false, 0x701be113110c4ef933508568f5aec6f91a09d8ec6ec6d7fccdd2230b43fcaf203c9816e7b14aa58ab1f5ef9706f34c9),
  (true, 0x797f0e23b6e6db2ecb5be899050aa2f33debf8f7af285f1dc7eac9646948806695400efa6422cf66a26fc74abbe1509)]
def a10177RX1 : ℕ := 0xce9abaf3eb76b33ae432c351a25ea415b7a393c448f8c1c443ed4e9c12c78f9c944c949e24f123c3b4c4518c6fbbdaf
def a10177RY1 : ℕ := 0x169312759a819b3f110f5d22422a2570da83bde00b2f423ff3a8c2113715d327d476cc73b2ef682a8235b1018ad03ddd

def a859267x : ℕ := 0x152777c12cf20c93d971c4ac690fd6c57b110ed0b4476541ca9a116a3a328a4728b2dfe0b5c2e2564284c39ce424ab05
def a859267y : ℕ := 0x15722f4177269338fe9a3741ece6074ab690df69c95f5918a7aa15d2689292282348e1048650eee7dfa4c781227021a0

def a859267Slopes : List (Bool × ℕ) := [(false, 0x1256df8a005c68aa48b9e3eed4b4efd8e0a8d8992f738f6a11a865ecb7b78eb5d8f56583cd0b8b7dde55119835e0fdeb),
  (true, 0x9b2d4fdc4b71688cf0f15184d3150fd6db973675c47b493d06e53ec161fc517a8f04735ef52729df2e85ee8bd706773),
  (false, 0x103e3b95b6268cdaac704f8e514408f5a7735613dae0135cab1be87549592673dae6220fcef2d6648f341918ef569d67),
  (false, 0x10aee3a2685d53f635a3ab4f87286c1fa5c1807965ff05228ef6a8f759117bb4976a35cb0ad1686e209ff6f40530b373),
  (true, 0x122baa904b6b40f13aaf557f9150eaa5c41df97b7f6a9a0f6cb3120d1c679815aa0fb13fa887220dfb5fff2094478529),
  (false, 0x112b8fb57dfa80b6121f5952d71cb31e24510d9bb05c205421f1727d90e70e1558f9d744c9a17f6ddd9a60a33bb8937e),
  (false, 0x119ceaec10dada78889423bbd9dcb3ce256f2d65e1043d0de6a7d042b557e2cfcc32d04f0e6b06d54cd07fc96954898d),
  (false, 0xb65cfd22b5d11ae52b29270faeedff83aa1269c43e04c2dc7ac14631fc427ff3ef8ce5848b9065a59778fcab22c19e4),
  (false, 0x170ccd99d582d063a65f3e2b90b4927bafb839933b635cded33368519342c828319ea63baea16ca8be292265830de8af),
  (true, 0x74962f1a5ad633cf50d09766ececb91d77974c6f73a2d4ede35dc0be10b66a55b6a3e6cb00bf6fe4b3b18755d896dcb),
  (false, 0x23c2a2c4e1ad5383adfea5f685767497dc1d9ab8441c167e343662189d4b235bdcb551eeff8168a141e1f95091038ee),
  (true, 0x306eb474abedf538c07e3a600d30b7b61f0e01328540ab655aa5febbf839c2579447c3fa9d4b16ee3e051c38baee816),
  (false, 0x18d8b45d99aa72e76053f8a562bc0df7da8e3c708de1ff05e2dcc7eba3de5486a4bf99f875782dcb4a708c790cc09d1f),
  (true, 0x141e07372141231424bb5ec29ea1167b4513227c1c8cf7aff853e4d8e41fd5b292d5342e4a8c198fd1e7b8ae703e734a),
  (false, 0x12816c1ff905db42c10fcdfc597d23cd9d581cf5eab0884d109228bd5b562113e2b2f49fa43f335c37fda7a5cf966e5d),
  (false, 0xe77504299b75fdce54f7b492baa98a75f820ae0d5d211a98e063fbae9be8ae668c75130e4b0a98ee9d7b9592e6dc909),
  (false, 0xc1be2f049a601eaea8c939c4711cd511aef252665dbbbb69a296f41c3c535d1ec214b6f7d69eba812e0dd06e4e5f95d),
  (true, 0x6e842e4782bca3599d5c1bd45599bfcd1b2ac0ca87e03287b62139624de36afccc82a306e22a5ca2caa2e65ea524ba),
  (false, 0xbc3f6c636a1f6536484f36c38737bdf9aa74ecc03e5b496ce3facbd52b66b36d3c9c6a29744ce8a87b7e813512682be),
  (false, 0x122e4f546a2b82c274f991c6a0490ecdcf133dd8eaa4b6f298c1a9eb4f3dac4cc3a967472ee7a730b534babefe46dab4),
  (false, 0x21922021762b38562160774e107fb53dfbbe4c9332174c28592dca7fef751c163e57d8ae4b0f9b4fc4d38b3bb93b223),
  (false, 0x9c1a722ce3a23cbce3fb169f7d573e7fdcd71825cf55734ddc8fd7a424117172810d93c60765e68767e15d3cff5c436),
  (false, 0x91791095705219db2bbe8705f06c8135d9f8d3cd7a1c55dd678cdadc316719a0977766fe88cac3cbe791014db236dd2),
  (false, 0x1376dfd549d0a0ebcb9373b8211c90761fc0ec6e03da8166fce9f40fd5f7776154572e041975d742f18dba71f6fa8164),
  (true, 0x173582a45576f533501437bd9efb62e4901d15d21ad185b43046e192ecc6e1a46ddb9ccc843929d9676a44d95baa871b),
  (false, 0x72459ee479eacbb52c28c8b2cf4b3b9a8468ec2a053482cb2ea477e336f274d2d6bc5f6395918999c01fcdca1b39e60)]

def a859267RSlopes0 : List (Bool × ℕ) := [(false, 0x1256df8a005c68aa48b9e3eed4b4efd8e0a8d8992f738f6a11a865ecb7b78eb5d8f56583cd0b8b7dde55119835e0fdeb),
  (true, 0x9b2d4fdc4b71688cf0f15184d3150fd6db973675c47b493d06e53ec161fc517a8f04735ef52729df2e85ee8bd706773),
  (false, 0x103e3b95b6268cdaac704f8e514408f5a7735613dae0135cab1be87549592673dae6220fcef2d6648f341918ef569d67),
  (true, 0xfd343fcc82f54afd64945faced5cf6eff5da2184c7c93721c439cb2b5922c24456a8bf780c9a6241501b04e70f015ab),
  (false, 0x300d21c9cee026951715d831f6c1f639c12cc97bf29f92b958eaa828fed2c2887e07a495a7265293fed3609e02869be),
  (false, 0x1957ceb8d8a247664df93ff696bfa831aeda307e8b9bd1fed3cde24f18f23f974052536288fa4ee32dce75c02a7aaf93),
  (true, 0x13e223b5a6fd642e5790602ee50bc268eb76916a9b0c8a2606c322bf5fb01401a8c3698bc041d01413547950872e6ea0),
  (false, 0x162f942a4070c13aadd9f1c9129b8132daddeb9fdbbe95771bb716eee34700cc39a4535e1a366f4e4655b98f2df811e7),
  (false, 0x5d175163daab9622d00b27632cf99c0fc3b864a8db0e29f10c8878b68b42dfd333ed050d94b09fb5dd348a40abd87d0),
  (false, 0xbde5be120a3a3dac9f9f830b58970e9ad476f19198c94c878f906574b622947eb8dc802506e02c492ec51e1fd54463a),
  (true, 0xf7042a28ed8fed47f71f4e60e62dee3549f6bc9d6fb7f5c9efb2cba6fec2245aa4dc6ddc91ac5021ef3f429cf0e44f),
  (false, 0x18007fbd334b0d29e03b922e23d9c2e0a66a6dd7f5a4effbb87a650eb04a4eaa69f33201112e9a148e3aae47f91a412a),
  (true, 0xac972e2b071c11646a59de6e2fb7bbf5af0554a57780e1139b3301abfbfc14dab0efea422c3255084937b45996e094a),
  (false, 0x33df70d5941595d305cbd1b11cfacd275a7b39ddfcfa4ce5a2fea93a2b27c7801bc32e9097be15a9a9aa7f939e37e50),
  (false, 0x18429dbdad006bab0eafcff5de27076b35a320507d607cd51fe45a6ff5307104ae890d7ef969bc79d19cd69e665a441c),
  (false, 0x13d94010eb3545860e788a6b938ba5dcb668e405f110fac965a17da5c5bf85799035823dc83c6f0139eb7cd07f09726),
  (false, 0x7b1faacefce8884e9b1ecf71c40279bb55a2ff696dd84c4fee42258a9a2c27607ba40ea5770c8abd480bd51d5807dd6),
  (true, 0x60ad46b06611622ebc3105062c5e7a59bf789cc4c77f4487744fd583d8a405dfe507caaa360ba098636603bee3f3002),
  (false, 0x16a310f398fa6e11fc54f621dfc1364a7b8c6c3217e2f9934dcb0586756124df268afd7b5fca13766e3cc0637d73ceb1),
  (false, 0x2dce76ca49e8169e05f797b8cc9a9022068b94598217c52742dd6ce8bb2c2357637b39493d08f1f85320b90a6f2b69a),
  (false, 0x38473e2e3ed2243fa3f6ab510dbd0154557e29ee31ad68812216eefe8fba951d061bd5e236865a44b29e8992f9fbee7),
  (true, 0xb21cb7158c1f3458caf5c85ff08615c2cfe12bb38bc2a6f4f48747212ce006a55fd271402aa31d0a293efa1fa95e66d),
  (false, 0x1e4b4fe18680aca3abc9055cbd91fb6e7ed456f8d93bc2c766dff853e0847959a5fea44e4fd3b6541167c33f7aa2a3d),
  (true, 0x4aea4600f1fb53d06e253716544d139390b5b0d034895a4ba422a16e1676747d57df337c64eb0fbb246870754db36a4)]
def a859267RX0 : ℕ := 0x132e78b5d81f3ab250f7ac409360f4ebbf59c2ecb15de8421f9f84ed71a9db1a9ca674e92c434a90813e25afe1ccb919
def a859267RY0 : ℕ := 0xb2e7c62389c312bc443b7faa9d18148acc57338faaf473053cf41ba0e1d4e6a722264ced8655a842eb17664faf35dd4

def a859267RSlopes1 : List (Bool × ℕ) := [(false, 0x1256df8a005c68aa48b9e3eed4b4efd8e0a8d8992f738f6a11a865ecb7b78eb5d8f56583cd0b8b7dde55119835e0fdeb),
  (false, 0x100253ca41d4552785a072882f01bd57cb729be7b1fb6de0524aea8a42aa8306a35a66d76b095cd794e9b53d464df02e),
  (true, 0x1396b559dc5fc28cb8052421f346216fcd3b501eb2b6013b0362ade4c25d9a5683894c5920318cd66a4b9602f54f870f),
  (false, 0x19710a170d9310320b83a68f6cabad49ca82e924019d8790396959343ebb908574396f0a7bb4e460b73bd832f750a921),
  (true, 0x16f3406a3337583174f29d4cc71228028a5898e5fc7c583d0e0e3dcea0311c3bccb8623ea5f092eed69fab25913a9e78),
  (false, 0xe7767143b64ab45835108f6e9df917f8623d2eccc944b36f0a208f85ae0d64db1d59b1b5a70fe2ab45fee420d4f8ff5),
  (false, 0x664de8b77b9679bc673bbb6ad92fb92f90e357428d36b98a8aabaf1cef8f7c74910f45e3b3d5734e018538da71533),
  (true, 0xaef01e9b9a62870d3f6e7c664521abf302808af9dc779954a8ac10886e0ef44a3f9edb4900a339671ce000694beec3e),
  (false, 0xcf58f32c9049a599e6cd959986f450009ff76a99aca194319b0b9d011795ad3dba50f1ea6a302ac234bedaf67903eca),
  (false, 0x1410def7f54d52a15f35b832707e0b4f7c1298e537b72301bc9d3ba9c091410f465e832707ea0651f88a98a57ef3e917),
  (false, 0x1224facc839b5c18b283899131f45d2b0976c6d93f89ee6c03df5abb42b1570ddf59befaaaec5d152b1d43aa87a70133),
  (true, 0x199896a3782a5cea8b17a118c12f342c7f3e3b5a9723e15494b0f53d63030a8f433a52c773739233de569e653f984abb),
  (false, 0x162cc849e81408323a2b334820a2ce46ccd8331fa60ae57133ccc9306e5f915e7fca273d2e7986cf7e956ba008ae2769),
  (false, 0x1614bed36ed11f9ddbc98d7d40b15319d4a4a65bebb4140ec38e913904c49cc87020b982e18413ee93e43e75b857aab),
  (false, 0x8e68cc2e212eb28421748a6cb7a422b126829c81f98265ae66c8e61d68be7a2fe871b4fa6401676b7cf5ea45e40b726),
  (true, 0x110ad3619646585763281b226fd68375b9de353ebeb354798341b9e5ec901c6c151f605b8f562d4b6b233a5832d56a8e),
  (false, 0x7c824c6ed3158338b53aae9fb07e7eb75535e4f175f351a7895603ee8e10fdf979de0ffe9598e2626006a725ed386dd),
  (false, 0x16c9d60932d6f11bc965580d113c68494a2d1c86f4e77dc9af3a894decf2f47cb870f42f984608052396004e51423c64),
  (true, 0x1744e5c67ff1e1acfa5a96c8f46d8f253eddb58b12736ee924790b02e2873ce53140c07255ef3418f532d6fc8619c95d),
  (false, 0x4d55fa964ee711d79bc8b68f2d782c9142f3358cae777857ed6aecf731d075395464d8283e04c32c977443c67038061),
  (true, 0x7cb4e3d61eafabd3e2fe9893422987fa6551dc546c0ab22f30177d24e7152fd0726ca50c0f81955f3905cd6100cc62e),
  (false, 0xa968953042e715d3852d655a97e09bd12bbe4cb89dd0ca62faf59b8a7b74414a9e022b7f6f0c1943142bfa89968b4a5),
  (false, 0xb6c32a69f5295ef64868c64da08fb49ed6ee5d9b69a5d1ff50b7a282353e9a8ace3758c134c3bc60ade5000bd58637),
  (true, 0x35c979490a05734cc274dadd29fcf90d71a3a5fd061d293146b9808c990b3d8e9318b015938b202b8f73351180313a9),
  (false, 0xfcb59d85662527b6c9db7bfd690b8a7548840e5c4c1f169d50a519b889dd9a8652b5b5c3ba6c0e583d1abb7214bea87),
  (true, 0x17d8e08b91be55b4819c3553303c1d84b6243f477630faaddd78e185924601803d762ea22e5b0f7cbc351e66142cacd0),
  (false, 0x177e712de865280167c6c64b758d5deb882840bac540e1ce74b266f2a1e3ce9d9d6087b7b1921740297e2cf8e157d593),
  (true, 0x18bee543750b01bfe831f90266e25b2d3eddc626297580ed6968e6bb9f37853c456f1081155ae84f0f99cd478f9780a2),
  (false, 0xc621993f2f9a7c3e6091ae3964791642a17f1921d6cd30b9bd4c74fa7db367e6b78beae4f3bdaf5103812ec2b389500),
  (true, 0x1d9403354442c60ca17c0d396512796cf970db481bb449014887f70d38462373d8d14bee5e9cf706e3c0d895dbc39bb)]
def a859267RX1 : ℕ := 0x114d52ec6f0fd88f55015dc783e91578e47883ccc2ead981f8270b3925ec97907563c33016e6eb87edd4d0a8ae9fc6f7
def a859267RY1 : ℕ := 0xcd22b1392a6cd2a1f4a7c9905f654bf41a52f06d33bfc75862d1f6b9dff75be2364dd8546c0198eabed9d9dc4f0a33

def a52437899x : ℕ := 0xe41aceb46625ab43531764a1c071125987d65b87c9c00e96dc84d43ef267eb28b752d2b5d93c11b3b45d3c87bbe182b
def a52437899y : ℕ := 0x887b598004071bdc4bf02c4811336c2a329bc36ff18b3cf961be99cd46fe8e76b284c3beddb00f3ad36dd5f56c0e66a

def a52437899Slopes : List (Bool × ℕ) := [(false, 0xc087ea2a9eade120d0d38cc611e2519af90c1d49214f20cba4ccede4d43f83e7c46afb28cfc65fb1cd799e5611d39b2),
  (true, 0x7295124d425d92485ae7a4de6410a180b24e8ba72b236abbbd50e7701d23e6dee94d08afcee678cc205a83c9d4c2675),
  (false, 0x9afc568624be8a2051cbe926225d8018370e57ec46da1320c13757f89a7b50f3c65e3666ab62a9bf23e157a21f3910c),
  (false, 0x51c3f824487073ba51c9bcf1cc8f725d00173e0e7c7ec59f4227ecc84b90f973b639e539c32a0d2b45321803790ac24),
  (false, 0x795249cac1bebfd2ab370f5007dd97dceb96715ac58d10ca28cb0b59aef9dca1bbddef381f81f1b9e994f095620a9cc),
  (true, 0x6099ae8cefcce1125791d29a81f213950302bc6ae97fb702ff9f72abc9e49f5ebb1676379a2ca14556601f392743885),
  (false, 0x1889099c6dcc2f016a64ea653ba37370973051e081a9efc3f754dfdbb4f6552e01b2d1bb3f528cc0883c2dcd07f76b94),
  (false, 0x1f21feda59bd775d27ca47fd531d1c03e1b007a5049534c8c81f21f51d4c8ff45169547ad7cb6dec7ff2762e0bdfc72),
  (false, 0x187b4fcaa607e4cee3fd33fc7ac9de3caa157ab78706ddbc92be6049029955f16e8afada8a11882aa0007498ca70c511),
  (false, 0xae38ea3b1bbf14a985463e731842d9ab6682bf55b5ac9c5c1ebe0de5badece02c74bf3235cb3a098b37569cf33fb3d4),
  (false, 0x4c4e7e6c479badb984b667451adbb12ef65f18ab05271293c91a7d79eb2ad7f8299215034f8d085693a0e06380ba5e5),
  (false, 0x15b714755b28c808b9b50b6a58cc04d2c93ae517a768f48b6254b1940d4c85f94d1edd36242a19dfb46c5ea46f9ca91d),
  (false, 0x3cfb9f6e259c80ece313f1252c6f212ef96960ea290ffada5c4432b1c559102918a94752e5b287c4959f5d9a30ab4bf),
  (false, 0x299c351c2ba3e0550fdb1859f8110e47ce1e7b1e27c3271df6a7292ddab05ed7ae09bf644a7338e3e2306e292edff3b),
  (true, 0x68ecc0ac76ced1d0c3be7312b26012e36d391d99bef5443ba297f06150fecf0fc85b74534fb8c0549328e70c0318ea4),
  (false, 0xec37db28f7d57e92fa97522683f9aa0db37ba6c903e127010630434b46f6ab4d8d00a35fb1aac629a0f698de3c7fe15),
  (false, 0x19e8f0c99872204de3c354b32a1cb572dfd2148ed3fab663ab23ca5445d0e72275fe5e6070cecfdbf0e1b49349fe155a),
  (false, 0xea4958fb459606509c67e8a8d42951748674b84b3d0b81ed6b93ca5d6f7a13815edecb5ea0fe1ce58716633230ad678),
  (false, 0x16b3f6eeadca7364f37cec75eceb3b205a1685032655547f1053a0b21f2b4505aedef9764a43630f21a307ccb9422216),
  (true, 0xac70627484a4fb3944d00e27ce0c691bc6f9b65a011c1fe1bc8e0ac509eb9f4e7f43c752103f158af311bb779334925),
  (false, 0x6e574e5982ef04aa069e6084347164f40ec6fdc3c8187033358daab274c2d0f91c41a8b2f93f5536c1b90eb9cd68b2f),
  (true, 0x1627520f2c6c6cdc4df2de7250f73482c626233cecad2b5fbe116e75b08c73668a512738e1f2a10aadfab08196dbffc6),
  (false, 0x4bf0971fbec2a11e7d3af3dd8dc270313472cd7525fe6feac043487cc58ebba0460ba15518521814ffd10d710b78cf2),
  (true, 0xd713be2a4ccc7704c119e77dae7fa3dfb46773d6652c6b84ca50394e969382de60a537a2cf527d1238885ed991285a2),
  (false, 0x1831dc96135d5b8a5f647c40825e1118fd35cd28bbd2d8ad874e0cd81a122dfd3052f40db28cecb70ddc0e810a8efbf9),
  (false, 0xbe48e19412714812c4306aa6fff2dadf3cb878104e4befe0fe1a2b2f610486c3d506b805bcb0da34e040b47011d3b36),
  (false, 0xa997784606554c4c3dbadee8dc168e4b7f10981cbd699d07063b110e8674a9837dffea7a335e7f87e4a1cb848ad5e50),
  (false, 0x22157df3436b1f5a6fe14ed21891436c574f61c53c258bcd52ee243318fca35930dbd4ff52e3391e55077002b5f4eb0),
  (true, 0x101ad3d0b5ea1ac5d2bc8e5e22fcc085b3440d6636338f8af1997db3f23cc30c26813cdabac7127e8acd9ca7d82fd3a),
  (false, 0x4ceec95edcae35043f684906cfe64027dbdb71c90eb2d3fed76b9a65b63469c04efefe87ca76b0302c7f8a6b3425b4d),
  (false, 0xefa37d51da612a2ab3fbc991d800f7c4b7f66bb99dc90d3f42ea8d9df0b1a3e5326ff7e59f43566b3171c02103026ad),
  (true, 0x143a5a7df5582af2e91fa1cf7d7f7bb0bb08a9529400da4c19722fb3574fcdcb6e39a88d15f242d5134f8efbf6fc0b8f),
  (false, 0xf660843051301a1eae08553be5a6c7f8684fe585085026aa56fe7f1b3fe162ca451277dc72f59296a89c623966fa5b8)]

def b13x : N2 := ⟨0xe36fa319a648d1d1e95beeceb182cb2beebaeda9fd057fec2468e29a4139c7cd6416cb292f28a1303221442a8dbfdf8, 0x164a1de37f6a28e3bfa2204815b74f1eecf5bdc2267de55896908439464449164395c76f3ac3c4c65e96d3419c9122e5⟩
def b13y : N2 := ⟨0x12733cd5e3866119ddbfaff7021f0a12a88a9c74392b2f28655ce89cda5aff45deeb1659b2f323f5bfbfc69795adbbab, 0x19355d5d7bcc042e8fbf1df2190e7559b49b3a2ab316c65ef505fcf1046b5fe72504c212dc7fe4414a4f7029efcbaff0⟩

def b13Slopes : List (Bool × N2) := [(false, ⟨0x9bc1b119fdda0d7e04255bf3c3c480abe53910c04fcf5c73fa55451d6e380134b0224d0beb3954ade8aa9dcf05669d3, 0xcbb04b60b0dc82f9fba0eb8523f0b8b2b1f9a1fac103062ea3b14e95bec73a29d7f8fa4d24152e93a28608a766e00fc⟩),
  (true, ⟨0xbb7259d9a4642f4ce574bcfcb0b2ce9f23f622316058954d5e21a455d458cd3e9841fd006139f35dc57074ea6642374, 0x8e595c9281460235595982880e10b674ec5a5a6fb9fc72dde76e440c066e418f5560c7f08f6532fdbed478597e80a24⟩),
  (false, ⟨0x25d98fb772afe41bc13cd04f38c24c98ea390cccf7a0723720b9c2628db6635625950dcd7628530078aaa8b0aa1ea54, 0x24c60be7bcdc41ead996dfe1a52d4c7675a0c1b6adc92e0fa29a72f12af8388ade0f79cb7a7d1e899307c3cb92175db⟩),
  (false, ⟨0xdd52d2d014a1b339be69f956f4fae8936b868e4a09ed605a85593979d561bc3a784888593ee6d35f61e1f89231511d2, 0x1862865e7cb201a32bc44836265b8c3d3ca8d00f89d6e98c7ac5533c4aa4c73e9509ad0dba5988bf8ebd6f28ad402411⟩)]

def b13RSlopes0 : List (Bool × N2) := [(false, ⟨0x9bc1b119fdda0d7e04255bf3c3c480abe53910c04fcf5c73fa55451d6e380134b0224d0beb3954ade8aa9dcf05669d3, 0xcbb04b60b0dc82f9fba0eb8523f0b8b2b1f9a1fac103062ea3b14e95bec73a29d7f8fa4d24152e93a28608a766e00fc⟩),
  (true, ⟨0xbb7259d9a4642f4ce574bcfcb0b2ce9f23f622316058954d5e21a455d458cd3e9841fd006139f35dc57074ea6642374, 0x8e595c9281460235595982880e10b674ec5a5a6fb9fc72dde76e440c066e418f5560c7f08f6532fdbed478597e80a24⟩)]
def b13RX0 : N2 := ⟨0xa6154469b30c5d69add64784ea004f4704b4b4816cfa5bf8baa3f3130e6e3f49a4766e5301fb44a7ffe9793d2bc859a, 0xf574dd145ae143aca7ffd390038b044ac33ea6493560602b34ff6c32d0bd0433284f9c68fa1f804a9bdc3374c4c9558⟩
def b13RY0 : N2 := ⟨0x37db52481e6b365df9cc6475ea215750df40d7258fdb38a023d8e4d193ab38f414eb84c73eb4c958010f8a7d2f42a59, 0xdbf1f9e954d10ce7c5b054426a6cadb169ae6f37c8c53b9b3c231858e9352d9bed1a4a7ad81d634d8633cd7367e6b87⟩

def b13RSlopes1 : List (Bool × N2) := [(false, ⟨0x9bc1b119fdda0d7e04255bf3c3c480abe53910c04fcf5c73fa55451d6e380134b0224d0beb3954ade8aa9dcf05669d3, 0xcbb04b60b0dc82f9fba0eb8523f0b8b2b1f9a1fac103062ea3b14e95bec73a29d7f8fa4d24152e93a28608a766e00fc⟩),
  (false, ⟨0x596e7d50e3976ce7ea81d52e2a9526eb490ceeb4c4e77e30eff36c5a9e2160b44384387d44975367d89b7e9f6c67e64, 0x349df522223223cf6b5ddec9a37fa96f963efd816a12d03fec5590b84a9e706a613492e00594801dad98978b36c3e0b⟩),
  (false, ⟨0xa6be0f6cf1d6aca4b365cd9642a645481f496c86d3b1f4462bf0d2dfa76db72432330526b2a9fd2100b4111cb6cb84f, 0x57e11903a77adc73d69ed17b7fbcb94fa2965cc6d8571f18b49ee673f6cf66040590061f0bf81f4b494a74011ba148e⟩),
  (true, ⟨0x12c427011f3412a4c5b8088dfdf5c00e00aeed683b889723d4eddad6be3efdc36c7764f3f593ca6230d1d550417c6d29, 0x17bfe60d5da265907c4de086336390f909df154e4485d2428ce40f40ec5bcbfa5891d30db7347983776180f9664867b0⟩)]
def b13RX1 : N2 := ⟨0x127ad6b6431620b24db9fb8c3e9f0d8a7b5cf083c5b3cb21dd7e6c8422547d40881b8a482dc81effca8006d1305efa22, 0x131582aa1d839837612f58e043c060525a4c3cb3326dc04b890ed3f304d3a2c30ed733056c0614a78d69e063f833fc0f⟩
def b13RY1 : N2 := ⟨0x5e9423a9704c704b3b834fe56deb03e56751234cc0ccf32c290a1297f60d597ff77e08dafa1a562df6a139de40010ef, 0x171ad01d2b5bdbdc4fd7a1ac2a88a3e699f166dc4554de3beebc7ed6519892681167a3cee12dea1e18a1ab7be551f356⟩

def b23x : N2 := ⟨0x190456fd5c89fcdfd3aa01a1ca695724d5c6ec574851aac7dfc4df82c4ef218801005fd53700e5582073a8e0cb6265fb, 0xb2c8422b7def43b4d22bf2407605e219918021d3af7d0a821dac04effb09c6e4b113506d1e0be1287beb6304e9583c6⟩
def b23y : N2 := ⟨0x1028b6618e7d547febda6269a780192445bdb4b32060a139bb5fbf1f71694932f1f537dfa3912de615c61010c708dd76, 0x2228b8ed9d14cda7b79a326273376d8fc271cb97e0e717860eac0e5a89c4262408f61a00dab86319064eaad382e44f0⟩

def b23Slopes : List (Bool × N2) := [(false, ⟨0xfc564d86fca817acc4fcbb76e8a76f08e7c9cd4c8097e615a0e6703ba8ef1f387f5a8aff9d2b4e476e5957bec7e3faf, 0xdcdf32ec3cf50a50fc51c36503b6f9746c5e024ca951e4ec8009a27d1073017fb6759d78d59177f17a19008dc3c9114⟩),
  (false, ⟨0xe2692f11bc55991223822a7796d6eb69340037099f6d3c6ad05a71588fa8c0a836a58d0a7d34ae7de36807c81036282, 0x6d304146c89150211b5021772ac0e1bede03cc97085a5b5ae0c37160e04d815403470c42ec8f2d7810baff87f1738da⟩),
  (true, ⟨0x162c1b1dcd21a17be81d79ee7a0f9691b4ce521920f6b5d589fe7ca24416212b312b6ccb9128280156197da392e9c762, 0x1e7344f3afce22369ced1274219901837e44b2c531879fdbcca62843c909040508eaa6960684c565b28667dfe6affcc⟩),
  (false, ⟨0x1eeeaa7a7332cc8a5f1b9307b41fd7e804f2968a16be7bac12be7c4074520b1b479e0f1094da7cebdfbe2685eb377ae, 0x82f3183fa6ec5d308360eb46680e397f178b73a35f7c69111e0ed66cb393ea974254c0e5461ed06bc7e91a90689810d⟩),
  (true, ⟨0xfbb853a814fd6a8a785534e569b9c8370e0de835d144a4e19701cb441f10214b8bf9e448fa0b7732dfec3780765ec1e, 0xed5bf6a466abef62fa116502c806dacc37da4e021d3118992f5a283016108e14a3970f3d356a8ebdbc8825356b273a6⟩),
  (false, ⟨0x1891ed26c9e56a448fa0ada32022cdcb8b7dd60aefdb82581d38ff542a2cc1c3e78252cbfd80c0dfb028e009ed021312, 0x4dc7bfd97b34a760537ef03c9c9a7047831d04f10ccfa362e707bd2d9a117eaabffe17d1ab26680d092890e64f1bb0c⟩)]

def b2713x : N2 := ⟨0xcd85a17e88c3b077e0711e9b971396eb0674c42114bb0f928bd56a2aa607171413ceab6db8c8bf8e0af8cfa1ef48aa7, 0xba7322b9c9915ad008ee4c222a252e74bb82057198506e60c274989f9d75c9add12b1fde4085f91af7838007d649fb9⟩
def b2713y : N2 := ⟨0x2dc17f7cf41e15478848dc6db29495835feda407c370740a46bbc30c1f02fe382a2d73d627e369f5eb47ceea98cc922, 0x569f753ec55e7c315cc494c26a98acc94bb129cd207bed95e60dafa80933be9110c07c2303207b8665f5ddaba1dafa0⟩

def b2713Slopes : List (Bool × N2) := [(false, ⟨0x1616780fc2d02f9a25777bd135177db3331a3c02516c79b8b55c5e49fffa5a8bb19d809bb5d71f7502e73bdf60733336, 0x8277e0f5d6a884da56431affd07df51ace15987a7b6320aa4ce4f221f95e54ead93cd530dfb11ebef091461f79f6622⟩),
  (false, ⟨0x1772f83ec03acc6ac61460ad511ee1e114b6e9ecb1331f0f4443963a4b9db224fe3bab297fe5e2774174cb833c06dc19, 0x1e75cb26d80badf10a2f9aaa69ffe19e222a4e6140448f30bddcc6bd8589bff0d4de2880ca2e6116497ff4740b4595b⟩),
  (true, ⟨0x11cf5e64077b44d0670997060ac5d1155a814988321338d8312538224af74c07b7af6528b58b02995e244242f506ecd5, 0x80a59393047ec5bc69ade138b74b72288265abab9c5b6f2ff3a66839e7830d19b90ec238b2797de4c075408ad3bc8df⟩),
  (false, ⟨0x67e99da5b1e11b381707504a1ecc8da04227941e56f6d7853a2b85b8a234a803e8a7f9446509c49698edd4f54cb05b2, 0x1049f7afe2ab583f903c8af2189f3b317a7d6fb51186463e405a57226d44c93b6f0c1ac2b14dfc51589cef6e4a1022b9⟩),
  (false, ⟨0xe61d1303e63b53cdec580695e34400dde04a4e66d81f324f91617501731678aaa2b957eb4aa634d7636f7a3617de1d8, 0x5ba851e4ac1019ea93257f109adcac4200060d56b01d6ef52d35b78a1f3a184e86d18ed11b1dec4ea1015e2fa4a120a⟩),
  (true, ⟨0x130a5c5fe7c80dad4f36c68c3349c328e9fb40bfdee03571b0d434ec2a84888f09ce674b5ba831ecfe7d7b8c93932d85, 0x1179a96cd306fa819eb102b61c169f9b0e307e01e2a52b43f433ccae2c01707c6c6bf581142fdcb895eea1f91a0e2fcd⟩),
  (false, ⟨0x8fcde221e8e8070e0fa232ba06051e8ec5fc136749a21a03df98202ed03598788addde25afd0065efb4965a34233b10, 0x15c16b758ee1573163a8fb238e38045092a94092340dd5302c8fa9a69666127faa17c5d03dd3a3fc9a63b23f9ca16dad⟩),
  (false, ⟨0x323fa30cfbbcc305584da3b2514223dead12d0996ba8b342126e4c9c12db3812d4a119d30cbe8042e0beebb7953c526, 0xb39eb6c4f623085fa645a2cd73b44a21726ae1f0bc60c0bd0ab491cd7ff08327a41803f3aab2328666938f3802bcb35⟩),
  (false, ⟨0x13ec2cfe66200ad8b505c544807993d982642024975d4aac5f59356f4a0a94993397426e38e93956a5cc1ad0158026c4, 0x10be48ebd1c6a7f0a7ee2a1e6b8217f3b713e90c65c0400a35fcc67867ff8acff57df8f97a9c57f25fe393e9e8fa1b30⟩),
  (true, ⟨0x40dac4c36a63441bb8b0e9acd28b5a2f60dd1021370711ab0fc93ab4d20c4c8abd024e8489870591653d9a7c8a21915, 0x18aaa791fea23c50625729e01da2c89d57aa8ec5c9bcc203d0d3fee3f0c217596a5ba2ae28770585905ff77bdf8b4abd⟩),
  (false, ⟨0xe31ae79f6337ca790c8eb50dd5943e0b1ef9431b9a7e9862fd9e2ef362a3daa18fbdeeb3c57e51595ee9e57f5752306, 0xe5b26a54ebec5f696f05daf1e15c7bfaae7e98098f93cddfd4b25f8ad43db8bdfe25f0085395ef5eca9a91d85c57148⟩),
  (true, ⟨0xe17927a4d94aa06a85dc17103516bc1cf668ea9187d7c8068a79693b2dea018651341d9a6d067dafb31c6fcc483e9d9, 0x14bfaa13401033733a759cb9a9956e6cf0042a1f793789eb012fc3bac48cea73ee0a642b367adb6b388b7964d42ec738⟩),
  (false, ⟨0x6b3ac5a87817ec37e6beb67df233e724b3f64b42dbcbbe51ecd03d94a8fa4e228244cf77ecf844fea1ff4c965c10f3f, 0x51e02c445e3a30834eb0d519b1145c46481d16b47ffcfc7e7bc727888829aecf57476818b2d576af4b6e85ebc2fb889⟩),
  (false, ⟨0xdedb6c4e93b840c796cb61cd39497384c9c60b50ff5288fb18973b3e2efb8381e7b1729656c1fd72498f0d6940393b3, 0xa42aaa9bfcda667e65e651d181250a04ab900a6714b8b4931ed128acd4e823d7ac8af46e1d3f4f6efda7d83aa0a8c62⟩),
  (false, ⟨0x6792c786086fe4e207e3525af7d50f7d35941d57b361e758f4ca996a3870595e42417dcab6ee1814aca59690dcfeb72, 0x15f9bd911760d61f6af7294032ac8ecd6398b3c95f24608c5971a31ab4c7533ae86dccfd59973515a3484c0b3433d3c7⟩)]

def b11953x : N2 := ⟨0x6f3d1026e6143e552a74936f502d20efc4ee15d8efdd40353a8a45c63b9ca56b2000acca77ed1aa20eea34a784bc730, 0x1232b90414e465e05247352a7055177e60eeda614b753d124443497b93790fd45cda730cf30376f748165535d79464b4⟩
def b11953y : N2 := ⟨0x1444a204969bed4aa5fd05fd7fad4eb18c5bdd556ed272e27d77b91155daea52cb6de28c9734ff68aaaae78892d20511, 0xaf91a98994d34bb460bd50c6c4fb83dc46f5c8c7700672cbe9d6f59ae4125ff28aa07f2ff1e349b92630e3a0cf51b24⟩

def b11953Slopes : List (Bool × N2) := [(false, ⟨0x120e572248cca9cc63b26d6d62e9f8b0121aef88075156e376f4b216ee4c0fa63080b35e23359bf31ab97a102eb47080, 0xf91bfdac8673bd51987a3d1bd4512e6ef262d0b85367c4ff6fb210a07d4263cb3c4445f9de6886dba3fcb162df88426⟩),
  (false, ⟨0x8827cdf272f8ab810e940d3eab69d1066beb7f6fb2564e464924b0adf53e8901aaa620cc9799fdda85ef8cc3f61f781, 0x1261df6f772e0ddecdc9b64e102599a54059102207d0108c7b0918aba056c8d05ad0d99524f0de3a21b7a7fb0e209a0⟩),
  (true, ⟨0x145f5a1e3dbd1bf5a88e7a3eba6fd30235b13594a24fb6156fecf68831720e64d2d2816d16d8269eddda7bea371efa6d, 0x16b9beb4e1c124a6aab6950e1727ab9c022df28d3a11fd31a557edd05620cbf1af31dae079c211fcaaee65ba1dc34805⟩),
  (false, ⟨0xc293fcbaba351b5e8fc3fa1e2f09a413f5bb64b1fc6128a1059e6b5e12b095f3ace6216210461a9d8558a3594ff19e1, 0x32a6fdf31fb7afffaeea66edf461bafcb78fc7234819e7f472aa3413adbcb3561a36fc7a6bd88d34d31c61445902947⟩),
  (true, ⟨0x16098f6cd91ecb74844a6c6f5bf997f924654c1e6cd83799df976ac149c648fe0fecdb90270f3dfe439ce60c3bdb460f, 0xb5d96e1537a608575cc3db15c8fe8c4e066e4c3cbb56c691e77c153ef11acebe0b01ee5a3e3f67f114425c85658781b⟩),
  (false, ⟨0x1619264a13fcc6238ca40983a53cf6fe635a50b5bb2983bbac6fb0bc33f3d8d1a21a9873a13ddc02393b3c7e8d23446b, 0x9fd29ef82bbd17d2adecf6182e2f2d3db54e11d8c0c888c59179b2c354a96091443a6229d1ee7f4f6a57f48b5e592c1⟩),
  (true, ⟨0x97ee291d01a3202cd47e3635e4ba42a6cdfca2c5113ed0a185707e76e8e5475d0c5207d023058f7c80cb50b0dd36a73, 0x199e161d90e0306178ac5b04a1221a579b3d6ca556795337275ca5ddd43f4633328ea51bf4452b38e7a444ef5930fdd5⟩),
  (false, ⟨0x112a22b4f9d89f02f3230f6dacc9dc4784f05330085290fe75b55f4551f1139a597152cbf1b7232b9484cad37e3233f, 0xc17d2c6b5d60b1665a5eb9f204c5577e5c8c06006dce42758fb57cdf1c9ff7c63e887c563f53fbb2564b89d80b6dfa⟩),
  (false, ⟨0x8f786ec78d78b29136d75dbd901ee52b8cab2a14d13a991f81fbbfdf0d3b41495d83a4b9b5010096adfce08a9eb7db8, 0x198e7861412c9e04eb811f00267bc1c93f9fc06da19e3fbca2e0041297d18c540bb3305011bbef1393e803260e0d2177⟩),
  (true, ⟨0x18395332748b95418c3136a85dcd51f86927dff11265d38c2b48fb9b6bbbb23d7d95aa6c79bdfb569636878589de3f45, 0xb52c9131f8fd6d6104a9cf976450744d8a9249bb6cb4fd93986aba64a53b638a980f7ca9a9f34b6a9f7a503be66e145⟩),
  (false, ⟨0x10717caf3bd07ae073ee9b312b0f610e6aefda063fb8c91e893be55894721b1604b7e4e35773abbd3a9cae3701475c95, 0x873e7477e9804cdace1329b2c4e3859c802bff4501516e41a9dd65d9b689e00bfc0977d9c8da36f15825c56ff23b782⟩),
  (false, ⟨0x8aa2076fd6f46375bf1461b673f824995e97d3814f5f7b6433a6e383aabd84c9852e7be98b7c2955b554ea5931a7e94, 0x3e339dd3b87b01e90f94bae5197fc5150765991a2d191212b156617ffe12b7237673c4fc27493f83fb823cd090dc735⟩),
  (true, ⟨0x10443a0eb20d109dc37222cacde323017e82564173b17c610125350b86bc27fb231bbc75cc6eafedcb86a5c59f6ffef5, 0x15f1e69c1a237e0508563c628f49b584748c058db358d387564193b3ba7a3468aa17ededf66b7f877d96e55d88ae2072⟩),
  (false, ⟨0xf519c324d81e5545b8083198d5a7d75fa0053a723907d61e4e334e8e1883179fb43496e9fb2a2d1463d36248de951f1, 0xffeb1cde7b9892eaeae4b2b1c0590c7a3393eef62d4d34c3651321cc6a72bd52eaccbe720fc8cd0270235bb1940ed3⟩),
  (true, ⟨0x850be21af9c31acbe4c7f654443b50942756a1e4aa75423f7827d9077ed3f8a9fa6e7906a41cd23c33a36961d5a736, 0x198acef0fe0afbf83deca6a946913ec6466f5f2825240415b27aeb88ff533c7bb6236479567c380bdc849212ee43dc72⟩),
  (false, ⟨0x1812b8a879bed837cf14e421324f33755e8dd7e198f862b4698bc0194f4fdc7ed4a150d2e2529c8668050a7b03005a16, 0x1873b4bf8450dac26a3a9fe8ef79eb395d67ef95f21ec68a4fa3fa9323fd7a830032b3911b1ee6d7bc0de33e2f732eb4⟩),
  (false, ⟨0x2811412b5c61d484afe0fa30c62c7dc4eaca9e428f4e684754b7c822004b52e13e936d58da12f7928f122e9bf5f2254, 0x53e20310ab04831a0b53b80479cf64b2d025d3c9a9c7ab54b640372e8ffe18c50faf084620c631567f72c91063af25a⟩),
  (false, ⟨0xad079fac924ae8eb79466aee28ef0b10b24264cfb5009e11e610ea5b2ba7e24ce22fb2e5d0516915a39409cb8881889, 0xc7200d3e6f89e3f7eb7e97f82f664700bcf9512e6e4695798e5d1e2a31c289f4e208f90146cf5804838e13377dfcd54⟩),
  (false, ⟨0x858ad85343fc2fd448f42f97fb10c17d00425234f3bb706a837da82062dc1f828198c6e378c12fbc5beaf6c914a5cf0, 0x9ab33eab6133476ba829e5a832016d0a7e562f5a9d73730140f00789b6eb8a95b4a7e642d8c4ebf49a0ac428421ffd7⟩)]

def b262069x : N2 := ⟨0x122ac6fcc2e1966ba5e47c8158e3a94c047191ac4d0422569394bb68f058eb331c82f9813cdac5517cd5e28b10da5c89, 0xe8fc7542d78853d85154cfc167a6c9e9a7c46cc43f5d9ea1b8ddc053f24b63fef65de5248560358feebb32746e70dbf⟩
def b262069y : N2 := ⟨0xe74e7c077577b1e7f2d0e047a6be4560a3a4a520721bd7112a653df1bbe5e736e1087430c0d44eba63ea2734d280963, 0x9c435c63887962a9b110812cb6ef744b5c9f107eade7b14da054cf7d6e7a41e25e8988199e9c7a8e6f476cb2e0bea02⟩

def b262069Slopes : List (Bool × N2) := [(false, ⟨0xe2b6188ef06f496e44f8adaa70fe5affe6c7e4a0f961c0d20d4e066ee043a815159937322487d1e8227edcef20e56cb, 0xf2f256a0a6aa445d23c125acf9879260baed626f64794844130c4cb81d6321be9c1ed2bf8cfc4af7d0ea42de3a62240⟩),
  (true, ⟨0x70b510506c28c0e95995a3d91ae73074ae8e692e1d4437ebf80059d9de72a110ad486ef5abc45ae81bf6be56c60d400, 0x8ad860070a4abdd9c71567d2d809bb5b929ea9fbe4cff8d5370ba927b32d751a361193860f808b038a376f660dbdd8⟩),
  (false, ⟨0x13084aaa7f9036fa0a9d90037f5be9302058de00ce7b678f4faf74abf1b4b46cfc36cc0c504c45459692cb2b59536aa7, 0x176626eeca66218ecad127360a25890cb5d52186383faa1a95c0b35187245276375351bda32759e3801ae22c84f71eef⟩),
  (true, ⟨0xfe325cb533ea705bbf88679d6b9c0092102102200443de82db24eec770c4035b249cf98f3582c7b609ad985b35ba220, 0xa33cc11b3c3eddf13b64f1749b8e58a14e82468f2c91ce7b37c08099e94e5093fa3533c52546722183a4f32415814aa⟩),
  (false, ⟨0x161c5ed25dd23eb67b048d625c937d7b1e7cfc9e6983878a176a44263ec142faabe8246d2b4cc9a37490fe9224d0f122, 0xbe15883266ca3519de0cb32a6a1e175de43097f6fc6d41fcc7f5572d82cb2e80df9c9f1b8d81a159bd97926503fabf8⟩),
  (true, ⟨0xedfde0a8c75a43157fef6ca812f96303bcd76d0fb683cb26ac6e4e7d8ac1958e5cb3f49826a333050e11b9b167280f9, 0xa727f2fc220330d1f0aa6be089f493c84b51d284cb79ab2c17fddfee2a81b4302bbea6e95ecb635ab67c7b4a8e0316f⟩),
  (false, ⟨0x16c8809827eac2c58b5eb231201e82281742a2c65add05edc4ca418c8c374173fecc536a67c1bb27df975d390fa13fc2, 0xe08f0e2a9544b5030d2c770b5bf7c210781321e0ee6180f13e026cb8c2348842f86904e4090b943f551db4c7ef02a4f⟩),
  (true, ⟨0xb94ce908f9499bdea17c06896e1f9e51f8026104fc3cf28887beb316223d7f070a82c81ba7bd16b8f8577ce57122b17, 0x1741e37653f5146154346afab9f9c32de775f219977c0e703484dc7d72a41ef033fe0c5c18e0a2397158f151ebf79484⟩),
  (false, ⟨0x10400467f4d5b61a243e7733d4dee005913f64c9c0bd10e41dd8f5baeea13d059de6b29be25fee44bcde9b9aacf5441c, 0x21c23c89d53374157088ae87992507b9f0473589f80d65f852baa10ff741a85e967698ddfc54cd4a2e7f5a8db349a1c⟩),
  (true, ⟨0x13f9cbc72bcc7c45e06e339489c54af1db1aeb61409028c11803eb4a446ad01a2effcb92df8d8ac21d2f867f4d00893c, 0x23530229a67104cad0832036858a025b0aef3f5b6bfbe37ec76ca0445d29dbe3107e21337dcc8088d6d56cbc7c14549⟩),
  (false, ⟨0x5e8b11478d07835f045d6974702b404fafed8c0ddf1c5795f9cc491bb60b6fb3b48d461dafb3ad2aee4fb496549b637, 0x18614b19db3c6eb0efc41a754c2ae18887ce375b1ad8828b00d024c57825c347b1fc204282b9b83ed60c9203a7140ecd⟩),
  (true, ⟨0x152766a8fc0156f0214ce5235292797581e1489fd88fb2f119216e593715744e720cc6cb9785371a2e0d0be6ec0e84ac, 0x10817075619351f7794474cafa07cf69d1db3a23c0bedf825bd2c357a19ec703d8185716489715c62fb96f379484f835⟩),
  (false, ⟨0xca43358cc41bb7857aa3334f61640d496daf74b877828c5ba3417dc792b5fb22044ad6552a0591aae1de9ae4a7a909f, 0x10ba217326678590e9ef2fe194368a9f898ad29cea83a07c6f715f661d959ad8379f886e2ba3cc1d7486fa23c0771e98⟩),
  (true, ⟨0x486e82c6cceefe50f6055c775025ecbcfbdb63f9eba42ad629fd3540857bb96d1928e055d7e57e390a8da8810283998, 0xd1bbed32f6170d0da21bb7f51a67381aed2a842dc737c10dbdbcc080954181630efa04874e870e3ae289b02fd1b040e⟩),
  (false, ⟨0x191ed499360745b500d70ea73bd18f4af63d293a4c5455a0ea54803ef749149095ca43f7b883e3266a6a298aef0317d6, 0xe717dc2975c30b8ef371d355673122cf78c73be888ab6f643c4fe6e590b5ef18f313770eb3b40950e088233616cd560⟩),
  (true, ⟨0x1924195f4bc7ab0fe3e9e3249ae9655fbb64f57944c97b8672126102b7736a809092ada983dd06c708186ddb24c36728, 0xe8993e9cd9a8e48c63f9fd0ccdb642fa59346180cc7df5e90d72e06ae32f2b7d9f00820aa77b124db766e21fe527ed1⟩),
  (false, ⟨0x10be2aabeb0786862611327a0263696e2088e1fc13ee6ba5cae69a44425eebf3517065e53d1330116f96bac21f8e60ab, 0xaa359082d0c7b61319380a22844bca2f369ec17d7cc1fe27180710440388613d65eb520277aa86c2227d6ba011614d4⟩),
  (true, ⟨0x16314385ea6878e4b7e2ee61a65b32e52d33bdd427d1a14bc6ce0fa041ce537072e125f02bd4c912bbf0e077d1c5fa5, 0x17397dbc9e276b977993f62ab57bd33b56dad4f0da94a2a8acfb8a8e1b6be3f601905bfdd3d7590352a25c438498cdd2⟩),
  (false, ⟨0xeb724ec09c7ee5fa680b58682552922da479bf00af6652600b5a967f0d0df134b4d985a50a6b8a8dda6bc46c612ac13, 0x15b7e149f90c1055dc0c2ae5b8cd41e6a6a53bec30be64580c1f14e44c1bef1d2bbc9187c85b9fd3a51959626bd75520⟩),
  (true, ⟨0xd1ed5dcddcfb2216cc96db12714eda801ecc72d3f16341c4367a9b13c83600bdd963c89d359cbc3a1fe30d85ec05a85, 0x161d11131cd4b1208db7c0c0571a89c1f652cdf79ce195edcd884a92f3150633feed3022e56d9d275142443ed9067123⟩),
  (false, ⟨0xae32cbe91e62c5d3ec93278266562c308116d9e4170d151108e26a8dadd6d428cc9f60fb3e8c1dcb9eb5e4358339593, 0xa7012eef967e6417abfd68e4c880c4df59fbf5b5422fe976bca0255beaf0644171b2c960a01e5dc8288245cf9b2ba17⟩),
  (false, ⟨0x99eb28e41db29abaddd10e28b6d3f34b12b6d7f8f455cd2366a65742cc0efdeb5f042bb76ed9a249e7e198561bd280a, 0x1797515a2c916b08750240245ae909fcc987997acbc0ced14bd86d19c1dc87dfa567647a787542c20529ac2c8219e6d3⟩),
  (true, ⟨0xa0e118117e2e077a139ab9f345aba31a4539047a7d7c03188ce705de0f84b9e442b461cb507ad501fa000aa2bfe0462, 0x198f920d3efb9edd8ad6c69d14b08209fe7b52c56326af73043fb4913b3c5faec6d34fe0bb7e4ee397da8d8601e89675⟩),
  (false, ⟨0x21e7c81f68882bd073254150e09321d0c298c0af6f7f4d4c7f1ed02f64f3a7474fcf8e0a35d66cee8041a87fa2447a2, 0x2ce9e7fb34f4833c85997269ab6a7f1c7f2033ca873f6285cc3a352d4ea2135e1272fcf11d04f8fb8acec5b2b395b2a⟩),
  (true, ⟨0x170c7ab3b0709ca74aaef322b36514f74f54f1be8064bd96798427983d33c29ee56f98dd0b2faad347cacce1d34039fe, 0x15232e163830e9903af6cc24bab69f60168b75c16c7caee5d2cf3bedd336f85f4b84b8fb83fa06bfd9a5e17fc7cf8df3⟩),
  (false, ⟨0x19341d4aa32807afa9bd8290ff9ad826b457bab9dcc42c82a141612ca89d0e92338b2dc537971236aa7d98cdbcbd0c7, 0x11eaf0653fe3014c68238a632f4a2eea0f248eb6762b725b9b73d314afcae6a5eff5a118189bb9fc3d9029376509b58f⟩),
  (false, ⟨0xa3b5d3fa0df8003caf2474fe4cc96a69c69fe9618e0b799b2e298a412fa3fadf60d27cc8164d2b9aa8e84a12c76756f, 0x50aa9490da3af7ad537619a198151eb0d55b66e2f4751bceb0258f93dd6bf5878e8fa5a436ff0539b9a997a1b3503b3⟩),
  (true, ⟨0x13b20687301348599aead6290ea9de84469d4f71685401ede0a9c4fd7283f04c40c3f910cc04da1716442215d9fb6ca4, 0x13004f2f0a33e40829440c62e7711fb563aa5488c85744e4a491e529e62856410f8c8b131e6f6e9363010fde2426f8ac⟩),
  (false, ⟨0xcb20d09804a33a0803647da452be28a267701ae2fab0fd04c55b2d204668c1f079a8e509d7e57f6995587156aab24e0, 0x146a94fe42fe524e72611ac4477526256b303a8d67cb1220ecb46550593371b249ca406ec8b69a3172084d8237b006bf⟩),
  (false, ⟨0x1791a3775f9a865f6a9f82baf27d56135285a48a13e7821cc9e6155615909343c109d58394bd90a4fd3fbd4c89401e27, 0xe587319ad7de459f2a3388650ed93cf3cc0db4ca6db4eff1cf85de5c9a511879c7b52b2401a7ce19589d8006967b6cf⟩)]

def bPx : N2 := ⟨0xe7fdaba1a2ebd526415d3e6f952ab6fef600cce79a81fc212933c2367c5ec07ebae49139de5407ca626103ef8c48683, 0xe19a6a71114e09c309094b0f5dc856aa26e22458bf33550e7c9974dc9bc886ef8c95e77bb71cd38ce125311936e556d⟩
def bPy : N2 := ⟨0xe49b58874af61863c1e277782eae9a3922f70eb9762076e8845dd848160445d01bf076bb03f7af57ba950cf256e651a, 0x158a91e431705a31d5d982ef767c5a1f36ae0cd6aa96c87ce840e9dcbfca6af533c4fdd985bc18903c67ccd28c696e52⟩

def bPSlopes : List (Bool × N2) := [(false, ⟨0x186342b209bb713bb17f2b8106bdda52c7ebe3b7c754da4ca589de58235d485a33163f3706c7a87efeeabd06915e5dc4, 0x1838830f44e8f2fdd879907981b1afb02ffd0b409b96aa3259f4422efe3e4560034a8d4991b430ef7a40bfd763304904⟩),
  (false, ⟨0x110690a4d05ba121948b1c4eb265d1a3fb9c60387e474927c37e0009b716cb11601046b2c49c13968f27660457f77f13, 0x16af6db5db56e59187ee5f2722d42ce6192d92772487bf5efd970c3d1e410047f0d3467d0a97867607f6d9e413cab044⟩),
  (false, ⟨0x5f0578d765fc151be34235c6f5fc254cde59cf6c6304bc0906da2dec91262b92e8acd6f84b7f9c826f8aef7505694c4, 0x11350ea28fe3e9ea273cbaf962c147563e79ce4d6a51bddb73fe56f7cfef6bb8775da0db882cdbddffb420b7a8596c77⟩),
  (false, ⟨0x10f2ca4552eaded93121d0e86b4b214e5a13692c65f194163d08d4750ca853915e5857d098fb88cc8445047167cb1147, 0x15385a51ae6cbf6477f9612233daf6429256137a5539b924ba83387911f242401ab4dcc0a7ce797393277aedd4819247⟩),
  (true, ⟨0x1577a44da2d8eeb3d29736ac514a47e68b5a6106f4abb74afc142a0a88cb3ae45b6147a36c7d6971c60d0a6e3f61b863, 0x1537467478553e14ad81f3bffa2be1e9b2e48cc8987b2315862b42011a179fe5b6da3345b369f3d70f6285c904dfe540⟩),
  (false, ⟨0x14da488c58b21b2200e48e51a3757c29b3a7fa5016e402e4f3f040e633c4ffd359ab58dd0891a28c28c1422fb24b2959, 0x19ee110fb475fc5e0d209432b83ada448eafd2ba6ca393a5f8a23ab80fae903e18e44b898f94310f2f28b557d04a92c1⟩),
  (true, ⟨0xfc1b6277a6a6fe6dbc21ffb43102f46d8df9278b91dd5def93d1262a7fa6a0399224c7e04313e4a5731b49e95564608, 0x172eca56d877ae966293d26353befb8086a9539f340971fffc09ecfd549450c73723fda1f614f9ed7f2f7a358f429503⟩),
  (false, ⟨0xf6579f0c0b667b55b088752ba07c7b243ed54e72f0f667de211f5a00ce18691cd86307376a8861c0bf7aef81b669ecb, 0x127f9c1ecfe3f1a54e19e599712ca46c3c7f653501d2c52f8e697bff2f4de76c65ee3f98c43cba146a2751c7e186d22b⟩),
  (false, ⟨0xad108316d78c8c67ccb91b8a89dc1b78a26891df420f48744b6a9358d14679c29ed9a88cce1ba1de425e412aaa18b2, 0x9c4e84ef8f4f3e0322be4927592f1e96a34721a6a79fe07f54cac633c696dc822e89f46661bab68b119484bad945244⟩),
  (true, ⟨0x1469788cc44a378a2445efcee00375ab4b5b883adbf17d267b18abc8a9508a232b4dff67b745252163e0a733bb8c81a0, 0x14b71512735899c2f0b5fc005acd893b8b1622cb8964251601234aaab97785c871e0277d7c361cb16d45f79acec21a1c⟩),
  (false, ⟨0x9796ba1078cb85fe87868632a58d94f5854be6bac8d52552ec1449f3faa963a0655894e4969134a8ccf8913d4ad1e46, 0x42785e38cdbc4971fd9b4fe1fe7b9d5e8d02c64dd1bf27219e538f5a812140c24f2d32623107d8ea1026ba835ffae5c⟩),
  (true, ⟨0x940081f3302f5f16e52c6c8effa3e33360cbcc7bca8b25ded8c214db4bf2406875c7965f2bb4f1db6ca95fa65c8bbe4, 0x9a3c11939d5df3ab1abf67279881586d4637c353fda8bcc168b8b9e42e670e477b5d4b726379891818f384e520dcbdd⟩),
  (false, ⟨0x133b2068eaa27db32302405f5439276e74a487461e0af1eb7d1f5015a9168536879d64bd2c663be9cbe223c8bb22fa53, 0x158b3eef970e7218bf61c9ae49e45f591cf2a850d59346d98c3923f409d5eb862018ba6c90ef63e1a33b649680fd3d75⟩),
  (false, ⟨0x6819c9714fe748d8f586783da99e7e46b3a6afcd6edbaa97c7c819c30516700da703978e376b57970cc013eae646476, 0x4e4ded412e3f5b906433fb954bfc7dfd49e9570daa5e6520a8b4b753ee1a07dad299d2264c522a6c035c8945c9c3e57⟩),
  (false, ⟨0xf9df199aae2b35aa034fd04f293fb8b685d9bb72fd20d9a35285f2acc1b561fb1c569e565b37548b025e3f0b3226e75, 0xd8216893d56445762d0a957363b7a1de134b00b60c6ee9f16535b190cb7c74158a3ebb0df4c4423d408aac2d68ed3fd⟩),
  (true, ⟨0x17e3db376873a2f270e3a24eda0166f272acae71182c35cf53720e85badf9b89984ce4cb599281945395ac23193986b4, 0x119dd14cdbfde3d373b10c2a277902d3ddcd1b89c8ee667e860cac4c99c5b440af2d6ffa94e7b245814d994dafcd6b49⟩),
  (false, ⟨0x8bd5052bc02d797025e711dfad378cda18ec25907a6d27eebc6cdb1dc7256d47d5cbd2bb3e27ad3d679152f5121da9c, 0x7bec926170cf34ed5047d2389d961af5320df5b78f02f61038f390079d872a614dbd894a1148e2626131119a7f5dd0f⟩),
  (true, ⟨0x180f2082728b88fffe72e3e469a389444892bba6cfc3ddec4b5b53d0bee3ad8a97e71d03c950d87cf0e17ecbe1ddb1ce, 0xe121720f2c924a24bc979847a3b9efd088a89685900767b42712e4e8fae09de3e365f72398ae888122a063ca1162009⟩),
  (false, ⟨0x15de2b04cf90a6cc683e8e0f948882157970dd274ee3fc317b1708d9d37dd7acac5f2fd178734f83184fbe10b5eb2362, 0x12f01e1f3f30e7834c8edead6bd3c5bbf0c1c20472b71a4e28491dee0e9b7d9d96b71007e673e1ec2e1fcb3fd68d3612⟩),
  (true, ⟨0x43863cdbeef76cf1ca677f4a597a59695fc9789c7a5f60e9d743c0e8c912c20fde0f0023cdd05a6898f21f1ab6bcc5e, 0x8c986b2c52702fd425742f8cce214aa7a79f3afa1329100025aa34926993b804b9285d9df5035586316a1c7c184414d⟩),
  (false, ⟨0x13d8ecf32fbaf335131207e4dbe59b97603676e7813be4a48aa9a03db06431c18dfa41fbab1f263c353d9207575dc6ce, 0x1145472c21f27cb2dcf183cd7a06639a63237ea73eafb6e62dd315274f06778822c90a0ab14eeb92a46db2d4358e0dd1⟩),
  (true, ⟨0x10dc6046ee19df5a8cfd2efa0f8e2b25e3f81f2ab6f99ab9576fc2697c4fae7cc847ddb61e2b31030cbf32721ec74c3d, 0x59b7dbfa0fc734cccbc382a702b0f1684bf633c9f2ec88541079a58001fd0603ba1bc8c128af17a0815b6d69f2c669a⟩),
  (false, ⟨0x161cd27b87d3c57c08580330c12579bc8319b986cecb3333695aa54f9e842422783a12ec659251f96afd6c97a1c6ca15, 0x119b799633b0d5f6df5e882aa26fef9cd591cf73e1feb32a3032d27efd5a9af93af618ada3fbd28cd2bcca656a92eb1f⟩),
  (true, ⟨0xfbe72600ca0029c378035de8f15868e8abe14274cb74292d872fb17e439cb82c7f6dd1124b53008c9018d3cc7b3454a, 0x15f308163ae8ac3e25ee630db3266f277bd32f18f493e0b317f1715566262df8a650e27cf899df32dfd1929479fc9fb⟩),
  (false, ⟨0x246e4bb8ca4bf018e00fe167690c38d1fa9c2361aaef15e34bd631d34defa057d05430b534b815f068527182a523e83, 0x2bf9d9cc05aeab25d06771e185e9bb3905db70f11f1bffa50f6a8de8ce8a682d61ff065579bdc891a72826d203c250d⟩),
  (false, ⟨0xf80e064e8f59a23844db3137028b2576b00c86a414a9055c5b1bd094a122b7cc02e89374b5b64afa5d8156c4a8337cc, 0xcf16cb12cc43a32a8033206d928309c60f43366421207cc99c959fba0c65ce84920e995abd80c5a3d333441a32f21e3⟩),
  (true, ⟨0x567d9531a10bda04d9f266ff086f0d79bb0beda45481d0826a28b0638aab7112c2f5263ef430a41e3e36096be507efc, 0x1647c6eb55217d259241fc5434350eaf80009ff9380fe6f3f2e6093c39eebe0d0a7f49942dda6c213c4d85dbcfbb2237⟩),
  (false, ⟨0xd11424657824d5222c73295d579370a2464cfbb46d0a5e0b4ff673205989cc1681f7f714746eedc37bfb2e79ff1159e, 0x8bd6825e6bb1c162b22c9344002724388b47bf4bd7a1fbfb8b87e302e5b37dfc019506f28055baaf96cecde70e28078⟩),
  (false, ⟨0x10c744bd374e5a3aaf35d2e4b973456c0eab882803a10084a2cf9578d607280a4c191757d3f1af97aa0a818ecd51a759, 0xda5d101b0bed85ba6f38c121dd836a2d88aa9bd7800f8536dbf704ea163769d516a5597d5dc4da0ddd4610a95e656fe⟩),
  (true, ⟨0x1613cf8e3f94ff29272c69ca34421e9f43bfb948d71dfb7a1a75426e96aa875c8b30d78c19a3e1e7dba037b66d70cb5d, 0xd967c5ecaf000e291e226a626c155d539ac7f51a2551149524b6a3237ba7d775dc4a71b76abce709253c3916f24a52f⟩),
  (false, ⟨0x133eef1b918bfbaeaad1225b4c0b51158ebb0f642a06a272efdf7ce2b0610608eabe72212b877593eea8b0c7170ed66e, 0xd0d1f324709054eb38632007d71224ce03123649f2d469c016c697204fcf5a6ccdb3b619dca4d802971491fb425008c⟩),
  (false, ⟨0xdd54da995d1f38cbb3bacdb739ce8364d5b46166052d39071ae4078cc269fd2142c72fe99a2f7579dd1eba2a374171f, 0x173d00af07ea9b6226b9a1900f77985560ddbd20708ba8c68ce83668f7d16920510dfb881717cf354f697366f6d69b5⟩),
  (false, ⟨0xe06c8b3582cf12ffa707b91f295d4782d3355555979cdeb7d1eebbde4f10d7e16c820a4bf54d1e476ab3ce5c9d68856, 0x4ebb36fc7586401cabcda0532983a63fb5d97698ccfa80a645bdb7d408898b7b85fcc8e3b1f1d82b086e0a50c7e79d1⟩),
  (false, ⟨0xba7241c1894811c06750bf5642ce7465f82a6cdde07ad091e090715dc0bca7b6dac276e2ff9dfdeac40084c246bb9e6, 0x1f42478123f16a43dffe1ca78e6b652b754a991aff59e7c4bcadf8f39fe57ef833ed075195700f42368d39ef93fdfc5⟩),
  (false, ⟨0x14c0eab64d4efdfca3f1e530b67cf172392a9aa87ac6e9c79a70a04f58c781b4426cf4ef0e004d1f4700d49b4d52aae9, 0x1007423f3963aed690c604e3a9eb06837c912f11f3f9a97fc4e47a7e8f26cb00eb19ad7e943b514ecbc9b6a1d17ec920⟩),
  (false, ⟨0xe2d239f803eef15f0e75fee34c0bcc3a88b7c7edd8df24c9483f6c7189deb3da25a78a8286fed06fb9c84a0ed3b149b, 0x19ae0da89932d8d4e7d340ab1cec823af85292fa65125963c4b1cd531d09cb38ea8c1dbe43742e2c2c6a2320d4ea1cd⟩),
  (false, ⟨0x16f894a23ad73b93ebeb5fd6760d427511954a20492aeab921f8073ce0da663d56991cf8906646d960f2b4a74d6a7975, 0x91382dd4fc058abd7bf97b8e980522fe375e715664118bd9cad57691f7971a2ef3db01de2e45f228630341412a8be06⟩),
  (true, ⟨0xf15cde1e3f296ea9a4baa62505baa95840d0104d92195196ea2fe5ee7f0e5de9c2c0eae272d7f1de6cbd8db12a96438, 0x1392d9916a647631efb87c132efd75da51ae56bcb8490799b9c61e7e1784d4e0a0ac6bd5744efe94f7b6400d22ecb8ae⟩),
  (false, ⟨0x175436aa8ecea49afbf1f47be3fe0d9d1ff6f251c071d2ab2847c3fdf6d66b098ae676d9aa1e0d960bda2548e5de217, 0xbe3dffd044af7786802f3558ac3b2d1a4d4a4846b2fe1c316a67968fb8363e81a67f0be6517197c24126a94c869764c⟩),
  (true, ⟨0x3d9944e0efde33270ef6f6de04cbcbd44dd367b097c56936cdbf4acaf0c2d491470934c54ec69972cdc1dc26009163e, 0x178e4deab6b50c364cc9daceac9b7848ebb90e0603aa9d8f9272c8c9160f072c53b5de75b6e8c9bd028043a6b4a1f643⟩),
  (false, ⟨0x18417692c07d54b652da6b3c4a9e059f9a38f61d7da9ab7dfaa9b2d52694cd9f92d2900291c6e99a19d2b5443fc9785d, 0xb9d4caa8932f1519243226565edf7d67009c6a80624fee891f0ddcbabcc81cd6cb2f7d71e5f234e03dc94be16b708a9⟩),
  (true, ⟨0xd943f62e57dda7c958131844827c2216cbd84cc5d367652bf9558194417c93199f3a31b0bda3fe927cde0f95a568261, 0x118fc00c8538a496efc67cf63f15b7c483d08d288305893a9658fc38a9a1c4c3edb94c75822620d4be43617145357ac7⟩),
  (false, ⟨0x3db7f0cccfb8bc49c055e033eb64a63907faaa40dacbdfeb17e0fe22b5c4f11d0bc58c385a56b8b4e670f3856ef161e, 0x14b8630d8eaaaa89adfb013368a16501524230ec6536e5f75d23fd26352d03854a23122153f4bef9ba29c3cdac10c341⟩),
  (true, ⟨0x4a7ead62b22a839adf1d897efc1d3bdda5435437a6b29d47cf6b3f183ce839ce17198f7a5d4baf3ba967fdc19503f43, 0x5ecc505c9751adca2bb4f1bd8be9fa1e13ed2d650152b1697013e866a30699638f831898bff90fb2c616e5eca9cce1a⟩),
  (false, ⟨0x6cf6990e85ad80241503c8fa31bc524c586cd2f38138a7acfe93510e4bee3adfd978ef464069d76936b2410b41b33cc, 0x63ef437f1ed14c5f4b9cf1cf7f35633f5ff168ddae638af060cd4baf87197c13263043ac9d1e1e8b59e140ffc7520b4⟩),
  (false, ⟨0xf8d2c387365dd1ad47e14426f3b74a4a8bb3097c788e9153afe89dcc7a6f9a29fac1e9891353863faa8193ca3b1a49b, 0x127672f6252e98edf37cc20c7cc7d9f8a555ecc9f779643d443e843a4e79aeeb90f8d3d65b205c8e9803e5f993984f76⟩),
  (true, ⟨0x1a4563708e70fd8e661954b6487af9a7c94953c838bda46d12a05b45a32d30f588d00d0b806c2bcbf1fdd160fd85b36, 0x16a739ec3af83653faedaa69d27fefaa6880b297eb512938fdf86d6f4363ff51c50cb49aed9357a51e0c5fcaeec4080⟩),
  (false, ⟨0x150e453fd17bd955bcf51b8cb4e4733c962b8e2c280fc95ac8476a25a2e11d034ec287e2a40566311319ddb7f51a1800, 0x62f01552d17e735b4b31ec719f3fa8b2370a8ba781635fa09da7af6253c3af918e37c507e81c9a8a24b936f36c49ce3⟩),
  (true, ⟨0x2a210a52694f7cd0679dd1c8b6a8ddefc56ef38d7654fc34bbb7ba7c6b05f8ea6e4f6891ed02262cb14e263d029d27f, 0xdfa2603d500be81c08d716a2dbc409d33b1024ce56c577cc6512dd6004ac34cf262c0d56cc823fae2b3a8f020cbccc5⟩),
  (false, ⟨0xb7c9ce7670bdfd7700743cacdb5d3ace42be288889a2f6e92585e1cef8a32d4987fd27afc92c5142887207a24605e8e, 0x104801717517ffb312b9e4a93fd13b5b3c30f3f4ae2c3eb56103944986843d65c78ea5f8b30865cad9f2e7089f7ded80⟩),
  (true, ⟨0xcbcc9cccc3ddc40cd30bf9705b0b78d6d7c65d41a25d80d823ad1bb28a8d13b607e5bd27d91a977126fab115181d93, 0x166320f628b88e9add7263c53457d989c7d2a64f04c35b60aa30809d0ab60f0abd06c72572094010571f932e53127740⟩),
  (false, ⟨0x2614a4db2a080cf1950da5590ea82c14038498013f3137bea4a801bd61e8726c3767599f6240674ba7ceb50894506ea, 0x169cf17c46f8276fc7eaead56c92484f59a3a4f0a1e6f89b13eadb7b017a46936dc360b3235991d6bc1d610a77c547e3⟩),
  (true, ⟨0x11f3952ac6fae9aec938141c577fd9580d84506ac0a3f79b3f717b112f06a0e07a0e3528a3170c8fae577adeaf9195d9, 0x18616c0800e9d70957c51907a37375c5aed38c11942a8527c411b53adede533122a4f2add9e19245b6e311d84cc006f4⟩),
  (false, ⟨0xadf8ce08861e3f5e364996253730a4d5782ed09d32632178c3b286bde26f5e070d25140b970c330bfd7d09612edeb52, 0x1432636b5f270404cc6cb8b6eb4060495c736ee784943c976e21cb0e9f04cd1d2859512ca76a13b339a031bdbbfcb4ea⟩),
  (false, ⟨0x13344122c1051270e722fa91646912bc3210ca3927d58b95aacd03853dea4f068f6167c70640c11118630043fb907488, 0x959cf46ce42e4804838b797625d1979c429b5330ee93c6e7cfb69b5e59b34cfff7035e822630deba8871dd7263b13f7⟩),
  (true, ⟨0x7cdcde76a6c4eb5c4c626b7103aed0412cdb853d32f81e8ac19453acf0b4d2757af1c7519e082f3a61e3fa415ac9d97, 0x19a7c100429410f54b57e083bc9ec70f6511679ec283a9dc3f35b0237bcb725e484cb550779366ec6a92cd2b9ed5629⟩),
  (false, ⟨0x154c428987b575fc2cc87a170720e820ecde22fcce227b73439caaaa8530cab127d935c6a71dcf97f1fffe30ef79e9af, 0xb4670df438ad9e1bb74ae3b9cd68b8ac6e93c4b834c13ab5348b00ac866c4ef32616e16e6ecdb92f0b52822355bc26d⟩),
  (true, ⟨0x19d1a8873cef9de1279965e667a0cd4ebca1db80ea3a0d4013791302e61221417cc9c9c49f973da163f6f1207a94b0b0, 0x267d01b6afca993dd5d961125559f66ff8f079c1c781344858677e099043965a9ab0e91ec80daf8a0f9c97b2c3a5445⟩),
  (false, ⟨0x182222a472193e81d9e31f4c41ed399a62cc74ffbfbeec0e026595e433127765d7af167998e83968efb63ec736a0b199, 0x14a69a0f3a1ea27d4c88d09ad92c1a59256c6619f251d40683e07d5ad91890326c74283ab1e6e4f4c974ff10fe41b5a8⟩),
  (true, ⟨0x13ade3a483bf27e5a0936da740ffa76059681a9979ca3e1ae4e35930f58ad6e9df92f8540eeb0fe2c9d0d1a6473c37e5, 0xc3c0291f315ba62cf81999de4483b8f2ca00cfe41381bfa6ab963e16c598644efe273de45386f3bbf852180f9158aa4⟩),
  (false, ⟨0x903e908133cf411c7077d79c2c90cc20bb00cc4d376b98cbcbd01cb4d26276746a4048670839c819b90ce7cbacf425a, 0x2a406f2e7c62cd6e1a3537a08ab197bf2bde6891876748ab52bf0328142a0e27d59392c49aaefb2bea0a7bf8fbb2419⟩),
  (false, ⟨0x1174eeae28593a63bce28926ec5c0e7919bed115668ccf83b9133d7e1d13db2a52fcf1521739d2c2677fc4910bc1f116, 0x152382f5c6880f61a06c7554092c916490d132a131c5b8147679b413e2ee1b13a930328f1000cfdcb5ecc17565207c3c⟩),
  (true, ⟨0x7713cf9e8b7fd414f0c886cba355e6eaa926fde34771e50fab099822ccab182ff4688914e7284632e359788fee83b5a, 0x2aee99a65313fdadd499f8718d570f34aedac3847d46aca476c5e3e7c7ef9b9b2e88eacc67c68f1547a2805e79f9031⟩),
  (false, ⟨0x523ce6464acfb851b5b8967a08bac96879fba6690b22c453ed32c6d3649fb38611c0cc955e282992a40c4a0bf8a8985, 0x3116915dd8649b1232627b6ebb429e1a27673e9924e813afb62b541dcb2e99c0f5abdd88007740405dd9eb0f73fe6a6⟩),
  (true, ⟨0x3b90e9256e5566b6d3f76490f6986b7bebc572d5b41e433cb92a0fbac4506e765409bf91b2b9bec533a8369567c5272, 0x1f575d77deb9b400404b063495b8d8ac8a2237babcae5fe9abfad3513544065d1c3967ec1ed04c6ae5c7e6af1798804⟩),
  (false, ⟨0x16da82601bd8d7c23dc8201e513eb048d25916b06001bbf394b292ef790e65136cbcaaf623272c1f459722648e47eff5, 0x1605c9855e759ddae5f253edaaabb4bf5642bd884a42c55808f5da484e17e24db2898d92cfe015a53e3f62ff221b7547⟩),
  (true, ⟨0x3fc1051e46c1050fdb853e5e02ff83f986f4792d67609090dd5399a36c4303b8974fe9990562aaf2004cc73ebcc055b, 0x83a21c6566b09f449aae9a5cfbdfd8e92b8f85dc5b14c1d2fa6a72c69ca85dd3ae0ac47c342cf727ce9040ad66dc9cb⟩),
  (false, ⟨0xe6d248c7b9a821c478d100cafebba8f9dd9445d2f40e2b983d03da4e1f333a0939757b94d27b5d63cd9f84f6d3eaad6, 0x173b4d934ca7a37849fd26d31994d07d3b8803240d9abab9c4b79969a3b4f5488b8be6b4bd09df61ddd0d679abef0e49⟩),
  (false, ⟨0x19acf07de59685f27a1c471d1a7a156bf2798ba176c7b5f8eb30cded0b71ad43db1da9ec384a9c4d6657fbfd6845cfd3, 0x14eaaa9e0f815c28f7537c5a5d2b7067413064e451837169514184d6057a8fd634c9d20803605d690a81f117202bb48c⟩),
  (true, ⟨0x44d4e7b200ad7a4f1cc89ba8eb7859e9b5296c068f932f2024826a522c42d51cb714ee5dbc01a69d17800e3ea145daa, 0xd921a96a903b30bbfc98dbb87dd731e4c41e8d4e7ade558c42f62f66d9b8f69918babfc2a59a57e731bd9297b453f76⟩),
  (false, ⟨0xf25551602e8d8e611cbfb183cbf54dd165d40c17eb7f27d2dce8e3a03ba8de27bcae1a8874fec4029a1329f4c3aee48, 0xc3874c9989edb4abbb08506abad1cf3f541b20df713c31cffa60281d26030cf7f8a1ed878992fe0094327171cd334d8⟩),
  (false, ⟨0x11c038243dba224a80ed10ec8b539b3d38a192796459f937e6cdbc25866969bf21408126ac83099f884f1d5092b3723a, 0x136acc0910870613d513f574dcfda68b9eda4e10e3f696eca90059f7de3389c9710c0750b95332a4888a0f6077ec2b4a⟩),
  (true, ⟨0xca8992f14d2e80d7b81f1a39e7cef5685cddd8dd635fc0d6b821b3e447b0c174790fdb781238996427d6efe7c63cb7f, 0x130f83cef411025a2853b7c14eb07416c06e9e7db2e0375cddb15936741d204680e1c522cea9293b5fcf525626687166⟩),
  (false, ⟨0x11fe85959ebe0be594286169393c0e3a2621c45633d20b0f760b4a0d6316bf428062bdc62be97bc81e62a2a9ecc6b2ed, 0x15bb2fe41bd27f4532e7dcaefe8904b67c172c44be0789d3989da22294b6e41ea911f0a2f24f9d089e212e7e2645954e⟩),
  (true, ⟨0x97594f4faf78093fad8f8aafb8bfe2f796794f3d809c588279b8590ed0bd4c4a82b6501a76329fde80a94c0954352c4, 0x995025d97690368748d29ace997128ef58ee4dc8e89e4c78c2b38e3f1e1bf1db5484ffd4cb51ea8a21166bf168075d5⟩),
  (false, ⟨0x14b28b36dabac73d2868e6ea26c3106015cc10b101da0abc597bbac8c5990b5b0c3ddad998ea2c5d0c308a504966fdc2, 0xcc691772a99bcd0bdd2143741380cc2d9f1023f850bdeecc291d03660b5948e39c0669913b3061866a7e1d2cce1a249⟩),
  (false, ⟨0x148b9049f097738f56d62fc48d8423bec9508fd2d8e1b86adb7407cd721b48bbc0ef281e06af850cf3c267cfbc78039a, 0xc52760df7d904e58249dbba94db7cd9316c1181c6364745fc320f7dfd5eab676e63373a45f8b75b34f7da869f1c9e86⟩),
  (true, ⟨0x13222dbedbbd92c94b3e71269bf27748a8b5f4bf9b7eb25043436b4a1ffffaa6607b8bcddc3c473f8b992987d01e541c, 0x140f28b63053d4c7a3013bde3432f50308202c9be4b670ff3470a02dd99b40eda48de6e9ec273860c4069b97d7c5abcc⟩),
  (false, ⟨0x139cc6e6e46dd84ec597154dd2350baeb57ea68f278b038bad94307cce2ed3f7dd06a273e6f14b982938629834963ea2, 0x121c002aa78ae300a60697a9ed58f77068f8e537ae9fd61cc5bed5261411b34f969b9125c673bfd29f67c280dada52a3⟩),
  (false, ⟨0x181b4def0d16d3f53140a7e9d3635fc2971993885af4a0cee210b8a2da110b5da883a3a5c173b6b20153fc0ff0b1b786, 0x21bac81cc82bf52e382a7227072cb60b113fd251bb636d7be5be175c285159db4e3675626a819544573a6fe1f3f9746⟩),
  (true, ⟨0x110cf89813878c9d63750f6fed3f0faf99ec5514a66a6fabf2e6224a122714f85e2d104a8fb5b65968bad8b91ba55d6d, 0xea5f7fea9afbabf4311db8611127df52703ad8f1192ddf922171f7b3474c9bb71c4940520eab81fa1139fa22ae8db14⟩),
  (false, ⟨0x10257b49bd7201d8cb6d003e042bcfe06c6dfc9c4aea8288856cd4b5708e372a1458d82e64a39c678d62dad7bcdfdd74, 0x1e6017ee5bf1eb4be9482b58ce1dfda0aa3141663bdbb59c1d65f5fcbb6b02b3098d8f8cc10423a6dd9322fde90e084⟩),
  (true, ⟨0x1321dc1393af4cb5223717dc62fa254eff6ba5de2c7022fa76152d4b277fd768d993900dc74b5d73dd3984d7f070b0eb, 0xe0df97f61718e6393bf45ffd3b31bb12af60229f463d956a7b1831f7837c1296ed6e4d41a2cdd338d732e2cf2b8e074⟩),
  (false, ⟨0x134f61f4ae4d0fa1bec7474e25094a811f1642e1dcfaa8acf6e8993f81b481f719304fc70f0bcb6ea24668c8138286db, 0x15e56af30aff2e451e77fb937cd65d6b9c4dc9e19da67b985c788fa9ec57ea8feff8e7869a9eb0c4f10f603be5d3b30e⟩),
  (true, ⟨0x1ab28b9c6fe0b07950c256f52c53282fb9263a32460fa6a10430ae6cb76c5195dbee6ba925db736f4eb2eed0796c42a, 0x404c5266cd5f9bb5ec6402c169c17529d400f540c1268a5d45d55fa4422caff8cae317c95be380472a355197d2fb4a6⟩),
  (false, ⟨0xbef7df3bb4f574e4c1bbf2c89a059ceb9575a8a04529a423ab27bef45dea5bc923a81739921788d012d2ef38010a67d, 0x18c65d1ba9089e2c37acbd68a02b8afce35421f0806c5ee0842b14e4d481dc19046bb23efecb833bd52b90833a1969f4⟩),
  (false, ⟨0x10df61313549cecfe31b265077d01086059efa61ae6834979361850bec724b17388ee01b3bdf1b9f9da2436982ffc9d6, 0x14231b32057f30071a77d70ddad345323e45ce9cad0a563d217052d6a6a880e4c91d62b896e350f110593fbd9f8bb96f⟩),
  (true, ⟨0xe302e9081be36905e4e5b3c72eaaceb03b41c6d5417bf46e260cb9d9cd005f92103ed2f3c9e8db6104d4e6df07de2d6, 0x18725d543d9c2211857a3b05daf00e2e47c99d47a3ad6bc16ee8ca2a6d6653cfd2382c628e99b8ec5e363f604fe00fde⟩),
  (false, ⟨0x9fadc3ae0efc1f34f4470cd6cb528f8a654097bad6359681974e270009aca20e8105d439d45be1efd9fe4d15158e1c7, 0xced77c9b84247d3846e16f00765b97e0dc4e49851a892405155e127b079d15020757a53afbd32ce60284c28870dcf5b⟩),
  (false, ⟨0x11ba63df2a7555eb6ca8cc735316e7a091a107cea9a3b07910f7ceb265ff8ad3bf8d6da4c4b93cd5f7f8001377efa767, 0x6778780d7cb0ce159fec8abdc3835d3309d4a350932588e3e67886632f25766a44dc82403046b0651ff6ce2447e77e1⟩),
  (true, ⟨0x5446bd08b2287ba68213b8b114f734e7be85b10bf1efbc144c5306e5373142462dcb07d8daed480a0652368dd9b2501, 0x14bb241a88e62bea36af362cd3aefd4921859a8e011baec3a1a667577f91bd5deb32dac145a96c5d8ecb9fbb8d36863f⟩),
  (false, ⟨0x61c5a2ab19d517069672352b41c2a393c0bdbb8e634ef8d3fb41246ab92fcb4418d0b4be2efe945f05186dd6b4d1819, 0xfc8f4d0f761eaf99a67bd5d257cf27af5b41fe731c2cfe3c0796494462bfa5b90bd18ec3a13cf7cb627e32188cb2c2d⟩),
  (false, ⟨0x1450fdb90c36dd511a65b579905795fcc4973aad700e8fad49b44ebff450a50ef68cf09d2cf50e4e37add650dc2d37c8, 0x1554d89296560344799b0052470a2410fdfed675cd26cf3465ade03137d3da8ec25f78b55ec940c8f2148d93728facb2⟩),
  (true, ⟨0x18f6e9c0f3017a35848b79da3f314c604a6cde5c1e1ef560aa593e204ed6d6161d518ecae49b2eef725801a410e2f717, 0x4e55db61e24be2f19e313a17ccb23dbfafe37dde1893b41578c37e2f792945efd6b8b3928df682b10c837d1e38c7f1f⟩),
  (false, ⟨0x74cd3df55cd2f9cc348ed98ffd93befd60a1a9c9694b52d24ddc2e122100d6298bb49424d4bc2754311391d4927d7ce, 0x160f1ff3edab63abc63087a0b9941765b6bdd984b8ae9c0b0495d91a026becf837fd4319386722f763f6295718e08bd7⟩),
  (true, ⟨0x4302aff01577f028c1f8d0a89d131a063f6d2aa1fdb4a0df64523df1061a903955f69d2dacaea1a62ef960d8e19bf9e, 0xeaa902b7f2597441e5db6565303183488ea85526e49c400be57a5ad7fef9bc8a23e3b337bc884e3650fa3e7b2d952e1⟩),
  (false, ⟨0x87750d43c6c2455ee6216f44b9406faf0a5ace9385033a27aac0933a92ff9e0fa6ff553313134fe59b080bb05bc60fc, 0x69b6c3c14ff0c2d4084cdd35f5d30dc14731926263961b0ecb987af557601eacea2d980e4bbd2cb847071511fcf4feb⟩),
  (true, ⟨0x5504994b0208b8452f466ab96a8b65d6b061511ba78a1d7b0f6db6ea5106b4e3278cd85f624fae2aa4127e5c9ced37a, 0x19e0876af9bfe4532bf9ed0093c3c3693f14031dde28fdf18f8c084d0116172f8da5f78dfea0921f1dad81249ae4a7bc⟩),
  (false, ⟨0x171c8f573781c083dc587bd90baf1530ba8acfe9b64bdaa7ce1772f86f438e5a164f18c6ddf1ea20ac64d237f46c7f04, 0x14154039f125a18cbfb72a07104227807f0de2df80d3708a2d327f1ea7ad06686b64f2740122ccc116a147ce0f096d42⟩),
  (false, ⟨0x216d85fa21334f950b02b4c040a8bf650c539cf72e22e7e0add45e066632074d0b419c31cf6eeb60eca85972b35f50a, 0x5e2ed0c90f9f9cba92718ed030797f81955a06683dd29401d83c0c1f41cfb3bd34eeb6b3c625178ae7b0c7d18355021⟩),
  (false, ⟨0x128c206f594c6b8394dd3013c149ee3aa57c9a4cbec7cf0ccf8682733d87044a9f946664ba6426874bc5bf4fe520e7d4, 0x70f18d9fcab7828b3356ea5392d70feb6a9d8cca427864c2458219db59dc00e12a7b2291069b34282f3c07275124824⟩),
  (false, ⟨0x135a4c8c2e6de75337e17f540317a3fac0566ad5f3a5cf6a89350f03b8b59df9bca7e9456095cf47381e8d53180fa379, 0xf1b33fa45fdec81d2a32e1446846f2c44f42fe248856ca5d1fd30f712dc166b2c9e7b357cb49184f6b9a560c09f3c10⟩),
  (true, ⟨0x188e7085ac583654a934a16d7a3bfe699bef202b4477b44f5fe4476c5b241ac2c732d95b3eb4403728594de4a1c1e5b3, 0x3fddc88211754d4eedbdfb8726f7cc9e83c7a214d6d28a09a0a20501b5d7a0fd527533bfcaf23551ced179f530a326f⟩),
  (false, ⟨0xca0f53e6385a2f20fee0ae8a60fa13790e8a2acf67b42f8408fe216433ff3dcffd21683ea0da89ee404ea6c229acde0, 0x5c1bab0c0bb5a4d5adade116000483860acd008f3b5f99af3719ae21c9d4505178f64cc6fe1c2bd74a70e016896e9⟩),
  (false, ⟨0x177aa8487e1645b27b176651ed02aab0de548b5b9c760158513316ff6cc5d53d53aeb81a7b474748f7008140dccd9cd0, 0x103fefefb3a56485a46575240a575c74145e6baa14a2754a2fb1ab4cc74483001134ecccfffb99eeb3403729128dfe0e⟩),
  (false, ⟨0x195646abf1d24774cdbf350222de72bf94e7c17640c29b7ed24fff128cdde713013c78f4099702c1722c7db2822dce9d, 0x13be2e7b2f61257c63c36903530138227dbd41ff4601e7679ed02f0a8fea8e1faa159cd062fc82a4b9cc09bef67a883c⟩),
  (false, ⟨0xaaded594b2eb7175e36473c480220f956fda81f29ddbf484d1bc0b6a0eaf539fde74a3d7e89dada3bd970810a34468, 0xb8b307890c2878c4290306cebc9fba73303d825496afcb9254a0e4304d8926d95a2cdfc1cf0d89fa8169bd2185b2bd5⟩),
  (false, ⟨0xdf1cd84531c8a5a3b4d642f4f4db336c846336bb5098e3ec4dbd66d6ea0ae1c673899f91005fa6b20956c408056174f, 0xa19ccab56b922eb2f2cee5bbd02c930ffcd595febd0249818bbb8f87ec9886b585feafb9749ca762a1c9d24f7e23ac0⟩),
  (true, ⟨0x4880dce64f838e42d363b5493715b8f3d33dec0e9cb14450bd0fd5ef7a2497ade8ab6da281cdcaacb9cc39660c88ed5, 0x1132da5680da190f6100cad71a3a5e004c603b6e564f83f1a54a70c9735ce1090428f220945e476d95aa65e479e80541⟩),
  (false, ⟨0x15456e61ad5084a3d7a04958db347d13f3cabc6f3929aa5a46537a09a44fb50c3199490b80d64e46a5470c4c08026231, 0x590931852377e2ca19a3d308e7f9a63b7e8f1c74d851d2550923cc97df49807a434488c01f48795eaef7485f87e36c7⟩),
  (false, ⟨0x53ce58e372bb6391498843f0f9593a7c7d28932a14c492909b399632c55b3b3ebea95a877f603ca346c7931eaece248, 0x6eb22fa6c9b2a273d609df9ae07d80eb27beb034bb68a5099e6ae16e09d4efcec6e997cccf7eaca56660d61796540a6⟩),
  (false, ⟨0x76daa1e5618199dfb15d9518e5990cd6685007e9fd2e46124fe546ed47ac52cb5d63aa981461ae4cdd85d769c43e118, 0x132b3b5ed645d78f82264c9b2775d7484dd2c9af705574b850e50d8c933f9a3b2f34e16ef98d324d18fb25403087a7d5⟩),
  (false, ⟨0x18333f62db3d59cdf6bc4f7e70bfc33bf1741eb54429cbda4eae17cbaa194963b0b440f30a80cdee98650f1f53d42980, 0x16958d1ff080d7be526f993fd1080ba39cd3952a58f5019ed25ab0f0b4915463c464420617e038446608206fc050f0bf⟩),
  (true, ⟨0x2e613f2d7892ab711f56f4096a67a1234787889143a62e5debd9fe402d50a849b6ea807534f5e5fbbbc9485229d13fd, 0xf8b198864b4e6e300f7d7ff8167a7f4144a08d18b03e90af9e702be890ab8f3010ad6845bc3c7c948a0be2e2abcc30c⟩),
  (false, ⟨0x5187375e3adfdc5e86a7bd3ab7eca0609c7a039ac6df2b78ef093fb921d3c763ffa5e1a8ca54d9549d163cd5f490f3a, 0x3cdb5502cce4a7d5ddb98242a38a60eaf1e2fec857545c77fd994db9c6c957ee5d8727e87c113d0280044271568ca0⟩),
  (true, ⟨0x18c03ebbbaba36558094f2601eddd911c6bf8f55d0863962a7d9d9ca9c0c51c96e0bae9e1739f700c94863484820081e, 0x94d9b073c7464b2ed8393de4751d8ae2efa6ad5dff361a3f1d3f2f6098cdf26b4323b89156e2e95bac4f11405499693⟩),
  (false, ⟨0xb003c2d926165801d92a08463c48b9e689c2b669fc20c75489eeace8165faf3d64a3e106c2aaf5bafe364fad6a548a2, 0xb1e2a15abe1dfc1b250381fe29639d0e4757c2e51fcfe50a0581062820739839e740bbd83d00e1a302b040bd5bfc6af⟩),
  (false, ⟨0x5aa55e236e59aa7877f7b0c0b677d4bd200cadd3520ceddcca44860f5beb3ffc6d456fa02966b5fae40707aa4c6f7eb, 0x65542ef433a558bd11e81ee2de82f9db8df40a4a2f0ca974731f61f69e8334a7aa25ff456ceda3155d18f4e7fc26a27⟩),
  (true, ⟨0x4f0ae7ff7c3bfc04971ccf17e57e260fd692882a95dfdff06cb1d4b8361ccdaaab0b3234e745595095f92bc9d49f9a8, 0x54b9355887b817826e5fcaf4d173babba0474d48d01e787fb75419ae85a85793b214cf158b604563827cec484ad3f95⟩),
  (false, ⟨0xbe7a5edd7a3b1738bf062978dc40fe1b6ee12ac5d0f0e403c7d43200cb8101d994725e6c598b3f5a75198987c4f7d9b, 0x5b3b2d491a53be29b2e384c83e23c9f18e2828118759c5a9bc290f29933b546270b427872d187849911d3723a1c689d⟩),
  (false, ⟨0x1a00770a1fc33a19a1016db72ed5b8f3b2db669e8e451be9819147c0a3c3982589fc06200ad7e2d12acec144b76514d3, 0x129346f2f330dd45e06b836e275d25932eef7d1baddfafff3ec8b8db99062977c063df96af3bd47c575f683aee9f00a⟩),
  (true, ⟨0x37fbdeda80fe8808f1e9e50b0da5a7c34f747a8f533c14dc1e7d18855b91d47d8fe3030570763a316cb0b90b7ef264, 0x5a4e72c223517f11aa614017b98e7274c23ec68c72a1881c88b48fb4e70f22d98bc8a76d09ace79af5fd959e2c79cee⟩),
  (false, ⟨0x121443bc458e0330ee2610ed6a0ccdc713492b2344afbda56229ff6c1636d4c230ceb68c8b3a494a2dee909f87e4b266, 0x34b69678fdff9033862bf434a5187ac33341a3e72ae217edd0b82ed35afdfc96eb18d54c6e979fa49800da0a069e2e5⟩),
  (false, ⟨0x15d923fe0098cb5df4652ce2d240ecc49d22cc24524836dfe38462216e37a81b27f65308ff1e928d80733cd17137aa90, 0x109b024b13c79b084321459115b132a56e14a9848aa80026d49085ce9bad38fe4abea2331ef3837c64914e33c240263d⟩),
  (true, ⟨0x7342084092d779e77cc03d03903796f1c2188811d0150b575817e1be34dc82f10e6192e50490f9e66656702564056f4, 0x7db687105eeabb386b3ae8b613217fedb9bda1cfabce0f30d3a8e745dd8b145efb411d3a54d6560d470633344248f90⟩),
  (false, ⟨0x1057aa18a4fe08eb7338eff7d06584af8b005bca974276a4113144a6ff1d8cf400478b35083b853a70894d368c4999f0, 0xb61188e69f076d1860880ae5e7ebf38865f530dc73eda49128c83a74cf1b27fd48c18da1e92d66a567f24dafa8fe56b⟩),
  (true, ⟨0xf0fe50a2e505f6401cacb87541f248a1c1d4d4c31dae5a32350eaa3606c1d20c6cb2886f2c1945c5cde4d4d867c8d86, 0x191273ce8ec21db296aea5976d79c55bad1d60b6b9c321a5e68a4fe89b7fa87ad3215412af07c90bd9c8cac2c20b15d2⟩),
  (false, ⟨0x3be2447a810ebd77c1c42ca468432c9ef06dfb0005f8a370fd20bc8982ea5d98f99993ebfc159e8c89a1fdc71da7f8e, 0x4f19d69b2500b3da2dd31a618ebb1c9bbc8cf6b15be29ca3ce5ef443375bcb7e6d9ea45e1d2b2b605b37624aa837690⟩),
  (true, ⟨0x12123442a86c907129035659d6a259ad6250ca2dd645d4b8d1d344ec8e03ed6b334e1d78dace0356955e153aff73839d, 0x64b46e30026e84abad82d00e69f2fa9847ae723a1bbf35e994f3b01ef8b9da1014def39ec28cecf3c1c3db180fdc306⟩),
  (false, ⟨0x1ca4ca0f41ff7d9e8558ad394c453f0a1d54ca12c038cb3ad113f2107dd05b4376545be7a61ce71c9cc0ab36576d1de, 0x125aad40e20e183be20356994f62afa4b6f5fa36f149cff21d457173000ee9496a9b7238709f61647bb86cfa4ceedfaa⟩),
  (false, ⟨0x2bfd4f37b15de7c91adda9e3d1b12bc4ff65ed9b4b0c2901c186f80c01a905108ec140843992ee92799af576a82e34f, 0x1641e6049686c417a9430bc4104c46b52d1ec06e7b2448d856a3de62fc87f1201305be768f51a0d5e4f4ae5fd8922b9b⟩),
  (false, ⟨0x86231165cd0d935313c62e960a0fe1c552a7f6c8c74971fc831868fd49900f785e78e7d926c18d82fc0517d4e682e1e, 0xa3e9f45bd0db950f6a52c2bbf52a02a9341187858be064ec6221cb068d45f00a41b6bcbdf0c4b5fa00c17380bf536ba⟩),
  (true, ⟨0xf8ef774b39a76465ce7e5ccc004d99eb993217b899cfe2bf92c02aecb61ebc5ebd855750c420907afecfdebb0f66c4d, 0x3e832873c6804bdb0244fa0db92aa2b11c8f52cb805927c278a96066fb62094e03b7fd083f25e1200e2d5f82b8cb364⟩),
  (false, ⟨0x10ed8ab3d1f38722346349d68be551d0ba2ce63248817b18971540811443ce9848c0bdb3b99f4b1dec9a4644c2071262, 0x17d407d5b7a09e00446f2f5c33f93d260119ea30330cd79f056c2f7eebb9cc461256e0e3d386411e9a65e1fc70987bac⟩),
  (false, ⟨0x3952e4452811b4e18291024d839acbb72092d208bed578779fdaff3004f0c2f88261db589952cb9e14e505a579e9fb5, 0x11d44012aeffd311ce1e0e84986170502b7cc1ee413f75632afc8ab30fef478f132becad104f247f11d1e6f3a5356ee5⟩),
  (false, ⟨0x18e6fe881619838bae44d345d0d9049b976aeacdbe31fb3798b29d4f130be83e72fb2a18d7f32feb591d77360367fec4, 0x123b886b560d47c90b903e640135628487faa399c912ad4fa5c5b23eadec7f3d3c8a182e9ce8cb506dc772cb4f04b2e5⟩),
  (true, ⟨0xb7039ef6dd654a4f0cb6ee859604a02080a89d5ea9993ac4ef0177f23a55523392d2171eb029f76e2657c5e48fdd839, 0x123030909971916b65d485eaa1137a522f38be36c4402332776ec814a1011178ed2b1f57c43abdc51b982ff42baaffe8⟩),
  (false, ⟨0x11fd99db2b4356d72dc02880c2829e54099dfa5227ff8d5fa6b7527bc08be6538ab1c3499b49af580547cf16b8f41a4a, 0x9df29386bdb39eb147848d50b8db126904725f7e2996b181c8e2a86f92f7145c9cd57409573a89a20905afe147034f1⟩),
  (true, ⟨0x183e89c03fa47b2e0ca0ce8ed780ebc7c6a0d54d5979fbef36cb93f1b12aee04b328d9bb7ed480da99d3e0d833c9191c, 0x1724ed8c2b666dc9ae5031bd7008ef850bf5e9138d66eb8901b266de9b7cfce677f5ff635ab81501ef1b413fd5d1324e⟩),
  (false, ⟨0x9f95709dea50129cee4811b6d84645e99503ed233d5ed0af33a96866efa871f6873c40e662bdfba75e69c0fa3b38d32, 0x428407026a390439912abcb7336aff20de62b7020b6f9720006f689eeaee4a3357abe6934c396d90b20aff4c0e3f07d⟩),
  (true, ⟨0xb0294375a66942fae3f433a45bab8c3d69f5d80d909d80ce16e092e2b7205e8f688f86b41fcd3485a4455f8ba75cc96, 0xd7efb079388406e375dbff31d2b0ebdcfacc3e5dcd635e4e72828620f3202dbe6219241eeab04ec51cb6e008dbb1659⟩),
  (false, ⟨0x184532a81935b2fbd3a0711bec1406c6263d253acee6959823bddc20aa555ba3d15318b0ddc5e4a36a9d4841364d3f33, 0x84fb9d29653aa735a035f4285d5cdc6c4139b86e7fcc04a8903c2c1409e304ce1b346b3c27f847e0b3d8a810f2b5654⟩),
  (true, ⟨0x65c974ad6cac441a9095be4f96b79fd5dcd7e5c0e2de2f44f50fc5c0b49b886f793570e966625a42231f3f7a0795231, 0x12648087a0f28bbde98b77cc88e0dbef50b48ccebe535705ada179d3392e85ec0d289673637e2ac4fcc37351c2eaae27⟩),
  (false, ⟨0x9f4201c231f5e71fa1f029803ad7739f7fd8a58cc311755ce581ac640f0a652145b4375fc507aeb3175829d08041417, 0x16f9388fad30f8469e1c8bc6325505ac0901c40ec1989a1c4150c5a9d5884cb6a4a21cb68e97d13f9da1d3278cb8d6ad⟩),
  (false, ⟨0x1ddc473c579f2f0875d7bf846f6f111dc6973271ecac1c475dc5bca78b0b688e498984a03e45060f4c39ead7f028eef, 0x8de1af8502d664f7f34682249ed03ed904c619026289b315148b91f7c2724ac1d3fd49004448b19bfb3a05c9080f1db⟩),
  (false, ⟨0x391b9b0c91e5227fd43258be0d06906cdb5d3c2d55d3ffcd371956436e73b997f43266987fd2ff81bdfad33596ae4b9, 0x7d6009efc46e53484076e3b19ead61ad607de027632a659fb1e7a8047c9e5d614e5e738cde0c41cceb2e31e01e94c32⟩),
  (false, ⟨0x25c0c0abe30eb87d18b821dbf7cd74e8fe6698304333e8a6e4f07f8d0310130584a219a107337334f552b9a9458ab85, 0x1b03a8d6b54231a746050e88589dbba302b2fa38ce631e9c2a17e35dcbb4f16babe60791f960675c439dae896733787⟩),
  (true, ⟨0x197531c7f9c9ac441ec5d1dfb48dbdece6db7beb2ae5bfa4fcbac14d43e229648db1065ae694c6ffee3545b7ba76c634, 0x836b56f6a33262f5ca9aa0272ee6d20a5c8d22f8bd9ca23a4c52cc361876082af68b15ccc5f283da6cad15395d838dd⟩),
  (false, ⟨0x134449ee9e81533834e09bcbbb89773dd41265c2da6eec82a449662a562c200e1037c2d7d6762b68261877ab33f5bbd5, 0xa67546f6febd58b1792f2d55b0031cc94b3badb2488ce35f4421bb7e20ac222227b1f82127955d0252b4be03501ca63⟩),
  (false, ⟨0x79f787609b81706de46473ddd019e1f205948090735b26198f9518da9233d3a858429a357500f96f059714159b6f9b0, 0x352dcf4fe85943defc6136e01d93b407f08a0d688bd216ccbfc71e3428173ce77c07454fbd7bed6ec957323f581ba71⟩),
  (false, ⟨0x15827ab2502a1bfbb4039b064403909e47d5165a41cc2b44e70feda96ab056635cab852655e72a1c3857b21399e29ef6, 0x14403a8df8a00954097721029c5db56d1d4ceef1436d5f670c6f4a40f940466bcf6d4ca539ac8d356538c0df00bade7c⟩),
  (false, ⟨0x99e6d5301f2702013227c105df6aec2f8bef4385d81aac7c18ef2a28a453ed36c53d8b340ec64323f5e8d24e6ae671, 0xbf9f20aea9a19869a5924b56f201d8fb6cb8f9691018aca2b4d840b6028647d7d8a571be27028e1719f7d139d1e2f7e⟩),
  (true, ⟨0xe4136287350ea96d43635f55a7a0d3d408cf4b13d98ce4f476d30e136a76d645a9d9b3e758ba8d7923a58f63e227bc1, 0x10cd698e65e65eede80f63319848df0111c80f8cb6218e1045764bfcaa2eed09aee06aa179c10db0856a86e2b4cf6201⟩),
  (false, ⟨0xf40f4f343335a78a4357506e9da451b877862efa0241f95ac73eef9bab54fbbb2e81b200a7c8a909a787fa5e8bc0450, 0x1734afa9c204a712c2293b4752ad43ec634238a87ee07d94e942961da429e355ae3ee33f6e34ffbb9fbea6a86ddc6a4e⟩),
  (false, ⟨0x12377b253b348873fc0b422a968b368b2bcf15255554d2142a8add38af4e46d1ae1278038a547bbedb621362bb1b6a05, 0x15254b5374ac8faa04a36e6ff8b1c52d1f638fe0479490956b919ab67fd8e37599940bf846ee82df51b996559923a81f⟩),
  (true, ⟨0x2f1b9d6a0a2c9a298eaa080e6ffdc19c5ada9c47cf723507a3de0538ed3bd10e2ab8f4cdd68479660dbe3946c03d9fc, 0xb92031fb3e3a594ec0195065ae98c14f44a8424c1928495a967ab7a8da023b1aeb7fd7a7814216bcfef0d9b0f19c02a⟩),
  (false, ⟨0x4b9c88062626ee66f561bb85c0e844e43eaa72b9107a7eae17b3686017fe9fdf0c084567585010a42fdcea600de4eb8, 0x10e5b501ab00e522fac62126ebbc81e0b0e7862e7ca4e6192a2a43b619d2b62a3dae053e915eebc4d5ee8437cc01b0f7⟩),
  (true, ⟨0x750d092ed8a2cebc9fe19e43cd694e6bdb45bb680f4d8aa1a1e09f62b3dff7756216f86da0c70da8acddcea7818c916, 0x180646e6524eb48a458dee98c4f73529661bba4a0b97cb964554290df80d1435cad224d7e249aaf3fc65f244140106e7⟩),
  (false, ⟨0x98c8a68e17497e7f11e7b4f5a024074ad9f9754fde3543667b5ec024356ccd2c69fd899fa099855f9f9e55da8e57e51, 0xae39fa26e4a322a69caaa31fd29c8e8e3560726930f21c17303034537e3ddc4a017fec32b387c2d1ac875c6f011c0fb⟩),
  (true, ⟨0x14f4e5d3434f683efa3281f54bbe172062b4c802d81f42a2083b1ff1cd8e5aee5138d8690c7bad6615a1ddd208e8cbd0, 0x195f0632f883284b359afd16fbb119c6cf574b922c89409137594dc169c2f9dbb2de6f93d8c97f6ed5f1bb9124f41f97⟩),
  (false, ⟨0xebcb2c55661cfeffb3d84fd7e21fc9ffaeafa0c2c9df44cbc5bf49c21f48e5577863ede7d3ec28344cc0766da39cd68, 0x12c6370ecdbca86f13ce32df985647091dfe4ed27a9a756b678e70e9ca63479ca481074d0ead2dc3b0cc087d099b8727⟩),
  (true, ⟨0x14cc81e93def4602e1162d46d2169ec5bdd7034671dae17c048ee83a3a03b82ad69521cbb5e8ac76311f3c7f7bc1ff76, 0x9bedb04fafc4cfbaf0cd96073bfb1cac9877096e51d8964383587a7ab08329eaeb72ffab2809495372a5746920b107b⟩),
  (false, ⟨0x6596b18e1072fa7d8402b5719f98a01cdd830e632a54cb7fc11c5b027772924d6dae6130e4b74b61fef5776331325a8, 0xa9260bb9602d861650086a40b70ae3f1023df2b88e73b147f23220db60f6cad76bac101c47b674124d5068c8196dd0a⟩),
  (true, ⟨0xef0c15da54181a1b3fd9823b7ba8f33254697f4177ad93e960078839494651b3601a4cb875ecdde2bd64aff1af7cf3b, 0x169e34162d7d8454d98c8295dfb19e660a936ac6bac54402176677f5c92a9569d3635e2a916c7dcd2cb02f15916961b7⟩),
  (false, ⟨0xe4ca139e660271f274ae43df0c6495951e79844f787ae397527a8be161dea4c46524346e44cc0baea854e7fee3d2409, 0xfb75bb20d37254e205ba9ef83e068da526ed3df1a2ff73c109e0a34c385673a7e30d1d9db9b3d0675219e5a92e4a69e⟩),
  (false, ⟨0x3fa48556adf776d75810c247a1c8fefd75fd835fbf2226ad2122e90b66761ca65442d9b6ea85048652dce121df2ca3f, 0xf8dabb978b33005af83dd5f3f43d2a1c4f889d666ecd6a596f50f392f4e0ef4aef9bc8131a2bdd3ec2388cd500bae41⟩),
  (true, ⟨0xc2dfdd0d6e467acb45d4f91a3c2861c13a86c9d02a878281f55ae3078b387fb259823a8853f0d5cdd22bb3b2cdd95d5, 0x172adca3c88e30548b959ed509b46c481716c73a545bb601cbaaffdee98e971ced2ac389805e2ae644273c01dfac91dd⟩),
  (false, ⟨0x6415a2a63ef35a2ebbee75f568b834b4d53567406ab62a5ee9e654f968ba72591c4cb99e92a7ddbd9ad80fa3a9d1bac, 0xe3754c73438ce8d6c76052350f0d05080c1e295fbd94a5b09e6c957017056977cde8929412a6a3216f570387a533c42⟩),
  (false, ⟨0xb5955032619dc95ec89c2b8d23fa9e3d51a18372c91ae71aab6f068ae5f5ef7f994b0ddcfc1d9b7f247b30fd576fe01, 0x11b111f68f3a70673be89b3c9aed2a3c9f7c987f437c27dc57582ea066dbe59f29f85c69509033b65a4583f146ec7f35⟩),
  (true, ⟨0xc78943bf862fd286f05924a8313824fb6b65fbc73cc7a705152f202892dede9cd5a551a304b2c3ec10f431b66f15a9f, 0x1080e87bf40e5e5e258f286b69b20b76c50f72e1e6f810e5e10b99646fab364b74cb555551dee3b8392f70d05a96ef9⟩),
  (false, ⟨0xf9cd2d0e0299b0c8f2b8e0884f10a9d66d18b1afdca510ae6b7d05285c45ee1cdc2295baee6acbd20245327bfa941e, 0x7fe6e7d003f41f22486834fe4a998a3b4429b382f80e43f51227d689087d57eb16a8585f027bd8871893d082c4ad63a⟩),
  (false, ⟨0x9eedde9844dd01e4b6438de757663c13d80c9801e7da15fcb41eff68037688b104cf125f8e85dd271373447608313dc, 0x557b4a0be534f51e2a69dedccef1e598c6f75cd105fd9dbfd42cd86914f6ad58a2e949b653f604feee67c1b12f64ab2⟩),
  (false, ⟨0xef70afcb09f72004edf32131fc1f35815dcc9af4b7af6fb072d417ca2ab7ee281e733c4347d919be770ecf2441c830b, 0x637e208dba890201db779df9164c5b63857327eb5c5be8310cb2638b447a00616c1f228993a357951991c6d8cbd850e⟩),
  (true, ⟨0x562cc25d024f764cc298f3ae75c334184a00ac744fa051174c191ad8e3ae018d3bc60305441ebd0b8420c8798352586, 0x135eab305a4a14b5e2c1ae68f07a5b1288f634d32a57db403a9d4d20412cbd5c089f33f6ccecf2ea68589f2cb805a18c⟩),
  (false, ⟨0xcb1a8bd7191e4a57b3f6d5af7581219a8ac01c33ac7d5f991b044eace7cbd3628cb3c3f188ea80a1429a3b9fa4433fc, 0x15dc86ba618c6e496b01efa9d4b145c78ad2a630f098a02f2d2224f46a1c264254f74b87625d11b972ebb274398c3323⟩),
  (false, ⟨0x11a481ce552f880fb257c965febf82f9faeef33f8af52f9538a6e949291ae6a70340e6f26a09d63e3f25e4276b70afb0, 0x1872f0b7b52bca5f7f728d3f4ff6bfab586d30ba9cef12bf79f48785fdfe66b8ec79474b5296b3819a0921c2aacdf672⟩),
  (false, ⟨0x3a2ca8167ecc237483f6f9e79e434f845dd36eefb6d4364683c160c67bd1ef524aefd26ddd66f18eabff698c21d4107, 0x1602ad10335a0c3ad5b9a27097b30fe9ef08e0f7637b394ee4fc67d51455d33d2e89a3b4be2ac35616533d19856e667e⟩),
  (true, ⟨0x1188767034f947e97e07c3cd14eadf0dcca223e4fd49520c8c51a602cb9b30b842a2584b667ff7735936ccc605754512, 0x6ed59ab17b139e7355e7139648466fb61e93ad016e991a0fd9414145837f37b5e267e3d02c2b5ae1bea12edba54451b⟩),
  (false, ⟨0x1108f7c6793277a0a48f5af9a86bbddaec7bd1bea19e662d93e490918168fe26fddafee9faf048adfa9441c7576c9523, 0x168bf7159067eb3069c4d2face74be36eae1e1655475678ce81a0eacda1c2c4d9ee364e3e7a10c31a81a7ac374e4e8fb⟩),
  (true, ⟨0x163c845e339c9960628368dab41fa9a6d18ea2cf12c89c497906be1255372de79be3c4ee50315af0a12260b26a0d4bd8, 0x93768ade3b2180e4cc1f32da96ad8347b6be915e3c7f8ccc2ad614d8bc7590378ac319f55196d5b79cf71a13e37b268⟩),
  (false, ⟨0xb8a46cc9e99e4dcd73ac6bc26b7ceaca99ec832507d252e420c37b89ece1732eaf8d0e5f9134a222b8c7885e59cf264, 0x11390627b8b7aa010a99c9f4e4f199d347a13543ef3171029f6a02bb708b6d30ac25f6609afc2ffae6bb4f44759f214c⟩),
  (false, ⟨0x9eb6d69f694ecaba4b5da93d725ce1751e6d1c76f79b2ac09e46422d68549b3d8240a683d704693404dbfcf705689be, 0x651ba761d72d5a12e3a60cd3964e2fb8a9baa95e8ee7c0285001104a7d8446ef7280d9dd8d0fb67d67e55a35fdaef6f⟩),
  (true, ⟨0xfe821a1e8e83c35521a78606bb3b8bfa19b1a5200646a5fc1209eb798d32aec504b721e4df443f5d9682f6e5c172d04, 0x1b6ad0d6c05b9353453c2bd0927312bae511858b17264708cc53df5788a2f560d901fc8ce3d6b41bb25b798c58a491e⟩),
  (false, ⟨0x15a6c9fdfc8c2d131799c37390aba612b340653df2661bc29cfc89fe2dd9f3fb5e847af97cda6e3e441d976cebb396eb, 0x9306847d4b8536e5748fb58024a29034466739bc05fe4551e5cca0fd4a46216d4b060eb4c87cd365116af604a124a02⟩),
  (false, ⟨0x3e5783b54d6c7c0b655e59cc52faf40ebb87abec345a87636d7ef460a07861805d01609105d24f012a6ad7d48c26390, 0xba45fd4911ee6017190d8110ac31bafb726f98ea5fd245bd3084886303dd4f6174983a719f0a99a1678afae0bed1046⟩),
  (true, ⟨0x14336f7d96fae24447f8d586776ee81610bbc40f87da02d9330f97386898851dbaaab22777093b6e8a4b69eb314df523, 0x100dd2bbdedfea25b6bdc03341d1e5da24425bfe90581e5c99267c88ceb297b30b03c14f167782c53cc54284b8baeadc⟩),
  (false, ⟨0x33021a00bc5eb0b4b26f99914dd08e34ad79b687ff7b17f08f81390cc3c6753d0b9af247a1029834afdccc01b4ccf93, 0xe2faad8923f1ca35958b0ae98f77bd4b463d0b5841692b4d862cac3c8da6329de3de6e135898db8261ca54308eff759⟩),
  (true, ⟨0x17f97758fc2fec63bab8d0598447739d72f5cc383afe29929ff0800898b8d31310f084a2ec75acf19b39d5a6553549d3, 0x6c02b9083eb793926a6f32481c844b8faa6362bd23b866f0d4f8170b725c9c0115f3905800106ea3281954e465b5a6d⟩),
  (false, ⟨0xcb3859c459b2b10962aee1168d4f1063442216989bbe5de969f9d818900720888af8bd4f7ce696e313748c87c8b5d39, 0xd58653b0996897d01a0dac9700bef8fed724ab230aa03725af734986cbede455c6840fc0b0ceaebea8afe903ae1decb⟩),
  (false, ⟨0x15d81381c409b15ef0e1931413b6856291f441db9776b4223100335de5b3a72c595246e933a472c611ede606ee081fc9, 0x18dbe0bb2b32ef01ee126a33ccd6306ca5eb9f20ab57d23a7dfc2522e439c546c1565c342598c47c8c9903397e17c3f0⟩),
  (true, ⟨0x6004d449403c0fa1ad984ba8017d06c67def6d57df8c7bab758fee1ddee33a28855f4f58fccbd881bcdae867605f2f3, 0x71a41c3f05c3fc81cbd799f8c6203f93ab5bd81347b6cbb775955409dd25bd8ed63d49f44db4adad59a5a4860fdb9e1⟩),
  (false, ⟨0x5311ce628f0485f7ad1f867a8d14883a6d0a130936c63a0916b91ccabcbb517e45bf4bc2ce71d5003a111627863ca01, 0xad89d7863e42b5863b5083543c586e3d2dec07ea91fcc5e24dfa4af1b022c70c23876989763615680e6c4c9f3757c2e⟩),
  (false, ⟨0x15238995d66556f2f3c501e1f2210ba7af6a77dc4d2c0f3a9df899c324eeea6f84d735f97d787b93536f58eedca0db15, 0x14d810201dc9cd08e85f5a6b14f6d0c4500514dc35dcd47372411d365cc9172c1116966c5a72b1c3ab6158036ce9e00d⟩),
  (true, ⟨0x3870a29ab6f9492e853a2ad4346416033336bcf4cfb02e88bcdc72e65a9d4fb128dade2b76b1dd4037b3d149598b7dc, 0xde0ee8e9bdcfbc59024f8dc8b2cdb3a7705b778a0035e7be3c0758167675432d2ca1ba81031d43be19d9f9686777a2c⟩),
  (false, ⟨0x1887ddbeeb532e58a265047005b751c20e665268ccf6712540066749f850e40b94118a42ec1a4a78247e874a4bcd74f9, 0x192dff5d4dba34dfb10c59b4dfeade17add8a299a914a9ee3ec1c60440265e92bbeb396713da0b07f50c32e07a6cb44⟩),
  (false, ⟨0x3ca9fbfa2d9ed1f15f93dc3e81c2ae7fae350c54565097dbe129f3d54fd6624326cc061f2007cb9078a2c81eda5f68, 0x196a082d67695c05116e3771958b09f9886fe642138b9baac86d0ac7aa802744ad6edabb9af5a30ee564c5bac69c7ef⟩),
  (true, ⟨0x692350bac7169640884c40e05110ec085451f23bec97e8b3889ecce0c19d2cf69625e2a2d5e7606214c1daff6574f88, 0x14ef304dbd48f2207f047e596debb680eac4cad807762d6fe998c3a21e400249ea6046ec002ac3a53c54713e2b2a0bed⟩),
  (false, ⟨0xfe8b1bbdbd973c156354301dde261cd45ad7a359ca1c8ccea554265beeb06c83d95b96aaa0765c86d810a4c30bbf6f0, 0x1716bca644188ce2fda98e13087cf5b8f3d2588f18ec98f006be66c3a007f1e993bf14937ff4023e04af0ae5d0484808⟩),
  (true, ⟨0x16e036d1363871654754ee59c7ad274ac89c2339ace0329961d6a25ca48f014003a4801c0b22bf47c6db59bafcbd5fc8, 0x10ac59e801efd7ac28c3dd339f2ceebf57f1186ff5c896c116befd7234f7b9ff668e3262574dc5da401e79adb6d7386b⟩),
  (false, ⟨0x14a0bd68390750a491ff2b222879a40b567fd12f2bf64d8115eab0bd3281ddb2a0de21ed209e314715097c2a42052655, 0xf68d7d01ef7c2a59e5e613125e8e97cceb60ac82673bc9b6d9afdc6fd15f57959a2a8cdcc38a6b02c6fc86985cfc662⟩),
  (true, ⟨0x476ee476ee2bf388551280715939e882810047b80a5bba039065cca735bb15600903faa4bd8e49f1c9893cdf068e18c, 0xd47370abf875ce6a3bcfdeddba6d9a6ccfc45cfab3f0845e615e433743ee6ae1510dd6d10fbde253c7d7d5a0b0295bd⟩),
  (false, ⟨0x8bf7ae274932e7190bfd88ebe1c29361a2bbac0f3c7b963a141de429d2e7f0912374507756f31af4e84ea9343e2f178, 0xa0f05bad24b164d2ad70f1f930b10d3b12b98b8ee88ba6b07702a41e0e4c56dddd6b0b36457a5b3f2e1bc2437589551⟩),
  (false, ⟨0xf90dbe8e2791940416b6bca47b7c6524554ad72e5a40214c35a6e1c2d892ab23954125134924f8fd2287f9d3ee56a80, 0x137f3130a0e7578285fe387c175a240bc9e371fcd4a66ed44ee7cab8bfdbec9a28940a67b171b1ff07ffffe4652eb9e6⟩),
  (false, ⟨0x32b6625aa4d267afb289320f9a8d7863ff7aa94c689205f1f1806499c0f6c1452fd19941b38a8a0ed8bd3247034814, 0x31cb217d4cb58238bb1ece644374e62b55d39b61f86f2673bf0b8a8ccd8a38fe40ce9d010bd334bd6360099973eec27⟩),
  (false, ⟨0x15764567a3c5c64f3be748f2e7ca5a1f289223e6b91011a5c45b9eb2a69863228d5ce5fbee877d55ffdb26099d8ec7d9, 0x671ee5a8f317bbd3927939c04a0c954de5cad7b445a768f89dc5aba35324f6e29b16f5cf6ef70ed35e0e41ee55afb5f⟩),
  (false, ⟨0x3530ff01b80a2533c0ab52bb2b3c6a5bb095513151f45d455e525d71e454507b9ffc81310f5801b373046c3cd401a79, 0x5eb46fd5b869f546c446d818ef812c90fcee79556be91832d49c00c203e61e2783b98bd59f937bb50baca35c361a38f⟩),
  (false, ⟨0x16ec8e839f0a07a8da6394398cfa7f96af6e53ca6aab39bc8057ae1b378978d487e09d3ad4e4d9efa4257adfbfd59fa6, 0x18b5d06e5b9d0276e670373fd52ed1feed7e34e172e02628b3655f00d6daf7ce428cecc3941c8d71efceea6dd08dddd9⟩),
  (false, ⟨0xf07b272a7b7d8a69392251cc0ace3bcec04507d24eec7abaf324508732787b1a76d7adf86b6f865f66198c7ba5a991f, 0x12eefe7224603545df1f3e3f8466b5073f589ccf4eb2b9fb1e03bbcba693261413cc9fac5d6244e5f1e4f572cb0f7869⟩),
  (true, ⟨0x115c8c142febf04494610753c33d8ae37992280579acfbba7529f6fda44550c36cbae8eb9dee2c05da0159b038ee969c, 0xe0896eb179c1be355b3be514346b66c9c29e07cd7685b02b9cc1532f7455ea0aaeeff5cb67be42f328900cfa3663c77⟩),
  (false, ⟨0x911f3b777d2ffc02d2645575ee0c7edd412b0b8dfb2a66f16e30d2292280da326e0ad20c47400b8824b4d4851951150, 0x157a8579897accc52bb07c4c7f66ea7947b198b0d5e881161787e321c5d5e8109114d81d26fd77ebd9174e152befb020⟩),
  (false, ⟨0x8d6bee312475f600328bfda8ff2c33ba0bf453bc0883b473daf5408f3d6aaf3d1281a9ee3c282ff4270b076f9ce38cd, 0x5177e6541c30db6ba733da05bc76427850044d7383ef4fce534ff25788c5f01f3ff79653fb8eaed2f588c1b49a177e7⟩),
  (false, ⟨0x265e7499ee49b3eb872d0300abcb11c8159583858cfab9e2ce6a008d3b5ffc2e1815cf2495f79ea9fb21e56f352fa4a, 0x58878f81ae825e7625ece7718872c8008584cccac21fc92e8629f5bcc2cada4202d828051575b1b5bac4152e418b851⟩),
  (true, ⟨0x1183a9bfd29bf78fa67018eafcc7ac87d8de17183dda29f6d8d961a2ead0d88d38fd6f703e6649020638c5a15fed2cc3, 0x6f01f2762524abb73d451943fa5e15d3501c9ef4de8c39e4428c5b5162967dddb5be8e7732098664da92b90c956ae10⟩),
  (false, ⟨0xf9687964388eba8cb052f22107f386f3699353c53dc249fb911001594733ebd3f9db818664b3589e4210e8159beda6d, 0x29f0050a12ce63c181c4820414ddf9f65c2082e0443d73bcaf72dc4b79c9fd52bfaad63586f2dd5ce0bb726189ba5fa⟩),
  (false, ⟨0xc627289a673f1cf0484a138df3184b205770bb13b1dfca9c154246adf729009345d9acf0d271396244b9eacc120f0a3, 0x16c8235ac837cc20e32cf0adba05f191e466e47e7c2fb203eb028a2f4f422e9ddc1dfcb165a190a995893bb2ddb30177⟩),
  (false, ⟨0x12c96411f451ee3057a534115135fffa2d61e81774d546e477e0cc37e2657068e459e882665142d5e8132ee93a370eb, 0x1abcf2259e5cbac27271e6dbb0fb8f0a9c2b75d926139e163ef2487cfe87d729c4039a0e63f5df3f9fa826feccf829⟩),
  (true, ⟨0xb846d71f85d1f811f9e7f88a6f7797b63e2c2af210ec98b041624453e23de761912000d8d3deb868ff0a8dd4b5850e9, 0x4ad4626378b9f4dd819d8a8fa0a8d4e3d7eacaf07abc4825b01bc5fb8bf5dcd4fed4a8551285a901fc4ad544728ae07⟩),
  (false, ⟨0x12f75ae2e067c18e19522628edf600e2bea5614420e5e3c7702ccb0297a0ed1ef8345cb7b100f3ad650c5f8d079632fd, 0x734f2322f35d9e27ff9ed961b29a1fcd0368e9482127ea4b1efdbc9dca74efe5b23ea17dc487507677a12b1b777569d⟩),
  (false, ⟨0x8c75d3dfc22f44b765521a6d91dea65f9065384507bcbf3ecc92b5842ba8cae9d880eaf81b53de94f11d166ae4be685, 0xac515ea9369405d4449f2b257ccdc11f637620719a869b23a6d629959aa4de8d8a5cee90bee5e7f5ba184b1a8f9bed9⟩),
  (false, ⟨0x59423190cd3995996a7df401a4e750ed09ac0ae84d24289def00ae58f25bbc4c39a85b8ea00fa7ed4401ec7c17d6429, 0xf3983ba24ba1fac4480632b6a6e82e2c9a4ef4a3b4f5dde28178ab056e868eb5f594a69af69b54bd808a2c73eaca4a⟩),
  (false, ⟨0x14ef3fbea06848dce5aff136167225d1c917d5363712093efe6e703c0abeba3b2c8c0186089bbe000e8e230ce6e5339d, 0xb6958bb5c5bc36642d5ed82acb041d9f530431153418cdf249af485f4d8f41a3f1519fdf80dc66da565fee2b4681d25⟩),
  (false, ⟨0x9805da3881294a6b2aa8e9d674eba021f78f050e8ef5a75043002443e9705dbaa5da5982b21ecd7eae69d513317780f, 0x1491e88c73b8257670ca2894afda9f67e19d39ba1bc2218fc0ea96b28a12d321b8ffdf912f0054235381d75744550651⟩),
  (true, ⟨0x136bcc821018e5486b7702d7f78672d04edae718a60ee38f0f7fcd10a6764fad187d148615f647062e09b7da6229c79b, 0x91eab998cecdf826a4145c5886b2d4180f5a898815d11e697e6ffdec712c066bebe80bd513c63bc3646006ad6c660f1⟩),
  (false, ⟨0x186142fd0a6081f72e7f36e65c77585d2c71fc72346736eb34ec946aa2168860d4715a9173321bb781ab7d625759e54d, 0x5e2c1c914c3c49cc91cc21b751d44ec438559a6aa960faa6493808100910eba8a8ae64fa2ab488bfa36623889ea620f⟩),
  (true, ⟨0x18b78913fff1d74d2d0d05fb518b4327e83bdb3069ff133d1f410d2b91ec279c5297df094f1a2b26a9113911748de650, 0x6ba01a7fa44a3e6a82fdce4921f710cf8b0e882d878aa5abce4576d20d2242b7d64160e125bc96f6534f177ac9b342b⟩),
  (false, ⟨0x3097b7a1a9933f1d31a7ca65955c90c588c29ce35e91478440f87d4670a26d2861c1ee4cb3aa7638600081e4aa82fc2, 0x196d8abd0128b5c5c7ac95bcedf32a2d15cf81c1f7005e7c576531d4968619c198a3cb1ddb9675a25930cbd1c6dc24fc⟩),
  (false, ⟨0x22c1bd2ebfc3cdcf1d10f345a92a1b6648dd3352d2fc925fa5732fb5fa059ae6a0efa8931b43234864f38fe26b94e1c, 0x11881ea195167c7b6b338ac9b60b12d585db9034c77af8ce7ee259638be41020e0684d91d724ae3af7894f2a167f4f30⟩),
  (false, ⟨0x42f0fcdd0b715520e65e6e70cb180db147d65d97f4bb9a11e06ba874f88504b21884ea96af69e5e1637ad426a55140d, 0xf0f8d8252250057016a26a309f1a9768a6b32ad69503527b7ffa9be9a12f35f60e2049935cb66c1d917e7036f392c9e⟩),
  (false, ⟨0x2161da38f1507c3eb1d4ef40823b414f612582ac02aeb819a8c0018593685a62e5c742a78af7b57e3f135e85da0f74c, 0x45f8c3c4ecc4c93ffaf213df261b9d0a48ef9b819a015e0807f363b0f333936db495966663407dec6e02f31b624b1f5⟩),
  (true, ⟨0x13b52b21a4e7da33c53b7a6698b3a0ef2b9ecc125cbe1b06321b37363bb859e30e1871bf23a665b7358271cbf2502e96, 0x7db060219b8615135ccfb98c80b872ebb3d8510c13ae5543ec3021c38df2d724adc3637f28f246c7b6a0e45592447a4⟩),
  (false, ⟨0x1786e3e61e2642cf15710b7710ebfe8701bc0780cf41a9b1f5fbffe76dc32f11c559df0c58306bb12553e492b00cee34, 0xca31979a1c218db6322375c59491d878389be325a650c83202f3181a5ec3b8f32da2218a2192faa5785439921c577e⟩),
  (false, ⟨0x1257686017a6f355555044aaa925b43a46b894a307ac4e1340f2a53b11f334b2ae7110912ac885f3b1f1415ddd80ba3, 0x118ca2516cbb812d21d0d46ad939b470e5359f257e5e52624a39761fe3fe3f081e38ededca022439968753a5795be0b5⟩),
  (true, ⟨0xd8cd000985f3f3470e5ccd67112eba8a0a1321038e647550968727ca8e7b58ff3a7c7411ecb0ee34df19d8af21ee26e, 0x83ec967e0767f3f0b9d490a09b153ce54605a422996795972ccbe2ce397346a64d70e5f1fc49377be184174c0d68bdc⟩),
  (false, ⟨0x7f63356ffbf3f794a260300320449d24c48e85507703a9f6d69e953305702f09e252cf0d50f346d9cf42a2cbd17f596, 0xc0154a2021e388a3673d683c8bc0703f6761b90eeeb3c15520b0d47263b4b667dcb628ce5b074deefb0f49afd57578b⟩),
  (true, ⟨0x3895fcf69ff59fe82793c849dca8db5c5e61af3b21786d55107485ca3cb6606c039917acee8bfa3e53e097d137fdf6f, 0xa514754be26370f28306110cae5fcfec547ec28beb7d7f87fd1d488f85e57ce9ba3a30eeedfb7f62c285a19d7d81446⟩),
  (false, ⟨0x26ca99fcaff8e7177bbea7dc9530ee34e275a869d254b9a4cad86c027864d0c34fe025df5c7063ee0ae1f6ac56ff257, 0xf95a7c6c7838c80646b086ba3a3dbcc61798368dfce2b93f390f121640909418c54d90d784287c8058f900626ea0ab9⟩),
  (false, ⟨0x71bf7728c6877d1b8b41e095a3b88726d51d9b1dba3a82eb00f4ca2c273267d30e48301ae135c12ed36374c7b3aac6f, 0xc474582a27c52724a424389eb0dd39cee4d8d07e914be54c5969170e7762f47910318a84301556c73cf458096e5330a⟩),
  (true, ⟨0x1925a3bf5460556eb1549cc66ceedbf8059bc758d9d79cab2c9ee698b6895c77c0c3b04334932db34733fafbd57d120b, 0x1468b226682d085856a860fc7d08776f5f7eb9bea89c82856187f23f7e10f91e9a72f75309bbdc3d666e1aad0f649d9b⟩),
  (false, ⟨0xea96d76d7cdd5ec4ccad45b7689677d0018cf63345871035b14a52d9ca752b4ee41c5ce6264ee38317c50d27d5ec310, 0x6c1bb425482b0efea5d6b56744099815a9891478d4e127c0f37e2cd9c4b6d1645d36594206ae86d0a527113afb05b8a⟩),
  (false, ⟨0x19d6d4973d8807f617fc20b1d8e8dcbde10f5f636fc88cce15281fe4248f7b339156466d074728ff96589f36c913adfc, 0x1e0305d493a062a42d48fa06e6af3cfe02bfc2e788d6b73364021d6cfd54026c6ea16ff4bfb536b7142b901bd5ad235⟩),
  (true, ⟨0x48afb98fa031531e5e9cd1a8b8dee2ccea294c36b332fa87e3bbd672c4183779477d34a8ecda34502e9f4bfe5c84986, 0x424ad9db913392d7b3e014078c76c4bf05c7b9becd382ab3e30cbc259e47c358ee1d4f2455e48358b5b36dac8574462⟩),
  (false, ⟨0x115d97a624ca7a2e1ac89485c9b4c2c88b66d9752876a52ce29d20c444abe2f6795306a7a1a86c9a9baf30364672ecc1, 0x1085efcdbef5f01dfef6304ec15ae159b453292a8790538903529aa859e5ea5f523abb4f0ed97f8e16b76d84ede77a5d⟩),
  (true, ⟨0xfdd8d75bab92f983369cd5e82c794982e1b65ed93762d6017891868f85e80c3281a5ef7308b3afe71d87d8c053242b4, 0x1c1f21b8f62181c6fe4e14fe38256ac735800ccf3c2b13d19b6f4d0fcd073f4196e9e45681ff8dbee989ca1c1214e5d⟩),
  (false, ⟨0x61f18be6a0551466a9267dc4d338f88c696f6398adae3609a79cca85d7a9ef62b73eb8a1cad4079408707dae93d6450, 0x12560b94581a332cae62c79f3bed1dad95117eacc7a59127b6975a4fa7e6b0a8fff3072417d2d0d2294a9b620ab27d4e⟩),
  (true, ⟨0x19152e7481c2354f82a702d4723e2b8c2110376e3d80277b7394c397981e4e5705ac898b34a1c1616a880562fe46dfee, 0x12defcb3b5b0ac468cf1faaf656fab18a49f8a754903562e42c869fd91138c9dffe66d8a889dfba5581f58f7a9f769e5⟩),
  (false, ⟨0x3246ece4835f37f053fd919ccac1fa2457348f2afb0f48a10c9bc5eae576e16e05ffe6e2b96f7fd9511a7e6c1b4c086, 0x4c4013b2419e8ea804052c00ba75cb57995b8d3fca29758959b2127cf524f7345ace3f2ae214f5c4f2923d807ea7913⟩),
  (true, ⟨0x2ae08221f0de7d27ab7ad249f569113175602d283153be952299e781e278cb57a830bf982ef9d4ae1238b618d2a5e32, 0xcb95f34d3937a423e4d67fe774d53c7218141901217110a9fa711c87e6c7edb13da66f0f75fa0ca7ab121c5ae420a5e⟩),
  (false, ⟨0xbc40ef814c28a5d5b5e484ed455f5ad04678118d46cd00783191e090b58e235b8ed90b20ee41163fd3e9fa6127d17fe, 0x12d41c947abfef28c09f207ef0d9027659e92edb37551ee894da1e15997913d1823b66b6bb8e970a0e974ca38711380⟩),
  (true, ⟨0x87d73a6b523c4b2143c3a2d25f02ab550f1db6039182df9e2ab1565ed73502cfcf191dee32904f4886effe0e0cfdbc1, 0xfcc8eb341035ec5840a1ad8eed764c9e0e60d16b8d40cc0cd43d5c9802f7466df065e6a91cac018af1bea7c0895cc4c⟩),
  (false, ⟨0xb53e5bbdcb91cb9275fec29f726f802e2242d57f24c4bb6ad28e4b6b74eded2758d4c54f55fe267d9aae6511a400ae3, 0x17b4d564d22aa62e05b43e667a466e460a108c83b11db87af19c0f658bff5c6184e4ec76f4a942cd37c3552e66a97a0f⟩),
  (true, ⟨0xa31b843de6f616bcb63db50c88dbec8e5635de0bf3ad6cc19281ab904fbe6136194ad84d571de7ef8050b198593014d, 0x1650bb7fa54cf9ec57655378ddc0fd0471ad656d889088b34b2721b2708e9b1148afa9b206861dd64d4b4747866feea7⟩),
  (false, ⟨0x1ee8756c4df836c50e313cdebb0e59e4dcf918bdc9faa605a94a14e8a1f0f8a1578e3da14019084f13dbfd1145701df, 0x165dd35b2506434b8c64f5c80867bc596e4d696b022ba6e72fe5ca2d7cf059869a9ff10f1decd6605c638753af0aa75a⟩),
  (false, ⟨0x14b9edc8ea1f1220256b63e55591407854dae44922c0240205cd940f92fbe8316917fad8cd525a953dbc1abceb4b27, 0x7ec5c122bd420d26c675d811b62547a5647d65ed4390e66c357281889ea1cbaedc497e0ff479a30b0952fef69df9b8f⟩),
  (false, ⟨0x129461a91464ca3fb2e4010a072ddec6158a603579a8cef11b50376eb9f76468beaa5a73c97b18988777c61ee4a8716d, 0x160ea55aad5db04093dd6338a966854ca73a50bf04859edec6a0a4e6609496a90f98cf03eaeb7f5dccac5552d49275b⟩),
  (true, ⟨0xe86c4981ce74176c114e9f65bd00a84c677312671d0b03f8f26b0be6123d80c0461a55d37c2b5e08f15bc89fd25c6f7, 0x167095674d89eac40ffd5467158cd89b803f26743ca80c89409b4bd8037126c049df6558f74e53264a1506184596fd65⟩),
  (false, ⟨0x11bfaf285a73499367b1ab4e1a2d41d7360e593f5764ea9350f6d544cdc8fb40127798d13284fc8e7458e405ffe9dfaa, 0xf1be046dd402201ce36c73aac8bf56b3c6405a1f4ee2de3916b6790167fe36cd6d4752e4d87f632346aada4e81f18aa⟩),
  (false, ⟨0x8df5eeb51ceb481ef9aba88f9862036f40677af7d58dfd2fba758bbb79d10c4de51edbdb3125270aac9dcb10c4c3f83, 0x6516f1bc0c247fc92104cd413e70976545e5eb4cc7e4fa2c2ce61c60ca2282cdf93b70d0db4dc5a76ca4dd33a8270cc⟩),
  (true, ⟨0x8432dca7ad76daee7a45204585c97b46c44ddd9104f35c947cf10881c711d2970700dc77fd446cb019918f11289b91, 0x2339dd59ee50706aac99548a74b854a3d01f6392b197218e5c16d2e1eadeac3988c78dca5f1ca6d47b32c64a3d6a6b4⟩),
  (false, ⟨0x7e6cd4db30e83afcdbea88fb536333af159b7e934337d811b7f29a0b5ed8b651d2b40f1df576a2c6728e18b949a118f, 0xb41c4e30d7e5b4bea94870553e2d46ed878fae00efb503d52f18810387fbf2510464c11cbdc16e2ee655975f611bcd6⟩),
  (false, ⟨0x174091ef3f9dc32dd0a24ec338cf5d83afd2b302774661fce6491e1f0ea7b71c689af569ec6de4a1efafda1e92c2f99c, 0x18e1528110f498def72286c1c6ad1a78d38042fe7dfdfa8122bfe28ea4b4d19a88e98791330b941f7528cee7f928a37b⟩),
  (false, ⟨0xe6a968996a4fb4e1667955d09a2f3a84f3a8815f17e892c13c92a7fa1812af357567f636097b84f1e431bb0bca587dc, 0x12961977f4bdafb40c3b9a2f2024b68bf5f0eb1c1f37ac294024d3206cea1d45fe8ec57e013f7c9233990dd57d1e730e⟩),
  (false, ⟨0xc584d9733ad150f214de110d7e039295cbc465299bede52796b97634e183f42fe39065d933d277cc12b56eebaacd452, 0x17ccae379611dc7b45bbb81718161d350588b3b476adf20edc9942ee7489fd1ac11935f4e8a9c9fbe6ac7b17f09fae6⟩),
  (false, ⟨0x49fe12c0ddb649ac9d20b6f909b4ec2bdd4b5f65cc36780dd32fa92c6dda57ed50e5794437347e249f2ce6f712bebbf, 0xdfeb32b8dd6e51b55d4b21d0b09d8e0ea843c7d911720f5155c1ea3ba6ad4a47af89b6bdc9aae12e6cf98b8270703a1⟩),
  (true, ⟨0x1397a97cc25b091aa143e14487cdff85fed077312da68d6c34e773c7bfd4650ee1b2372b32b87d2b9ad10c67f6980b7, 0x138c91e9d5dcde8d93d703bf49c163cf055f60d3715e42022c2f3ff2aad7d89053810507167532000050d1ae21a82d16⟩),
  (false, ⟨0x14fa29dce3a3b491f9c90734295317e59e3908b96a7491d615521a87b6e0dc1bc96c5cfba8963b99922125fdaae0c6a0, 0x16a517117d043401358e29c8146d4d90a4beeade0afc08657d93989a400aacfb63f02fd30b5eb8127f8b7f256bad07a6⟩),
  (true, ⟨0x18ee7318686999185fc7fab87e1506b4ba41d70b07fbfe9694d936656b66b787d5824c4f4977cd331ed50f72b636fb8c, 0xe37c6330b26187c2cebae3bab0b84fc86b9c7fd5324cf08c5a6e038071d8341ad254c3a7a9ab5dc7261149c17b93de3⟩),
  (false, ⟨0x33a1d744b872ff920a77ec095fcb65dedd3d9b1f4bb114ebd04ba056e31c8b5f925ac3f75a505eb3483c62e99edf7e, 0x16acb3ed794d06718a47a0f69a0618df19bc8a53d588ea18439127ef9fe4f18fe0133dadcdf93eb4522b7766e2c64c9e⟩),
  (true, ⟨0x309cd244f86df46b0fa0674725fe0e71b576c24f81d3b44dee11cdfdb1fb285e33bad9fcac7552269792a384d6671a2, 0xa56ba07b6340db4c25e3f9e5c059a8942aaa1b8a58be39ea221ecad0192424b5996f9dbb2aa2f2f40ea035a596dd00c⟩),
  (false, ⟨0x11d784718cf346c123973f3a6a7fa816b6a3b4719a4f860400be79f9bd1e3e0b16ae7a67fc73c17427c43f40e22bbffa, 0x131da5197e88201e1150fb7690fdf5ac7e02b2119447b2b70394a82b3b2ed1c5631215258042d63ee4275e3b9606bb89⟩),
  (true, ⟨0x4ab032111badfdceb874dc83b2c870d4f273dcfac6319d4b322986b651fa79e06cad7ae457fa7752bdc8a453a2272b0, 0x3cde7050f361f1909611e81badd7468de9f720d897133d374310ebf076843845b2207b8c64915945fc04fc6fabe8e42⟩),
  (false, ⟨0x107c3e39577e1fa64b4af29ea79570aa724232855c21f5c9fb8e85e682f30ea9db446e281964ee89c0d55c67a836c617, 0x696cc70e63cf6e05debf6f7ea3989bf402ef959b1fa1c17c8f520fab28480b70984cb21b8df1987fe6a0291ea6728cf⟩),
  (false, ⟨0x90b1e1aac51d8176f0e967f3d381995f09e5e2e9702655047ff2ddf311cc0c3dc5c0c56d8af2b468dfeb1c09a07e92e, 0x14a2d465e60f686cd4bd9f087e49cf37107b8d1fc6d1021f420dfbb0c1951c07b797b5d51a630600b44d1b40b4d757df⟩),
  (true, ⟨0x18bef4e2eec8745d7f9fb420fd05b5aa6af690836ac54afe00721a8ab64165a79ea2d8754352eeba1597c2cb646064f1, 0x141a2f526db13a4a58e1e37e66513ebd62a579d51d8ccb9cfc3686051a0b7b82c22f627bd649b119991c4d5ab54cb5bb⟩),
  (false, ⟨0x96e9a94896b04e6416ae39d7ea7ca9126f712eead956eddbbeb3b7b4ab3b401eb68133f2c45278436d818f47a12402e, 0x136d24e63b38071ba4e3307d2c673cfc0d87277014d19d20826470e81835d907d5c73abb003f25a5e29552b3ee49d58f⟩),
  (true, ⟨0xa5ceb0bd15fb8bce1da9bccdc08f96e59bd27aea7ca8450203ca9145f41c1dcf2baff0bda98f2d7774bc4b275e030aa, 0x1299a3bd9b7c2eeac0b439b8f797ba2aaf5cccec33cd6a58eadf05f8bc163600626cf5f52e062f28821d812a9ceb4b0f⟩),
  (false, ⟨0x16d1f887fe13aac47e018a5f4714ca78eaa9ae67005681ac7473a1f58593e38b7614c45137c475453991375b280df639, 0x5bd0b7239e4a882e345585842792ae10cbac81055809bfb08841421d9ca2fc4fc846cc3005ee994a9459fd13333df94⟩),
  (true, ⟨0x1604edea63e87881ee95f189e95ad188ca4cac47ca1b31aee9c6d0a53d9f18222a9f33c99dee730869fb22ac78eb0a85, 0x73ae1cc9092eaf3b7fc3246b6d58c4cf014e73032b570fd1a8a4d2860e0a3e84b5267b31b3526a20b939ede22649a47⟩),
  (false, ⟨0xd8ca0c547429f0ea3401ac32cffccc18ae2eaf94ff48a7690a008a17cc33561ea9a37c4af0205cc902ae6eddaea4272, 0x2795853cd4bca18d8d77e818e24b2f55ae207088313119cf780d7de5717d18c7151035c207be0de48c6f9c461c89677⟩),
  (false, ⟨0x7b89fdf0603d336dde1f9d93ff17b40b71ad17035013b53279c72f0c689878081e3cdd4fca550b8a172df7d7b204dde, 0x1cd76f56150292362357c86b2d322314a6ddec6c7968506883bd75d0909748918b339a07512e17aa3639128d1f79217⟩),
  (true, ⟨0x43ab0c73727b97b41fe1ab8cf5fbfbd0f9bea7bf9dc113435d29622a575010da11d059172ccc019654b8ef8ec44848d, 0xffadd070a43a07ec8c90c199fdd868b05497f269fb70b0bfff245addd61d7c1d5d3b33bfa4b0f4b707ddcbf166969d2⟩),
  (false, ⟨0x182efa802713bd98e55ac27a55e0c478c85187dded91aef8dfcc86fe89e4349045ba8dd66a98402fde13ca963b4e4e82, 0x173b3cedbfc3704436e5d99fd0ebf2e3a55e2da4ecd8e3a1956dad78ad65d912681adca55ef30676183e112bb306dac3⟩),
  (false, ⟨0x16e2ecc6a0d0b13d296afd2f47bf562ce44770e1be4e3e85c8655f30b0870c096d7917ff1b68c6b79014cb7340cd0a4a, 0x84bd20d646deb62042f58a110477d1c824683f9fbb3c5d103f095fa66af40e2040df4b57b3d5982d6d22a4d07f26d31⟩),
  (true, ⟨0x21279734a0159b9b66197784926a2b9a1c87dcd7a29eb4890807bf5540056841b2d11a0cc8554b45f7ecfccf350c98, 0xa36a8f7b9c623ee42027e1cc80b5159413c45f526859043647d6bf47fb8ab06879fd2cac6c934791c45d3b93b47adfc⟩),
  (false, ⟨0x7f160329297f91d9d1cd05bcbafe40af940a3b7d4fd25ff670f06bdcade43221890b5d3bf70a72a3cc5cfbe3f5c6c58, 0x3a9ae53a56b10002c68791a60e66475826ddef730eabfc82e86fff89b1cbb1d7a381c29bca26a55e5e8e090eb5cb67e⟩),
  (true, ⟨0x1ac2e315b048ab05818670a2b3c40017f8f5bf391e04a8154fee07fb0dc89ac11dc90bd7b2fc1cdf613b60b1b8dc207, 0x151cfd043d526213b0d1597c1e3e0cb8a88d771fb1b560d06bd6de9a0879f59a6198051f872845739c7820a67ae4377f⟩),
  (false, ⟨0x14623d720eaabee2772fea91c14266af68f00f6edb61a173d5a627ad8bae21adff1e914706eb74c7221c21d2053290a6, 0x6aac8dda535490a4ce50a94b4255f316a26f77f6db82b5adc3785435fccc2dd26e7e268503b30e1f4d4e1eb354c1d61⟩),
  (false, ⟨0xc06ccf57ba8bc7fc7e64f1f60de5c8c48954f013318d9207e14830d510a53716f11d3d1c98ab96c2d2408f9e8d9708b, 0x1b7cce7286a3c2815869be1d5c3ee5402ef841c1996ef2cd9cf24b0e6a5b0ce0a620fbf833f5472cccfe47ac3e53cc8⟩),
  (false, ⟨0x19d3b854225e144aedfddddd0f45ed9671a5825aa2047bb8f6e28057180f43085db5580a9ca253cf41de9d0eb3dd8a42, 0x5588157cb31066cab1943bbb2f97c962ff611ea25eda6f3ea0773044b10b2148ffac2aaddb908563b6c88fbe41106ad⟩),
  (true, ⟨0xe717ce1e02a7bb1afd3c99f04f9d430df74e5041c0e4ec6286703bef57695a2a1ae43c87643c249a5b3beefddc141d6, 0x146b83f59f13ff04e5ce5308f4dca0ef26850f9b7672cd9d75ff3cd8ff2c380375a008a8eb83dba1ab8569e1a1417c0e⟩),
  (false, ⟨0x13cf8dee1cd67fd58b41c05978615732c46a9c2d6d960f170db83f4bb86b43912bf53b5eb7b162f0a25349b422813475, 0x5ee0345e92ecd7edca32048e3553eb04b22bd54b47d7a2fb73532e51046c11e15c9f249f00c42f64dbccfe6e8724afc⟩),
  (false, ⟨0xb122eb7694fef27d864df15afdfd48a7f7565d661bb40d264c3525865ade1b28198f8eaf3e4d277cb2436cdc1146d5e, 0x193bd1947feaca7813a874ff0a52865329501f934944ef865a1c3f0499a64f43828f4b35566b767a875545755ca37541⟩),
  (true, ⟨0x1684580e1e2da6ba1aa52f682bf6791a8e98b3be556f61f9ce2086d383eb9ec588a6c00182b4a8dc59223f6880077292, 0x18dbe56f14620ff789a349dd94ea0d499f82ae50ec160d56737a350070a67f1cd01237acd5499f3d50ee29a591b568d4⟩),
  (false, ⟨0x12ba3924785143400179d79f676d835e618db84f7307721aef4b7afaebb1ccfe4961493af613a1e9a9633edcc6869219, 0x2728ea72b3684f7fa7d0c7faa7e2a17ec86a399630c99af8f5dec2c17d89f1f8b709455fe5a5ef8704854328372684a⟩),
  (false, ⟨0xad1cf4391443d7d687571b011bc6098b8f7cbb6f3971b6db803a055dff1da2b8e143044b338a28c79ed92df7cf51870, 0xca3a083c9a162b7c52533173747c4efa76c2b8de8112147fa4691a2aba99affdc32d684cb4ff8c37efb4acbf0ad7c7a⟩),
  (true, ⟨0xb230d65aff7f0d180b0f2ab80f26034e6133415a121e6ccdf7308a13076ec0dfb0525e2bab27f9b9a6907fedc7922f7, 0x14c33028bcd8f50ac2e4b65a5a76cdc276a57e55bf0bba0252062ec2af00e6a7eaadc4a081ae45fc8adb8bcee384adf2⟩),
  (false, ⟨0x62e18216b40d03363ae119e20f9a2367448e7a36381b6e9e775a6cfb3b567b8785c8b9c568aa5902b63fff17b6d0e8c, 0xdf7ac618df3cd8bf054b9d8a99ee1292a528af04d0f63fea59532450440eb136c5f3ff97fe77a0e41006f068ff47f7c⟩),
  (false, ⟨0x19b8b97501ba6577d23de8796a3a94bba5abe936574bffe612d9e3f461e2f9406e315e3d685ab6477bc303bd3827db89, 0xc38f9149b69d1f6b13e165a7e0683f43009b04985310bbc6c6b81f0253982aebe03990e4cc2f88b689a513219b3c1b9⟩),
  (true, ⟨0x17d62e02827fc7471b41d227e59580c87a18bd5dba6657f657a6c20dafac3c5f8785182ce9c783c9c4379b4a53f04f50, 0xd444171c08ba608917d231c418ada89996fa2def77a8e0955e6234beaadaccbae177427f0ab15cf9202efd1028fcbdf⟩),
  (false, ⟨0x14e0b426ec9dff3d1fa3b8a54b3bd52ec3336af455ac578afde5c4fa7ed9e9f33a6000322c81ed7399ab11f72257df36, 0x189e36abcd636eb2e83ef9e1e110b3befb684331dcb4db063f9f0d2d55e3ad908051f1fa21f8981b943f5ae42379a959⟩),
  (false, ⟨0xd2bc3852a5ea05a66d96be5fe54578a44e9d0633e14237a8acd7e4ff1d5394e18e521162609bb912eaccb250392ce3b, 0x57ca1ae19a463799054ac1f6ad087a10cb8cbbd757c606e2cec2f7fbd9b35f8b3f12f5f00aa2a09a1a1daa5c636f604⟩),
  (false, ⟨0xa8fce3802d9a4e5e7f064da0c45481e4eec1b1d36658f052c7804663a6f5a6ba4fc2317f8954f431b720b1ccd6f0231, 0x125ede1d2c66a3febcfa1d3b482166c1f421f91d02795c02876ab0e6c160e8276d6697af4e880683debdf44e803ac3c9⟩),
  (true, ⟨0x3b1bc5b956cf068f607bd4bd646df05cc6db05284c5a3c88bc52528cbfcc5464626779209888c11c4d369ab379ff05a, 0x151f2f8fb813c26911962e3806df3f7a31e6f3b023fc4e295626129d33fcc545b9d271cbb994b7793e458b01b0d72285⟩),
  (false, ⟨0x3bdc8a4b71a107885065cd4b7e7031b1c18f1734d7e350f01d7cd12b960dc974a5a380508681834fca61312ff387da0, 0x5c924633ab7be8de40e89d8d7b2722128bb4d9e9e33694a24a3bc9886a0f2f1c60a61e2572ea9a00ecb83a69ba833bd⟩),
  (true, ⟨0x2808fd8536e494072d811cfce30078eae51d930859e6c799ae01a112f22151ae587ff7264350f05d628e2fc65f1f195, 0x600c0d0ab2cfc531be68a8595dbfef32e2b9fb9a7020758feade682041517c748d1daa329967d98cd613441624ee075⟩),
  (false, ⟨0x9d9f2b8c63bfec23256b27ce7efabd83616f4773e6e198f4ab37ef810c2816f6ed5f885067c9e266ad06689572cd287, 0x1872bfff67312ea216546b603a476f811e43e8e100629b44c482f0574c398297e5064735df63eab7cee3b122cef7c94d⟩),
  (true, ⟨0xdccc0f3f9502725b749b691860850325635fcfa87578a9172b7fa1feedaaee368226e564bda65be5cda1ef5b3217e1f, 0x3dae12f65a7294628bbc9f16acc691295f8dbcfe4905e88b0642253afb87046c63f3dd4c6dc0c4fb0e4a3248df53cc6⟩),
  (false, ⟨0x133bd14eb167f4f163cf3ffbc552dbffb37bbcd6d53d6b7d1fc652777f8fbbe150d3f78904ee49734335a21486fb20f8, 0x1788dfd211bea81d4b70706379590744a88f0c64bbbe3151a4728ea72c27128bf13ec302187fd490c381c44e50ff92ce⟩),
  (false, ⟨0x16630504b0bbe5a0ce53bbaa9fc38517d3d67d7387abc479f098c23fa590d901f5903704ce9ef1563c346dff95315324, 0x171919593897e0c29560c8ad337973870476f415c42c8e1123cca664862a5ee4ba425f951b13a334c9843382052a5f7d⟩),
  (true, ⟨0x17584b247a5a49e702fa82f6bad39f8da69a3df2d1e064bda07d6f6d31d34889f0f4e55025c50b890138205a7f8dd5c9, 0x13c78e0bade62b47aa38cd5e7848a6f56f79f37c70966912b3e0e25d405d30e3a0d0c4e80d9b0e6ed9e87713a6a1250e⟩),
  (false, ⟨0x74620a35d02171b306d36daf26058bab09a66a2b175d11e1a2a8dce6040d02c3e5c1d6d372e559f99d4b3909d6d1fe, 0x7ac11ab6d04b934b0985d695dca67992395a6cad371bc55d99291edfc718e1dc7c6c3f0ab87e892347925ca4caf3be⟩),
  (false, ⟨0x16338f9e57316d6de51ce0a74d2c3fe7b7c529d6f81b9de3147acb5913ff3601b0d0ed81818512c23d1e1e7e1b7c0adc, 0x19e13af9ef9e6c90f95d9a0f2da7118d6572828b3198a453d5938feeb0b329336556bce7bd31603991b2f9c4444832b9⟩),
  (true, ⟨0x18e624421c82ec8207c2931bc5a92c651ee9590a65bd940b23f8ff8b4a7e92fcb508e2b032a2e2e3cb8bec76378e4f8, 0x18e0397139fe9ac42800f0c903f881171433014da5a67d060b8ee99328d7ce24f9c36e62084fb68d060cecfc8cf05a4⟩),
  (false, ⟨0x112aaff3f35b465ebc273f5b84a6b3df083c4bba5ba5167e7cf895e59578ebb29e4039a1132e4a096cfa86fbbfa02beb, 0x110abbe61a7e9e641f39c410ded668c11adc640b40fd19be105836af612b87ccd6ead390c32fa163bcc84391d0417db4⟩),
  (true, ⟨0xa5869ecf240e4e8a003ac614656ffd4bbaa64ce510dc53066059835aae4fe4b63d3d83f9f8b42617dbf30c9bf4e47af, 0xaae5752f403795dc73417a35427d47f1bef5f503dddde2acd3efac4cb2d445f5bad69bcdf4186ac1c41637c7fba4b08⟩),
  (false, ⟨0x16d8518ed6d2dadfdaba81e824c98b99520c20f4a6e786df4ab4a5e6a388c92649811a3baaf2bc3155dd568ea711ff9e, 0x17563664acd72b567f0207488cb78275730b932d5229e7d3a455b3752d2576cedafcbfe7c739d08cfadf98f3ccab0a08⟩),
  (true, ⟨0x233a289a8bf3e29ec1de99c28123d3fca5b7bfa128c6d81b08e7bfa8afb76322507993f9e2c05bb391fe0c085926fe0, 0x5a774724c7d23d2436f03c263342ca494d312af3ce775d494db812a2a44b3ab3ba03024fa696cd34e0e6eda61efb56⟩),
  (false, ⟨0x2d68acf7066e64095b19e3970638adf869092d008e98be618cc1475deb6e0605b75244737baeae7106ee0990df7ae69, 0x17f69f14ff2fd3d4ff7b71d1db04c4e070d8a299bdf25257db859c318a1000fb408bbc7bcd6ad4a2d28fe6ef2b70661⟩),
  (false, ⟨0x8e4bf8d2f59457fff7f27b0f6a19190d08c629a9af184cd929cb6d6bef40151801a2017c996a9055cdee7bf862d827, 0x8df95021a807c0f1cbfadf6c25936a87d30a5f3d3fa042f59fd1d17e2b8cc21963786937069c95818c2284fb944de22⟩),
  (true, ⟨0x10970a28f0f975f6a6b32e9f76df7ed6c2e3c8b5af92384f2c6d33165c6f4ad78c40e19f4ed5d06c2c90880fca084d2f, 0x166ce8247841dd132458b8a0de84b7ef96113b557154a71e5929c26047135ff528e967038ec1f3841ebc741a03113870⟩),
  (false, ⟨0xd15ec09af1949bdfc36f34941daff16bf70304358b532e332f39b494853569bcc8ea665ce06e01fc46ea3f20dd5e092, 0xc491f91228e4326a483f5c03076bd9521fdaaf35524e0c869c5d9c2334d6c62d648c6ea504a66abe95e87776e5725bf⟩),
  (false, ⟨0x104586a4b83467a9d2adb5efcbaa8da111c64ecf40f4009b54006b2c3ade89080f07e8fcc202e7fc858e7ef238ae3397, 0x161aa13369e6cbd8bbfff528948c301741ba1a79948c38a18ee0cec398df7e040538227f675fe5dcbdd4a95f6fd6baa3⟩),
  (true, ⟨0xa56a783ceb192b96f50d74277021bb1bb6cc7884151f4328c84097b41d9582d571d4a4d47d00ddc9c33307471334b18, 0x18b65c32455988235b1c157ec9243688c57fece406551528b3c35d2b9f1b4efc70e49ae1218ae05b82e966e66ffba9f4⟩),
  (false, ⟨0x16c06439d539c790e87a0a3a2f5066fb62c71fcb97244467b09dfdb984e6e244014f470b1e0fb05fa9696b535c618dc6, 0xa433c9526dd19441d481fffd3c187269c0019215cff1d1afeb89beb2cae6881cebbfa26556ba5cc0425bb3c172ae554⟩),
  (true, ⟨0x1393083e87a69ed1fe7627efa199d9333e89fa1f483f72ef3a83e4d83586343bba5671ea76a693b0d7237279a5f2ab0a, 0xbce3383a0ba4bc3dfd5c47dc437521030f11a94a882b06c5c50d559e4f45f56213e56145875477572d05ba57534f54c⟩),
  (false, ⟨0xbc9f38859bfbf7b8a923727e99234016dd545a84c71550a11e059dd48524b27e85dfc5ae3e423e1e17dc20055f7a012, 0xee91d26305d1f4cef0b104c2abe512eb73c92795b35a5bcfdcd393a6330bb3e84b8d7c38d38af193f275d816aea660f⟩),
  (false, ⟨0x18280dfc699841e7a262ce6d4423cc92b95b1cb77bbebdc0b966b157aa8b171fa10bc4c941ed75cea3f1be0d08c0404, 0x156cb2f91720db27006eea66cd0e5b4eb84267b70f6005b63d471f61533b5916ee8f9c46388efa16ad7d583b77019242⟩),
  (true, ⟨0x146ae41d07b47c07e0634e95c1c95221b5478b97089f150bb50826db6507c41d245f856f05bf2423bda8a1620734db49, 0x18a47d8c00e68a46ef1441d14268ef72f59dd08cbc0966f0f7fd6590dfafa996be6d41c98ff21794a1177ad3aed3b591⟩),
  (false, ⟨0x16568f11280c3a342a8ecdbf847c042e9b0a712233fd772245ec886e292a815c44ec83f868b354802ec85ba57e67dbdd, 0x126d6950c123d6ff3ffcee4540176d8a096e20aa1a04260cb9f41a4c80c10dc11d10ee3cbf9bf61aef508f0d9a94a90c⟩),
  (true, ⟨0x198f143c63056b71259fabf39b0ac78451ea3e7c5be18c8de5328be70aa2d56c3ab1d9588eece4e195ec2d947d6ff881, 0x48e71cffb0657bd5f4ec4bc84f495929926124ba10fce410c9d32ca340a1cbeeb27a2d5158ab8f79ea5347d26645297⟩),
  (false, ⟨0x141a9f169351fbecac88b96a00190e3d04d04a6de860874a612cd1bb3f1de31da6512d1d5842e4dad73c8517d6ee6d52, 0x119af8f47c255dd3cf72b57a7e99194eb2627296deb23462c6d6895435263bdfefb62daf7e69dd8ea8e59cc4d19690e8⟩),
  (true, ⟨0xe5994b44a62d1f2e60e1861406aa5258366fce09729f72adfb1b6923e33a6f72ff51a498867111b5f4dce6ef571d4a2, 0x4d79dc6c04467c84d01a61c1d09e6051f8aae48159cd6114ea7ef0c67e45140cd68b6dac2883063e167f8bbae1b4bc7⟩),
  (false, ⟨0x19c088251f85a2bb3e7ae81d586c83b84341474f2092e0055b18281e02ba043086784172ce2b24f80c55016776fcec1, 0x78be3feaea3db4afadd2fa470ed4e05bae22e419145299870c1c842ac9e3c2516dae1718c4552567aa5fb7e5e04e5d1⟩),
  (false, ⟨0x220e41e9e069cca6810caec8e5a08ed54fe0730d5de0c4bb87781e2c6270d9584049e9329994f1e04f2ed9906a195fa, 0x16bf2920f1f23f69d1368eab6f0a2a8d1ac5738161fe5898f5d0eeac6e2b5b96c43bc52691d21ba054cd0dea483e3909⟩),
  (true, ⟨0x5443cb8465f522bfc1d1116c3bfa85a5e331d82aac2e10533c15772a9a235b52141a2accffbd38dfbe0caba697848a3, 0x1341110a651593337a886de29f203c8bf452c84f211aca9a61e8d09aa8627135cb7f5e9c0a11dab748863dfb05c7e951⟩),
  (false, ⟨0x6e8a1cf8b564f0cc6b2a7199b8811d749c92f40991906f4b7c602c1ddaf792b1ffdc595f3624c041eaa471ca3086baa, 0x6673482576c1b69acd9eff1d7c0959fbf0480039ee895a05b7dc83e8e87a609617e3f8835a40cc1ea1d639eda0278d3⟩),
  (true, ⟨0x7d772a532237620a93752d27b1da6fb1f9304dba3e3e9e64b8f79a98b3be45e2a59c40c09810630d5c782e735643771, 0x445213ffc30fd1d3ee69713a19fd1bffbd51d9d3d5c8bb797e4f7dae90c847815255ac1c918eb07f7297221a64e11b7⟩),
  (false, ⟨0x9c077264e4764f9fb7c19ca5a456d2a4843a22abe22120c9cecf1475d753f53ef38c43539cd7d20424205541088b756, 0x18cabf27dce785290891c9d3d4d520e7f659011402c0afeb340caa8bf321f8533e75bbda4f0702b5a40a426bf9e32403⟩),
  (true, ⟨0x5b737edbb5a63ff3ab38357211c7f968792f25a717bacddac5b9c5728054d27a13986db9226518f364a1a2206cb16b0, 0xf62668fa89296a4cfaf57b829234996b9f12e6eb242f473201f5f05d49fa2f8e74fe73e1c0535c527ee3591de012820⟩),
  (false, ⟨0x184df0ec41bc1ece129b04ee9d7ab0976c1b0238a778ed0521ec90bcf1acf98ab0a74a1990f7e9098da3fc3eac21fa70, 0x1283276d62e3f8ed711452a9339777be96cc3c7f5e3d99c3a2894cb4da45c6db46baf8b2619f724bc44cda4f99a56fc8⟩),
  (false, ⟨0x174a20c54e9b4175314c9fbf55d56f77c6b88abb9ab1bbc33d83f54ba7cd857958ce7adb3e2624dc08e4db03d61b735c, 0x310d63405f3bf80e86548ffbd6bd631e75569b703433790dd419e8b21aa6183124dd403f2677812611a76099e444e70⟩),
  (false, ⟨0x898ba074dc4c03a5f53521aa207df5e8d9b345d19c92c3678d1ec44467d259129c604a7852d2ed65abca5fedb0ada50, 0x10ac5ca9c5495406ef1503f5b10e2bedf3f2c93e4d8d458c5eefbe9992ec5b9acd9ac4c3456781e31260af14239fbc4c⟩),
  (true, ⟨0xe85332e61869656f3a6d21650bb9d1dd9551c1c5ad521c50511777398ddb9bff89c6346837290a2577674dfeba7b1b9, 0x166c2cd50c7656550b7bc7b44d758f8b7cb8f8424bd2aa5e1515e67c912356d07997a63e866af22d1c40881a9a2616a2⟩),
  (false, ⟨0x122bd5f43a51c0f073857d3bedb1863c2121a8fd0c44dfbbe6bd3348b52a6abf351aea2442ef1fbaf19680b71179ffbe, 0x68da7307ca0dad42a78307a173aace05883785260392d703d27e8000a662c455cda0ce894a7783c9a7cc35edc4752bd⟩),
  (true, ⟨0xdd669eabb626a8cccd52749facc6c6eec34d17c1499d320b770401b923f88c78e45be09713d2efdcf04e1205396af64, 0x7475f857eea05ec2bc622961811adb6f392558a8021be7e389ec3a5ed741bc3a267cf28264f803fed5ad68272e90bcc⟩),
  (false, ⟨0xf9f4ac9100ab7219295803af8997619c448ae798a053788533fbeb2ea5e92e53aa3573f0721d8dd74249783fd3986a6, 0x12fd9014505bcd009b8e1686373362a1fc3cef45d433ab2e4d6dab589a7e9d4075c01406144f9218082e650b61419311⟩),
  (false, ⟨0x12d36a87988d66cfd63859fd2af05644bf755272f7c32cc68060b179c488e3f93e1009c4e8619e4d83a769e30093347f, 0x1039d4c90198ee78262aaf93966b6f40ef42c0dd33fc16fcf0a9876393718866f9efb7946eb50682512a2a4bdb06d803⟩),
  (false, ⟨0xe6163bdc13957c9b9c6d93eb0ec137b11db6b17c9b877bd645c0f847f3aa8d11ea53cd08a6c48c37722aeedea9a9e34, 0xacf8ac839d4634bebf4801457b70ba5ec276d250f56de11e5a9164ed00ecce5776acdd2d8c0606b0ba8dfb63c7fec99⟩),
  (false, ⟨0x109465fbf55fd5189bb1393653904f25e88ad70aea1f85027b652d4cca09b89ee8053a830180cb3dab13294333743b1e, 0x1446594c82a71dffb9498158d510d76574417ff30b01ff395fc82c4e53a6fba8a8c3e24c0bb63adde72c291eb650049f⟩),
  (true, ⟨0xe8c45c144ca05d7dd1b8dd4dc9d5e9a6c557965e1d3304cb901f5c01f2c26849ea4335094cd6c4cfef53dcd74e5b46, 0xf68bce67c6b4c2981f89f9266a17f736bbf7df9efa9457d074df348e1c4c8c99d8adc7f134abe51bc7e730dcf910359⟩),
  (false, ⟨0x73896c799aac0809e8cc792dc908bb8a852e0730c3a90a9c4d9aeecebdbd3325b60c82a38135bb943a0930c2c345e20, 0x8415f741f8bba051dfe22c3f5ea29a462a6aa7e70f72d29bc54a52c81bc1e244abf5d40ca059ff565006465fac6738a⟩),
  (false, ⟨0x93802f0a32d524211f8d1c078560cd0dcb71bbaf287728cd6013ffbeedf16602eccf7c79c004a64cb415cc51bfe8407, 0x1366c51f37f40e9b5a0a3f97b1311c5a058af1ffbbc0f7661069cad47826c89395989672cbcb815586de05e1bd901427⟩),
  (true, ⟨0x13676fdd03b7ecce778893545415c12ceb00f8539e5e4e030e9b1a706b6392d8f59c800b692a65a469222a72763baf20, 0xac9883fb26e1a0f71c9ce7ce2de7fcfc3f2e9cb48045694ea49eb9119daef669bafb4f0547244d78672a436e8d9fbce⟩),
  (false, ⟨0xf58d92db02248ac19406d57dececee651ae63534bdbec7ad9cf13139ccc27d1bb452d64a3f922b2ff78ecf9483b0251, 0x276d9f7d13ce1ab18f03fd80bdc216a931975c592ce8d2c24a535e1c1907edc95b9bea21bcab329d0649e087222232f⟩),
  (true, ⟨0x169f43a22054fa619a7bad7b6ec431379d863e4f82c03a934c462138d761d88270d99068f46ca9a5ca1c84e4910a0d04, 0xb5e2deb2c84430ff04d1b96c83a3eb6046bf84c92650019c683c184bd341b82c42ba5d0545f40d7d0f0f3f46928e153⟩),
  (false, ⟨0x18ad0c410736ef432d498eb5b15da46df55f2f30822ba06220645993a7f0d12af464376dd7088811479c72998db8b301, 0x16873f61dd1727fbf94d3f081d4d3c6ccd5726f67cb12e54815b33e26eb18b842b380c30f4d744a01e2dd1e28496601e⟩),
  (true, ⟨0xf8da2aa26f42f6d90a9de9d7863cb9f9a007298d92969cccf8abc05a015a10931f2e53024cade65ab98ddac013b7942, 0x19c86555a4f72c65e7593f7534beda87ed4ab35a546bac300bcaf31df3b1c2cbbb8307e3db4ca171a6a3e31cd8b45fe9⟩),
  (false, ⟨0xa9d81000015728bd01345eabc55648ba0ef3b786bc2b40451bea7440579eb02699f1e924ae116034f3e41eb79be80c2, 0x9a113267fa4389f7b01af3c1a771f0e4da639a02d8d2f8d52a29d2b90795c916932a69d9512a1fac141458794189647⟩),
  (false, ⟨0xe4f705454308fd45181293e3c6efb079a4871be6e00bf4b23f88b7fd6677841031dfa722c25a1372a0654885b1ed046, 0xa4c254d5004f0cab0ab8150d220ef1b020585ce8503cd3b9427cb0bc1c12b10ca336229f082051aee11494c511e4661⟩),
  (false, ⟨0x1203d69834cef5b39583862cfcc4bf53bcae2dee4b66325473ff61657d49d12541ba7e400c032f76a3e3f8a764ed6cce, 0x16a88094cf3d45f2837e8dad1837e2cd02b9a5f66d2a84b1ae391b1bb7eb2564d782fdf4d2c7498fbf8c42f90040ab75⟩),
  (true, ⟨0x8a3c08e4c03e41469f0d04947c5ee00a673adf5457da9cc0474d774bc1186ff5a8455182f103abbcb4f9b67733d6ae7, 0x17d4946e32e5af7ed520cad83f14d2076fdc326e272927f1444077b533cd94ef5ab2dc775139849d1cdd1fa4b3561af6⟩),
  (false, ⟨0x62c73362feb85f48e4491b8903269924deb2fd5249b6bf86e2b3db802a22e1fe591eba15d45cb7972c1dbe7fc1c14ae, 0x2f0540b3381e49ed82e25f34bdb13179e6eaa6e55a840daf37ba5779d42886137855b8628e7a997c343a50f2d647108⟩),
  (false, ⟨0xf648a621404437b5f9384c0a2e4b7cafc658ab55aef27e0df9d069e949f20fd483d4586b766f6b581ade8c6b5fdec39, 0x942dc2beb387b3634e767a5e58f8b1f9efad188ee0ea26ca90cb4a68c89450023b2e6600e0d8dd42c033df78f5efdcf⟩),
  (true, ⟨0x17411063e3c87c25566cb5c1e848b3d0ffa239a5ab3907acc914999b3539554f465cf7a337304cb6ecbe8f7078d8c724, 0xf15c6295acf98f2bb644fb51b6bac1581121e39196af3a2564bd13637b3c3a889a8d043704b4c6f316361b15dcdd060⟩),
  (false, ⟨0x80fb866deb65d597570cd0b3cd75d626370513cc9b2a442495fae640701c3ee73cc3976865da8ccfaa0ef0759a979bd, 0x19d09027d087e7da0ac5ae8a844e88e86e2fde9c5e3f0eea7bb833a1e2726aa8cb85309306f7a31c7a0c479b3d265f75⟩),
  (false, ⟨0x126e43bc44337a612ed03f975a272fa00862c3232d0e84e162734311f2e559cd6e85583fb342788150834197ba04357d, 0xa4f9e3f14cea39b68b3264d37e0191ec237760e4252d71215814a1f8de2e65f766d05aff48c87633d890525fc111947⟩),
  (true, ⟨0x16f611f94dda1fa14068dd80e1caf3ec14fdf542de59505e012e3bf3e28e945bdcbf1179a8ae0cd2ab95697c19ecb536, 0x5601c129c945d168bad1ca8345e79f6fbc7c868fa415f6d5c7930ef1cd2d681c8f9f8e58d9435c3adb17b8583d25dda⟩),
  (false, ⟨0x6736f27014960f4de6a9c4879fbc5901a2d36a2160ffd222663f7ae83060e66c765af924b01d11537aa11efdcad6da9, 0x1669f0e3a901eebd8ae8bf2d5fda4d3596a24f8d046b807bf8902a75d05e0e2ccc215bfda22c94a283dfac9cc592f366⟩),
  (true, ⟨0x17969d76b4914280138af05ad690448d1f53c0398824e1029acdfe01d786b99ec15a1175798f3c7abd3de49a676f4dc7, 0x19967b08ff74b7f39dd0bd2c977b9ba963821808b59bbdafc796878e1adc4e3b8755803ca29fa4d5fe0c252034bf41ee⟩),
  (false, ⟨0x3a9c8b824fc81a2100ba673d497eb2525bc58da7b4596797fd436cbebcf700a028c21c32895ce8002ca82dc33834fdc, 0xa2b36d71a65315ee09c6d17bd52fba36dc4dd71e7eb897d5d0ffbd453405c115771526ff9e5ff59d9754926cb3e8cc7⟩),
  (false, ⟨0x17417805acad978835977dd80aeeffc06e514ffc1e0c14bffc7c3a7b19735f862b42c41593fd3e25a0b9bde1ab53da56, 0x1284ecaae1637f1fb52799fa2ffa1ffc7d1f71e81357a16d6ee458777305b40d57da91e9bddd11a03c5ca2b959b23872⟩),
  (false, ⟨0x18206b335c523613fe4409c7ec15771e06095a86b51245d890009399e4a8d5be162c23c7e5fa21b6151ff5faa8f20685, 0x7ea7c4b54e734df2c194debd6b09f0a2d901452a89b254121cbccdcf4d3021cda2b329d06f66d3aa78a9c3a42eedd7d⟩),
  (false, ⟨0x1316688d29b0d2e6b045800eb3d9730e4d9ba9dd44dfdd9f0991cc5e2e953fa959304acc3f584dfd85f122f00f3e964, 0x175733c5e2ada2fceee7d58a63a6703d6aa4cb19d17633a1395a97b8e90775cc85418dbc924a9a61a5dee10c89ea9814⟩),
  (false, ⟨0x16258aaedbfa0e0d4990ad9d27e6cdb9b539e0c5aa3232621b005527a10b4d558e8d0ced098e7bc5a2ffd5a566bd3dd5, 0xa43ca6da1d37ec770ad2e80ee81c546c9b72ca2c38412514e173384427942bbcbbcec432de82686282eb62e827188f2⟩),
  (true, ⟨0xfdee3d6899cb7635243b49806e8bc9f009bab05ffb56dee733ac6344b5fc8c92e4a2f5671a259242e9ecf4ec89d5add, 0xfa0745f9921e015fd7c2acee57c554e612fa4fce66a279656ceea6f943543b810b2af00e46fd0b2c74a8ec7fb1f4241⟩),
  (false, ⟨0xb81ed382c1c7cc6103cfaf8bbe45ffcedc869776a9befd07e7b25d1ef5375e9a7625c93c18f179398edb8a0f2936198, 0xd53c16e2e6e54172d8bb5c68eebd59869389e4ad89577f888429aea326010279c619c1e4841c5e2963560301d54bbfc⟩),
  (true, ⟨0x1148c14d01a209ea97f81812b20c41d80d3e487e94e9bf6f9eb565f3e7229dad5b4fda92a1b130465fb9043f1de66cb1, 0xc1655c70a394c95528f9040c846c38e44071025c003b4f61e5d1eec4e86511672727f7d73f780828cef411f6f5d5bea⟩),
  (false, ⟨0x7420f76a6525f01230e264a4eda8e3bede979d6435a080279fd0be31902130a46e4e9b6d9aefd22516615cbd8674197, 0xb88bd15e8dbe221c00c33bb2338c4f71e0ebf36521ee0c85b8ac2c87ea0814c7e9ea1cc7f108606a918015966ce4267⟩),
  (true, ⟨0x152b41d19d3bbcdbf47242551c3a449bf5e5f81fa197ce55e52e6e0b11aef33628dcea2116b1121e65a4c6877abc5553, 0x16b3d9e38a35f24d70460219f35475a8e2b48490ca6eabe8b68422b6456644f0fb39ae747da09479560013ef794bb6c0⟩),
  (false, ⟨0xac839f78a844a5cb75641ed8db79ff65258a643130636c0c546e216737e52c210bdd564c4dfbb220a05e6411940dd8c, 0x415667eccd9741ea0b5a7031bc495cee2ab44f847b031c8ee1a89ffccb6bcf59fde894735b6d0ea96a4640ef116500f⟩),
  (true, ⟨0x18522ef89e70396abb899f196dbbe31c101954935988d109a31df2f366a8212e47168ee33cc74d2cacb7fa82fc7c6104, 0x156200190c7f681f15460819b7253ae6451cbf7763209ad09883a8a7c1bf2483d17cf8f959eadc8d814db86c44481af8⟩),
  (false, ⟨0x65aec128f034fc65b94501864ce43d939055ae89e73b48532d7e24a79efeb4a19dc5bd4803062d57722cc42ce50d59e, 0xfc55f45eb75f0609642ed39cd10b0e593d240f132f2e4f4bf6726cd5f715c2da1a19959518ec9d719a712fae0bf26b5⟩),
  (false, ⟨0x1efa98fe97303913beb13f5a5adfdee39143d650f0ffe9996f5c8e5a15b604d4a0396ecdddb6d1d067cfd66647a179c, 0xc755c6773c5f9c73ac2b1f19f5afee135eed73d14cc16e45bf1c92158f9afdbcd2ba798fd50f2e761bb0513e72990f3⟩),
  (false, ⟨0x163c2d54fa810d8fd77c589b00450aa76de0fddc69628bbfa3e9c6529e4400ce409bae3f1e493fe41ab5efeaaaaa44e0, 0x77a5c31207c109a25ddfbe011065fcaaf82fbdeaa916bf67d4f118f0ad29541661f1658c02c6c0d08fea9f3254961ac⟩),
  (false, ⟨0x19630e5bc5948fe3461c8cd60fd91e958273a6a95e12fe001e145720336e2e3e980fc0e9375e7c60c5e8d2415cd5fd3c, 0xc14db9ba3e291bed984e6013b60e09313df5caec7a0d6872128fb9e496cf044e5e0191f421a88229e7b08730b78adc9⟩),
  (true, ⟨0x19ea966d758d7ad7699af9f07e5d67a46379d1c30dd934a848684d67535338ef28afa1ebbe2f5a6082cb1dda95c4c19b, 0x162a89a52c6f4c468a43bfdf5809f992d0ecd66e0f9ba911545bca00fbbda5d69b46bd536f9469b2996d9f5cbba0a043⟩),
  (false, ⟨0x111740ee720fa3527cb53bcd90f83204c880add6edb55edd288240b8069dc1bd20ecd313e85c51d4de6892ba37aeed0c, 0x5e58c5331c859a740643b8322364d2f6f45ebdd2bc3e9500737cb0319147fbf38c8f0b8f4611533bb3ef68d43c73028⟩),
  (false, ⟨0xf49d69fd39a81ebe232ced797c18ca4859d771a192beaae229460f3427fe38fb80469ef0ad17bf9804a4969a2b65960, 0x17206c79ab916aac15c172e1500990762d5fc90ea64d1b430cf41ab1ff5cf0a4e6507ac205fbd1483588a15f72903bdb⟩),
  (true, ⟨0xd68322b47640471fe954d2fb6b78ffd514ab29ee3ba50c948d08334109145d49fdb69956b765fe1a195b650613a5205, 0x1498e75b1a0e18db3383ad07266e7ec3a4148d9eee671131244ae426ccc4cae2cab7a36d783575e4746ec5ec74de45bf⟩),
  (false, ⟨0x5944804bb11b7d1aa5a5454505a46c3899f858a819a7cd04cf49f4f140f7de93bec8349f04592c2f6bcccdc21288587, 0xf991bfd6d68168287f82e3702655b1065299e70d9abab7f70d84a82f3723a498546feb3774c6cca369bb8eae7a90864⟩),
  (false, ⟨0x96b577365b014689b80b85f2d0288fbf2640178e45fb0483dfdf741450ce7b54982e8bc83df1a807f9058f890436480, 0x704a23fa43668a1c9254fba35d891d0ada119374c4b6e37d5ce99167a1b5d43e306b675df07e2d9e1f2ba31d42fd654⟩),
  (true, ⟨0x102f156f26b3790b87986bacac451680ecdbe174ec7af4ec10dffde505c39193eb3b64796d28d38f1d646e220ad11c0f, 0x8e633900a730c64b18ecd58dbee09ef451b2931e53c0114cfc6fd25436fe1b1eb9151fe8086b171bb5d418cc880e312⟩),
  (false, ⟨0x1872bee2757f75b11bab83e9f1ac1f0e5b2a26e67e93b31d243e168023709764709b0570ef5e9238351df6d69f45c233, 0x7e62b89a91fbc0b4de52fcac2afd5f9fb7d5c689a9826322b748429d25853e490722b0d79452f2c056003860f44c68d⟩),
  (true, ⟨0x101673349e01669e80fc4dc81cb84e466e0c2935f639f0b6d8f999e4edfaba7f5c73073b6848735778ed13c7f9631c65, 0x14758441876f89a6ac2b4d719e5ab81e0cc17256c95c79156720f9983da86ac01ddc4500c96eba1596c41c39c62586c0⟩),
  (false, ⟨0x193b6316620bae5738321f22dd691fd33d5f98aa21e3417e060c543d962efa7ac53adaa5f3fa1f3f39fc07ad720295c0, 0xfc2c53fb02e2770fc5df4863d4a395a955d5f28ff03de328d1b34b5bad54d2cc338c730f9f82780b0ef2069a38fa45c⟩),
  (true, ⟨0xa05ac85d3ea1c1d4ab303f248fe9222d9487d14b28b0174eca2a5976ebf1178c1d368c4da556e5483fbf6ae587dd333, 0x181b69d3496aa09bc4b3d14cf96b243b9cb15d2dcb413e502873b8c4d41542acb977fa8a29b66dd5ea9700affb90bcd7⟩),
  (false, ⟨0xe0b8c0d9a5b8473b7884212494c51f93a0fd18e2561171c55ffd85d4cceb4c1f5218683380f4d2672c45d3da47554f3, 0x129ca223f635f7637459e870c3fc9e22ccbe26a808f7f87bd6c5e80739fad109fa857b8ef86c1b1a180544ef084ae4c0⟩),
  (true, ⟨0x189025425bc516d5e1dac0e68c610161db4df3fad3827009a26abce27556fa430dac2218da993d12835f729d2629459b, 0x17fc178c975d441e49d6beabb090435329959380c8a3ac80ae84f7e1aa4896d02d0c90429283933dc23f2c2c0c2ebb2d⟩),
  (false, ⟨0xe382720ffc533a5ce5fc51e350a058b6a15859eace777a5a5d7a2a565a16426ba6e215db0ae255eab08b69a8cb417bb, 0x54e36b4ebf11fa7f9c10419c71e7a014ad358694d5227aaf8d840370ddb44a6d903c655f7cc7d9a98fb470fb4b9305⟩),
  (true, ⟨0x1695eacb67794141fcc17606d8f86f11c14c170ae3c1b3969c08911bc6fbfa0cd46c08ac336bf19694a488bbe9d572be, 0x121eaba5b0360cc210fa6f7418cb5439595e9ffcc26d524d40d4aa948116e2bebc6f58cb4eb9481263b886233369b299⟩),
  (false, ⟨0x13844bb1ea232ddf27800e009d86581fef37275101b1fab090180c02878ceaa97f552de197e176fe377dd444f4cb737d, 0x15ebd31ebecae32c7203806f496d943c3267242d41666a580cfcadc29140a6d09d0610ada9f265c8a331b34d22864bde⟩),
  (false, ⟨0x64318ff0653fdc449b17f37a28f57d29ecdc74289242aa9cce20e6c81cd40cb6faa3c1b606abf9f8008be776e180602, 0x13a805ea8e526613da44da0cbe67cdb3627a0476d78c993476648e3e1d5a6f6e865a26daf9663b3325c8122f058a528f⟩),
  (true, ⟨0x287b6ba4c00c0d105d44807956d1ee1fd9280430f157e86add0db3a489c3fafa54e268c513a071c3b0432d6c622ee39, 0x951661439ce837fcd4b72394fa56c1d2539e17d985aad9eb2092c9554b78775f08a0c522921ea1abf032fb233d41c2f⟩),
  (false, ⟨0xfa73ece5299e8c25f2dbd220f5ca29771d99ebaf89326309b5240e61ea277887c4d05d34b7fe191d5be89237aa91149, 0xaac8b3b094a0b4c13cd5caa746adbdf96b36651fb3933561c81f43cf68baa77eac213f368c426489da895dc86b804b⟩),
  (false, ⟨0x4a84bc0c5135358c792097b8ca350285a350011f5a34bd4f78e49609949aecda362bf82182c8f43549baba079d626e1, 0x16c34293caf47deb517aee9899a5f50f904b80c6b27dd4d2152cec4916c25c96b8ff39bfd0d726810cdb11c771d66532⟩),
  (true, ⟨0x7457b21e7417ae080aa4878ddfbd2dc76b17f2dbb049c3b55e4798b28a661fd127b9626f6d9d7b06f8c2a1f53af355b, 0xf783eb0f0ffc5f675ae53bd0fbabee53ef208ab40ad9f5650de769a13ef42ee0dab6ac663ee3d8264db3444f8cd0fea⟩),
  (false, ⟨0xaddbc1853969bba0d8483cac71882dfdfe8a7fb54e4658c2867964cb0a9bef753451557a59d5f5d051d31973630b950, 0x105326b94376b06b5aefb3500da9a9c23ccb6e00d02afd9d9814f81abbb1dca11055d247f04e3f2747c98e35d213b36b⟩),
  (false, ⟨0x2b0650488cedcdab1153e9fb3b83d702b70dd3e4b87253579ba959958b23d01bc4c61d0c7a1e5d8425bd8f5af891ad8, 0x1618c967707f59d5588ced2811ff9c0575de45398fc9a2c34c5a57061837e85c835c644a8adad356d659812de019994b⟩),
  (true, ⟨0x15f362efc1187357cb0984ebf2a4d6aeebf91a386b8b9092e6a9a2fddf4929748e091f221638afefba086ab23d20e093, 0x2d1131a080b3cb6fa0af0300b020cd0aeb765ff3b306306c3427e1fa7d6b080b6c0ab5f37b976cb283af79d87759c7c⟩),
  (false, ⟨0x22d4c4edff7c73645ae3135dd78ae513bf3d355348cdd2206675f1755d75f1df88f39919223681656b1c33b561e3101, 0x174191d742162d681654aea33dec0826c04259632a56e1c71f1dcf7ab3ef00d7c5c80f112feb4fa054b3aa418ea8fd0a⟩),
  (true, ⟨0x1687a09a4a099c0fb2480df0e0ae44dfd00e5b2ccd6191421cc7f5cf8499004346e614a0f31a891db058227f1fec5e78, 0x5dfb178b8c81606674737c92a733339e7972bbb91fef5f0fa5683fe44e333afc065cf7bae1efc89aa39a644479e2d3⟩),
  (false, ⟨0x1039976458b8b6ceffcd6c33e740616164c997aa768afce20211a259cfc1723cf4d52046f513bfa134122f2f6f270d39, 0x13b6413213d7f97cdc26cfb09e285f7723daa13f7a2f60411ffae40e9309ae7f6f1f70352005a4acd77a6af828672fa1⟩),
  (true, ⟨0x107c9a16ccface83f9c0ec496830cfa426a1d568a97ede923c327fc24c377596dd10b3ba8f96d4687931e6792557a5ce, 0x18e303e3f56bd392dfa1efab523ff33225be844fdcc40987569599bec406d583579e8e6afd253079dbaca51d03edd10⟩),
  (false, ⟨0x722523801fa5953776d856dc370f57c799d7ba071d3897a2ce1963319294e65f6e519647ebe5f25417bf15a83c37c00, 0xb889b5a35ec3d332e495eb5093980b973a6e0e2e450d2497200590fab9043c38173d41558ae63471b0b8114846b437f⟩),
  (false, ⟨0x14328bdba5e17652e3f1446e02317465d787af64bb0044e120521b8d7526d6d59a56d64608d26ad85ae4a440863e8e39, 0x119e0fa66e80b56482acc7eb1dddf7497f40bd85df0085f5ed181947534450c2e7d270b4cfd287111b059aeb298e6bd6⟩),
  (false, ⟨0x90a5de4691a8502b55b7bf23a112b0ed99d1fa1b5d559ccf8583e2f0aa22824790933910272e3b1e448148d79348031, 0x10d2b748c443cbf17c7fbf0a92c206c958cd3fc9faa1f2d4068bd45aa98c17e8599728b18553969a3a650224f6ab9af4⟩),
  (true, ⟨0xec05d800c8541db969a139b831773045efa82e1810e6937474c4c27dc0212abe76e154ad0e90c77f249bbd01d3edce8, 0x3aa3ad1031ec7fd322272b5bada60f3f38118a24355d5dc5894c9c487d98458a3138197e44a144f1901d1e4c2cf64ab⟩),
  (false, ⟨0x4d452d06b26dac9b9a05aea720327c859d5a09889ed6a752e8b84cda710239c214385ee5286cb06cf022e325a6634a1, 0xd138a6156685fa0cc6d171dea9f450d12b900079bd2cfd8fc2aace39e4ddbab3a5aa00bfab006857b6c954b0d660cce⟩),
  (true, ⟨0x11afef17b2ae3efab078f175a72e84ebcc84344c2b505ef145545b5afdb9f32b6407eeefcff8654318f4e3d02a973ad4, 0x169202dd4e21258252fc29a52becff8b3009d7bbb1b4fd2de078c62beb80051f88beffbc40fe7b5136c1defc5ac69e75⟩),
  (false, ⟨0x15b50daaf7cd4033db25bbf40dcc7d27fa155e0ea3e27ef99a96508a28f1623865dea374825cebba1f9f30dd3089f9b7, 0xfc131e765ed221674b2ffb29fdde8fe1bfbe0bec84b9a3fd895e5c55f2787a258b6896a50429df50ec6622ee0925128⟩),
  (true, ⟨0xdfd0d0454393cfd667d596b44888086e799c370772ad3c4412ad7ed710250f513205191d79c4bccbc6c89f53f76c01d, 0xca8161877101b1b5bd8226214b851c331e04710d839ec0ba9248cef2dd0748726040c84956d29ec37c5ae1595b56fec⟩),
  (false, ⟨0x1245325c5cf7ddc4f0c2b7799be43dabbf9dde9efefb7067f2c298e14385b9129204e4ff7af1ac1344f7902fc6c73189, 0x19958d429c326fec7807d78bbe7391d8f27634b80fab171c29963eb0e050cb0e496323df8aee3ae682b080ceb384747a⟩),
  (false, ⟨0xd872607a0714f37666b64cb84dd1f84e1c05ae4429cdb4f051239c301d35f312cb70cf47c4575188329236d97c0899e, 0x168f6c6e3151b4eeaff368ccad77456d26385209948cadd108e8ad8db44636cba5451c26cb0ff11e09160e28b3ac93d2⟩),
  (false, ⟨0x1201fa345fffe62bbb87478a12e526b7684b44885fe6bfa3fe89e92fdaa2855455a31411aa166fef70fe4d221fa6431b, 0xcdd90117653b972a77f48c2d3a35e29817070d1fa0097553bea44d82a7943392cb67c57f19512b670b825351d6bbf40⟩),
  (false, ⟨0xc49317038e528b57dea16060fbb321ca8b67d7b3757f0269364f8555ef9d50ff599f18824328a57ebb3c6c44bc63b25, 0x10ad3696e0825f8625313cbd1c0283a2ca9153f4cc1557c7cd56931dffea0bc2202b573e2b92c295c890333b4b7bf42f⟩),
  (false, ⟨0x168dc5c7e28b423580937a267696bf37ae4e5712ecdf092468e3ec7f6c4742989f501d0ef1a5453bb112ebeec3777cfe, 0x40b896f8c8ed250eebc0f75351e6398a953b221f93737e12d8b48bd7fb709c8869aa18be1b92e386a271a8b2eade72a⟩),
  (false, ⟨0xbb31bddfae744ee6a8aed884ea8d4632c157f96c5e2697cfdd08026b8431b702df832f930844999e2cb705b0d346bd6, 0x10be53e21fecd63118a147fbcac1f9c8b2255a9334956d5812219c140ec7cd3f5feb234574ee3b91c15399ab47aea30c⟩),
  (false, ⟨0x1342919660632790f3b71ad18d231f42fe5e4882b4df636bc075f774345c167ba7b94affb57121f0af32d7d23a67ed4f, 0x59943ca9dab3f4844e8323a74b378ecb057b840fe122b55f91046f0393d30ba13104c6da8d309ba1e09fe987bdcaef2⟩),
  (true, ⟨0xe088eca4b11c9eef9f9309d8095e65ae4bbfec144ffaa1fddf17f18880130ad3b40e4499fa25d29331b0f22ce206e2d, 0x90ffa48448fd6acac0ea6fa839688699f2f6c284be1c7d2e0b7d529e396697503c509a05afad39876f29330eadab7ea⟩),
  (false, ⟨0xc961103b837f827bb8c2dcaf8efdbd99a930ea585e9ac8fc454db634c38a280928fedede33e6a8c35794d662f7c878b, 0xd5b5168fb0261b39b1bfa8c6267fd5824e38d116ac123e131dae5445304576eeb703d056d732575cd9dc1344b07495f⟩),
  (true, ⟨0x10e216c2f98058c1e79d17615c65c61d03eefc7e97deea6c73a360f56fb73f64ef96e7812a8642ae25b513729e46cacf, 0x12d33ae40e95d2f2a6c6a93ce506f5b806310fdcb30dab580b5c0c884b034a17469353affaabdb95b1b2cf0524ed2732⟩),
  (false, ⟨0x89caa93985073abea4649d6d96631eb589f55816f8ecdbdf5301ae3d8c59036876718047fc59b819b7e93b2e28d3f77, 0xf26347bc8a9089255bf4eb32aaeee8b1c518fbbdb713f99e798d3e988d272a75e57a37728758d93c0ed984876e4dd1f⟩),
  (false, ⟨0xbf26371666c2f2aa9cd7d55adf202c96e09158173a7666b3428d9be18aec4df0d30971107feaff9f645d4bb80eb786e, 0x14ff69db37cf704990e4da8ed723b54f3a8e87a71b1f9b69afe3689201ccbf5666e025248445b874e77bb25b5c24b45b⟩),
  (true, ⟨0x2b1f5f172ba2d04400a4d3dc4f504ba8d1c9359712ababe1b7c8d3f64e36d994bd91f69241babf1a06c44304d5c242c, 0x4d2a9ef90077c11a0afe1153ed68865e3be636fc58ca55b010619927baec0cf3cdfd08057006fba332b1dcc13858f38⟩),
  (false, ⟨0x1dff68c2ab61aa91204040862fc77ed5a0f71466ad6257ab63672d4cfe2650013aae96e1d80685667f770e95449fccb, 0x9c3e0c54cbdf98a9eb3a61d81728bcc46545551360b9d2bd0345579d07e06c54cc113cce3abe615b43f398ef9b4115b⟩),
  (true, ⟨0x17e5098ad32c22c97d3a5c7fddb9df12e9cdb69624f3c48634a7148a1d3811f6d8c55e49d97cd8ff3fa21a9277681b01, 0x4beeb5c822ae96090e0f23626089880af2d2f3594194e6ae63dbca5760df8b2bc8ec2bb309acc4504ac36cab42bba5d⟩),
  (false, ⟨0xda5693f5d6bcf865b90ef817fd5ad694c9975ac153c80c5818d483a045a5f1f09117f5cdaeca5925e7ab0a138fbc4ff, 0xfb2785da6afeadc6eb6131cbb220fdf02a779d1bf3780dedf8e77ab8d842029ea99a488351b17c36fc8d8a177988e87⟩),
  (false, ⟨0x5e128cdc41d4edca52b12d3fd32b91ce94792dfedbba6bdd83d7d9d105028dcff487ff7803225ad2f600c7b93b33cf8, 0x1b7c323cefe5f00856715b628fbdb736820a70554b5f8fbbee3a57e923892e15683d960a822f5699111ad7942c9501c⟩),
  (true, ⟨0x72736b27b9eecc163ce12cd5098df7dc06f6dbc8c90354c660754546ca57b2c8ae1cd4bb357a814887e9f21014a8832, 0x19ac322446628db1b8f5a5c78119a56a4f59015b19744e6552333a09cfa875f6c9f7558dcd43debeaae4bd242aa36203⟩),
  (false, ⟨0x1711869ca4eeee6d21d0df70cc8fa03eb24283c70a7f03d80e5acd7c1f4d749b54f11c274de1082fab0bd83776bc4659, 0x18b55b09dd85c2a379392910eeb5064c8e2c506d7e2c545308f4d2559ff63b14f1bee81838f1c4ca20891b37c791f971⟩),
  (false, ⟨0xe3a825587cefa61f11b9812fc9fc8694027c75910c56f7994faf61fe8243eaeb09a2a4d09d56ec28a09c98594af27df, 0xb9da9cb75225712d642045bf1d14ed4eb9f51f9381ad5c56a76dff9dacb99a67e5b30cef691bfe59a8e12ada5f49f84⟩),
  (false, ⟨0xa23a8507124bd09d3d32d27fabdafac4cc5df13672c8083ce9552906924cf176973fea8fa4ca8aaeb1c4836f2f299db, 0x744d89af7c8dce46a22034355067f64de4b174b7937b8f75cfbeb750be79cc3c81ffb0707944c5b417ea11258b597ea⟩),
  (true, ⟨0x76828a267ab5b1581a104a3cf1a639f3923cf38c8005587faaa2b119859b542ef8626befb6224d639f5212dd751e7fe, 0xf50f0967c5155fcff0f79818f8aedbaee72c75ed29e508ecf3f1983d1ad085a5cd23670e426f95e18795cdd2cae37ca⟩),
  (false, ⟨0x108f28da3671ca0ed88564eb94996fd3f45e7c9e57b3205394e7302cc42fdd71ea5202566cfaac0040ee0dbb5c5cfa7f, 0x3b28473861517a549cb9cc618de732c8f1c94a09ffa9e7f9d23adf89ff6a9dff1a391e7d5e4424bf14c5eb3c66958fe⟩),
  (false, ⟨0x153dcad63a4dc051f6511f71775f808eec298f24ddda6f7011ef6328953f6db6bbbced7b48632a5781b320d8103b3a9e, 0x2ade843600eac91e93bd222598f4180c5320fe833ff01326bceb106104b73dea36ea71efc0be5cbcb01dff09ba82c4c⟩),
  (true, ⟨0x14732cd2f149e8e352966f297e949197198df770c2eb0d2268c10f0f033cf9426d88390f1b577b71e44848941685914c, 0x1d92201a98354e3c4dec885d45efff4fb5c4bd56df9231c82c03e193b70a028e5631f58a8587f29fdf99b970d4a946⟩),
  (false, ⟨0xcb2bdabe31923e35148a8119f5fbd98ed99ce13554be7b3dd002322847e845f2fb7907f5d29f6e3127d968a6a4a1476, 0x19f3a50e7e6d059db89d95d414fd7e21890c8b29411278473c893d1e28b98bbee005210611c87df3d325a6649fc70883⟩),
  (true, ⟨0x76157cf3a839ac56bcc15fb452c16c2a759a48873bc1cf65042a4cc49f2d1eba2e8307501f79b9a458b7f7021642e72, 0xd790f1172ffdde8029d80befa17583d33d9bf0d986b483bf7c3db20621c61e7dcce84985e2bfbc5fd11ca94cb92f2d5⟩),
  (false, ⟨0x10e007ee3f152b1c7c53b875b69d65c322e76ac9f6c77bcaa6970dd47cbb23a290873592d5eacc506b715fe7021e3448, 0x837e270485a1d5d0c1c4e58c0c692adf9856dfbf6aa9ebc466ddb6ceeb77815d5ac86cfe43b772bd6fc9fc03edb1531⟩),
  (true, ⟨0x405daefeee4d48d0be44a480d9f83fd10f786f8aac0cb98918d2b15ac6cbb61029c2839c571a6aeb5f626f42ef80331, 0x10713f16915e1aba13ef1cf04aec144abec9c27ff3de712ed166388c17a105508e353f916ddeb288ae7518097e002c20⟩),
  (false, ⟨0x533ff9eef66248826f22ac479f0db2315cb20eab344a0fc166430b22ca49ea8421ea375687dcbcd7d1c5be388e4197f, 0x17ae6d2dfe615764f1f0df1da70c57651a06d3604817672ccd6ddfa1617382f600215bdbd54d1f4765c1229ebfab857a⟩),
  (false, ⟨0x17dacace97153836e78e496b9f3540d1358e04c8fca2a6bdfe8ef0d2637346461cbb7e397e0aca298dc98354ce0f3f68, 0x137704e01e8b71f448aa3f9bf692538cfcdd4916501f1e5dafc2f5e1102925bd9a86a596c3fbb0831bd6037875135bd2⟩),
  (false, ⟨0x7d750b243b53e50726215366310a0a5e6406e929a968269a1392758a7559a90f82139043c41d0557d17723aa1c42658, 0xdfeba89623bd86292c24ff9924ac2f78ebefd4b17c5309ab409ad6c28e185de5fe601837de97d51336436601d1dc6eb⟩),
  (true, ⟨0xd6de5a0c4b47a2875be2c7f132a119afdbb20a8b90aad8730b79d4b54f42a8aa6f70fe274969d53316efb98be9debb2, 0x179e5a6863fa910ef8a47239a0409dbe51b87db5d0df7ccd9d6e6df7273deb77b1a03705c91ad1422d542371ad35b1ba⟩),
  (false, ⟨0xc31c80b484df2638f5f77f1d7bd7b2e0ef1591c7e34772828e28c42117f7727b02d44ef964dee7274aaa6c9f53d34ed, 0xc69c33f93b001ce42faa285206c29c932a864e7566f7ed7e8fd5e5ec2266c5dd9d1b1bb784208f165ee720fcffe4dc5⟩),
  (true, ⟨0x98c1737019d89a82ba386a2110c18b8eb917f065a6f2eb9ce4bd1abb3b9a5fbe26ca1a443a661a74e9191a1d1a4b276, 0xeda85a87843c79d0d7ba172bca2dd43d30390c7206d369c3c0cf7d8f8211787b152fd895ae7adfda8ab5949d5faeaac⟩),
  (false, ⟨0x187c5e91e7cd53d740f30960ec6b7736129197ffe9f85cf4f35b76f7fe14f38953810a78b7ac9faec4a242c49939414d, 0x924c755686d051c81b8d87ad848bae3a4dc17a0bd8ba835bf6f37af3d7940be13bd72406ec84a4852f93fe3e95e3a53⟩),
  (true, ⟨0x7be8fbda5ee73aa9a44a24ba72ce62e0901bad62caab2936c89474abc382f7de6497a48530d0a9f38355e21b35aecba, 0xfc5e5fc11c34cc62dd191a428b706fe55bd7f467c49ac61400ec0895146a07e4ec64ac78d75ecb55f571b4bcb5a85d5⟩),
  (false, ⟨0xf1877416251278e47b538015bf8821f6059296cd1ad21f047316187ee169982292388a49b99b68c312ee9a17013ac01, 0x833f3a496ab703f7fc1f073ad517ea5f3369468bfb11f3f3547b26627df094bc7993f3d38a995e3b667a0977fd3760d⟩),
  (true, ⟨0xdf7f708e3de563a0b4cda3fefbef034039bc1fcb0a118e5554689b0670adc6da47ce114902e17288a9f2b197cd6c6ad, 0x153b821eaa32a134778abd0dea18cb981153f3a72690eab5662f70e95dea2e5902bf5006993dadd9188ea849fdf7c6f7⟩),
  (false, ⟨0x16475a3e2770cfe3cad1f022aae7b97ecf329189f904d01f5c43e1547a10a61ca9f809bd73fdff4c77568fd8a3037e36, 0x42820fbfdc29d717f56983541aa07c89c1b8fba48aa8fa3ffeb9414fa5628f0be5d37ba51973d5a0e78d5121c0b9dd3⟩),
  (false, ⟨0xa1c145b0f7c9ce0b6e1fd4ec815d1df8be29929a9e8bf62036f986b5937926a8fbd5e6dc553cb556074e11f705d9afd, 0x41bda5e536264382671b5b17ca74a14a86fc12586d0570773724d4666dc110ee761f67b255d4e038b83200473a5f3d⟩),
  (false, ⟨0x876ea2be300ffe4f75809699add801b34791f431bc0b9d9238a341e2fcc65f269a848cf650f45488a945f767af1796b, 0x1d9961f15ccb216eb329ce45d2a412c679ed475c9046146854a57e15fdd26ddeb10b51bff00218263815d586013cc9e⟩),
  (true, ⟨0xe384b179ea6ab9d507592038b6c54f306089d270f63fd2a1d79228a48158408df5d7dee768435e15933d8f8b604f793, 0x16fb27b42e3a95a000f9d4fd180845945b52c7dac9b6b0dfffd3e4823676f43cc099279b9a48bbbb48927aa16fdb9e62⟩),
  (false, ⟨0x1803364ebbe37a10535b4401d2c4163f7f40cab8e5590fc7ff5822e5ace16e2d245cd8823162bd3c37c64ea00686a9cb, 0x1515c103c805159181fd42a2f3ce2a0ff977ac29f0c460d0f62273207bb77ac886546c79ba174291d6b27562657332b5⟩),
  (false, ⟨0x727f7dbec54071bf7aa3933d7cc0105fb6d8fc02470a8a5c8774615dcea3fc0dca6f63ed2d02c59142b83b37bf79f12, 0x32df753df41914d47ef1914d448a56365ebd04e4461dd511d264fff09a8afe63db70280c5f334b1757a59d34e5e1065⟩),
  (false, ⟨0xfb7d5a4593a30dfa22bd452425fb935077db3fe505a6d6e45d685d0fe30d45b11bef25fa95117146e32f90d65dc787c, 0x1358789d8b699d24820e13c7dc585da6c80140ef24d9b3341180c93b316ce868640149aa62692db2b3258a8581938e86⟩),
  (false, ⟨0xf1597ef1b95f28266414fff168c6ef0e41be5b8737deb75c8c0a00aca6d7a08e116e56b63f4bf5eeec45e7383e2fb29, 0x13f29c9b8fef762779370190b0cdbc1bd75338036176fd7466765ff3f97d1ad7c2f881d99801ceb7e559a7b85e623244⟩),
  (true, ⟨0x5c1204268100d56c43323822c4284d30f66ddee97326a53ab46b909abd7af6c28a8a25657e119d6afc29aded49dc982, 0x1721ac11a93159bd6dccae973cf5d8c1f3bff49e4083ad72b87f5d04c94a552cbefb3f161a5e002d1f4f08bb03ec1b54⟩),
  (false, ⟨0x743c274c7665aecfd264e0046b82eafee13669da07fc55dae25b15b2e159c5e7e0a37dd8b28e656dd1c66d73ce0074, 0x3fc75431af0ab61b6889d0e1bbe09f3c06caf539ee0165470318cc924df6779fb6ed2c3fcfd4081e36daa5739caf4d4⟩),
  (false, ⟨0xa7cb0c0ff43d5758a541baaee398e525d24280f00adad0ef4bb059d0bbe353d90b62cf96446ee1cf0675936a4276ea, 0x619241735d024ce7830a9830b15aa5b86a2a8f04fd851f3700be2e9237dd80bbb69f73fab542aebb886371f9e4ede46⟩),
  (false, ⟨0xb0191ee74b0861c15962e6dded44a2ab2d239e293dfad9dc5a8bf4e4f72e65881bef98d75b70847ff24381a0482e5e3, 0x15c3287c4ebc98d66b71c26705d8663c7ce642c081bcd6eadc8794029c988fa4a9ba354c87fe5a1450c85160342aa6f3⟩),
  (false, ⟨0x187d74f9f87482835e5fa900fc76402332ea0eda845f0da2095ab93ddd1890c2ad72cf16d679b8e142b06c3d6cec102a, 0xa418c7922726e62f0c56241557c5dd53a9a453fed92507072f99884fbe666e1892da910d958f38c44d711afff0d99a9⟩),
  (true, ⟨0x12fa8d9385f26552d47ed2a9e3f7028d169e446c5ac33492cae3ba8621ba51a22652b79ba16a01d366c5ada87893f69f, 0x24c3276cd0fe146c10f3e975ee0fae2c2477590247e4a98854a4a0c25c853ad1f53d483c6803b1981794d44a3f8c67e⟩),
  (false, ⟨0xa948cb20062f1a944484a3fdf8c0df421efab3d9194e29f2850277f59bef002bfe8764bcac2d6b83b1c2c3bc0758604, 0xb803bab4accd6d9be2cbc96f0184cb4ae3e54747ef09862e29ed239bbfdcd7d674792ae4ee92d6b1748bc6c3f1b2764⟩),
  (false, ⟨0x11fb36b291867f934d2211de63bc3062bff922463c5963a4c4b4b80b3967dc30264d94d3c7aab3c17ae466f334ba8d93, 0xb3e04c3d90c6cd7cf8438905b606826f3a13a70d98949573086539c316eb3b2ba86bfbbe2956ceee1eedaedbd830ad8⟩),
  (true, ⟨0x358ea5158210a43f36bd2c4e09141d9c28bb80a3315bd172a84bc33d8facf7ecb1dee7a8580928351d04bd4dcaf0851, 0x8ff137d37915391d0c98ff24398ffaeec9296d787f439b3e5c9fd4ec34fd7ca717cb54691f4c48cecf8a5dfaa83d658⟩),
  (false, ⟨0x13b402df2fe4d4019bbb5f44060f61eb406e3a45e7ec31aeba65224680872abb7f0fd67b375a3ea9641ab7b4687b504b, 0x179c6bac84591bd4ef1867babcfb3208c3c4acc13fbe7c26bc1ddc76c83f9cf7df97fb1d5936900b63d19af018f51eb8⟩),
  (true, ⟨0x9d53b3e4f6e6fb31ab42afe774cc9f8fbe8385c353fd1b2f4cb6e1f68c96f17263dde703ae6aeb95beed15b836b29b3, 0x133d79320a82159bdd59db1dfb5c20aec14da73fccbe61b7e1a7669878503e6527e263f21a4e30f77424bbab4dc437ff⟩),
  (false, ⟨0x18ca9f9d5fe2917834764beb322fc572c84bc66f8ff96ff8c3b98c39fc26d85835526bba51aaf4affa2b85b9cd5809da, 0x1996e75b99004daa2d743bcf2031cd653aeee734daf0984d6de714625425d62081e9f268364f34a0c1c58f77448acf96⟩),
  (false, ⟨0xdd951473d674fc83b41a045616efa85be0b2cd2a283b66e5326fdda551ae34b93860a260b0610013e14443bc8ef71f6, 0x8afd730d8c0a5622d93aab12920422c30942f77387b5ed0876d0066bb6ad8deb071d70402833d81d3f62497a39d5359⟩),
  (false, ⟨0x18a1fd8f4bb7f26830dbc97a6745473e2e793671a1b917cb72e09085a0f4415f6ed21d01c5e905195ae69fc2bf9f2074, 0xbc2bc6a8cf2c0b2e4a41b5b2e5cef5829ec3450ebffd6e9a2f66cc8504a9529a48e696772f19d5079928a14358e06a9⟩),
  (false, ⟨0x2106dc46de1c7a196dd90e7aa13d900445586fb6308db41726e8f471188d47f32b00b416569625f20a2aaa2727565e4, 0x15965b3847760845dba42775f23a0dcf8a43c5b098f86b423cf2b7f93cc566b70506f20f9386eb698a04f354b9d11115⟩),
  (false, ⟨0x132d4b6aa868395af324fba2f37a0bb33a55f96e0654492df6f29bb470eca0ea71fce882b4f8114a91c16d72f8e97417, 0x1548c307c2c0c48f8aebdc2cccf8f49c6c8942e09a10acccf33499b297779e33ef3a6b86a2e4e1b2a9c6d9d5928b9ae2⟩),
  (true, ⟨0x11a0af529510f3bf6f7590e232f54e7b734efec167bfdb80e69d987adbfe252f2b20b7d6c76546689df37dd320020cb3, 0x90b0366876ae57cae72542d2e7188511e719a3afa235f70e800b9ef92a408d6473eb86a298948366b4b6b7c15005600⟩),
  (false, ⟨0x194a6cf108428251475a1ce813ab4f9da4003e2a6d79f706e041941ca50f63ebd32b4d6d7cf403b1be3046fd8fbb0a55, 0x81eee1d42da10da7836918838011e1d215e1b6dbc92466dea8f07823f8cceed9f23da883ed9899cec6a2e46d3961746⟩),
  (true, ⟨0x14267a12edbf011b3ae1766a34bed97a99aa99d064395c488573bdd5e400f1a8a7dc835c502c6d2867feeb0b388e0677, 0xded26c89617f1c5c2d99397c9fbf71f71ade9ac6049fe41d9fb223b4594681cd8a711caa16503c7bf4ff18a1131326⟩),
  (false, ⟨0xcadefe819b5241b5ec9c10e358d90d9f80581b118d08fe7a5b90070db929cb11015901df910007fe05868796a2e3569, 0xfb2905780c8d4b07eb06e2a9d35305875f2a77486d38247e3a1d7a6e28720bbf1b71e3da59154926a78a952de05c887⟩),
  (false, ⟨0x17ff8bc16b834e250e1da0c8b3110fc90e8f26fd0836e39458e8bdda9e7b166c56a543245bcb9357d7d8a7e62e44c2e7, 0x117bb4548080b7b839f9822c9845d08a5dc4f8f3ff379aa0b3d37d8aa9729e9df43203f1cc801e687994defb99d2e309⟩),
  (true, ⟨0x8cef27707c236dd36d70f7898cecdfcd0a30548b410782da07ec773062a3769d18ae725509de28866f8eb5e170fb78d, 0x11d583b5bdee38da45597234897a751b4580060dce6490d5e304ff75bc2844f140c69c1fffaf27499370908ae5810e72⟩),
  (false, ⟨0x13c3e51631036646ac785ec12b3249115f74b9c28f6ff70a9ff208579fab5ca06660f652e4b075564245f6c07ceab5ce, 0x1d88654761a506bd40c778fa8570cdd5043774eb646c54db0b8fe058bdafe78c0c5f98c20a42d6cf194b672b7f785c⟩),
  (true, ⟨0xe074b70ac4cf0c41ea655a7f321d0c69250e1473c32cf67ccda5621088a7894d5c50308c3e13de31b1fcc6b8a709983, 0x104ebcd391434d9acea400ea9baf4076dc4a437cdd4b3a3c5bedf4ea7912100dd06eeeb2ca9598819e00fe1f8e3416e1⟩),
  (false, ⟨0x62963e643a4170c09709c4c3b2849e727fb8f8829a3baffce80cde308bbec7fa506204ce7b6a2f00b340c8dd07a1a26, 0x35a54208c52a78201b01dfae5a64c41b911e6bcf54086700fdb87231a500dbcf71e55d8113c9c6d60198f50ac921c⟩),
  (true, ⟨0x10b29865e525101c13cbc0ca2c5ac315cecd0c77e8bfccf3c7bcc237a298bcf69aa52bc109d7f20c727008b08a315ef5, 0x13399e549fe79927a39c234eab5483e361233aa3e631a4bc5ee10bca46cc970287182e2658b40f75f2ea01d4a2fd3f44⟩),
  (false, ⟨0xda233fe53c1915e4287ba40635ec5b9c35e1d3da36dad061688e04d6ccae1d213fe8a7b21107be2d5540263d9044764, 0xe25a85b6cf48e057274ef8ecce23ba344253a4e942a5c2cc99aae5627f03af75209b89a4f4cd7a5e4a572183b256af6⟩),
  (false, ⟨0x13bf481c27c6472a6c245788ad1a30f02cb6d2afb7962959ecdb4dd9dc4d1b8b907406d50392a025447387890310d7, 0x1144b2562cd28d86f3ad53c14bb7b76ced27af025477a02bfc7a3177d48200c93cfe79eb86c5e382c64225925347b6b⟩),
  (true, ⟨0x133fcded4cd3e81a3ebee2352c7061197b57d9f978f8d290e77972c2904e9dba07c5edf98d34a1580180bcf4651a1691, 0x52e85063139732edd853b0096090d41aded1eaad2a7cde444bdda9cc6454eb6380da9fdf9f196c6d752831097e31a0d⟩),
  (false, ⟨0xd7433c0305388c36089ddac47f9082c66d7b2b8bf4ef87351dc5d75ee7031de0520fdee1135df89b75f54c84c3ef3f, 0x11cbc24ae5583470644f095cd8e71f2c2b9406644727f05a9908086d955cefa1e5fe5afcfc30e46e14eea32b19a0f744⟩),
  (true, ⟨0x17266749f25952f062ff564cf36f091aa24f6f854ed918e2b6f5132f7a1172c831589a3cf163b4449b69fb351508863d, 0xe27f43e4f68ccdccbe4ee899b2dfc3162d8edd76efa07d17589551c3d4d780e45b2a250955d7a89456a6146748a01c8⟩),
  (false, ⟨0x14781477d17df7dfecbdf6c358fdbf6f896583caed6780edd901b464d3b5cfaf4ba5c4954e6cd81efb2be64b1d1341a7, 0xff9928ca8ed257df342b5384bb98779eb366be4448fe80b56103ff544491096be58867cca2ae3d75e212db43f899c90⟩),
  (true, ⟨0x134e443e73a15b263ddd23f2a2c1cf841e83eb2e43dbdbc9bbf3d57379e5c4becf4022a2859ce1787775cfc319f0f5bc, 0x54be1dc6d3094d840d5e4f5fc6054f9d97a612bec68cac88a28973572a4f262d2b639453e8371a3d46e265f6ddd28d2⟩),
  (false, ⟨0x6249f0c5757c6258b042aa22348457d6bfaeba1e5e1f05169dcedb418ec1e9dcb3b240fd01074ce108fdca23b1a342, 0x162fbef0bd1c24fc98b5293210d659a8e91fb0c9cb167e13e9ce8b72418b39408296f58cd2530681e60c1f8e177492da⟩),
  (true, ⟨0x16be3909f7a8704a336c5077b97122f81cef686247592994cf3e061b962f9d9d5ba02df628155c82d2651e6c37474a0b, 0x107e8a994799addf03972a42363d6d0139939c9d875af1fba4519aefce494472160081fe2bfb0510cd372c20ff9695a1⟩),
  (false, ⟨0xecd949222d540cea22785f2d04632e544b33ad4d3ff761acabb36a64e924599771c42edf0adf4dc3fa1327b482a8e90, 0x33be062ec7a0ee0f2f8e68c3a3e653c4f4753608d4f40c8ebb4b13ca0e0612c5a481c5dff92af9518adef5c5b81515b⟩),
  (true, ⟨0xc470732f433fc8c09e906bd04d32536eb47cc465e1364cde4d7debc15c7a4ba2c3c6f67068ded71c0aa06bac5ec719c, 0x6d4bd1743f7b46ae9a3dc8b408d410569572960e6e0a35f1cc39a8373fdedabcc54c7175e0a5ebefeefd971ecd3f609⟩),
  (false, ⟨0x19dfddc7d46b4fd3e2c06af90cbebde6b65bf81791c2b96d0b5a8f08a6388b2688b194f49560688435fbcafefa26881, 0x4e36344cb9e2b65fcd2fe12bcb82f87f048aa531868f880666a640b073454fa3b5dc52765dac0bc714ca9ed0cfe992d⟩),
  (false, ⟨0x174629e74fa2438c2d1653decfad2cdeac7b77fd7adf4403edc30fe30bd582216466b07d14f5f6bbf12fb9aa456a4df6, 0x121abf56fb810b7b6e86f1fecba499104fbb8129d99eda25ed587413439661d29555bfa343bc741d8e370442e7d876eb⟩),
  (true, ⟨0x177bb805c6715ab3b199a2eef942abe40f3947e262a960966d1985fc33b70cb54b8ee1e8aa4648fbbaa89b11422c7739, 0x11af603e74f9e1613c81aba2582202e733450b55564e0436e3caa5afd78d13c549eb5dfafedd5bc90678baebc3fcee3e⟩),
  (false, ⟨0x9925f4551211b78a69dfd8052ad88d56e97a8ba637228719d0b20b1351e29d7546f6c6063fb21a6dd0d7683df24813f, 0xb0755e7266593b57292ca8a7f29d5ad2b8cd42109fc49437e4d6ea80159ddcfaa96b95a3c9ab98f0877427795d1fd66⟩),
  (true, ⟨0x126b9245101bff1834c4f73b301b3e37f594dab335d71d4234316a1c0a69170e5d171aa9f4ed73b01c1224e09c5f4a4d, 0xb2d4caa876fdd4584db948a80ee0b50e002d267f54f64eec80e60298a0386100248bc6d141bba204537ff702744f549⟩),
  (false, ⟨0x11152e88eb01d9a9f7187552844ea1c2d65c6950fd832240aa6a6fda035d9077b9b425565dd01f9f0329ab76f2fc704b, 0x53ded72eaf785c54719bcd061ba2623c556d637b355176e2149fec14e5a1cf5e4ff9945113548a8844792702e817bd1⟩),
  (false, ⟨0x80bf611ed98c280b04ddcd8c58ccf6905d12f8edf68f3f312bdd60de62e625c1af33c34c8e8a7afd40d2650b10ef223, 0x14ecda9a1cee40a12feaab424f2ce51b53d449dfa9b8598b75f75d3b8bcb7a8d046ac41f5490edc181c69ca3f89e9cc7⟩),
  (false, ⟨0xe9582ba23baa2b2ce57a4a646947cb578d138f36d78b0ac206bf4e4da27a5f6e2a8960f1850fdef2c7736c50f5a6369, 0x117acf475efecad7960a09347b8441a1508c6979083af03fff5e4ae3b44b5f06121d6b4d48513e5a39e316a4445ed46a⟩),
  (false, ⟨0x90332767c28a46fcc7834b5add485a4606d64e435993f5f14980aadfea293ba8a269814d57ad624bfe01ec75fead3bf, 0x33efbd72d04dbd7992c235669e0c8896023b1f8322bd3dffe2ea8f9396ae91f8525fe82d2a3748f76a97797ab995274⟩),
  (false, ⟨0xa00f37d77c2ad2ac77467b3d42f58482c76ea4fae005e70fa73741f92c93781bf09fa906db08f03d271842760e5dc34, 0x189af5b5966f6acc8595bb19b815b50f4064b13fc1f22519d74b206d8902b141a3d945520d3082b53454b076be1c0f6a⟩),
  (true, ⟨0x877ef1ed9d4b08177f22d7de0f7760a3f7a4b31a0516cb094b5db2948348010cfceaebc52dd1093779ea095512022e9, 0xfaf23919b303fea56204b47e4f91f35c410cf72b00beed440c08e628dbfe3d557e6319bd3c0fee46414b8d85a363fe3⟩),
  (false, ⟨0x1992d0212cc1444a6b62d482c70fcaabc811e8c7873c1eeabb888d7f010cb4bf7f57f17a42fe222df7763d98e686feb8, 0x19a62e946cf1611c23eefeaf678d7414fc5a0a417ef85ad3654714331266edb56bdeb68f397a2dc971221c250967f16⟩),
  (true, ⟨0xbc3abf2fa2a9a4395dfe82a84ea2dfa877af8fcee68b0562c9842c15ae5422fe0c7fa5348316488fbb69bc1e8c2eb43, 0x112ee20bba9da8bb2f12f3ffc28506f34be98a5598f43a3b022af465d786e6e0b7f765415e1d379a5c4792b298191f51⟩),
  (false, ⟨0x8f619e3dce2fa1a72fc47117f5622807e76138522df69097f2f0d535f4bf54ec723197a0e33db95440610176c259c4e, 0xf2c3faf0dbc711e736c6b8e629643a3981a1a6272795ff32fd227e5805e8ab61fca2b277369c9f5ad091652810ac39b⟩),
  (true, ⟨0xef19f93fd050c15f4519fe1971888013fdd01c7b53daa53ba8b5ea5a3ec93ec6ced3faee8e472d7ca8fc09f459876ca, 0xf4025a29571a107ef7eddde521b83d57b1d8b5a8c4523a0ce09ae48f1593e8f20b1815495dca86c5bf992c74cf821b7⟩),
  (false, ⟨0x564f08ecd64a5617863a44edd5bf8dfe4409646b399a466b1b6ac76e26595e4394190a6e9fe8e0a892de91bfe312a74, 0x1832fc89a94e272abd98fa40cd75499c53f046ae4cb7829689cea2f99a1af538dfaff563ee08b4bf6b7d4ba78e1bf59f⟩),
  (false, ⟨0x1248a2aacceb0b342dbc20141bc11ff21c1023fab76de384a320a6289fed71b83186caf5597bdfb5b1107d20d1af130f, 0x13ca1efd30fcdf769b5b9245aca37e05280dbeed23ad397cab9381935c7bf98c7a2883651c8c949fad290c434b6ad059⟩),
  (false, ⟨0xd8d7042da902759abc911864ea43b76e209a8262f90df12bb43455264dbe9430533a7ac5b6f92620e3eaff8a4a0d76b, 0x10e46dd567538dba9ff2f4d454b48b7fbe9b0d34287915e968f89b26e093118feec35d8c3e3afbacf2b760a1e8a0978c⟩),
  (true, ⟨0x6269f2634470738b28d6cb10f215b0da8cc43b6b3f2dab5f6115f21205f7343ce634371f2138e6be1fb5261c23ea52, 0x103fccf9a64c264f32441900d5ee442b2654dddf372142db80b291953bbae51740a9637779ac4e0b5e98c15f307df5e5⟩),
  (false, ⟨0x15e18a14ced96ea69d203839b909f7d1fbd7b93317f8b110bcf2853f653c58fb958259c58278014761e2ee2b9e300ee2, 0x8ca4989f7e41198663e2c93007501d1d7396adf6e588cbffadf0063ee1a181f96035bf766e55f37dcbbfc5b0eda0544⟩),
  (true, ⟨0x87478034cbd110c8de73cebcfbd87190709010ce97de7b884b777aa47a007aea16d4261f0fc9b28dc125e4d60145ad0, 0x15e64fb3d5155af51b1f2a665ec81373742c8dcc9c71981c5e3b0487f2b1781af56391444ab88c9f7011db50fb1aa236⟩),
  (false, ⟨0x118937a977f2bd221511b28da050d484c309055f5eceeb7c50f334d4112dce15a4a1ee328260fe31eeee17404f8e1e16, 0x17bb3232ef92c905b96f163d60380e11256b2ad81e9c11fe38e8f0ea270fb9e1c064b25949beb21ba1be1b2adc81ee0e⟩),
  (true, ⟨0x95a4e02bff653bb8b32a60b848fe80eba3286447102737b887c2645531b09d83f2f4807dc9f5f41f8127b595d4c0c4b, 0x592489b345ca75891474a9edd7068e30b4556323b7466a72bee3cf79f9e1bb44666834e348033d3921d4d4c73a5830e⟩),
  (false, ⟨0x78d589f3c947173354f9abe8a257712ba53dc0b84b62247bc240cc349ebd887cb67bdfd7eccdc8b7933a2efba0ad966, 0x5c3ebe2cb19cb38074d718d185c71156d63521ebe9753fb1f3dc46dd387f0192ed990d75efa7577b9ee6e8285b2f62a⟩),
  (false, ⟨0x16f70233ee221c1686ddd34efefe733baf57a778b36c5e51a3e69f141ecc0980fc9a7bd77475493815f95808ab36d9b3, 0xfd7c6e616e3ce204923a3390b6bc1543b6a345120943accc88c940787f691231f8be0e394ee45d2a2a07dfb75d9ff7e⟩),
  (false, ⟨0x5fabbf502a085fccaf5905bb072cde9df13ff7dab2cabd50acde0d4c585d3a822e97edea0e8ab32155a19707bd8db8b, 0x263000b48ec9626ebb60ad656a714aac7b96a97a650d04f96e596edb633467441ce286373265585c53a59ff1f6fdc42⟩),
  (false, ⟨0x18e55488932c2ddc5e3fa28cdabf9e80df1a62be873af80318a56e7e84bbf59aebdadedc04d627e033871654ee0e667b, 0x1000cfe04d301f96415ba9a540524999e367516b010ae1fc12cc8806244b491f6a06ed5ee716064b5e84468748d9ddbc⟩),
  (false, ⟨0x2f5e10814a6f1ebfc0f0805d452316de335f0e2c10951bd73c41839859f496306971248586ad02dea69f20cd370279e, 0xa476e384d4cdda9de3f64bfad45b2aec9772c33cb1c071d08bd8d6dc2f52e8c153ada4c426b87d9aa3ae6ec235e9830⟩),
  (true, ⟨0xebae35d36954d29d1cd400a50bebb732dc76103be9be598d03369282db17b907c4abe700a341db50d1b6983f81061e4, 0x9e76748edfab89ad013a7cbbee60508d9dab2ff38eb5351dbc2953144b9e0ca2563034379a76cdfaa33bd6c7eca0149⟩),
  (false, ⟨0x12f3a2ddee826a9ee81bfe1cc1030591a1639f245698032cb2030999eb37f5cb7d3d6e504e91c1e4d1ef1c73c08eab82, 0xaf8a009b693e2e7c815e7ca085139076ede82d325001811d4d9deb5cdbdda08f20b7357fe9587563242849f42e13196⟩),
  (false, ⟨0x7638e7215a5566cb85e89f155c120d9dff78969a49d7530a6d961f1049c4a63aabf2f54f11b18633f18032bbb3f2e3a, 0x5e6a4177da18f174b719c00d5567a1f4fea74293d9af403b7b3436cec66a2b2ae9dd0872b4b9b77015b82806e32f8d1⟩),
  (false, ⟨0xde460e0e56200b193481a43de0fedd892b4df97c07fcb5852a22d96afe94b5123ec839f2a6e916e197e4da46e5c37d5, 0x1568ac853c1d00613c271f008744975785278392215b88842889ac8d7397b284ad9255b5abb481e61a461ed71b105ba8⟩),
  (true, ⟨0x126d854386c6cc89c58d5602102e2ec5ff93700344ff53f75154407dfa257806f4d84ec67772c663e207119031289ef2, 0xc5261a3e4d6b4d5a29898cdc9af1614f04490b9eca14cb4f49547715faa85213b53d5ba0ab73bcc21fd2af28a546372⟩),
  (false, ⟨0x195901c0b76178e25f9cfe14e17e6823eaf6261df554c76622255e875a6e95ae6b4acf7d9587e9422ad8526272019057, 0x16180a8eab111926c4f7ad58c1a176f695ca71ab038bbc7ba737ff85b321982172b1b5f781523883d3a227995b3ab25b⟩),
  (true, ⟨0x6aa736a050ec4b43bf77533025ebe596d6c464026c595518ac105e97ac2976243a2ed0e5d74a770371a5f25e4fa9594, 0xfae91a86be5a9b663e1572b49dc3d7b52867a7502f710685f698f998085666d0c36181cd145d3dfd26675ce2c12ccbf⟩),
  (false, ⟨0x54d02a1130de60026367c3b282450deb6cfd9cd7f50c8aadf6ddf6f1cc86b9af770741dd49d7fd54c0d475897b6e448, 0x961d0382347b5556e824bee1b3eb9ca0e480362a368843b261d9ce50e366952a2d0a1303b2c41bb74addfc4312ab945⟩),
  (false, ⟨0xee21eb8b009a0106dcc3c918d5d5b38d854f836aff638c53bc1625f4c6f6bd8bde2fb2a056a0d6817abf00215062d6a, 0xe5dde03f8f7dd586103b5296f17c37d19f13c7f21c8db7fd5b8cb4c0695b99a70b0b9e0ac2b31583a6934da900149c0⟩),
  (true, ⟨0xb9f7a6b3afd7d9941c8409928074fdca7241de811a2393d438c4453ede7922c70c587acfe85b634322d68fa4000f16, 0xb298e566a9e2136de7376fedb78bd87865f122d99f06aa02d26b469d796691b139a58f7ac116a292d3fda82492cfffa⟩),
  (false, ⟨0x16062e63a305d6b643c4c931d8066b92250a6fff31b9a942c583e77f97c4de2835288998aa5696fb076ba5f77e318e37, 0xac5d69801faeafe3ca72c268dc5cdaf240b92cf72d63c1809f7fcf0fc54f474c9670a5911bb51dbfbea467473a4a909⟩),
  (false, ⟨0x188b2adb5da805e02de7d4f2b7434507fd9249cd982b8532288d532aeaff2e1024e457f37ae45192da72ec314b648bb0, 0x995efcd052272e707d67ba53198068a79ec5b8e75ff7575e5cc630e43f4c975acaa958cb702311eec9eedc4c75d22f1⟩),
  (false, ⟨0x933edddc61b1455dac903495335fa98d35332024d736c22f42338900efb5880a878282c6790f8021dc5488f01dccd31, 0x10d527ba78a45a00965a85a275ced086bf9dd5c3c7d45653d0a4363d02cbfbef076263d5fc0a783616fa70d684e90aaf⟩),
  (false, ⟨0x15c9074916c97d6772d7bd2c65d24781625c55aa6dd7dc3bcdfcb55dddc5b5a58177c045c6a5de8b04cfc9509822ea15, 0x1589913a86410646251c8edd3cff5cbbca159ede550ac156eabfe00ef34119b78a00ae18d58b24e5419be5ac176404e1⟩),
  (false, ⟨0x176dd3c1016044263516fe32ffe87c12af0700323e154f9eb25cb9152357b90bb96177d42b8df3bf0d78c909560904b8, 0x11bba72abd932020bafa6d8c585d28bb2aa87815abdb4f64a5f35717179e3de788841cf64769cf96e1bdf08dd32e1b8⟩),
  (false, ⟨0x14491493f8eb231a167c752c794e68ab85bf5492f864d616fa93b4c570e4e507c72e2d1cfb3cba196ce1a893997c11f7, 0x47d71c7b395cbc467e7481673aa00ee976a936155f616bd7b0e1a5c59170b740a29f1cb96368034e256873ace79935d⟩),
  (false, ⟨0xe0f961bcd529eaf6e4c71fc47ae9b6300afa9557a6b59fbfd71d14707a2a8ffe89098925f61cb1872bc1cf7dc0f75e1, 0x2c3e3613a39596caf1a16f27b990b05704b527b7ae9eb9d56c2094faa8b5b5bc3690225b9bfd5870dff02a440973638⟩),
  (true, ⟨0x5552e8574daaef22a9fca51c9e6e427aa0105a5a4412acba3583ecd335098225df43c1b32549608641e615b4a03f7b3, 0xc3469452e7226f71624802bf6e606b5ad3696c8f67b4e25570b857150d7b9dd4fc58b551a1f76fc06b0fd68608f75f3⟩),
  (false, ⟨0x1105dceb4972df58fdb36fa2d2fbcf124b111f25c525ccf8a4783b14bd475a810af98226e18347249787640ec26270d0, 0x5f4934af69e7b45e92124354cc182a601dfaf745ddd8b9be8374f379c7477e5c251c9a60748bc08795ff375746c77a6⟩),
  (false, ⟨0x11f3e515f9ed151cc11a3135fd7194b9dc03a15eec1ee36eb0f7155e50bf6b0f75a296a9219007f1651edc88490c7f5b, 0x56e7751573c132ea5f8026f1d953935e6d8cb17305a2c81bf5864418edcd060924962e83071d1ee7aa39054f8bb0fdf⟩),
  (false, ⟨0xa461b1bec630b9b222938c1fac251a55e93938bfcd528090a2a64f5fd01fda232e4c8271dbcae3ce7c4f0fa5d8da0c2, 0x12f40b50b593b5c897f142611ca63e5626db9206a8b1692034c37c1bda82f118fceb2bb74cd7f65dc72092843753e7aa⟩),
  (true, ⟨0x8f261d65dd523b934a412a9350310a9b7f6bd7e754caa95a0b605349f6a90a885e573840c38476255d7e13da39f8e85, 0x47b0d1d259454e864f5d87cddb4757ecb4c7a9771c22d2dc785d7e56efa5849ae8d9c9de0ceb4c1e60d5e0dc9247cea⟩),
  (false, ⟨0x1722d41f0bf23f3f58b6265358bbadcf37522c94619a43feab5f94009a27c844934943f0b7c87a83b51d41f1a76bb562, 0x14b0bf4ee129e8d548e6a2e6eeffa38a840027e6789d7c72fd3ac4f8f5c0fb42084536e5490fac3ef97a511f99e625d2⟩),
  (true, ⟨0xedffbf2ed28bd1465bef9b3cbe7af8bc7269293e23c8403ed80d1ef208ca0d1698ed93c0682f04329979448f4e3f3c, 0x9fb7fa5bff6de5bc6c0e25a61d6b12c0c4e98abe99f34e4e0c039078b8d6d96d9d5e808495f7c66e678eb6f5cd95dc6⟩),
  (false, ⟨0x1524a3e949971b3d337f7636880c54c5bad3812fa44348e9cb27d766eee39f0ad6a2b4e57310901c71074bee493d6d8d, 0x43f6fda0b22731baa0de8a3c14beae76162b971ec092f39045e9cb73076fb873f493cfe2ecddc6a9898f2b914972e6a⟩),
  (false, ⟨0x8b9886a6769fbced192ea1a814f029fe1c48c30c08a6da495fb354045b607c11ad8eadf1d36ed82e831746ef0a8d2d4, 0x147636edad4601cc95351b5f0b7f850139df01a884f49fac2fdba844c2f46fc0c2fadc676b9277d8f8e156759b9e1ec7⟩),
  (true, ⟨0x172011ee7de9267a1d89eac225154c4c9c02363cbb1e830d4b8513693c53001421564d44b8981cc99ce29df0f9e22fb5, 0x1092bcfe03eacb94445164b8113fdde0529f81bc5ffe15d61740f354f0215e81491a3582e540f0d360befdc0748180b7⟩),
  (false, ⟨0x3b64fddd29956a2db87471f9db0eb5c448fa4137c055a52d0b0fd326de15bf7f2a0566e4dcc488b8ffb429480e6f174, 0x9f3973ba51f7a75cd3341561c1f1a8935a9aaf4248c9bd6a3e9f8a7dc313cdf829de7e71509f8f59ac41663b0075ee2⟩),
  (true, ⟨0x18d73f49e049baa1375dd487c73e6b6d515c1a04451097ac710b2ca3e06f0ba50a69db7a94fb3e991895d448a0831104, 0xbc9d83449b54335b8890aef99113f65e9231b8ba3b6fc4f1fe2e142baabd6f3584cbee0eb768f5745d455dbf5e4c438⟩),
  (false, ⟨0x19f1dd5138927a6d5b48671653919a3bb0a0923cc271baac99026c4cf636a80f790126560b31e3bef638228fd754d42, 0xb866acc6b0085b1adb5bf716822a9a8613e7dec2ba3ff23572dbbff5bd5521491096f138c941af34cd944ecc050a8b⟩),
  (false, ⟨0x19a6c3d1e8de2cd5a59996072934305922ec9abba03009e1df8b467f973afe97f970aca1d6add509545d3f7ea5102dab, 0x31e10082933579026113f33a9715a445b6757468fdb1a641ec41c44ab2965602462bfb26ce876ab1826ea0f3783b8bc⟩),
  (false, ⟨0x1254fcb362a77836d6e0d0e6449e79e144807b66894adfb1668b4e629de449bc82f97d9d3a60122cc04cdc64878965b7, 0x26a8a17c9ffd187cd431d8dd3158c6092b93608a9af9e817178f57129606e8d4f4b7d0569b8fd8dfe7f7e936f266fc2⟩),
  (true, ⟨0xef5bfe8b8b9cabb81fbd3080e1d788998fc45b39c7fb4e711ca49c70da120689f390b6bd14f49eb5886b2b7752f6427, 0x14fd294bc95309f8686d32d714fba0ba9fca457154092cc0c55776f583e47d9961630ff814780761136cb8970a0871c⟩),
  (false, ⟨0x1491ef2265c0b52014a39aaf20145fdd750991eea8243b9fa99a74fea1c212d49caaa1cfec29ae02934f5ea928448eaf, 0x177a828f267f35a2c8cd9027a483ac89fb8bb7edf8abb0b0ebb5ca9cbe41b67a21ac1c39c9637ee23e5a4a38f6ff4cb8⟩),
  (true, ⟨0x1288d63ad479f685675eab405d1d6f4d5ea8112c288e43142d97c611d3c62e29b9efbb4bd8bbae63d06f363c5a7a743a, 0xc4b5829ccde46ac5ec62bd82a7fe33e8d5bff6955b6525fa150f6840dd4e22af10ec04cb09bf85d3e54c78138ade66b⟩),
  (false, ⟨0x3c018365c90ffa78467438e42e381767eaacd09905e2ffa664126f8a0658e5868e2c0952e643de37d62e47d764ddb54, 0x19f7f734f6c3eea0165fbcafaeff87c7c35bfa13433429aba79d87a62e1221f8e921410d3c03be9777b113e1d7b9a04b⟩),
  (false, ⟨0x433b5d2604f089a2bc917469b3705d6fadfd1252a911308d01c7268e43932b9dc7955c7aeb9465c21dd54dbd0541026, 0x16042b640368170e54e6ad06eb581feef20671c272fdef452798f5afff9c18de61c90fe22234bb082427858ca0a30a05⟩),
  (true, ⟨0x8f17730ec6203f9b0e1af6394fb473d2c8c9248768504425669db6aa0bd72701fb0bf08c4253e539d6908092243ad21, 0x18dc420f8088cc85cfc1ec54cefc00cc8bad0854a619a79719a2c8d49c9fd4b9297598fe2aea3784fa9e8cbd9e3118c4⟩),
  (false, ⟨0x1874fab73c35cc90c2148a42b2b0c353703ff97e7f9acb19b15ebe05e1ffd23e96a6b1b2fe081c4c7a154b9cca7871a, 0x143ca7612a0b224a8f9e7caaaadfe5dd3233c73da586e57f3fbd6c6cafa9cf64867dca588578d0ac55576994edb71603⟩),
  (false, ⟨0x19c57fca3bc482dffdf5b148fb218376cc1d000e88a43db7bd64c2793314964fcd80e57a7e629c2c23d44621ed1c9231, 0x1991fc4ea52168a432d030f7fc073623cb65f78b823b0dc9b746139bb918136a2a588bf9d741aa6c0317b452e441e255⟩),
  (true, ⟨0x17ec83de77c869ef91b428f05c8e38d3b75617a2efbf25692df791b5e1e010e249ac424009fc1fa7d759cda25c361685, 0xb3abccd74459bb76e356e7ed024ea913139a43ccec3f3a28ce5c4f912eb0417fd8aa5480385366e0be3aa1738038852⟩),
  (false, ⟨0x47e090e0c3c59684e715ec0e823d7c7f0dd7cc3e5aeeab932a86307a148e0d56862308370f0d2e3ed90b77fc7df05c1, 0xb394fd146dd0697975134d6f7994882f5063f59b6d437e6436a42a06f0aeef24f04f0f9298359844dc1f9727d3d7a65⟩),
  (true, ⟨0x67e8e93e6bc868cc5b6bd182e1026532f9c1d6d554936763410a34b60b7b6c50013b84fa7b6598e8ed288f75d64de6a, 0x141cb50b85ad9c73d9b81e1f77452481348cf4b2d31092a05fb88662a9c6994f97c9157a0651d21e74676bd7ad153dd8⟩),
  (false, ⟨0x14f3c075677579fb64094951cea4421a240a84fc7d350349e3c92d0ad9124a65fa9359e0a8abe0d025e722b8a242dc6c, 0x4f0bfbe0ee6a5df4182723645ec09ecb6c3e6ac3aa2b5d7a8a0cb78053dffed2acd87e2c421f815902581600623d25⟩),
  (true, ⟨0x5ae418e7721269b916ec3065e827dfb8d0172d92617134f16442e3a78b9c71ea3bebcfcdf09b308621dfe369b6958ff, 0x11c8f11c47ed5697aff6db5b582ff2a57c6677750e386bfeddb5179120ae0eecfb80d039ab394b985e52a02fec7b0ed9⟩),
  (false, ⟨0xceb15c308399ba3b4c038eb9eed3012163cb94a2cc7c99730415849e3349ed2c9b8213d009736e59aabdc224bd20a88, 0x129690d5766bcb0c98c6f4194f6aae78e67cb4b1c0e4a0610757ffe5b1eaf2c2015a2a640310f33f56cac074107fd987⟩),
  (false, ⟨0x188c22b9e992e415ad299a059fbcaf659e0ff912c79276cb81bb66c7470fd2a39eb24343e74ca5dbfd953bca80c17eb, 0x7ee16ac25bf991568cdfb1e55b87c2ffc67d3b826e025f7cc62296a26029692c73ab6b5c0326eb01fe5f6e7d2c36299⟩),
  (false, ⟨0x99a3d6b229c558a69fc8d057a38f893dabf3711d13e43a807b7de8dc7516760a08124132e89659272035841f5ae2c20, 0x5323003399ed278c7ad415a54de9e50e4a0c851eb5df5e6989bfdd9362334ae321d6001c6baadb7b4acadacb80875b6⟩),
  (true, ⟨0x88c28cbe963720e87ebbf9fb567e3bf977e20bd82a58fa79f8ad7d79189d0901f378925c51aecbb19f5daae2f2bd9d2, 0x12a04ee3657d3ce1557e1f31f80817e0bcc86527cedf204df7e187fc526203f86abae8498674078ba22263f8491aab0c⟩),
  (false, ⟨0x60cb22d0edaba0f209aac263ce70e25aa6cc61e7b42e6dd3154ec4f7426e5d68c31a3ab64297726137fbafb0ba1ff4f, 0xba0da35ff41a1c1884a14989778dbef92e12c0738fa075cf3a6119ef62c22e36ec874a19481b9528a52713f8446e4d5⟩),
  (true, ⟨0x3de3917f650fe7354c7cf3b4e80162008f1ed400f48e1b858c2debf85658ea2c59663020fe893cbf3e792dc0f65f9ff, 0x7b043cccbd4f28591ed3c985df9457110fa642eb1e3d47fcb79675f15395752fc7ea8943a571ec939bdfcc244590c91⟩),
  (false, ⟨0x15cd64279565dba5ed7f5fccf3b086067275e460fc047f95668f0066796b9730f87cf41732d58f1aec69c876fcf28736, 0x130e94760823c473a02240c238709402af6dbda8c6183fd2c7bff6575fc317241ba70b46687c19e253f5409f977a2125⟩),
  (true, ⟨0x34cd54677772e83e0121a1215fe05b25442d4dc8aba73eb8b31401f004bd2c1e1ebf48a374a3490e920352feac4d9e7, 0x13a537dbaa8d6ea0d3506f2e76ba48506b596d7c06e7f18fd0ebeb424328bea8507ac2f8803b6c4af160f9cfc170ca5a⟩),
  (false, ⟨0x131e0c5435f09e1f1df6379ed002287a08efd4d63a05f43db414053132c81f438703607b20e7ffe736df66e87aad8b84, 0x293721508c7d50136f51f7f8faa81ade8fcb11bc73d9d3ebf033d00da6ff861d70f8d17979f93954dc8575e2dd237da⟩),
  (false, ⟨0x7aed4fffa94720eb6fc54a5c0206712f578dd3a7a53c5376d89aa58114d32c9348aa75d57bc57ceb979647c6d6bcdf2, 0x6f4d6ad9b0e1f83ff3b28595ed8bf170bc41d12e10189d684ec349373b8565b97b1879f2327ff67a6464c1413300ead⟩),
  (false, ⟨0x5b403a295dc5db6cea76e405b5476cc735bb7ac61d9ae35313dd6337847d2fd06c898cfed7fb79cda981728ff82d584, 0x5c161f0b10d3e53d450e9ccef37852d784ff19e51de973018ebdb3a4e4bf1ecb73aa29ccd7d50bb1b988a3c0b9acb8c⟩),
  (false, ⟨0xf51aef3b4cef361e437aa941663d52c50044b909a9c54ff816194c127254bf033916a4a23d42478b08c804688f42467, 0x38f33f0594620616659dd606d06b3ee980dcc5dfd362a4f4e798c129e4cffdfe4dde3a25762c993164bc9b009d35fdb⟩),
  (false, ⟨0x13b5ab8a580319172b2b63e299caecced43263c86ba3b63819c59998637f917bc42fb1fe036d2c3a90854ce0cd8a6926, 0xbd36457e4f015b3c4a0090c8fa1c150cca50116ff6466bcf120bae1453a8e62319c54ee5e3c10506c64aa052419326f⟩),
  (false, ⟨0x1918bdab2c387fae453a521749a701bef77de77c4baf7c8d7fc5fea8eb62a71190ed671096a1b6e42c020dc76e026d1a, 0x112260432ea914157b08efe4d2b4ac7f8543f7c97f06564093a20f9dd6c4d86c54f62beed10b4b9d2f21129a15716e3a⟩),
  (true, ⟨0x131e96c17d2db039fbd05efe985d71ae1bc8458e8f6ac6e4a908ef5e33b8b46c3340bd91766bb455aab3a1e188e802f0, 0x17c7ed0d8817c4c8a977b0bebf701a5e3f44e8f5838c7ca45afcfc71d22a84db1ecad0c843299af58c86c5968b32a0eb⟩),
  (false, ⟨0xf71855125ee2bab0dcd2af1fe23ff4d4646785de2a4e5432feeb6d27c8f3eaab6c3dd1f3fac9d295fd634c6025f77d5, 0xcc876f059f3235d9dbe696fb52691c8180de5602c75e7e9feb0c656f26a6b04457299c07f04475c26bd893bf688ec44⟩),
  (false, ⟨0x167475c38ba8fd92203086c218fbf00dbe8f27fbd1916777b1c79e572c01b7461cda5252ea4dab8e60a157bc0f1425da, 0x502ab47213f700fda7f6821bde589411005ccc097ff5361a081950b378cb8829a8addd95632ebc13ca850590866f3d1⟩),
  (false, ⟨0x1917081f122b4236c6de7299ade71baf37dc971550945c06aea8abdd30a8ae414991a481b60b3af8308045622d150f5d, 0x108f5321b033b74eaf6c434bbcce64904025baf0c1cf0f0d46bd1a37216d1ad7264f3ff757a852c8a5ce7fbf9c615b9f⟩),
  (true, ⟨0xd6f3494bf7915d5fff0bde5c8914a5cbea8ddba4a03722e6eaa78d572d05f6550ca9b78cfbb87e7b762034ae7712a4f, 0x33c988a6e5726ea8e63a464248783cc65e2f03f64792988e208af1fe1a68a53eb41d9981cec7d435c64df94f7ab418⟩),
  (false, ⟨0x1850bf543e093a2d4ad0205bf17c0e47bff66d2a2e04a17dfbf7e376ba69e89e6d64189a44247a2ba44bdf96a73539c9, 0x1466d44b54cc62812026ea81b4a24591886d5ff0aa30f0a9735f91fcd4a73a78b7b51be3fba2074e55cdce18ac6f3c57⟩),
  (true, ⟨0x13c430019cea77865d40619dff2e95c1ca7e3c85c68a11105ecadfd239e21f6cbdba9f4973bb406d3e4d1eea67e26030, 0x41c52a0757be4e34902746b1abb97f253fd89e17aade726aea4dceea575d777439179a5345750aa62cb56f1dede2238⟩),
  (false, ⟨0x18e2fe115f11fd81fd0b4ec6a75888785be8ef0ad85347dfd614bd5ce902ce063a1dc5d2e263983f1cfd3fb60a287f2a, 0x1664af1d9a60e94aa88aa02d27a950b2e91a61a542c60e08a81a96ce417fdbaeae1ce2d7e75bcec920f9557e11678c9⟩),
  (false, ⟨0x161d89edbc4078598771210a57bdf9c383069bf88fd30ce64c2507616f8e81c40cc1d619553e825234672ba9772f02fb, 0xb416a54333694bc7877aba729c7754c89b9ad15a075e924688a49699ee91ecafebdd7e4c634b5a0c4dd8690e38a8625⟩),
  (true, ⟨0x1a943d9b9861422fc1f9452fe8f0174330f7d3c1f91e9b5fa8fab147f53cadec0bd519b8bae724ccf6d31c36a062190, 0x1696b6661ffead678a82bf2d6c48edf7d5ceb5cd11a99b86271dfb9c8fa0c8770d06b4d67b01f7bc61d321e9e9b79852⟩),
  (false, ⟨0x199c31406a4576173cd185fe46eac6b26d929174730164eb615c14c0406474bebe0b3d15883265ac36b40e9533d6ea5c, 0x5b575275651ffc2da5b70245575d73f986264c1b257ca45b4b00fad9f50620f2f3aa41a944b3e628255a9e2b81a87e3⟩),
  (true, ⟨0x177cbb1f430cb5f3625b76a6f1a0ec398211119b526a8589934d6794dc478552536acf795c20d6de0a86439ee931206d, 0xb379a9eb49e77921884c08fce49a7f33f6aae7f40c58b3b026805b7e04ecae01e10798497058d138f8c21d1c038e496⟩),
  (false, ⟨0x8242d3d6f1a89a9e4ec9d341867674fd6f169a5bcc718634008f84d07cb60b7819cff53c44036c462d25ab86499384a, 0xb7d7f57ddb1f122e49d91cd475a1dd1f892660f053922f509a36551c6eb34e86e2bfdaf1223bff6b491725f9ebcba74⟩),
  (false, ⟨0xc949a6360bd197032fc6adb1ce57a77dc835a823f6f2d7093f0a987e0b7907bdfecf40d6999c73a1b749d257d4c301b, 0xe07b3a1af5e15a445f4d0664c7dcae5cbb9bc7e63b3f8064496e7147d1fba9ac7a005d37b1690087af2f0620ee03e83⟩),
  (true, ⟨0x11635a639548369ca0b70bd68d1492df0bc22026132730d9f4f8c334d8d4a8c6e26bfe2720a2408fac26926934104468, 0xc381e60a2508076da708c0019d59a4b1fa0d9a17ed3789cd10fd01e4448f151d80cb6ad86607e7a9a125767c70a8a8f⟩),
  (false, ⟨0x114fa5345617604d6420b3e7720c23ff392f8ed95429a9b900167c06020436a592184fcefec2bc0b4316bb6db4dbcc37, 0x19e0c722a5924f57d4eb03d2499972f4952168474c7d28105f7f56cffc7f0194cba1fd9706b95673cf13a45fb1b79810⟩),
  (false, ⟨0xf198df65fa4b2e2e4a34ea9482eb52100f6eaf329062d36eb3cd5c4f6298820711f5341facd711603a81a593629e148, 0x19ff3e184bbe22525ef9d1de4b952ad61cf29ede5c3dc247b5e010373e33d3f00186f48de6190a278423dd3afe888b35⟩),
  (false, ⟨0x10ccdb7aa5cb1bf84c78ef1b942a59ac279487ce2dcaae6bf5c8343f0edda680f94f3db4ae056db7d0cf735d503cd44b, 0x9ffe7d157e783c495fe02020fda2869e55fafe7471eee994a8d441f300e7941ad55a5389d2855cd0378dfeb8a19b666⟩),
  (false, ⟨0x1a624af2fd17e551b5ba40094163594d1e68a434e38ae02d5a14e71116054107163b139e8a07ee2bd2653067402c469, 0x404f6ad3aea0cad161dc23244b1c13f3f30ba401630b6046f62036293a051f16e8e397e93eb01d31852756b0fd61fab⟩),
  (true, ⟨0x8893519a8621739646748da58330b8298af46f0309d8474c8163010de2f5cf1c2ccdae387e0e36b89c5f8ab4f3f4d5f, 0x158cd89c21d49dc5571c20df9444d25a02fa7c5917f80529deee8a2f4271bbba0963d7620856a02f06f84260a27050e5⟩),
  (false, ⟨0x42e68e43a2879a60e620a864f979387255ddb20cf5a9b783cb8fbbea8f8a278318503cc70638df7cf08772577c471de, 0x18539a4882566681659bfd31556c26a4b26cde597c76f0a1916f3cea18e67f972cbb919caacdff9bdadbe02022a75021⟩),
  (false, ⟨0xd822a4f6449726b8dc2f3062631606685d76b0b481b59d73e87c7e69d2d383f6c8808a7a51781707483f5a54c8bcfcc, 0x119c00da958a86b602a154cea6aaa1fe6bfcf0f882623661ad424f8225a3eec952034b52161a3c5f6b3af3aead0372c2⟩),
  (true, ⟨0xd87b5b8fe8266a2869265f06f0dcf8e0e9a87d6c511388c0d66c050bc179b05c3cfa97f3ed0dfa8c26e6129d929971, 0x10f7f66e6935e380809b35105eb6fe4d19e7a7896afc37a2e455437d4139e5a2061e438969c4f9d88936dec1298e6b7c⟩),
  (false, ⟨0xb05feef99494f85a546a11bac589e181773aa374fd5b7d7ca3140e55ace00be5b6877a2c675d36d17e1e0d57cc874f0, 0x119dcb1c032c2b9ec8982596a9c90f8fbde5a437c76b33993d7040d71ae8e986f9fe1c4fc218ab319983e02826744ced⟩),
  (true, ⟨0x738b820d49bed0e178b94d2525bd160df7e3fd16930e533204f8de3f9cf981be6a26fa01666283661bc85114f8531cd, 0x6c7db9850db7d740301449608cb2e16e56a13159e8c30ac222501bbc495a4baf71a253449e2fea323706a2e1f12e790⟩),
  (false, ⟨0x1e6513cc66c0200c2957055269646f68bb40f23670298416765180966a2d3b2c207ec3a24a3e86ae88054268c59efb1, 0x18050f9b2ceb1be6b3b943730b896d68464863154c97c385551c44b90d6d5e977d010eeffc3027d4a2a776383fe7c70b⟩),
  (true, ⟨0x1721e8595317fe7ff66d9c9f483f69ff2bffd203131b48bc713ee9f848c67ffd50104858572f69945b9c9b79efda8f08, 0x2fb01a63d11d4855283af4b8642f66ff67350552e568f929a66760ed55ea20679aa06049d1d8e09cbf9ed56c68da930⟩),
  (false, ⟨0x108d1a2ad2ed34576990379d61e359ca962042ddd01d410904c93087e4dfa64eac4b6cffe1df4246116af4fc7a789fc9, 0x3153b04baddc3fd77a1494a171ef2850125187452a0cd873fa8ae0f3d06b8cc9f10d84a5f0060e014e52e10d35fb799⟩),
  (false, ⟨0x19895c2616f6a31e299791c2a6669aa3efb453fa40406c419bcc4162ff0562c35c71919ef2e2a692995821edae85fd8, 0x5e2fa4e76611bed9d8e650190130df672ae390fb573e492ec2d52c1f9b87f861de6e3ae569ce9634856354a1aa376d1⟩),
  (true, ⟨0x12f24efb7368d9fdf9b24218f91e1410f26553afbced9a2fd6d94d6c395eeda534fb3c5e95fff93836e739d1a1961f21, 0x41931234481035044a71c352137ab5d3d9d28805baeaf930744d77a22d13c48c98f9dfb2d0ec164334471791e95af9a⟩),
  (false, ⟨0xb6df79e27644dd62a4a394f603a4723cd6d0e70ea0d83ab058d9a28c6c2fef5b829f8f3f6684cf4f39369b06d5d9937, 0x52a2c9a81aa71236ee800995846b25f7cff0d024664b4b4f6b57f307d77a7a8a85d4b7c7c0771dcea9a2328547006de⟩),
  (true, ⟨0x639470908fa5d7a0c60521df84e32133318e7784a376a5dd28a700b2513b287d013dbc1e1c323000472c36cd0911f75, 0x17fea22cd37f34fb2eb37637c28b913a5dc27e781c0738688dfd56ea42aca3c051f4846443d6864ea2986d10428b98b⟩),
  (false, ⟨0x18183d301f847b2d4e9935a44842c51bd3fb8d084097c1a2947608bf81a0bd54c09b870db3690ef642db8fa5fab0809e, 0xa69093b4abda6bd5ba4c615d134c32602d0089f39ab95a816d1e183ee8aa2fd1d8bf6d0b85c7bd1710931c59399c4e6⟩),
  (true, ⟨0xfa59d623d0e432f09c1d97b691d03e1a88225c3bbcab0085b8d39728e1315ba2ed310835a704c3ee0102e75bc005df8, 0xf78ebc5fcc19ff7025000f51caf5308b6e06257a8ac3cf63c0bc72596c80a0e7b21b3e45c0b5fac648779ef539392ac⟩),
  (false, ⟨0x77cdd0e6f82ab9fe8b0e9ce3934b86a67da511969f29347ced88270c823c363ad9de113b21665c28f840affa3b69abe, 0xc3328d9df9e6d84e09a3433e314c45c26dcabe6811ceeabb596cdb9552fa422099daa66a91d9d001d4f69412b267de8⟩),
  (false, ⟨0x1910ecc920c47d16d4db89397beb80280714c0a82072b5fb5e597eaf688b2323bc42ee45dd781cc70c8b4bd4c38ea548, 0x84b8b599f3b35b646602a963e5734f0178bf52191131e6bff9ce7369c134b6a2d0c5d18254d1f5acab42eb794689a10⟩),
  (false, ⟨0x4a5b7c00e18b85e38798b454b47c0382dbe0a21102f8ad4ad164c1a4b20982c9d6e57729a8acb35bbd164e21a7f8e49, 0xb27e64922a7c750eff5e713f41a0ef8c4dc77426a70f3c31011a6f345910fb011476f47e6ff536faf9de5ef8df5ba8f⟩),
  (true, ⟨0x190beccfa881faae8694c8fe266f0638a7b8ad5e26ed25687d48d70b42107bbb9e0c247211580454a2c7b5ce96c2f93e, 0x526f5b0d13fed5103b7c6af791d59edf6e2df4d2ad8bc68dfb5288dc773b9ce4cc42cceb35893b9e48b34fdfabe4e9a⟩),
  (false, ⟨0x32870fb7bfc4c27168feca7934c19284aab232ebec837e74b77f1898b9e1bdf2677acadc9a50444ac5e16f7bdf0872e, 0x128ef3def5bc0e68eab1c47c116b2406ff36a1982b9c9f3fbdb6d6bb1d877f566e2268da0a18e9eea6a8f06207512660⟩),
  (false, ⟨0x16a2191241ea945462ec29acb783ae083b4dd8d1b04a00ba552fbfa32d1d8b38419edf700aea7e28a1ec0feb346c80fb, 0x11ee118480bdb9f246069ae3b3b0fbd0f3cff98ab7da0da6392c184573986b23a8133be5324917540fdd8bc80bf5fda5⟩),
  (false, ⟨0x630f58ba0596eb855154e339e6a272962279d2f23fda97f00356cc7322655b3d2f6a5361d24554927e48bb63e0ad063, 0x8c2fd8540729ffb39af8329016e50678b9a378900c5dd388594c3e1b053cac0cefe66d488a1140e7ea087ae6c37cfda⟩),
  (false, ⟨0x4c9bfd0b453914b5762b896dc027f1036c9fcaea1eb6cf54bf9bb8f3046089c2c6ee12608e43afa362b2df18db3b272, 0x16de681432c208250556175302ee5c4c9e4d4c63321e7762287b577f69816b7119fd59a34a78f5ee5cdd30008be08b2a⟩),
  (false, ⟨0x7704b3ded5d8013af7c723a3bdda44354a2b33857f74c28f0725551d3bb154a95500f3ddf2c61ab6b315c3e76115248, 0x13ad8e63811dfbf3a7cada61917b0f1776484beac88840debaa4644657c94a8e9e38cd8a0cea086f1b23baefaf9e19be⟩),
  (false, ⟨0x17454d08d767c5d447e9bdd6dc954a91dea32c9e320c4fedf4ef8621fc1e554cd20e63346cdc1d0da5db19e94a473871, 0x4bcae6801eb1a8141f36ddaa7cd5b46bb19267be598d1bcb129a9370bb91274683b377692e5834285312783cd39d67b⟩),
  (false, ⟨0xb233cd89e10df195fdb05b92b31781a497747949e66552f80831d0d276686157089b7e0eebce97d38f4e0e404e16f01, 0xbba7d9a39326d13ba9bd92e6ddc7bf013331033b931daacf4d4508924e07144882c9d9180d58195896a0034d5dd4f09⟩),
  (false, ⟨0x4d47c31990a86ff7426639584eb93e982bc047ed01f63ccaa15eae2232fd30f7722d6f7e2e4590422ab4ad025169c35, 0x47cca77348f376213ec4f6a12a6152aed42d56865404e319a121af8f1a8dc54f50b1174e5cf49cc6bed4da7ba9c332f⟩),
  (false, ⟨0x5b689fa60a2523d85935e9b2c63f1ec64934ef3b99137b50570f83551f8bb362c96b31152054a83ff40dbb952cc105, 0x1551073f9aab3a028989d160d1502c9ede13db101138eaf9967e244be42f4da651dc0ba23bf814f6a643e6f2398a09e⟩),
  (false, ⟨0x166bdf7090c79dd8ff97e39bcebc5653e6742c861ce6a98c059bdcbd2c5f737967c76e0a470ed51833316509362ef807, 0xaaacd598a8e18b22a232736f5a2170e33042a213bb926a0168499d67d42f75098cf20747111730f5e3010532abb62ec⟩),
  (true, ⟨0xe520a2cb9bddaf77412a8d1235c50645fbf6d6392f42b4fc23279f83d4886450124f693b8fe823eaf2a64261a933a11, 0x12ea5a0c773b3361009fcc068109373257ea5e4086264f9c089b861f96bb3104fa8e5327cfc53bb6b845c42b1fc08fab⟩),
  (false, ⟨0x12d98ba203dd28a4a89d1079de37cf9827259040c06d1d19efa77a53fca860d43cc2dbca48904f7b721e73358861166e, 0x19bd4088431ae5e1f29abe305ee0a103fecd1c75bb0dfa57b773886c8bfb4033ec2ba3e8b6ed824b84a7e98937534afc⟩),
  (true, ⟨0xf7dfa450bcac622f68e828423970085d71aa53bd352edb70be0a77a3cd23237f7608953e860d2e775099b08fe56ab0d, 0x1182579586c87b46502d6f405ef8470884478da36a3d1d9f2a8c9a4195d18fe9f4fb9a78355e22019a45e62d77b178b2⟩),
  (false, ⟨0x38b51b078b76085e0880551e9f2eee82c1f9b15d74b23568847d9f9daa0818b1ca9f4d99bf36f42f9664160f9684cba, 0xca7d12b63e69b272cc2a94aff486618fdc72a3035e26ee7b4e0bba747600222232b7e7421c89f4090cfa7052ba45311⟩),
  (false, ⟨0xc449e8820ae86297f52511cbde8b22f2feca0d2385701b7381f0677ef276e99de1a1fae51f05825b2e4b59d3be0cc15, 0xdd7e0fbcef298e7a62680f8e9d0ed4770b5e5b18c32419d3a4e4374635b3069b98e7fabd7f1b14fdb900b55e5584d46⟩),
  (false, ⟨0x13c3d537a4f3b43cc3543e25dd1063034e6a69acec026aad2f572422971bb9b8d9212bccdb05a46ba67fedabbe5030a4, 0x4d74353d41bb003be5b6014b257184ac0730c770f9e94f25a07e7b7854c8f05e43fe0dd7bc5b7633f29ed65d2a2f442⟩),
  (false, ⟨0x4214102e7c2c4aa93c2a4503acb3a2382f58f8309b37b4bdb9af5e4132c52c0584df93cdd52e4ce8045998c6dbef6bc, 0xfc422d985dc46940b67177081ca3692b76a97ebcc3c97cf267b84e05268aab8b41fcf35beb91022f9af6fb4c8f3b015⟩),
  (false, ⟨0xe7aab7f752ff5340850e6d4e693f18ff0b2ecf5b721968973ab277dc9ee376c73a99b234f1474e8bbb764482a915eaa, 0xe757f189aaa484cb7d88238cb03f67e88a877f2891736e4fc6436dd2bdb1d1c09ae61a1c3f5893e2080f275c828c31d⟩),
  (false, ⟨0xfee77acaec8e7bbd777dd5959272c1932cfe0cd3ffa1264a0f5b914f56dfac3a0f03268f366e8256bc2b70cbb972725, 0x18c1447065e6831951231625675b8a3ebd30d91605e3aae5df029e8a10651aa7e604e75de7f2a89637326b6301584d9b⟩),
  (false, ⟨0x100be8b48386d1b54a8f077d0136a08657518bd0525f26f8bb30a8e666cf73affdcf81e2a8ab096e218d04141609c43c, 0xc139412195ebed5d8a1f3fc3693b233fc5a6e565c93d19deae857ab152bd694c4bd944f94305fc50619acd4242aa77e⟩),
  (true, ⟨0xd03d5bc908c9058f4068a8ea3225ef9cd2fdfbe3dd669f3598c76d2cb2af704facbafb6d553c0a3a1d44e3d38153419, 0x15ef3e8d6d8d33f83ed6d68e36cab2a87cf014f9f5eb9d60e4f8d16c9882a230301ad7ac26fb33dd4a70dd162f5b79e9⟩),
  (false, ⟨0xd871d7b42523ae3df77e00f7e95cd9d982e8ece72b7d5c6e299a37ef667cd4364f049bf8b1a3a5f26139b90019cf71, 0xf3932c571580d12e372d8955510698f720d5f6983da25db4d5961e9f858d7b09eef3bc84cee45e140bc10d1f0fac8d3⟩),
  (true, ⟨0x156e10d0fe15173644d1525dc664b9e27bca0f96a32955ccd2aa58591968f971f64d9ed7f8bbe8a0ec7358440e4b89f1, 0x11b920dd8cebb58199d0c41765fafbe2ecf02d7d52515b8897e79e057cdbe420224745b7c65b3814048fd2249a1299f9⟩),
  (false, ⟨0x161d119e20232ab44b2a4cbad8876302d7e6f0755a9e03b8b5e02335b2f1337332773e93d31b3b929fb4c63a8a50164c, 0x18c24e8e9df1c9ff36da2e5a1ac51c10bc9c522bf9c9b179f344e1cc383a0026da2bc19468f2264bc92bcc53a8600999⟩),
  (false, ⟨0xee7b7261167d216d875079c956e6ccd2a6f7d566a13eaad44e2d1b3726acbbf476128b50a15c3e0f297ce5589b025a2, 0x7ae530600fd4449e55a127d26a051f801077d239c102d9614141ad62fbeb7e686b4c0e11d6fc41bfa08270e5793c2ef⟩),
  (true, ⟨0xdbc18d08a44b15a72332f5cdf8a1eb6c61300d44670b40b25acc14882d45310d751082c256d92f5644e84e265e4c531, 0x1417a311d02e01372ce6aaddc19daba8c6f828ec5fd4401cc8b36031828af67e9ac5f38e026606fb57a49b26897960f5⟩),
  (false, ⟨0x18c1347243799e79b1c12f7bd2181ef04fb4daf123d0964478eb58cc7265c4eeceb74408635c504d38f6ad4f9f72fe84, 0x9971d2e85cb563d703496a05e93543295ef017b2d6d6c59e09589a4328969e8de02c56f86811b6f2a677d826e05dd8⟩),
  (false, ⟨0x1317d40c134ca3d034c61395fd70277e6f91fb9d5b3c966ccd2d6d4193d83d7f27146063013a5d3e343d4266df92d98e, 0x859039ddcfbf715cc3860aa97a3115ff6bcdef6cd013474102604d55d818e3bdf6d669713f90c55414f9db97a9baff3⟩),
  (false, ⟨0x1531fbc75d8704389776fc06790e1899bb376a2dca25db54fa1ececf90373b8fa90cf7f4c6dd1d309934e4b29e32d3c6, 0x15b02dba5815d953241825dfd72f9ad539d66d3a85a51f7f79a8a39ea04d08b8e27fed7e34dee437f4085d1c96bbd816⟩),
  (true, ⟨0xd6c0610bf85a85c64083be1341cb584ae096a7d0d5a27a17eae7fe7be780d1675bc66a34bd71869507b06f1bf482552, 0x6a2c45ad8cb2122e95879d89bfe33e3b4e974f087252af03650f9b1f56976042cef66dbb4bc1012e22fcb3d2502ae1e⟩),
  (false, ⟨0x149e1855136c34f3736328f400ca4a4b2d85409687d6a0f2612fe953b4037e87cc80230011495b77c5ee7c0511c7ea50, 0x9d6b958bb888e20d08cfd484270a1468389feaa1c586cdbd68648143b1a0bce886fb8f1f2e54f62164c9322c83cef1e⟩),
  (true, ⟨0x12ca86748068cf1636479bb2e047b686e2242520786b22348334519792dbcf81dcad00297fa67fb0a76c65abca6cff18, 0x31738c9a07c2a1c248b05a9174301402337ab3e4c4778b628bb5d682c8de5e82654d3ee3ee8cc8d58580aac2dce8d23⟩),
  (false, ⟨0x19d0d6fe434c925047056cefa79b4c39b32a76a267bc49b8335ae9e949533b3b3c9e9eb52afd5fa4ecbe197b0c789284, 0x4ebb9fa08845207823385bd3bf5a8ec6f4c52a87d71dc61eda803ff8d746249540054d7cfc540ba41714475480db682⟩),
  (true, ⟨0x1758d77298d421bdeba90c0153eb59444d328e1a27f663ef2e1835d17c47418ca2b7e06ea79324cc50d62d645b3b67b7, 0xffe9b489430070c602afe9803d8655f5166a8d38d4cefcd615095fe9dc1801573b4f72b7c00356b32aa31099d913dbd⟩),
  (false, ⟨0x1709fc18fb7cea8668a71caa68824bfce8a5df867cc624bfd846e9aeec7a421eaf4cbb693e11aa76ea834f81ffbe1cba, 0xa8cc2d0df6a9a49f6a59a033f2cd2455782edb1a50ed2b491f14f1b8c8846f07971e00fb68ac0c09f499c81f3d644f0⟩),
  (false, ⟨0x11466c6dd537cd032ef23a4a4940dcc5b3c8a74227a9077d0bd7cf0b2056f88112b8bf92578b76ce3dc6283eb821586a, 0xc3e4112e7cde6a77cfd1fd43492a609907086a6d455a9df9d590b05e1b7db17df2c43a71540a1ed991eb8b7582554f7⟩),
  (true, ⟨0x35e8c5e9611c1bf8630ff29e74ac067d262d4440fc676a5c48b42bf5806f9175ec8797f599b310737e97bc92586bbd2, 0x1637883c1eaf9c593ff2f64bbfeefa94b777441d53710843195e1a38cc3be09ecc4d98a1d87995384fd1dc8c61227345⟩),
  (false, ⟨0x2b19a318538d3de52cce4b36a07e77612afd76915c02d5cc58890089dd67c3679054e0bad80180968dccae1551ff5c0, 0xa3943e22b2e8db92b79695e6c7402e56e35f4e9f4ac766ce1319e1df3dd24f6b95176ff45be321d465903e6e7eaa930⟩),
  (true, ⟨0x11ed323acc37dcbaf477ec18f49affa39aa863dc690fb5b6d56c5c5e44a6c6533a14448b2bbbed401c953c536121eaae, 0x196037209b57e7ca033a31e828630751f9ea5b4a43492d4173bb63fdf385fda1fbf6c1a879b5e5c9e0f971bae7df5f5c⟩),
  (false, ⟨0x97fccead7c9eeddadb2c1ba533a106c5839aab001c10e6f5de67427cabf18e56255804d7b6d1ba3e49dea6df5fbea2e, 0x10ce587c85e5ae3658c594f0e9c3762ab13d48f44aeee6a21d28b93772c9c4c569f70f1acc33da11f5a11a14325458bb⟩),
  (false, ⟨0xf3b2b5e789385dc98301a95cdd31ba3aa9879fff43c01cfbe925706afe72e78b6d14df840d5421b4b55b6648ce2c358, 0x663e2d97d986e8acda5d6d576e07c049af741b518ce33f7d98c46439b5ae730ee6ec057816cf7f1818abc3f4d0d3ceb⟩),
  (false, ⟨0x1578401926ff5d2a4b773acb44f1fcac13f4b2c101e8b575ae23f724c7436d34d15ee5575f3fbf6f546a71a0bf24eb8, 0xbb0fea3f9743ed1f198ff06a2e289145b7730555b89c8b15dd597e076876e31e90f2a09d1ff02eb3241c1e97bb1d248⟩),
  (false, ⟨0xa185627a0af1aef309bf6940a7ff9bfe96deab15e89e0ec0ff931af6ab0881ac7fe44cf60625d0bf30fb4f8bb067d3e, 0x12a785fa3c5c02292e582274c3986257dd3bca5c0fe20bf544e225504bcda2ca86db1eb5d89f1c7a2b560a55526b9f87⟩)]

def uSlopes : List (Bool × N2) := [(false, ⟨0x15a76ee3d8d1c3451005d56067cd27cf7598a85f81c23cd926ad0ec05ad6440f1df034cf36701a5831c9fb39250e2ea9, 0x16d96e785c797fb5d6afcb1400d7656829a6a71c42deb7ddce5cd2ccda4704dc0e4b92b69009367bbf6e6aa19488df66⟩),
  (true, ⟨0x14b92565b748c30f253912c6cf3aaa45c2b370e810ea9361db7b84172cb1e68ddd09eb1296e0f84058018a4538d64e8b, 0x3c50d0829bdc305ff694cc9bf914addbdcbe307142bf7cc7b8d9115b96656327dd7978009cdcddf4728a38086aebcd7⟩),
  (false, ⟨0x56ceab5d5d994dee0ca07fc0d41aa908b1a833b94e768d2dec05cffe4a869aed2a64ee86a72f085ee4e78bd4c2aef8e, 0x39b596a976f556e5ea4016a3111e14b674a67295a242cf3b343a6878db6ec20bcac1275d23aad6cd3e84e398a4e7bc8⟩),
  (false, ⟨0x6e3ef02d1a04e74ab468f6e04f007b067140de16796e93717f97204641356999f8abc87a7d6c3a51d2dc5c2080aa3d, 0x1bd56d5682c8e27f4e58d1fe16609b948cecacbf47561314d3adbfd218516e28b5be780d59a6e961956b585b6151749⟩),
  (true, ⟨0x8ecc09a9c1f157a41ff8574dbd225e6d360104b08b70bcde984dbdeecb87e54d15afa1ad4d82ecc86926478060abf07, 0x1459dcc20ccec09d6ac723641fbd91572a9f1c1cccb841f8f081b995baf77ded82e6c1ee979b5618adb99987cc3e887f⟩),
  (false, ⟨0x75707a467e7543c28370330bea9b6e4adf41fa1060713eedb760c98b7aad959e5dfc28db5abe92a46d0ff04a4205803, 0x14061839f139644bb20e864718cfc9c1ee8960c06ff2c240598a8a6da7ed2bcc091f594d8b0715d2f6a16be8d5828197⟩),
  (false, ⟨0x1deabfaeb3374b50119ecb98148910d6004895792caa88dad948685eedfe9d3ac7315ff9bd8fa7a943e0e3a924e7492, 0x7c9b05e8adef4de506459f7be98bf07cbd25fe6f4ac154f7c01f5d8a4b9368fc9cbb8ebfedf28954ae85d6e9f58c709⟩),
  (false, ⟨0xee6eb50b6c77d09551c6a60826f728738a490c04918351790b28f2aca89efec977f5d8be5ab1530cd829c00c02bb5ad, 0xfe2b8fdab71a2b128d2ad1b08e43b756d77e33ad8d6a444a32fb2ef9c6d1098adde218e3fb06d66bf9f7d4b7015a6b4⟩),
  (true, ⟨0x14bf838fa391c4a090ebbbe743ae2a27fa167025d88ff625b3bef3953ab3e70c52b7f1fa0e81fa12d05c20409b6ab80d, 0xf45e1251275798ebc25a384129e9223de8b300c58513dc4d4e26bb101a87dc37eb1f2ad58f5ce986c824b89b843b64e⟩),
  (false, ⟨0x15f5f0afe4eeb7545fb13eb055c6ad903c2a3e4b9f14a8dae81217db1696daa3753ccd844396189ffbd89d01fe27fa5b, 0x1040f087e9a0b6633fa13692b8f5f46e2bd5fc15d81b368ac9d2464eda778b0051c1027ed3da9931ffbf361f326b7282⟩),
  (false, ⟨0xf10733fed03fc5b7ae27fc457630dce3b4db45cbad696a6351c7771105a0a1096dd87f04527a34a70ec377ccd63a5b2, 0x855b8b1eedbf578f7498f370324634590aee6093dd239d9306991a8af53fac94e1e9b5253a208df401e3d6bf657857c⟩),
  (false, ⟨0x17900cb270764782b3eca3d2ec46a86181ef1ff2f83172010bc299acce5e8da96b6b932d6c92af226aa27e2cbe8fae21, 0x1be7df7094ce56532653ce2da33c37fe337917d32826e1bd09104615d27b1dba405157c82358801a5440afa7826f03e⟩),
  (false, ⟨0x15ed1256df8e5e5ca95b56c878630a1ca624fae6d5770503fc7cd3706f331af3de61fabf6cf96397e7b79f2fc8c8275d, 0xf5886abb33616f07cfac605cd5194bd83d804f9da8e5cdaffa3eb442aaeb1342a8a3887ee76aa06cc2a711c9ed0f30e⟩),
  (false, ⟨0x249a870907df1494e56fc219e01fde22386755f816c125f4c2cdefe8611811647fac337765ce308dd13ea9ec917f81d, 0xa59546d0d9d0d18614e98790bdde01f23d77cc2219a64e16678659f6f9ca9e64f594e30c3cd52b28123518842661348⟩),
  (false, ⟨0x3ca74026cf32fba56ec4ffaf56bfc4d589fd5479b90e9a3832640fbf5ff16fd5c8661358f86bbd730aa1df76e95257, 0x16f491b5bd383da7e70c0012e06dce324741a7e96cd8fccf402fb94e1c54fc0073a49b0577775e0ba37cd47da598900⟩),
  (false, ⟨0x9a76bae205af60fb63330d38d4d0d00c4d2739ae3a0b1763a9bcdec2fe60921bf629abd453bf5d35812bbf0123c972a, 0x79042a88c84c694ffd3fa1257cfc1f1da9301aff5ef309c649bf53444907381a7d0f976a5e2fc320bd337a5e6bf6e59⟩),
  (false, ⟨0x135ff64b4d73a3a2d0f886b2eb84e8fad6b7625c837aa2728eeaf2f380047dfe3a21b11ba36890bfc74afe64e9f3840c, 0xcc7efdc19164223dbcb0b43e4ee3c4f4c650fbfe5a0a3700cd16a519987e4aabf6bd8d16fa3e40ac2853a97b01176dd⟩),
  (false, ⟨0x148a5374166cf336bdfb590ab3e98a0f2d52eb1fc8addbd73d021e6c59ff8b91a8fb6bd02a0d320eaaf52d68933508fe, 0xfbfa5d5aa28b0148c5da91a16d59eff4dc469e9a00aa1e6c9128ca3eaf8fb765006eba3df1bbeb0847972fc9cc9f5ae⟩),
  (true, ⟨0xd75df1478e683d022e71dda20b2ee156e2703ab722d3d6699c526b1363aa3d7edf86279a9db8b55b3ee3937fc331282, 0xf657335d9eabb7551b40995f1aed0135a3006438f62b0aa29f3faebba16ed6dc4cf9025d255e0b22ef5ea34500caaa1⟩),
  (false, ⟨0x1137f470c8f7d00baa56e5c03e76ea8acb143c96671cbc65033e67ed9f2b5e180252357114e4f467f4709129c1d6d6d7, 0xf23701cea5719c6d8b0d3f3bc8572953d8f42a55fe9970085a5304db0b3422f71d7ac93a2a95cfa92d0088ab1308e85⟩),
  (false, ⟨0x373d7203575fda92e7b4b0239b7c7695d2524211d5341f332c9317a9c538a1808d10350e8ab375f9e79671f77c33b38, 0x7b03ee28e327f04166f5075f657d148ed56fbf731787b28e9d5746328bce07da2a04f4154a74ef22bb2c45a0f0992be⟩),
  (false, ⟨0x18b70eb629a79ff3f983498518b16faf0521c1c5a11c352341629374ff0d1ac17362c7944d2b6e4cdcfd83a0692003b0, 0x11fa0abe9f21dc673b14d9174289133e7279c670978cd5690526f609b923d7ba3b37b63cf6dd615a649c30b33d8b88ac⟩),
  (false, ⟨0x2fc21e36ad4d0da0a00add9bd428c9c44f9a83980265ddd5cac54906e73bae3b43599982d6310ed50636162786d1b75, 0x2b70c4ecc512e5b7a263f208e2d6c8495568d22744ab3f376045a0b6f715c18ef69c37a80e8a4f63bb295c1f909c9f8⟩),
  (false, ⟨0x10b916005fc2476498beed417afa88358fa085d4db1d9e6f864b49b4b96dc11dcb31a6b2f313b674fee5c83040549617, 0x185827ff9e3c833ac46e1e1674a0ba0ae49290dd243bdc6145d1d4d76b0b03b8d7da125b0a5f1bacd2bc2f38d4e1a34d⟩),
  (false, ⟨0x1274aa625858db0bb675b3bfaf508b2248a1fe6ffc5d18d0da3e0d01e0bbb52a301585cf3ce32e18da41a2016fbf41b1, 0xcd9b76612194b440cbd9c67af3784151a3a1a7585c177cf0df8603dfa938bc22d0aa98e4cbc0be362614fff6f6d4898⟩),
  (false, ⟨0x232f7c41bf2d0ca9a4a656040864a9ec51fc3fceddf7498e96b0c22d39fbbbe7f55d6bc35a50965750c7716c237772d, 0x126b7366a9ba4cdc1648b905eb2d53ffa24eaa0527809305911e6efcf7cc8f0983f3a122ebd5d6880bc93e525c5283bd⟩),
  (false, ⟨0x3c52126f27d2dd758ab077088f758a89df448c1dd45282d9c2237332a12d63f617991e090b1d3aaedd7ae3ae5ef62ec, 0x19ee364564c01cbdf0bd4257877b0d7e053d12f91fa49c91b79fc38b4398e2af5a4ac3f48bf85f2a28b11ffbcc48f29d⟩),
  (false, ⟨0x287b1e39767a3c2d102a8257d4c97a8e9d64c41cf2dffa1ce9896e5addb637375420be149369971c3fc33245bb7b9cb, 0xdccc3a8b263abdc2c1112a2ba4e1537236425a49e10a76b09b6128f5e000427659557e16f6e6c10c2da68b535025ac5⟩),
  (false, ⟨0xeba32ca0fdf04b16e700d02d09be055097f3f4285b74b299e633711f24267eeff96b84c9658e94dff575b044fd12535, 0x1853f7c388088cef95618ee7fc016b0e19f5a9dafe6150af099ff3b68fe53867aeee330edac31a776bf2f2a7eb8d07b1⟩),
  (false, ⟨0x10e5f821e745ef290f77339938e8c939bcfc597914fa0bc4ea7d0b2339e762ea1d7417bc1393c1940f25665663934fc8, 0x14df29fafe098da44c7fd336e97eb8687dab2a2a640c57f41257c93b17f3e38108e6f373fb68057499c7406aa1ace48⟩),
  (false, ⟨0x10ff70c91cbb8869a0659bf2337805ebca15d19f40277942937c0d4560eae2eee4b7ce1e54863ab6d50bc9ff4874b6e6, 0x1951ff3142b9a208e5e69e5942f145b0f85554ee195ae299cddbe3decddda92adfd9039a7b3cfe640c29faece9a85e53⟩),
  (false, ⟨0x15d2f6b35415870ddc7054f2e32a1465866e01898f1f3b142c02b4ccd505fbbb8d8bd06421805f763874894483dc214c, 0x183abed5b2d1d128fa596426b89ca852d2ba8b3590cd530181c4e72fdd8802ef73ab15eff6749d4bc9865ee9e261110a⟩),
  (false, ⟨0xab36c91eeeaabb24820b390406d92af351a91a43b294110a69e73a9a0f2894ad32c28d81f078a90be515d55a39025dd, 0x1029fa62305109a4d20176b9533e34319846e866ad7ddd36f64973cbec18695bfc945495873b5a72e8ea0e7d255b970a⟩),
  (false, ⟨0x8bda1d762c986632aeaca1e09c08bb4fe0abcaefc921a404b66f01a40c86e83fded68478deb02d48f2ee3be7ae899ed, 0x6d4fe75b0153bdec12dba827c67f5884f061f219cb8ff55faddee2a55b5154b35e2696672be08cacb4795f5ddd8497f⟩),
  (false, ⟨0x5a79df85b0a96adf6e2dab8a322ce58631513aed92ce0df838145c7842da8419fcaba0e89eec90cedffb5559d9f7cd6, 0x11b7c924610a8268c34b8259fb3d98acbbe375c161f9d2a8712f911d31ea73387b467687f36133a552f9211634fe2feb⟩),
  (false, ⟨0x1971f0b4a71e609b35922e78337b308d7d37a5e715e2c6a7544aef13d7757e76ac4a6a2ca05df784a5a683833d2e1464, 0x503aa962b29d72a5d9f6cf2771a45a92c45f43bb070b7fd3fe5162dcc95efeedb645acb9afd8643829c2749745e919d⟩),
  (false, ⟨0x1657a4b33e1400ef6e296282ea313e60d4b8240679b0175efcbc9d2df3136cbd1a372ac4bb42fc51b2f0d50a3d7a6796, 0x10992497f5f8bf44511213229f6a20404576105e15a4930cab44b72c1fc2f89b5eaa0345af91b402ecc6cf1a742796cf⟩),
  (false, ⟨0x16691c1bdf57ba041abb3d97c8d34c6b4580edfc55e023b1234a9695204bd44f55ea4de60e51e461db9c85f42519fea6, 0xcfbf5ccb325675b1a3becefdee4fe1d3c64b3fedec5632647f7df16fff0877b21676607a81022cb0b3b0c523ae71819⟩),
  (false, ⟨0xe743528ce0c94e1a76f2f6006448cecfde912a7d2029dbcc74774ca1af660eaed4d832930d36077b6d0262e218111c1, 0x133d21c52017365921207d63c8fb346621601764fa91b40acd681358d077b827cc148be2e1f8a574cee0dad622d6fead⟩),
  (false, ⟨0x1902b1e10713c8d95829b014d6b5d3a93563b2103c29cec1e7983befc104f7bd4886ad3a08f8bf2310745715d8e60675, 0x142c2105c569b0e7aee457f14605027ef09f9b7d03fcc1c2c81c0dc22eff61dca36ea27f392c934ad398e9471a2a3e6f⟩),
  (false, ⟨0x27b1b3c904791e3fa942dcd803b24ff12a9cd7524a26b87c8dd9dfb56ea54ca5c9d26e68acd42eff277e12a1c665cd8, 0x162f5c264c2d2728aaa1f652ee6cbf6da2000115b0cca0d89754d630e027f9217dd0fba67a880435688221e820d4164e⟩),
  (false, ⟨0x13a3cf500109646aac4d69e33e86b7943ceda2cc678e671964192efc9a09299ad173b34e4a074239eac7dc93b8113ddd, 0x12f734fc3463dc7adb90dccbbaeda04445ec73fe1fd859d6076071bd0d45623a4cfe964789c20af4b5a694d4d6d9d45d⟩),
  (false, ⟨0x65c82633f9d4d20c07f6ad4f79c2172e21b91ba79a5ea2dd1453a4587d6c2ca2341043e1ed40e3c2cfcc055cd4958d6, 0x18a18bd0be954bbff600c7c1403276e7635ed1cd34473d3d086bc2e62775af5eae61d9aac8398341fc07277f183c17d5⟩),
  (false, ⟨0x31ae02e34d7d21957899dbef96a7955cf8a3345e89477c101ffc8c27a2046327376e250e6882416d7bc0be138e4eeb2, 0x1900bee131450e7d7a914ea489fb49e1a36591a6b189f964d0a0095db108dfd24e92848f148232d34a8da37b7adc99a7⟩),
  (false, ⟨0x141accc8970ace156fe95a366883383b5a445ca79fc407ee3f3bd12ca9ef48ef6199a7f46231a3597b09b6d5fda5c712, 0x18b35a8fd65ba4cbd734a0eea368fc9a21efabd91ace37d98ff3e0c3028ea8f24ee6fb30e0c805067330b20430c585c8⟩),
  (false, ⟨0xaaafef3c4298542248b3a58135c684f9ac0e0a34315e044a7d66db543d3c6a626f79dea7ee6a5f3ce669de80b52ba42, 0x13d96385b510deff2f4d1d32ee0060a937926e9b6d6adb90abac56946f0699334fa765e60e0b267ea1f8e8dc2b83d62e⟩),
  (false, ⟨0xfc955cb99bde258d876019716b9fdec9340c8f3aefa561ca412df73ae5febbec296a5fb95db0469c00d953ee476c048, 0x8fd02881a5331dfb0922a3b31368cfad1bcb8ef19b9d382fb88180286d20648b40806c083c7d7a804031b10c844d0cb⟩),
  (false, ⟨0x5b8f08ef767ca4cf5f36622b89e509fc5decaef9cb221f15b64b681867d0f5505b9f13931f476324f857ca9daa71d3f, 0xa3b4aea7c32a8fc4d9a662b03710c6daa7cac50a8ca6de8554f99004f5b1f2a21b026098f44b24a23750c8f0fa6270d⟩),
  (false, ⟨0x9a64184b516425353d3342b7f1e2595a7bf3cb9644dc3a23ae401e3a2c43950dd3e14a5813cf8d46ec722731cb2e790, 0xaf426e78303a8cf5a43520e362a12402d4cd3c50c5a5bc14b9c5ee3da9ae172d5612c391be4ad4c913b7f23ef8afc45⟩),
  (false, ⟨0xdd9144f8c45e6091a6714d772bf4739ae7b1a8652c823a2aca6cfb5457ca1adc99138fe3c31209a4897e0f66a542078, 0xda6ef8b0ede3a09d1a5c00b21acf101ca7ff6cd9129e67a30ff4bdf679bd4a2b87fa34cc8942e9d5abaeec4938f2308⟩),
  (false, ⟨0xea4a92fd6a7fada6c37e836f596f65d4b4a37bb57a0834973113079387e96d6d637efa84423b0a3a6bf47efd924c3dd, 0x5b7be247f2850b9608773bab9b9db45ba9d0959b3bd8de5770a36eaa83f3dcc1d95b34760a0823f91354f28328297ee⟩),
  (true, ⟨0x1142615b871d4c4963ef8ed842f9a579c71af04bbc4b9297c161b22f8b6c5a58a8fb3af7ec52a6b7026c9e97f3d6b0f8, 0x78e5e678d7c7e2754875c536346f6c41cfb8f5fdb95af2c9163b27340c90d31ae05f3aaa202c3156a09893b72234b5e⟩),
  (false, ⟨0xa0bad126c265d46d51689b72d7dd2e4d3d0945ac3d9cb888b9250b2bed82359a757e1269c4a4d3c7bb2576aeac0337b, 0x133a4335f59c0259f1a3ff195a51b1c4671888accdca74afa50259b7484098611c2cb9fdf65a98dff64d2a0fc947454f⟩),
  (false, ⟨0xfb69c6a2cbfc9dfb9b0142745ea7f0421cb2dd4e5b4ed7b1142cd575c788d8d19a24ba9dd3830612c58d544327ca0f0, 0x10635d3a601f92ab21801ab8e85be88d689d67e6e9835268f7cee1313a095fe9e31b7072875ab3c75d3a4e43d10b2503⟩),
  (false, ⟨0x28a36f542a28f6997a811fc2ce6cbed2508c5d828082677745110cbba12e028cd54150ccc1f58585e1d7b5bd45c4c1f, 0xac2c40f46751f043fe2833bd583e9bfd967becef21bf75f65d407bf06f076619981fe2e541d567dcc7fbea97520cd94⟩),
  (false, ⟨0x125e8f976f7536a2e85ea3cfefd8d2d0063990aea5570748e35370c03766b0439ba9bc0cf8c9e8b4405badfa94226735, 0xc0299d504b8b7bb5ff23b7fce15918bb8dbd901b96858640d5946aef2f36a4cb42aee9b8f2d3d1bd687824c71ce27fa⟩),
  (false, ⟨0x182115eb42220d34f08e487de33ed175b6d1a029dda7c9aa05a1ef8d1d2c315dd8bc62125863cf017f4f31c0054a3612, 0xfc2db9cb25d08faf7c8327f5daebc21a409de8913242d73b8d9e10bc6022a0994e39a0b90bfad204b39a3cbcac7b4⟩),
  (false, ⟨0x159ff2806d40ff15099d52045de59d8956f5a84da299063ef6c216059e7a2a6b1a09d23cd53473f5ac7b5e99de412ea4, 0x69a7d5ac5a38cce584e0b0f05b60b25f325eb68e4cbd45d0014e4ca22ebdbc559a20177fdccb0d7c9716c23df3ced8f⟩),
  (false, ⟨0x142182d337d4bdd0a9dc0152289c80bcf75761bc030bda9dcfd112580006deba5077fd8a5edf9450f71e9104f1c374e9, 0x113f465ca312058e0cd541d6b90435a9e7260873c34a0cd455f40359611c687f96c91dbee3f1affdcbbd3809a6881f8e⟩),
  (false, ⟨0x10933118bcf1940615957a6c1c7bca0054ff60c0db1566767322d2c5cd33e33d6fd2e0ca2639eca99f5b1f6e6d095faa, 0x14ef91f0b47d2bf1313ba159c090bf9a071c2af83528b3613d49af8c8914a7628366761443e0d74cf14359d83cc60326⟩),
  (false, ⟨0x5cf357e8473bba00386d2380ef2bbb3e118498031e2471fae5017af4c09ed67c5c2e5257a3deb7872768f839060087e, 0x82938f41814229b1224b32b425aed5972aa5f4b4d21ffc7a3913baa2c3f8f7499ac76a63b373a0d0a649113f5c7b2fe⟩),
  (false, ⟨0x13847679c97ef8978b3f64c9ba622ef466154b88c6206dc00a65c7c83d9e863106be2e6e6acbdd11b2e3bf3c4e9a8fc7, 0x5c65be3c6a8b37e95aaa4725d46595304e94133e1524dc41b86d1ea5e2cb0e5656952930a29270a27fe8eff7ff52747⟩),
  (false, ⟨0x78af2f8549231aa92bba1b374d54bf4748e38d3b2c782b3c9d8a7b7d87389e25b856b97ee48f089c7a4594a201092eb, 0x157a7e87571314c4eeffcc641151b627d67176b268c6b18bf425406455688e07fe496eb261acc46ca422be84be4fee75⟩),
  (false, ⟨0x8f022244af0b719146e8cfb7409e84a31ef57e217e3d45daa059fc26f53a4b15d861e5d1b9ff207335fcb7b28f48654, 0x72c117c18b8dfa89321c27cec88b9f86c99799b380ebac98fde2d5c9ef41c16128658961fa9d79eb0320e586c2d096a⟩),
  (false, ⟨0x86675ec3781ecc255b9b8f657bd72dc32622552c01c3a14efa70797ab04d5777f18cae0d8934218abbe5eda42e0374, 0x99b7b955ea60c02306dd0199067fb6cb2810aa19e5e838d4d7d18f24dc5139d8829c6be0db3cdd784259d6f00a05188⟩),
  (false, ⟨0xf16056dd2e8b5f8240d4ac75aac0cfc9b43343826136afbd4f0931c31459109811008d17464425eeb75a1d3a3486fba, 0x134957b7abe963c5d074abc911c5cbb3ae17332e06f5b415438805278ea9e18b001cf7daee0993ef125a22747400b5ea⟩),
  (false, ⟨0x2d6c8112234d7f18ea478ea7df5eabb84672fab4d4a6e1014e0585cd696c72e9adb4736ed72eccb4e30eeaf3b992446, 0x444323d14c7a3549b9f6b2738ce286aeea4511ddcb23d59ff0488c63a739029f85aec2295586dac212579b39f39df97⟩),
  (false, ⟨0x65fb0c0d47de8795557bd2f9f4eb741ac78b510ccf452abbc66726ddee31b37d058d7e5bdda2d3c31051f4071ae2945, 0x7f9fda3fa03c5295720441d73a813ffff40ee810a12214b0d4ee64da91ea67b8a4525b4b9c37518dd4a05df7a4d6dc1⟩)]
def uX : N2 := ⟨0x149ee6d25a1c8648c86f8673946935a6c41c801f2eb23fd9171fd41f31b7ec5c4a85f5b285f02508d928c716f9c1bc67, 0x6e63a1561fa8259ba6f6e15257a5cd4ab79697e45abf5042aa7cf28b80aa054b18d535b71cf70dafd2b694040d19479⟩
def uY : N2 := ⟨0xfcf61319e51e41eed89a6b0ff12b4da6f664b92422160a52083df7086215506947457947cd8917791ac308465a849c6, 0x14c164377443f5accb1eb0dfbb4910e98a49e53d8ef016c76df99c2649d3f49b1a3d8b6a55e5881f8ea0ecfdc3de9b2f⟩

attribute [irreducible] betaLit
end Bls.Chain
