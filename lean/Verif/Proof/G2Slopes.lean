import Verif.Proof.N2
/- Generated (slopes of a double-and-add chain): the slopes witnessing `(r-1)·G = -G` on
`y² = x³ + 4(1+u)` over Fq2, `G` the standard G2 generator. -/
namespace Bls.Chain
def g2Slopes : List (Bool × N2) := [(false, ⟨0x15a76ee3d8d1c3451005d56067cd27cf7598a85f81c23cd926ad0ec05ad6440f1df034cf36701a5831c9fb39250e2ea9, 0x16d96e785c797fb5d6afcb1400d7656829a6a71c42deb7ddce5cd2ccda4704dc0e4b92b69009367bbf6e6aa19488df66⟩),
  (true, ⟨0x14b92565b748c30f253912c6cf3aaa45c2b370e810ea9361db7b84172cb1e68ddd09eb1296e0f84058018a4538d64e8b, 0x3c50d0829bdc305ff694cc9bf914addbdcbe307142bf7cc7b8d9115b96656327dd7978009cdcddf4728a38086aebcd7⟩),
  (false, ⟨0x56ceab5d5d994dee0ca07fc0d41aa908b1a833b94e768d2dec05cffe4a869aed2a64ee86a72f085ee4e78bd4c2aef8e, 0x39b596a976f556e5ea4016a3111e14b674a67295a242cf3b343a6878db6ec20bcac1275d23aad6cd3e84e398a4e7bc8⟩),
  (true, ⟨0xd860767952ed2b694b64eeaa63e06c40964532a724817c3ec76fa31d0fd358f36ee756e7bd212f8f60967471e995a8e, 0x1469d7cf50d58855fa523aa823fb8276293fac77c9a38c1b456cec057d45521c48d0b547d18f8b1de21e64c50d3c6fc2⟩),
  (false, ⟨0x170d0f24b4aea8d47505bdcea77b575312759f2343961541ed4a079c92d4034dd6836e970c8375b9c650005dd58ea4be, 0x16d5e700bf86ed4a1568d1c1b55ad51abfca6fe5478feb016535a0ac109d61c52024f20ee280d9dcf1a97db2d10947db⟩),
  (false, ⟨0x85b4de73016e76829b76087a9efa008a5e0e2d8e88e2f8dbbb202de49aff645953d896bfc3f189fb45e5eebce112438, 0x5cf84992627e71c7ad8c3cf2d1ee2bfeba09b38bedb65b280bc38237dc6ff9df5148f1154e4ad3259f7c6927fe6ac55⟩),
  (false, ⟨0x14016d6ceb8e65ab8795b473584d290d00b25b22919d941d47b99868f015f68731c08c4ae8398c01cb9b87017ddc4e2b, 0xda1ce72f68b92b5e8e6819dfd62a288900e0e5d05f348170a8a4990fc827a1c4ec4e58375318d0eef0e33165f2587fb⟩),
  (true, ⟨0x143ad0b94c9e757348c30f3b22d8450bb7a31bc2b47dfe8a5904ac7b0cff91c6dd69dca0bda9a7b43d240ba3a0bee24e, 0x8eb45c9d19964b29a0cb01e06d540dba90a84db1a1e5d4f1a9cbddd5d5e9b9a399b10f27d23c3373ccd1a2221309508⟩),
  (false, ⟨0x2864fa3edcbeddb41f677da4736911d5dd528c919024eb78d520025b99e776d7c4eb6437a5caebdaafe9d8d1e7db346, 0x3f5aeb34e53acdfc6a856fb8ddbc307bc0a35e9dde0d8e640287887ad472d4f94d4e329ab1f24161352c1ece88b13a1⟩),
  (true, ⟨0xdd590e01992a97a678864604c1b59d4b7ec1f6c59ab44587bcc9b84420c90507c7604b4a820dc6ad9a7feb599b362fe, 0x196100b9cc730dbc0a67d4052361f41f494ac8697f8dab7ee1e6917599af86307060afa706e4b774583a42fe29f21d89⟩),
  (false, ⟨0x100d398ca1310457ea4429418a771e3a814f8d3bd422ecf2464d6bde3698edef53e9cf1275552261f60fb90e3c464bd6, 0x59c0da3419232355c9cffde50923d0143ba1fe273bd0435da67dc44b40bb49ba14735160340be254683c79fa2208001⟩),
  (true, ⟨0x527320476dc9b82b23a6d71d26d0510a7f9060ea094eedee29e3ee43931fb3f9906fec36ec7e41edd223ca059837dcc, 0x13f3b2d8979007620a9733890bca6ce0f6cdeaa8bc3498caf65b4e9a381a758458eee1b55ccee9fb41a03e8b51105f73⟩),
  (false, ⟨0x583c752d40cdbfcd6e6110893a52946c107b5406ea62a7b47b1a4cd2caf62eaea6c10beb5630722e883deb30628d85c, 0x19fc7030ab5c94df1136ce9a727e59d4cdc590fdc8cdeca02ae37067b96971c6fa1434314cb2ca00055d73f4521fd08d⟩),
  (true, ⟨0xe33cd90f6475cc8c7be7756df312d6e2e6464e47a9692b1a5f9c42f44ab1bc486143e3bfe481de7d9cf756b7da7bf45, 0x133a1a56da71c700f7cf2bca378b3d47b3794e9ad7f389cccaf0c4dace118d661cb4989133c1f4aefec7da51b5fa74f6⟩),
  (false, ⟨0xf3398e1ba68ca5f7aa5a05d067a0c35af2f1c81764685002873c5e9eaa17706769c4df78bb6f3791aeadda98fd6cbb6, 0xb84b30fd28fa8c07beb007cb780ce27c1293aaf7dd9c2d40ca3e3a94f27c2062bdad5a37a5fe66aed3f4208bcfc51e2⟩),
  (true, ⟨0x17d5c6ef540d8e553edd0a5dda3e66e27032f7587d9cd9854bdef3bfe75f4661469156f6de07a97dc95fcad992cd49f6, 0x9bf7224ab2d26c639f46d1fec0ac7ee8168f90279bf194f1823acd98aecaa05f188fd5b05cf4c8f2472c0f548e601f4⟩),
  (false, ⟨0x1964fb54a8246d762143e6be5ee386f311defbe20e5614ae2ead64987b086dfa42dbd287969143a2c751656cc916abf7, 0xe44e7379dfd4dcdedd4adb218b44217424c4855d69916ef8547baff9f056d44c3042a505eeab19ca3832eb82eb204e1⟩),
  (false, ⟨0xedc2dec5ebc736b8dc994d97499ef46b47d8d9d015fadf2933ba162210c79983b1f157b77a6704119bdcffad9326363, 0xc5bb2488e71a96621e8ca0d0679ad89c3455983881bc205cfbd31abc5e38a5fb414e8fa00115996739be07dcef7d7⟩),
  (true, ⟨0x79467da26f948a432c701a1ffc823ed90a62fae706e02050ff3c5f7c847b4ed97482cb8e3aa3d4daced3e97ab8e9cd0, 0xf20f5533e75926244fa4247503e78be111541791c0978b368b2b8b2d9e61a3f93ecf41ba9b20f2f0219aefc39f1be09⟩),
  (false, ⟨0x322d394356f27ccece1105a265c777f851e0c258b9e558bd9d330de86377a79bc38bd2a11ac65f23088bd26df612842, 0x17e193f9f40d18a7114fdfe3f77282aa64d29d143588edb51a18a6ef6f99a02b00c68d14572b327d1f3cab8a11a2ba6b⟩),
  (true, ⟨0x10db049065c2f8a10313c41ebec47e4edf67aef98050da22f605f08551937c152bf5cf67501bfe779a02f416964b2720, 0x1992e053ce3e79494460fcca6fe29821c652774bbdd9dd7b7a54eaee1ab465de26082ccccdbe386b3a19c946acb3b1fb⟩),
  (false, ⟨0x5da1a094055aaba86eebbadab0cc646a19bc3cbea35a4c191a9a4262bc9a0dbb8661999c968b51e1536ad33526753e4, 0xab356391393a224df84535481d2d3d99819d7f8de6b836702980c6c8383654ec089e1b6679b61bd37780e65f47698c6⟩),
  (false, ⟨0x9bd27efc5a2c6770351a685bd99e400e5ccbef17b2d52e6223e58a982a697e4347c3c263226f6910e3c0559e8cd2d5a, 0x13f0e2c7ef6f623697ecd47b744ec5744b7d5b5b1cb15f9a48df949eb504e8e57d39b87486f066f7945453368384dd99⟩),
  (true, ⟨0xc4a09479b2a8d85a4cec6faa4e8c03e5aa6a626ea0f7dffe9b6dd598f37e80efab91af2adf39ba23cc3c35884330800, 0x168aaa804ba03377b8b433bbf7afe22561a80a7e7333a07f7ca7009f1b4a8c8b1144cfad3d6e68936f2ee8dfcb7854b1⟩),
  (false, ⟨0x17fe100f0ca635743f867938977bc2753b6e1c47f7b41b4e07036f4b6cd62a5b3ec60ba34425f72bc07f7e30d0ccdc0b, 0x1036783932d4045e105ce708ab48bfaf3a8c2cae04de8a5966127f404dcc33284899965228b2073de4ac573b1acbacc0⟩),
  (true, ⟨0xc320c36ef5dd6ff7444f80338b3a17b8e905db1aa5a67df80b828f550a1fc3823c025f1a31c49b5b31cffef62036dd1, 0x11f72acf53530756cef703ccc64a4f59551021a6dd2f451380120b6cbdd920830ee019e06af3c313e80b68d039a9b96f⟩),
  (false, ⟨0xc69403a3727588f21f62bc1612ae7b8fe1ae4f5e25cf432ac9269ac789bcedf8e62ca47af0817f593ab5a06a52749e3, 0x155c62a636700826e42d0a9dfe554874b917150a36d71f9322ebd1e46e30d74cd5477a2f1df0ae6ea1b40e058b5c69f8⟩),
  (false, ⟨0x3381d731de3d93c7e4e325e85280d1297007aa37269664e62c4ddb9a1c8ec670bd717acd2aa24243379d2b739fd0528, 0xf9a97776e2e90d601d6ca4a84038b583f1119473ed2918f1dc84fb15f4562b0660f2887652a82e3d272fcd77e2fa98⟩),
  (true, ⟨0xa2b9fd2a0e14a669079f27e5996046afdb86b802b5ef420a763fd21f3d23b96b654266aa85bae6ebbb2009b576e8906, 0xefdb69c8f49826e4588ffde4b912347f84107d7552d2f3fe2ba452ec4d1c9b46f5640e7fd74bc65c4eff4debc0ce0f3⟩),
  (false, ⟨0x172d77c0153848f3dfd03bfcb74fb2155a69827e1f66835ba06f70cdc4cf8c57fe0f9a41383a9d6a5dd993d2f9b1ba28, 0x12ea2b7292196fc5de2e6cbccbb0bf21239af9bbfeaba60805669bd70cd81d6f441b510f645c71f7fa818198503ebb2e⟩),
  (false, ⟨0x151500313f97d8380c20b472f066f2ae2f5b4a109bf3b367bba2df439343238569202506cfed88ddb67118f56d746bce, 0x19dca321c79b4edba3bd93114e6b822b141c2d395eeccdd0afe99841bbe09ea6c434f87ebd89ad25d08a1e280e3ecfa1⟩),
  (false, ⟨0x14fd894a955a89e792693aded4387d736f7d0e442e67d97a37cbaa03a6ed4fcc2e2d46dfe05096bf1b7e68f94ad92e0c, 0x108a9251ba246985ffdc9bab7bf1fe7fb713d4b158ff3044f32e6185f6345e08d706ed2444ccf43baa442b932dbfdba9⟩),
  (true, ⟨0x2fe8589593a803c32ad6a444437b17ef1f5353968133084b78c7d4bdc21ce621b9655d62ef1179a5de57fc646ff5ac0, 0x3cbbd158a70b5d9335c3f9c7afa81b352f95742ded7bc2daf4c460ad81d95d1f7d50f90823bd44743e200e22616ee55⟩),
  (false, ⟨0x3443caa8dc76a0619c7f40905424f72f74f72cb7dbbef53cf6cef5cca00e097365ad503412eb382f5dffb2b9666d888, 0x14252514f8bc9cb001e86543761f87576d96b37c742417f3f5c06698a48504138b5a6d0dc007c0eddfa361dc5aaaf4ff⟩),
  (true, ⟨0x11dea710ad710021f79f8cd39aa22698b11c9e00be708cf5ea513d46f2ec439ff7ffb0f27757a143957f8debfbf3d09b, 0x972c2c9190a21c849eaa809e3ecd6e9d891c49e0c8a77edb100e66f338d70061c261a54ea4f10a5d433d9183e731be9⟩),
  (false, ⟨0x12c4b3fe3c32ae2bf6456bbf3cfd06a77616800652b47948f50e84facdc856178921e6da0e718755c89ad96e80c2340f, 0x8aed59af146c095660712da2bed797472c5c4f78c1b4f4d78e2d4471de8f4c94b8667b5d798a9e4611e21aeec53cbc9⟩),
  (true, ⟨0x110cad57efcbd6c1e7a3bb69efe2302d3a5a78e152ee788abc00c2ca58dd2c296a2220f0c234d2956789fdb96d5f802b, 0xc89a858a89c04674890b901686a484f1b060268b4633a656a9903d530a9d21dc22dc566bdf60ac20597218221b18f11⟩),
  (false, ⟨0xc864d7b0465d9a81d9b79f4177a158a68e874ed5186cd504b182261e9aa12dcaa6fc4e1ef019ebeb5e7949c597dfbb4, 0x17f1a9f0e643b5c5e7af38efd76ecb5dca9dab95282b8149c479e3ae9e4b4dcd5ec50ce0b1b8176a8e9798fd1bf02036⟩),
  (false, ⟨0x2e782b6aa0dac0d2cae59c6711b1bbc2029e155428fd72b6b49e9d3941d86dbe5f6cc90fdc25e8580c1e24399f03461, 0x1d41721094d8530a003a78d320c6fab8595a25c3fe4a670a7f47dba7ec968c1cf869330b6f23469082cb29f9d06d663⟩),
  (true, ⟨0x126c8d4e1e1511d894243814b386aace395b7aeb92830cd3b27f1c2841df77963354093c3cb8e6a5f3b471aa816e10d8, 0x158bfe2f97494c8652759a219098b04709a896b6928c8969f6c8debb91d542b3646f449e6e9eea890a212596be188be5⟩),
  (false, ⟨0x7b890b56bf2044e98908bef672d879b6b4fc3428e8736f4018688818b42e5f0be2cf1fbc9cbde4e3d693c59f22104ff, 0x166cd0c2adebd81b8605feb8ed9c8a2115d68532f4d5e0820bf54ca2919fbd17d8489c1aad8e0670ea6998e366c004e3⟩),
  (false, ⟨0x161849520badbda08377458287a50436219eaa082b02462e1260f92f2816f078991c6b7ffa899e0cf688d74e4f03a2bc, 0xf729023b92966320ead715af252f266f3bb07862359e4b808d61789b98002816957d905a3f784b7958c7e758fd810be⟩),
  (true, ⟨0xabe0ef9579a4bdbfecd588e14ddce37ecabb46061ebe19e24eaee8b6f8447890718943950f031937aba3b62bc59f6d4, 0xef262d7191163858b93f239cab9e8a3fdf070d0b1a46f0e1bfeb56c8823fce7bd44ee420f6eaaadee95f788db572b7f⟩),
  (false, ⟨0x69fcdfe2afe5e0785622c23abe00d31f9664034a9085525ac1238c387cfcc10cac389bd855cb28a8b80172a1bfee5de, 0x127ece7dc738771a9ad9d619024799da74fbcfff6282e75c2225cd78803f5304806e57b08a80f9ab2a60cd2126679712⟩),
  (false, ⟨0xf85822ef24e0ee143be12299a88e113e9a6582f7e228361ce3ea818177df0213cb26c06e6d3093935edc8d72ad39cb8, 0x12ca5072040502ae2893505e13956ad012c093f9e3d1df8d7bec38a6e9ff4f3ee194c6f8f1a9ae7125d776a95b9152dc⟩),
  (false, ⟨0x5d4b52eb7b0733fd823e958ff01bf345703a720015db318221b16d7fe1cac9369fbab0c4d692ed52a2e626ec5fcb6c2, 0x12d6e95c6d98c02de169c13a8ac2fa0c5006c1c169fee2e98fb06c185db5fda9e331e6cf848e18977e658f4be925cefc⟩),
  (true, ⟨0x49489e237d482db5ac1e6154e59b1087ad8e0b1ca800719f1d6a3c208ee559fcf4b0d7071fbf1ec9db082faba34646, 0x36e013236d07ed3df52ae8e3babbe947a74024a7de8ec5c90fadb02d73e51cc8aebd18e992896eff32cab62ff731255⟩),
  (false, ⟨0x39cfed3fdbc74427d3357ba21ff104f1b270e8e06d0f258e7812aef7bd8d52a4e3b78abee505bd4aa77df2b0137853f, 0xef3144df33b3fa896f279da6696dcf6861f33f87f0d8867476db05b0df7ff26200f6407e987fed7c0453b552cfa5fe6⟩),
  (true, ⟨0xb1372f9c372db0b95739cbf277a38a2ecebe4b1cc9dc62fc37c94a03ac70ae4d118b879f2cce41f2f2ebdf6918a3129, 0x16fb9c2c2332a082228f01c8c0ada8fa1b06f459fca6fae6dda7db92bfa895cd3431641603c9bdb3f46d11b8f4955679⟩),
  (false, ⟨0x1618fe931a399e9deb23e1bc0c77338e06ab0e1acf803bc69d0d0261d3ebeb89b8b844e49d068011f2e981959c112b70, 0xb914f609a6e57bf0e5848bc76ab9ef769ea9714621f4fe14a2c3003ecebc45e036777e76a7169376af7ed4d2fb50eaf⟩),
  (false, ⟨0x1992fc4ca7906af55a3158112aadb82c59d7b29386068f42ae87f5e5c56375857c06d1d9a12cf8624da8c261ef7d7175, 0x1964ffb812cc9e77b26a94aa16c7c23406cc8cb9b2f1bab1c0d24e4f988e4ed06046d69b4506a9a5aeb3c056f8da35e2⟩),
  (false, ⟨0xb2a114250594e584fbdc190daffa5270fd8eb65cbccfe2ca97b39ff92d7867d3eb474529785730c3a6ad638d064afa7, 0x1186423bc0a598af388b00504bda9ae3e6aa6663f987816a3ad649cbf556b998bbb247e3cb6c3a080e50abb69372c8f8⟩),
  (true, ⟨0x235573cd481b020ca731b6b487a3e622268faa3746ccf34a3d94945e1e121c9395149db5697975904b7c4ac40444f74, 0x564d871ed61fe01580cca8dd8393707fbd8c60c34abe41f60600d242452779f9cd54356b092361525d0a40a974aefbe⟩),
  (false, ⟨0x1832c955900583aa2abd54ad3360411da3fe5491ce6e0c38525e6656c2265c4dcedc39bd39cd53689e9244296940675e, 0x84549920fd65fd70f66fc43abfd0e06652e194d7f76475752e2181be70959c27c8bfb14b5030c1e69ef48ba63157195⟩),
  (false, ⟨0x14b5d305922b310710f71884be4f32ea271640d652e16dc4e35eda09a829c445a508eb67387cc7326eaf5210df93a10d, 0x66bd94e24226a9bf1cb9ddbe53654915cab36b2af2bdb00dc8083768bc403f28ca2d2634a5f39915a7cd94cfa7822af⟩),
  (true, ⟨0x195bf8ff560608726164143bf567dc90d2bc6799df02c029a9ae798d8322c5bdb37e5a0ea164a956131bddc396a091a7, 0x15c1d57b043768820b98a4dbbdda90bfc0806487ee2ac34eb9414aa45980ffb48ded69b2bf415c22b2840fe1e6c9c45⟩),
  (false, ⟨0xa3dd40e1c723becb3545e5660c917e083363e9157e3145efad711c9b0a4c2544afefea73d136641180beff4ea2d0920, 0x12d8c51b2eebffc0cb86bc26d76af8f09ce91344275fe4d437f73e97f56c4d5bdfe8309238ade3427fb2988396e54e42⟩),
  (false, ⟨0x172af252464b1182ee69e6730b46bdbd3d416f528617f5faf16919e17fe35019912ace85a6d329932f1670516fdcfefc, 0x13434630fb7808f0d7f261ae20d3ef9b60af78c4901ef773b33944d457e791bb86d444f1f4c81a151289e83992836eb0⟩),
  (false, ⟨0x16d68b5b2f09b3111023626d9850cd194f5f5db3d5366c80ba9a2f3385c9ddbd329315d2ef88fa4dfad6c2e3873375e5, 0x465f8b0b31895f0d2e2393206e0a4b4bd13398a34b8c228a5b75d40c5a0c82ac3e812a87bb07fec39e0e493be9205b7⟩),
  (true, ⟨0xe1566f0bd8f2e85b0900699a058dff08fe94cfe2630dfb51c456519afa39725151891057a76a5938a682e6c1e7d6d28, 0xab53f1661e9772b1a9cc2faf6b414d7ad89f83ffc314910a2098b9c512374be754c2b608ba446aa289f03843d90ae33⟩),
  (false, ⟨0x1e723f729875c7a9e52aa7da19d73e255e82f3584ecf31fcfa4b4266a2478c47638ce4e5fcaeae18f19eeba2ad21b8d, 0x41403a98979e612cf62496e69a7b5363a2a094df7bdfd77bc0646a618b1f8a403956560186021eb3806b24d33f6194f⟩),
  (true, ⟨0x5e27d82a95b445a177c0e032275511e8addd3fb0262408c7492ac0bac9458f24f9a3416dea640fb0a2467ae13d328b3, 0x87850f62a030b3696a258d1c068d203be0875ee90492054af1fe26eb43daa3488d6a04600bc4d71e9004bef35637570⟩),
  (false, ⟨0xced1c20cad5aab18b770c90c5c15bb026386f5d24a42ee903319e7bcd41769e13da99f2cd4cad0daa5cde21d3bf7d3a, 0x15b568c0fafd42306c0cc24953419f223590c95d62f892b0232449853c4d263684ceca3e10f866d35dbcebefc0d82570⟩),
  (false, ⟨0x139620f0250ba53f5ad9d0e13e7cf7f9d71b4cb2a69fde530d55584cb055d9695586997d6178c1158e2fef63378ccb17, 0xcff2c41b1f183c2fea2f26c0ce3bc0c5f9287743b3f8ac495e19b668694a06a907b4ecae350a1465514c254beec1d03⟩),
  (false, ⟨0x571017354ae577fc66818b1442a159a5b24c0a429cfb1c86c0fc9330d67583e46fbb21365b835bd5fff4111f519b9b6, 0x156f737016d63f968e6c4680cdebdf9b00c440dd968c70480062886673e86c266159c944d1d9de9136e3554878c958d⟩),
  (true, ⟨0x614208231afe7181d321d5f1b7c617ae15f9be1e4e7fa79f0d611b497b1e394a61367b619575380df3f97191514558b, 0xca352e6339eddcdc1273446cc721c8827b03fb2292bee07e939e3fd3a9756272c5f16379879b84e710d237a2c863587⟩),
  (false, ⟨0x1539b07bb185bb572b9e2193a42614306bb9b30e1294fabb8fcb080750839daae24c2e2c8a18f729664ab2840de95614, 0x1420d88615dc091337e67d23a2121e3240851c3b58fd95646b9d067ca150b8b7702d8f83e8e6abb3121f110bbec58bbb⟩),
  (true, ⟨0xcf6763c35e72382e5e77157e33887f421425f23d4aa7395fb9f71e24c6134c97dfd3159b3f2c27bf7162272ede0455d, 0x1451123578175b29e43e102f0f2397050ca0d826019af5fe4fa49cc03ee55a33bd278b08148807e62ae190402dc5e7d7⟩),
  (false, ⟨0x137c17453ff35094750ddf979350a37b30bcae4142bd97091b14418210199e0676327a088affb698c8628fd7bb27a731, 0xa14b44fe5f9877b181fc3724289a702d567bc09685a12cb1abae3d39c759f3b8347b5f2baa02dbe5c88918b1ae4cebc⟩),
  (true, ⟨0x64672dcbda0ce03eae06a5612a3340df3e73255995713b3ed57377ed14147317e3ec3f8baa34feb64b43c796807916c, 0x16ab7c210f61b3de78ba6c8bd55669b2803dfa95e74a9ec4e3f970faa10b508c819bea788409eae8c61ef7ae4b7a155f⟩),
  (false, ⟨0x10d24d93c6ca70a469f40e3463f590e1e329225fb37db43c7970c2389799b8b189dc3dc08a4640293b6cb8da6b30d8, 0x7918134d1241a49f9ec928a1c61c6eee9c5d4c884de3cb72913bce1cfd125855c916e0a913a7ab53f99e669ff4928c⟩),
  (false, ⟨0x56a3bc096122ae9a2b8347a041d381cc854c9fe687df821e1daff4e5acffc504c7429c471654df65baa9e911034e26b, 0x880da00675a8cee54d3f61d7096ad2679b06d1c1026924136c57b4061b747386bb749ce358fe39600f4b7d098a68acd⟩),
  (true, ⟨0xbb2fb51d04485a7824e321a9bff41539ab3952f0a32a6b391fc22bcb8cd660df3fc84ca4cf6672329124cb63de2d967, 0x129cde30d410d1fae378f7d26f3e1cd3dbda739a075230b02a914fbc39a7287594c20182534af58d645a083231df637a⟩),
  (false, ⟨0x169090dcfd128954b85b46233afd1aa9baafb18e1032d6ed7c0c110b21325f3fa148d0defde6cb82375bf654c6917d9b, 0x192f7e24f9c6f21e6fd5938fb52b678bcf3fb80336846d15be295ae581df8a6526bab9e528be804a27860acdc75a3db0⟩),
  (false, ⟨0xac39c02a8507adb0ffa85bcf44eb2a9b0e2866ff108c6e5aadb4bb134ae627e4a5cfbfb4441e68b4b8d276996c651e8, 0x630db91075972ab3e272784f8370b82f9a569cbb3e1aad971a77134247f2ffa37dd0d2721471e102333a01c7efaa334⟩),
  (true, ⟨0x70f06e13511b5fcb00bbd0817ffe25b38e6f29094db9c3a7e7b4f73f97d50559b4af4e91cd757d2dd373981c5da74e2, 0x12aa71076d933e302575e570843a9bad3d31e2e8973f61fa055600cc8734401a529a6d082c06700f1a2edae7c3d2b38b⟩),
  (false, ⟨0x1927e860ea22ee2987f6ca21628777d590869aefe966116efdfa176c1a0e98071ab050d48ff66b330769d805dcea34ef, 0x1277b90cb4716766e5307a05b6aa31e1da720f04d10cc6e5a7c360687ce9f27e730ec7b375399b78ab1af3c75c8d2284⟩),
  (true, ⟨0x1885a747503e6a62bdf1a1ad563fcc76c7247e698751fd54ad883e6da326c1b4c6c65dfadb2d069aa0422e3628de6ad3, 0xb476d5c9dd508614d939b61619d667bc22be9226c57a05bee25c6e1b8f4b22fc5a0763688466d2551f28f89d61eb3ea⟩),
  (false, ⟨0x72883832e83f201a6ce2577df67aa11dc3a54771361ac7dbe010f574e7333db52fb12d7b31aebf5ef1e965611165f11, 0xe75402a914addd1d7e21eb60a541a9d6d386f717e20f8acf12d5f0181daa9e0b1fabf9dc9c100cc236b4f5dc82c9b58⟩),
  (true, ⟨0x610234d05b047aba90a0c4390a7c3168d3bba761ffb505d3b7c1b782e81cb89c7bff4a1d9b3bf75e66f51a9eda69ac1, 0x107890c4a54ceb1ea1168b92291f55364808d7b57997d19347b9501780f815cdc2faf9fe4c5f5577987643a9fbcadce5⟩),
  (false, ⟨0x14a3a918239f7fd52c827b086f48e73ad982a8188abc2b787e901388cc9b047164ffae62ffd5fbcdd3a87b0b2a33779, 0x8540e36443b2f040ef7b5fee1c42e4df3566d807708e003d850d051b6c6f61fe8a7509e86fdbda656735532664abb86⟩),
  (true, ⟨0x1712d00b9ad3b0637ed7e1b501b65166184fd8b0ba9f37ced4ac123e973b68ce5200e6be4ba4a8c79cc078563fbc4237, 0x900bdb9ffd7309733e1d6b6db2ca59a019e69f0012f4a2e5e76b2f1d4c75da3083c9142aa77ea172e4257e44806d8ae⟩),
  (false, ⟨0x8b3b55280030f64c97ed8e8b0bf99dda8c121d151a85d2e904a4cffc29909a8e1d979be676bea881b050f1ce221f71f, 0x11a148fbb6df5b1467c35dcb74f8b1134bc4c907d77914dd31ab961e701f4dd0b4554de3ca6483d750cb5b981d7114bf⟩),
  (true, ⟨0x18ed607fa7c26678ceaed24c616f04ac44951175d9c6ad9eb15044c939f49ee28c1a476a92f1c906bb2a76d80e184203, 0x2d4ef61e18c7751db6612fbae03ce05fc8edb62f85003f862d6cb9b1ca1a757894ca631917844ebfd07fb412f28b21⟩),
  (false, ⟨0x366d9ced8d2cc0afa2f12120f3ba6667a10e55ba2a6c46da4ac1d01fb28476b094cf3f8f92f81145194bc7844f69ec4, 0xcf24d366693b6456a3386a618b16fc7a17c37b634da873ec44178a75bb2faff7f8fd19dded5bf58f4373b509a56de5d⟩),
  (false, ⟨0x5927bbd3342ab17114364c4374bf602a1787cbbbdbdce2e3a2c1194a57a6b2979b6f27350ad86f5feb4491957a542c3, 0x11dc3140d884e8583b2508103e17c8b8b27b64a4b9cd33e372b62716cb39d46c79dd0f99d33e586ba0a5b8e89887f873⟩),
  (true, ⟨0x1096331b50b08bd7bb308ad6b5ec9ea040afc097f7480b707c753308f74dbb695ffaa2e9343765e208f16e4174d64acf, 0xdb25cd226f21d9655f40e23f6b0eca486f6928df525b7ae999693834a8bf1c765faa6e213a2ce5d6621fd41b31d7e70⟩),
  (false, ⟨0x91ebb250e59d4f49b99ab04433f049d4cf8c4fdf008dddf03cba3b00a0ff7d94b20ab53f7f1e10ffccb892abffaf5f7, 0x18a76e109767936d2ccad650b426b9472c7f7dec524b19c12608ed4a8e32e07b16e5f37425f336dac87160d75abfbe90⟩),
  (false, ⟨0x19f1ff80ceac0c819fadf33c29d9ad37de389d64f447f0649c7526e3eb1befe0fc545dee9fb7756b3752d3e3a73af1fa, 0x190430b9a405c20d35920734b613839617dce68477af4ef6fe6b145bf046649c16d05988214fa717c2ca5a4c74b695b6⟩),
  (true, ⟨0x144447ca4f79a618787d7a6ec8a491b0ac519326ca67893bf3308b45600e70acfd9c68cd8cc6bd8acadfde129e2f7f92, 0xfeb99a19901005f3051e9a68a207b1111f2b4a06e8712d15a3657210cddf6b6ccaaee74ad8df622d10c53bb6b7b74a8⟩),
  (false, ⟨0x12991bc74bc5836210e8ed5a5bc2efe4d4b04906b63378c0365a92c2443acb84cf83e6959a43fcb1490f7b3339e33f03, 0x14fce6b48908af390cd2156e9577e8453c6b4668b7d0f6d932f43eb505683a3ab67806b456e985ccd1cd631e957b0a2b⟩),
  (false, ⟨0xb369927030ae9af198fa00138018eca35b9c4afb0e81c5d6d8a467a32474c8526acec879199547f8f41317607b113b3, 0xc84bbfda367ac7427d1af87e560b08dcbcfed4cc295a3e02ddc29b3b13fdf0266bbb4dff39e0e7b8c7ce1320e343301⟩),
  (false, ⟨0x918cde806d2793caabd288732b5718c7548855c1e3a798f66cc0906fa963a48bbc02f855ff71571ac3430a1a275522e, 0x72c0bb9a5ffe8135e61b13b10c0e50e282cc7cdcd48fe54bc2a4cb567983e33a972b2e5a6ff40a6e8124fc50a9aefb3⟩),
  (true, ⟨0x228241ba7bf69b1f7661c1a9b49afc5d33f3eecee87af23505cd82bebc59c30a03008da074e435d68ab4634b012bdd8, 0xc3e8970de4fa71a28cf5c99c401c2f66754a27c6ef251af824a76959d40a6b87e106322d6d97c1c4b8fa01b44cec43d⟩),
  (false, ⟨0x187f9c02fb35abafd35f1090a06e2bd2dc5b13f39cb60997a378cfd7cfb34dffc2432a09128f96dd1cfc3068ddb464ea, 0x18091bb1277ef17815fe4d325d2646cdcd77cb42f07326cd7ecbe99ceb43197fae17ddca3bf28d634eda4666ddb01ebd⟩),
  (false, ⟨0xaf1d4721d1247de05b909994e2524c662640703794a30dabf6a2d6cf26e3a85fefc618ded26413e04c38475c4baac80, 0x117633f0fe815370d02255b74cd0848790387596dcbbb0cd47d5430967c04fd34d811fcae1856b9ae38b375bd741a427⟩),
  (false, ⟨0x13dba73e38a77b08e45a911637bc33132f6e15163042b2ae6050afa2e91288d895363480f6a17539f16e7410d480962c, 0x2b5fb6b4cad3d970f5906ee809c68a57b8163c456d0458f0a4d5e514587657f29b6d36163da520d05c3d67b0ba98d63⟩),
  (false, ⟨0x12e4d81e17b5a2e042d443cb5f10dd27a2d39a1abbdaae177c75a5a3cc62d90d9bb0ec6c8ff09f4a0a3f762c101355f2, 0xeb02fd1da9565a44e6f956e65d0b6e638fb8b3343e96be3428ac2acca394e50c7e1c56a159476d40b93b495192058f3⟩),
  (false, ⟨0x1408d2de779e818278adac2da0667e8fc4bdaf8a214a79cb2117635ab81c370d848a5e6aa9e5201599fccb33823bfbea, 0x55489f98fe741b9e8dc774e1fd97d94f32a63cb7b11fe39bea3d34e9df417785a1e0d24c14afd347c0dc1e6dbc1768a⟩),
  (false, ⟨0x248db936c370b62fab0c5f1eb5c43bbe16a16701686a870017105c53c3ecc1eec7b913badf8d253e1c2b99454034d2c, 0x115eafebd7f775f54c497431b0ce0deaef9a1aeae410258cf550c1713c16fc136292563bb59c1abf6b275119124f9614⟩),
  (true, ⟨0x17cb1f0594aaa7d9eec3f0dda266f2bf9662bbddf26242e43eaac135e184df207497d676e8b7b47017ed47aaec06a7a0, 0x17fb87c69ad5c7e3498f2433334d1ccaa97e3e43951d6e5fbccf28262b71c24d2512cf73824494de6a51f4c618d11ffb⟩),
  (false, ⟨0x9352d70a919bc75bbb51bc6c61e9603d9f52e49460cec817d0464faae6c4d24ea29c86fc65634dd86d29c5f276cb5f3, 0x144e03b70babaf96dc4bc68faa7b73f95b9bfe7377256432f2997bae7a0c016d2b89cc152b8033df2db17503353a9d99⟩),
  (true, ⟨0xddb53ab7600f19ad1d5d79cba26bc16ad8159b72328e961a3a4be2aba03f6cf31269d053e38265e7736013fb92847ca, 0x13401e55884bdcde97839b5eec83482c4c39201288f25fa4b0f328f57bf19b611fb4c3e181a8deee3e4019ea266c0f94⟩),
  (false, ⟨0x19d39fe040eec61804ff518ec159973c2832ba22923c5fdc0d03032b8362588fe9b03ec9a53930b8a3255843823beee2, 0x573bce94887d46c9cc6baf4e25dd9f7c73df68b6080eff77fa5629b7b142f65959213c90d188688091a7783d823ee54⟩),
  (false, ⟨0x27c81606308d28266e4c12bedf14730fdaad0587d71b80903a0e1e97318bc0b05827f9daf5f9d875349d172ce6e0423, 0xbfc904ac9d108640d20c58ed9934bbe603a7ad9fca9bb2633a70ead11c11ab57a3cc2e28a176c6dbccf7d4687117a87⟩),
  (false, ⟨0xceee9dc7d5661baca3c2fafb0edda1ad4e3c400416b7f767270ca62dff8c4601b4148fbdcb298e8ae74f970b53163e5, 0x7f39f49c77969ae67f38523f8dc7efae93457b960919371c82cd891c18a1680f062dbc446219f659a9489496ac74427⟩),
  (true, ⟨0xc2a80889db45447a6dd018200b4ad8f171edce636176c02f71d9233bcaeb167d8c173c0aaba3ba04a5577607bee806a, 0x170213a241104ec420ba255bcb0f8fcc3b97e1c6cd6aa970bffb258d3ad845696aa81a4e0e974fe359cc18ffe4092531⟩),
  (false, ⟨0x14071a7e96e45c122ec69a76782ef727162cf60068d70d82ba998977fa8032cae97b9778b2ebd6213c78941250bafe62, 0x51a4bde632b2d37b70144c832eb28e52ed1444d16be4eaddabc9e10e48854578fa0c63b39e480d1fe387b2e65de8d16⟩),
  (true, ⟨0xaefb555039c77abdf956f60b7f2bb303c45127ef30b44cc23daecc543c658f5a423dcbda6a6c4553377a4bb8cd95987, 0x867ff96266b238ccf44fc3a50636adc9baef00668650002c6817d73b4633b7cc8b35d5c8847ea7f278b175857db6c76⟩),
  (false, ⟨0x106f3cada1af2d8854ffe16e90e3818f22e0a8fdf3e7cddf5004ed16e4b091e30461e65598538ef67accb932ffd3d99d, 0xdebc702193586b9327bdf8e245e51917e9a9594505b49720ca3d81855f1d86fee0bbaf5a5cee8486c0c75324a935039⟩),
  (false, ⟨0x91ac5a9eeda7c65e35040ad12cf3fb98985ec2966cf35e7b25821bf630dd8e90bc95a571bce73f66e0d69bb587861fe, 0x5341c4cf26953261cd382e34601b5296fe898e27fa33d7f0da7897681d7c6d630ee34f724295c001dc503224605f32f⟩),
  (false, ⟨0x7c7285199b2b514ac24575ee1a79aa10cc355e1e925f2f14a3fb0c96a3309d2bf22f19185219a6b5cd5705f762e636f, 0xb0d73fda5520cb0b6682a14eabd10386615449c46aec4a6e5b8feaf6e8ac5503c6b367d900f41b107f7b4c003585944⟩),
  (true, ⟨0xd22d42c3c16dadd54e3453eabe98650224cd97ec01d3de16232d6a95ebda0262f33edf5873fadfc7127c006da557b5c, 0x1230b8e7886d488a64d2b03db82360b46740dd3d32d2f3a443abe1553b64327aaf03bb9a9830eff00090db49885f4bc⟩),
  (false, ⟨0xa1f52e9339cc72025661ac4b6a3629ffcb8be5f3243c85c5e47d6ad3d47d0a3c39de9b8b3cb3cafa874a34c9654b9a8, 0xcc9a29db2be6d1a638ae60aa1b236b6fc5cf43b70864822962c347f0aa44582d43b3afe0467c45edfa0266d4d097bfe⟩),
  (true, ⟨0x2fd796bcfbf4e830aa5e08b1c36fe88c1bebfbb94df113661007a45959f5cced2ebaab288a013f6c54e8a81af95551f, 0x14857ff6654133f0e771ce93d618389ef5fdd7138b50d7a9cbcc49dd43490794bfa52d3f31f8b5d61ae6487bde015755⟩),
  (false, ⟨0x1122725d2ac5d5ff362ceea3a7e9c75250eccb93de8ac6add756ac0bd24ec03db1df1dd71f7f2c158b735e8c7c98a6a3, 0x1372cbf4e47e63bc35a17ca5c1d8bda69757ceaff336d76733e9d4d3392fd658d578116e112a12e0ae839e854819fdd6⟩),
  (true, ⟨0x5b823acf880ed33bd79bb756624f7b7c3a5def11c6566831650ac73449d861c0e436dd914273c62fe25b35362c0816b, 0x181d8baeda9e1f35a09237e5ae62393711285b53ab368cc106a44686051d9bdfb03671be67539e59ba9f51537bb24ddc⟩),
  (false, ⟨0x222ce2d649f1aa86ae146879ae5a5c496b21cb74d29e724288d925bd71a0f896513b5b3fb45d814d309fe2a664fcb4, 0x194f2eb0f946192a38cf9dad8c67b7a5b3cbca6aebaa8a22e20d08a8c9642d279ef82f43cf093f109de912f3eb70b561⟩),
  (false, ⟨0x1a5f1cbc16890d6a882f9ec02fde8ed03325bd05039b9ce9197b2956eeeeafd2cb793d52b267c5ad2a2cdf46248c57b, 0x6f19d34b9c96a4e27eeddd346e48973b2855f58694bc0ea64238a12e0bbf66d838090cd511d75397910f99809d75354⟩),
  (false, ⟨0x12c23fed1c2d3d2f8e9cc0caa12c0b43caf24f812fb72fe13baf2770ef7aaf7535192cb7061ef7fef578d08e6a8bcca9, 0x1943a54b252fa96e8e39d8f4efaddc5f2f75bb3568f934fde50ebfb45d7a8e4f31efb7451f403fd6e1163dc0e4ca41ce⟩),
  (true, ⟨0x22bac9a66d9f1ac23515f24ed47d24abf1e6f9fc3465f0731259936054ce62d1f4a54858855080455757483157817a0, 0x10d0509c0c644ac72d15847a6cf58191f8c9225030b7a74ca30e4ef143efcd9e0fd3d5477bba3579b1360827c7918620⟩),
  (false, ⟨0x154ecdff8bf85e2ae5ab5e29ea866cbcb64fc1d5451b653a8414b79910826c20f939f826555fac069631dcbe93c734c0, 0x83a87ead756e591a5988c5a2f3d83dc49661cfaa84e7b34c865c56a7fd71d5735aeaa86bc169b0a73f7fe898cddf301⟩),
  (true, ⟨0x93e78cc8003ed05557fa1c28d20ff0e70d7369551334230f902da00aff286b5013f28c73dceac210399b2f6249ae00c, 0x96f12c6676646300e2183bec2e5e90ee470e1d3c489e84dd5c313bb80dc6a41ddce9a90410ffaeb69a6491984ecfb66⟩),
  (false, ⟨0x12ccb26b644cb3acf62cc80d84a5ba3b885189d5be364f4349239643f10c5e341124468a67757f8dc43bbcc0feb1c295, 0x42dc0d3eb0a602f73b3da4d20b61fb2cdce1ba736e2815a79c336eb62cac6fdd219d4b6d624ffd4ea00a738166f6616⟩),
  (true, ⟨0x1673706a3b87a72128aa0619514713f3f36711a49a1a2d7da8a20ab63d62afc0aa24fccbdf3e787a5804ce4fabab3fa8, 0x51b8a79df7aacefe96e798a93920107a267709fe8b69aabe2841562cc35081329a0ae5d9c6c70bf6c645eae4c7258d4⟩),
  (false, ⟨0xf2bcf4c190c86db4bb4383db7fce095a7bc5b50cc8f852924dd7b98006f236cf12e29eec14ea6fc25c0cdcda664b51, 0xcd2a4f392aaabf890a53304e19ad5f8c2660fcd81f848ff8e4627e43517cda29cee7d51b1964deb192a94ba5088a490⟩),
  (false, ⟨0x10ce241ab228936f00fefe2a77ce61eb41329c41dade0a864486f34b04d7ff5e36c21ae60101b4c05fe5f2ca79a4b747, 0x6c574402cda3e77e336b2d6c45c3dad12a44f6a24184c18b884294f974467d7c335331939dea38aef9054ead2854f09⟩),
  (true, ⟨0x31cb96e43e0875ad0be45b38182f648df66429c7e1a1ba8179546bf19f7a00cbc01c0c3a5ee0e86eb114648c7158fc1, 0x94dfb23c8b2299042d63ba14a9de86c75ad6899aa8e0836cb5fc3abca15a5fe2e1a24897827644cf4aa3ec8a932736e⟩),
  (false, ⟨0x17b7e167a408525508cfafae6be96f7b060bc1965d7ed5bc95b06659dbcb530b64d24a68341b97c5e20ceabbf3170927, 0xe046af75da562971e7ad2b7bff63793cb9eb77ef0572f03ecc3629a052d79837b3f93e0d55313aca5ce014b12a084b2⟩),
  (true, ⟨0xb35e2784c145de481abece6f60650561da89aa887992dd97dfffe83516c68a59465faa5b97b8efa542a8bfd3af82698, 0x7b4f689cfd8beeb35141279b3bbc10c00ee515008113179ecfdec1bbf59d2f28e0d7a04e076e7f2401d9bc1d5350d42⟩),
  (false, ⟨0x6e010c52cedd40eff13cf2ee3f123bdce00e5513bae1375d5a10ad79713f601b5f79f8c295a08851dab1574ed0d866e, 0x19c682fbaf66333021b1a81cd443a74be9df69adf221011e13b346951963595c20ff7fd08bc1435e986cd97e195375b7⟩),
  (false, ⟨0xb5f69e77b7974bea7cd1d0f97fa1d000a203dca55b12964d0930b1f5cbf55979841d88a1227085040e592471f4cda45, 0x978ac773b667e2b2c67df6d962dadca717ef2d91d37d561f23c1e5a0a8660dcda32b88fda2f61ba0f0d81c7c3726e16⟩),
  (false, ⟨0x8e66c41f522c2e422274a5106f290f0fde2a008b9a51ab360858cf704a5c9e9fb23a3e965ae711d2ad4d785092bb98f, 0x1558565dee95faa34c35a5a2729a21aefb1190149d95e3b924861676af4ea57476c882d19deaacca19f43e0666717a2f⟩),
  (false, ⟨0x17e33ee6b91406140bd8f896eaf87fb60a82a440d22bd09d8359e15f1243baedbff9d1093a110f783191da4b145795bb, 0x8d36cec517f922b9f4263c50b1bde76c1810f699849ce68836efc88feed00dfe72a415fc7cdb6f7a1af4c3c6dfb728e⟩),
  (false, ⟨0xffaecd6a882d7f5130e24179634583a2c162b8f93cbbcab029e919361facfe2c21a6331b7a3251280189b2f45f4b4c5, 0xcab0c824b6319e855313c0a8bd1de220a0188b1211fb3b23d2fb0ff4d6fd02afaa32612558b176671e0c52803e9aa6c⟩),
  (false, ⟨0xa95c70eddafec288f0d1b18a73ef174f2089dd049f48fe1c8dd79aba4ada8dadcb970af349e082346f6ecdd8971cf9e, 0x1782bc31f632e3417306b2350d008c5af1dbda91e7f00ae4fa469711ad7127b3ddfeb4f06d4a40c8a4dad772aacb6117⟩),
  (false, ⟨0x74df1c481b964cc4e421b8fcd22a9b9d7618583b803f4dfa8f0416697d9ea58c05c52043e723d105524afc0efc547f8, 0x6b6e7dfa25ad59fedb7159e41debfe8555dea87ebd36779a697107393b169a7a7344822005821f7815952a556147727⟩),
  (false, ⟨0x1095bb3830191d2e8b015336884004e2f0335514cd35d18712f6ea6d22b45008dcaab1f8b73f98c069ac065f3654840, 0x7a7a953d0b561c43e0d516b322aa9d8e2b2d55b1ae60e5be568a41374c5e87c3940d01c7b2de018b8c75ea0b3281aa9⟩),
  (true, ⟨0x140775eb04fd9b4ed65baad54ae6eb7125767a1b234861a236411de8c4db1a89967e74affd2e224d6645ae34b8c81e74, 0xf375915a55d9161d6b4529251ac027bc80e6eb73b2034b3b90c75a8b7d91e0716565305e3cac3ae3cb1f9f171205458⟩),
  (false, ⟨0x19283a001f3323588c12870f0f3da4fc06c837af1a1e694de64c6085a9d800a0e7f58aed80feff14a7d5fe25201e9daf, 0x668952838cfad59591a890ee75725b5154ef02e810643cb6017f481b130c7b5b02ce8d4c285cddfbf8ed0661e8307f7⟩),
  (false, ⟨0x17591dbe0dad23f35aa8d9779b7fadd0c71f35abdc010071f5fc06c807911395732d9d3dd6ced14096d1cf06c9152bb4, 0x34afaa5f01fbd98a518b756832e310b68f911abfb24d226f42e5cc6208032dfe880df02c7dea8c0a638395e56d3a288⟩),
  (false, ⟨0xafdbe8c11843ae000fbafbc9182fb92aa5e96439408e039a1d75b470e33acc246d52bbcbbc782a433c383ba41a61d28, 0x44ebdb26f1b90fdc2c874bcbcaf50dc466dc6b2c91bcde36e02e92fb60a9fc10160fa3495c239db83eaae1dcf2c5157⟩),
  (false, ⟨0x1015469862f2796117895b429b9fb0daba98d7a16cd3f542f698460f72312bb4c5d0e5b6f0333ead8971b328799995d0, 0x914673a3aa258c7b2d83058690450a4e72ff43c7a513082d5dc1aef47f3999bcc57599104eecab56903a9d4178419b0⟩),
  (false, ⟨0x73b1b08c39e6466a6991d6ea5c08aaff34ee8ea50f8e42bb414d7fe9d7c86d69092aa2e3d112f77482859bbe840f2ff, 0x1916a21ded6aa229d4f82c92c8eed54a3cdbc4f22527dfc35b881b4f0ad1bc25ed6688d3d3365cf98924b0704a16d9e6⟩),
  (false, ⟨0x12ec3893898fe2a91d2f62d44f4d82b3d343b678451006f52f6d7fdab0632875430ba143c2d5c1c5b5f46ca3bad4c656, 0x113acbb9ecb1ad8e6483a28275f8c67c782c1b3580c21ec3d563f270ad314e6cf0f7cd54ed42e7e8a2d24f7df7854547⟩),
  (false, ⟨0x41e4725b937ca437319e19c8c9404e0db1ba003bc4a278341bfbb03d9f72fe627a7c4ef3180cc00fa31266a2e80f926, 0xdbc63b57ee00f01b057d60fb7ff27fef1088087ac7b9a4eb66b4f7e096c926ce41eefc9011828bd8f5de053e571d890⟩),
  (false, ⟨0x1391cd2a25433b2509b96c92195c0d55a25fbf7fa174f3038c082fa26b21086837f50acac08ec7e3bce3b30ce1c9494, 0x15b13f7e3173d5d5ebcfd4c36efff2895b70033684999bb9aadf04619ea8e208a634579246277989b03690f231d9adaa⟩),
  (true, ⟨0x11b2488546e84a658e24959db35981293daaa4d882133496a821c5a745236566dbd72c36c610807f6c4fd158c7dcf33, 0x589f0a1de211809b4e6b6e0e5141dffa6715608231116b1100e7753795dfd61a074bb675def58100aa54d9812aff94⟩),
  (false, ⟨0x747fd20d43bf6178755821fa9078e9ad547aa8883711ae2c4522f24f779a2bea93beb3a92cb6df03ccc1e4c7eb10ec2, 0x117f1949f38f3b38f1308b265ec656ae8620a8cd5380e98e22c02fc5cab14731d0449bb30fefa06915179e2073a61e04⟩),
  (false, ⟨0x4b5009327cf35c59643f05721a506ed715fdebeacd9c52306ad82212e2c92efcc78e25b1717bf0957b858ca3f82acdb, 0x5a979d3a3a49b02a6fb8ad73a4dfed79d9bcd4574e2d92d55f0b9bde09e166362f93e78fa1ba27b577c49517eddccaa⟩),
  (false, ⟨0xd3ca7ef760dc0bbb21dae71b44e79d97b70f5cb3aa7a4a95b84c44be1f88302aeaff5aa474e5f4f3cc76ac9f8d5fee3, 0x41f550b2babc1f25fa411c3a953afd1ffe6acfe747d012c0343a3fcf4eb2c07eeae7da29c2c059f17da1c41d898cb03⟩),
  (true, ⟨0xcb883882edf050aafd51117a9929bf516590eb6019a9f988ec14a6a0a17d963f505791a59280dcc2736fa9a8254e968, 0x13cb765d707e50ca8439e54233a011ee65f48a9075a94cee9ff1d6f5a71bf9b7685aceaa233b3bd2d5788e19139165e2⟩),
  (false, ⟨0x345c1b7c2bdaea000d34ad68b0e507c2e439af2ca65cf8dbd07a4a4e5c4a9f6ad3f9fdd91fcebf58ba62c3cda56201a, 0x465317031b6782b43f43f4fdf9184fdc18e5e35d897318608c31848e3e6b6c735c90ae1336cb8a89cb789ee7dd49bc0⟩),
  (true, ⟨0x425b6db84913d5cd90e53f1e1f8dc6817e505a0d3bded62f3ca66dd1e1810c6dcef932bc6b1a4da4aaa2b2c1fec122e, 0x178e94ebd7d6172e9fc0ace1fbb389a7020f33950e9b1739ed4719aa743a839cdbd73c09fb9e050df2faebfc15886b6a⟩),
  (false, ⟨0x67ccb81906a989d3afdb5d88abdaea3c412ee78965e72a77524168bda6104ab641d484051b14ff952e382d9ac2d9f6, 0x4694f6f154fcb4e9f8ba213e5e6873ed0934d6d74b189df67ac87cdb9ac840e793fc6309093ad53cc124323c1e7ce72⟩),
  (false, ⟨0x109f9d0f33ee169d426fe1068658ae267bdeb91521838aef840682d5269074535db4902eedf377abc8f912b0fb6881de, 0xc9cd96dd8b31062abf8b603d85480854778ff3ea50712a0368af110cbcba0d1f50d083d27d4b5e4f6d32bdf167a8761⟩),
  (true, ⟨0x15c7c49963991d292fe68592d84403fb8b69486f24cdc627b728acd77ef955d764fc792d4149d7911de8ac02bf12c3a6, 0x1396c3234f50818b8ffa3ec2aa4592dfc9f15287f177549f1375eba661f124e8b8cecc4dbf3ae4750c62a0bd0ca000b1⟩),
  (false, ⟨0x673419b263bee7c70e874a19c92622a66bd151690ab1364dcf58f6b6651e90c3acc0aa34ca8f8a7ab8391b17f8bc698, 0x7d5b33d7a6984957426ed2c4d81fe0af1ec37d6a1cfca84f9d0dfac133f246eb3bd29f5c872cc633fb9879c6eb21f0a⟩),
  (false, ⟨0xc3debdfa074309f84a94f4a4c7ee853a274c71779e7c350575e4817b7ca4a87bf3896a9d9a4ad5bfe8056363e8777de, 0x22e1235e85dfce3994c50db0ce7294727170546e7ca08b1df1c0c1b783380bb9ba02bc00adafc924239c963acb50c60⟩),
  (false, ⟨0x16f2b4e6acd36f72fe05adc63fa427fee9407f362d5de24c1b9aa14c83845c6c0d898a834a0c95f2a2b963770e90aac5, 0x1c2b76d75c6104494748f243111dcd98f305976b59d70c3b8e6edfdb549ae744b0644e734500c737296d033c0708235⟩),
  (false, ⟨0xf6ab6cbd0be68b69cac9ef5430eb6a3e70737dad274f7142725cbe622d97f2d6293c5e0ccf8680395679ecab9b053c, 0x186f0447459f66ef4172aaf74732df5e704cb17cf0fa05c7a1571106709ee683b610dbbaafb7af08b253c4e73746f34f⟩),
  (false, ⟨0xbadd30eb32cb9a2ec9fc71d4a94135b9e22aa9a0e92f37020d93a4b1e80241306091bb10445e972ae2d174eafb2f1af, 0x51cf69e0987874e7841dcb6b869a7474dd709c97503e62bc5f6b5bdcbe19010fde0cb49178c9ac4eb1ab9af767db2ea⟩),
  (true, ⟨0x9e5e48fcdc6ce4edcdb314550ec2760ac54439163b39a942a46bb0e1f1be0efa41dc986974c499693cf3f35737bda6d, 0x19cf551a063c43102ed13296db550d61af7ea774512e613068259fa831ef1a043a08c432e46871eb323bda28e80c391d⟩),
  (false, ⟨0x66e17d2610f88715c10a044177d09c2141f16bc623666dcc4de97e70503f74ba8e8344df1296c3ae8ea58f3e184882c, 0x7a90136efbecbcea0936e145c91a461c9c8619b1ec91cb697ceba33ad66cba88de8ed1e541995db965d34aad2f6f829⟩),
  (true, ⟨0x102607096a25c6e8361b963ca598d4c0e0d1a3efc2772b909e19c54602c2194c8d52b9cc1f8b3c18cc087abbeae763f6, 0x12e65cca31d7e3000cc3d7f4b23d8c2296a6ad48cbc2005e3468ff63d29e0adf0c41d15a4e7718062a623f63988ec7a2⟩),
  (false, ⟨0xbd5ea2d696eb42535ea41e40b10e81b0cba89d4a590921596010fc3694b314c62eea2bc6765a11e61af1da1fa1e07c3, 0x2cbc592dd5e31188ed7a2826e1ab242a4ba9085846f51c526a07f1bd47654c6a9e428e2a66e07accabaf4ad850ff7bc⟩),
  (true, ⟨0x101a93b7ed700dfcea6acc385c5ecf13f9b8db28acb53bb8bcdd485cd006c6a5ecb72f2d95400d3ee7d3fb11066ae821, 0x160e8be689eb3e6c762f563c82398544d83ab5f84077c097364cfe857e93481c62987ccf880eaa56244379e013a230a2⟩),
  (false, ⟨0xb5f5f20e8fda13d773c69afef2a4c035154dfb7329cbe5e0d79fcfec4ba539c565344209dba3fdbcf0ee589d74b809a, 0x2b687700ceece2d05d11610e4b81deae14b407255b404409acf34b7714443c313b47ad3d9835ddeca0f7d4c72391b4b⟩),
  (false, ⟨0x6b9cb4f0500c9d76e7d70c76820f7ba724179a73fbae3eb335c7d426859eb7b476d4f2d838c5942ba22df4ec308c95e, 0x60156134028a2dd0ef7cb3f0d02f2e03afd153f81efdb67d8321f2b49397ece9576a26226c87682b36ea41a7bec84e1⟩),
  (true, ⟨0x75c82d505bd1edb14146eab10138c91516732717c552be7500922fcb74ba17ee0fa22353b54351c933bddee5ecaa666, 0x7e1f0876639411a1b2452a81491c0b2f4833715871c71c8e8fee5c11e6df0fe8b3579aa5fb7486cffb32ae4455f1d29⟩),
  (false, ⟨0x161ebf30c7004b5d9775d870e9ae62f8ff2c116e9781ad1e2e9ee7c3db3b9dc16d397104aca50a021c1748cf299ef7dd, 0x18363eb6a48838f1651870443c401faa1f938200519828c06a3a4f9d7e19b9ab9416deb0a639c4d97f9685dad24b556a⟩),
  (true, ⟨0xaa81ddfc541a9c7948d68f162c0ce0127a050bed243e924777c2265144534bcb2cb5302eb34b13426f18c736dc37f40, 0x1422397b509edfb53ead322eea0a51c94f6b453e2c9b47e06780648f00ca0bd969f13ade056d3b999a0fa3204a38ee23⟩),
  (false, ⟨0x535c0046519c575d8a0937db11cf30c87857cd3a95e001ca0fcd76ef07c1b88d0046f59288c74ffa795bec8c394c1a7, 0x75a535ad36b96db7018b86e5ddae576d30ec44f3e1b5ced3d2b3cc4ca39c52777496b04b2ba66b2e39a3b0af62defb1⟩),
  (false, ⟨0xdcb39165735b483d1e7d3c94ec9c9e47c3aca6f62ef3cc05e4348503933be3aca32022042a2c9b9088743141d21ccc0, 0x6ab439560549d6111feda0436e6dfe822aadf0295fc839fd49c2a6fde37b8d649b253cd4aa4dd86577556382be2f847⟩),
  (false, ⟨0xca8d3c6d7d2003fb6a195c9e5ad92d150474ec52c1738b79ceb2a7e32e25f6b4d683347f6f4935bef648ade42d3a13a, 0x160ab0c99625cbbecc77b27a5d34c309a7e3eaa66bc31e88ea11c89caae3b197f74579f9e607c2a49f2f6b6434e2ecdb⟩),
  (false, ⟨0xf751e877fe24a8c8c846ab31d83ad9f67b24c59aae96e0a3e2be2075e648cb9a640a4a5b04c289c7d5ecba40bbf8c0, 0xa9b5deaf70bd8f9a2bec3f9d7b20641438d6ed36187d7600507a507ae4f15e9a0f327ce6d565a3dac99c68330e02399⟩),
  (false, ⟨0x1936523083405a9e6917e8e0f147647e3fa4571abefc373bbb52c5cc001fcab68aa82e7d617a347af7514f232a318b42, 0x183bc25b82a3da771f7e562bc883eb834a5c98a6cba6f888e67523c9ca6ac2df28f16cb495ca05f0664be62b3dbd87ad⟩),
  (false, ⟨0xc2ddaa66b019be68a48ec0e09b18bb7e548cae81332636a1bb0f7e6685d6b5cef20bb1a14a50364d93952ba342054d8, 0x171ef7073474c2f69686801a77f116c17761b647419f1da8f5d4b9e7f54427a7b118495440a09fac2dec29f6b14f0949⟩),
  (false, ⟨0x10082927023c23f2adb19454d9edb4881699063e38bfcb4eec9d7189a37f7cfcac24c71997e742cfa103fa863272f7ec, 0x15b5a51cf9d722ed9bf7baf078f6d54f88e145912eb575eb432d99dc4b32e3b2a66ff67c60afbdfdd0c75bc8d580c703⟩),
  (false, ⟨0x13eab923667ff6c3f241c8363d40d5966e3893da570792129cd4a624ef19b1a494d19c20180c0a53eb70241aae389079, 0x1332c87f76ddc83acc61f3a7cb2d582348536573ae1b5177177bb223ffc0685f9adfcac426bed6f73566b481e5d1ec30⟩),
  (false, ⟨0xf6387d6321e8af766582ea9f5815f3a045633a48f53c8669f843c4047362f3321897dd5296434bccaaff4c74d406727, 0xd81c42c5203b34d1ae44a2fe2e8e99de734c8458a04b9b47dbf30dab566003f56713da1288fd7334b4bd18617149829⟩),
  (true, ⟨0x10d5caa22435488e46d5cf2f7aee3f20607a5f2c256fc5fb18966c4570205496d452df793a7a36a120bcb32e6c05d82d, 0x16ea394ee4f865de660a011379d5121070fc14c61ced86ec3801984dffcdf7ff88f95551a7776937a701217124bec9b2⟩),
  (false, ⟨0x16275b2d6b427cea329ad63e4cbb04b78a436b34d9ee20b58de1ae04ae08bc3209468106e0f944f735e7d3b15d5719f, 0x225de663ff57c5f8856e7a0970c7342ef0113e3a92c9db9e6b3bf1027feeb581e71dad74238e01f0777949008e50324⟩),
  (false, ⟨0x937774a0065325eb37100f016bd59c98d99a442ec7325aec1616b3d997dafd1de7ed6d6ac0a1f3c4039a91137170349, 0x14152ac18edc6db15b9ec98de9c6a1314fe2c77ace4a3a813dd08925d90498e594cfa1ff4a86765808a0ffc736026177⟩),
  (true, ⟨0x15f7475236fccd1154787bfc34c234a4b4a90910817f7c09c39c7efcb3edca05ece6414723f1072f5845e870e5688cd2, 0x1388346def4cc482e4d6685a0dcf0f97418f67ca1c3a804701a4e04fc64f214638c96bd9c0df0f2f5eb8bc41b95be1b6⟩),
  (false, ⟨0x3a69b192fbb162423f303bd25a3d70777b69207d480c8e20539d7df527b784e26c6ee89f95811af40ce7119bc14e976, 0x419b15637dbeae612552d23b8a447b23a6fffe4f160291144cca3cc9676fa1bedd01e742bf9d39e860f4723f74e0902⟩),
  (false, ⟨0x17be62f2afc925f16e7eba7f0f963d5bd59a9bb5a746ccd743a051291804c5b92d953ca0e3896e1eb79f46b9262f25d8, 0x72c1fba6ca1c86189bbd60c0d2b09342e3ea1f73a252b97020868af422ed26a8e09ed4eb2d76d4a8e707c45a5928974⟩),
  (true, ⟨0x25a90c49d2fbec51b91a7f060209499eb659ce2aa8e7f81a898d9b436ca4e20dcf13a991d71f6ba53e0a2c235981465, 0x2e1539c7bccf755af512cee140a8d8d846efcd9fabb55818136f83d0531ee2f85b8787fe07b8334d31310dbdfa33b7c⟩),
  (false, ⟨0x3e9d7d6798f0e3a0c0e0bfda2aaf10172e12c58d18e21fae4e4bc91e291b06d0979aa090d3fb9a330304cfc3946243a, 0x187ce9f81df24e1af1ef1e886a7d0328959cf57c0681b06d3b503a3296cfb7796530babf0bb0268cf4285421ed546a72⟩),
  (false, ⟨0x17cc9f6e475636dac179e4b2ca6cb00fb72e2568cf1c1f39b541f82508892d156d8977d16be787a2aa00a89170cfb3c, 0x57345b60bba4866d5ab0cfaabc8469c2cef40f91900579f9ebda69125469729aad68786342872666110d3557b628819⟩),
  (true, ⟨0x727382d324ab4d0dc715fb619df1005447d8bc2976ea43a7fec951169eb863b352f0088efe7c3e963fb769f0f6744d1, 0x31115e86ca2aa1d91e90fc90578365a0ee0727ad93875fca02b27a8b7e2c28e5d4019ffaced9dffa4ae3b0e76ae6ee2⟩),
  (false, ⟨0x11d7b5db9b371d0dbb9ac19dfd7a365bfd37de37ae0e57301de827a9a9e5989c05dc29593d4962f50718c5fd8abc37a8, 0x6d99418990758ab2a4a558f5713094b779310d8b92f1a152e5a9dc691d8a08f89a6c637796593a5602ff8e111effe83⟩),
  (false, ⟨0x95c8b68d68516376ed82e2e8aaa96ecda282f798f8a1088addebda5bc56ccc6bae3ceb51cc0ef4147d79ec61f86a7c6, 0x4d16f29fe86c5276ca68874ee40e67c990d55b252e8901e449b26b8bd4460d885d06f4e7427916fecc7718d0b22eb0f⟩),
  (false, ⟨0xe2d81d4e773e40d379d0ae282bad646ea9ae72a5d6a2d8f42b0bb8bf163015e933177eaa4cae327655ee62109be8ddf, 0x15034714dbb07ccc91ca64895158aa5031a6a781731c15197fd659abe6e7ba92dd778578db8493ac951f4ff26408e24d⟩),
  (true, ⟨0x1176c629cf8d07cfa8bd7779f75cf0537c85453cfaabc54fb2d21c519bcbb6d02b62ac16c26ae730d5616f25e5b9de9a, 0xa00112d43284189809ad40db3ee7adbd741ad21e7e36513f161f31b35ce10447f35ff7dfa5b269433655681248ee2b2⟩),
  (false, ⟨0x16d666a160096ad23ffd4dcb0bd64c658fdc24a453e81ecc0469ad06365503ce67f16aa70587d1c666feebd65773cce0, 0xcae800facf6758293819b2e45cf93f03ca6f646fddf3d53a6af2b485f601574f089434814e64383557b47566599ebb⟩),
  (true, ⟨0x44fd3b1a428f16ea356c38602c2bb3cfea99c8470662180eb6b7f483e11a9a0b9f8f8b50d08c3470361758b82237e7f, 0x2c8039b5b96a409eacd1c6a24601969c8420961400d9ff9588e0774dd1ece3f8a451648a3a7eeeb3765280b27e3f5d9⟩),
  (false, ⟨0x10f9a20168e4fd01d8abd4551183770a952d7ab63aa1b2d3deebff1045a91297be7cd8c2158f0cac676ecf3861689104, 0xcfae6faa519828e813c7862adca04776ecf404e54624e33a1999eec3b1cbb1b1dc67574fc3e4408379c32e4cf7aeec0⟩),
  (true, ⟨0x75bce01e3b82f7e930d9be7db4a9e7984834200730bbc94c6ff51fbe1b496e923f732b66b3c8fb71a21b764cf12c0d8, 0x1137975ec43026e64aa75ba7170a5e4f1662c688909b70e83afb8083b0449ee2f3881e71266cbf806671b685222e78ca⟩),
  (false, ⟨0xf288719a4a7061b6c02469355f18b3880be7ef932b7232fce5224bb503c2554d99a336a0061d28f9b51f1250bc45d89, 0x2f9eea1b1d19f19519ac903f9664640f27bf3a74e9a549208b6e47bedca3c5122cc948aa9deb6896c2f0d0318559a75⟩),
  (false, ⟨0x1101a184d75ad27870dc168a9f831a2da62e296c69945117317fffcd931a4e3d78bab282fda05de88063898854ce71f2, 0x5937efb89b257a35ef945e5412293055c68b36ff1c3cc421f792b61bda7225d46a16d8b8fd05fb6abd21755868a46f4⟩),
  (true, ⟨0x1230a7f99e33cd7003a854451949cbccd8fcbc0f3ab2d7c19155affefeb6c9cc6d8738a16a097dcdd72338a16f233317, 0x19d7e4e126abf299badf14adcfc78ad5ece124b4c1acd27283962c1a9af962f99c6c920a68e0bf470faa9fabe34cebbc⟩),
  (false, ⟨0x185e35e5632a199e31488ee778eb7a9e669a7960d0f0ef59d9c7a7a48cc51cec744988b4fc711e17a039cf659d9c4332, 0xb3a237e53a51f2bfccf15b8e447c10342504072e1cb793ac94598c00c2dea2786cb955cb2209bb6ec8e03972b68b892⟩),
  (true, ⟨0x15c019bf81009f514bee72b1f45c53fe6a6d25371d31dd2327d3c6d30ca2f93084e273a0b050a8e48bd92d954eaa9986, 0x2cf838ba7fef8484175e3e75d1cbbf9823ff8e5c4a6f9fbe6e43a417367c001911a709fdee1e8fa3487d5273f5e63ba⟩),
  (false, ⟨0x181e68cba24fdbd629736b2e2e8e771677b4ba94a92841cf729aa830600c194423dd3a1984b18c775f97d20590dbc2b, 0xdb88c32c1659ef9e851fa03c54fcc017481e7410fe604da5a085be583c66beaad10e47fcfd83c3dd5be0488815e980e⟩),
  (true, ⟨0x14ae5c8403fe451c0af31ff8f2e9f0b1973146dc2e5c0dba8a4c603fc0c292d3f7dc6ad258e5f52515cb3d55472424c, 0x154ed0156e23105dfc28b83a46f0d7b422e735695a5c7d2111ea1ee51c95024f9dcf471b454bcc5d3c2336c9cf1af025⟩),
  (false, ⟨0x15901c9b1af5c0384dc7a47bff5329e597ef4df6cedd4412c2712da1986edf166449f20d1863a858da8f22ff1daca667, 0xee985d2be05bdfb9a74c1923b3bbc46d984479f94a2b6588387294aca75234d91ae89aa7f456456aea1e1b357595ef9⟩),
  (true, ⟨0x1d795968cbdaa961fb47a701f33f3c6f1de238c3e474faf78d435c8611c92e2fc695b785f677aa8e67245ba8966674a, 0x54dc391d8fe2b45a1b60bdd2c9b6e428b49ff247910471535f2b7b523a2f9c056e75900b1c1f8b7681c6f31b6755677⟩),
  (false, ⟨0x387f82f9efea2a6f131258c944919dee38c0962c719ac57975d8f96449ad2ea503b3f06224c1b575950004da1ebbcf8, 0x73a84eb92ff93053904b5bfaf91106f99f99df89bf24e09906436d0618621b944f3b15f1327797b78dfbe41c72d81e5⟩),
  (false, ⟨0xc3650debb47be998d6baee32727e16d72281c804e3870e1650aec9912ea4100f4a126896470a04c569e3078a4eba9f8, 0xd6f28946638a69a3ebd8253dcf5631c334cc4fe39084207d30143251a39c9fcbb246bd38dc35cf200dc4a08b46ee5f6⟩),
  (true, ⟨0x189d6687ed1265519fd32237d4b8cef127eb23f329112911f316985738dfe8ac4847d5ba073218be528fc1e59acd1e33, 0x2fc0ea1c07da27da04635285ed4b30bd70948b9a931503f64a3c4af8f1c2e95b0c2d5cc14bf7b1b2f088a62f2399b88⟩),
  (false, ⟨0x11538d2ec35344f96d876be01c1180601aa01b4053914a1a9aee8be9a3811929d42a01d9caaa0db702e8993149aae51a, 0x13ce52b7efffa4f12e116c3dac5bde7c405998c1540d64240fb98c4252e8c2ad90bda418ff45af2186adff27729ee91a⟩),
  (true, ⟨0x1805dc194c36c4cadaced357c43a0e37f6d957de11b52eddc1548b0ecd248a0fb61c6510df59937bb357f9ca31a119a, 0xfb1dca101295943c42fb75fec0e06bb433ba65ce9c691f3a7f483a193ae7c25865d8ffdd077593c081ef3c16e22cf2f⟩),
  (false, ⟨0x1043a7794937ef771a9619c55d2050888d72203e9b33bfd51f5c44e22a0018bb173fceae5495c44878a557bd185fb4f0, 0x1262b70727752421b57fbe8d02c0274b3da4058d524f363c0a19d1894d47cdea9320e3a21317ccf148fa3bf2b7cc4728⟩),
  (false, ⟨0xb6da37331d47f9b5151c39ebb3ae810b04fd6a36c6ce2fee8fd1a18b5f54f7bcf30d52a90c65fb18c0d947f55237e07, 0x10103f1c3698ff2de4c4ea24ee0d8b99e918725c454ff758ef065b01812df91145fc1beb46cfd07a63b7686747bfc00a⟩),
  (true, ⟨0x80b5824f9b522d93aa750c812fd2a71150e62f3558f8fa0d76bdf04be2783df630bad38a22cdfb1667e0a80ad99d8aa, 0x51565f54379b1d1b7b64648158bdb25abf4454de86595c50351c7a96c396680734bd4faddfe90d86472fa9c07c93357⟩),
  (false, ⟨0x158163933bb33815108d05af2777e8acf3402087047a019c575aa19317fa18e75a30e933a0d4881ed2fadbe0d4db2930, 0x15ffde06300f7de1fa1a49a310dd1a3cee5c5d9d04217f267666db2c7f8b2ed9144079166a268a5e161b9873946a1d4e⟩),
  (false, ⟨0xaa7688ee837688d3a60da239f5853be83832a0892531f68d4efe1c2a88a084f56f9da856d6f4a5d4cb697972eb6127e, 0xe16dc6554b1c5759e3d6457a33b4166ac36e6b66a737774840671c94fad1166a3c38df57b268593a84b6358c13097fe⟩),
  (false, ⟨0x15ad62e9818d520ea9bfe5099f940a75aac473876bfacf86cb7cdc7d91036e4400e3f04d126441edfb0152e22404a7c5, 0xbdbc61227e3a783104c22d22e3819c48c6dc86b051b1edc15e7fe28b2fd28357182e12e2635e3913c010b344d874d45⟩),
  (true, ⟨0xf336880ff2d08084bbc17c6227056c13e94ababdbb37f6a355e51adf7c9e4cb9e784396f61d4b8f642be23e5f2021d, 0x14d9e4c1c2d6a189a58b7e65a4a5ef80a7e5244e59cccedf6ea9a005b479eccc19f247d9237cf86883b138775c05beaf⟩),
  (false, ⟨0x1817a4b5a0b5ca696432ec7273cbb719dcdd43b5eca3cc359c3889348b969f3af8768ebe569519807c9b448dd6764089, 0x4b7575a7447b137701ff4e2cd5e48df282ee9a3871df10450601404d7443866b086e2df5c58ff59dcc70796aef0b7ea⟩),
  (false, ⟨0xf9874d748864182ba2f85fc685236de5f5792acef6bda1718fd5fb3359a5612bf1957f4c98dc8a789ad06e4b70caf3d, 0xc66d8d997aac21fe349947ff3c5c3c49fde11dd4cc7419e7e4d07006a63b233d4ea462e8c040a760d330d525350b19d⟩),
  (false, ⟨0xd0907096b4c26d28deb7d2173d152aa5da729e923c3dfa9cb5b6884c77ed091ad5de1621750f4201fa834fc5b0c2184, 0x15a303a8b4c092bfd07f70be531a3dd5be85103631fd6470be472599f8d2c8748b9605ee91b6501ef06eeb051063ef55⟩),
  (false, ⟨0x9372a41cc192ef72b8f54bebf1c8a07d66ceef0a90e17aec1b5c5ab5466358f7aebd90ffc8671bad7c393ac1547ed7f, 0x10904d70df18a6b62476cff809ae8c9490888587d9d0e9698f446f4523b9b6ab1ddd72f380c230b59d2f3e782e5adc⟩),
  (false, ⟨0x184851cab01d0ed99cd2c7c14c95fb7e0e28f586a7af94c418fb3f2401647c9811618e2ada15e6fcd191a328d2b91b11, 0x12e81c62db8492f78b9ca96b1012a9e5707e4111827c9854a9c5454053932142c086ae9505bb47c3638fb71c84a3bc25⟩),
  (false, ⟨0x112d4cddb3eabbca3b1985f66f62b8b4cb203d3bfd909b5eaccec647a7bf8fa586237237550f5747a34f497b8af92b61, 0x39a37a88f4fb6aff8c8959f0ab9495410ff08408c7515d8c5a4362ca923cc4fbc9ec7fa3400431c0ba3b91805606a9a⟩),
  (false, ⟨0x12031cf80f2d79986f9ba7e3f3f81d516a70e157927819b7c67ccae98b90507e14ec384c4bb83913e8399f946f469bb7, 0x10a50362c0cd17348c8d6045bf62053501dd4e1028ff9b344b9f67ef95394af430096d8a393d2923209f18c0a844ac28⟩),
  (false, ⟨0x5094ed1a2a9201332b15200c6e994ae4d98ec747ceb8aa18767ea5a46bda6135c4593e5542fecd0efc05af0522da7a3, 0x197a47db40ebf361522fe98cfd973839dc54470eb1d9ae31fc9f1fc2fb2668a4582310d6e08df8c6a1a875f214e70b35⟩),
  (false, ⟨0x15f4eb444d12cdccd4334b9e859b3b8348d5021d2064d8a3db4dedaa4ea2a21ee2986ba40bb5c26f5415fb0637f08118, 0xa6d892a440ea3a15fc242884100d7feeffd4527d3f81aeac098316cd9abdba860a45368d0e351593ec7c4347bf5eed⟩),
  (true, ⟨0x16d160c3b036939d507f9504ff636eeda9ae64017c2aacaa2972782a9d4e8c05f0f3bed33f655c8546222b474bcc86e, 0x1215b82d690d50427c99d8391aa896f759553921e05a8dcad24e2dfd6af4e2c04eaaa7c6323e0937610b0934fead2acc⟩),
  (false, ⟨0xec4e04485b57748671180f9f63d313ae19c22e50451f8f5a7013556658e00a900f2b5129c182f5a82023dcaa600728c, 0x58a98a9d99a651c061a10ebe1cecc658b0cfd44811dba3d4e89a372c766308ec9fa437f7c3647e61fa3dca38f1db57a⟩),
  (false, ⟨0x12a38179c22c76649ea93321535476ce355f552d447f1e1c5ebdf070c414b23ec89ad5af5f6257934ab8763e032d5f6b, 0x105a3751357e8d041a5b085da1125b50b4c4296c3198a4b26e47d0aeb27bcb8748e762776f986893781a1dc31b2e468c⟩),
  (true, ⟨0xf04cbb0c541a6efe80dd26436cfe20cfbf3f10bc54a0dbd0585dbbac4fe16cf247a9fbf820a8ff5f4eb503061181788, 0x5f2357ac39393433c4e3de64c80fbfe8483e8dc0fb855178fc40fda4c8ba03ce1f1d40bd0f51a0d97ee3b94e19992c5⟩),
  (false, ⟨0x4d75e8adc1b5940dafcbaa35d1bbd59146a16321d1f4d72552f7f979490883e2f88f48558483f90e52da37ce90bad79, 0x103424adf5f50e8ba9c0fc4f1de7c5f28033ad69eb78667e8e5253b18861953c1f544f2a8f92efb74fe3198b743e018d⟩),
  (true, ⟨0xe70193ee0550e2189cebadfc67230858e4aa2eed7c9ee8bd22d3dd843d0904589b978a3de8b4c68520a141032fe7f57, 0x29b921d3d36456d3e94b18ad47e65578f478397821134e475967f026206165320a96a199193101cc38ec12a113412b⟩),
  (false, ⟨0x17beb652d0ff6511bad69267753e64a8e230ed6af8465fb9f89097fca35f7586964c7c62ee3a9471e7cb7d43da78362a, 0x1185d2563916fc7b98edc0206856b38fc1a6209811b3c62346d78d386a60a32c7946502ffc536b676d11fa5e0e1bac31⟩),
  (true, ⟨0x86e79cf962d2d3c6c1b79c26d03ca0f8fe2c623ecdfdca7dbeaaf363b7cb5b1ddb1981262c262a26e592d7b16edd593, 0x146cc39e8863702bce21e08f4c4414d5e8a45aa870f2199aee8eff45046b00a4063e585826950fb8d211ef43e97888b5⟩),
  (false, ⟨0xd9442418cfd56668eceafc2a45fde7a7da3391b40c3cee48745e447bb475d837ce1967d77c35404779d66017b6cf962, 0x570b340d619843d20a96d0dfa24cbc55b1cdf80936b0a86e13ca11e3228817c1814a0f8135ce66b66ace65450d8a34c⟩),
  (true, ⟨0x1909cc6d6d5393e0f7741d9efcd2cca4ba91a4870ea4a8ebe5754bd6496fc2f75b1788cd744baf2f24176e8b0aedc0d1, 0x60ff0c8ef56a7a476b337c1926ea3782c82278a6808d008553d258ee7c93f4d63d15b0d2c9f9d6cd6ccd29162644b09⟩),
  (false, ⟨0xf77839040e8455c2e954f94b5ce88c2afc447a3c0be04d0c1c9f28a5d776ae1f38ce778fd9fe05c85584575065f4bc8, 0xb54c547a51b2ba66efab125318e5c16f31286de9749754003a9c48b86a73fce4f609d01bebea3e2951d25e42644bddc⟩),
  (true, ⟨0x43d7a86f9b95fadd57f9abd4cae7351e309d90306a87fadd61b3f4401087b8a3268b9f7feb978d4eb86cd8101f76366, 0xbe7daacb64770348a560766dc8fd0524e2ae61b516349c6ca3a5f022077268d945221f5e2bfc6d3a8554e1bae61374e⟩),
  (false, ⟨0xfc6ab2caea2a259c62dc493e770d42e8b7b5284d30df4c7d748bbf648a54789c71ddb1efffba37bc55d88cc40d0a705, 0x1b4681a798868c8c184a87ce8e0726af187b9c0971a2883d9c0f65c106336f40a8ffc06b549dc1ac0ff51fdc977c3bc⟩),
  (true, ⟨0x149e189058d095e136cdbe8ec71e79307a3e1ea3d3eff321a7bdc7b31d0c90a26e44fe7312fc48a458a2ac365bce682a, 0xaa2eb7a2b3f922e4c2ad129a0729fde08b5aa0c3b938f4edb9f59e3946d4d331dace67ef2b9403956cca1836d1981b6⟩),
  (false, ⟨0xf79ad70331414df9d6e484b59d05de072833f63e50a91fbf4de56a428838029e19c79a711872e4989046e5abbff8d64, 0x6679efbb442b31bb439ac79fe46df86c4aa57bab752c6d2dc0b09c039c196acc5851d6fcedfecaaad610c90069972ac⟩),
  (true, ⟨0x14073074b84c4b2dc41bb04cbffcbfd352b10d360f8869301794b30575ba8318c7e6c16a85fc188cd14f6a771ff14807, 0x5e2f18f61f73bb15dcdbaee2257a94432bf68f937489998f483c658c1fc020979a3c5563ae1d39f99ef6414cc57092f⟩),
  (false, ⟨0x102b08a09198cec079bd18e6694a8cbdcde33629060fef9dfc4bcec8683bed86600b78005963a10babb15b6a28fc479e, 0x9b3fb48e212d37ace0d77a16f0fdc46f30f9fe37eaedd471235ceeef3d30bc74d81579a3f9d8f360e91b379b63bbc9f⟩),
  (true, ⟨0x19e96a16a62f8d7696a542800f0ecc04f69a1821bee5fbe255f7c72174343defcb5cc465201bc46debb9b589e6e9e20b, 0x1828700cc7a483d9f4791212a602ef466c02651b7444657015e3aff78b48613ad993e0cdc2f84fce57d151ace1a76149⟩),
  (false, ⟨0x145be157ae8ee62b86b43eef68928c92c3f2d3b3b6f945a556b7cfd8de59e8151eaa4195e9860204957af16c05b8c3de, 0x7f48493287a27e3dc9cc8058e94fcba3ecbaffef096f8e4d5ba32102e1faaa81490c17a5a16ee4f4278b002958b91d⟩),
  (true, ⟨0x7d543ad224741000e3cf330a9f3903e1d9794119bdc667a84c18523474dbd32775b07546026cf44ff2b4f50892cab91, 0x167f67b08374a5678e996d87d4e31fd1b8f07e94ad8daf9e11d274bc38dc6815f011af78c6f453a921ef17859d065943⟩),
  (false, ⟨0x17bdec059103e3f90f57a010a38023999a61ddbc046610ef5d3e87a4cbc86bb216cbeaf7c2363bbc43aec941f43f8a45, 0x1133a9365dd0ef49cd4202b4de997a4662a8004d2bf5250535832b211d1607e91741182825c74005a13dba713e51a26c⟩),
  (true, ⟨0xda0d818b3ef2a75cc4a2acc0bf55b10bb99343f0853c275ff791e99898cbd3bb56e4c2b8c2559b65a37ed60451eb71e, 0x13dcf55a80e4bc1c8b5cf77fc2987d52cb952848e6dae9751d3425fbd9e8902de886e602fe23e7b408954fe8e7c87dc1⟩),
  (false, ⟨0x1df78bbfaf3282cec8f4ff12200dbffc261233e62ecff2b535de5f829eaf55f14ac4723f2140549cb856217a02d4cf2, 0xebae7bafb9da0a4a19fbf1035030e703ef7689e5cd750eb062d3d85a5739cb29662c8ced9a22914be773d8030a1e7e9⟩),
  (true, ⟨0x13c3de931fac6e7ddbcf62fff58ffa73db72008f2c8bf24decd885f5da506bf85e220c3c52bee61579a850b86793af85, 0xa4a5fa87aff615b8bd3843816a7587c0fb399f27e066175849f880c65eef99b47f7d62592702da8009213d265fab506⟩),
  (false, ⟨0x9d4da10cb5c94b26b79a87c795e077e87b163e88dc1f399cc26862f57c90ebe4d47c98f211c678f62636a23df669f7, 0x79ce4a0d6086bbd257a3865c6e6af504d51770dcf2c291ca26973222bae9ae82c763f75031ab18a5f33d103d5f5d961⟩),
  (true, ⟨0x6c3d9a3ee9d9c49e75cb10fa72751b07658ef027b5a6ed05d57dfe574d87e80cfc020e704c85e392edc732e39b03b60, 0xdc6fc029a078400dbe59e51a0a741a2f42c6d562a3879a40c20ae80452b9f61f99b54c29f40ef4d29d26a7b15a59dfc⟩),
  (false, ⟨0x109df06e0fc1ddd737d6d67ad97ffc7d3cc4b6eec7625723e1e57baef088ae6186812f3c596c54e5e79bbb82b74476dd, 0x11704994593d061e777f22e86a25860c0ce4ae58165fd5134d5f72a7d80e069a9fd2af37dd6e4f33d697be7d6dc81685⟩),
  (true, ⟨0x3b99cd1816a4ea37bac5a104f9a207c5eb470c24f89206adcf340cfaea9586724038fe221a53ff30e05fa0b4eabd0b4, 0x62d759b63b8b05e4534392e1f00e9861b7fe20e38014d447a40eb7b22781dbbc4fb22f6dc8b8bcb29c6f7d03af8f9ee⟩),
  (false, ⟨0x107f913d7d7e0da476658929207904d66f8349b1be6c89d78a5d96b81a46f8b2f889d126855a84dd1da0ac7b27409eab, 0x118ad96c12102b1b9fd17f0e3d65ad36785881977678690d8e408087925a616c237c91debcb1d77772f3b632796151d1⟩),
  (true, ⟨0x658bb9bb261281ae87d12da3cac2414a08ce58c8b3cc80c11841e8fe97bd975f9364caceff80c1e06d895ce85c5aac8, 0x5c40d647e084cc5effb021b61047b5ec9ab9d6cfd9d3c2b36597b66596ba75705b3c2576f7ce00628a5b337b1a6cf6d⟩),
  (false, ⟨0x497c2f9411475a4d364e9766bfc7bfc4207098a8584bf90a84f6941329a6adcba08f552693bfece7135647b4e8a9146, 0x1250af1f197c10fd4d3d67ef54b08e4148410dc43489fd9bbee09eb780e62b57199ec8bcc11dda018dbdce59e95577f6⟩),
  (true, ⟨0xead9b97c045fceb7ad61e9e10629439f638cae3134bbc21b7f9a2fd4d88c73234c39d979e35511f9f410280268e4968, 0xc6e79b76f61686e28722a22119cadf376c769b42734d89f97a042df03e0b3d29335ac6cdea346829b73a854e8097098⟩),
  (false, ⟨0x748d30c5b7e36b4efc29045dd70644efb362c69a79047e3ceaac4f0abb25bceec7142d7235e03404d4606c5c537e264, 0x169b6b829699894481bd6b88dc4db4e36b1f7ac32a2f75006092f93c01bfdbffe50642ae973c5ccd996758a06a8e2f8e⟩),
  (false, ⟨0x85940596344dc87453e66baf41d558c8fc927ec0864d0c90300ce60a669a9a32f120c332ca71ad3389fd9b462b6ecc4, 0x16c19feaaca53a6d0d3fbe0b35145912fadb0d0bca970a0aeb8c2afe634acfd4dfce80dcf2f49c294eaf71754bf08eff⟩),
  (false, ⟨0x146a722e0bc1679d02cb9f00a7e01a537ce27ee34258d1d700aecb15953a2624e88390f6a7c82f8a95cb5803adde30e1, 0xa258715c0e54660d90e117f0922ff4b73a32d25cec0d0d7a5b569ea3233ba31b7997e1a88f57116954e4aa5554bcc2b⟩),
  (true, ⟨0x2bc1946be1cea664384b43e442573596b7cccc0a8525e34e2ae77e2333871659c7765b9723a8e1c3029dff4c70a53ed, 0x10b6ff236e56663f6614b98dc4add09bdc197af4ec8f661bb442668929eea595047a5b45f012fdf6af965765431c9989⟩),
  (false, ⟨0xb59d8a6ecf6314d7ec73e548a31ab60a0f2300a2e4f35964acec5c41af6200ab732e04fa0c5681f000abe3444ccdabe, 0x17cd6f18119ca855e6b6c28589803eb2165760e2839f78d2b010d37f6c3707aae58911b1d7e104d3f39f47f02107b51b⟩),
  (false, ⟨0xfe90297da9da089954012c50fd5ea694bf491b0483d05528e4698e4ec0e66b3b9c01906cf4544bc217e435f02fa26fc, 0x13387eddf24e79362741b7cfe08cd9d4a1018948cd9638b625206f45ed1661a0b4d6fb81e7831cb88137650253030d1c⟩),
  (true, ⟨0x16201cecab14b9d2d27ddca09b0b44bf4aeea9a1ac70ac3973552ab50bb122f4ad4a35ac6d2514bc81f61325cc45ef48, 0x12feafee34a995f8f040a321863f843b3bbcbe106bdfd53c0aeb4b67c805e2484103a5308f2dc5ac7212129e1010c8ec⟩),
  (false, ⟨0xb0a119c8789c3073c18280e07aad10bec1f0c35b3bdb0a0a0a28f685c8a217c05eff5b82a1c432b82ce47f17897f92d, 0x8f84563e8353f7a14234888a4df895ec3f859e4ea16bc0aa147886f2fbd29c30172959671659fcc23035cfbc83db235⟩),
  (true, ⟨0x10b581f7580365a3f7211c0bea0899ca5fd990cd16399f499bb2cab5a0ab994f59ec132579a1e585e572f74ae0b7005, 0xf8e5778f578b01ee657f61df6188075b11ce94f32aea25d0cb81d1fef203ee9621ab87ebd55dcfd3c71dc36f962718⟩),
  (false, ⟨0x1263cb52f76664846510568da405969240c46f7e4f05e05e1e08cff844a5160dc058c116eaab1536ca5aeb1e9d4a01ed, 0x39657d951c6d9be5cb7c57b24632c645d67e5d43ec627e4574c5457ef69ecdcf829d54380f46a304bd2e27cc6eb866b⟩),
  (false, ⟨0x8baf0ebbb8f5e0bd78ab7f89c9deeffd324e062ec155f2d7d6f4b4ce0ec778a042e385dfe73eee82c931d04fb85a806, 0xdff8fb5a92392e4163c1c9c2cec5625a93e2a6e0f9691fa12214af37c1b66528e6db483bc63ed58344c1326701cc996⟩),
  (true, ⟨0xbe9bb66fea1a65d7a69869879a58ccd835d2abac35612a94a6b0ce0cf71f1267ee89d567d2874d6dadef5db93ee29c8, 0x2b50d7eb2fde82bea5488b854d920156a78238b9d47583a20d3d468bfdaee4f6911463066767bedcb7efd9af6393e3e⟩),
  (false, ⟨0xc928c2473477fbcd38e648760003a57361c6f185231c89657a79ec19ae3af8df137fea00962706dda9dc7645348420c, 0x199366be8f98956e059ac8fc840c49acf86a6df522697bce06ce091867277736e917e2b051d0a4c1556d7b0911b1092a⟩),
  (true, ⟨0x1062c6fdcd4ffc4a488adae2783f1c05c77c2cd6757b60896bf11e8336aaa08e1311dcb85ba174711a2bd44f6db07906, 0x11feb48dd0e0416155d87d2f24be0f0383c39fd3567ebd36135e236e3a4f03f0e9f1fd775403a48fb0279643b16fd400⟩),
  (false, ⟨0x2f0cc48cd45b8472ec7234f914bc44da19b45f24b042c53850a501762c2d1e9be6de0e713ac9605a99e759ca81145e9, 0x13aae718e66ebc25da2c5fa0d611b92bc42e9dab7914b4c68a2e0fa40e0df2397dc2aa98e4bf3315d972bfd3cced8f0d⟩),
  (true, ⟨0x43ea848dce8516cc39b1c72a182ab66de9c19fdd5354f86874c2cc771c08c8af9754376c3aba710ec03d14b6e42820f, 0x3ec4e349da877d70dd16a090635739f45c98a96fbac413c556446b1d2b8ca15c31d8a7c603e5508e0785dd63fe83715⟩),
  (false, ⟨0x15791d33de68421bc98a72533a8410e46b2f9e62009fef94bcca8dfdf1de63ed2281304afbfd82404c75ef8e071da270, 0xa8eedcf22c9e48cdbb6ffa58ffd442b7ca26a1805388f7b4e5a60d7bf3cdf7a19aadf6567bcab10e8dd9d185fc0b741⟩),
  (true, ⟨0xa7479e3e84ec10f5afaa1d229dbe637d7eb9dad9131420e49e89b60e93e50b0e7a3bdf73cf87a737b93ccd1f1117e40, 0xc4233f2547475cd02321b5f491ac2f6bd8473ce7323670029a36b331b07caf6bd304fd55bb4cb7c0f889117d995cc3c⟩),
  (false, ⟨0xd92a19ce909161aa70016e11c1d11e574cd32d949e4b6483c74ea60d7f0cfc890adb3728da604aab93164f1807026ec, 0xcd5269bac7f603bf186be5322da32228a9b64175678c689828e31da7a0695fdba139846b115194eb20e64e013c9ba3c⟩),
  (true, ⟨0xab68d9aabb03c894209b8b2fa4f269f9b581a200b796dd734da036daa353e660951de8a37e34dc7679db3bdab1a7548, 0x2c326ac71ede1db568cab3ad49990bfcc54a9f7741d55f047b76dfbaece2d7aa0cdef4a2e0f4905910c1c496ebee44d⟩),
  (false, ⟨0x16254143a65b01d0d88367113088fe83aa29a2449ed8952d63861c2eea770626b5deadc99e86633bce72408e1627c624, 0xd0e29b4c0b39483f57ed1f896c8ff5fe0d38b17250c515fe562e6b344b7d83a870249ce8b4bb6e44b221de21989e535⟩),
  (true, ⟨0x141a855298a37e066286004d7a1b5ada789c571705b97ea83339da7432f761f532faefdaa7126dbe693ce45f3e7e8dd8, 0x9c8f814d4cdb146b1986bf38bd0aa236b0a7f04a2fb1284dca369a074d4ebab0fedd18860f60b1551558df78e4de203⟩),
  (false, ⟨0x138c63b5d846cceae79b18fcd27c9fd5edb7d00324a4583f18dcc4d5fd388aa20bff607e516395fe6d7e4f22eece4fb, 0x798e4798991429c0a2d532f7b7421b14a5e80f0269fc2783dc3762dd85d2120fc25fdc624df85cd352c6fdef8da2a0a⟩),
  (true, ⟨0xa3e1d509c521d6446a84f101e4a061fe3733656873d097a2691904eef5a9d051bec7492d962e19326411f7a83b260f3, 0xee5cdfeac6e1205abc525d7d69b44a0190731064e433b93316ed218553476a6e5a4fec17f092ab88c7c53b19245fda8⟩),
  (false, ⟨0x737368e6af9a9bb6a13e7eb86e2900c6787a58af83623005e745c8cdf286756db0c11d84930a1f0d3f45b247ffda549, 0x19df08df8b82eaaec7a4de136e42fff61f82ab5fa9cdbb206db966fa022639a4370e24326c79f4a4af53491922b2c119⟩),
  (true, ⟨0xcc27548d33d1cdad8ba37d5341c6b4eae677f411d4147dad6dce1b318331a065bdbb5d615b071fb1f893336ad006edd, 0x4cc408b341a38071f24f5abc85fa2af5e1d15f1fbf8af51fd6629135d85ad8ac3f02bab4e712481292e1021c2ec7dea⟩),
  (false, ⟨0x1324dc88ab64369a57a7dff11ca8dab0546257887bde1e03066b003c86dd394286a6386b44945c4428b42dac6bd196dd, 0xb737f3eb317a1ccac8f98656978de858080246abbed2f792e6d844524391314fa02c03d8c3984d1d2b63e8693b530ad⟩),
  (true, ⟨0x4a94f200924617ed87450ed220628a4f23fb77df95c7b22767cd716fef36950e449492a196b824262c8b02f487dbea9, 0xdab99b759ec8b572e8fb2a4e9dac8baa6b069f3e95492ad4e0647b6ba94a9dd1bdfc8f3ce726ddf24add94598d8ded8⟩),
  (false, ⟨0xa093a4c51d5548cfac9211b654613e6796c1b2398ba360471b22636fe053836d8f0bd416cabdd185b23117aac11a1ff, 0x8fea23ee9abadf982080d5fb3fe5b7b3fe94639b9a844ecabeca06ade5b23d8e44daa3ab524be793047ded316733c63⟩),
  (false, ⟨0x5c2fd4b6b96da148aa5182f55c77c924f43ac47b0032053892f2df22b24b7152354b9faf9912526878c66f0d7fb28d6, 0x1822ef9e71897141164e186c81edc35e4a212ef202ab8fc2fc1f0741324a1e6302a459692282f824fdecc84cfca25c6b⟩),
  (true, ⟨0x12040481badab02041f7b1de73818bf64bfc588ee54e4727cd88031ad084d1f0811ceaf86574833a4003d9bcfd248300, 0xb118ce419b960e2e18d0992ef2e23f6e1756480f9c8f9cbadc83a149dbf6649cc7692c8a81cf4e4245e3149c8f092ed⟩),
  (false, ⟨0x155a2c5a8c572663282e158b0bac363f2c13bb2fcc66ebcd1a1e63186fdaa1b31ed7bb5c4313f8d7e09b108fe00708b8, 0x16225f723144830381742b0f3823dab38aa49ab9169fe602242cf221c0439d2fdc88f5e937a1a570ced2a58505e33b3b⟩),
  (true, ⟨0x13e3a5d2108e8913ca76ff74632369dba71287916358b24ce7bdd0b647dad42b005ee9edc6204ef49d288645fc30cbee, 0x11290f729e679ae8fa9e1f31e71ac7391bac73bd6197f0457bd0aedcc890e9f0faef05899ac136025dbe263f6f275ef3⟩),
  (false, ⟨0x141b79d885d582acfef895bd7d2b7a23ef4be28580b1b9788e285d233b496d3a9da2a5b3c24fdf55fd989d6fa70196b8, 0x9a6002c66028752028f3abba80f5c45b726b1be785fd6c616fd6fc88e637aa586e8fd41b5578f9b1b4a00ab6f7a77d⟩),
  (true, ⟨0xebb2dcbfb0f1829204c0e6760cbc7e60af8b3b3f860ac81669357aa67dc871634b3ef9f404aa57265a0fda156b2093a, 0x16c490ed2ac54ff57b67a7defa4a4d013b5be757096c979326ebbe7a27f88d556b54b0ca8d74d8efd0252a3e7d9fa008⟩),
  (false, ⟨0x125c00ef91e464e361f5601afd34c5bd2cbb116ce2d00795d88680fe57a708b782e679c2710615f00b3162305d555cca, 0xa3c52fe5e0c8aa47669dbf71f4986924c57c5600e601de1efb086f12b303f741b2cde8b579feed3b25958bd203939ee⟩),
  (true, ⟨0x18676f57bb755b879b7d06e3a83a31316873278e8fd6a0a3977dcd9b9b2a39200aa4fc316a5f05b9cbefd1481e867f4f, 0x194c111e6e7ae61179a3f9656aff5482105fb080e31f3ccd80eff1c9466abc5cd1d0c7edd426ad1c867cae6c706ead1d⟩),
  (false, ⟨0x1852919e740cb3bb549b940db5dfe862e22b2fd2b289c8655324dbaa75fd63d87b3569e5c39a918a750bae0268bfb5c1, 0xd90322a08c3411c6ba11a4fac8e9477d64dc50105dd497da05dfecec7b1f9f9399a30831225713dab0bcfb799f51083⟩),
  (true, ⟨0xead007290ed71f68f3f23b4257f630a5d4bc6fad59ded8cf7342dcb5ada85cc2f9417a0e437851c4d0c043c8eceee8c, 0xbf035941cdd63f9e27f3b6b45c9e8347bf90c2489af7ed289cc7d1cddb5443d29a8c3fa06c1bf2cf96893229c4209a9⟩),
  (false, ⟨0x17f0aab0f04b832221e882f0f779be5124ec779034860b43bbbd0a26e993821e28796858f90ddbc3fb0befcd82436290, 0x154536d0252d9c6b2b768d42c0c1f55e4edda47815b2ee73157eba4dbf60619467ae1c1ffaed9ba46ed9e38e401da1a0⟩),
  (true, ⟨0xc5f19c38287f46f94ad23af5731119071de1deb4fe637a0cdd7177b70ca3c41606e4b6328c54edd8a9d78e52ffed319, 0x12035d2b42bf851fc525a8b16de1084b1181fc9a454480ca331d2df2a99b422b5b7d3179ae8267205869f919e0aed665⟩),
  (false, ⟨0x127f112cd6412496aa9e267754ee3afc23d3f8a86e4003bf239af1eb18496869605375113eac16fa2b2ab3965974dc44, 0x168ab54bd6ae058060698222fdba5e824a44ad2e52efb1a0303c1327b55d6fee87c40d1cf3685ed4b8cc8964a7cc4be7⟩),
  (true, ⟨0x9f5a50f80582880a4c1c46fb7c3999d89d24ec9c0a16194197062e064f3ab0a6005a0bdf424043c4cfe3d05d12ab966, 0x19f94f5c872fc4a319979f5b815f48491cec9766a63e9a11cc67c835b69cdaa80a775e62348e14dc4a3f182eb53de314⟩),
  (false, ⟨0xe070645520fce711a63d5b6314f0158030a509bf2c590a944c9732c9a8eb0f831c7db9472f3e25fdcd24ba4d7cdd2d2, 0x834b538c8c64d41de3d7b09e922044be808d674569c60e1359548117f65c2954810a3c2597d70d85eb1ee69a8b38bd2⟩),
  (true, ⟨0x5f6d2f2453c5c16d8ad3b349dd4634bf82c7ce732ad9e017ff43ffd8e11bef7420d9fb1a3d74f1bd89f1bfb84d4e266, 0x158bc1c52d70da2ac0c52d526af2e27b6e7e35386a9b4e15dc243b5e5be71c376cebc33bb0a56589839fdc2fcb0ff2b0⟩),
  (false, ⟨0x4d6c8fa462d883a01810f1ed2da388e72588f2e0dd9c30249ac7b057b12fd167c162d091a0876f808399961b27f26d9, 0x2c47e510140da33299c8ce96a0b7c07ba9353e34127aa0b8827170448bef161dec62f1e65396a8993bc56e5642674ea⟩),
  (true, ⟨0x14b6da4dc83e9549bb60aa757d455048bc6c21348671ecd1acafe2c853e464e02fa4b66f58782b21d0d0af7e4f8907c, 0xcdfeb9064bd0f5c9b081b26909f7e1a321d0156ce4674bc70f3fab08b7c5e0ad649b79b4886d8fb3fd481b23e2d5d1e⟩),
  (false, ⟨0x17abd911f84feab411af517d9a20ef7894b911ffd2ce21cb979a62ebdd0001e4aa6b0a6dc9a85eb8b4ba5d765213a48d, 0x1086570849b55bf4743f144ad4664b41ada222f8c3399b77b1b9029d4a8fa5e58baf2756d2ee206e0982141f0e698447⟩),
  (true, ⟨0xd8f00ad78406766fd2dbe19b99981125c3c1bf9b089d252ea253663de3fdf5c75a170a1b35639c7a274249b9302c9ee, 0x1819555c10234221a38c6558daf15ea88b9ee70959250d0c9fe7f6f24394c499d6e8379af4443fa2a86072c9b5a1748c⟩),
  (false, ⟨0x784abd483ab68fb0d56ff2c41da1092e23e4804cf8cc9eadcc250a4c290cc5ede8ca07feeae80233c5a3074cce58469, 0x115e57d288834a17ac1c180ebacea51ac4bf98a4e37dd14c804470b6407ac9f41e4f91e439c82fde61aaa79013df57be⟩),
  (true, ⟨0xe98550393bfa07f920c7a818a384dbb713e17e948d170f2f019fc9862a742bd169753017e4b2e2ba72750af76f42417, 0x139646dc61d673eec7fb17284165d46ec25169488e8916810ebc2e2f086f0c8c33be396df5fe8594dab30568e9ab03b9⟩),
  (false, ⟨0x2e9338b2960157d929be3ac1a2b0a819330eaf6799c6d798e23bb9db643e36e8a45497d562b1735f67e3e9cdb24aeb6, 0xe5b7cfae2955355223cfda85151e34a92d33b18812f1408de944796128dbd9cd67a9eec86cd4f4d231d5b1db8b17f36⟩),
  (true, ⟨0x14c522c4127c82ed8611064de73b9980468236cae44750c06498301c1779f03b053753ec89a0e8cadf347ed43b489107, 0xcdf2d358683c714d2b8060f376ae33dca246afe75df9171861e134bbc01c73c0a012c8bd1072473c2f131aa9706496f⟩),
  (false, ⟨0x30bdb4a9c3976c0ddedf13fd6c127a5373e4620791a57311e90ca757588bef9806fd5e78fe6f1ebbd403ff308654e17, 0xed6285ecf4663774ffe7522c44945164c60d7260e292d838379e2e9885d688f4ed9273b20c53634bda41921265fcde0⟩),
  (true, ⟨0x1265da94fc3b9ecedb3f95006eaa40f3ba4ebb42074389b3d9923f5e09065a097109b09d4027b571e3ff2e3c2e249d43, 0x173897ee85b2043b14ba94483af08cb968d9fc78606d3518685282aacac0d802cc0f8bc3437cfd033a57ac2263f454f⟩),
  (false, ⟨0x11b3aab2c185ef906a949b724cd6743a261aea4eb1dd1d39091fd148589f20bce06139497b21e9cff1dd3a575f3cdde0, 0x16899f4d1414f347a27b37d3420e92c3fc2c9b292ee6151a2b94ab60c294cc03523a633646cfc2704646b9cec55c338b⟩),
  (true, ⟨0x1854e8afede4a18f23d78ce15dd78a55eaa238fd2bb5b2bf79261d172eb96d4907f5e5c15c419c8337fd38be7be2e3c3, 0xa18e06b712f0103171e6b709226624747c0edbad5776b0c0f351de8aa30ef558db97c02bcf5c69b34f18fef612cf446⟩),
  (false, ⟨0x56a1c598a78c7e948b72d4617951448d28841923110a37c1a1f8e1e600bf2b64f9189fdd56b602c4df4ad89aebb4190, 0x5c75ef44bf74ea642c3bce231b8cb0612c650ff9c2712aeff1943a49d47f8ec41f519ae25b1f470b1ec8be9154a36c2⟩),
  (true, ⟨0x16db1700477da033c5767b1088a6525dd4c1e151b065501b8d5c5d39bbab83398ef3e9336b5dd6c53f4962a8b27cb42d, 0xa9e291623e379e71d48b12558ca496b739c3a2a758852608340a401914b9844bdbd2e3e400d8528dceceac6b126a558⟩),
  (false, ⟨0xeb35be28069b5b0a9d0847902eee187c1d62631a5a9d4704ab8507402aa43e42daab611f267ad09b19c0586a2844023, 0x94fb09e58c7e862d1cf45e9a54e4e661bf425f3ecc7a9a394c65e360ad639389f257d543939193b10d9f827cbeff02a⟩),
  (true, ⟨0x1499e74857d7f3aab39af51f54089ded3bfc8fc5ff8c93f13560ee28d8fd1febcf2af8623e4c3df78c05c939d18706e1, 0x17514c3a63cb646504566513d3c3a0bca6b9a1a15426d3f778dfdee5fdab96b2a5743f91ecff688616ee36a97f9e978f⟩),
  (false, ⟨0x17cf4ed0e45c210032bf9d366da78791760f80875dca99350f34065280a822944682174c006c405b31f3ce6cc3ba1fae, 0x10b52c74794d28c61b7d7f1491be6cc76a7ff139d6f70bb7ebd912ee51862302c8a09aae77da53c51abcff73a47fd17a⟩),
  (true, ⟨0x15afe53180bebb1df42d596d7c20a33102573fef01e5373e1b6b46d9ea6ad71b89537b6d2ffe9493fe72918ad9302662, 0x16762edd2e8e42d52357fd643de4afb4a4cc297d241a355ae14dc931bc4a763725e7fef4d8779c51c47778f67867c9cb⟩),
  (false, ⟨0xb8178985d7e0ef01a48521c31022875ac01bf2abc316425a2cff23444a4384b4523dc34cd0178296f809cbf15bac272, 0x80c90d645357f69ea76dd947fc987478ef5cba37fe3d8ccf095918b2993c2ea373be4e0708fca67fe063a6306fd221b⟩),
  (true, ⟨0x4b19df9c6a549fc6c5bf23ed0dfb7c04e56325e1992fafd8895156acaff844d27e31d05cc8460e68ad212f1e83b7616, 0x3dacb7c413eed3103b4d1977c93d8df1e9cd2d6a73279cf54e78327e3749a193a400c16ab78ca1fe5c7b1b938818bbd⟩),
  (false, ⟨0x33e6c149f7f22c6b2301468cf65bcbee5aa74ee8d22f0ec69c3b5bc972fa10fa802c47b0051ec90d1741309f3362755, 0x770f02db73fa139f9e97bc0f4ec6a7fc60288ae6194c3bd5147a4d0cc1277cd0dc18504d7382a2fd9c576429c531c81⟩),
  (true, ⟨0x8a8e4969fdcbe81f2c23e0f6061b30530effce0f93d29999bd62de72194e39c1bfa085721d377bb186acf67d7036d8, 0x84e378d61d83c4ae1b989bd77d5af1a80ac7c1ffc6922467b5265ccc56e0436d40a09d08ce9225a94e4908a870b4902⟩),
  (false, ⟨0x19ae83297ab9d9d0141603106fd487954b731b7dc9852c36f548d5218db06c8a9dfe75355f218b7eb1d4fec77c64332e, 0xeb0438a2b47a00e29f63e96a436185248bdbafc008466f95daa12ef9264853e7f0bf719f7b7b1d0dbfbe0a8cbac4290⟩),
  (true, ⟨0x12a9ac7005517d9173c17fa39de3b2503d02239203358e533625fbeda14911aedb8b14277c18d672213e20be38463481, 0x545d9c3e1038629968bb54977f266f22094044c4f256006dbde9fccccf1e801b785b5fd1c455f23e64e90b5a37be15c⟩),
  (false, ⟨0x45a6eadce28af3b15f1ec92fa7253a297abac96a7d3d786e6b4f8876393ff76767029eb5658ce4f4475cd06f74772cb, 0xcf09d960d07d65e406bc067f1f12d9b880a7abb1320115702e0bef40b867786d7ebac21c9f9621acc13f95c89fba9f2⟩),
  (true, ⟨0x195b27e866df0de01da92c55bc744777a6d7595679b4e5430444fa96d058b8383217c18d075b494e131fe73aea1d113c, 0xa58b15f31748bb2d29adac8dcc78103924d047adb6538bf50bfef7d5a50f7c800ad2fa4d9efac0e933196a917bce332⟩),
  (false, ⟨0x1060cc0b961df7db994629aead4a5a0abd8d0e5acea0d518f57d4d23de1bfa0335a41284aca418aedc14cc3b09a29882, 0x16309bf5fd4d862e92abb909a5777cf3a0ff0d7deb020bfbbe2200e4c41c85c78f78ed14de3ccd9efd19041a9dc2ca0b⟩),
  (true, ⟨0x11063338c02c43457d03ab459968a8eff219673b3d705736ede9ce83cbd0b2cb4a57622d167a45f19aa930cff7e63f4e, 0x5fb3aaf4a3e687be25188d9a930ffb72d8ab49b6a14f00f3013064548bcd32739f52d907345656375637043bd6ff6ba⟩),
  (false, ⟨0x108811466f2363fc115e0326ea20c67706b3e356bd50785aabac4f28f96990d8273be87f2c2401f3e1dd0a6621acfb0b, 0xa8c31db095a0541db7de490336b8044243a248eea9c1632f4c7fcd5064bce4a85a50d6ac04051fad8accf1b8d0652b6⟩),
  (true, ⟨0x111bfd886e2283c9deaffb7986184ed52ddaad2a1c5281ce52d6ea891251a5231b7d54334c21fe7b8a6432f9331dc8a9, 0x85627ffa286ee2144164ed8174c318db12783a31b1156a133d9bb81268f8df557caa43dac25cb1a9982237fd3eb0b20⟩),
  (false, ⟨0xe62591dc15fc93cdf73e89d9cebd2c3be448b68b73142b83b89f146fbe819077219a843ad995accd047d21745589101, 0x8efd86db5bbd1497580281f4abdf98e76a441fd3ee05181b49661f4e79710b2d476ce0006ee365e5f4bf17453831885⟩),
  (true, ⟨0x5a147b9cdc432e72c5957874a43c356abbd7baeddd9fd115aad33ae59a8e40f21dcf26e84d5d432fbd98b0c808a2e32, 0x172bb82b3ca161b6d496ca69d98c7a0368a3b4abe326788bd7623371d4cfffad09b272e0acea336b627a00c4ce2e867⟩),
  (false, ⟨0x21a034be956fae1d4140ce1cefdc015057cda3f38277f9822b4d546cfebb05d11e37767279cc71505ea8ac86d8110e7, 0x99bf65a33702313ddc2c1af484c8b975cc2526d3df963717b39e7126dd1cb7ae2082f70599f0a964a0358f1964c8ff8⟩),
  (true, ⟨0xf8cd2dcd4b636c256e3c20342a6d81753522dd2d4c3645effbc575cbdce9c371d4162d825ea0bbdf258f4902e96523a, 0x164b2f0a9cbc2a48a59434a3b8ce9dd5e073cbca5ec4b2be46640bfcb2a9dccc63200567b2d6fc863ccc266e345bd4b7⟩),
  (false, ⟨0x2b2b6626027a10543dad5e8abd7bd7423f6e4eff6f38a51eb9c1849dd8e11564360068810c0ec008de8baf1663061d1, 0xcb56d551f28992634fad9e2b17a3f43be42a2dc835e5d6aa6f00ac502a83adf89fc995ba7da920eecfdb6d008bf1f68⟩),
  (true, ⟨0x9f22bb4b84863235f9bd6eedde0bda83154ff465e652430b2062842c3ea6158f64b878fffb9fa069239adb07935829e, 0x16d258a08ee6565466284c5a8db5404498597dc9802c4d9e3b142156da2230d3bb8cee6023608708be117479d862695b⟩),
  (false, ⟨0xfe791002a79abcb75e6beec690cdcb561c0b6532a0e2b6f631851003267c20fcf46e6fc7b3289fae195c5f124fd28c2, 0x669202e93b763745084f770dc7aff25335117a6c66ec56682a6f1954436a3120d3adbbbeea2aa3afdee37617d09b884⟩),
  (true, ⟨0x11b6e4d780f0966cc763178480210adc176c5cad4c955501eaaca4cce3dc4759b486cbad555d5d15d360e3855503e191, 0x2d6fef36eef018285104390b7d23e23853d8bd0fb087644b03e7cdf0567618c1ab20e1295742ed2125ea927c89c600d⟩),
  (false, ⟨0x117d0a1aeb2a4d554e5522d8e91b83a9f6dd1b0fbab579ccf2252de5dde46a158d333df978d9201bac0a327639f5b0c9, 0x54da097bc5eb84865bb3e531b659dd4f8cb41ca50e588d0d7f0283a91aa0cd7bc08aba59d5f4dfeaa56adf09fadbde8⟩),
  (true, ⟨0x108a1cab43897397c2bc0e355df79032669c2b751f9369e8bb0a0d43dcdac229427b36fa41469a5b5293c5de7d34eb18, 0x18649d9a197f0d9971a5d4c79bb2105168a76f1c523d90b7129e21dbe82a3af2db4490f69e92c35bda9adc10866b4ac1⟩),
  (false, ⟨0x6de7466073cbdf3237fdd960aee220b7672f2d53be0939a50f4fa64df708169ee9f0471be8cdc582c9de72feda45a27, 0x12722b5b2a4d307be1b371739320ee608e92a73c7260dfea459cf11136fa7ce09c4e2800fb36d5cfa4899e6f5805a404⟩),
  (true, ⟨0x8d148b19bc96a011d77c4bc6548d114be17afa67cff4403fa54c43ed772149b36ae4cf932a0dab9ebb46d637603283a, 0xb0f0e7b2b37bd835dc29a25f493af05212207e6fbc014139cb83af1ca1b12d993fab9a4cccc02dc51895aa4837ce88f⟩),
  (false, ⟨0xdc85a064ce1e89eca2c9fa87d5900cd8b3e2929e1c48be5438cc34e097ad483a87af69567b6230d3ab4ef38afdf5c3d, 0x176824c205895e702536dc452a07776363d742bc4e9ab1eb3b4033b08d802fce8c89a2495305f23d681ba8e7ab9baef1⟩),
  (true, ⟨0x660bc59358ce1846efc3a912980f1ef74bc20070f1b4199020c80b732d07e06aee61b1dec2844e2b2cf93dcad8f2f9e, 0x18b86cfa011dd7c02766759892b09e1e62082f24cb0b1089b8ad43299287f79722d6cbbd1bfb95ce23bc60f416ab1805⟩),
  (false, ⟨0x19ec5e3a624270facf96bdfe05524cda2224d804a4b411de32899c19d4b25db0876033a3b92c89b42f96561e30184434, 0x164a364118356886b5dc15b87c9835b007f77d50b71232e4f547400c9d44b92a9c0cdf32dafd7a3da03dd2e815a0ec39⟩),
  (true, ⟨0x16b6b99f381dbf8e452e44588f92bc910f324b693989f677157d9c20620afc2c186d9594d2a5f8b203616eec53c46993, 0x1820dda5499ed3d81406d8f675bea26ffd280558562130020ebd5494ca0111e7a557881d7ceb40f1c0435d1f8766ce52⟩),
  (false, ⟨0x80bb201553564a6cdee8e7fd5221bc249c07d5d79164f18ad79e013cc47839df6768f02b49a7d3e6c139bb013b0e3b3, 0xeb8ed0154d8b3866d3433b659e1ab17a56b32dde117d31b8fb9714c75028b3fd3f7e46734db7e6682a511a36dad5d08⟩),
  (true, ⟨0x13fb44f8387c85b11462e0d4822958745154a3919221c3880127226680eaf2ab6ea90eb12d78c1ea9d889c52cdfb2d89, 0x94f41fd58234f7bf5af4cdca7b6b88d37ad5166c6dc53a4d47af148471a910051668c8b659de4f26fd39b958d190095⟩),
  (false, ⟨0x144cb60b114b0d212db22d94a6ace03aad1d6e9c610fa4d0108832afade81a62bd00f7f50635e8646c7f1430a3db5393, 0x18d15fd5232d0be9dd043a74c3657cf4edd6492fd7238a5c6d33156bb233209e3f652263d4971856fe41bc45d68598ec⟩),
  (false, ⟨0x106b98829fe039623693d1095d5e67282ae38c94e7325fc31253c2610b410112e2cce9fab4eba1596578ae201b66d93a, 0x19a9d9d97819ad9c2d6c4eccdd926f0a60a9616b7d7a866a28de1bc91abf93e00ad959db09ce42c2d1caef672cc92fe8⟩),
  (false, ⟨0xeb13b3caccd65eb180c8750bd9dce73c916e21345595fc8bd50578dfcaf382512ff54b50cdf47f88cbb8e90cebac493, 0x126a7a4d52e58697b26856bd9184113264a75c355616e9b00f552d1bfcf92ba336ef52e5534637cc73df672365cd45ac⟩),
  (false, ⟨0x2eab73e25e4eb2b2a622ae16f719500fcc76da8d040c3c701ba2896c57dd429954d13fd071ae6ee7266fab3381f3f55, 0x12bbc37f1c89e7cf5c92b6ecd4f9ca57b4364ab7405e99d63772b57c3f31fe7f721b1d0ac1cdee7511598ed587629b76⟩),
  (false, ⟨0xf6e7af457fccc9d6c63a279f11c94b27c1f0e1cbbd185457f3c7ddfc2b76ba5509c7e441b143c38a788ced743578195, 0x1490a7a17bb2413c72441d93b6ddd20750077942808d4df17493f2d1e0f8a9f81179ad74c8ca8fdafbda23283ad6dc⟩),
  (false, ⟨0x18d7c31be36a12c19805c398cb1ba46a5f94345c7a6d3578c42efb07ada285b9e0ee1ddb01f97d1b4e3f8b8b7abbb5d2, 0xd5510f416e479f6ea11135b5e347980639339ae8f889a93f19854145f0e39bdbd4e7daf9a09aa88778b85a934586b0d⟩),
  (false, ⟨0x2493347696cef14466e4fdc1c953f397d8fd3efaa3573ecc96ef6b6652afaf0046439e87e8a99e1bd35d069b555f9f6, 0x3ef941395c24801098c3f6968be1a1b6ef3d027fea43933878b840e9f011336351f78e893997ea662163e6cd16eda35⟩),
  (false, ⟨0x9624511ca7173caa0bc64c317eb19e348524b0e3f46bfc16ad50a7a3d35fe8629c01a62f347e532c6b0abe2d8940439, 0x314c55370b57245b48933ea6a643858f84264c7699f14d80eed609c71f8b069af423f6d197669377e2baa6a94149043⟩),
  (false, ⟨0xb1ef56920d3b3545a7e64e5d0069ef5ff5119f35a945dd90d94d4c6e2458de96aeda4d9fb9486f9d34edd46d3e4cc2e, 0x150d03af90fc3044c71fd7430a018efd0778d73ae2220452c394b23c16fe18d0e7cbc622860e6d7c36c158235080894b⟩),
  (false, ⟨0x17f3dd50a7fe92acff85c84714aca17dedd722d6c03d3a61399518a32ad01b4ab25a612d7e9adfc191c25fdbf555570c, 0x3fa4aa5318267134721bac311e72076755f9a8320d96bd48ce9cf56d795ba8305d24e557af831a13b8ad58a642e4fac⟩),
  (false, ⟨0x5001d5aee55c23ca16c6f00269c11b6e06c6e512c9bea541a1b1ec61699acc75904605ec63fda94cb038f19d0122adb, 0x3973225121616cb83097a39b4ea971a556193983a0e94cb28e210841c6ff8a9509c6660f5fe44a153760a48dcc08f6e⟩),
  (false, ⟨0x6fc72fcbbcd0950b9512af6025b4e7610aa027e07b196bd8a4db693296cdbd551b39c30538f9db390493c509d64a8a5, 0x6bdc1fcbb6a48be09f47ddb75fbbf5cced3fc085e4ae070cdf308a0a55b62b4fefbfc22845f34d8a62f367b3a6e3378⟩),
  (false, ⟨0x49034e0d2fb5dc755877798fab5a82d1a92ccb46ea13e852e6ebb11558803c810322a00dddf657400a2924de9e598ec, 0x145bcc83f8ed2fc4b36baaa306ba55a261965bc38f17017a6b8771f9ec360817c76e21f30f19c7d5f22a94c123767b55⟩),
  (false, ⟨0x1130d40705b24486b3186f79e6cedbe23b4489223a33bc825a3cb09f61d94658b4d6aa846da917788b076fe9c3739bf1, 0xc3551c1cf90d5f5f6c8eaa63fddfd2627c041abc9a5ce7b679418e3d775ed31e552c03a0bf8ebb8a505e560aca4bdf6⟩),
  (false, ⟨0x1513a73d6ec2c2f306943f6e0578331f890bfd11fd538bea7c2ae87002a43c606d647dc047890d06ed15ed27d68570ba, 0x16947951c2d7832900bc626ebbd152f7615e7ee586b764b52b44604393f7a9dad4e95d74f903bfcb588e02d57ca2a683⟩),
  (false, ⟨0x1808a5aee64a552b0171b64df9ee4fa5f68bf30b898509e45e54fd4409e8dec5c77505b15c7aed481303306518db6349, 0x20c8058f73872692dda443cf9cdc574ee239f269b98b00c543e055ef6ce94493e5d9b5d08fa9ede3fe02e1598ac302a⟩),
  (false, ⟨0x455ba1325fc4bd8be401e683ef014bd068b843c08b30f2a24649a612b7346b407fb5dd1e90fc45d96d358b0ef7884fa, 0xa37572244f09d7f0c002747574fc6260e401ec1a976c7169e8cedc8a7a38dd71c7167333a1f0542162cd46c6735d371⟩),
  (false, ⟨0x10c1a77fd7991ed50904d3332918472be9c76bebc8f8b38b840fd3d2e8187e31eb5de190065e9a76d3e4a4ee0359cb1e, 0x51d83778b97c347c956fa37717adc83cae15936a77b4b95b79b88a416f8d484f00ae3755e61d73dd1c5a9fbd16563b9⟩),
  (false, ⟨0x18ff0e6848949f07a1c427e6f21d4dccc97c571f4de7a6d664ccb399c20a8341a5cd0423960687b3e0b3782290803a20, 0x7efd20abf4e486e19c5055b43ce9b78f789954218153802f128ad12651ab2b4928826adee78cfee7851da8ec093fea4⟩),
  (false, ⟨0x139c5400e575485f891f0ad3f4c8d4992291e6d46e791db94bb05dca2ea7f04461b213ec57720e6717bfc61c2254075, 0x897be0bd42fdf75abf8e0859112cc83bbf57af424c407f6c9509a3965db637d0909c13143ba668402cc97a2adadab2b⟩),
  (false, ⟨0x3d6dcc04c66f8c3bee8753ac46ac528617266154102e1afa6ce13196dbab21d637251cee88f95d94fbae04494781a1c, 0x4dad3d18afc19e665c4e3336f85da25d4843dbf8949e3f5022cc3f6c0d634d2b87b69a4d684cd82759723de0f19b116⟩),
  (false, ⟨0xb2893bbe36754c0675f0a44bce19eb63bab7981247086e58863b318b074dd15591b5507d734e7e818c3182587ee900a, 0x104ac7a982dcfbb6b04140707a57bf11a8cb9d0e142e44dad9a00600d5f28b332ddbefb2277ffa7902a09e7cc40cbdc8⟩),
  (false, ⟨0x43b84d1b06a7ea2919c15ddee90a081d03e291005c8b839590f12e0766a61995fee42e4d6f2df347f1421d3107cfc08, 0x147dff1396a868a9e79e6dbb5eb2a516c8ee3c572e177264bf62bd1048d9af3e27e2590b057e14b394e460abcba34f77⟩),
  (false, ⟨0x24f6d6209e5c302b31f009ddda65bddf5a96ee0bf07e0b8e43468a3ffb0eef61f64c7025ba89688a7da06e487edb14b, 0x12553d60bbcc038fa7905f0b0f02032a81371677fb0f13a148bffeceee694e7e4385bf74fa29864d174b15a5eda8f73a⟩),
  (false, ⟨0x412008a66d07543f8a26c38faa86b16d32855f89a33f65905f7e629c0f6befbac5cbdf9cb4481a29f0b918a9733a42b, 0x9a5204d884b91ac41a859209430dc89dad29442553c2228297407dfed0849f2aaa4fb86e2da47dc4f58de37b59553c7⟩),
  (false, ⟨0x973a79ce6dbef6c89bd2e1c0952e79f67d3e1ce9b5b30dcff433657e2f726ff8d9e6a7aed7b48b2d50e308c22bb9a99, 0x8f2ea78ebef1c884e0163dad7367e8540ac00459c4f6ff82e63dab509fc6a34f5913d4345e63ae1c6a5ffa0db8c68ec⟩),
  (false, ⟨0xd1a1e589a49f06809504ad1e0b3fd0c2bb5c5c8bb095331aeacd3902bd07038fbea9e957b3584dc80c735b7063fb7f5, 0x4c8e2b5027810c61fc9a2ea1714d3269ffdd755bac64f6b66247f3c73b73fc6de502721ad04f48619e8cb3e1afe4bdc⟩),
  (false, ⟨0xbff0f50af4a2f89125834fc9b2074af7411a120e83ddfd202febe9d99e17209a72f0acf546694e7278301d3081c2c5b, 0x8a235f6ea26891193bbbfa4c4ecc36ba4440bed3f29d5641efae76ffe7c66a21bbf117bd76fc6d7ce555c784fc6d85d⟩),
  (false, ⟨0x165295042d619e42947b1fa5163c2c7f97554f421c17f1a577d60c68fd81759300e49847be652d5f92b9a4f1efff432c, 0x18183665a0fdfd7b35d9f59be63e57c345778dfc2ca17124a68fe8e77fe6be568f7d5b0fa3ce89de3ee6a5963b46d43f⟩),
  (false, ⟨0x4f7ca59bb22a185a6bff6ad92f4dbfe8d5591653248a5ac346f5a882ef2b7b82a762a5cba88a6ef52dd656639855c69, 0x963ed30e4c3e1e693508bc92d795322893d9876431e7e086899c00adf9a9cc978fd2eda1970b00367d3b057bc3e8a67⟩),
  (false, ⟨0x17c76beffda065c1e685be3489c9cb077f78ccc6af5a53cb9ced2540ed804b5aaa1e17a728c4a94467fa51cd085a56be, 0x158308407c42820b0007a1e362a59b788984d5c4a9726094622701b594991d7bd023bbb5fa139e1f305d4ba5b7fa9d09⟩),
  (false, ⟨0x4ff03d51e6e813b6a90c60224e374b65ff46ed56e6f0c58a7b1a531f414a602b608349dbc6774960ddc3fbb6e2782ac, 0x157785ea619bcb085298a19456e660d23dda5f594ac75dc9b3866b0e961c76bda8065f8b5c8805a739559e3bfbf23c76⟩)]
end Bls.Chain
