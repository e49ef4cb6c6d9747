import Verif.Proof.N2
/- Generated: the points of Verif/Proof/HashCases.lean, with the slopes of the chains that give their multiples. -/
namespace Bls.Cases

def aX1 : ℕ := 0x793154fd85631d966ef2470460c78f6a928ad9f5bdbfac21df39753aa278ba751bdfcf95a84188e29d670675e4c9c7c
def aY1 : ℕ := 0x5a9f769e99e930fc9254855702765d3a47ee77b2f6964c69658ca21df2e4abb148d76c7405c9057bf0a310a6b68f48b
def aX2 : ℕ := 0x198ab85d50b2a512619581f3236aa0f024e643c545dc5c273a931b05f220d0b80255d20d42f1c5447ea7a46ffb7d70a3
def aY2 : ℕ := 0xa3252ad02183aaf66b15900c57e725d4abbb1236a98e5e07e57d0476c52b995e4639485c8fdd6ba053ed84767a1f27
def aX3 : ℕ := 0xf323d08bdd5e2951500466887c8528b853069bc7a9f98eecf7312060332eaa4371367b89e484f07d0a1040147542f3b
def aY3 : ℕ := 0x12b248f08333d756ea2626b14733f790ed1d3127e1848c182a93c060a167355477a74594dbe633f02baf316c09c1db8e
def aL : ℕ := 0x131d1108abbb9112e6ac59032c9691e0f5daf018edcea2bd579acc899326cb914dc9a69b59443318618a2f7664612887
def aX : ℕ := 0x20a29201421236bef80220feffe825fc89fc3fd90837bae55ef17fde363dd292e594f186f23213b096fd753b762608a
def aY : ℕ := 0xbea6e68fc91a114472c30cea382d06a4210d2756a7713364bcba3e0a5bd3f0274529c9e529c625aa7329ccd540c82
def aUX : ℕ := 0xd428a96063d641e36873d900239093ee1a4b6b0be9f31a4835966922e6a9d5046f203796d8ff6d20d0cf33d5b42c0c8
def aUY : ℕ := 0x394c6b3182911237f514d49680e4500a9f983d6f6f94f899682fa52a93a89bdf989c89b4222a65e4900bc9071699b4c
def aSlopes : List (Bool × ℕ) := [(false, 0x38af6a5486695f08cb69abe49b0a37d550676de96bf1932bea1808b1db35df7e99fad82aa2d1c608e0a543008432cca),
  (true, 0x83617748228a63606bc387b7abbc5ca894eec0b319de1421bf595c2bca43b3bc19c8bb22a28e538e9e27877d3457d56),
  (false, 0x92a74617e9ef1b7b32aba1ec0c52ef15d1ae9d98de4059ac3363cbd19363345425d90b8132bf329874f9733ef9b2271),
  (false, 0x13b2d367e4491270476c261bbb9f297d5d11f64698bf8c27053bc49f77e0410d3887d30e050d1eba2c2281bb04a40683),
  (true, 0xf8d13b675dab7ca0ee678ea63e72ccc5c1cce67a5bb970c74b1f3cc2ca5a0232b01c763675860dda2c91db4adfc9042),
  (false, 0x174a00d8c2e69c685294daba5eb097acc73945f0333af37ca97d2213c46e032c40d223325c026e7220fd3f1cd157e8de),
  (false, 0x170099481b12d2b664bfe20c82bfbb319a37e8c99e46e5a10e09f9e9f72ed19fff88ce3e321861abcea5feb14c6f7c52),
  (false, 0x17f98a19b46ba09f36e812d7b90d3f7b059cc2009ed02702383520681a5d9b62212a2e13f321fbac3c822ce159904c11),
  (true, 0x1648913f5b978753ba9f684a1a0b1b84b4241aec111244a06e458d0e79e97be78b9c400864aa4193fc59b70e45fed264),
  (false, 0x10067c1d05c466bc2a695ea1531fb9e7f810e18c6f41ac9bc645dec72e920314c2767eca0d3006eaf582d8e713317906),
  (false, 0xc5d7579cf1507fc910beab8538aa404d1a0628503fb836b633523434fe57e3af5b2c4619a99c695b065056e2380f114),
  (false, 0x209a9e5fbb46310e720f0b69e2aaf03591aecc94a0eee83c6f2b4aa6d35b0039294c5e9dadd41a63bcf74f8728e5328),
  (false, 0x143a601bf3fee820eed834dadc20964c5792948f64382eb02ab8afd726b8444d2f66bb87d3e1c4c1bf055fc59d9764ad),
  (false, 0x1ac12cf76e06edb4a246f828834ad35b930c79a6aec9b98adee68ff2953a59d2753d40ab70717a47415c1c5ffb93907),
  (false, 0x15c24836d5e032c8ee779608993575c0b4f0cc58bd4fec54ae30f1ae3f1d584ba008ee65806e5154ec63ce5425f02de4),
  (false, 0xfb39261bd4ecf4a43fb06fb78775ceff1ff5dc4c8cca0e41100a86e6aaf4f446a48e1f6ec1c687597d1547059acb179),
  (false, 0xdc3833fac85748b44d1a7f26602f8bb3b04a3f1b7c3ab5aa774686fab18e3d6240975e4958ab1d800fd53028c5ffdf1),
  (false, 0x1792bfd43cf1ca745ec72963ec1c9422e563bef75ac7b79599378e5a57caf648f3d5503ecf217176e7f9ee43e361640c),
  (true, 0xce577722422899053d267b8129ba6c50f58604121dfc5d3b4a0e3ef028abfec6ea1922dd8eca474497f4d5bb0edb311),
  (false, 0x16bae236e40fb53d51f9ccdea13b0a0bc3a66412894245d68427c42980e6d7ca03889cb9ce71c2a9b44502a4efef5d27),
  (false, 0x92f7018a8f427eb8191d2daaa6aa0234c6cfa94f929ffeeef3538fadb5e21e9568d276b23d334519b53e08f5118b7be),
  (false, 0x7dcffa6aca6b8fa132fb80acc28ffe6d27a0046bcb83c09587d1a309abcba28a7619e2aca675eed212475cad402c30b),
  (false, 0x604b75be8abf551e537718ec01fb89a3af518ca5358a9b68dcd4183b278b9e3853e1c5145e8fdceddb54655d0dd8faf),
  (false, 0x179521943a9f025125b2cb4de4c856bdd305981f5abb7605c16968288e0dcda1459e4df3d314e751831efbb8c6681309),
  (false, 0x19f5f6fddc9096e3cfdee99b91bbbbf7f7b52347b5ce24a157dd9f249770fe6686b8af871fd734079b309b813a607e04),
  (false, 0x74c408d3aebb253f573410dea1a7d4b0611425a92a8700ba03817fb40b1524212fcaa35af6b288cf03b07df38fab892),
  (false, 0xcf631cefaa69aef4fb63b7f0806a8368af9cd792866e5eb7614690ff6090e631ff90056d9eedb3802ba4b87d56ef14f),
  (false, 0x128a2faadf91305f5933d83d69b08a2841b32997e42b40f3420896f6a2784d02500d56786ce9f3e5e9e31fcb48bc68e6),
  (false, 0x12a56a7cb8bee3089301e3d13c43e51ea378a819953ec242b561c9684908fd5258ea771c6cb096094f2e3856bc3e18fa),
  (false, 0x151ecf2f1f387cc3ee37386affc327cad4eb09bbd12d08b2adb819c7c12ddf5e98524124a9c151f4b3f39bc5c79cecf0),
  (false, 0xfd67fb321bd802bb860175ed70c8780d9affb1583e32be81d2e2affb61f5f0f6e55184b982e33ae5c7e007fc5cb1328),
  (false, 0xe5949dd0742ebec4875a03d8e5c13921015e8e24a8729d0c6f130fa77131352d974e40e06bd58288f1c955333fd408e),
  (false, 0xbe1071f780ccea413872390d111657fc9db944a12a81d5edcc5462b46fff5f5b841cd201e35092f13294ba7e27cfe3b),
  (false, 0xcafc6334ff2d6ae25d45f0c0477ca4fe0ea946bfc7eeeaf63ab4338fd132f0773e0f897b617cc0ef677c72898b4dad1),
  (false, 0x138a9053edf30c75b2ad051f16de452d66da2b314a111dfa29531b5336d2f217489e63e12b1c3371b6e2b57e67e6a8cf),
  (false, 0x50e70cc7ae401628152de370f4b14fab440307f4f747bed5cdd2d9b7332bc1ae2863dfb160e6ac4cad72ef031165847),
  (false, 0xae41e8e4cdd6c5bb791750922298b4f29373f10b87b5d705498e8af6fd420fc71d5f9b2c8d121b73e486abdc6a839ff),
  (false, 0x16c1bf94bf52bbe7e2d0f73f171fdfd1978071276947feb6118fdb6bd0c20a4bde9ef0ded22e9a2c63e44b1ace32969b),
  (false, 0x28ed531b46f521bb2c6fc7678bde6cb6ac5bce9f5758c67289013b84296f626d84cbd001b1546f70a72d6c863e63672),
  (false, 0x13d02711dea45e2fc9796ef5174a2458e36763be5561556382115471554dcf968c0ea6492f0ab46478864f34df11af87),
  (false, 0x17429fa4813fd5c5273bd7d34fc8caa7e557d1fbf4980124ab84cfc31b9783037296ebb0729947b5a241b6327423fb8a),
  (false, 0x6a3658c1b6623966e7be62e4df24ebadbd22840f9757f72e21798156075edc6c6f2e362f98607363d59b441346842cc),
  (false, 0x80ffefe2e59122f2f37cb3a8b0cdd6a1d8a16d1aed58cf40186bcf0961fcdbbb262ac0e48ce91a72c5e50485cdc56a2),
  (false, 0xd40e020b94eb3a2c0a7e1d475b2c637b908508ca3ca0a17ffeda2bd891ebb69e69070b0f37c91a9fb55548d33b06a7e),
  (false, 0x73d2ef17cce4847e2212a06245bd8a4f5d6fd4f16aae03d80659a8fd2376b0cd48c854f952c3868d3517e7a67857f5b),
  (false, 0x11a073084e76bb2d6fb47bffb1d72519191c5e769ecdbc967bf0aa6c3d81a9a39ecffdbda32bf0742e1e486388458459),
  (false, 0xed608fe27d8a9a0a4c7dd1f1713b26a0586c7481820ea166efb65ad60231a83245c3793dcd877a019880d18519653f7),
  (false, 0x161d3d5c48dbcb1d9663627ed2cd57a63d7be85ba62edd30e3c3071594d84ad0df823a01d5fcbe6470a5bc768ce1cd1a),
  (false, 0xc64046d3ae3eee3020b7747485fdd76918f03d0abf1e27e950175201c294b1b95ce5b1fc03df7e92fc619663601cd62),
  (false, 0x17103d2430f5e1370038700539c8eb7c14def267e8255c8f520363449b4e53ec6252cb170c721a76c557cb78adccf0e5),
  (false, 0x22657c1d4c055f0f2148c421eb4d6133e4be7ce11a7bc6b877d947b82359fdb1744ce753a95d189210abf32d9e3eaa9),
  (true, 0x66d622330b2526d06d67ba861161ec5d7e9411c10ae9fc1fdca9d4d2454d086e907923ae9755250439079377ceca246),
  (false, 0x4248e9dc998e9827cdc1121d3473ffe136ca15ac84cdb192e6da827adf1ae882c64c86415282715352fd9f26e36fa99),
  (false, 0x5695a9789ab9ab2d06181887184348b50e4753047f5c112c616703dccffd424992304cb4c6b6790ecaf5ff7ce98ba20),
  (false, 0x76b7f24942e8a0e9f0e7e0da0757262a70348228b55cb1c4937068e9becb73adb2f2fe179f26a60907178fb3cf4e0fd),
  (false, 0x16060830e865d0820c32426f95115049b267619e2b347a73ab40e67297971b5d141ec81f37c3aee1e00ad48bad31c265),
  (false, 0x8e6d221e9e742f4bdf46c3543c7729db2dccd5ea1bfbedbbd3d811640081b5a53d333d514a336db7f7133ee5e7cdf0d),
  (false, 0x74b7abdc76dd7a31440e60c704361335be587837398c1aaa4653f116a56fddd45b42b56f218ca96e6ba6640b980d0e),
  (false, 0x13f186540ecd2f9030c1b38bc0a2e6be8121ddf46f777f8b8f61a62941fbdc454db5d18442cea6d573d4a5df1291750e),
  (false, 0x1329f7b445d53c1feda2550c0a29855dd95e73ef846d57a31d3ae9915ef3f1062f4d90321aea5e0d0f9ef2be280170e9),
  (false, 0xdfe38c10f9e4dfd5042f21f954249d2c9a1cfa8b9449c22dbf684e276806331176f520baebbf59faec5497633f3999a),
  (false, 0xab8883338594db8f9effb1f1e097e93a314c412fc1e94b0115c7fce8531ffd61c9b98482e0806d5e2263e8b38a3deb9),
  (false, 0xcbd6cdb0253257c28f904a62f25701fe8213d49802e2f3974183812dad835f56eb7200b07ae70d8c1c3f09f9344903f),
  (false, 0x84fa1cb980c0574159c0eeadc33e95f614016071b7d076c1dbd14ba486d8b06b05b30fcfcccb3707e16c51c9e21f231),
  (false, 0x148da9b53ff80aae15e672238d5db0ea37fb3aa63d1ac7b55201ddf61a0552fa9776ad8c16d2918f3e401cd09ab3ce1),
  (false, 0x172eceb29bbbd42ab53f8add3b054da24fb1d46e9b3728966f13e2bc7cae8d375a9c9185cf0b2b285adbfdbde6a976f1),
  (false, 0x15aedadbb93b80f9e4a6e143420c1a60e3bc48e940bb19f659be8c563a72f4b7328d64c14e6bedb533ee71adfe165e44),
  (false, 0x117f6d7e1645a49198c1e8e4ad768d50a365496dc51db6448c49b0fdaedbe1b3b8dfe3f3886666dfc51533502d2aaef2)]

def bT : ℕ := 1
def bX1 : N2 := ⟨0x0, 0x83c12791abdd5d2fe2f284f0cc6e5aa9b8c2d3f6f3f792302cf75e62bfc4df1d6834443da498888725d8cccccccb1c3⟩
def bY1 : N2 := ⟨0x27e515212ef6906b3ca55182ebe3a51adc8df9cce8517340a9ca57aa28c8b7ce5da84957053fe0dd28fd9975e71c86d, 0x346ecd0aa5cd038896ce6adc5771561d91e4c759bbbb9bf0e36c899b9db9a4cabb9b6f11cdba513d43879f370d08e46⟩
def bX2 : N2 := ⟨0x696752daefe44a8cb58ed0c0a38b7bbafa35765f2992db59bd92b1e8996a4c1786903697b6e06d38eb13d70a3d6f49c, 0xe79c4da4742ee72e74008e131686b4ef11972928af902c19674c72b85e955d18bf43a061953740d8048d47ae1477e9a⟩
def bY2 : N2 := ⟨0x16dc21bb189af29d194283c4d555551046923cfe5c2bc6fe9968e4c06b2c446d694839bb3ac7dcf6a0583f8556e8dea2, 0x9eb706b0109bee76fbb46db35ae1580d6ee90600f0eb5fd550c78ed812b746deea6014d9d06a88a933f6a3f9dfd341⟩
def bX3 : N2 := ⟨0x208abfa24a6a188c76a2a7640295b8b070ce6806f199b2ad5e54faecf5ac587218a8b5dfd5e264ceac75eb99fe9d954, 0x9e32c88b284aa3685ea67d9a5408938a3d2c657657ded99f7734f5e0e55518530071cb7127d9d4db467c3f2120de437⟩
def bY3 : N2 := ⟨0x133da74caf396382596e0a2f79ac84d84066bfdb8af96fb102a04924bcee42a99ee9ea131d51ad734639d0c2884da2c9, 0x226b7f97585a7cbb0930ffdcfc29e8e5f012b8a2ecc3c61101175bcdde325dfff19f9f5df1c04ede135dff5d1374189⟩
def bL : N2 := ⟨0x1087c3c9a8c586af7f7bbca48fa2f62122da7fe0bc3646eb4f5e2281c7f9ea5de3904cf50ade2cd9506b54766e8fd189, 0x16a08e020d38ba9d228f89bfaf3e55b10418aba1ac8da5e55f43c7ce9fbc61eab881afad74330225ce4871370ed1bc3c⟩
def bP : N2 × N2 := (⟨0x19048193e2c050e8aa96a72f1b253d38ae8a91f961eed15266c06ec174791e047eb09d403bcbc18923b6774a0ef67672, 0xfa71dd02c7aa8aace82082174b5cf62cff027bd7660b546afe9186a5d53a78e95a94f91c8b8417bf9a2c59572810982⟩, ⟨0x2285a72118583a584563346d7dac27b14782196c21c8d47b3bce1b22a5b39845339ca9e577a60317e0d4b4b2a32b55, 0xa97df21f6dd8845b0fd269b3b33617e71de9f14c744e9a8306ae9d8e742bd1f17f44891e2a430a536c7bfb7f206e390⟩)
def bA : N2 × N2 := (⟨0x4cf513c5dd6ef3c1e42a3e7b56b5b3571959b073bb191258e06f9b167fbc107073d8842a7dab2a6e39df3cde7f7ed8d, 0x17fd38d77d05ef3dc77275c5709d5dc6740531369f04fbc389c7d3fbc69639fd5ba179f69336e9cdc0ef9ce4ad510ec2⟩, ⟨0x477af76cfa2e75d99d76032224cc9293cd566ebe7346a4209bf333e30c9676b8d91aebf357610369b8b671e671cae8f, 0x1867c4d6cd5b8264967f18e474741407d06e7cee525d51a363e67662dd340a5b6cc6529e3e4162636a33c61c41f961ad⟩)
def bB : N2 × N2 := (⟨0xf4c1c35a89b0ea2c3a68713611d6fa57efb2067a7a886d46ec8de200655a13424c550ae614be41caef4840a4e98a3, 0xcf78395071bd10bed9070407fbc766796a5dea1584991599301c4f219df42f0792280829e4ed368184c9da059c13305⟩, ⟨0x18f1a0d50c60a464e6163fac8c7cd62fd1ec5215caf96313614a255f02aa9968080bba11015d61e56b04196efd1e14d3, 0xc5985410a1e5a8249057fb681faaa6a7f670b16949239f618db19acd7de6462c98512cb8774860f50266af5cbaa0e8c⟩)
def bC : N2 × N2 := (⟨0x4bd9f7b2f255ce464fca9fc2332009f3f993601b162bc3189989fb553149750a8e5aa567e6a63e08cc16d5b04d98b08, 0xe9970f7e672c8f89040ea66aed8b79efbb556c76e982a6bade83a91882f87f482ea5ef9ea169c14e9caf3ff22e30243⟩, ⟨0x849a2ef2aec12301fe9988868aa528ef996f7af16714bd4fcd09e1578785842f6e1452a5081b5abddce3fa07228ac69, 0xaa9417430ffc53e987313eeefe69f5ae8af08fd2793dcdf22aacfc5b3d81a4cdb294c4dde210aa8ac615f9479e1f455⟩)
def bD : N2 × N2 := (⟨0x5347d1e7f5bb44e2b83bd83ac75851225f0d2c7972c439db4741486d1fc544d7d4441de23f1d996d101acbf51aa9048, 0xb85408c3fa5d229ad3d91f574388ef9230e32ab575f35318fe6dde4326ec4d37980ce3c2046f1de51ff1ec9b19566e1⟩, ⟨0x1f94b478b3727ac0030eb60340a5eec342d0953153a8b3951d5c74b0a614ac109f6772ba79074dfcd4b684930874dae, 0x117765a78029f3edbe8cbaca4fc7c44f4b43e454e33782e93eb87afdd375d3a45ff8d4259c7936d6be293597a9e455d4⟩)
def bE : N2 × N2 := (⟨0xc81d0e2966567db4dc2927c9c5efe97d8faec36e8f5769e905741c3b4a69cf3197c30fa95cf3054e847a77fa29e9b1a, 0xf8e71388c60f23da81d5d187b0b6286ba77f68f1450a1166bbbcebd6b59a2e30646f24b0c8d981a915de729df293171⟩, ⟨0x19de8c4318678e5ff2d64481d5ce00afb32fc96b876349eaebf50485d40b428bd9786354cbdc59fca21e2b4b4d5c7f56, 0xf6932c842a25e549a1e811b08184b58f298ac702c40291736c5e8c80f6e390506b7b76cceafcf5a833740480df8c71b⟩)
def bF : N2 × N2 := (⟨0x1051149b4dacc581cc5644987e99f738087f68de365cca74c2e2c9ff54202b71854a2928d3618629d7742de9d952b6d9, 0x8b43e754992d0a47b5c79aaebf62dcf04d338059d791990a14312d045f68f6e421d536637f356832747ee81952ed318⟩, ⟨0xe9b9168a91c2770c30ab687871da95c1fb4124f89674a8e52413354ec186458f068bf5a39dff7f9bac7344355cb0123, 0xcc16dd66c1bd745d3628a3588542f14c712478d34533608ecbbc365b90912530bb120e108332341ffe2a9cad9ad12bc⟩)
def bG : N2 × N2 := (⟨0x17ea42da5f1546a68e13057304a31b963a5089035e67e6052a46290a7dd08b896a4d2ef6cca5f3a03bb573ab503c227d, 0x6688f308f8fca483459a4aa27c1b3aae1d701bc44ef24e36169030f40b7f3bdac2f3198d4966932f52ff4b9c7fb9993⟩, ⟨0x6f6a692ee57c2199c478840a3170c0c4bbc0e87faa523a2d5a9f661bab60ffc9d892a9142d43b95f4d78f4a20b045fa, 0x18856c06549a4f064163a558f91267676e0e1a456b0a30c7c30c9c1460f80906e10dc7a1e68ba9283190f778d3237a39⟩)
def bH : N2 × N2 := (⟨0xf05a79880d2785d606a0e70f857a75768ca7ddd779954cd6e93f96e147cfb4a10febe82a6eecd294ec8a28c73847a8f, 0x85203dc7f51348f17118ea3b4eccc8c01c0ea9663b5ebac10007c33642a24ae55a4ed88e6422d76215d60359826dddd⟩, ⟨0x489a1fda97b98a6060ecb9f37699f37913e7bf388989f914e7f2e669b3afa93ed908d5b98bca740dca9d4b309a2e2e8, 0x25f21a7dc2c8633d1df61010232c38ced6557a1eac354b8ad6c07561006589e08ec9c8b35095997b68cdde7cd5257a6⟩)
def bL1 : N2 := ⟨0x12325b1fe8865d4439c46a6765ca5383a0d0630c085d595236e25d799da43c8652c56e4341bea69ef73d977777ca009c, 0x456bdba3cc13d90b462bb1c7b1188849d7ca4549083435d05eac9f9928def5f065b8fc616ffc71e18d34ae9028f8cb4⟩
def bL2 : N2 := ⟨0xe2768bdc36d3ceb7572698abf0a447f3b0ea1504da6c0565844091a06af5d8c148ccf63ee1ad929344298d25ba00754, 0xf0e2d935092b1d6e3cc6578779d789c8bad16aedb7c42de2c5f2e509db81bf4cc56ae1e132012edb9e50b87e0d8e792⟩
def bL3 : N2 := ⟨0x66573967c429b1f51982045b41412ef38cf36cbda44625e22a73e45a8e321ce36dc78726630af8b42ce735663deb982, 0x75f3e5110f87728599faaef2b78ad6e8eb96b0b93a050ef42bde321c2f1b918f07e36e4db6968c6a34389655d74d99b⟩
def bS1 : List (Bool × N2) := [(false, ⟨0x3f1ad541ada0c63c4168035af734bfd0b1ba415f9b01d2ef24f6db541353f2411e0d6c94504d2c410658d1749775beb, 0x19b2902a177988d81e7d354e760ee6896c57dc6ee1040bb1665a24da2450a87dc7e480adfcbcac07ee1ef1e3b3ce0e41⟩),
  (false, ⟨0x131fa308bb9b8f1b2f4610175f6cf27b30efa181691d6df1e876a96e6e408ff6c0f6814f0f2f306ac59af2950ceb68eb, 0xd76f08b24b2824b9863bab281048d8ffd7dee6c9c81c811894bcf224b60a0cd6a5533be3bba830b874ee46f8fec4468⟩),
  (true, ⟨0x3f43fe692aa91d896c5561993acba184171ffc0dd8fdc0949acdc394f6914a92dd5f5356179993e46722cfce3a77bfd, 0x945d40c23d5d3fab41d465f97765da43d18b137ef249ffd01a283faed864f61e5dceefa5d45954364fa89928d7467e3⟩),
  (false, ⟨0x107d45d39a96e54adc4ee209c5f3c5277fe678a976242c4fb9ae87296d5eb139ac3f478a2ea1cf81a6344c0e10ed6d, 0x1be5cf66b97ba783635ac50ae97fc878ed81f5d50acff15f9bd5131bed97a90023005fa9a7ff16a314266a23c74567⟩),
  (false, ⟨0xdee1a04f2d659db59e1498a7f47fc6c081ed05ed59530474d98996d35b01bea008f7f70601b34314139d964d5042b0d, 0x1bf531209cb4e29b644dfd59281023a61ada54fa411b26d958af026379160410ac078f3f91328cd2f9f196877c1a988⟩),
  (true, ⟨0xff35496a88d3fc89f5de07b4d55c3bfd61312c1ef7f34f4fa7b7e86d08cedfc101043dd6bb43c3b5b12d3602c77c1d6, 0x110acd4ad3689a3191d55e59129a48b52a17a7fe738c31b0c403dc79020af3be226b59b6d2d5390349d50ed9bcae491a⟩),
  (false, ⟨0x4b53653620f49adb604fb29fdbf53dfd120df7387f88630ffae5aeaba7c39d0a688ff537adbff3749b35735ab4be050, 0x7e1da0dec073b6c8f3b7f1d728b339b6dadd98101bbf2b7c47e7cf929420ac9838f0cd662a0a3fd76db830281b541b8⟩),
  (true, ⟨0xe8808a2f72e7a915fd4fa827de98ae9a51ef5b267de7597cf6794758961ee00d684f86ed0a28e3e599e668a2af30b0f, 0x15a38eaa80db99f677a68006cca047161de12923eca8244eb28e4f2a3466a6433793e1c4d816a0a674d1dd239b206fbf⟩),
  (false, ⟨0x97ccf773cbb07c20c61da580cab4fe31f17ce460e583c112e8709d1cd462d480f2b5eb15ef73ca06125d677337c8b2a, 0x721482a30a77f5ab26a52b92a476be04b3579782394666e277860c3161223ca46803b007a1d268b4f3f15b08251640d⟩),
  (false, ⟨0x51e0a29a36c6cab3c3f82c074b785c41a0e4272531aebd443755995355046e849ba886c8551a6925f78fd13815154b4, 0x98474875b886a633952f57f3a1b5aca72b0fc415cfb6188c6dcfd8e7b56d813c2db9f0d5148dc3745ac216cfcfb0ae4⟩),
  (false, ⟨0x8543b2ce2fb572bd1834e49ec7d86e5207ad22bd29e22ea491fb9881c54adfc0f08aed5c9f2cc625c09d5343b08ca49, 0xf22c64f77baf35f500a7106350b6ff9c53e1665d7d6c154207882ce49afe7e4c4cb795a6ea6f157b521bc28bdbd4c9b⟩),
  (false, ⟨0x4da1e625fd9e39059768c94a4c205a62330e9c35cdd1b28322e7db37995aa99723e3747e9362227a9013723bb005f70, 0xb2b0922bc10cfa60fa6fa8fda2aa1fc8ab00d1f25e23f379f1a95b48b87885691ca15a3535feaaec9232fd161986f30⟩),
  (true, ⟨0x18b7f4f4489dacd3f78ccfe8fc977aebe487c6c46f6632f56cda551ef4872d73c96c191dcb1183fc6bdf8df64ddcf0f2, 0x13d9044a0d1a9e377b33bc90d450de68b41f2e8f73ad17aa6025e19b7d71d9376253fd732b0b06e3cbf3c3101a443df9⟩),
  (false, ⟨0xc819164e262883e8229051945c0325001aaa2690cf445d09b83abc028a261816189316858b47e7cff07b9391203334, 0x90ac79282ce80f25884f8b40545308ba15a9b18f9b575f30ebcb940becb37046d065f466ea14ee6b493d9dd43b13027⟩),
  (false, ⟨0x10de0b4e7167e3676832e6544ce3056bde91d5ee6c5789344d66030be140fcd88e59c7e421ff09b82fa8b6e50b3fa7b8, 0x432b1d4792d681eaaff846aad3d88866523a1ed7f9ea79e31ffe0da01c8c1c35216ce2acbedc6e02f918f7a41e34ba7⟩),
  (false, ⟨0x156454e3446025c326d01ab6f5810e13b70f4fb5fd288d1b3ac27ec39e429349948824f391ba788a13fdaf2d4e767619, 0x18624cd3ed8655e09b2316a6a5a53d86c88ce08bb629d9b034d6729152a05d33236974cde10d753f76cd8f7fe1be3ec7⟩),
  (false, ⟨0x531221c1081e48beedb7ca7d652b3b160ce83b05822c0ce37c784c90703168e545b3919d0ce7a18b5dc195904a1dbd0, 0x47b31793818c1d197537171b4b90490e8954c82880a04126d6de1c547050d9a3b0871ea6a486ca8252cc0399640851d⟩),
  (true, ⟨0x15fe3ded080fcaddabbab020f86f21b9471decaf66060f8ff1deb84b5b1da58bd8e93469be16119a6a25ba55a45f9fdd, 0x97038a93a55ce9028329e74568c946208210698ba919db373c854e3d5d1c64615259f46a30ad2f67fe590046791265⟩),
  (false, ⟨0x18ddce9b7e155bc5886be00b3d80fd14b0aa63d146a8f561d1dfca27a955f8892b72b1c3fe2de60fe196c981d666a79, 0xca8449704ce5bf1c4632c731df9b7461a3265c9fd43e682652480d1d68e227fcca50efd46ab1d994d3bc2f803b11e19⟩),
  (false, ⟨0x5af99a67493044069906b8e9ea38b296e663536bd0e25004a6134bf2e16c99bed5d6e1549eddc165e9c89e267939f28, 0x121b5dca2113971c61c15162d7f49efcadca7f55e528e4ab440fe58d82c58fd8d23974047db369226ec8504011c5b7f⟩),
  (true, ⟨0x1d98fe29129e4c03366765a3d63d29b62530a639af9bfef2e0ad8f1c0141461bb3762adfad12f8683f35180df304afa, 0x132d82991aaf2d89d90673f749f75fb207a639b89549c8c76b146b0f38937faa2c7c0f89fa39542bc26cdc43f127c8b5⟩),
  (false, ⟨0x10a860dda9f5cee9f86653eb982475e56b96410abe91b902542f1d10784d1cb6cf307e39776942f07888c4d74f506ab7, 0x189a75a180f5ad42e0ae19b32da6fa6af04a5dda6df8798583a606c6929f881c07e83dc0ae6c7017aff5f95b2562343f⟩),
  (true, ⟨0x4765cb946ad9753b265fc7cfe2d5463ba73fda29d4a749aedd84429fa1db7dc127659c357a1434b1ae06b6cfaff372e, 0x180e730865dffbeadd1a8ec1df0d5142728957d5748ec2947ccdbd1beffeb77a982e3c41a852af97d488b691b6d3a4fe⟩),
  (false, ⟨0xb91dbe92065e81da29e04606b5e7d2ae1ffecc3d7a27d97ff417b98a85e2170582efaaaafda02f25e3cc9c421f1014f, 0xe127ac50ccb6cab308adb8887960e6be82654c9c4b1245eb300677023c224215b1556068b720390d72513770d6d4753⟩),
  (false, ⟨0x169c4227ea48d4c894992e10b63d68e6afb58063fb5d5f392e9ecdf3f9c73f1611e3769db26ec709a26c31ba6667e8a7, 0x17622a95fdc2620985bd1107dcceca68b4606dad9ef99f90014c10b01f7524452430d5fc4a865a35e5a9a43ffa619b51⟩),
  (true, ⟨0xcff7dda93f7e5a178cdba8f2119db5d312227f19545defae98a53365a0d6786f8b359edcbe9167fa97aed56ad04d121, 0x7eabbede23fbb362d9afbf4279b2937937f4c6898c099f382b2ea4e1b43cb98c78c2d6c4905f668e886a4e7f8ae379d⟩),
  (false, ⟨0x114d47d4bb1d587619c72289ea0ac3a1418925c681153fd00129128097466f8aa92a74a4f648c3419801a63a3f8c6bd1, 0x11f4c16447888d4f766d1ec70ab4ec81d9b942752e7513e4238e71738795d9b1a0d8d9bd23bfc295e796e94c83d2145e⟩),
  (false, ⟨0x78537f812c36d8aa44b3b7f0b4ab1d85ce97a6f58ce21755059aecaf5f8779904e6a0d1f560bd755b765064bb64a45a, 0x16f9a41a445dceb1ee902f783704a820cf943e570db21bf1670e6467b83571378f161761dd891928016819e5894055bd⟩),
  (false, ⟨0x15ab16ab3275094d3d5637f9b8e2d660563b2d630281abe9f362510e3dfee6dbed94645870703a4005abd767e5f87b71, 0x153ac432be790d953f3c1a07a78e93ae5e9b5c6673e50ecc7c6c1656ea1350a277a10edb355eb31f7fc2f22d92227b37⟩),
  (true, ⟨0x6c255f276f2af3e7449ac6826f264b2c206a9ea0ccd4b268748ede12f1657140f1e80d4b1ad5115bcfc0db12c938c6e, 0x4257cf27775166e371aa402b285f0091d899c2b07d74587729505caa4174f0bd79865b4e1f079011bc7c9e2d89777fe⟩),
  (false, ⟨0xc8ac474e53362bb6afa63ad2217ce0029b8e6e77f87f809b6e9e22666826bb9a87b2920fede1f9f0ff68967de1874a4, 0x91796210a7350f2a563c2a198a9c5115cda4e1bd1ed4f678c4e6fe309702e9d6ce0c15b29f0a31754825953aeeccec6⟩),
  (false, ⟨0x8022db87ae9587373230d9ac7df52caa24583cce9b50241bfbdd79bea6e7db62cdfe3b414fd52c858edbf8275300b0d, 0x113c28fa9d7aa60db80ac41e746a0ced32c0b68bc5572e46014cdfa81f47ed1987326b6fe83944be7533f7ef8d810b38⟩),
  (false, ⟨0x535c187311dd210f121c13a7f013d9a63ba29519bc0c3f75d7da57e5dfc75693bae1566052565a9d395fb7e0f41048c, 0x10b4aceb7be74ce0fc9e5afc8f8cbddb41a48594acdb4e83cb4da5a5550de015c608b4fe7e430c6b45be0ffadccab34d⟩),
  (false, ⟨0x1674499888341bc9266b652ab2e8cd68fbe6bb5783131c16bd5c57ce9f1db32b6f76ffd14e38ec2eb8f5097b8ba5927c, 0x1898883bdd8d088cec018489b25a091118492fec9df1ab3d0e410da9cf21530520a9bc563ed907a72309bce1cde0b9fe⟩),
  (false, ⟨0x13292367fbd4aa92be355f531e880b7579b50452a7ff1cd9b29edc48e815b813cddd8f86e32aa2c8452558c8bffc5447, 0x1217d0b9de0ce1ab2da16b3e2bac6f7aa59a15e6234b62a6fd76eb0597c2c3a580334bdc963c9ca51e471c5de89ada13⟩),
  (false, ⟨0xdc759cb8c390705b93217264061816431de836989b03cc6a4eb066c343126939e3e57d8b41c96811c163785b04b2424, 0x3460b5a5838bfc84df0208ec4b20efa1cd5584eccbeb8b0f974108d5340cb61885811de60c5255cf16b6566077d01a2⟩),
  (false, ⟨0x1272b6dd2c7dcb9819b84d510a54809a3f204fe0cb43b23624a37b934fb4f0e83f3888c6f8bf70f66a8671aac83fc2ec, 0x1277559536e4e9d923418dbe05e8a9a2e8a4be0ff388d2433ce7332bd490ccf973ae1d8fe9a4cff9f186f0ea270f67d4⟩),
  (false, ⟨0x15cf8e83ca27a7f549b0f72426326a1fe05a6a363f23571697acdec0d5ec819e3eec6bf4dc80000d51a06673b44ba29a, 0x14b934c390a28d12f867afa1198b3f9b0811781ef1430fd88840ac538d42eec867cb041a2449b03d4464360d2b6c400⟩),
  (false, ⟨0x9ad781b79b010713ff41b4f881785be01fa623bd99761870b52f60beb3dbead92485e1c6a11cc863f3e42d9b0268765, 0x3192a04c1099950dde41a5ff2cddab14be94498c6c821ba216ff6d722c06e9c70618ac2faac56eb00292d4a3476bdcc⟩),
  (false, ⟨0x802e429c68b678b606b94dfe972e27126d48f28599146a4f6678a6ace4ff812fff0ced70fc401b9954db23b9c17e65c, 0x16b0654862e2d6ed2ef3180606a7607b025916a5cba535e97bc856399fbe7fc05f67c3111862f3410a2d9ac1e049f2d8⟩),
  (true, ⟨0xbbea34db22a6a7b101c8701b483b382117b7c8955dcfd35e84aece64c0170ea9a85edb8ba3f5826661afce75b19de53, 0x564beb56e7bd852c701a2038c3af2fe5200a134fcb080fa0ba0f2594d7ec6ef6c07714ef380b98874609c84f5af0736⟩),
  (false, ⟨0x6736084dbe68ce74e22a81285b6c6af721bae68ca8be3dd374ef183b2522d26a233349f3dd23030c98ae9243de08c97, 0x145054599e833f27a4658620ec5a49521509b9eefcacd597023ff2b1d318acec066899c8ba05a4252688e95e07d08244⟩),
  (false, ⟨0x64c813e1f885022fce27c8fcf4e1a510440832b99a8dbcd599b631a8fdf386bef7a617042e93e478fb020798c84dade, 0x13bef8517cdb366620bb6f2e56ed551fec434e08f38bc18cd5e7ebada03b073dc4c43aa8341d813af4c710565992c1ff⟩),
  (false, ⟨0x11bfcaea4e6718d49757f54c3b7bef8ad494310ba8c110ff5986990eb1997405b964afd49764e7fe47f7806583a91455, 0x5ba717f26f1c7c541fca1255a56bd2b14f5a130081aadb62f6444e61b98f0ffb392c98c95eb3f3cbb8a5ada12bd1319⟩),
  (false, ⟨0x338301c1075bb7a009ed3d82cab0f2cfce6ec122ac67035867791af2d32f736f106ddbaf3cb513aa6cc1fdb6cccd870, 0xeddcb41678282e5f7262df94cef859e563000972cbec30633d32788c18ba9bef41735f8c93c943be35e1fab2e64fbba⟩),
  (false, ⟨0xb4dec6114a3958e29f7f098e1c89924dc2b036140845c121489c0f1f6f34ca1aded4a2d0526f16532b3071a45501d98, 0x56d50a0575c939b9b0bd52c00a2ce277e16b77e1859df45ca7d6d46ee2c79804a314ba8bdd4d1f2add918ec98ec898d⟩),
  (false, ⟨0x96a7fb3579bce53b43a3ea33ab94ca19f25faa8915d36c6b0fb74c29a6d1ff346673415f83d7b406c88d15aa5016cd6, 0x18c91f144e5eb3a759ee5bf9d4fe9096f4b63599c64fb98809ae508d27a478be59cec2d00c35b2db323e0c8482e3ca2b⟩),
  (false, ⟨0xd5cd315d39082abd82301b16cf4b936cbdd3eaa1b07b987dd6dc4b6bb1d94570c0ceb2928aed00fc66e987f9ff108f4, 0x62da7e6d5d07d18698e81c432b42369f39ad8f97cf4fbffe49f17cc2ef15eb1ea774b1a415c2e5413f97f44fd0b9b6e⟩),
  (false, ⟨0x15147f6baea4dc1deb891f03d362c63f140f382de8c2aa3571babd1cefbba8814edafdf15bd46345303fc6d8bffaa2ea, 0x87819f4783cd5f28bb106fb49505df1bd8d93991595034c186e24fbc4ff89f37d6c09277cb46abeff645e5de812e638⟩),
  (false, ⟨0xa4c05e8f1f27f4d544b8c448dbd58846fd620354132720e43838f0f0462bcd7f0582f39c5580a14b5dbe3979e1bdf2, 0xd3f07123e6246f34d72c4fff35e5eba6245b03360a2d4fb18a0cf5d31083bff5cf6ee7267b3c4440c3cc80b1061d3f⟩),
  (false, ⟨0xc8a2756da52fe40d7d3a8e81f3c1dda0a392bffdcc6f87dcaed2261f84a3ee63ba3991ce2e507eb309830add4148dd4, 0x8d1d83b854e1034df90b99e3b81de986aa25db36764b82343b821eed07e260dfdf0c01b2abdef4f8ea711a914423ab⟩),
  (false, ⟨0x161234e17d2dcf67470b0b52d58528835972785a264a842eab8caad947954b3cf0fe383bbfe809e59b81e975394d9d2f, 0x835f9c2a00a4fb50aa996ae461c9fa742508800cbc0b80b2c1584b30830aef6a33fc0eb107b846870376646cb233744⟩),
  (false, ⟨0xa74f073d9ab9fcb88229d3c687136ae2be6aff5bc765000c0144beb1ab35554f38545224971ae1670e3b583c0ab0fb2, 0xa3f41ad9508e5bb132334db6eecf1b046130aad82816957ee4e983e7b498791f730b64452252d759f870256deb323c4⟩),
  (false, ⟨0x7b53e9dba5dcf15bef60c7f51e114b4e7fe14bd2818a148c16e701c2142cc895d02484e0a12c086ee923f3381f5e9a2, 0xe560e327b095a3ada13cb7e9a189e34fcc563f0e4acc3946e1e45927e51731005e4e4473d3b3355542aa42eeb5dd55c⟩),
  (false, ⟨0x75c5226a4c983749ff3dca03b8c2685d9f46f46711e336f9eeae6abb16ef68bea6bcb8e18d66db2d26e09bc57031cde, 0x6da0a5779357b789986136af7227522aee9b643d5a98c4e8ea82d6ddba4fa92e27c532991befadd32e0dee84deebaf4⟩),
  (false, ⟨0xba68516573c26974af5d6ad5a181b324b7da8b0d9d5815e25dcae8b11dcb6e629a925778727493669ae3ba46dcbfdb1, 0x63a69f93e0116daf062c88b03da22fb9e8896d2813efb9614302f5355775a242dd8d1ef48eee91019c2103ea7c06a15⟩),
  (false, ⟨0x16184b0730a8b638a7c0c7f17f311a24d5ac337bd9443167f7ec18183dfc2a4edfe40233fe4db2f412a5ee9d79d8c58c, 0x11c9e44c95d14a48b99a07a84d77b2125af3157dcab8a4a9d2abd59a0aa366c1c3ffe8425bd6022f60298bd11916949e⟩),
  (true, ⟨0x1949c688fcc9405fe096de64cc87d366bc095b1ac8227015f5cf3f36f862ce48733cd2bdd42739a504df0f99b04e3f2c, 0x43ba99483d03bdd1537c9d40ae751dc9d4cd8d203dab71eb1569886e5ce63bfb79cd268eefdfd553dd89d5dbba7847b⟩),
  (false, ⟨0xefc0b23341992ec6db26e78ccd1ba94228fc7a137be1b05bd6c45096867910cfd554ee264253f1f277d6cfca8e2de7f, 0xb37d87fdfc265da9c8f7da0c5841cf2e30e52073518d8f2a678b7fe9969310459c86a97bb5959c60e04feefb51336f7⟩),
  (true, ⟨0x11ffccdef0874e804ae0191fbba93bbc541b7418ebdefb161072eb99da951febd1c7d27350390c26fa3cf8d719ab7b15, 0xe4178a20744ffa014b8e4942ab9aa079b702bef724d6dc73c98f1ef21335b2d74cdaf19d007aae821a3ba15d6f3e551⟩),
  (false, ⟨0x96b294a8a269d39e14a0a8d64ede8c1affd870b403a07db89db7d03fe9a19517a7ac7d20985d639711e45b6dfc0a361, 0x1771cced572c9e62d8ae56ff7707675023c0267f2ed92c5bc26fc084f70f0b9883ff02d57a2779d6c83db586d1b942df⟩),
  (false, ⟨0x8f662fa7cd0a50bbf67731858f5ca58d863b9990dc86ff2290a82d8627c649456a8aa40c3c6cf4b3ddb97d6ae050c0b, 0xe3f5d3011a66c698f10827c318af73db1d2af0ee8f12e1741fa000e6207350bd3078d387036fd657e2c70dca08547d5⟩),
  (true, ⟨0x1b382b4fada721cdebcd598ed17a02fa68be1c5416a9b72c995d99b2bcab5c72f17084b6abf584161268fde5c5c740f, 0x10fd996d6580ddf8956e658fa22de0de0f03c37c7d31177fa40941c681e7d67f26c941ca0a69aea5657d7e0ca8d2e223⟩),
  (false, ⟨0x349418375c505744a9d97944e52714fd85e270536ac07947ce5620eb780564bcb088be0418930878db8903f5331bdb6, 0x1625e789f5014e765d77dfb8ed2d79dce0124e6c4c185a9b436ef642855fc4ba45d2bd7370b38d11949241107716a2fd⟩),
  (false, ⟨0xaafb7ae4938b306a7ba8565ed92df6265473ae357c7fe49af9a91783d50f723403df3f365f837031051c38153c1dfa, 0x31ef51f1113b2fe11b3de2353c1b80420984fb9b73c8b7672cad3b345c3fafc02cd33e52da55c59b27d246b022a6980⟩),
  (false, ⟨0xf9b19817b4b8fcc16da8447fff3dd7065138546f533d042628c029b18d85b20ef98e305fa25a1b195ddc5eb3d42b664, 0xa545f872e03c692c6c360c8d5ac2a53b1e3b3c583f8fd9bda858a66891526cde7b156eee57577634f9a70eb2d84ca35⟩),
  (true, ⟨0x6e123561122a28c593becdb9f82bd940f70b627f40d75adc52b6ac72f4b3e9d1113cb96371d3136e5879e18af51b20f, 0x1833341a6fb657e804ff2aa4de0aa555baee3809794c600fd6eed8a6ff8460a231e7fa4b4448681d07abfc050505e894⟩),
  (false, ⟨0x110e3b238ca567862ffaeb92df0fed6e1b7e41295bdf6393e0c0e3620dfec016dc23880ab432b8c08ca36772f851736e, 0xe3aee680ec340090982ab1681f7881124e6b392647602e48825e8903e4d928b4bcdf65131b754c29b96de80aae0815⟩),
  (false, ⟨0x1672982aae64cb9828d36812cb0c08932037fc9111cf7e1c231f0cc4888f32626c9be63a9a5f8b9d6b9a3b4c07b6630f, 0x155c368eae12ee4a85d59ed3631509d4396567d7ec1c2b455ed6b560b3664b6750260dd9b23db3f36c26801f3dd01df4⟩),
  (false, ⟨0x11b92aa5128f8b6756b3c641c6989b51c03b2e01964ad080ddffdb91297dbc7a04b12f1f5ef32c3c08684b07ed088a8c, 0xd99bb40a44eb49110e082cb965d78d28358170855426c949582aaaf1804225386ed680c8e78cdf99f8ae55d193a87c5⟩),
  (false, ⟨0x138386adff672256e53bf1eeecd07f0bcd47bd0bfd86785dc3be0f7d76e86830abbcbf5371d03bcd1be28835060067bd, 0x13c2f5fa29463fd26893b6b65c52ddf330f6335a8519bcef04ab82f9a01650761ccd28b607581be27fe394df99dce8ca⟩),
  (false, ⟨0x173ffe064fe48eddbf017f6735917afbe7e3c41fc4590e8b586387cb1aca0dd38c7bd9541f8ad2bc40f39327956099a9, 0x19cd5bbd725940444430ce386b8d33a61f9d92574e6e5fc10898f70f77b693f63919a197aa076c4d6ac924ff5f1023f2⟩),
  (false, ⟨0x157effb3d49a637b6d24a1aaa044d21c6e65a43fa9fffc6b7cfa695c2ce7bbd0479cf4fb524b66681a96ed96fb9ce608, 0x579f3f9b4e5af8271da4a5dcc6294011e8437919ba77de397984ceaea4a8dd1b27772ee1081de53dd7ee48510b6e6d6⟩),
  (false, ⟨0x6d262c1feb6a9b92b4d43f62a757710feff04fc8cf28e62d84f438d7acec6a94808be431b02095630bec251773ce26a, 0x1098e6950964ae5ab11ae3020ece076a382aa92e04037f059b7842008dca9e269ff94a54313828363d0f57a2ba4a1a99⟩),
  (false, ⟨0xf48439eecb900739447f6eb0ec674bf0a5f40f82343bbd15c78fda73391e76651b286c54afb365c52dd9924ddc316d1, 0x15f1beaa27e8b76c2f4b6b188dec3ac6a060742b6425d5d5d5b971829b465a62fd35ff1d1c35dc03b15747c855990f3d⟩),
  (false, ⟨0x120633bf05d951d828bea8dd61ea5b83121cc1b31898437cf423f5acfb1f3330869e90586190198131075af46fffe371, 0x38e1374ed1051f630baa24e36e920e3444d4275f4090c0cc68c8075c8ab40b662b6df52c833fa099a4ea2bfdaa2c56b⟩),
  (true, ⟨0x41d5cbdc6082adf4cd71be6b32176a0773374e6207be5a94ef16657e4f451cf8633c4837faced2fce9791012acee05c, 0xb0bf379d18af48a95b5b53cdfd2af1e09dfaa3430058db31a95df2b7a1327b286d3cd984ed2179251969816b8306ac4⟩),
  (false, ⟨0xd88ec4fc90870f15a81052bf0e18e3044e2defac554befa024daba1fc930f4f5e35fe02eb199111e952b1340569cb07, 0xa39f7c5acc1b16055b9d8e8793946ed346553d17f6125ce7322e03bd7b39e171333b91717ad55913b2ee46b8a766f7e⟩),
  (false, ⟨0x13ef0f883fee37ab6ce145bcc89f673777a2fbf24381161c44ad463335dcd7c320a95ad4ad61056c6cb167c27f6ebfec, 0x1681c45d0a740d5d01958fcd4578cc84cfc2d420b191c21f6f75872ef86baa3fc698fc7ead9be6fbb9126823de43bdd6⟩),
  (true, ⟨0x18e7315d8b9bfa5740b5673b3527b6da19efc960763ca91f12a57119b98c713640d4b96b5754f648cfe4fc7de002fd09, 0x1812099dcb940ae30f371547aa742035782273e247fe11486035f6549b2d591554cf2a234e39fa6393ab0ae24ae6baf0⟩),
  (false, ⟨0x166693b55d39b02f613dd077d2ccb4592ff69aa3809de2919ca3f16523569cf20c0947e9c1840c802dfa9c686a3b08b9, 0x1524c8f22e428df2fb76d0feaed845781c04ab45eda9f430b42b88b2055527b9ce1ccb58d1e6d2ce0cc2903471056f22⟩),
  (true, ⟨0x74bd8ab2d6d4e37c3c33e53b8952239dd8e5f380655a04926df9122c8c0f0a30a33c2dcb086e53c5869ba2b944e5473, 0xc06c00f513d9ca43ab90cfa6a3cfb254f123631769697f78e7aa72b3a9530aa68db4f7a638350d4521ffa76b356a9e7⟩),
  (false, ⟨0x18d58d9b5494bdb1e683bcc30d6f8a625e3b2f2174a03a91260cf313f1a61c3e4406666d7606d66d8ab5533a83f769a4, 0xf3f3501a3339351d56060dd6316c6371e6838c9d13fc70941c6e0ead503564d538bcdd1453a3b6428332a9ed227c936⟩),
  (false, ⟨0xc3caef818c71e9bb2f44cfd621b875ee00d357c2d00d929c75cefdcb53ea25f31a580607332588201b772284f8551b5, 0x8aac2bcf3a850e8538f9987a4284cd18f73e231b735306d061a513dc28181392eaad731d07cd6674649d241acd24303⟩),
  (true, ⟨0x18b3f10eec46820f5db284a6214a5c1e356d13b7da64e1ca85ffafcd52282512dde92ef397d533c446e7cdba3b62c20, 0x18139f3a9136b76dfee0082be459bea910e17d861845163085addc6a5a00203056934101b508f902e36835d22037b56f⟩),
  (false, ⟨0x32d1ace49e849d8f4ec68b60c81040b32c8bb24a16d9ad542a045239ad9015ba569e03f096f38067e7cc8bab1d63134, 0x129feb3869d2a67ea00ae9cba8e46bd262dc95b51e1db20e7a4e1bf9db2ee69560bfb8843095749f02baeab806eb756e⟩),
  (false, ⟨0x15ba1643ff2bfd677d8c790037e6d1f4c0b1607ba4ae74eda6b231098d3248341343d8fdc3ecf8450cb4cd3c8bc6f31a, 0x10290067a172217519aafba76d97e81fedda1d15c38837a2d3b6f8f8cdc0514b6e9d71b1a856f74907331028c4a7e521⟩),
  (false, ⟨0x11114b302fb771a41576bb0b01301ea319370c082439e64248e1ca12ac13e1669c1dafd81426ad2841e4c5a3b02cfdd1, 0x11998f4d4d4ceb16b038d577b06c4955a6b62d17eb03144684aa22a74017df023af62d4b68a504da2902dcae57497f43⟩),
  (true, ⟨0x5e6f90edff081d696017b5ce4fad5a4ff148f7f5dbd9888ba76aadeaaf3d0c6e68e7070a59b2846fa0324c6cd66d5c9, 0x9d4d0c2a21adde9669a7ac25519b3451425b2b11e4ea488f70df921b443c64c48565203fe27c34f1065ba1787290da8⟩),
  (false, ⟨0x16f462571665129fa69f493dc3da7bbd8f5c87118512f1a7f37c47dfd453c661859b6a1558333c399d1fd6fcaa8941e8, 0x1558597167da709320613b9a18874c0a670eed28ff8aea5a379ed72bebfdf2975918f6fe2a8328eeb8fc412b64fc2162⟩),
  (false, ⟨0x154eeac4eeea5c8750ae30ec0dfc6829ffe49f53edf4d15053a4e861a3de119da8439e4f81d7b29046befbef90b29ee, 0x18ca0c351558f326b20eebb1048a9eee4f21b46c27dd4278ab4866be85c21ac2b3690056d8481f34b64402ae2c8edfc0⟩),
  (false, ⟨0x93f0a7e667afbc430b4d00ff81865ccc88e0d344d6d4fbbffb2c6330e044edbcd889706752c85135f7b67bdb937601c, 0xf33a4a1e22f0dce2d00d5f248b268ac3ed3b05fea0eab2dc6349db53d494c97106aba3fd9b131217cfa1950102e7ae7⟩),
  (false, ⟨0x7bb610f143397a3d8cb1fa28291ad24549e4846125263ee4b1fc63119b64f1d4823b3dd1f479dd58b5017e84af1de48, 0x628a4d54d62a1babe525fc17496cb2f42a247c81c316b969348b1680c33b90680a3bb29e025b503503c215e8765cf21⟩),
  (false, ⟨0xffbad3286f18708ceb55c41cef052b6303332f11327e6c29ce397e6ef331a9438d92740836a3acc99b6d3527455b0c6, 0x11dc4fe7fdd895d7c5a55dcc7bf242b680b0bb277f6dda634872753ebdad5a2c715c7fb979701284ec34a587add6461⟩),
  (false, ⟨0x11913884d70eeca321a7243739200ff87bc9bafe60e53f7da52686034908f29cfb07ad360486e22e95958ddfeac9f2b0, 0x16358e68fb9964fa81f937be5a87d5a785336d1c36c9dfd3019723c5f1fc399dffb8b1b6b8fbf49ac2cd01e6648a3984⟩),
  (false, ⟨0x1476533b47f305c3aa47f01ca66bf396f582a5bc82c10eecbe1ac1cc716a1291799e502c2939dc4ee3c36883a262bff6, 0xa2217a72e3751afaec9c8677e43bb7da78bab7be85baed645fe5c84cc4ee32dbc5387c2386ded9997f5a361b2233d94⟩),
  (false, ⟨0x1047a80c0e6ccc07c67e454deb0720ff1e77b34d0ca43684db0dfde9fafcad16c398b2d19cc61ea679ebf128d76283b4, 0x1e138810ad40d8f965fbbb7afe55368adf91ee4372e32348ff9674f9f73c505d57ba923b3c4e64cf60dc0f990c537f9⟩),
  (false, ⟨0xb5f10dc930208de122d3c8b483bf9f838f96ac4cfbd3d8d8dca09f4b14866c14a7c9a39bdb4b672effe8ed9f1b52829, 0x9c2b44a6f694ca92ac7545c7d1e62414cd379a1babc938d360f80a24f5536a1a51ef52ece3fa7d21d638e7d40efb304⟩),
  (true, ⟨0xa7b5751ca6ff23dd53c28221d116172d418af2b7eceeeb019c90266c505cf99b4453538e21101561135998b4c131b5, 0xe4c9df18b6dbf68a8eb296ce853643ea45d701c1c1df78bc858b1b12ab10c7e90633f95a93422c9823a7e8915b176ba⟩),
  (false, ⟨0xa2b37bd1ffc3bbe924cd977a9bc305bca679f4780e4ccf499611eecdbefe42440df27e7a51b5bed909c775aa7564ee5, 0xf57aee47a582d2a1d99404f98965c1828eb7b4e65482757934bfcad0f9face721e245f95b8576c3e05830a28513e392⟩),
  (false, ⟨0xab34b44bbf26bdb3bb9f703efe200cc7a6b051c45f85a30e5eabb0bab09481773fc7714e31afcfa26af77a268ae3610, 0x63f0472b58184d06b29d429ab98e9f0362b9298a3c75aeeb9074680ddde6d542854402193a6df3a1508491c3dc6e89a⟩),
  (false, ⟨0x13b4f70e52290bc8c39e490035c7479ca4c744c255efd8d613af8c95e6959099f8e26088d2061270be90597fb53e557, 0x155b24f4e057ae2e2254ed9a4d2bfb706e5c948ad7424e141388ebe7a5cbddbd1c758dd959e55b0ae4d9558d52485e46⟩),
  (false, ⟨0x524b8fa5faa1c5bd924a01453115600fb4068b460659bce1b890ce2ae2ee65a93f23a69a83d360bb18d4cc82d8d5452, 0x131bdca9f23f6dc1fc7535d124df91ddb5ab628eae24d7ef941a4066debaf7da3fa27ba442b7d379a39f0c417dd873f9⟩),
  (false, ⟨0x582aaba6be634ae8007b451d9a2d2e3621500521f369c67435ca04d2ce06fd5a4062a7d794bf9c73338c61a40a55516, 0x198c4a1ba065352c5434e83a675af38693886d8cee658f5fe9d76273c956268759bb9b85b09d0d6935044af947a44cc5⟩),
  (false, ⟨0x12bdd20c589dbbf6961b2012f5c650e539fd8b1f6f638d8973e693871567438d9f74370deb9fc33196a0b84c54707b5, 0x17e39c660b11ff4b731eb7198de303ce941b685b377f3ae10f66cddf406590251e06c775167c9e603ed4f317590c24d3⟩),
  (false, ⟨0x16195cf64d4114e2e380d6f08c79d5350d56ba463d93f9829ccf01f00edf87ce1cdbb1773e377b8cde2b6b7c8c852a9b, 0xc5b0d0bf3bc27e5bc9292a3dfd6307c450d465c57f0c9256f082ae61616536be9769db07b74b5f8df6e4eb19aae0125⟩),
  (false, ⟨0x148e0174642b1847ef0fb709616fd68d5d167aed8ba2a5bc994263256dcd96cc62c11d10ce76d3e8e7109f4df23c3436, 0x687a35cd1d2549f0cb02028df910bdebdb71ddcb4abd25bfb92c488721dd3e57a75d501f986f384abbd9a7df4a07559⟩),
  (false, ⟨0xdfb559c14a80b4b370083dc90dd7b663bb23ad2e9eda86dddc7a87d4fd7c2b108dec9f8473b8d6206806c4d14a508bb, 0x8553a3a7c810f476749e7d43d8b010b3984646898337937e8f824e3775758f30d277675123f6d70f972fae8ef908028⟩),
  (false, ⟨0x11e7df721acddf0b0a612f4d0d6427e48b279f01ce498cdaf7882586c01b8cd7a572c109790763f4ed2573a0f7a6759c, 0x13839656b332866c08e8012a16e16a05e469a5a542726b42435a9050184c001b58f4f922de796baeab57684945e13276⟩),
  (false, ⟨0xc8b64411eb52f1968fd463a7265f17819d29f0574a044c946288a1d1df6878cbf9d61d24129e58b0c8bfa0a76ac8c65, 0x160c15e379fd0fec6d91d4adec67acf4a2aa80940059e88001c52a09adba1bb0537ec14476bc655e91adb0805450152b⟩),
  (false, ⟨0x19f129dba56313818f14a399921676cde78627ed4764cdc864cea5db8c34c0af85a858a3bb5556654a71b1ca3cdb080, 0x59b350555e9c9c621978e624afb8dc6a703b729ac325588082a7987b883ce27240581745cdf3d46c559da9059f03619⟩),
  (false, ⟨0x1709917e14cf9ef42e1aff715c1236dc8e3fc9bbde34208e572b181a27a94f2f7c12dbd386b1df0586a817f95e97b415, 0x1993c62caa28dff7bd50519e7e989a5783036ba0887c38973e922639bbd8b005b60a6b15cdaabe8b4744b9a7bdf42602⟩),
  (false, ⟨0x89156c88037102d3938ac772100c9a493818987a3fd445f9b207838165b82de5d68fcb5d107e4604a557b0af6199820, 0x19764fe0a520e0b9af35593aae3542632e98a8cc25e27012c572452ccfe8441827f5f74c948afeea7840860a75edc1a9⟩),
  (false, ⟨0xe01f8fd637bc98d7420084bb96541367d75cbf3135011a50ca174cc82b0d25a36bf4892ca2cfe50cb76c2f3543c32a4, 0x29debb8ca94bfb5fc5943378df51350b4a959479716e5162b266d4d9eff482f165fa0f114c0adeb0a3512a26d84117e⟩),
  (false, ⟨0x814d0ef665ba28a74fe158f78e5016d450310834f8b8e1481769cccfa611842e00f659d3be113827a26edeca54133d6, 0x6e4d83a6ec5ac03dd2589a6a77c6c683bdcc17054b5ff6d3d6e20e5b0cc4494cd13a1effaa436b87ad5376d3440c7f6⟩),
  (true, ⟨0xcf03ef9611bbf1a072f6ab3e346e56f1bcdd0811e24e610e07bb3b39bddfc461b454189f10e235a79c943ab052cc8f1, 0x198fa5dfbfa0bf7b9b88456faf8009abb7aa56c98d0c9ba6b09586e95323880ab2e63b68ac7cd0bedb6b909d86e7b12c⟩),
  (false, ⟨0xaa4a7ab836f73093b5a207bb894d7fcceb84cd6963d9fbfb5625b65cb13357ccfba71f5706e8973c344e3abedde2135, 0x883e139a49d34a162b67281612fa2937e444c42742c586f3a915cb05ea7abedcf537b22a4bbf8cf5fbea5dd1832240d⟩),
  (false, ⟨0x1304907e540efb31b16e5dc34c84cf5630ac825ef7617f7525adb7681286c4696a94d63e529e27621077dc82cbe0853f, 0x4a45dc11feb9971ef04f507e6ed72d0cb4a0d996f038d3af7dacabbe1e0cd7e8047cf785bac1545eb87b4b8c3e334ed⟩),
  (false, ⟨0x1577f05eef30abc1bd033bb9f0e2a315c29c529c6546da6bc20133654c5ebd97160415cccbbfba45a556c96a1392bea3, 0xb12b3c33b2aa4eb8a6648d43650364ddd170985d2c4e88d6a4b96ac5351b1da7b81e3f0551d34aa8ff9b484ef84598d⟩),
  (false, ⟨0xaaa8514045cbe626d35f5c07a09f8101be9a4ea489bf1f21171f1c41131026488cba5ad23291d1dafe98cddf11b2d79, 0x19edaf7c03e41404a689e3783daacadde15320a0c36a9f572d1e14dc80d26b0c84be55da224992ff7a66d98c55a4ade7⟩),
  (false, ⟨0x56809505de19d02c530466ead83930860d17a9c24791095b9cc841ddbf3b3fccdadaedb55385e2e3f9715f0f4618de2, 0x166f9a8e1e47161c081fc15f11d9d154660b57523dfc5e38e9c27e7206e69e564461f552606076adbce3b5d4f4512bea⟩),
  (false, ⟨0xa415012389a9e0a105315d6b3a94e6833778b149e66a6252f815bf35db8273e7f0fdc3c26fa65a6216482ac355431da, 0x2823310833d332579ab044552b94838992db61ee8a7d726a6540327b58e6825317b9f1d34dd411fbd18e9ebbc0234a7⟩),
  (false, ⟨0x15bbbf8cba9b0a28cf89c9d6110f03f34454d059a3e99d93be9dd1346345af41a818584252a97909d2c290cf7c0e2350, 0x148ee4dfcdf8bd63bdc6759cbdc15ce4b0b23efdeebcace5789b3d3e04671dbe490c58039a0ce5c6943807fb062226e0⟩),
  (false, ⟨0xa6765f8b0f455d51d2c90fb0b481dbc2d281b3916170f760bc7a73888d4e633aeabc8d670b5f2d8ad378245da4fa063, 0x38766955f22d233bb912f2dd96defe5e2eb4c633295330f1df85ad289e0a89caa9590b6748e41b779d373620b484cb5⟩),
  (false, ⟨0x39e0972a740b9714ec7e5d7a7b84288b23a477c63ddaae457b1a1ee803daf32209bbdd24220643e1047b32c8789aa47, 0xa7f2345928cedb1a043628269436b3b490ee0e74ab9befbaf7cf9a20286c09214f2e8dad7e84b65a4aec448eed3961e⟩),
  (false, ⟨0x7c1a03d214d2ed986a2699d5f086d4150fd93067f04d580d2c43fb3ab08038de19169d0f7b3a660e2d80cfd147c5394, 0x1824604ead4a61740b2174c51bafa741b7b187fe6390f0046a6954802f6c70bf9c9d2bee5abbe15ec1a03971c4112a59⟩),
  (false, ⟨0xc367ffbee57ff337374fe14f781b0e816992626412df5015cb7f9639ece65a1185e129252e4a5649869ffe18105417d, 0xa0249eba0cfec1847109ef36424f7149a3cd5718604b7f0ad4a515509881d426abbe5cca7c8894adf042e97fc4692a9⟩),
  (false, ⟨0x512f0d9ac13f5bfc6ee02065653d570202c3c85403abf310bf3aed6ca7adff254a2d9d1230f72066ebac6491fdbd9f7, 0x154c6aea6f1223182ba98be448d62420ab4cbcee74b36618595c1624014b4d790783103480eb5d8c5779632d871806c5⟩),
  (false, ⟨0x93b9ba8b9ef47ed91acf461d7e8d584e62bdc4fea3900d80880ec4e554a791688cefa3b83eb137e549d43cb84b7f168, 0xc368bcc4400bf912e418b381ccae761eec3e917b0dd4e4875dced673da6ba142ee5b610e3bc4a785fdd0be948e4cf74⟩),
  (false, ⟨0x160b41620b5cd0e2f2af72cbbb65b8a88091a3309f747bae67dd247635991894f9db2003d75af011d34fb51ec57af889, 0xcb2965c35b8286ea5d94f8bce02fcd83ee10e30330848ce342315a6511a1d1d278a981398bf1b8022850dfa7a526ab9⟩),
  (false, ⟨0x50d056d29617bfa924148e0aefb4fed9c24682628de067b3ffe9500d87f79a032351d268ce8011ff8fe8d415d788481, 0x1644be02e88c72ddf02e70a2a360ba941d8a44c995fa923f8c941cff525f70e7fff18838aa350b5b9fe19465832f94d7⟩),
  (false, ⟨0x12b8a6054538225636c242ab53a1254c66345a83185182a58306378d52535d8086c86f142304c08f6e272c82c0856515, 0x14aea8f24b75e8a7efc383d2b33b090fa8a60d4c94247e3a1a49c7175ad210df7f3a1ed92a6448f02ba54456e5075bef⟩),
  (true, ⟨0x8672903efdd5466495c41ff0fad19c869a3b899243f6f2ee45ee1dff6930e95f8f86d8c8c6d4bcabdc0d68ab86bf6db, 0x2b11468177fb5da97ee2618914c3162fde3e5d1c7386f52f9acc949c011861898a6b9a672d1a3a58aa6a391f917c690⟩),
  (false, ⟨0x196bc962302156b817e7623ac14990d9a61353f9b9a81ed971212aff361efdca09109ee6050602208007b4d9927c2366, 0xac9b362cfdb850376c7d24dfb795018c4424ea32be63fa4e938e1319c63c5ee920d8d4eebad04e90d710be0bb7edce9⟩),
  (false, ⟨0xcd1675eee0582faa93e7ac87cccc0e0ad4a54480359493e6c322025f56dc41be8c3ed25f57b5cf7278da7e407257969, 0x140edd2f3cd1a2210ec8509068c4fb28d5e4986e6641143e58f876936d1c6f0dee7f5a637b14b4919732251e18834bc5⟩),
  (false, ⟨0xa591349e7d51eb3014a869037cd1570673f1e67735e0e814022a7cf77a025df2530109b39adab7a1159e317034c5eac, 0x198e291582abcbbdfd59dc7cb0c7b2e69b80449a1c448bd554ac4ac7da1eb472ac44d79b2a6b51657671a18979e3e2dd⟩),
  (false, ⟨0xda65b1e625f9f5a489418e83514ebf1bbc5eac57b77deba1ef0c65dbd671b665e3d2ecf5eba32529d437bbe8633a9f2, 0x13ab43cb51af472bbe53816ccc376ccb5d38003bc773f6d753c1ac6923350195f77318bdc291290380823f1b6e714857⟩),
  (false, ⟨0x16ca7d7c6bfaebd7ab8e74d09772eaed4f7cdab2d02fa7ff0a19ec5130b42e4d94bf78203d32c778901de5df8b71f4b5, 0x6d606468d9a5c76073b0381a941907134cf5e5dccf3d48ac9d010262d0461372b6c762b4f13662f0b1d0f590e8ef768⟩),
  (false, ⟨0x81db760ce1344cf83083b45e6692f2ff2ce293817f727d4c8337fa912eba64681b28855083292944ea3ccca18f8db7f, 0x44101216eefbf0c691ca12b3ae1dbae6feeb21e1524028d1f55d9b01c923bb5e749f1de6fe142f23a8d6875dcd3b46d⟩),
  (false, ⟨0x23e163d73c2b2f88cd8567da5ac4de010e0edb9f39afd31a6325582a94a122f57573e471931ccde435f45de477a4a9f, 0x1447f61089e87712ffec44127f0f1014c9e8479ee18aabcc816e61e36fa158a6e1b827cf8f3f691e4540763aaa8e10db⟩),
  (false, ⟨0x44a26dcf2383264e0520f17a735da0d1b9dbb777cb78c69019270ef28735676895a45a107d58f6434a87b3132fb5e22, 0xe27f37ac991d205bb2791a5ee3050cd824d71b4b14d9a4450be624d3e31904ec067ef731fb53327bae67d8c1b4c93ad⟩),
  (false, ⟨0x15bc2b09bdd2c4ddeae47f147a2b8e1ddd5f2e7ec052a68a33e937ec91a3c5e808c1c5b6834ea5fff9bd0c5ffdb1bee9, 0x16ee67f2d2150e94ba1ebff007bd1d459bcc19cb056c05d2745a68e3ffdf20349c0ede3b3df1b2e5befd2e58a300fe4a⟩),
  (false, ⟨0x39b2484f37db679e3c2de1690297c89bf7e889e79e2dbb5f98ec70bb02e1de89237f643c2237a7f2dbe19bf81106062, 0x767e1cf229e38a19f86501ca3c8dba89475397b5a60da3428d920ea663192990771e496a0b3048c9e80ad92a4d026b1⟩),
  (false, ⟨0x63d2c79cce475f22dac9d8bbb7994779d14bc11084c00d5b0920405a79c6a74c3f9478162adeb0ef068f46b911bd98d, 0xe0db01ce49d5af0403bca640104180661f72809e258630b1ea760f29661897c7593bf5f0821f75d99775b3ce0bd5ba8⟩),
  (false, ⟨0x10055e313c9631477f84cd767bcc6fb2eead2be58577adb16854d1a493cf4e986ac910b7d69f87019012f79bef509a59, 0x8ce3afe82438a6cca50fa389bb0f216e446a7b674d06c9e2bb58b731ba8f8b45662d317c874a17ee76ba783bdfb5c8e⟩),
  (false, ⟨0xf2f2abe4cdcbd16f435faf5eb5450c5df4b535ca3c3da3fd881abf393fb1ce267c15c25f70c1049a4a758224f6078c, 0x12e2807fc5c05f54d51a96a0ce298b686abb7a0e09e2b74db828d1ca14b2f13c81f2f9f74540299fe6540aee32d5f061⟩),
  (false, ⟨0x152492c7ed5c3779dad12f3e5988591834b25509276f64f2eb29684450787a12e28ac4b2c4db4ceaf2bbb102aaf2f419, 0x77a5d94063aa1fd5a7aec6b3443717b356a82187dda7c3baf3caaf9cfe4f44e9a3c7cc8ae3bcdb571b74d985e13f4ff⟩),
  (false, ⟨0x157033a2728368fe31785b21f0792f6a000d7e58421926e41337a90f3f9201013c31445ae99ad017005d6e34a3b1b069, 0x6f4159853a847e511302d8f158791462b746b85092e21b662168a3a979d4ccb524ec3faf46ced885b28afdd638ca186⟩),
  (false, ⟨0x15bd80f666e1b0065a33d4e8a20fb0b32ca0c0571421b61444f435e8e917fb9a7c357898cf53236d458be52f8946ac3e, 0x1265f10d9bfeb77396061171299a557a15a328bab29f533f33e33accfd2be8e9e0b562df529ebb47ae18e20731a11a3a⟩)]
def bS2 : List (Bool × N2) := [(false, ⟨0x3f1ad541ada0c63c4168035af734bfd0b1ba415f9b01d2ef24f6db541353f2411e0d6c94504d2c410658d1749775beb, 0x19b2902a177988d81e7d354e760ee6896c57dc6ee1040bb1665a24da2450a87dc7e480adfcbcac07ee1ef1e3b3ce0e41⟩),
  (true, ⟨0x18451a5693b7cf175a4a5b9ef8d10a87824f10f448b1550e091b8ea92c7712e4cd993cd4a95a89b9ba687021d9d9f97e, 0x18d5fc7419bc27e9345b4b22bfb274a1114f8e2475fe87ed757b704371477d3bb882777a15a2b586a8411abe63fe170e⟩),
  (false, ⟨0x14db5021cda03adef354f728053c4e0ed78ad015a5255b878135100bd4f9cddaa653df1ddc35a864bb7f723bbb4a07fe, 0x87dee793bd124e6bc99f5582bc8613b9f57803f80b6b937e8c2feb439c588932781db38e3e71ae6b68857f097bdad⟩),
  (false, ⟨0x14e90f462b6b43c35a2420935a279b73d4a97343f9b9f3dfdf53e35e41b38474496574006b364057fd466c1dbbb2dcd3, 0x5688190264cf426db7bb1e2f23cffd21323c7d5ef5b81e4aca42bfcd7856178dbddbcf5c51ff4cbda87544a08406045⟩),
  (true, ⟨0x13df469b6ace8fab01875ef23c5dfe8ae2cde7dc003fc2fc6502dc2d57192c0ff9267ee7392cf35400ff069e753cf2d2, 0x6ae6c6d604890d01532cccd68804d9993943609d895601d822e41176497f0a54f51395d6969ce7c31e5a6e222f89fbf⟩),
  (false, ⟨0x14c8a68bed01119228102a74ab5ed0fb19ba0f881a36d001ea611f36a293c5c5de7b6f3232992e9f38d9ea4bb678bc14, 0x1921bf03fd8bce9493294562024c68d1b8235346b85dcb796042f2bdf51af23d3d8d050de2ff32a55a2494442829b016⟩),
  (false, ⟨0x149630111850319eea119b199568a856f41da61856173356edb2d802ffb4cecca580dd902fba97b1aec95c0a1895e68c, 0xdaaf5ef8481eef2da38d30a03ba4b09699eda9b4ddf8448cc9b7b0ea708d7b3c20891cb215e5481780abd9b57190de5⟩),
  (false, ⟨0x1069bef0ffcf4002f103e6e3fdecdff05b4801fac325900ae1b2c3f4c16dc3de437770c361196f66c5e1a37d91fd4afc, 0x1781a232b37ffe9711c8a6c23e6ba7902334487deedd68799215c0a4635c5d1c6939f6d501669be73386a85b414d9548⟩),
  (true, ⟨0x11df1d5003ec129e95029a0221e438df43425a4b68307c48d4dac33fc8d1a680b620580f13df7bdfe4bc4c9cebe881ae, 0xb85d4e32b551eb680ba69c6364038db0f929a1125c705c054d6c7728e5300069e83847fd61a6529970660520eb7f4b2⟩),
  (false, ⟨0xc54cfce2ab97821f19fa15d9fb5a685941089b4a69407ae1ccb6a3be924978d0f999f29628784052c571866bfb435d2, 0x14331be3cf48a416f92e4fa4fbbce5e55bb8d73cd44611fd89b9554794c51bf7c934835ca3e5aa3ac809a26a91664165⟩),
  (false, ⟨0x11632a8b2cb05f9d547f1be962a10a01d8e3cb4808dfcf8325cf8cd8df0df8b36c9819284fedea58076dba38f173d919, 0x12a7254c5427e959917b27f16ceebf4d541a78cf74665e4cc91aeb1bdd5e8fb0e654033f5ab4b687257ce81589659984⟩),
  (false, ⟨0x11941f177c84e0d90f7c4e0e250cc882fdf9f91ce9590df2f8ca2dea7334075af9e2954b95a4ff907159d7c035fd6be8, 0x19a2c23b8dfe6f0053f92f9cf9248740f893b5900e775e3c674aa8dbfb74e744756f04b78197f1f4c814029268ac153f⟩),
  (false, ⟨0x165944c109e22b47b0dc4e67989bd51bc1b326afb32c0a63649d511a244ab9ce35dfb39324747e81f8ec7b11132368a3, 0x193ecfc84004641128c2628469fcc9fe1bb592dc45f36b4ff84fd270efdcdf3cda54869fc86f8dba1f364d1ed9628b9c⟩),
  (false, ⟨0x71767d738cd38ae63b6bea724b61cd7556cb5e9e5827790e920628034e96c27d18e4b6f68f93868fe3d4c714805f57f, 0x3be12b5d006838fc685c6b2c5d59fdcb23ac5e64f48d109a86dd4886622e4f6664a2554db44bb3266583927f64276ae⟩),
  (false, ⟨0x123662ed8f3bb31ec79297343b30bd390276952bdc92c4a2a8872c20d09c719a4a14b008b7a15bc587c4042535eb4bf6, 0x5409c49951dae08250587db73704ee6a512a20b2141dcfb3aa18014329ce00d8c13fc4d912056a7bd078f3986747ed2⟩),
  (false, ⟨0x17f9df810aa03599db828ddca1c33fddce465973aefdbf5c218c500097a1291432923dcaa8e9e09713feb3d92c3782b5, 0xc7488867c3fd088408044428e727cab860cfc750865f43080dd2f5ab8b3a0a3b9bd626f19e311e6a834bb58bda3384c⟩),
  (false, ⟨0xbb5a1d3917c4df747927922b527715b42959556888765c7742cb407e819fcaa33de3494eb3e2da55a95cf262c2c23b2, 0x14963417f2312746d58080a3460002ad8cab7d34fc586a2b3e9153f81222dea4d656dd95034550f79e0cae150a8e1e43⟩),
  (false, ⟨0x10d929bbff4b23d5a5611d1dc82e62524c574d5127343c527677f5d36f8e5add380d0aa8213b65a09f8ade2459cd4318, 0x159c5f40d2c5e05a8d0c43f4cc2f29ebcf9f640d12d8a06c123c9c1c6c5991038ef8b966bb2564c19483f0ac923eea71⟩),
  (true, ⟨0xb26c8b83697d62d8fd14edd5406cb7dfa89f4908a6f2600a3764f5f929e37d2af660c89966607f86f99030946acc144, 0x15ee03248f35931cc368915446a2d2542994e6cd89d5ba10717652224e510d0b2ffa7278bfeb99d4dab4f26dd9387e5⟩),
  (false, ⟨0x15b5ddefa8a6ee78934727a7832072789cc4a838982e46c9e0f5928f100c390d48889e85016ca8fcd4408666c765ebeb, 0x9fbb0192e5606d9486ed41d4c20510369780a63bb1baae97e04029b06191a5e93b74635c84953026c5d919600321fad⟩),
  (false, ⟨0x52cca840301cb65741ed08da8b93e5c51ca1d85ebc19bb0c8345d30c83451ef1a4897c934a1c38cb88ec78fd6976af4, 0x16e266461010e051e0a81b5cca9296408af6511a472d1d669bf507548ade157d6a771bbf93dfe30e92f1dd935d9790eb⟩),
  (false, ⟨0xa394c9a1b758cfc70722bd4f7929b9a504c52fcd26a31124df5af9cb080a8397cd4984d674dd79b3f05bed1c18c8a18, 0x73447b6cdcb0b2154b5a1f9eac7f8b8f31ba8d32880bc1635d49b8d321800b01fc5c6a072a5a2c68685ac2fd5504509⟩),
  (false, ⟨0x3d623cf96541b481793af1b10be8b7b58f2c5712cc8d92ba364d2fcfd4cee7097b0c14c0ba59988af5ca706fe14c516, 0x15f7258f381420bb1aa020610671a8817f6259fe422784604defe3d3a08758bd1c551a8ec8aa9967a0ad02e3beb4e43c⟩),
  (false, ⟨0x18ef078a04096e140cdc8b7b85b44aef1ed7a119f99524c5e444bce73c4c46ee188b2d62dd5ae7fb91025049193937e2, 0x15403cc2900c4d95593c8ff5d68a50270c52d7d5e30fbf8bc68082b6d487ee538cf251e16072385250ea9030c875f9c0⟩),
  (false, ⟨0x1603d3caa54474ebb2db0b816e8125288d2146460342a3afe1835ddf7d7d036455b0ce1205af36645d1b0e805f77ba8e, 0x1ae4dd89ed3f74dd7c7cd69f973383f15bf119317bfb3b07e09b72184a122b54e99855f9f3d84210caa088e1c1d2da9⟩),
  (false, ⟨0x115d175372f17cc55a2ac15c2dfe5fbc68b7166f257523c9f5b308cd71d60a54e27663caf7ca8f34771121b9d0441011, 0x816cd5be8e0a1ad99c81814993730d62e90a7b672d4f307fc1368303b7383ba7b2e21eac0e74c9e48bb0584eb8bfff3⟩),
  (false, ⟨0x1df2a780f5fb0210eb21e770f2bed0ec3bbd3d92dbd73f3dafdc08599a12d70f17f3502f541e159fb1f1f9beb0ebc3b, 0x1fb3267dc59a9a89e3e77c25fede99f0baa123a40a7d61914493e01178d1559d2772183a15008e5565543ed1e4c524a⟩),
  (false, ⟨0x168fe8321386a3c4a1d599853ad6d957a267ee426601d6faa4abaf8e810f83c99235fd366047037c30697331fb6c8f97, 0x17a91fa53b31949051e7cbe40f718ccb2d8b87bf1c22c6ae7812505031e7b797b9afcc5846a99c271e4f04ae21f98a79⟩),
  (false, ⟨0x2b0e1cdec787b2d068a34716581dd416db6b99307bc6c2edd76dd8e532fb87d7d9ca7d79cd3a0138b54402a59aa993d, 0x1402965171898581d214226c5757d70a5d9a46fcfbff278eef067c784332eeca91940f74e80062c7af36954c643b1956⟩),
  (false, ⟨0x8320045a1c31c6c3e390b2171c922955fd9b823125a9407ead489662c58b5a91bb7795745a9b5e39ab27ab8caaa6476, 0x458a46d05bb59be9a120312029e226d33f64988bdbf369d99edc75c58e7ebade435766023fc3caf59c4da082c2ac9⟩),
  (false, ⟨0x6de46ba77facadb7475afdbf9fc5d54790bc17ab43408c01382e8e7b4615817a67cb1770a6bc7f05960aac05318df99, 0x157cf69feb339a85adb4e4f16e03e515d5a257743fc8eb409c898bcd6c69024d31d2da6625db0fd9250c7ef4f5fb184⟩),
  (false, ⟨0xb8981e40fbfc6ef54097845d40a938a834cc0c0c20c448a95069274c244eb998861ca8e8e02dc5e212c12436cca3050, 0xc558b414215394a8d3f7febb16ce08ea909addbc4a93ba869c4d508dd1c6ada50773f75910715a285723f41bbd21312⟩),
  (false, ⟨0x191b9f57d464aa476b6079d1297180da011f6d0b8cfae49f601087cab07546b74b6c208c66b4d103a504545dd9d3602, 0x14688df279976f6acebc38d040d80647507ed1b87547cd018c77bdc6fdb8ee82662a8bd8f0aaef89d9c80ce2a2856040⟩),
  (false, ⟨0xf12d476c729e4f42eb1151dfb83d9240586a2d2cea13561e329d952363bb57071531d77d63789717ba16ec49dc36d75, 0xda813026440cfadc8b4ed8bc8bd8e7e51f38c71a483738a4e830a25150b696c6c0a1a88d7c6d0c012379adafb631205⟩),
  (false, ⟨0x188d742d3b10a75398764bf8b71323f1528eb84cc79debd26d363c3aadf7a13a9bdd5db7161b2c3cfc7c0150025557bc, 0x4dbac053ecb6cc5ea254065ef490b34cdeaa42a2461f624c9aa07531df8912796f0b004be3c7827be5c54b1d3dfe3eb⟩),
  (false, ⟨0x8173dec3e37c5988004a965ce9231b1a1be587912234d2b6ff4a764a11089201a7ce6f623b5e2f196639500048234e3, 0x131d001265c3734ed12a93c99c18d13035fd469fd135b12950db4a27ae5fe8fe37e7ea671290d850591a66c60b6fc53a⟩),
  (false, ⟨0x589b6c1f35f8b96260a8744ec91404624cb62e69a1c71637bd5912e19b86f7905cae623700b52e36de1cc5449bd2cca, 0xfbc0fb249e3000637618916b8c453da3780f4a8b4c6af1cda5d581c3089f62da9e8c54b6793ea5a57be0317a0e87172⟩),
  (false, ⟨0x112b42deba8a98788d89c5df7fd9af14ab7747825cf0d499d1a308dd9ffd11a9fc49b09f67e57012a59bac10678c19c2, 0x14a018d9a114ff39639a8de3e808aed77a5ad8bfa4bb1d1193d77d2f62945f6a7f354ea1d3b91e35f0942e8348f611c7⟩),
  (false, ⟨0xa63b7c591803ce6e2fc0bebea47f52c08970e475dd5662913d5cb6062f9e37ead6f26d85bf39aa2bb0f384873fe4f56, 0x111b44097165f09a1c9a41c82f6726addbbcbd28b145914a26f8b28a7e13e5afdda758ed47cb62b2cd9227eeb44f2ddc⟩),
  (false, ⟨0x345c38fd222b59b9cb845a8dd9b887519a17c4c128a02a800317c682c740f19b0db24a1916bbf13172078234071708d, 0x549e6481151deb0cf4210839d76c50301d51fc9b037f8b484d16ac8784df1c925d20ea99275a788ac8493d6d1abcda4⟩),
  (false, ⟨0x1334c428894c7601e46d57bd334bccbf7e589e6581e45d4e49d1dc0a5cbec347cdf6f3aad52dc7405bbf17e8cba7843f, 0xe4d46e172b4fbf9f021d92db1f1a8861d7b726d42b76c74a2cdfa7a1abce6ebb9405a7505cbe925be6e6ef78241e60d⟩),
  (false, ⟨0xce96d2e1b30c0a02495ede51cf0b665a57358e75bf0cc6f441b09745690efd0a0c98ccb89892b39b706aca6b9eb7492, 0x3b3fdc14213b00311f8a27d4caf322a2dd42df36f6e66d879e394d8dc3bf91fb55241996ee3ee9110b76aa8291bc4c3⟩),
  (false, ⟨0x728afef3710c44b597845f38e1b786c8614fe7b426a8feb8da21579bf7cbacc8912f1cb04709f26339f706e6aefa7a0, 0x943a71c48aeeba6f812c1883ce0b8677c7ba48f6af569717eeab0ca0034739a7a2bd9551c85197d60460671c4dbd733⟩),
  (false, ⟨0xf1dd7072f4ae75529c6b9a22eb8a1e09717e37aaf73764357bf0974946c18ece484076fddaeb83c00c721ebb8bdfe6a, 0x83e9a3cd1a45519ad34f10b84aa2a64cb42a856ee9f8b71ad165afefbcfdb09e549d952f6f1563dccc717ff459683fb⟩),
  (false, ⟨0xfc4b4d7377318c7f1a4a1c9627456c4292cd789e8e266eeebb5b0ddd4085b9f9c5470979ac7323d8760f38625bc39cf, 0x113c500cea19fcf2d55222d111ac39a6e3e39a7dfd7b3b69776502c07087782f3ff590656aff0a76ff3d24007bc760f4⟩),
  (false, ⟨0x12ef0260387bfbda9a04b0cfbbfbab0810752cf68d70fe29cb55e976e9f24a79943d4e43ef5363e583f83d914b1b810, 0x6ebab999c5c714349bb52201db7d6cd5a908680e9d5482ece18ccbdb7a9a7dfc768877a67d08f43fb8b1f62e31f3c28⟩),
  (false, ⟨0xbbc394c7f855526f98348a0ce839b8c8a2131a95fa031bc246865e01bacd1a03d439eb38c2b94aecf001b2e2d21f175, 0x14f23b449e9107b95e1cc0a5b2d455a8cd27708a3bf7740825c2550cba717f022529e02be38b51dc0447f0e1d4268f7d⟩),
  (false, ⟨0xb7a0607340f3b4a4ddda0d40cac496c80ce5673b0b1891106f1b72224b6194481026b8a151d06620697cf3303550b54, 0xb1e9bd001b730c3e470b29e951d0d8c3b999e386e4726e2f8a28403f4c6f2300e66e07598fc596e7a38ac528f8bd313⟩),
  (false, ⟨0x11749abaa06664485cbc5dc3b28a7baae27004bd2231e276b374b69b80101da14ce10dddb2831118e499636241539f1a, 0xc5bd1bd6cffbdf5af2515f813d05d3232f0fab672485cf152f3c18e4c22a45507f27f63d4a9c001b9deaaac5d814ccb⟩),
  (false, ⟨0x139622284688c0d8562d76871a688b8dfbd02b0631a52729ca639f049a021dbc7fd1933b2dd2e43c2a2d78423ef17f7d, 0x163d1bc689598775f5b1f7225f6118937441e404ccbfaeff1199ca34fa64f75ff9afdfcb559415aabd0f9e5932fc6796⟩),
  (false, ⟨0x1088af390a26480b1974c4a879751c29bb0dee935019eebe0058a2438f3292423fdf26ebcbcf641acae07e7e65d81502, 0xe5d00f51c4e014d72b685e15c3ecfbadfdc9efa18054e05084e92d6b4aab74e73cc1a54db780619ea0d225bf5234cbd⟩),
  (true, ⟨0x1192765e069f1eba4b34843be357fa054f847ee8ab71a0075687bf1aceb962038cfcc4dac644ff0a47dfe0e4285d4988, 0x10d1c596cb291e8ecfb684d67ac548b265b0208a98fe2e7a3c2aa0c0d04ee6658fc7c373cfce999c5ffa84307fc8b0d1⟩),
  (false, ⟨0x181bdc8643bb27ae44f7693f253f75eb84c1f8817a8bcf01dfb42f7af63415d8634abae26ecf71a9a56960f72ecaaec9, 0x18c371064a851953e19f004c6636bd06f2f207e37c50aa20ce0b19bf13bf5257e66e11f199a0e986c4a7a009cb01081a⟩),
  (false, ⟨0xa20f379e89bdca0affb2d5245996fc2660efeb6e34a2ecc7820389b14676760dac3c9825cc776f7db659008f9cd7ee5, 0x19f315ea01f0c376ca39b7fc5d9e275904d7f652e8f7252c14d4084b51f30d6c87ab218fcae21eeb89c0566236321f40⟩),
  (false, ⟨0x193c87036d71459d79574debbbf193d518ae2d3ba19aac433ec917959303f8947971149e221a8a0027005290f28b26ca, 0x8eddb5f0ede72a4231faa5ee0e31ba8de5f2ecf1e35c612bcad28f7c8e26ce4aa9b654ed7816cc77c050aed163e6e3f⟩),
  (false, ⟨0x13cb33b73dc0f326bef600815ca6e848d7b6f37ab5bc7855c513d642341781084394b2d85b02aeecc1f94b585d3e8191, 0x197940248b8503d953960cb9e16d97c1ccef815bd78e6837d4568adc7c9e48ed0f83b22b9119c29ee153bed63d965d79⟩),
  (false, ⟨0x857d3e2b4aed870b76946b85ce8543931dc9732215e97d3ed779abaea4607d3ba016b864224d40677931cceddb04b1a, 0x19d2147b041bd3a48b265204095c1195c7db4ed15f5c9a9384e25c15ab459b8e7255d636f0b3ca5c41030a27bd0bf9d6⟩),
  (false, ⟨0xcf973562708bbf8794b3c6c340617d3a6837ddf7b8a35367303c1e9e9461ba575fc593433eae473115382154a941aef, 0x84a320e3a7c1f0a9f88f1443e3546e602b8d29eb6daab77ac3b02ec497b18fb92812ba201940ac73f79ec53430ec0af⟩),
  (false, ⟨0x23638e755f03cc791f2f9aff51f3aac47aa9709c7c533fe2b6c6afa4a0e807e3e5931139d94aa0dcb690e916b72e51c, 0xac52859a6cffb086dcee88755328709c4f963a48fcfbc98bb0bfe7beb2f3fb1825aa190a488389b70b03bab84d4e7d2⟩),
  (false, ⟨0x16344547afa38b7e8b1453ce5b5981876187d4d53e97949ca8ebbddac7c8add36de9cd8805565c039f8b12a20a3a3f8, 0x17be34223d56d33b041e356296d994a378850f7414696d3fb839b4d6fc135f63675b5d9c1a2185412ea819ee8aefbb58⟩),
  (false, ⟨0x61b84d91f29a80ae6381255e20bc6c908cff218aafa0cdd8c85d428a67d184f91ff12fbe957712a3ae7d971774e883f, 0x10319a7ef46be173c14844bd399527689ee0fdc23d67139aee89bb261b0350af4edf59e3d8051f5d49173682ceb82bae⟩),
  (false, ⟨0x71fbe44ccf7553818a5cb501b04607da271a69c0eb4a60746110221dea376c3be4dfd93ce7f82f1f334a28a138b11d4, 0x5b63e556f829baa8ffc752c8cae8e120a1f93d2eb99e34fc527b40dabe688e9cae5d625e0b42ffc016d1600f98d97f6⟩),
  (false, ⟨0x1f4aee410fa50fd52183aed87fd50eb58d5a03ee33891bfa3dc97b84baaa9128de267d6776a61aa992564deda4e5fcd, 0x3f5e45e50e9246553c80d94e703f57f6bee14883927f4ca73e24cd7493d4d9ae7bd4de5c0b2592bb5cbd13318765919⟩),
  (false, ⟨0x195be770cf7860cdfc1b10d46cf5623bfa2825ecb99dd9715478beb19efd99f0e7713657f6c7ef900b044cccbc011902, 0x853d766ca1b695bc72644b6dc7072ce65fc763da935f27b24e5303c58f2800e7f0265b9a8a06ad1f7dbf2e7c3c3b841⟩),
  (false, ⟨0x3fa2e0e596d59c98d0495bc487fdd24eebd94b2c67f82fd60018c0a1951929f8276ddc1e08cf886f33ef8597f9364f1, 0x15d7a53c30df3884603d8e5c9704981c14b0e7278575629c93e0dcac9208aca3a4fa69dd881c529e273b362b5d83bcdd⟩),
  (false, ⟨0x1189fdaf2266789952738a3d66ebfacd80aafe61fa1696b8080805b4c39fd9f06293eea206edecde1134e3e57be44678, 0x19ec5832806b7d8fc2a28427d6a4c961a9e937132a16d854ca1944555fe14834888a26e7d34c7cdf8251b2a45d87321e⟩),
  (false, ⟨0x1421c730c0edef481652d14a78f9d2a1faa3e45934cb0bf9af7be2887dc5f26a8f5b03171265ee1f81b251663ba15f6b, 0xd37138f484c01d1fbb79fc7ad49d8df1d86c290d6d3b68227cdf4c15bcd1fef8f7dfdd75e284ec429820856b226fc2a⟩),
  (false, ⟨0x8d748eaed2ddad0efe027ce3b6d153738bd1e7b6b529e6c85dd970c91e71fdfab455ee20cca4b0285e7e6ab6c663e25, 0x15c3fcee008883785d0cb7d5560881dc9e6794f9667c1766583ec5d20d80d3e3994a04f750236c687be3128ff98bd9d7⟩),
  (true, ⟨0x19388fd37b6fbbd29cabf999aa07c52c6f623dfc89b586d336414a3e2098d8c7d6904c5727f5f0eebbc76436d20ffcf7, 0x18eb3b430480a3cc7c1532f47c89a278a95649740e5056d0d2f86079545f5b3fbee967ebeadb7ec5bdb6305e48937d68⟩)]

def cP : N2 × N2 := (⟨0x2, 0x0⟩, ⟨0x18c6b864ae17dc9da64203ffefb966306425a7bc6aeb7c75247438372716284a4173830420cd476ba1a365b95bfcec38, 0x172e93db764a8400a7d5071b6b6f5de0da2f0f4a063119abca014006b7c40a2cfe291a1924e65db0d6d0fcfbf3bf3d5c⟩)
def cA : N2 × N2 := (⟨0xb6dcef54899e5e13c8607df40e0b20b77f83da0bfb2ab046728c94a9c9fbbbf03ee8b0cb16bac315d6db177b3abcfa, 0x1546a657ba69851d7247238846a89a2b0cc84cb1d407f852913cdd1f206c2f0a7e3c06034ced3bb6313dd4b44bb5bbfc⟩, ⟨0xb55f59d4aeb52902ff8b7daacb8ec9c7b7e0905f27cd40bffe898c388417e46e07083da2bae9158c98900f5aeaca8bd, 0x7381bdcb433d2c44c73f42305026181e1174c95d8528a3fbe575f4effe4e82caa7899839486703de2a0a0d5deb9959a⟩)
def cB : N2 × N2 := (⟨0x6d88b54f47660fa5219d61f934ff4b79cb82e33fb431e8f22eb0c3a9afaa0c011cb26205c89b17db582e818fdb74757, 0x10a10532098d651fd78a672cbcb0dc71a84ef6f7c870321fd156c0b82a5154111fb4eafdc6cf9ffeb835c6a54936668b⟩, ⟨0x24336d94404690d689ddbd1cf2d666e63683dea432dfd506cbe254fdea1e1f7c9a5c9686b5da8f566da54c295ef22cf, 0x6de89ffaa55c64cd8ab5fd88e661455d255cc8ebe731da81ac67b99ff963324deab406923769bcbbd7a8830bb05e83a⟩)
def cC : N2 × N2 := (⟨0x9f7c1c5970022fbe18959ba1c7c5a0c1a110b9c4b50aac528d2957d53d2b29b19347ca9c0ffe4e20cddcf6534ca61be, 0x33a214e8f778b8d149ae171501fba2c3972442de9258496b69cdbd1a9b19a3a7b27b71b61976de2980219d10bece626⟩, ⟨0x10aab63fb9592ffa44e5b0616dfedd32d224ced837b3a7bbee48c582af9aa75300ccac38e0982367c209bea4721b2106, 0x15ce9854d7e62649b2bb9b0619a0cb55db86c8ce0addeb089a15d7230ff3804903a5b2b91ad599ad8f71954b6b055a85⟩)
def cD : N2 × N2 := (⟨0x0, 0x1a0111ea397fe6998ce8d956845e1033efa3bf761f6622e9abc9802928bfc912627c4fd7ed3ffffb5dfb00000001aaaf⟩, ⟨0x4afa896413969fdcd0edb32a6db819de42bc146c8b679f8e1b896207c9e1c2dfa23fc41ccb59d0438f31c060a74350d, 0x137231c86b8b2a00f839a8be65b3d3d42b291e8a91c63ad7cede1f91d429c33cc61edc4421b893241d7d4540e0332270⟩)
def cE : N2 × N2 := (⟨0x1a0111ea397fe6998ce8d956845e1033efa3bf761f6622e9abc9802928bfc912627c4fd7ed3ffffb5dfb00000001aaad, 0x0⟩, ⟨0x13a59858b6809fca4d9a3b6539246a70051a3c88899964a42bc9a69cf9acdd9dd387cfa9086b894185b9a46a402be73, 0x2d27e0ec3356299a346a09ad7dc4ef68a483c3aed53f9139d2f929a3eecebf72082e5e58c6da24ee32e03040c406d4f⟩)
def cF : N2 × N2 := (⟨0x299b4fdd28cca431cbd63b6dc6ed0b2fc623c3088a16a914421a4445e880f8256fcff4c44623336019c199999984443, 0x7cd1ef977a65ec838ebf594f6e80723c5e9627b5bb5d7f33349f11966ae6aec6aaf75aaa708999b7ace4ccccccbcccc⟩, ⟨0x35b0eb3724bb32e1cf10fd99f37e3bf31d8559a665e47343bb0cf3f406ba0c6f7cda4bcb11598161820af48524f2651, 0x18434e013aaad9566ec74d267b6b5802a7fddd6c8de95fc5991098b930121d983c36315d082c72bcf19888770831a5d5⟩)
def cG : N2 × N2 := (⟨0x17f38e27783c26aefe33cb6ecd7770c52f818cfe82625f6a2665ff2b5e59cb3025c7a582faa431dbe48903ac2e1e7bfa, 0x15808428e2c714c64414a4d33157d1260fbb239354d217b0e967861667aa7235eced477135d5d2b8830af2d35a0788bd⟩, ⟨0x111c33c4f5408300b5d0aaed7e2b9ca9152c22dd6a8655e4cad4378a11ba7bb0dfff02f87f4895852a19a35d846fa874, 0x112779c001c3389f7f99b524a9aeb0db2341b31833de9c32de97235de2950308dd1f7449ba7fce5d12501a0726a863e6⟩)
def cH : N2 × N2 := (⟨0xbf6ce420caf352259e69b031dc4d889cccdbc077dbc9b82aed55800ab35e1a526cd8c9f79c4ecdd1a08e2d0b6506f80, 0x1601bd499c362adfb7e9cde3c5feea56b3ef0743867a91b02a4e97224421dba036c3d45ec4a7862575bf1835dffc1fda⟩, ⟨0x132aa3521f7709bec8dae4b2fa21653c81eaab02f9f01d8bbd2c2c665c542a488d5de6238b0415c617943ed65477801a, 0x657dfb09c1a4ba81385513fd017a5d163e2153d1b4bec07913f4f5fc2e1cca8536ce4b15b0ea74e47d6faa712121e58⟩)
def cL1 : N2 := ⟨0x1293f1b64e2b73afbe2d1c591fa725a5f317c6d112f16b12fb84e92f95b9f42656a85785b4641deff9168e203578ca42, 0x191f2f29429693a6380f4d3b73569b356a334b1023f12f9982c304683cdc435956183a8d1e802997f25ba0b9fd7341f4⟩
def cL2 : N2 := ⟨0x12b7a4dc0b406dacf03d2803b4edb9c9424ed6d3e28a4359fefbe12c73d107cb4b56f5dc3a241944458e124563b81416, 0x2f91be0a6952cf9b1df78629662b99cb786c1307c4216368df5b164d8bb00966ccba77bd73156c2906008e0bd583bad⟩
def cL3 : N2 := ⟨0x7c6c650e0621f5071aecdab593274f88974c2b4150ee32e241f3556e221d7cb15b30a69c48d5699280dc74d91207e4a, 0x11c45e57593c5b87748890720ef29a7579f70c1391c11a94d8ad7f92b19d0d48aaf7d0585ee42ea0e5e68552c418994f⟩
def cS1 : List (Bool × N2) := [(false, ⟨0xea06927d3491d7a3d9742ddaf30ef444dcb342cb10aef0e7b81494d06c0fa0e90608bac077eee315c28e086012819e7, 0x6b726e074b78d823f62c29925fcb484532920eb72bf927bbbd5879459a1b1bc4ef45e7de548df72a20588fbf97ceb61⟩),
  (false, ⟨0xa135adec9b2af9c2a89e747c0a5720e8dcc9e7bdaaef68cd9477dbf0a5b3c19dce4d6e9bf6e8d3f5da920a154dc195a, 0x10990bef3716c572012be5256affe745bb9292ef7e76f892af7774b5a80e573a15a6edcde0aecccbd059e6188f3a6291⟩),
  (true, ⟨0x9fdd2b0442de0defc41897d6ce627d3c3573cb73c49c5557714d44985d099acf681e8244981d1fab18da846b359c2ca, 0xc2b882e58c06d94500fa30acba499a3fd40ba5c326bdb948f851038a7c119066e51976bbf46314e11f3b7941ddc8663⟩),
  (false, ⟨0xe3d17213f9f0287052d8e90b30aa1d6c9c041e2891ba56ed2d31411fca689cc190a7b0779c665eb2dd85e02c7b21ff1, 0x9525cb346c9368d9b2510275e697de096f0fc53eb051f1e215c53bf4be0dd9cc7b0d598b21d4a5a86b2ac5883a392a5⟩),
  (false, ⟨0x24a4583f0c34a59aabb5b92b3c9e7fb0eb7dbf0f043d0ab5dc1b3d85cf1430c6b6f68341a7e3f1ce703558b6a411da6, 0x147576f4da55538154e2e0f4344699f358624b0ac9cb66819aa82b6e5d739c0da40c84c85edcaee9cc477c57a653b090⟩),
  (true, ⟨0x1874921d4cd0a0d820f06525f452baca7f485ac4b738a29c1693cb66efd80a658801e54f2459ee0ef7e53af577477c54, 0x712362553929e786082e3754e4e068325ae67ec4592e08d7049bb917e2a6cc9c92bfabcb111d96ee6072a97ae331637⟩),
  (false, ⟨0xa60ec7603460ddfc087b2944cb52a5fb11cc29cd2f362528b03253ef881cd7f6f302c152aab627bbea45a7bbdd482ee, 0x7ecf336532d3fac38363ca747889dcf087afff932c481caaf0374ccef283f3a231d99039c9fb3b17d08c08601e8b01c⟩),
  (true, ⟨0xe7e468e437c0344e9e34fe795ba045df8b0e268062489af0a9d74a5bae1c686c3fbb5f56e9b3bc2c0045d26e50154c6, 0xe03041d6deb31036c56c5a7f9882527e8e9aeea89d1f3367bdebc54fab61fe1cb0591e45729b52763eba2a524cdad3b⟩),
  (false, ⟨0xce2853f0973b475545805b655c8d68ee430cc12d6d76a7b0948cf789b3f744938441f7d00943de4effa1a073dbe4e2, 0x14183e5c63ac11758f4be4faf04071afaafc4003070f734c04babbdeba09d0f12b2201dd396220c941a01e0eeb01ebc0⟩),
  (false, ⟨0xbe1598d68d155781b501bfcc4f9397c6de720d22016aa52ed52d91c747ae315ecc180b9ffc43c7fc57f0644ef805702, 0x16d5115c323585c2f1b94e27802ffb637bdb683b16a049696226d4893abe2c2a04afadcb6a74268c583f41163c89f0d5⟩),
  (false, ⟨0x84248ef4787db224172181796103c8cb0f7bc79a718be239acf6c07708fe52e05c50f48ebbf62009d98af30180f8d83, 0x733f6ed1c933af61cc949cf3d6772ccf2a6a0665ec3efd269d54adba185c4613658e66280ca76f7d9d2c36c05c7d4c1⟩),
  (false, ⟨0x36a375d6189778a840848e0bf298f87214d07f64d65c184c6ea45008bc092877cfc5eaf3a560c352c7805e25de4f68e, 0x1a7b891634461bf343cb183c5290147da663b2e7ce86e93404681f0adccf920265d84e58e8df5c38b8f106814a832e7⟩),
  (true, ⟨0xe7dfcdbd8b1f692958cfc62a5186539466a20700f66b48b50c6ea90146d44afa6d9499980bcaaa837a0a1b095d32db9, 0x15a12bffda083db3b26d1e1c3c9e7f8f46d0fb86941ba8a97c9e117fbba53de37e402df8404e9f82cc9434688b4a6e73⟩),
  (false, ⟨0xee3768d5bdccdeaf428a30d88bca4c53c5e23b76472c05ceaebc3b1714440dec39b4342363c30981d56fd157c51c5e2, 0x1001abe35d202e404be3ea1e8cf1379830ba86b893f0530f049f40e36bcf8ed3e04aab0d0c0e98f42c82f2be1322a155⟩),
  (false, ⟨0xf694697cfbeeab42e1773680ddd31a022cc1fd168658734ed863909f8dce91127909163e875c5446c0a8541a10aff62, 0x121a9f4b4d3c193cb47c9991cb2ba9d57886729efed93f755654716be3cc20ab334ff62eafd0ea3da84140773faee2a1⟩),
  (false, ⟨0x1483cdf11e320205a766aa33724c5c0e5dedcf148108c7710ffae42bd4821b086678c52a8508cf255b8104e4f2753c06, 0x18c7dc64cde8e78fe9144ef3d18d351da0e4f33e008e9e367454a107cdd6ab3327714c0111b8bf7bb29df58e9a96fa17⟩),
  (false, ⟨0xcf706b97733836a9e679c1a5035aeafac153a1fad4b679d0f6b350c0f296c2455adbfd2f836683706b5ade5ca34033d, 0x194dd304a470c624015e92da0630bc55b7d3a7ec47adaa8365b15d004a773828d0846fa55b8db1703f489312ae84f64⟩),
  (true, ⟨0x1845220b027fc5a445faec9fcfd2beb47e514367b58dc027b0eca9f12a86167620dc5487df3e8eb7e24ae5c1f3a29173, 0x3d9fc02a6fea61d0fec6b6e844d65e417724796624f83ca889b14b9ffc0e84ddfe2abdab2698f1aa8376bf348ff8ec1⟩),
  (false, ⟨0xb09ea0ea53c89702001ebb0c7be3d40f0a294a26506415e736e52c14cb7839d632a896ab97752ae1f2224e355224de3, 0x4967be6a64b94d6d3797558ede71c4c1ebe7f99fa54469b8e48cad0a7752234b25db89a61c64a9ae7312fbdeb648774⟩),
  (false, ⟨0x1b65114c7a3a36cde66d3363978291f4d811f2dfdba37139880f52a16b3b58ab0f8498e51c872c80d839af47e74a13d, 0xbd242d792c43370f90e39f3e93d7ffeede1e2e9b64b6603d900c10a80dc17411aa5a18e4b6ebe3786f8573228b5011e⟩),
  (true, ⟨0x314f966c7d3dd25d99b80e1e1b271b704e82cfccff9be0f9cc1423e454bd4a881365d4d70d81523840252445db0060c, 0x1265250acca1ca2bd604677ecb813703f739c11cbf63e7b42de70720c815cea9013ca760d761847b09c6cf98bc9d5254⟩),
  (false, ⟨0xb29ddaa9f6dd4eec1609abb0e5b7257f3941ef52a41d41a69593b16a6277ea69b9ae2d9dca6ff593a86a0a7c212e677, 0xaed9a047a406349e10d42895e967a138852769958ba93841aae78da429897e0d1b10fdd3e3201c42de0817cd512b709⟩),
  (true, ⟨0x4bc756dd5f5be9dec7d14c8de666d17fc45f503b38a893b25c172d6a995bc4ead39887e874315cb9ae744a327802b72, 0xd26c11a9af63c359a9b23080cbd3cf09be973b73d5df456e228e8efceeb1145ea0d8a007456285108934e32227c9ee7⟩),
  (false, ⟨0x3002377ca14b74028af7503dbfc33b0c8942709aa1d922a155b80431063d4e191f661c4eb6c47d0e70e02700da26964, 0x13b0f2d66434f26058635d1775ff15c98299fd0eb9eaf0c62bd57469efb48a3b8818d8099f96d987f4d9dc604f058c72⟩),
  (false, ⟨0xba31826ffad5e3e44539cb430cc832a7c7ddae3d8180cf9276321dddd921a0d9683c0f256cca86268392b3558f4c896, 0x1251ebe127ad91e875a3e1c235c1b9e19cfaa0f64cb4ad939045a3535c0a6bf84575ef082e88ebdfbb3498ff0ef5e1ab⟩),
  (true, ⟨0x1636d2d160e063b30bc5eb736a982fc37e079cbfe6a2565de48d19a45285072b061814196d8ce83a0945176fedf3f93e, 0x1713ac6b46bc20b2a1075f7894e1f76a862ede9cff81c922f4ed6289aad372f955e3a84fa97eaaa089c95b2e2feb81d2⟩),
  (false, ⟨0x17689a66f70eb19189ce1f24940ad57d780e03956fb6358fa993754c64dc4333ac601b92a923c175478fd92e580962b0, 0x13e55e66adaa4e63afa0f0ef9093decaab48eef5a2c3e1ac8ee6a41b0e37e69df6ed920b652079325a256d724e3eeedb⟩),
  (false, ⟨0xda0c6f5a49fdfd70d6afc4968eb85fe905810acfbcac48bd1609dd82ebad7ca62959ec6d4408f0d92bd73c9f34cf489, 0xbfc04017bb0ea2679de73ba04cf4a9eeae6665c08a11c5b6d3eae3d4a7d4a6cab17168003930dd80d0ff59d10a64856⟩),
  (false, ⟨0x1c98a6fc04994c7f7c5247b6e940a4a176d9d49f45bfb168294e543e4415526c00abbc44fe53746aa586702413a8a2c, 0x135eb8e365ef7fafc89fd883302ef165208d69160a7dae63da2979911888a4197c6496452479f32e29c44a58f79c26f7⟩),
  (true, ⟨0x17da2c2479b5cc1226bbda7c1402589c576b2428c8a7c3f1a4f4f6ce2c868369191133f5e5cd2fec0ef5b67efd41daff, 0x13c377b56e8453a8fce12d0e5ea3068140488cc9efa2ceaf652c4346619c2d613cfef854e8c12273e520cb0a61bdc1d8⟩),
  (false, ⟨0xe5dac12e2102015329cdc73967320fb0ed1e52383a3c7205c420ce282e6dc3bc73eb347ca4bf39b083c29f8ce5563ba, 0x8d32213c19978d8dbddc04c67070594c27ee72e9b351ed2c3a3a799db5dc739a09296911d6e8e3f0afa483513c8e836⟩),
  (false, ⟨0x179de5aab521726abf20ab947235d823e773a8b7173ae879dabd4aa7d5adbff485abba1bb4a0a04f5e2294eb6e1d3ae7, 0x16cc0839ab19285a28a4125ea6e2f87b7af035af7a88930ebca63004f2556f88185c7f2de0de164d4025fbf915e0a4d9⟩),
  (false, ⟨0xc101d704c44461ad048f95da1c4a9e464756249ca1fcacd0dfcbdb4477d45a2f8b15e155df34271ff887788f7d4e74f, 0xec8aaefcdcac7347f6a5423f1fc82ce9ecfb33c09de2c20b9bf9757231ede34f743b00a262473bbf222ce541e031e12⟩),
  (false, ⟨0x144681fbf97265a280bebc0c0226cd4fbd0ec11ada4b09e508b7c604ef8b4ea237bddf297c6e48b6aac448c7dbf70d95, 0xe06f959f94ebc15ed4b7f98f853b44fddf3106791ad7ee01524846f9633ab99a76c707ad09597d758fca048b89aa45a⟩),
  (false, ⟨0x87fec1098638e7b46caabfc02786c84afe731f4f4eaed5afdbe68c7ad3ce726a665ea299ef72fdadcbcd33f7c7e7fdc, 0x171aa37b61308a0d14ac9c1f753d88e4d55e3ae9980b9ac2fcbdd2940e0800c88ddb5b00ae193600f76e58109d146d8c⟩),
  (false, ⟨0x71f74e2574bc8340e6b664883f4ad4cf688a5a82e047b0b4d792a107a6124452e28d8e27715b3446ea27dfedd9b89ba, 0xf7fded6c908cc40eaf91e78cc67ec3279d4d5bdc7b6b8ab89b1a0ac15ae3b8a148021a2e280fe7f0f713a40d21e98b5⟩),
  (false, ⟨0x199ee894eded794a6af94bb7ce24d26ee07f14409721378ff31394bb46dffc641d69a14ebe6b1ab55d71900e07ce9ff8, 0x540bef32e3c291ba9eba115badf4962eeb2091e0c0db28d4cb7a0b14828a2cedfddd59ee2abad87e8cda09d90fb4a76⟩),
  (false, ⟨0x7cc31388b9c8406cc205d6fa258bfd60de00ecedb3f4637cdcf508be8b29a46127e0d75f14095ec7641861cbc3d2784, 0x8547b5f20d15491734fea4c944286527f7fece655047b075697b2777c7e6132331b531505954796e9981106ebf5df29⟩),
  (false, ⟨0x118ff2a528fb11e9fd43e79f224958656a107ed2f2409a6680831fa00b3685f803fdcd8c7c8e31bc93ba81ba051894d8, 0xce6dd0c0b58fb01985bb21ff2350ca4a6ddede83bcac9debc46977bec70aae988adb96cc295f7763a45b467cbde0ccd⟩),
  (false, ⟨0xff95c2740054977db8c6b13ce616b341fed0afee4f7c59c984641e42f2bff4d69a35bc02eda357885347297645dd148, 0xaf0bc7dd01b902d4a6351889df302f4ae722cc926d4988f0b37ebcca84dd00bbe0803c8496f3e9d1fddecf30bd47ab1⟩),
  (true, ⟨0x193009a5826d2868c0ade673fe53350006942c73ed515275f4d5896a6f53eb1b33e36be466befe7d308596063c904c26, 0x19fea8716e82187c3393bfb50e6e34f516c7681cfc4773f880420523aa775fb50193951ef942eb07903402cbc9149c48⟩),
  (false, ⟨0xf80e5034a83d9ae1f5706033289f9ec4d8e9fb85fd7c7c3384d7b29d1656b2e9220cf38735a801ced0a4545d2b0fe90, 0x14eee325391020c81470a73ef2888039933d22e4a7ee62c8c36827ceb7c7cad2adb4393620bf7df4d711bcd80f125b53⟩),
  (false, ⟨0x151530d52da55173d781242069a387e15e887da842c38157e7edd0bbcb8385835668645033e482629ee23b10cf04a0fc, 0xe6e7f10bdf619090213bb3e2f031e5dd8e054d2ee44395ff25d3d1911e547d9b3bc88070ee264315da12be6dc896b44⟩),
  (false, ⟨0xc2efb83447c0ad9749254a429a406e094e17092955d042f88a9759d3c37ae5b23dd2dfecd3f0e3d7722117d5b20d69d, 0x572fdc1825c3fa6f4363f4d9e5db3949ccd76e79e2d37e8fcfab18fc0e96f1e54ab03249aa1ebbc98ed1e47bcb1ea44⟩),
  (false, ⟨0x1048c927058645f3f0b3590fbf7a92e0a30d3d7fbb726249cac04af5aceff0b923da1a0bd123256c99023170ada2abd2, 0x131d98bf93e7e180352a149eb3ef571221296e58cb13752bc379379204d0fda1f4d547ee147cbc23a7289e50caf50cd2⟩),
  (false, ⟨0x5b9df2060fce5fc5a535983bf298c14a10941167e26ed82f193a057786e375782beaa7396458a11afeafa2077b77c4f, 0xdb261d2bcbcea0a86fc7e78940f6c7c88f40732d99ab1598093d336aede3afd8b6c61e5fb620a13c9d06057b6f3ae0f⟩),
  (false, ⟨0x50a152c17fbfca0051f57d76aab18d7326ee66eadab64ad47195bd830c51523308ae7d65c8b6f7759c9837b3f406a7c, 0x13a892b43e8cbef51dcb8546eb5a5ecf6c2679bd840bc086baa3ce17206252ed9d809e62eed26aa357787c051c78a205⟩),
  (false, ⟨0x61668be47891b301c91037a162c71575481b16d9ea87bfe5e8a758e51fb5738e42609351c7f4df8e5f240a3c7b65a8e, 0x5903597c0ed5a179b3c7dad9e469bff2ff4f488e4fc1cf064d91b8637a1af81c0791ddf47a31a249a5fb6f504d63d34⟩),
  (false, ⟨0xc86f0ca49f5cd24c2106be9f8e9174c26a7e663aa2e5d658fd1771e119f4be49e7580de94300678cd350417969b02f6, 0x5d2989a1fc4d1ed60ab6fa0cf727902808cbe4d3827a1cf7df439be9a8c23ef74bfbde8f073b240f49e710ae2db5162⟩),
  (false, ⟨0x1f0ac6647d66bf41575e7cbe0c3093b2c85d240b22fa3ff600d173985681cb07a7ffa4ce96f975831db4350a3ebdcbe, 0x13629203ae3fefa3313d67dfaab14e33c2e77ff1f8e5a69922e65aec75f2d2d92b1b3c20d2ad3d229a1f3ccbe2e64164⟩),
  (false, ⟨0x15b5cdda6389151b39895f7d84c8dc4b4f04a3977f4db1865b416dd42afcabc9bce02387a2c396507c9aaf97b53f93fc, 0x2f4dbd152753d60897a756b94580b298bb5e737e83f21acf912aabd678733f454f2a33c927871722185819f7fef5d1b⟩),
  (false, ⟨0x939e8de8718474c93373d890952b8ddb37c55c3272fb38e63aa0d59dc5194c95fcf7652d7eddc0cbd4688eee86f04d3, 0x114b50070ef45c02a293fec9567072a9f003f3ee2b7f3fa9cdc4bb6b266413ad8245e7cead0ee284429239cacbaebcec⟩),
  (false, ⟨0x12e6b640eadd65723420c6e2f603aa86ea9a27905da8288cdb1fe29d5752069d1b5f85b3c57bc6e78215252c2f1673b9, 0x152467297a00401e901d59ef8762bfc36e6f8e331b1364365f3dc144d8d0a712cc62cc619604472207631d3ca0c17c32⟩),
  (false, ⟨0xeb817b1d9216982bdf7d4a8baa8da93883ed4219321bb40ecf6142e81cd94de7b33b29371e3a7770a591f35de6c5f38, 0x4949df8061137c1e6209df93cb371383e3ffc4ee3aaadaa6bf3ea82047168a04c51e8750e684ef2f19181bc97d40350⟩),
  (false, ⟨0xbf484c5520707f8e77a1f4516292af89a3c97332d767e036191e96c65e067d8c403f90a8e6cf6073d6deb7e10517d55, 0xf2addb851235d0020f385f9195fa8da5927d26c2b705cfa5443b6bc43dd9ab2e8de5002c01716571e612c9a206500a0⟩),
  (false, ⟨0x61f21f03c944a3e0d1048681280242281988331b2747630c3232e4e822fc5c8377595fff0c9731dcf59806f59cca44e, 0x162112d6e9e0cdc2ec22734e8fa303c492f30f19d79e704d52c5017d900b66be6c1809686e94225c4bba822a594e8fd5⟩),
  (false, ⟨0x16699b6b11f8c1c37ba687475c3ee3109da200271d222e5754d7596b1a6973145682cce088db2a81eed2bddb37ed288c, 0x17a9a8486458d91b7f243453948a65ea8231b83b0e68bd73578767f1eae757eea92cba146c2df6d39d3ad25e698aefb2⟩),
  (true, ⟨0x983327c151e69aa7e2db4ba295840a7f2240c3462a16196c508342e6092baa049f1ea8d9914f5819eea24c7cefb3093, 0x176457cd3aa1fd07b3d9daf6ea9831cf90bd048406e3dfc2dfe3496e324749c30115edab9a1e4992d322da414646ce08⟩),
  (false, ⟨0x648c033a5142a2aef53c7faaa4ecc371105c4d2a9603ff0ba6e5f292a69a942fbe38470eec0f31c79653615a9a0976, 0xcd3f15d97b99de185e568f1e7d8021bdfd06e3e324a3709ecc5eb6814f193e43ea5480892416248c062fc2dbd3cf5e5⟩),
  (true, ⟨0x6ef159df01c4c079d71f351f5e89378b115e18e3f8674dde1bdb4da0280a4df0b3fcd30518b6057427e1748a13d14d9, 0x31047f84dc2042d72c907580cd36ea631e74106c33c9c6ec72d8dd8f80c4e98b4006affb37e30ad4a02402c652712c7⟩),
  (false, ⟨0x404664aabfdd718df1f58f0e97c09d183cd5a632b446297c89cae98fe5944f20d02d36accbb6eece3d8b6fef4cc0ad0, 0x80d10600a0bd1e5f69684d59093940f46b7d116e45cca57e9c07f7d6e87a1d8a2dde9404b2ebcdc97404b6654eb81c8⟩),
  (false, ⟨0x95175dda32235e45b8c4fe43091273aff1fe7c179ee702dabc7fd619955636699c9b27cd14b5ef9d9ffd93ad4fa08b3, 0x2c96a154af20b3921a1658e4e91c05405bd550460506180ee4e08f2d0f0c96257e98f4ce06e08d04554370dea2ac860⟩),
  (true, ⟨0xf4f28cc61942433082f33c7af49270c86243ef8676a8a132368660d8cb946dec26b07112f8a55070395763d34ecf526, 0x1324cd9b5ce54362580f6b89f44e0ec150419c91ff53a50af22039bf5bcbea146363541cd7b8199e5b0ddab9580c3727⟩),
  (false, ⟨0x2e8cda307ac60c9f2bf43a200f7137b5dd4f1e69b2c050550207dbea796168ac20aa9b1909999e4e095a27c63443f16, 0x10495b3d8573fed5adc16632be810267eecaaaa34821e61da926662fc713bc4a721ff9868cc19b62aa216f5655a456c1⟩),
  (false, ⟨0x1e12dd1f93f33664817cea4af8139e3f7447e1c875f66205163a7021ef1552d673c31e4afbe58d8f51e5525da406156, 0x467311a0c15c078eda8df56d53ea563b2dcacfc95dc5636d8b8f7adbbee15bf067cab96155b20fcc7f5fa9fe43f7446⟩),
  (false, ⟨0x7c56c461181c1b7b8098faab870456fa275e31b98e913a8947fc2bb8775644064b7ee98b82811af0e48cf5adc078830, 0x186e6da56fc4845a9f67fee32440cd722a28abdb4b2f7bcc3eb9428d39648578cbc413790b31bb090a8fd4e507402603⟩),
  (true, ⟨0x19168935243b10713f7168110694f76b570d592911484cd2d8f1beb6b64515c953d5c005cdb1a24376b5aaebb817b2e7, 0x1822cf906a79c0bd01caa875735c5ebb42f7da2708aef3253931dea287a9d010f25af7c833430f61c6ba01451ab03f83⟩),
  (false, ⟨0x10c8d7435b57fcbfce10a2bf7e0e8642b688e0d24cca70f3920dcf60c7aab90ed8e883f900d5f55f9f68f0b6baddfd08, 0x151d2f90759ddede9b58a15b5e4f6ec75c26c6fb1aab924ab791fea0d4cac3268d1eb0a1f95a561668b020bb1de075f2⟩),
  (false, ⟨0x1024c8d840066c30b368fd5c45ab1a03133db4a7c1f6074f142ef2af28db4a57c0acec321d6b2e0c92c54269ffe404b4, 0x35d3bb086679f9cf4874325d852747b722891c7a17b79c2041e1487acd5a98dc6e3daa820922aad6b72481e77b406b8⟩),
  (false, ⟨0xa5139b4c3b653e0d93831f8de2c61ee04ce4c1b287dd84168666f10152610d2983ee32facf5f4bf6a470e8e4bb83643, 0x25ee70dc6bde709688bdd1634779dfb3e6d1959b1191ac683949df68ec3af2a8ec9920d18a83a69b842b5f322026a4e⟩),
  (false, ⟨0x1585082f14f015a08b3f2fb02089706498b2c5777bb0a475b7c75d9d01a1ecfd620173dec6d6c3c8a9df591f7a77a964, 0x1a38043309f6276afa868aa00d60c1b70321641b1273ff79a688d2b7edd1ad4f268d5f1d275b924341ab60ac0bb5b59⟩),
  (false, ⟨0x128c0b7aa9f56857047aaeae5ff6cc2609be6aaa6318383fd5edc311c54f26a62c929b7490e8c25a11852e6c0fe0f66c, 0xf1b1e3359315170ae459308922258c9308c54dd1090d5d2693e4f66bbb2a959fcb8f90af6ddfcfbff9dba570038efd5⟩),
  (false, ⟨0xc812b27ab938fafeb675e094925302118afbb9680de97d53e7164e60a2c9608b676f13a1cbbcd1472676e542139eef5, 0x79d0f7b20f88c176958307176641722fb7b4ebf2120e0e326f7fd0bf0334155c384090dc7cf3385c35f3f9c34ddd3db⟩),
  (false, ⟨0x177ffbfbf846d1a6fa2209021de52307735f143951a44c586568f50075a3b4c6f801f9dd5b1ac8acb4ccb52be6096d9b, 0xd8088056e65631bc423b92bca19c1da044f1a0bb742d01b2aaaff2f0e51fdbc45a85d38457d2f4febd20e801a4f1fe0⟩),
  (false, ⟨0x14945f8c82688692081cb2adb3d55381d39881823678d69199c397e198159e1d0d1e876ae31ea0d1a94eb6d90944e556, 0x13d3ea0305e986d649120e65c96e17b26deb35072b6431bb4b6285ee3defcef53b2cadfc53d4c7f4a9344fe98ca34a53⟩),
  (false, ⟨0x184622d37bc58af56218c0387ae2513e3f4af5fdc0052ce4741843255e01bea38237e99cda2ee8aa53a889d7522c7d80, 0x730ef72e168faccfa1d5c8c4e4f9629c4166bef6072c2348100d775c601dafa471a5b960342828712bcf7149ec0db9⟩),
  (true, ⟨0x10261565830ce6fc3f0c09cfb8166a4095f2047404ebf565eef995318080ff8b2d88c7d19c55c84ec9e8f9f93b770e88, 0xff1d7a479d283fde14b46cf2711997ec4727a805dc0cc7dea1e0f839ca5af78ceca93e85a6068806d886913fcd97202⟩),
  (false, ⟨0x1319851c58a3d7595020aba9e0e043635cb75061ffb1d48ab81e52d4a7ad5b6ac37f394681d8896535868884d209c21c, 0x2c78ade6fade7db65a9880749df554999d19e0bd9dfdc4f7ac144d7e71d8d916d64a0cb6bd3ee472cb63bab34b7733⟩),
  (false, ⟨0x1d4c945c6cb5ed92a6de0416f6563ac08776b530c6408adfd6ba7143abf27c079d1983fac74e5f9e025f41f6c012ad7, 0x62ffb849c6498eb08e759f415cda4da3e24b78a34e68f39fee6701deceee60243e0b84bec1f25dde0772e9d534835fe⟩),
  (true, ⟨0x9fdf8dcb4d5777d63e01671998b1aa36dc588475c58f4bdc4e62c7aead18790c6b105a6dd941844e5f1e57d8bd61563, 0x117ff5f863db3a0272a041a1f79887e4cb3589960732b4089004a617305f1c851b74d0487f6ba329f28c8dc4a19392d0⟩),
  (false, ⟨0x199e3a2182e7c1bd38460b80ef30481b367d1ee196fc660078794fed518f81d6c497eb085fc6a20040a370c6247156ff, 0x77e04d2107a9edc61def6459fab6e33e0c499d677b22ca3ace9c69c0883f8dbe6b733234fe26013fc71581eb6e4abd4⟩),
  (true, ⟨0x9582b2d035bc17014488e129c6429e5c289cd659fa6695fd0f3f0c0af6633af3e9e03afc949ef5eceb20f78d337d6b8, 0xc4d23c77ba606b5e74ecd537fe8a62c67e805ebfebc5e9fd585aac12fb6991c2ec0dd25c37c1418734815ffcdd27c5c⟩),
  (false, ⟨0xbca54571537d9e3ef67274a3d2801545bda3ccdf003d0af6fb6a1105bba356060ac9f395745a4bbf2d68bf4a088c30a, 0x3e72b55d306011c46395a6e87a1bc0236b3ebea80f5c2cf0626c6975d38f7b1598e83e356f4b5b1bcb4c5296dc63d9a⟩),
  (false, ⟨0xa3b03bea1936c05ea0376ad5008758617482c9a0e34be6bdd379a66840fabd50f7a2379cf0091c1cbcf6f441a703b59, 0x37b6f36b368686b66163e7ba85c28aed10922698d7637537abef9827641bb353ffa872dddda83df7724cd08f62a73ce⟩),
  (true, ⟨0xc5ddd20a5c4cf2a166143be05d612328e1708504e75bc4db5cfa9f058ee21ada35262586ede50c08fdffd41e8cec742, 0x14a2c32ef8f5255c67e1fff6749803999d9e267a5b1dc2ab320c43b8f705e2ab7dbbd2de4e257d40cc322b33300417f6⟩),
  (false, ⟨0x143022a26caea7207188c46076b3af7bb5078abb8aa703a10b45ef3f8d32d99eca9cb65e899757fa616b065cd5195d3c, 0x487c8ef0d2473c73b82c3050523edd3e4cd8ad26de64216071f9fc2590dc6338245f6c5a1fb33fa3aed4728bb17cc9e⟩),
  (false, ⟨0x115f88932a56db62e39749d07af6340c22fb8c982a41a6f6a2fe55d65f395c1794176ebcebcc5f4fa00a33fa105c5792, 0x4cf114c3ebdbbc20d60a288a9fb1ffb1f653aae64b37ef3f0bc927fcf828238e7a725becf326f1767bea14972085b1d⟩),
  (false, ⟨0x1851b0be38736d01fd33289b623e41ff5c093d280355c5d9adcc37e61e291adbebdba72d296d9fbc19e8e98269967f0b, 0xf6c6a0d4e2ebcc3e93e55664697fa704a00a7a3054427684f9c86ea055b3c2bd7ca46ca1f5f2b77904fcd28ffe49d38⟩),
  (true, ⟨0x773cf8dcc59e2b0ce386b0741cacffcfb272765d6003f1171da8eea2597e2eb40207a5547d8aff34bbb3c30b452f55a, 0x4311b6df38ea4cc7b3cf03b7371ae62848720cf072078a1c8173c2b4a3c41a625f3c5b17fe00761491f2f2d72f9ea24⟩),
  (false, ⟨0x75ad28f4adefdc0a769ef0b135220b28178d0c43dc77e72593783218796d3934b66f5a4dfcce6307dccab54ea57b104, 0xa74af667ef6909c760f289b09da5ebd511783e2308b7b00deb657bbf96588cda23b9f6739b71ec2b74ccfa155fd8dde⟩),
  (false, ⟨0x18ed5e42ba70ee581d2b5808dde4d2b54f8442b599fb16e832366512e39a2978153fa51e9c8af39818ba93a71b447fe1, 0x1742ad31106ac3501df23fd5f6d8e4291e3bd1cdda941d0d2e6becf67b02eb6209f4f9db7899d0d93ba8a4f10c2a6f36⟩),
  (false, ⟨0x9875a5c17b518f1a2139fd05e9829dc983482f66a1e3fa1bcaedd8a242b6139e5e56695453f6e8a94cd9a3cbb85967a, 0xa15204696ea2782da067b58c1021c87c5a6ec3c0aad6deb35941edc30e8ac82f3ee56aeec045adb78b84c9d09b2f8a7⟩),
  (false, ⟨0x105154ccf10decb1b1dc28595f4366ff27a82ba8dd9cdfb9fbbc4885c676d6498ce85b63a2752d4557b8f30018e53dcb, 0x4c9d6190a605e6407a410d94767e076b300ff17b7df7912d8d66184131bd25637771b2305a84cf7830f0e4ba2ff5092⟩),
  (false, ⟨0x11024acfce6f62f27602a79a59cd369e433a5fbc4c8a90407c1854e39339f8d51aaa3f0b43bf44c5f42837469d5d529e, 0x1211e8f62df0fa63feb64561f380e7b739814aa6024cb39c489e62817d9ab833079ba3a71d9d6401061a9d9ff9f0a324⟩),
  (false, ⟨0x1015d0ecc1eee44a07bc5ad2b29106ab547bf71660ffc6c551c27c88db1c06ef17bbfc4ad365a589f555f36ef0f196a0, 0x8f99280d7c02010ba6b91f0ce57576f65c24d731619179019e64b6160689d824f037da0b5b1a2eb6ae2b8f44992677e⟩),
  (false, ⟨0x84653af45cda2e2483e1cfb9ed0e54861dc1d1a99987b4a65ed6ecc3a89b1f87d151a75f3799fb44d8acc65ca51c43e, 0xc75f993248a7e22428c9fc68f6260002d2eec1e650f1a320389b6a1312399b3b4379fdaaa9ff8e78ab93bf2f9faa2db⟩),
  (false, ⟨0x360da25006808bec4e08f11550f226634b04bc94b34bebdd88c972ddd7e5207a483ee8d5be3735067fcdb6f402f6f83, 0x2ca8bd3e5e6d1b89adb63331c72f7b08ef5dce3f433e33f1e0433ec338dfb6065edaaf1376d9f273c9d8452fe013e9a⟩),
  (false, ⟨0x127db2d59db497620f1fd2cb8140da29442a3010e215bdae31dae16870cb6fd2eccf896375181e6f71baeea046dcc0d1, 0x91447e5b0a14b6beda3405a3e38471c70cb72c7309529d844a5442a406cf3c1fa472776b90b7ea00bff9f65d9b31ea9⟩),
  (true, ⟨0x120c2ba0b765c317cb090775651b516c5caf7e63852564df99ac762df0d5d78fd62e98a803a4a3fa1cdd9231dc920efc, 0xb1ed47587d2e6459e09c866c54ddd8ba095a174d8ff92af5003c484557164adcef597be535c9e13f631af392556e54f⟩),
  (false, ⟨0x5b65a035b0f9c747970a850efd7e241199ee44148fd556a62cd2f5f3e2a5d471b921ca4ca4c5ac48c3dd741849830aa, 0x11ef0d46a8ddbb8a69c7313345d9bf52a1b5303fc21c3d92b5083d03d72f1e363e235956e9eaf3df786604fb97660f0a⟩),
  (false, ⟨0xaa20d8d4185086c2b7499a59d992b560fa422d131a6ffa37e49aecfe71e5fb5d0756e077ee8aec2d51aeb52d75845, 0xa2dbb26752137614d02a20e561ac38bdcf588e8ff927195babe15995ad72ce4ce19848c9456e1a327e0ef7e9ddcb056⟩),
  (false, ⟨0x132900165477f114212a2a907261f99cb1409dc97b584fb9c7c7e03d9510951926b03c9d77f62b03ad04893aae96a000, 0x1199e94eac38722f90e61a8869364ef9952e0acc40cf84da2c8bdaee326761ae01777517c273f8595915484f22bb78fe⟩),
  (false, ⟨0x139ff2987670c21c85d124d6b34bc1b15bfad0c94ecb3272f8ea420c4725d80c93d5f9c5380224eecbba7d38f703977d, 0x4e32dc941d7a8284039c25290d49d5b7cb5be435e13c25416a1bec372b29941fd00272a1ff3935dd2c93388faea1d55⟩),
  (false, ⟨0xaf7606ed3292ef1e77c0fd47a92868cd70bb9f372dd1377403f508f91ff5ac1f9c56457f6b434c00b9fa9d74cb34cc4, 0x766eb8705bacb527b82740b1909a0bcaa7aecaaa5a50b44858033b9925b4d8abb31b29cbb02fa3af350b2f1b576834⟩),
  (false, ⟨0x15ebb4c5bce67941c228b965fd4cfc266952f1045df98ab98c6fb332c285801236a2cf0d5ba6c14f09ce158b1e8a7a41, 0xc88f1bd8c918d1eb0f0948bd3bd99504153f96ffb6e344cb3fdde7276d5ea40c958294a1c7387d0bf976ce304191cb5⟩),
  (false, ⟨0xd49778fc567c4adcc08e801ed7c9c507411c7425da4f96070ae6b9a08195eff9de0ec558842db5814682dd2472942e1, 0xec0fd53942b8eb55c71daac7ad864faea5533e16d36f848a3bd412b83d192df3d2a8a454f5426b32aaadd718a804825⟩),
  (false, ⟨0x329a7a3c701e6cad2e500d9cf874014e32797d47145682cd458d833dcc106dd8e79cad1e0c665074d4e322df6d29df9, 0xc85535a9fc1320fbd3ee0ba869cb915a50c47ba36cc986a0eb6cdfe62947f50483cdc7e1ae740375f655c562034dfb5⟩),
  (false, ⟨0x15605228df1fcbed5e212f108ad56e3bf2f3eee3ab7e470c1993984383d05a112dcdd99f783d12b0c9e4721b0ced4fc2, 0xbd23d43cbe2565af4b1a81775f695fd48f25587a710032fd077a0e0669adabcc1260874925ad7f811d32536974b39eb⟩),
  (false, ⟨0x61d1c95ee5dba9980446055e3e7fe5baf9d965932d39d65561e7b90fb4a6d1b274949e841d4438521aae59c41539f81, 0x66cc68ea58d6f7007d774ca9e7867635b1100eef05e06c9bfecea653f54447e38fcfe3d68965525dc4bef123c248810⟩),
  (false, ⟨0x6390fe2ea6da7d4336786ca9525ed6cc3b54a7ac250d3af1eccc37bbc863581266989e166f8cba69230ccc122d289dd, 0x2b3b1b5326c75c3c18a9f9c9eba8c812f2eee5c1b2b01bfef58d8f9e85a8f0757a14452f28f007f9f89a8ee2051af28⟩),
  (false, ⟨0x723521f390d483af7f40246421c7a41feb4a62be3a466a34d3ae04b8d1793bbe77035aea78c7c305ac88ef46e8c008, 0x128850cc7ae7ee2b24c00c73086879a4d7196b6b2ae25938df0b5e37b4d7e8a6044a2e190f4ecbabcfc9cd7089d71efd⟩),
  (false, ⟨0x70ef432040d8e2a3ffa82de44cb1941f678b24a7e698ca9137ca611b22d4c36415ca28cfc8b74659df33ff49bc507ec, 0xf848ff82c316d180aa2231a0e54a2a05b8e42d5fe395aab05433df9e67a5a03184608db54f7b0dd60c5272cbd37bc77⟩),
  (false, ⟨0x19c6c1378d19a57858c9a7efd8eb3173a6b5c4011c72b216730e31c549650828e0309cfa86b54afb9f808c36610e58f4, 0x1b3bb85374443dfa6d0e5784ab0f3258f249de72dd68fa16f8dede0ccf157acce723d2d948b3a308c75666e744fdf9f⟩),
  (false, ⟨0x6ad55af2044a62ee725d16d9b48b871f7b9a3a7efca773b5190386b810a025547384748cc363f5c57802d69fa08f074, 0x10aa96c3e2ffc608d140c1a028f4e49cc46af8fe2b95ed0c02094f932d581bc4f3784105d0bf27b920369fd00724220f⟩),
  (false, ⟨0x105830550686a49d99dc23beb54775a349de71ad17329ca3cec4611559ad594d31d45853bde78b47afcb570a76fd9b7f, 0x1433606294b7a1338b19f1a0dd849307a5609de5e6d756b51a4c90a6b2081cae244cdf1bc6c3063933c278ac00c2e4cd⟩),
  (true, ⟨0x21441dd9bf7834f4f2757822fe3a2af63850309d5b9bc00c4c7d1765a8d186ba0bc028091d5eb186a91622aafe25c04, 0x12212521324e7342e166e9962d18634b773f7b60c94062a00cb88bb3b37050a9cac5f3f3ce94972a3afbfce2e48164d0⟩),
  (false, ⟨0x61207dda5da8eb5a4ab228816ae57069693a0fd8b0273d72086101cd48f9d51c57abd279a982c6841a59102f073ee4, 0x79ab53f41e30b7889f2b8855a56b7ee8133747d9abaa46d8b5511348e15b560112f7bd1d14b2d029127106d91e470e9⟩),
  (false, ⟨0xcc7133b0735ade9c0a4b0e8b770dab4bafac4eacc378703edeea16d928ab7f50c805948f66dfcaaec1d1aae3ee4d426, 0x166f03e70c9dfb998fa506e60d49d08da64500f5a37b3767c99f604ac31e99acd66b259d9064801834509430354f815f⟩),
  (false, ⟨0xbc1c34a0abb3accf5de5b525cfaafcec176b4e4cf3f2397a17ffde6d3071629cb6a9c9a1d3487c6b06e868a32abba9c, 0x13585d37813281afe2e446ae5cb01721f22c513548e659513190d73ee03445f20942a71aeec17a83363e7f81816020eb⟩),
  (false, ⟨0xa4d1aa1af022087cf4865c0547c872a63cedff084401a115a478af79dbebc7629da46edd9d16fd1d5bda361bb9552d8, 0x1576a3b06c478df271cf0085bec268090ae9809b5283684d8b7880fae46b9e76615a77f921abf853f410ccb465de7539⟩),
  (false, ⟨0x8a1049074e4cecd3f40386a5496b4fdc61322f8226a67141440ecd9492fdeb27b75df2848a5a2bdc9fd3fa9b81ee8f0, 0x3e12e9fd4da05668e9be48a2dda8f1136d4d7feb7fd64413ab9ef815318b3a20e8a9ba61e98742fce2bfd2429caaa38⟩),
  (false, ⟨0x7aec8d5454958941e66c20204d4ac82c8830005985b216475f12564464b27c989378b7d9417499fd2f9b19ff190c456, 0x3c47832298f0115739476bb8bde0bb5ebefa29edf52e1b636ae51189cd1958711f7e57ca351b3bac1a0502aada6bcd⟩),
  (false, ⟨0x61d2a7b2b1cb7f22733d3dd8ff5c033d439d862c5656bf3fdbd12c6e96847ecec85af5bd8784953e61b8f42eecd5efb, 0xd6a3249632ce6a8cd8a6c76b94dc5ff6ab2bdde0b5645e2526c806788a529511f315b36aa16876d7c315d11f359da21⟩),
  (false, ⟨0x18c542f01abc61de657b8850a8bb0ad4b022f6d35ffcdf899835cb7fcf55bb9e64fc697689787a3c9cb518e370de0afb, 0x141914b8c4edd23c40a27d8d2150a8de1d0988da9f069c2b387d893627cad64a4a04b431059e34a31b25e4d3a5f36678⟩),
  (false, ⟨0x102ab54b0a5aab0879208415fb644863390601589005fdc6b6f0cd5eaff1700015fd0f3b69887ab27c2e8a94c9c362cd, 0x85db9139aee8a45287bfddcd6264725575251e4463462e854454c6e3c935d6411e2904d324e23e2cbcc8806b97f463a⟩),
  (false, ⟨0xe55e4f10361628de99c33ce2e65e9cb1ced7057a181102001acd76e92347394e785d6d77bd26c09680054f89a81677b, 0xb0206bcc530f9123cd0808288af7257b398f858984983c926827d3a9e0c2a335009ef8340651b7a8a0555227eb3a4ab⟩),
  (false, ⟨0x35b366f543fb9e1c942a7e7401498fe96bdb2ce0fb3d8e605d38319302a7f01fb7e4191396acf405f6254527fb2f658, 0xef33e1dea1787fc3c8dd5b01ad8de180d5d0746f3aa5b3644bea98712938130bf2fa098c926a2eceb25eb2d718d24a4⟩),
  (false, ⟨0x300b9d529797cffaed9a4d5cbaf52f0752232fa7c5c13130ce92d4656f8b9c0635a07ed886c2af23153763b412143c7, 0x15f76924bf84c94a14ce0f846804efd4e4dac93ba48d37dadf2bdc3368197518a5ec3bd21f4bc774e3d2eba4671898f⟩),
  (false, ⟨0x76c03d69e0630920537b7e6bd6c50698eafc107ebe43584accda5937a08ca24da1d13a2342a44918d5b9806e9906cad, 0x11075a003ce2f98153779cfc640b0f5e63ac981156b2cc42982f93393c207a5b3fb78b8f72b44cdf4a192a7600353b26⟩),
  (false, ⟨0x14648effc5287ff71de6b5cfd135e599cbedab56667871e69c1067e93e6eea23d77dee3c499c33ac70424219d136dee3, 0xf3d883f2ca6853b96071417a856cddd45c727085d09f86d8b3dd19c8f4a7c17f620890bbdd4a9d1fd71895f7680aa62⟩),
  (false, ⟨0xdf35d06bc41939db638d527682fb849e637cb974a2dc78c72d890b056768bb812d7c719982a0eaf0cce152568396a8c, 0x33f94d1867f186c011904a56432fa9f0be16b544f8a66e42ec65350e97bdde78ab635d8edb63ef111ea8cabe787492⟩),
  (false, ⟨0x130f9f30e508e6abb28cb66ff8dba967b7b49dc76f85d4ce65dc30d9ce50b1b7f41be85753c6a264fb82432331263503, 0x1219a0b3f71d0235fef3ba064e3721352c4463638130e1f0d13207b1c2bd092682cdcb80720e397c3df59274fccb4717⟩),
  (true, ⟨0xcc548e219f8477ba889f22d0b1a74b006e8c35ce21705fbc0fedacf0a7b04cbb50e4ec1f9aa8dd338214af765c4143a, 0xeb1806842fc34fc8680fafca22bac17752c68d979e86693f044cd338f6a2e0c2c2440a6715b47f167db8c539761dfa0⟩),
  (false, ⟨0xa4d819a628656561a1c69976b21052b01828e8ce631765f366a9730ecab6c2de897276b262fb2b5f1155ee2df62d3b1, 0xfa882e639d594512e1376892b51f478499e9590a97e03614a1e09094bcb5dc0e8a0b39255cee7f0ccd7ef720d1bb5e5⟩),
  (false, ⟨0x6ace18e94492a8e8dcea9cb87740bf3407ca8c6d8d492024e3fbb08e93dac1bf3def8ed5ab30063e308d66bb0065d63, 0x1439d9ec2299e9a0444248d758340652253cfd5d92b23ca9f1b65f231db4d59085c735b4338a7d97768f9e108c070c88⟩),
  (false, ⟨0x112fab8d6e92beff7dc0056ad5047e486a582af9241c407c3569df337d1237febb5154e9f92f4e7b19a938803ca22806, 0x17c3b9c35dcf9a40df80f8096bd7f009f52b9219d44fb31ad27ea7cac09f771bc08a3cf6c5ccdcf1bf89cfea897742eb⟩),
  (false, ⟨0x19b4c4e200c50d7752494e8d0e9166582f89b6244e91a4a255acc57e4b1439b5b1c04cb7b0da4fc2f1536cadd3974939, 0x3bc0fc5b7e1ea1c6e8ade50cc99ecbd00ec2e55298d729a103d71a56ad90f8e7cc9342c68c38ff31033ad68a477e8db⟩),
  (false, ⟨0x5bf8b84df239f12c5846f948df3c32a9fe0ed5517f6ec5d6e84d39dabcf2792b4b6c3cc5348e2403e6d4d30720d9f6f, 0x182a51716f150efedaf7b475bd3b05e8e01ac868ffb9af027d928482814a66fa0ff11a962f260db181551abd3431e63d⟩),
  (false, ⟨0x156a4a1a990a03c6ca2d2a51018d33c40be27807f82610484a539e16b62361f35cbbf9223488c3ab3f64074ae96c2c74, 0x1aa8ad202e85dc455147fd767f441af2895d68e54cfb742735fb7ebd88447db4566edf70322149f56330a3be9881d1a⟩),
  (false, ⟨0x3b1de71a4449d6e5b95187cb6e02a623f2a794b9bfc4129ab5301d9e005ee922fe58e9916f296efb178b6d69004ca8a, 0x31c922ef0c92b217c7fe5632a75182c10907f12cdff81174e1733b5e47277cf057921fd346ea802b83a1ec933ca9600⟩),
  (false, ⟨0x2b044e5634d506d4dc85f08901c96ef244816e9e20d66c1fc4420bc7da9d57b65f6d9abf4f27052dbed9a8c63de212e, 0x112aec4e2e9f8a4bb31d14628c662df9bbbd69e8bb8e9ca9efdaf3bebba582bde2e7cadcea50fa6f4439ebfd7b1f3daa⟩),
  (false, ⟨0x8cceba63041da90707daeb9437c329cd8157c8df4a0a7a5d776f4489ad833eb7e016e9e872a64a928b6fb3733aaf399, 0x107bbd4911b697afdba462660e6134b962fd74386c0e09c5d94b4025e281537caefbdc84a9c8e07f4e92f3874566b65b⟩),
  (false, ⟨0xa03ba9e3bc5f4512d79d28eaf173941a884e362a44d8688059965163b7ec96c0c37280e76670d304b544ec9208df45c, 0x75bb0c76e1eac528baaf62398f27f1149d7c6107971a161480634db823f898c70305a74def244c378951d3ef9c5ada5⟩),
  (false, ⟨0x2e74e8c11d669303e2c73b815eb105116a64dd15d41a45fc0e64acade7d47527f050dfb6775498d62e765784f93e516, 0xd6a46fc61bf1dc119cb15d1aabed9b3af29254e67cd2da5c08706e83d64d64b03589a63fe23e40ac3253675d51de778⟩),
  (false, ⟨0x3b3580186e7cb8fe60ef94e1b2965b952d0883dee46e995c0a6d5494c53663df6d517bb3b62932b15ca25e884be15fa, 0x50e13036b1fa67a4633834e2e959882d84063df55d0f81e91462c4d54612ff12d42bea418049956116164191e621f31⟩),
  (false, ⟨0xf06b974b764be5b5092ddff87016674c5658e74181dd0db31f2a5c368ae31df9194cc04daefe2e0922d63c878ee168e, 0x1315854a300b23a3188a413b04eabdcc79c12c1c2e7bbe4f2aa4b5fb93a43ad3dd0592b562b76366151627509f8dcec0⟩),
  (false, ⟨0xec7b1f829cc15d1cba8f109e4c9a996aed6e230942eb2123d698e3df98c3cfbeda3e593ae5e3348c6dfa75498664e73, 0x1873c214a6949dfb180477afeedb05b7d0bc6fa169f75bc6d91772135f64f0c2c8ba6ec2885b49476e05b6b156c3dee7⟩),
  (false, ⟨0x6ee8cf59bb166addfe6e2073f475dbca836b9b5d90b926ca5fd5618987d0eef3a191aaf9749a833ec582de960da2ffc, 0x3f9da75581664de50f648945de04c6455dbf75b60d06328327bf97380d8aec0b1e150dd4b11f10ad608c0728f5abbe1⟩),
  (false, ⟨0x275bb025ba685a2dd441438be359782e41cd54020b909cb002fa3f5a9bafcbaf7e8195fa905062974b283f1ffcbba23, 0xcffd3f2a2694be53e231808fbecd34340fa636cfae5b2167ac0a5bcfdbeffa90786c81b3b2072bcb18eacbe813ad4b8⟩)]
def cS2 : List (Bool × N2) := [(false, ⟨0xea06927d3491d7a3d9742ddaf30ef444dcb342cb10aef0e7b81494d06c0fa0e90608bac077eee315c28e086012819e7, 0x6b726e074b78d823f62c29925fcb484532920eb72bf927bbbd5879459a1b1bc4ef45e7de548df72a20588fbf97ceb61⟩),
  (true, ⟨0xeeb0a2f3ef09581e68700c2d31cf0cc9688563793977e0243a90cf6067326d07477f6c2970a90b6d8601d51862e81eb, 0x148d7f069ff54e5a887a4be0d18e7f5a3d3e36b1e0ae47e181cb819b5057b001a0ea95819eaf8c0e52bf8d0c9c1d2696⟩),
  (false, ⟨0x4e99d52183e19bac62295dd9618f1b13538c49a3df27c93ec82d294d76b7150105d837fbc00f7c656a09c39905779ff, 0x18f647b31e437edca202dbfb3d16983d493ebb787fb1b6f5cce29df3aa0ace434dad7de5816447803020ff33574f9a44⟩),
  (false, ⟨0x191adefb6dbc7f964cc85df35a423ff420166ff67f8eb705f2442ce5dd8fea598ff0a2d6d1f804fcc4a45e5fce0f931a, 0xd9a836d76c13afd178d253e123a4605392b555a35f9cc12cd9d4ee90c7e113dd60daa96e38ca14257182df87d74c1e2⟩),
  (true, ⟨0x837191576e681df43dc06a3f68b8bf2953dd3d52c7da49cb3ac653c9d69fac0ebac03eb78e4042b7b78123dfbb8bdd4, 0x14329074283285ff38ef150242747617c92fb838780f7d6d13eb1ab5d2f0f0ace764ea00a163f153aad3a929c95ae67e⟩),
  (false, ⟨0xd7f9dff42ad043f99efaec8d4e442af3c2c48af2003e46c2758eaff69b6a759614f97d80522f4716a59c219a629cb69, 0x11194f07cad34c0bb42e6c9028be91a5fcc4d0ce960248c8c392eada5ab3856fce757da04e71844e46436439ec14cf51⟩),
  (false, ⟨0x105103826272681334744e809fdf53e720a2d592cb37ff3eb8585e557544bd3d784c342d3ed0668d42af83c99a42d1c5, 0x15cabefe10340bb45fb853a36687e33af4aa55a07b595c904a516330e585cbca45a38f6b4783ce84e3654759f917463d⟩),
  (false, ⟨0xba6c0749cf59e3e0b12c4f58d86da872b95d0936888c645fc04877bfa75aacfc356cff97437dec44801152d61da7c3c, 0x1617edd466c7d515f2c416a2f831e073b1e878cd71b7d78cecbe960c6c6fe0fb303c9203bee836a1471b8b574c1fdeb2⟩),
  (true, ⟨0xde0e8d5278cde800d30dd6117824fe5942d36819702c4e71a6dabb6c65cfc866f8bd2449e7e4897c5161e754c6503b1, 0x9730ca88c8a6e7ace48aff24a3831573663a168c6d5e88497471f4ee3e62faafadcd026f679707e7ab6b9a08518c0ac⟩),
  (false, ⟨0xd9827dfe110083418f3380819039e208b3dde2f2d3a0bcef57f98bb5d8fa9a13648471dbc7beb54a9ba54f4530205fd, 0x18358fa71d54223cd18fcdb0cef7f0412815ba0b5a0b24d31bbc7bdcf07aa38b75c467fdebb4bb07da84361b2be732d1⟩),
  (false, ⟨0x194ba2d7c41631a31ae7afe195f27db80c0fc23cd4a0a659b7d7cbfaf2fbafef87271fa70c5c8b7e4bc0313054245b2a, 0x1210c8e48c52e00e9eb012634911f9596dbc271e9ad88a601041e0a634fac7fb10bf6f28e89df0f9a04de6b649146980⟩),
  (false, ⟨0x147584c8f2e1018d92a0da559b086e79b2a177d7a98bc414432510da28173b3847c5cbc36a672b5e591b64d2d4790641, 0x104a1430b4aa6126c419073390ab9b8c6239b51479fd39fdaa97735eca2b97f8741581784879d6c05b642a7384830f57⟩),
  (false, ⟨0x5bae1a5db134772aba8a7a29c13cb78605bbe0198d9e998514a31ec5772835d4e599967e75e0c960ca02195610efa4, 0xe59806ec6c662f2e2e20fb7b89796d6399b1dc1e5b2813dcf56f7c8af0f442aa1311312ebcead7bd5236dc6a71abecc⟩),
  (false, ⟨0x61504c3e05172bb4a8cecd45e4756150e054106fd72f37fc1042079fb23004dbfd6096a51d8aea141214afac8a9c5ed, 0x111f53382cbfe1bc6099dfb2c939d6100512614bee6fe8c4b1e080de643eb3677e86001e2ed73abcf003895868445615⟩),
  (false, ⟨0xba72e2fb76847b0acb606ddf2d41abcda3455f2ec3f3593dc30d23b6b44aad97c8bb8fe3331084194253385eff943ac, 0x13d139884727fd3b552523e28f625572254c92973d009288947a76d25ecc7ac0ffdb35ba84d1bb10b3b73508948d147b⟩),
  (false, ⟨0x70cba08adce7c8e1e81a4a72b960db3bd7a9194b4d14e7432da287f3aca8669a01bcc47e3bcf353f1ba5a717f03ca76, 0x12d6cf632f29456c3986658c0eb82f3df4013529ed98ca1865e3cda1646e48ac398768672975683128f93dbfc8381e02⟩),
  (false, ⟨0x15656e06356c9ebdd2f13391aa08e3c5cbe8a45d7de9b8332351fbe3238dff1d722ce0e963076d26e4e4a9e8d913bcb0, 0xc7c50fe687142e786042bee64e9e3b94665f4a79cb9468b977bf8f60702c2bc28fdd92c351d858e7129b8c1862fece7⟩),
  (false, ⟨0xa2f02903a9c1876b02ade904ae58248f88987cf6a8eab55c27e8a7c2b968f9746eb0d5d728b3147c03e490c404a25db, 0x2f5ab4edb09c4651653838280f26b684bf42e140bdc9a023840005af7aa630d846f403f856433104a8a7733ba42b5e7⟩),
  (true, ⟨0x43c7b4ecaad35c36f21c15e7412e7efdb91737de3fe76bc335ec6c625c3d3f28e11133686a76bc8987f3b320ea2070c, 0xeaefdb2fcbbcb02298c1a7f79c8d4a20622f264ffc8d0f9c35e347f28310238878a6c18e5a1ed5f807f56d8183a1ec4⟩),
  (false, ⟨0x1860927b26ab2b862c1785cd968d022ddd8e22ae5a806060b7f4feb00d57a5426975a44c36367d50da5f48b0147c4f35, 0x10a051ed190b3762808b165f10e275ed5f591d7b7e68e5bd1a779de55cebd1db5e9495edf2a90d0c5748e0e018fc6889⟩),
  (false, ⟨0x146ae9fb36e36ef09dd8265864990d48e4bbc0be4c51d381b2f40caa4f546b9534c29805b7a3693c121b62a97170c94b, 0x115536588a4cffa5b14ff950c1de791892415e1cc9767b4b008645032fb9a226d9ce67a8887590d9b5a235ab9202e0de⟩),
  (false, ⟨0x1798a1c7265d925a5f05faaf81ac7d26b3040d28fa572bb68d01fbf97088d971180e109f74ba4c28afdaf2e828730b0b, 0x13d8ceafe70c2cd4902284e1f04344711d4870fe51e403357f15ca4bc7bd5868bed4c9f5fb43f9a7d1106ca8fe999f2a⟩),
  (false, ⟨0x17a7a911b99a561d6bbafed2635dfd46052af40d6aa43976199704bf97a8769b5718b12b95ed7317892c1c05dd21546e, 0xe74162a2580252695f1b056599e9db8641eb538d27caf45db9153b46f598885559bf4a8a45d8f215fc555a0e8c752f2⟩),
  (false, ⟨0xe2318fb5eeadef053c6d5e098c076d8c94fdd84e2892001f7f84eb812c4e69c293de4d6e39eb41cb5c5c063eef76e5c, 0x385f3ac3de7af15329213cafee67b46ec8c5eb3f286002d6dea859ec0c8a96c93d20c97cb75a63b9007664045506e5b⟩),
  (false, ⟨0xb81027ea09dd8e12e6a273fc4d984c4a80efbff30366dc4f83ff66eedb4b23f0e46287f9fea35e7308f2c0295e0fadb, 0x8ff14836724bc3eb14e1e510d61714b0e8f12798dedd11ee8e1e9e9fdd6c49853e15a5de4e4de51025fb8b25940071f⟩),
  (false, ⟨0xa69642929632a240efc830e46f71bb85b845cb30609a716ef45f45b2bca570e320bfde42db50f2b5fe3085e005e0a8e, 0xf991d7f56d26074060e7b61f0c91daa8541c4c17a52c040c922c94a808fadf35a13ee67d26eb84d6531da741f8eb38b⟩),
  (false, ⟨0xd30ede8015f691004376d2da266d99feac0b2072961d7d4e0c259a84136bd682cbeb995725bfe4ec59d75898d39f6e1, 0xde64cd55ae53df7203600f413938f6ae2bf370fc31655bc8fa08661aa35665406e500340d1148da806da348db4a056a⟩),
  (false, ⟨0x8d69b328c15870b99dfcbaf512bb37671c37b84eb108a685fd8704e0a6181a64107e552284df48da6a99d5f1c4856a6, 0x1201c436b0fb2cb9d0cd434aecdca7da02b71e17dac18267f2da817572dac439a29e4b25858d6419ade5348e8e72737d⟩),
  (false, ⟨0x8a2d2288756bc981b333008ad0f27114d70772cd26b39b05f6bd09e9bfd80c0aa3e83b576a7e22597ecd936b5f99dd0, 0x18c542403e900d5e92c44bdc8216e93adc58fde26907fa2b9680f148c2a9042010e46f51012e1e60093803404297f7bf⟩),
  (false, ⟨0xaec1bb843f80821d76fdd78e3945805718892f0f7ed2c590dc16723f81656660ce2342e35562abd5dedb910e0255739, 0x153f3f2b3771164531012e0b921988ec63e7382313af1bf61143a9177678797b7d2a228026b49f2508ca7d82826847fc⟩),
  (false, ⟨0x89ebe93ae5851f81b52ad43ad71fd2a0500f5c13e14b253478a936998508b4fcb90d783adc8ce761a82cdec98d94ee2, 0x11aef75a118c7acdc673e3b410e74f94fc6b57f1081ace228879ed1b5ccce08acb21242183212cc96e1421f0d8fafc60⟩),
  (false, ⟨0x10749a311887b7e5186cbf08e736d057381698fa29b6d65edc63910406fb87908aec789786d1dfbe3066d820f2911d7e, 0xfce5bf3db36fb64ca703d7ed475b7c206b84c02bfac0a4b6cb2772b770438f19d82adb2025e7e66f70849b65286eaa0⟩),
  (false, ⟨0xc6c51d60923f471631d5fa4127e0ae987ff6115b1d2b894be83cde99d51901b6d40097baca3fd7913421a3cd38192f8, 0x178bc6066a770af4d6e66fe2e9c2e5c87ea2b349d2af55f9b3741c18bb4da3d9507e46be17ca66b96073769267eb1358⟩),
  (false, ⟨0x11a13b340830c4fb169b686f40c39b1b0fa9a9c4d1004e63d22d54bb0cc964328af842c23bc1d151915a75c866ef458f, 0x100e9634f3a284a7ffc2e2fd0d4c385aaa6085d3c0320db07105c6b8bf8811abf692ee733eda0a246e4a3f8dd0bb6665⟩),
  (false, ⟨0x5cbe4b4261ade06c36264f61a6aeb1786e287f7542ae04496660e66872b3ebd28b0077813f070408743d6961d413704, 0x5ded8694399f9caf0bd591211d4d8e5480135114fd1f3d2a755c90438dd7abbf2f82e14c210c5fcb195d3d55bbb842b⟩),
  (false, ⟨0x15412aa52500f3e3b028e25610f606b739d4f79c2e1eb3f9693e8ba776400693a7ca58019de8beffda075276845c0694, 0xba73464a19ec902d92f339026aaf0c811a13c35b95f031d187cabf84d03f1e73205ef120e683ea0a3ec076144bcec99⟩),
  (false, ⟨0xe57f3a91bad1c00be9275cc418520278e1be6be1ae82fc10c3963836fa2850fc813180a438201554e02eb29b9671638, 0x140b666f65d2140a0aa7a042538c3b8620669abb4268fffb2c88bd2ee4a52f8f46a4b4575e6cc16f3f8e8c746fac3758⟩),
  (false, ⟨0x178f9a8267ddc3cb8869872162a652f7946315ace1d6c8b8ea626c06ec60f0dc8b9625747e2987c392787487fe0725e4, 0x7dda572a9589751cb09c6a35bf0c65a52e8ce50a3ead0225d8294cfe593796d3ab22d6533e499c6d536700b1060235a⟩),
  (false, ⟨0x36e5647f0a1ff6f7c621ccfb66978e68b8025361d7f898ecba744432420017af8b12dc9d973ed1a41f18376f0825379, 0xdc1b9c4ef2fa8efdd656ba0e57da10246a48a5cb193b82396235ad9783e85eec0d558b539b6bc1900163676de9e3d3b⟩),
  (false, ⟨0x2791d06c4adf149e0a3b58a33a3d375fcb0951192404f0fb97e52725fa90b77ca6667d5c5f0394932a0c4f759c2c516, 0x11a846230a65fc9f01003bb4100879525494b4735426ea9a1b0d70c5277fc651555d15ee2811bb7587e3edcb0544fe51⟩),
  (false, ⟨0x29af935b6a8677076f6cd353ad786767acfb6ca127e951bfc5c1b352b6af0c0ee826256efa8a0ed7df343f3a4ecc1c4, 0x15938b91f4fe5767e3a8b39e129d2e1aa9d31a5c51951fd91fbb7690fe9ccc4d4d401f8314c26da95c8fe87e0e4fd23f⟩),
  (false, ⟨0x6e5be19b7fce58ed3bd437cdb546295df2834b1bb781a4cf880f4a642e6391513bb56d7cb15d129dab73401064fa108, 0x6ca775d500699e8857a0e7a9430861d11cadc47455e75d4b180a62ee13c94b66664cc99d842649a840aa095d0d0568⟩),
  (false, ⟨0xf262a77a00fa7f64dd494f3b81b3526f6fae96d82ee0c6802943b11a4d11e2c0d3c288691ee903f9e0858e12938161b, 0x15ed3e53504c4c5a8f8ed3e3f94ddc7a5eaade8735d9ede1fd4c918901f3f4cb9982aa602f6bf440ef82faf4094ec656⟩),
  (false, ⟨0xb2bfcae1dcad45454d66494bda5274932c75f5df8549f70c91f1d003060acd4f5fd46156265f7f86b2dc3d5bb92d16e, 0x2b7b061ac380d6fe949f4cefa6ead139cea06cd941f8fb099f4b93a8a6301f02e28e3f446a94a39bf75fc2ec520afbd⟩),
  (false, ⟨0xc703aef54b4d276db2f884d7ad7773ee7b4bb269ee0baff95ba5a6a739d5e5915fec2f8f055beb73bd4845bfc0a4a30, 0xdab03d5c57a8bcbb7c7d37a26548b7d42071e56a38dd2cdccc4f9ccd0460651e65417548a6881a3655bc7f7dff2c641⟩),
  (false, ⟨0xf6fb8ba135858c34dfa504796d07660cd8d4fbed3c80403f876b5fdb8022d3e44011d6405dc52b8e92ad882050d9e61, 0x3c6c0add23dea3e686ed4d5d8ce9cc1dc91e43a5fa80fb409b197e8d9a1bddc66f7d0ebe4ef65fd257b2e132c417fc6⟩),
  (false, ⟨0x3b942a4bad94cc60487df926f93fc2ba238880fd718d7679bbd6cd75a78265fbdd5a9712ecc9ac3b6fbdc5c8424c5f2, 0xc41869b727d4a39deb0032d18e42f2c3126e50a1e7249c9832600e7c9e8481535212d70ca6c8e0547eb74a9149792c5⟩),
  (false, ⟨0x131675d1604162a5efbb583c8c0108ce9d282af84f0de25633520fdb4672159b34b9bdf273ed171ebd244a75d89cdac6, 0xddda5ada00af01528d524673e615d12b026c2993af2443e77f0a144bfb46faf72259093a98d5511605f747d9f316d2d⟩),
  (false, ⟨0x9763d82bd0fc0e7ddc288213f352f5b159175436ca2c1976ebfbbac5f03accf978e4497535732f8dc39a254249c6dea, 0x1709daeb4e81c77cb7284d618a3cc895f2c4f533ac1a5dbb9b970112c5f07cd7d2aa686ba1db86ef57482406017ec2ab⟩),
  (false, ⟨0xc7ec8a102a779a34bbdcbcb38b475571cbee063e2521b5ac151e164e1b7b9bb9c0e1ae24d7bea91be0428eae665abed, 0x8ec4aacc10afa20bb114e736879bdbb82b4d81d6b32620507df2702307a323b7c4514d34daa4a8a8e94dcb7d9fc7d24⟩),
  (false, ⟨0x9c0a6152bb09a6e493b9598e33014172515de56879b4de8b226c611ff4d2e140e4eb7f9ae010152cb9264153e1a5f4, 0x407463478f3cc9676c1eaf09356b280ea8db2792b95fa2f21ae8ed4ec6803a36cd1f57adc891aeed2e72fcd4abec0b2⟩),
  (true, ⟨0x1813cc42a7dc1db56fb3ebec56be60620ad956757a291bf6730076e8349513751a6b7f842ebaef61b0b4b19451a8d663, 0xd2bb6ee47d309fd1c5d2d201ebf52342793478d6f7204ac26dd67af5422ab7e4f084d18c7008e078d160a80e18ee167⟩),
  (false, ⟨0x901fdd06b73878c63474566215c408f22e9413c01296a63d1fbf49624909915061952d5060b27dd1f87e9ab52493d38, 0x48d91629940740b8fdb9c703cd17c2443a30216fb3e479377a644283088db4927b0d98c7221943199d1915662aabe3c⟩),
  (false, ⟨0x1762b1f949233eb1b3b224d775add5062da98da88b93f8066c2a632559736642a910ae68c28b5c274c6809632e2a60d3, 0x113ac5fb74687935dde19b2fbe573ab535fcfd08174cde63860d28973dc8c8cc80c8e0af597103bd21d6733c4b324db⟩),
  (false, ⟨0xacf8831d398ee6349849245053221ab73c17de0d096970e53d6bd85eaf98b75fb5f66e8e1436bc451df520de4fa8a18, 0x28a9c2f096766b250810154beb189e606c6a5b32ebeb665090fadd20d0b789386ad0bab4b60077785db332c33823589⟩),
  (false, ⟨0xa85d2ec2da1e5ab7ddfe9dc7dda823fe105d350aa75176ded60f329c72d98bceb177a49b6aa1e3b4f92772a567a3781, 0x182219e8c584814888cbffe608b98a0ba56ef30dcaf4970db870777c7e82ed47748878ebfe351bcc8dec4a56e904b81b⟩),
  (false, ⟨0x4bd0c67765410e578e3db39df11a79c2892d8efe7ccb71687cbc9b483eb914116276e1d3ca6969908ca217af81833b6, 0xaa71663f6d6196b721d63b08d4e0714a99ef90933128ddcb7a893788658993527e828fa7269e94d7887b0efe618f76d⟩),
  (false, ⟨0x9291e9ee348e5b79e16405f1f2b8e6a72524f2ddffdfd2606fa5cfb7129e2adcaffa34ff05972932372cfa5b225136b, 0x28cef98a2cf8cf8cbba581b840014bbd22e5ee63e5d95125b7b299d92de1ef2aa9bc484ee96ebef419eaf02f4031779⟩),
  (false, ⟨0x192248481d75d02ef516938828207e666336df175d5f93827713e87195241f71d806303e3bf15ca8b38b491e739b4b2a, 0x170e913cc408ba7dd54570b3c2f2eea83745001ea89e3253ad2f9fd691d180c24e8bcf913200ad32a3eac23833c497c2⟩),
  (false, ⟨0x132321534c3f126abc5f1d88b803134a60b60afd14421f4469998584e953f45304a08158a378579f81d97616332492c2, 0x1084d8830e2e4c49351043f5bef373bbbb7ba9b5cdb8070f7b016337985de623bc2f6b60bc298a1d4bab4382f658fa01⟩),
  (false, ⟨0x1040e173617b570d495051f8f83738b82454bdeeff2a02baa399c14152d3e6fb547b569c1bf84ca00e5170dde2af952b, 0x60e2174f4831d3ee8407262b20641e4fb86a027c180b15a18b24a4184e474fd0f41439c5252c82046b320652f9786b9⟩),
  (false, ⟨0x65d864ad3c8f6d04b4723e888da9fd743e800f41f4361668cbaf34ce58a89168197a7b841bbb71c26192853990f9e65, 0x7a0949c731919e269abcd63c4cf95f487dc601077aca238267a8e76c77973dcecd18536d76fe81ec5cb249c8e8dbfbc⟩),
  (false, ⟨0x76ce1d6743fa54f229615a32c60ae5fd79b4d9434ab2952f3947c9301a4f3101c43467a277cb9b399eaf62da450ba0, 0x10325bca6dbe4f30537b9db0971e19fd8008ccd7b5244cd8d282b934a5aa7dea5055b13b93538f7d60264d162128681e⟩),
  (false, ⟨0x134eed227b7a3f8340d2b1f4f7c183524b54ec316e042b39940a549baf3f3c874cba1e554808010ad877635cd3bb6b22, 0x45874862add02e6fcbd084da90358f8d62fecd99b066ca693989643aaa0509cc4cad03d3ba8dbff05ae9a07f1e94b9⟩),
  (false, ⟨0xc81e587f2e97cf903ed3e726f2d4eba21ab3a47ff520c081180179951080a5f889513fd03b381df505ed37842ffa60c, 0x599d7696adbe0a66c0c5ffb0501598151200ca2883ea5dd84ca56a5fcbb9a90a1397002edfebb844d32c0202dec601⟩),
  (false, ⟨0x150df0e40a2c2098f79d7cf00e250b1dce6e68edce4c089754c744bbc0ba92b366b5ecc6902d518a02057b00007ee8e1, 0xb8101d584cc9cfe562af8b4cc2bf1e28a4fc0d7196801e2da9f3b31ec7aec0cfe85970c49ece134a7b315b6ed3422e3⟩),
  (false, ⟨0x4c8ac62cde1feea94bfc35e87374108d6d81166416803e1c8be4a0ddd92bb1faa7593bba80538310f6af97b8cf05d72, 0x8786ebe592c0a86a7b63e8787503bce70fbc8c452a2ab43a295699989f7fc11aded091eb1e33d3a7c684c26c4a972be⟩),
  (false, ⟨0x17c0d6329eb956d6a31f9a8ee7eb4648014afe662214c52cec2541ec032b0dab3d91a0db287ed7de7c23ada34105a460, 0x303b45be05d35db6b60edd231115e466f026175305e36198b7c70c71aebc729d7eff651a62379335f07680599616b40⟩),
  (true, ⟨0x13503bf4e59e92e27d64746a9c3ffa618e5d3af71ff517b9a5b69fd23bd9e3278ae3ab2ec87a1d8dd5743a766038b3a8, 0xb86d1db2fa95d66d4c202ad062736db461a8de86ace2c58427b3a59cd47dc78676ea5385bcccace7167bbc71dcd94a9⟩)]

end Bls.Cases
