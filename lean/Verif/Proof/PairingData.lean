import Verif.Proof.NPoly
import Verif.Proof.Primes
/- Generated: the value of the Miller loop at the two generators and the intermediate values of its
final power. -/
namespace Bls.ND
open NPoly

/-- The Miller loop value at the generators, as a polynomial in `w`. -/
def y0 : List ℕ := [0x3b13c82405aea6ac4648d2b58be3d982e13ff844fd3752c33991f9d2b7da5b2fc67238fc69620f6c234af8e72681625, 0x16204e7f89c157945b2f85e4d64be6e514091ed3377a0fbfa02983046644334f9d641e540f468fd538243e26f571c2a1, 0x2db1d3172cdc3c19e9e42c0e8df57f38ca199eade065139bffa672746b1e23153194f17b13c94f98ec9a9301e151f49, 0x19b24a24881af60fa3387a9aacd63979fd45c90d0f5ca46f49f85cc5e9cb1fcb3af112eab7ae1c7c404a7fafc8c8f7c3, 0x111292570f3f10bd50e8247348a3035f0b1cc2cb5a22bb9e633fab29925abbc49d9d77d211bcaba0f3880aa47c4c3713, 0xf2addfc7a560b789dac0862616a3c78e8081dcc79013b461cf564370d7d1859e7ae846e3f89fe0216dd6c9549f357d0, 0x3a018fa8cb36c23248e299ea03286248eeed1f2c477cfb32d68411a7a4c39c8741d2f067c4dd900046c11057db6c575, 0x942697638f329bab144afd26647be9054081e8cbded9967d18dc6743108dd74a3c9192e0144f5f2e49b3c2a6dcc8031, 0x3acc6bf13ea3ac3b01a5c03abfef0c65cef58c07e598ffa21262310c5c2546736e1ee12c6dae45c57cf14fdb4e6267a, 0xb72354a46c6ab3f59daa873619913479319807d21d60483fcac8615a4947d9e963d2162b242d34a16a3b267671044b2, 0x10cc233519fa1da957cef3a4a301bf377e55ec0d97992861f1b11d171adf7408eff43fd7b9da15f8b4457b89b4436c89, 0x19a1163b48107ce80131adee28ba723847b582239eb55a22663968b12bdbc72c03f16a1ccd75cc6e8b84f06847c637c6]
def s0 : List ℕ := [0x1, 0x0, 0x0, 0x0, 0x0, 0x0, 0x0, 0x0, 0x0, 0x0, 0x0, 0x0]
def s1 : List ℕ := [0x96da85ce16abd5102702859e9881ad4b05aac5c1a5af1f37a4542328ebe24615d3972908dcf636d5347bac9bee939b7, 0xacce28546ceb3712a8e34cd243557adb3f771973936293dec2ecec13528114d4c0139af58bd5ed84373ca272e4adab1, 0xd8c8aaa7676f631f664500ffceab40c16957f759ed3a621a08e51126d1b319fd3a5d8e2bcf9a3973087b3e689301b9d, 0x10313f7d2b90726224d7caf364b821348843f8d42ff5bacfdb6414103b5769f4e1dfd87ba2053159eb89d214b806b388, 0x105e93636097bee0b423eb2679b7b540622992b244628a85148ed2d7ab7061508a6169b2351efc13651ae30055e3be16, 0xeedc68b16bac8d8e5bff33072ed8649c8b80c91a3ff7635d689142ff83e48755f65d9fa0fccd450d95b22e62b4b29d6, 0x7d4eff506dc0b6c23f1a25b14093e81975a08a0e6da61c8f3e1852f107ee9220581da441d3691582a618424231d9bb8, 0xfbb85bae96d639efbf12283440e6d244c3448f5ee11c5bd98715c859908ecfdbe993fdf651b35ecca2b000ff9a6dfb0, 0x107b4e93270374dfbd4d4ab1cc062f5103457fc00406ecfaaf012fc1a4febde8481c621b73e28dcb98abd8bd6e5b5f65, 0x10d967ad63cc20e247319633735712746c3a8cdb1f26e7d72a60f5dbcbe3bf61119e9cee54495a083a79c6d3240b2f34, 0x15097ad398962e9b322f72febc716f05876010e8de9e8c62439a8950a8e193fbc3e04baba4ee604c4f5cb6e0478967b3, 0x1c40d12b0e274263e7f11905d6c905887be74b089e0441e242e9f4ed6a860442147fa0d760bc133dc990fd0f1659ba2]
def s2 : List ℕ := [0x1122ba1a5470da2c11bc4c90a6dc687c56d924d0b318d222b0978561a1a775056a836b2e71f29cfe43e6b71bc1137dd0, 0x1011ca05dba432c5129f6cd71b112e58892cc852de59d1b29088724c41ad397434323ceb6b5d86c3e3c7b8a964219677, 0xa715d5124ea3386abf35a5c4c7232adcdb96f8ff6fd8678ebe0a8ca442b8b3220c296c8b8f7054d66776daba2d73dd6, 0x5bb1f1be4f274abd4440f0946e512a607a3d9a34038958b4c9f6347598aa0e553f66bb3e823488331899458d7ac1, 0x4a61481882b5aba4dbc9469a57cb842eb20c526eb467d4e7756b434ebf801c20a6d69e49efb359474f73229e6782cbe, 0x14f58b03dc475bec05c68c9e2a5e28f4f000507cab8b9cbe73e2bb3c9434e38c5affe028857b4fb33c0d618cb0a8194e, 0x1660f7643e90ead0a0234a90ddffed1e663f6bcd47ac0126c86101056ed90fbfdc6afa5e821b4bdb24f39e92a78cdd69, 0xf1b15b99fcbb696d5d7cea9bf1f7e964b2321d203babebdf5d58a56f3c65743f74763a965b8e572418b5769b5ea8fd5, 0x16731381e6b3a4b0fefeeec18b79221460bbe251e88022dcbc2180dc820e965e66e596d4a53e92acea87fff6b7b8554a, 0x1554d00dc578b6f0f611eae1041aa0a648cd4a319d539fb6f49ac7bff02948b662585e9447d53a55f42c31c0a12b0aba, 0x615f9e3d98cf17f2d331fe20285949513f1028a96979d000cb6eb02be903e59e20c3f3bd84a87760e8a072f15a0a665, 0x105f0ed8db9a8c85a8d8a3f2e791ba0fb9dc7f54682481f3ffabd1208ad5d86ec1b6bb0076dedd6c083088b1c2ab6751]
def s3 : List ℕ := [0xe715e5f6e2db7b12f931ec000a58bfedb7ce0277a6a307f61c68cd17fa58417fcc90807d6268d5c69ab48d6c977acb2, 0x19535f9ae275f6c89af434701b9b80ebc4b65cbbdfd5980809587232bc65a2e44035eaa9f7da6fa929f13ed6a212c3c9, 0x6e32f42ad71ca9aeacc5fb22ea9f9e758a48fd4e0273bc931d578c7008ef6e50a5c513d65795ea2dd4eacf95ea18a10, 0xaccf14d116bcedfb5303aebee1076e350ac0ab6e993ea523c80f1e678cc496f3e0a0581f4774c31c6aa8a11b421b90b, 0xf742f967343568a196d678751d4f4e87fec1089c9c40733fff7c21b8e123d776f3e0b2dc62ff9a506c14a5e09614c86, 0x174efaaf3eda44d97876d155605e69f52c3f46f6ae6d2833ad9b5c88c05e4a1b9439e1f7b67028b4a7aac7cbc6d9d475, 0x541f854baac3f9dcb455bd6fe899e8dd7ed3307f3072c2c0678e306715d604d5fb80a5ea2ee915605d453faf9e3484b, 0xb7937c26dc283b4b3962f6041be6ec3d3cced555bda1a1559e2a69729ec57cdd9b293649d6d7e3117988845be85dd11, 0x137a2144fd260d5ade39487084384b26db8e4da59593a71feaba8b16aaff6a319fa9cff496ddfa1cdc5c64121ab6d09a, 0x14a96b7d5df395fd8fb6c5f787ee5b1777b064b507c7330e166352a545358335f77a71d59b2d132f62fceed3ae16fc6d, 0x18bd05b4edeb5e7e36a1b25c6f1425e25aa3af7ec6ff03e2a2181e730e94d99353447b3857521b07190e6742bd123937, 0x10ce7ad37f59309d2d7fa473abdfc967287c00b857ce383ad5d08cd1c03d0da208b835f29effafabb0f9181435265c9b]
def s4 : List ℕ := [0x10587546472f8863981252bc38496a4dac53fa7938f36cac969f0443d8a6031593d03886e0660baa60fe5f2e4b730b23, 0x19f43ec246e32135c830a72e5fc1b7406982ab264d9448b9cfacf3363dd32b1bd547866bdfbe4790ed58ff390ff9b303, 0x8302f3a3706ac415cf79db47303ba89b56d87f95a86d256f9b9b31bcd07b886476c9e0738b9551654bb3f1f0aa61c54, 0x1637e010dba5ef0a6790f545224fb0ae024d197f3b30139e4e77b8b1889917d27379bceb0338beaeeddb4516555081f, 0x8d76059a3c00c082bcf21dc1a1c9ad643333bf526e03618fd48c3470ebb04acb46a139da10f2e67ff4c08367e73f3de, 0xbc7aa6886e62fcabb726e3093625bb47cb3553aea804ed0e2ab21184b41c2702f4a1f5a3194691f827ce56c55703bfe, 0x13c80e11dfa082d250a633130a4b8daaf25aa87a2b8c271634de74d12e3ccaf80cac5aafb615cb4611959fd15bfe82f3, 0x96859d670a745101183e0d3b0a299e450db6cea1637931611e2959d049f0f9b6f8c7ad8c32255bd775b9ce4ad9e4f2, 0xe96bb56b3294b3bd76b94b53eff77d7e0496bed0761c2c2e1c469f8fc0412c88d24f01ad4a953635c805d6cdb71ba69, 0xcc219b498237a3d7f098fd4e20dd2b3aa1326fadbec618aa184c3fe58cb21da329f74d461b896b2fcbe507d893fdbc9, 0x839363b6f4e51c54d73ea55047c9b1289492eab5150ff52b38acd8648fb854f47a2115e60b192eb5855797949d9b12d, 0x133f671e0dc361760e0c85e09e44f42d3abd9983f3d6619958fb568c9e4a60e675e4a9336e14ee6f168d4fd902762c08]
def s5 : List ℕ := [0xb58a94ff88d9c8814c4f944df184f6b1893099fc3aba9bcc3c1838593f948be671a200e60d15c8a3099e2686bfeb0b6, 0x1aeda3085e9df8403ca23511be19eafc209fae3c5a85512f313bcdcb9983679d267ebb1b39c10c3c43b682cf63ea8e9, 0x14967e0ee38010f88e3a77fb4c1a0b19bb83b3ccc26d482e9d01fc41e63f036089e08def4f117f19799b093d51767e21, 0x27dd17eeb12046914c7335cdc13e3f6aa36bcd0cb323cbfde71ae5d30e0102752cbc08ebebb6f8b909380c1dee5d1b7, 0x7e3825c770cbf09f81875f668e281df2c4ca3c949d79a571e8e792a2baaaa36ced4e843cd4e37cb0f29c46b0cb02833, 0x8e318a9e6a31e66a11e2d7ec7ea3f39ddeb68c161e330cc6d857128bb3b35d165e03159203e14595d99a377c1f4ef38, 0xc16171ff9aadfbdb50ed03b82dd9a5c29be8541d973cc978fac8a681e20362496d296ead3ccfa860ad43540370799f9, 0x5fec347b74948a5d02bd1e798cccba4625860cb8ea8327826809af13435f3c494a500a915c992b74fac11bb4adf6236, 0x892d36fec976e71dac2383daff4f5f3bc445e77653dceb57d34c39d9bd2801cfa27ba0cea01f9c281092c5547391b5, 0x13db1c7a5fb8bf04b839e91c22842cd227eee713415e426406120e57056afce55ab92dd3877da79dd49888d67526b169, 0x41b4bc81c2f1bc79f9f3b273e1b27815bd7005c09d4d4ae89930baf9bf3bbb250680bbaee3d18b403ada6f44f12a43b, 0xe0a5dfae41e4f576330256303340e69fa04ba0bcd66292a74ceacc55f19f182904ee709f0c992ed506007fc41f68531]
def s6 : List ℕ := [0xb9ea633cc573b98a3533bc91cdb76c7d7d766f732b86aee922a68900df2806f2e64b036e18ae4ee0fc4f04385f4b104, 0x1087f6f5e218db58a75849187b705239ce9d511974787174d36fd01f7883d1db55a87d32c5845e2e86553aa8d7169cb, 0x95d5feda63070181f61c63c84e6ffc80522a27ddaa82d852cf4810c8554e9fb9ff85c656846bb1b3886d8c581fed315, 0x10be1bde2a55ed8324fe743f363f9f3321f9104325e159165668f9bdc0c77afdb61d4c2779e45ee11824e5469e412484, 0x2d82a19cbfaf608a5d9d220c38d7102eb5ccf4f80a49dbe9e7cfda9a60f3160e7c62657171506c009ec170ffd7ce843, 0x1692c968e486397c2ae0efb68f8c6a467b730998d6ba69ec6bb35ae8ea2a883bb0a93af58988b594352bd2fcd4ff57d2, 0xb93b308491bb27b3fbe9e4969f8fff8b07b6b760c163b13c820315c6bf4b1bb5abbd8c8684b524f8e67717e568c9ffe, 0x142e795e3561b32b1f40d3cc146fa9a09443b6e66d1d7e8c5478b81f62d5776a856a5b017c146bac355c43a2d5ed1fee, 0x89160047594884b3183ee6f9b381706d2f27774900aed4b11fb10e9081b5dd33e28cbb8ab533c1531082a6a69488f14, 0x11d06f670f959fb5c595cfc7234fb65fbece81d1769a9101df80f71d8fcb2f22462bb846e96ea9ffa940d960d11a8621, 0xc33a8dfbd978c6514a4fb4434f8408237eb09a83149bb54fc3cd6b1e31ad03547cf7562710935937b0fd466ba70165a, 0x3da75dd29ed65e95ef38258fa3ac75c0953b1d19e6a60db420d66b1649ae656fb5829242b10f7af9931394c6d629686]
def s7 : List ℕ := [0x145e2b803c78bd8040a10e23da1fabae61d193a18092b83da9854eb1adc35c580b9a74c7d0151dd78282ac61313ec19c, 0x9288e5bf7b2fc3700835414de8330ef462eec7633d05c07d994a569db0a8da906346fb9f64dd2e4e7a0bdb67b8f57e3, 0xed82c63b58811f3498e1b7f4f7cedbf0127a4535ef4350b1bab16d62f6fe24c6c841c3adfda59fa75bc64f900cee173, 0x1194d5f7b1cad36ad6d024b4b6e71d969cd54cba2c12ae662590fa04bd7a398d488e17df2f097c8641710af737f1db75, 0x103a85b58c43022f306388348cbfff22d5bc2649babbf448996abc342d761908d59c975f1bb8b4415c68d9599039dea7, 0x102d950dc26ab0b44bd323871b3f10e754f256484ad51a1957a76c395a750b7c2acca4eb848a9c03b8486c63203f2187, 0x1883ea975d0c1afb1ddb3a67df30d0cb8c490ead37719f0e4ca8248227983ffffb9d1b3cb8cd90efd00556d5aee29c6a, 0xb51eea4817f96701a7d0f859755353455e7f7347dd003aae30e39fbd700d8e674d4015a77d4ffd8d03f5731b9b73865, 0x43d4328076333790027dbe26d8f482d74986acdd796c5b7e4c91a57041c3c5f2a261c3b096e78ca1af988f6684ac754, 0x9ee2cbce196cf8bc23b42bdb56869120771efe39fc0e91981f07bbe7aff2b45c991c6607d6167cc2ebd53892acc24c, 0x17768de4c229065e382c46b88068789cd6bbd13ffaeb09583cbc70fa3da9a4f4bfaf4848ef5dc7614ee48da59e460fa2, 0x640724c7f54948e0cef9f4323e648fca6f70ced90374eeb283cf951c07f9a7994f97dfbc5f4b2bb144ee16596692b32]
def s8 : List ℕ := [0xfc1ebf8170296c61a6f4ca044c047d4d99db9b043d44ea624d79ea4db4e24795f862e0cfe9725228b97f818dfd3e2a5, 0x74c5a81b5aee1eb9870f3219e9b990931bf300ae9f07e4410d378e83565b26f051002a29623521e1758362fe645cd9e, 0xedf88f1a9172c21b79e0e82470a6a8272885af6be9d411021e66c99bde537750f6aa921e076d855bed30a0ca8eb13f1, 0xc741b47f54f39bea372bcbebc6c86197f3f9e5facf90b33cf1a45f7e5d1043a85da253c0c7119fabfedad05248ad5f5, 0x1542fbfb7dc131af14b2be6c5efb246f1d99232746e7ce459c950f4638cc5e5971c67f84cbe1d3763e4425c626adb482, 0xb1cc3d38af1dd75971b6655a81f6c6efd209ae4862275c92c135404e3f389b58f16368e4723bde9f9244c2974bb84f, 0x110f15cefe78ceff1c1e8fc74a27196ea545ec311c2469d6171c4f158b60282c22c877c2841b22cdccbb3dcc4017445c, 0x123fe0c52a9ccbb92d59f2174803f68395a757c77aea61dd9db7490f65aa18aa048cfd1336e07de21a6ad1e708534f9a, 0x10e2628ba00d4186bab3c131e474cc3f615cebef575e4bc540b33df7738dc3fdd71d42e3db60eded0315d3b12edce9b7, 0x17f9bd413d9d51e2bbc85f63d1b2d44db5b7e1c0e5eee42f043b4e5eaabba315d10e05db32cb30d272e6a8477c7f7e4b, 0x144f6f5dabd548276af7173c05a9d1e1c8c1d593697b97266b34fb2af1605b0b789d59c0dc9d0f0c93f5dd6440e07f7f, 0x2dbe174dd4643f53b192d6baf0de1fc123fbdc63545143cc8d2fb53f9b6ba22d3f7b619ca3b08e9ec929d808747cc17]
def s9 : List ℕ := [0x14f6543ccd378057573d160fe252ca6e3fc47e1faefdc0f61e4f56e7c0e6526d5461186833d1041fb67b5885ac30f9e2, 0x15ada6cc8727830dab77e9b173030166591a572db9008301b4badeb8060bd83e0d7353f1d292636053756dccfe0b348b, 0x19c85de9f1c907802a348dc7540c529cc95c38aed62b33f98d27d20ed3e60768b732e4c0eafe1cf59b9f227c80d6bc92, 0xb3fd787be569d37cbefeddf044551118f0c697ddd26de75f81a437aac280a2b39d7ad2aaf230a7add7c727547659e3, 0x118b54a1056f25d0d76a8706ad4bd2b97127b5d03a0b6489967ef2dda7123a7c6531d4060481d8ba5ff490838d6647bd, 0x121da934ee32471c7d82997d24e940f068055e9accb05daaab0194d203894f2c041e1895ca09124f06ec8a4050af9f10, 0x13bb15a056e36b24023c4559f3f5a5154fa3df7cadd79dda3d800c86fd3dd6946ad8052506d05a1cf5ef282bfc673d09, 0x738e1bdc659e5e3147a6a8182a5f361836657db92e857e2ac9036e0924d5d2c66415e9340f5308363356e68e5ae6171, 0x190ae538445e411bdbbc6217219624ac6c8f91590f70a70f8840289f55abe21543986f8439be40b50113af4f5c561d9f, 0x175dece9c3337fa4022f25abd95c155127bfddc219a5e5083af991ab5acf452bd0f2269216e7c39733e0659a4531a752, 0xae21e2d7c645bdcb0489d62b0bb072382b25d937a0820b2943b1616b85db7162766cffac695b9ae7f6bdb3c4dd85263, 0xfcd9111503fdd9593a25761851636e1bd41de4943f64d1002f800e739998afcffc4077fad997c46eaaf3efa749fa394]
def s10 : List ℕ := [0x18d190f8243c4ef88dbdb96ebc2f57396eb631f204220ddfc4e94116b9691b3d67035419f935783b0e192df8b625accd, 0x11a7ebf89dc8d6264a860bf655a86bbf93ea72506e0c6008cc13f6cf02ffb9c8aea04d6fcc7bdc2c8250c7d3e8c708ca, 0x134976d33d18eeaf64c5fd5928d8e21b53d11e8644376a722c02a2356416d7424a27d1d571daa8f12573e8eada0e774e, 0x1eacbd101a33355b5e71bdda2db5d17e9e02719ce42b222a3dfa1214ce143f43bba4b1e6451c53015eb541df903dee3, 0x1824cfc0cae22f5a7758f684ad89d7a04029488784c6c6849d12c98a7c7179350413e555e5e3f3787be70f1907d6a13e, 0xb3ecef7f130291d86623efe16ff04d1461a919cf46f1ca86973d255b5b262a56a533bdd6ca7a0ac85092175c2c7f8f8, 0x1394ff608d51c06641e8935544b23383668eba21cc5d21869596736a70f7f9cf3754d9f1ef64cf686a33ad8d9c822a22, 0x123733cbe8fadab0499a0253c594c37dd5f38466334b6fe4070f75438019ef16328ac10ba47d4be9912e1ee0376996d7, 0x8b576c86fef8d686ea1f34df8238c2e23a34410b7a94dcdd5f9f76aaf49d26adb96396703bc293411caad63996ba8d9, 0xd4be733f1191898a86df4b9d958b59c2a9770310c6dc1318dcaac46a71d87adeef9b399c4860806186407e136b3564c, 0x14d54d453f35a44f6f625833a5ea54d176e7a78593c267038b0bffb5820c4bd87466beb7dfd925a144629c6bbe9e524b, 0x79a5c7bfd0d5a76c7c37dd2b43cf44558fd8c2e4b4991a3b4f7cf0513dae072d6d29b123cd9cbd07e8a6b01bdec5b0e]
def s11 : List ℕ := [0xbceb4db319aee4f6be159486b1bba0a128dabb9aca57b23162cb5898e242023d0d53e97d113aa99d35f02cfb5ad2d3b, 0x10790e91f5952d717fa7e717cdba0ab136bc163b527c1c26d6c28a6920d9da878ffbdd3fe7e29d34175c84b8fc94b43a, 0x121a2d04bf31a369debbd3bf64155693aa64b00fa915e0d2690b760eb7afb093a1ebb7f465e8eaff5e67b2efff5d19c7, 0x14b0cb601e662657c04a7f757decefc8822795cf0aba27ed360a8c266965efab15901bfe952ff14fb1853792c418f535, 0x214a25c611b36372bb39211cc806f4fe682cef907f496cc91533d9c420053d448c92b71cbb4ef0a769c13aa80ca29b9, 0x2fd13260cdc176c9b31d39af570e4076961584692faf1771969a08848f1dd2df1fd54fe8444aee5caabdbb0b87235a6, 0x161cd5d11bdb169569eb5810d581d78e7c9070f4e98905dfced52f0b5809a96db004e6a073768e42925a5f32d91c4af6, 0x19befb48fac5a180d2b780fdf9e29da95e5f418b043bcdf981f54f7a8575ee144c7a7b7b586a824def8ebd2df2e2155d, 0x9b344b64d194b858c1b748fb426e6435ada92beb3122fc18b1989f2e912c53f12916b8ca5eb235036ed528477b57e94, 0x1012fe18f0eeb2421c28234bd96e6673015d8eceb2a5e8ed1d4d222638a2a35ff47ce80101ee659040e781fc7df783b1, 0x16e199a13049850dd726390dc42090d64073c38265c9968998f4279df20ac1ca94ca3451510587c9cc3a9e9215560f9, 0xcad7bd1622fbdfcf88b98fb961ec717be0df8634a1eda972c34c53d64018a87369783a4bc6c2603dc4b021dcd576592]
def s12 : List ℕ := [0x14f1ae4a36c37b1ae084d0ffb362ae1ad1159249618053898beda9f275d8fda4bade6f598091277585d16763dae72ff9, 0x1101f0f7a569d35b553cd31a48f0fb1d4c9b5bdb23f2183e058e132451fff7abaab9197f599abc8c093a0dd6d8a056d0, 0xebd3a937bae9cd64249e9694440eca8f027a9ffedea74de5edb843923d9aaffc4d92ad47c5ce4350583eecffeed4b28, 0x169ee105d0960352a78b64702cbbe6f5e89061bb596f83bb0553e4283f62ce74f4afcaaeeb5cd001da10c3e3fa640fe3, 0x1024d435b43369e2dc2149f16e6700e70b162c9675cdad8a4ad36f4b6a00818db145ff80c8ee78747fe77ac1624cfc05, 0xfe0c4c78cec5c39248cea41aef117beca5a731d2d5bda6f086671a0e5284b272119c72f167debaf93f01a376be793c, 0x38e5a4bc6fdfacfa7cee7b2351f3d6323f1265b5ce99d8971ca588bafa7fd2c98406b101cecb032b9826441fa355c3f, 0x14eb299c99816c0f0c9dbd5cb7902ebf1b23dde3a06215758965d6be7d73750beb204caf74d7ede9066642362209cffd, 0x7d7689604bd0a35f6550d9cbda6af92655a4eff1f4be55176825156bb0b350441ef4e4105de35e8b68e025d9fb43b65, 0x18351659d6ce7ae3943f1a4517b7aced6466698313fde37b9cc4c307084a5652719b7027731aeacbfc07584c65b19eef, 0xb0147ec4f5d54f37a775ac171d2595bf53c5873d8c05ff549fb398f9a52f1785d50fefdce216911284c7d6f08508586, 0xe33c6b562b4eb23e2e0c2d55da7ab1f0a7e3735a873c81f8168812673a2cfae44aa706dbe284c5bbe36918e880a3e5c]
def s13 : List ℕ := [0x14dcdf2c34ac5ed554f008924dbab19383739858cf732e1f7965f414c2cd126faa434152368021d5855271dbf33c3042, 0xde72dbdb529b30318a85246980d44aa639b3c6c70e17ff1bbd1927ac3d21019672336b6850262362f87d4f6137ee07e, 0x13c5940866dadf554eb40495b5662a50a07526806b0d6181b8a6170696edda98693f2da77b333ba779b72ebe829cd4a4, 0x979c5e6114d6d56043b81e3a2081db15b62f11eb57ed0a180059a58a6e5c6246f94adcb810a1dc1b0a02457b7f3e33b, 0x147c1a67b6fc12a87c40b5223ca2f487d3c734ad6a9effb4ccbf27bdd3787c4a35625f40695c91d0ca0b8b794c879017, 0x3b4c66938f1d79c70851a6ced1a79eae61f6f2df1020045599d7e35eea93c3aecbbeadd7812055a44d954062039d94c, 0x2a9e4145f357712658e7fa0862350dd0214ad3cffc245f09b8333caa26f43593bb5865aa18950ca6ded32c59123459e, 0xd86954d7159980bd65c994a9af2c1de07fef94e576d69f641cbdc57bda23b1102c4b2c242f4567fa5f0b9f43145fee0, 0xb69c48ac159164122527178b8e188baaa97ac0955030bf438a33ddf63097127fcd29b000299dcb1015324a3c7ecc5b9, 0xa2a37d1edf98e154c43a8e5dc61d66332a79f786f255504137f719224e7cb88f6eaabe236c3dffdefe9b4c0eb730f38, 0x932b5ce24b8d3fda9f605f95879bc5cd8e82c6736765e0bee2802da622b82d360ab75f8551bf21527cd259ec73ef909, 0xe4099564c9b1effde460bf734cdfdbd4fb51278abea844f3207e8d58387b8e27e326a132f58d94ce8e1806e3a8c3806]
def s14 : List ℕ := [0x89638696bae947b5482efe5de5a324c042ba72811da8e22140bd203110ba123bf25ff9fe02bea0d6cbd9e6082a4a553, 0x16382a91716f84de68be9a94f7a28ee505897d9265a27788742c61f6de9e999d9523b81546707692cbfa67ccd4127429, 0x16092d3306e13e8ffec3a60ee0cd51b393380c8e38dfb457e85c50d2a164b5eae6f42fe1c4867d6a03130ab446551165, 0x10af4f26fce1763b3341613ecc8f379c9923b4c5f5b39ee24c655c9aa8d4761c5a92a4fbe10ae95e04d8ec01a7697561, 0xd08f5e61ed432f793f5c3845dd24326591209a67734f7552c0bf85c14634db4c40429a00475775d20facbfa711b11a9, 0x557a55338ef127fa6bb0beeb6f0692b933e66a5708d93f6dfacb621925d4269110f1aeeb2a72df7ff8b0ac9a6024c83, 0xd64fea1923fb68fe6fc9bbdc32b147fbfccb4fb1904908726bc9b013347e8b962b40a1d7b365efa5ccbba4bd74be857, 0x1969c892f65e527c3ba78e3808f8d8c3bf0f472da4cc857dddb5761c2a9be5cf1a098308c256ecfc09113c3c2e63062f, 0xc8bbb7c7b92032b4d265124ed4f8279923a63393f13c32bdac665dd216f0f9f9ba34ec668946c3d8c6c0a60f89c398e, 0x2e898df12fd14837ada6c68ca986ac59a150537eed1fb9a1a330286fe5bcb3396b29cafbdc4c1d534304cc9cf49522f, 0xab1c8466a5d76a3c388eddad27d9ff5ba664d41f4ece4143c36b172c7adbef7d8c1713641212491a23292328f415c8, 0x3fd06530f43d9952bc000305b41eaf4905633b6135d96538cfe28bb861dd2530d8fd105c3e7f9707e4a070eb2d766ae]
def s15 : List ℕ := [0x381ad2c40a79306afc796fce330ea0d0bcc4cefd9f61fff2020914b2ec4109e63745f587c00e166a76c9650f8051b2f, 0xcd6d63800d93d22ab07d7b6c38a50452f956b00974947eca2b86854d30ec6537f58137ff5939c400a9e03f383e7e169, 0xf6376792ad13e964519e7c28616e78f72b1ab5c8744b132ee9d72cc26e887ed265f3876ab1c8e0c756467e1065f5621, 0x199a1ee5167cd14750b243ce93ec9bc5f22096852c9a23fd4f6e77582ded1626f3acedcaf8c2903a5134142d310990e7, 0x10361a1a6e6d445be5d1ca2a3d0bbdf612b1eee067c2ab6cadb4f1155870e4445b313ea87fa99cec4710ae839197a32a, 0x14dfa8ae141a9b2445432e89de2d9ce1dbba58517b523eea0dab0a1221ff8d4c87590974348214e3d02d16b1e2ed5363, 0x70f191e4d1778261d319a8edd80c38c670fc95f0b037dad5089a69247a81ce766fa283240bec15253da8f0c2397fcca, 0x5ce58dd54cdad3b9f9cf72664dda7fa8b8f16ef21ae5ba65af937b85da4659d9fa82ee2e77112a1e4849ac924d8b4ce, 0x162cd28d6ef1d04d1d979e03376e036a7b8cd708c65e05d2a247b52c87b294d85d2259c483d1aa878e42c9760f25853d, 0x17e055990c27d87067eea2896fe7f1358f3230a932067f33d2a9f140ffcc63c458944c08b5cf6c16540d43cf76b0fb61, 0x32d9ee6a1102107f1cb260a80608ee35c9366e85d7f3d714f789e684029ea3924d36fcb4d6e8271c01e58861a2c502a, 0x15dc43598fc7c326192d3262ad14b56aa51adb716de5b414da4c86465b689dc0715006bf52f7522144d0d9e5569bb6ba]
def s16 : List ℕ := [0x197a40c508e514c301c765dbc5e3312f432797c2917a392123d1b60c4b5471404f89031fbba8be53c492b8cc59473337, 0x160a624acffcce7eac9d3cbfca386d2658d4a8af0ee50e2bba87d2424a078161af7f39c1cf4ecf337ae9a0a9f939430a, 0xc2a48b6160a86c940f504fde655704aab728a9a669852595e801fbff6dd04ff6f7b01b6bdf70a7ca935c0107bfd1d9b, 0x6e91c3f6d58acba5bdfd31556eba64c0d81cfbec4322b2b3772ab5eeb9abfcfc0a2e46981b8083e73a9dcc7a56a5c1, 0x603a262673da9cab618269f63b468bf69c2f1d794a23334f4757d60212c52141be9ddfd84e87127c603783cc37e100b, 0xbb45ab222703d37f05f9e125677122c58083c83becc433937228cc54dbf28fc81b5ae98ccc367559e5e24a89747e8b0, 0x3b88e5bf42dc16fc3eeaa4ac9357c193c4f49bf3ceb845f85476d42f1af94c2246e45a53884b98b3dd41353120a7834, 0x1537bb86589f7effa419740aff6782913420ecaffa7c93080ac8f98be80b818404c87df3b4c3b2775e82d5132352b61c, 0x17253ec2b23223b1502ccbc9f00a18d5a8e0295f1530876be32af32bdd265595e9151a9faaf8def23651ce93fb073286, 0x1023e747477bf169bd652a9db3d656ad75f16241623a06eee1a7f45e785e47b0098cabf115f1611156233ed0af10a7eb, 0xa78cc5c859cb7cefbd31c5065e9e6667e2da902b2fdc86f93ed70afd4e351b04c6d7b18f7903ddab60bd4b70b2906f, 0x12878f3d9fafe596d9e8f97afdb731733ed8272daa55da618de8c02f315d041727ef5662babb45f0796323a829203bef]
def s17 : List ℕ := [0x69df7c200c096a1b37ef34c29a7f9350999f0f2aeef8b479656d6897eacf919c7132498435f24d88ab56141bf711625, 0xd782a75ef4ab995029fc3881760636d8a99f7253c92c88411d097ca18d6f7a87730f555bffa2b9ddaf181f044c59270, 0x14cf03a58bda657d805417891477921054dd794f69a25fb0cf2e768b63d7d528e9918c6b6b7f2c8672dad8bc0fc1c319, 0x73008cac9363765a23e7decc63ba6c7f9672eea0138382dff798321e5600df0749748b6107c9210e8ba52cf42a9e85d, 0x5c38086c3978d74855d501d62613d83bbf07ec24b92bbc9e2aa131c8515dd87fe7034b128fb70a04bdc87495c5a121f, 0xf09bc0bd9b85eeab3417b940c3367aed4e65ee5d35e250524bdb6d50c5ff3c31ad1785d10f084677738a64aea5b8ff6, 0x125f48ef5d04e9e919ddf4fe37ac270839078f855f33f9a7c9384e0f16607a82d2f30cb935e7c5c2bd67300a08c51596, 0x11c85f7f1b92f03e8d2e7ce1c635d2213924037038850142180c6ec1444048ee7a43fc1edcb6baab0f0f16c4d8c720a5, 0x92220a9eca4c055b121510a7e214d43845e00543823fd75ed34cb19e1e7cd362f5e6f839b71db48a9fd421563b2f56, 0x2ad688a460598b37c5ce6c975127727a3349b8f44648c5ba078e521ee02a2ee985c0824bb3f4710e3b0731830eb1587, 0xb382a34a0b977b1b8b4fed9ef46d811e8a256a6782fe6f23051f9764b41a428d7f5e91590745d79b1c17dc2846ca0a9, 0x2bb0646f0d0424ba51f78ae0823837edd7e5655318070e0d246c9dfe43a1ed5a875454ef9a163fc17f6f05c2c0de095]
def s18 : List ℕ := [0x5a1ec36b1b1f4e4cc0a1eb7c7e0be8050d3d412a532d6252c03433804bb17bfd44db932a7728c1c4b1d669a567e39c2, 0x1363c5ec9acccb64d3a79d6e2f19e745f0e1b9d8ad8fe4724897b7b7af3cb9ebb8d34b6ec7da6083426917643be33217, 0x1a003aac1e320d4c999e204caae9d96ab1e231fdacb9f7bfb41e80c85efd65bf672de75e647e935d27601eab40b554a7, 0x47aca86dab3e73fe7bf213becc7b502c74ba93f6df824d9f0b610b88e130dbaf63a203540e7a998788b614e0f173959, 0xf8a412fc1b8f4a70a3790482c5de29ba4e9ada7aaa4580f76bb53899c18692250cb5bdbe74c2bf0fe15a2a4ba0a4a2b, 0x186cfa1a957cda68f3b86e6168ed44ecba36e9f524b84ee292638fca50f1f891aefe0c408a18274df7d762ae3c862578, 0x85fc2aca5748e5bdc34c9ce8909b0666087b4b821ba6e470c225e1177eb1bd3d6aedb3b8298d15eaba7699860ee6688, 0x12016c7f521b8316c43012e4265782b9a5f935d69a180956133e9ef1c9d9cc586c47000b4b7655d94fc0ee7721f0f138, 0x820d1706f46c693f64a5240334137cfafc152ce6108bbcc6300736ec80ee55f62eebe5115e3d2c5e9e39d88c0526798, 0x6758643e65c07183db3ff565aeb893308832b4a73765e43391d7f76bff4873661fcacad8446a23d222d3ecdbce560b1, 0xf8b37b2a407d250a8166b1083d847e93fe2e946e2f61f321b5ea480958cdbed24fa0c6a73628c82829acf236ed1ba12, 0xe4c04ecf084c3a02b81d4ea339abf5dc88f0560677f30440621046b9bd8afe2520628dd2499c1fdda9884a79dd4cc3d]
def s19 : List ℕ := [0x28ed5181a8ffbc8da33c9e758dde686d81e95b49e104460bda7f8a971ecab2984147101f51ec3faef3d327f6280bf7a, 0xdaec873d0775669b897cc5eaa68cd77fcfd408c139fba4cf0010ebcfe8a419379d26300d622ef8f7b6bd4286be672e9, 0xe82ae91d4b26acffc2d1ca4bc414a4fbf7fdf392846ea0b7f378f45e1ad65d6eefe4ba8b807892d529343bdb405497c, 0x4f33693bc69aecc1e701ff5d2e9cfe113e65112dfe87d82d6667fa18da8a161d8acae551bbed76ebb5c9c0a15744f03, 0x1042c31d9d05432358ca09257010b6bf7179cec4ebe7d550a5fe942d46c016dfdc8508e610eefc63d35919d1b8f56888, 0x1af01aba17f1191330cd28cc67058c8c9df221151da99177e20423005645c6a0319f4a2834b5e3e7f968930c0e96b48, 0x11dc89d6d392eed00445eae3e88a509da00f3de261423fe3fcceacbaa2639f460bb58d6e34fb95cbfeda54aa63dcb7d5, 0x15cdf183c231e5735871c854e5301528ef3fa5176caac039ae430bdd75583a76ebd0319b73326d0c48ba3accb07e61ff, 0x16d87110babf06728e2cd4b95fc51314e42b407b42f14fd7613109ec46586a996f46e23ecb6c1053f0e7ec7677cb028, 0xe09467d2028660dc1342a7b500e4ed2ba652f261c373517ff3d94cb257bcacc84339c808b7425dd185719bc476230f, 0xbf7a3873cfbf93d8cf88f7d3ccbba816b20d0b7f4f9bb7aa9b231e8384c2e884a71dde2c2821f5d0efbe70f67fbe5cb, 0x17622d49622ec4731579eff0eeb7e5df3abf4023fc0f84848924ee24e51bd07f6262600ac017f269ef98800550545ed6]
def s20 : List ℕ := [0x26d05384dc17c46a9e7145893e464603a9313bd33f0f2b958ab434bc2874fea82bd8ee39fa499eb5d519d93690725aa, 0x5209416b95b42306e7aa7cdb8c7f4194c0132f556212483a96b00770e6b157452d068682b5fda6bc82c46dc6f536c10, 0x1f2a4732d4aa964e247061a970cbd83971d0e6a41007dd244321ff137beaca136eb0ab1ee6e8c2b1b5b6cdcbab3e2b4, 0x163d3884bc03e7dec956de7ce58e436dd9bcea3c7a27d6c79d6759f9c2a29e489c685645c628d21e7a577fb1732127c3, 0xc8209dc1e9af1682ad94a7e35c8cd2c56474d0c800fd4a6878d1450b6115e09d2953e7f059bfdb613aa5cdf47d5230a, 0x111e289d7ad12f7fbe8e0a61ec918d7f02f726548496c582e2d1fedb6d19487b8f345da24776fcb97b6c1c8868dc0254, 0xbfa6a4a8054578605c63157a97a722d1c5d22b75921819e66659679c7c51aa68cf23cc1e5df73d713fec50915c02955, 0x509a54397e1464558b767bcce37a943352c19f4aadf62b98d7b758d7c3391171def3d9b00c871a6efffe858fc94cca2, 0x134ef113323ca1abb9b09fd50727163aa9cbc882fe1cca4dc6e58db2f2007b4a491a7207c6ea93e6ac239926e4d6bfe7, 0x1533b86951dbde42982d8d9fc137acfaae4b286e8ad7bd3f1a7d599a960d26a36b45e0079736671e78eea730c918dbe2, 0xa3d9f0308578d38291bdaabe9a66d65a5a9d6ee7b4512a7f9135bd9ae121cae184324a154fe66f1c0558d2dfe38b3cd, 0x8f2c1b733f19ba67a36ee150d66f7805ecc0b44d84813034f32d65b30b0b29fa0b89ec0c9ba16c41c1584e72565fe8d]
def s21 : List ℕ := [0x11debe57ff478e2673a573a52e912848b79365ac46e0beca6a85bc6f222645a3d54b44ebd0346c8aa3189c85c8ae36d1, 0x69aa244002d60bf36467db216a70a95380fef194e88e9029ed00aa9ca1a5f94fded6dd3fee81187d7080b525d6c2709, 0x3602583a726fecbdf739233edb2ba1251bb1ff5ea6f28b84673eb90d68fd1d9f2a8bdb54576a419c2ec05871a054f53, 0x92b0ac407b371415901a028b41afc6093daf244476799bba7ee4d6ed4e345a6a0e2134e248b282fd1520744daa60f70, 0x157869965e4ed6175f728c6bd258b51d65761b467d4db5766410a3a8c22c90b1ab86355edc358067fc42f946a4e8f5eb, 0x73d836912e96529828ae053915974c9ce10d6fa95f1e511b403617824bde183c405e19f6d8ce58cd0bc6211859c836f, 0x4720b4771566a8beddd11d1dc28fbb701f30f98d03126e367d9e3e0b4928ccf1122c04045f71db545d30da80cb64d91, 0xadfef9fc0557ddd8b4ede3546ad776bc7b1a774cb5a4b19fef7f776e7a51941e5b2cb99e5b39c5ee732196ad5f6da25, 0x11d9a9b03fbbc90724e9324b273485902a37ae7473017a276e3dec297a858999b6de38ad31db061fbb0bb67d491da4c3, 0x19d7e2b4668db47d3155b98992a83f50325888b5582285b0aa188f55822a62728c98f9d1a9be83e46d86dc8476d3954f, 0x3d33ddcc12f1d7b606d09f2ab4c3820d96bd89929a814a85c0e9aa7b3ec9f87e97a5d7c5e7d25da4b217023a2890385, 0x1766e08eb195e1bd45b4e178d19271df5edc5238d193b0074812d5406914ee010307fe4dda6c6e4d2361afbafe964673]
def s22 : List ℕ := [0xb37a83db94537cc8d524b64ce907b080ea73af75bcae240c0483a1d6e4d61f35463957b966a5c14e6307c9a1984a0f8, 0x66951b5dbd31be42265280f1e1c00acede2b20432cad7d6292202b38900a91be67135c5d716c6058f526a051e4cebe7, 0xcc56ee96cddd1196e19fd14fff29092a479f10d56657efc0e956ae60307ba34c9746f655bd81d4248575f38f4eb7bd5, 0xaa2570150ff58e68154037957fbae7a3724044b93221e3d64c766ee4a3ed019c0c7ea5647e45a53c450c890fea10bca, 0x1838e60141bfb2800eadf328dc23fd9feb167d104c6e32c214fdb4d8833a10dfbed3f84a6d4eda9f583e66e886836dd4, 0x7e3bbddf716a630abe809c8c846533a5ad834d568fc9267e03dc5105a30bf511fc30d1c37064e7e4f792c1d4ee6a861, 0x122b5550037cca6b1dde7edcb49e6e1ddf9544cb05390ac31f450d1cd259b790f1df598b7587017901f62f808a54841e, 0x14858ecc32e0aa453d5c88e3bcc7deb32536ec011dabb77afe64d95b501cc1a913b354bc31125dc001027121fe32a0e8, 0x168df7cf78dca274a4c0a227f89f73d2035a6692161a712db9f6998177ad0622a6b0a58f186362b143a49c6d28ce342e, 0x12c26b8e739c4b4a5a005e40f297e18fdb729beb77bef2a2ab329b83dc61431a8c0d93a060a5220b7bc66efa4118c090, 0xa2529b83a45b512cc643a07af7e3e23b744e9198c98903829765b4c2f587ecb5a8f1c46b5c53a13dceb2c6a7dd92dfd, 0x4acc6b79bc1640c8bc8e168582f1c5cffe3979d80cedffd29175a103ecd0ac7db40353d8de30fcf1df473e5c3bc998]
def s23 : List ℕ := [0x63df3def673d0d4564846f18827d82f37a61eab0e5000c3a59e517edb35aa2f1038cdbb8cde2fbfc3320a4d75564ed7, 0xf9d46a4754e4e1608ee7645376192d5c6db6d72425e74286d18338b7679a7a9f65b7e0118e8a7c6897ee0504d7d63b6, 0x11a03eafd74e73806db4620cb429d4621918861f41540c7d9dabbeb88b1ed9e7b2b4f1a4b8188b9517584ffadf9d5c90, 0x181b90915483340ba902b1d8590f27fa4acf0b7519f35c2c8f5399e3cf0075429d9547be48aca1ff9252f81cf86d3b98, 0x274bbf1ba7d26bcad2c2428a5feadf7d9cb644bfc1d9cf1693bfe4f8eaa4b1da93081cd87a837fe0c800549698379c, 0x15f980be22348dae4592ebb87676e74baf46246521ce547d126f2e69acaa5caa73a99449bcbfdde6f7d6624838ebc150, 0xad8218afe892412df7cd3d4246142b90d71fa69939881cfbe441a13bcdf97f0c779dcd388be76c109a9851ce7871563, 0x123f0ee469648e0be3073b854152003f0cd6bd8ad300278702f62ec36691357d04c9570207042de3c9abf54fde888dc4, 0xe51d644cf479c06724bd2eabcfad6f420600c620e45bf3c364b37c73cb7701b7964ec86eda9de9bd070de200685f883, 0x10b748bcd39bc5539960f0f4aeac38ee75d492f280c093b99c685a96a21cb7c52558ad73be68665971a15f5d61feac3f, 0x5e7c0ada87038a2cc4ef9e32b3de40749791c0f994c8cc764f26e8626bc403a4c04d1965b822b470ed0411391c1def5, 0xc79e1a2877b84fd82b860c92567e5e77ae1c9c96c6351f5465ed1a361520d94885b8f2de0827b5b0eee89a799a95b03]
def s24 : List ℕ := [0x13c8eb846daee237d23a6bb79f2fb6a151ad8686c9754a09d145220a790d74437e5dbbf0c9d72616f2a7c82ffa0090f9, 0xba040c40de4ed17d2345243b8eedbe9e12369faf7494aad72cfce3066e8dfe0cfa0cea0be2dc26070a377430865fdda, 0x9ce05b90e9f31b6b1534ff386112a6507b96accfc0d039e8034349739532e1d955dfc4a28918c6c832e2e168c01fdf9, 0xbc80bff3200c1b32f35c77cbef16e58fad8f4396f2f5e2470bb976eda9c78f5fe6e02bc6ee02d448fd3dd8f258bd94b, 0xe34267208a4220417475130e3b2b33e476f27fdbc1c8be6f7fc4207bbec9ce8831c8636a3293406ee79b0aba965866f, 0xc158488ccd5037bc8f21ad6e08e1aed1c0c188d02aa9bbe2a23ba4c2103885c1ed639a6feb745bde1dad1c9418ad49, 0x19631eef2c6d38e88fa57f4643fca08c357130e28bb2dc8e4f7a5812404e131b5f8032e168166fd356a413eacce237c7, 0xa735c5ccdc2134e645a7975ff3eca84b3c36f64e4129e298eaae025d4e8f5c1f433f35a739ae339fe40b79a101b4ae3, 0xef321282a54eef67e4dfd6deff8183a2e60a8e1f3c044a628b52ec1d961a524183cf8eea40ce030f3aed485f552f724, 0xb0dabcb3a0f5b6fac267c08591ad5bcfcdab7d84b0d4013eeae5f7a6acf2dd924a5adc895e445b0c5c411292c6d628f, 0x5f829b54d00d72a4fcd79c4533d3cf243daa245e75ae2df58ba20adabcf351ac052ed53140139584eda9aea16eff0c5, 0x18dc3a3d44b0abf0533a83b17b3516466e080414ef629741f571de1252668203e2a7023f9c85a06eaa6d0c02627079c4]
def s25 : List ℕ := [0x5a387ee0bb4c5e1a4363ebd81829c3983c476ed40936d7d545a60e146a85c745e6c6bca78bf057cecce05252ab137b2, 0x93c67bed0584a2a9d3e7d28545161b90b4bef39c2a5c3c21d5f115fac708443fa7336a06e15043892329fd552d2315b, 0x456d52d7c5e8549813f21702ef09d2d56d4333ef969278d8d80fca5b43cdf60f830a85e0d3185d8edfbb878dfc0fe66, 0x7ae7b0e5c77fa7917bd5147e396047bc7c93a9a4c33a004e50e617221e377b0e54bdbf7263544be7fb149f6fd553450, 0xce1b6d0e2bf81efed5a0302777e5c38e99ea5ae534557c8109cae8bcc0e6d8fdd9323fdb3fd9776f3870c46721cae37, 0x1602d5454616dfd716ad7ad8e2dde592483561983aff0a1b1020ceb93cb00a7127d678d88d0367ad95d3c7f74dd687d0, 0x4169fffc1120159a018ec4aab886e0482d8c1f105fe99f85378c6b4114b9f30bd6763d7696686ac0ffdca430f447cd9, 0x8a3c0d2fa331dcc4a713fb9200e95b40611a3fce5450931ad9c88025bde7ec2494704e5973b47a7ce121372f36dd7a8, 0xfd8d5994574cac2e243d039508dec1b3a4831ee396c51df44b207758c43f73bf82d14280d4688a2bc9fc7551744fed7, 0x3d4d2f11f7ddfa022345d50f496ea7188fa63cb2c8dc5cb1edcbe9f6648505f71cecabffa4bbe170224f3e5f9c24133, 0x48c6160464b713f089b90e10b322c58e77c168ff5dd98ebca0a4063c2f09c7cbc6089d7cd0ba5bf3ff6a62f2e80fd46, 0x106fbf2cc754f5b5156c30ddc29ee5ba5275214f1ca3469416f1c6aa540e27e16c345705eccd717ae3afe5e14da975b]
def s26 : List ℕ := [0x1305779b3359faa29e592f88586db0c2a234c8a72cddbc78704e155616146a30dadaa9abd4cb9cb2b82a4d5389898fe4, 0x118960b7c5c6ea45be5d5d5ff619c73e2749c56dc6bad9d45a45a8038cce5c2476374dc18a97d95629f14ca0ac6ec380, 0xbdadd2349a51a99784b567146ef4c8fdfeae7916336c9d2d7e915be43d6a6346d4a5bfa08194ee5c31b3ab564960d3c, 0xaeb3ae20744a935a1d712e5f74997e57fb6193062e882f8b63f2f0d216095b5981268ef12d29eceb34b7378fd2d76b6, 0x6302c83acb43c688af2d3cc68ec734dc4a20e2b3b2e05b71edd1bbfd1a7fa890c54b16f3d9637922186efde10713bbc, 0x18c2ecba331459166303afc78ffbc5c0bccb5fd338da1a74976741f7c2fdc0520252ed3e95ebe6962398ff2e350bf113, 0x96e1770393313af5a1c2ec76f7f6658ecb261c3368bf9e91d5ef78287d255054e092d30926bdacdd8f54bad70401c14, 0xf0b45400ce938a5b7c0f9acc69d711a86f92699e58c38c460f3b8f61b0608f8a5159c06029e75fb9c2e4164138c2145, 0x11b9a4ba6093db1544277714fe1e09f2d2165f4146b739069aa3a923f74a362aeaa6f623b3918e6d6a9898ee627b53f8, 0x232f79c48a081ea882d76d981f5ebbb28409783c0d96bbc4ccd951b49ae290db2c4bf2b6693c99ce11adfdc01fe719b, 0x921dd3ec6e4883badd61c1e1acc13d7f6e3447a4d8b5a9a2b070138768ea61273ed9d02532f1606db740462d4f3a10b, 0x132cdfde382a218a39cf32b5e2abdc1d36aafd0cff4d1cee6a2285769d4e4455d953e88de6017fbd200944f4284b8564]
def s27 : List ℕ := [0x8ea00a1fbc9047209c87c727fdcad47b29979c37ecf67b43716dc5c95d29cd6bd1ad14c6d670885e93bda66496db08d, 0x18c7a0ed3ac8bcfa21a658b03388238043ae5cc1b44c30665358923ee82b0e754421df305c4dd3222ce8cd843130c4fa, 0x171603f1c9f2a16ccda398ce184fec94ddda6fb144e9c6e31f3d42dd93fd48766205074ce4d25d01de28cd79c4ec0074, 0xa34f2c7cea6cd656adf8e9bc43f2bd1e00038c7370080c985217e847a8ae1841544c589bb93bd426083817eff84f96f, 0xa9a374766ddb2da3f8cfabdbcff602e29f7d4dc0ec70d18eeaff175cc1f90129ba785d5ef1ec3ca426b7732d2a3705e, 0x218e0a965bbf599dbfd96396e2e942882c6d68a9cb9352c309f6d0d0fc7e93226d5f5597c9885582afa2e9e30c4d579, 0xd2a25f02d0913cbd8902dfe2f7a600a4149483384170d91c6896d8ddebc965d9527c991c8045bc1f29421ad9a89f728, 0x28f33510913e949b3b583dcf8865228394ef34016364b221c1b431e8dafe95e6e0678520ec92b9c4c1afacd6988916b, 0xd665bfdda805da7adb1643e6e152e2e5c6be165a9c59a98f430c9417629942dd76085092eed2a93f04140d8798937a7, 0x19cbcbe24e37b015796d2118d7a42e02a8e631aaee5d0556f4a2b826fa7a2bbc18a84563d28642ec0d56bf0f2a39350c, 0x1962afacd71876bb6e82fd88fef2465d92a27ae073da5eb5925a9d5d1788a85e74838dfea4d967cd64058dbc545ee4be, 0x85a59e31d4def4cb69849b46cb1a96fa871995b5ab61b075e6b7cb7e908984178a7c7217f172b74d9da1a5a7da6d187]
def s28 : List ℕ := [0xf3c2d618ca0493008f0031fe4343582c815b2e801fed139e2a689b83f34e22bc8b2ae88d02e611218215e3eca2b68ce, 0xbf0d3386de29a019d52ac30af25ff0df7253fb5d4c336a891101e6add15d8d290488434aa1af8c0bdf59682bdf60354, 0x4d95caa3ab5c2e510fab2725ba42a2516a97a5eb778eb679b8bd2ed39aacf4eae0485e4e6cffa36e97e532c84e7979d, 0x16fc37a938c8fb6edd66ce261f7135980a77fa35bb2e2374f32937d404618690395a1241afaa92595e366f7b0063cc49, 0xb985779749055324f8870694ad8ab8c77ef9fdc85b195c46756e2f3b421587b1191a31eb5c6a53379276a9c1e3bccf9, 0x55d5a0b56edc3b8659bcfa3215bac953d049d0acacff06c12126b6a1e1421857e0b977fa1b5ff1616eb5c6b0fd26c70, 0x1c45131937691c17fa82cbb11e81bde0177eb8084fac57e6f9fab8ecb54d54f537919046813f10345d1fb5b4e11f079, 0x13edb79368a3e0a068c1405724195cd20f2870c30d718d32f2a97b05c883c078318bf49a051a5bdacbe74367b6fd52e2, 0x86e10f5f2492eb004e3887841d839554d37ef2557f2ad8c7a256feb3709112dc69068ec2029d0d2ab88855138ac0fd9, 0x1146c4501e7467cbaeb3c8db581240e4ec61973e923a38bbdc00a626101ad8e87afbcc4480967360c3333fdb108500a2, 0x6c3e3f79733035416ce29ba2c77b9b65df9df23ba72ddfa02ceab722e44c5b9776d1695162939049ac925a5b507714, 0x2bfa03344bd03a11297e327a72e77e73aa5ce175df0e3b20a34456b28cb39c0e70658d6fe61aa320f9029b24123090c]
def s29 : List ℕ := [0x13f7335ad7ed1dca960b2cfb14c5fabd17050289790c7572782f70d3864fd2d46b9cd9e2b28848344a3c72d803d131aa, 0xc591a5d5399175009fa6cecd9640ac45af16b26104a19386e76c5f83f28f6444d950f88c4fbaa300820000d78bb86cf, 0x82d595503bba6747ab14b00540f42c83b355514c70eaa3b4e6558074322015b919ecdf6fd80332e6313a3d5624d38a2, 0x139bb75ae15551b523533204eb920254bfc3d41275c033899f324e172d4f0f027c4d053100002ac4874d2812717ef2e6, 0xd2b3d2d02629b0e580a636ee78127ff5aa4a74e35ecc832389835677f157b2aa7ee13c343ea5cdcfbf288f38926bda1, 0xabc00c86255da6c84e41df160905147a3fcfe8defc424004b4a5229b8520cac420fb8ca7f04465613b6cf31367c6db0, 0x954f023eb437886ffae41dec918f211752ae156e3d0b0ccda737e8f70a95db7023212b6eaee4084e2061063913e6e1b, 0xa175f3da25b0997bd6c4daf05278cbfd92f07acf344a213cd4820f3586812892a5221fe79f374ec651bb0f735629d8f, 0x1644eb3e4ea629b09d1e3fdd21e9fc5fdecf8e207df40c1f5d21fd666d00715e0a867431bdba028a19ffa000b8ba02ad, 0x16d6ffa3bc25782c133b819c92d9ef7d6ee865f8e33388679fb819561eb651f1b86af757a9d9cacabbd66db262b95278, 0xf9451052dbcb86004c7f86a9e98a1692e1dd04bd29261aff18903f74ec8627598b18d5ec705266b0f23952b45be2bec, 0x4e6026288c841e2c347554bf0b7851c43e9f83a2e2f613732a87444685a2a2bf083dee978dca370e23d5a7d82feac73]
def s30 : List ℕ := [0x8e1e83e34dc0a48523157d5a824b3e2b14fbdcfb9dd9fe66b5866d1c3a706a3e2f0f8bb3c61518598201c04b78bef1e, 0x4168cb7649e710b6a73b99b3047c81d686588ba538cb97303359b8668bd2ce0e7f70d743663a4b21e0a54823f41e2fe, 0x17d969e0174993d9ac7df6e624c70634e9472a4fa23acaba7c66af7cee451b6a44416c8e727442113132ccdfcfd1b27e, 0x10148609888388e5ee26769875f0bd8f073426f6f8f76fb58ed8a67deef026346b80de61bdd532079f00d051c35da01, 0xf4c3e0dbb1586c2f1fafba11c2c954760bbd3cdda0b9da7f2bf4e2e9a3a328eec8decf151d4b21f1368b9e41a494066, 0x67fb4198f0f64ad709fd27361ae4568d7cc72fed14398362a08b98222f29a679ccdb7a4d5ef08250d3919be580335fe, 0xfe7c556d6b785aa6278d7fe1389b9f34968907909da27d1c8d6f236559b26ce3aa14f59e2ff553629fc16124262e48c, 0x13eca1b563c3626a05dce3e802f9715e12a85277e6c56b87d7cf1b4b356cfdf2da1c1b3e230ad97fa05749c02c3e69c3, 0x19de22e3f78f8c390b26a86f9f6e21c1e84e6be8c02dd829d207d7b2721300acf1c535caa538145df9f188e1b0fb1e0f, 0xe570d3a92c0e815c92ce7e59342f4a6da808a3f63a6b063ed469e8cdd92c7db146ca75b3dbaa528d1a141655fe1047f, 0xc52cea65562b60f972e8a57d8cb7f8b8d6cfbc1fab551bccb6369ec614da4eaba4788859423920e56bb0da95829c476, 0x13f051d733393664f3b1b6f3e2ee81830ad25f4d6b5da9d8c484c1f695eec42e371e7894064836926c28b2943c7db2f6]
def s31 : List ℕ := [0x105e3c741a880298340d9b9d00127dbb82d3149edc98397263c5030e649163b40d4dadd61a1f4beb038310fcdf277ef8, 0x35f686c1a4b636bc21a72845bad30202941b6d7f7126a61400b21d7dbdbe8085037ae6507efcc448ba422a97e941ce7, 0x176a0c747cce9af84566eb6437e2ff4c5e2a656b00f7d8b4c2fad1da8fb7eea62ba8a42eb640cb13e131f0359ebd78fe, 0xda9ecf9ad653f99eaf9a4bff3448be5d65b3c6d708e42cb58dca322082635d1347288e710906594558ffcafaa0f2283, 0x64eb02a09e282fd9f24dbeb14e8ecdf3c35b60fad383540733aa1d03866e3f515772e58aed8e79886087a93313fad8c, 0xbd06c1d28f19ed6f0b04f47c8168f99111280bf2dc6fb21703c4bf759822d1b4380a8f3a5054e7a97cd3d87a52854da, 0x33c901a8d2cf037863d8584d7d168e5ce956b7b52abef0cc61792cea797bfb56d4dd82dd617b74bbe695b51d957a46a, 0x17b9af5ba6d40c433312e50c935eb6e98d0ee6886020fc90567c480c6a5fc8bc3bd2dadaeea50cff0056a92f89c12cc6, 0x1534602f5b1bf0113e6d7dc88105cf84d9e5d8e6047506700579a9524c84ab2ca0d3d536869c9aa67c34fb777317b14a, 0x15b2e9fb5696506aeedebf11016c1e06fe8d5a38e58d1e7464d64d2f9f4db7e705d4046d9bad4e1a10e6878b66173f0d, 0xb9dccc6392aa9f156d061d0db79cd1c39813fdb414f6213c528246bc0fc1ce32d2347b8353b1d0a90831466f023dce, 0x133391648bd465a02d2850144c4d4e0367a1c3086200959125a1f3f8d944857fe5234306179e6a43f281d8e761cd7f07]
def s32 : List ℕ := [0xee9a304e3bb9133fd0d159b7aaec4919aeec943ea012783450dcfe08c47509142f466cf04b546348cabec38d43ce612, 0x585d63bdb0912d3892d424383c73501667c86835c83c2074f5182d73b469b8d43f95d03cf4d4481aee5e644485163, 0xe79c66a11e1aa682cfd8ae04a6ed0655d4bdd749eacdc32d123e851d8197184d2dffde5818ad244b2186d0ce8ca181a, 0x12ad060b65a201e84eca354a045840ec6292e4337e3841ea4d829c5e0b91c68fbcc18fbb48f159c542f65bc0aef224eb, 0x49228ce5a034f27fa96ac77f8aa0c3d0c9a73fdc29e698926c9996917d87fd4499e28c32c264e3e16b4556bccf85083, 0x123e8eddc9b724a0afc6d4615871c8ca0e9f0500472488b8c991171069e2e2ac06ba532d47cb54f2fdcb562c82f4ecc2, 0x143e5bd5df60e93363018e50b5f3a5d619c944630a25035052d8a7db6da319ea6dd64e3ffb29ec1acdaec2eb18e76650, 0x16ebac6d41fe94664269e0db303e026d3de6d151e3e97132542ff5e732af12773ead2bc8d521b8f6520352f2993c078f, 0x561de0e89955391b3604918987a07707422a929661debb37091d5462dd3d8c47b4b58ca4f4dea3702c9e2c204400adb, 0x1961246befefc68b83dea5b1640d762e1ed0b6ca5d98a10c920ecab59aefb664f01e394497d0ef7a53b6f5165d99d833, 0x1f64f7bc32e8cb24a2bfd7668342f7b0d8a98f0d9f5bae3bccf878839114ec6b1a0060de280419d0d3ce58d791fe72f, 0xf94546ee116f50867e442d0577f76a322ad5c4c8bc0724ed2bb3b5127d559397b95a67b6dadb3aa04c3a9990a909759]
def s33 : List ℕ := [0x4779a7b49d631487fea72d3f3235812446878402e47173e4d26bb2629d9b27cbd594c9d05cc767de21c868e89140b1d, 0xd3b4be70bf5251201164e14b8d54f66c3275903a0f049d09aa248a92ce1d16580871e958958e2d26150581f1c5e301b, 0x2b38ad7c317ac699c5ac688b12349a6a50c4050233a2438d7a2a6a60190a47fdaf6abf7a110e7068fa91c400cc64180, 0x133796bc8359036fb81dabb23a4dde8759496052d6c8141ff6fb447c194a30f70f07c57547610ef9f6036c95cebfa54d, 0x1313fc1fb58d296569001ecf069f9ad3aca5959a8e5ff8587f6a4c2eb0233322d6901e923d04a4bbc615363a7100e54f, 0x106d5910fcf03c5d787464f9e9ec1dec5b5dbfed9c3cc448aff62e1c0ceff9970435311e99106ac51d4d014ef7f01e06, 0x156404fc6402770f6940217ce5783be4b0627f2f54c8cfd8ce68946036bdd75c428d69738382eceacedbdf3e7a344db6, 0xdffd5bd75c2d7dfe3e9ca2940cfe6413d2a21f418b287a84f9d2573165946e28892926760ab5f76a4d55457fec9782b, 0x97e164f663fbf81e608d83ab2458625f625c525beb928bd6a465b026d53912b672d18f105d15125a64ad70b3bf120b9, 0x2b22147a157ed5fc46b59793776f56cf9a99b51d476505bf2a9a2e2011dff2a668437d6db04be9ff41198d538277faf, 0x9f154c4311dc75db50d54eea88de2efa0380c467627212c88ead5d442d086c0eafdbf4adc4fdf584431bcf67e226480, 0x19ccb45519cc5c2cd5dd2f3ab16b84278d8ae85c21738efc6c7b26de92c264ebd511fcbe6041947a0d58ea1deea401f4]
def s34 : List ℕ := [0x6babf5fa32126c45b599f73c05e61fd6b1c42708f9900bece6cddbc6e510fc9dc9fc7162b505fe77f98533753b950d9, 0x49403b8f8cc83bbbbd63c2feb5091c61b187ad2e79c4df865111147144e6e00b997fecd638d0a610c3c57ad0b8b2418, 0xae4e1a2c6a8d17f56e3c46579a4700c31ee4f286c122191ba8c1d79e54f8b418e91c27606389bea6efe6d3d4a8cff0d, 0xdada8d4776631b340160891fe1364981f13910ec187daba4d1f93558044a0e83b335e2c5f91df0f79f81ecf2a4c1ec4, 0x2f9f9feef79766a35a5bf24e67fef669bcd251c632a88a0b20033fe5ab3dee066b9d47390e4608cc4c1548a3b9285d3, 0x17b158760aef17728258341f986ad3f892a89b5b5a7e0a04f7602d0b3aa91447aa4d6d0cdc92880a85545cedbab03d19, 0x44447028c97c5c2ef7dbc57034925d94858a7cab9989f41425e88cb4fa86a18ed1f3efc0159355995c5dbd2adc80b8e, 0x31bf9b0bd16eadd682badc9d3662a3a240c26f7684b5f05554d278dda82c596a3dad933c6c98252d4c7fc56eaea4922, 0x190dd15355f80494c5b5162928fa450004a31d54846ac3e783735358b93d0cbeb22d2656ab0352787bb0f6d0294650fd, 0x153fe7522ebb099b76e161529e79e2b54a6f960995a62c7ff511d67e818f42d13aa5f01183ea54376c18578da52f086f, 0x1e3898b5a42059a75b1fc5cc35488bc674864c5118dc4b3a2c8c1e2644ff9cddf07c67b1a82a1b4814c06cb3ff186a4, 0xd4672edd613e109171c04c1ece6a82cee478e557181bf20f1aa9ef7006327ff0c5715389ee6ede8e8e2bdc1248d2aa3]
def s35 : List ℕ := [0x17f8b0dc69441cf5e847319f9a25e185fd77a82ef3c2d559159d314eaa40408b30b410673039fd89b4ec168151eac227, 0x848b8c3352df9a0eafbea43f01052c2f9b2286206f98006f0999b10726be4d0241b3340e119ff7b24ebe4a5df42642a, 0x6254aab7d8f63258e7b86d90032ee1bf61136a2c3976bc28ababadef0a2424388833890417125e4676e1a754f0deaa9, 0x14244e294477a350a070c5ccc33c248b82b94c3e6a9a4055bed5575484caf885a2274d57ea5b5def7806640db35db6e4, 0x332cac63cace916dbfe78741a74f06466395dd8a35a9f00ca08a3d6507192f82597a271fbf9c1149308343bfeb741b8, 0x82c85873e2d11dd1b1373e58c213c32e22742b0a86bc1642055ec91e901407776e50ac239a64bf277141e26382cee13, 0xbc6f6e8fe188f71b049ed513822e26cdff94742a4fa4c0aecca1802717b9560899d9ad3930a9ffcbdb88fba9eb14880, 0xf85626dd485c05deb3cc24410c71543f5544484616c4de821086508e334b7d1f09aebb9d3a6166b874afc56cb7ecbc2, 0x3ded5334982a785a0698c50adc713aac48c3b5e432b567003f343dabe0a6c465ebab740397eff91bc0d996bcb546fbd, 0x19292dc18540bcc71474765c3376e209fb00c5223d0e2f8654ff468fdd6a8f86bebae4e3406e9daa1ff5b513be1efe18, 0x1858722994c6b0ce153feb94ca979022cdac33dbec49ff6a72a7fb77bd98d86901aa67ad7cb0abba9b57549728600e48, 0x9f43cbcd7dd17782dc45acab17866da7e00e986309c33e470984a157ca42483353a61915fdb3026386682fb9cb0a763]
def s36 : List ℕ := [0x170e35cd15445600ab0496e9159b2c7955d8886e0cbd8132f0fc9b9a2c6210b66d36f0106e4e8921d6ee3c76a17380ff, 0xb2b83404f40bfa4c0ff9a97813e807c3ee2fc0ce82c39a646f4048ae3c9b1f0ba60934a49f7d88c16007d95b13fd7d5, 0xf1562474891d782945f85c5a471accd804ea2101bbf5d6211bcee7fbc0630022b81daab177b81bb7b46eb4d57b77f9f, 0x128ed0318efa06c47c2f92950b3a2f3c28bfa4be5a19befdc729ab1b5596e8ea7198f7bd3cf52ff3c8fa0bdf0677a115, 0x97389b23232957dab709119bee50b20b6517077b35ea73c6b4fda30f68c56968b43f4bcbca737e37c580d1c2c7c1ebb, 0x53c5a63024eac73730d728c109c2bf76fd5327242d8e59aef40107e73812c6d802900c8f213e719f3c629a89f78bbfa, 0x5f867c66cb6a5aed9a54618c5aa9b52cf32b0f51ad25849420578ddd95e2817574a2e298662b231d9bf5a533eaacf85, 0x97097bcd7eda95bd3f91b47b0cb7eb621f66aef58ac8d81063f4b99ed265861530ab503b7ca63d54fbc5aee494e36b3, 0x14f4fcbaea38a581fc46c4bb8e0b52c8fb14d22fbfb6c4bac39c9472e06f102ed483a4556488603690a77799a9cc843a, 0xe02de7c3aa652f07299e651e3a50e4a6ee430b5e7107cb8b81df858a957eda4d1baef48131e5f733c673f7cddb682e6, 0x3442b888989d058e7ab386fc703f7d581d3a5ad7546816408ed87748ea8fa33e2ffba964df9dd6fe2720e2e715b159f, 0x6c222c55e402f9377afc2bc2a24d22c59fca20888ebedef71323d15004869d77583c38486bea33739225a5942c820ba]
def s37 : List ℕ := [0x16d5c99ceb02f3e231b799de8ed9796a86e81d3ded7a3e90e55f2b87b026900e76babb1b46320d39ccc70630b14e7015, 0xf261dbd85803d4fe0e7645ca7251c1f11d08c372e5a97378b67e813ccfe851cdda83a435687935d9dcf0c56b74ce403, 0x9527787b81e016c3ddea38e3af98b354536fd9ebb4f1613f4a78057f2f2db40580d08892fc4175a2a31cb251bded212, 0x5061161185253c9f4ef306520448f9ecfd8157209db9b7411a3fee5540c1fc39f94decba1d6ca44788e046a14f5a8a2, 0x21fb2c1ffe93e8ee79f79ea91c111809c2a582660277700e1f42fb3c702c3837b43a73ceb09f388d71b16e84a6bd3bd, 0xfb0cde96f85174da8fe06bfedaf18227a1ad7308829303723ef0fc6e8060d087e095694b6bfb68972a41b124c4d722a, 0x7f82349dad27b5dfbef2f33be7666f9fd1b5b39b2e97ac8177012880a94d7e13ac3a1596bc315aec02375c2a92bda0c, 0x1800e3733522227ee7fcba3fe99a7e4879a71dd81a676e905108efc08dcfe5b83515e26fbc54fac877e93a648392d2b1, 0x1046c43ebab0f39302756ee72c90597219e4ddaac992c0618406e6d30cf304d8004b7cf44d983a23d2b7c1b83b585f17, 0x15765c99068643b98588cfa5c35a1be5c3d6e90dea64b8aaf68a247a5c4d07c45603b88cfe7bbbfb9ae441be756a5da0, 0x159a81d11c85cd2dea616003d4cdf2bfcbb4e4b5b3a846e76bca6e84b71f3fee45be246daf31075602e675a1035661c2, 0x5e43802ed0cc919a372c0831dc1251a4f682d39a3d1fc95584f533a2a14dbc78a8e18d1de55573f1e2f559f6b5e3367]
def s38 : List ℕ := [0xfb6999db3159819dd201064fb7306478694376274dd0b85959a3c435df1eed17d89f3ee7323bbcb9cc20a6a8904d3a3, 0x5855bd5e508545cca8315fd54f2295f85149b287ec3d2775bca7a99f305b723603127be46a0d899ceb6f7a6c887b57e, 0x19f70562418c77ebbd223bb3b202f5a3669a8526be1bb1358f8dbb81f53b38f76fbe9ce0f6a0c4ed284498ad15964abe, 0x38255b7ae9834d44348f26160021d8479a6ef026349d359f2f6bbc99f83434383b7cf168dfce77452c61e949fd45fd, 0x7e503b7713550d5cb488411123ea98124f9469419e93521cd3ba170d50d61ea3de58688a006a30562eddbbb7519ccd, 0xa8fa523b2b63689e964a4923b2a9a3884e0e957cd66329bf433aab1634e210ca7aad29943304a7c13f43a576804935a, 0x9a7e008c0a703d589bfc9ffef4a5e57e24feb9f5cb58ff809da71d0cf7777ae5d2cfa144919306fea013d53218d43bc, 0xc3fcc4fca719785737795c6d3748b5f31feb3650e68fc6bef58adcdbfa66c87464baf3ec27f40ba60af1e0adae512ae, 0x1061b6fde880065c11b2f9efabf0f89fde083e1d15d29a6b2d58993f7ee8ccce558f805eb47e0cb5dcd07c42997aa04b, 0xc6b2c1ddd79e21de8223721c67fbf4698199fae8e8dece8c7d0fc2e9a3417140748d73c9666d6851b3cd3d864237b6d, 0xfcd1ec4790c5a28298abe62159683c54809cad2fd97db7636ad74756c9b99a33d9ac6f5b72ebcd5a5430854141fca7c, 0x171610e7d1d8fc98cbd9ca5c108762b00bd9f303700898a0fa68b822bf6a16bd5f1c7f6be0b354b8a99199fc00231acb]
def s39 : List ℕ := [0x144a4815e3bd703558b8d75ca9f422516f9d238fe6258c3059a222687d050e22173c730881fe1ef47e65f363dd38152d, 0xf070ad06ddfdbe11a9a0149d997661563018ddfc1032535610a1b67ffa18ce1e3d80fb5c255a10cda349c7e921b9eec, 0x744d98eff7cc7cd1ed72fac11b9a139457fe35dd34d58fa9a7278b6c15cab7a91ae9a04337c03e802dfa6a9d2bac75d, 0x7fb6ede664fcd353b11af40e3d59298411ea0ab6afd569c7c0db372ce76a0b9e15116ec4b4677e679fb070af25a80bb, 0x1191f7b004230d6794fb071f21a0523892fdfb8c3e71710785954b131b5c59c00d69a1df4c1dda3828ee868a2a0b1cfe, 0xfa131bb0a6f036ab52786882ca5d5f751dea1df78a0d239de4d33e6e7d10b231f60f764a8ab279b44c8e2f23941f27c, 0x2a521ec3cff214e95de6512b66faa29ad4e414e17f4c5a31a26aa09deed9e567296ffb5a2b8b31cf919ce78c8c1da69, 0xe25a02cca0ba5f467da9f91a9fc58f1b524e865db8c24af13aa8bafb8cf3ee74303d7a4c3236b81fd2f8a58a891e743, 0xaf2adda1da21bf83f39207cf4dd32190b43b1e55b238e99a62fc8073d9185f03431163b22acd4a166bdef698841378a, 0x1649624011a885128a6032b175abc3137b770bf76a69cd8663c619e6c643cb3636d383eb96047dbeeb509a349b72fc11, 0x3f53b6cd7d91e81b37d015bfec9adc05bd40a05c653bf9f2758dcb38abc49dfa9d988800f98abbe2cfaee729fcd8008, 0x17dc2761a299134d55ae2734efdf78135d70fbeee7c3b21cbd5ff39998fed40a5144fb613824c24ab39a83124b5712f9]
def s40 : List ℕ := [0x13df07ec8cd7d6a203cf07cccf5c76ba0568780dce1110cc03b3c21c41b1d62b4054f5c55318c723bf708d67959d0024, 0x179b2a4032bbecbe098a70787c7e669271416760c8de0ee47a1d0a0c3b7d626dddc2e14483f2b35d251219fbf19516a5, 0x14407af71820d9ef3a906f0a4e9a6206a2ba39578f551c61fb26e42a2941947cfe36c1e5012a6369465dd5c66f790a2b, 0x11f9a13888b65c500b4f4748dd90e0023927f605b7b2829c6e69e4e7eb29b826a14445a702fd6cb116163daa5b13fd9, 0x192322a57b4775a192a7ed87166e5ebf4a6c0aadb63a343fa0bb38fcaf1abdc4f496fe5015854c9814a24c8c50dfb7ed, 0xfedf5f2cff5b1dadf743a0399f5cb010cfbd2d9ce0a179a540f794ad7cfcfe78078aa7e39273650d177d23fe7ea179, 0x55f50a02e800b9ea97cb8129b72e5ae16e6801780d9ccac5f22586c49584bc14204979988f9928ae153fe1ce0d4a356, 0xc3f45c158f2449d775326421a115651c55f6235ae6048e6baf8ed47dd2fbab882fafaf2ed5a97daaa12ed1b8dbeaaf4, 0xd28638b814b714e9556f02f0f6958a1cb3c4950a594c5aabe2947bad922fc0d8c9d1b27a619cb1583896bc2f0826db1, 0x14d0cab90eae86afcd3396f4e79e5555f7e79c7dbe6a052cd80fa777a2d85155e8e271463a47c693e5b46d041890a85e, 0xde70b7b1d2294ffd4484063adeb093ca4370126089100697dc8bace1c9ced157be1b42ef57501e649617067e57874b8, 0xfc44257c60edd6f2ae577bd77f585975d78fc022859f8dc2db5d45545b6ff0dc2febef7449726edea3658fe430c8033]
def s41 : List ℕ := [0x9b2f4eed14307f87c8f52b52739f37c5263322a1d2e5b3db0da403a8c00afdabfb34855ceb7d2ef88467755d015eb99, 0x2f45522c968aa55734a4f65c844f2d3a4c09d9175a7e7c7f8fef895edb8760ed81e64efaff1607db05e30b2a1c0e1bc, 0xd0f573706cd4ed0e4f2e2a33b63a4306e2159f64dc176ca7a4a6b7fc7f342f9d561654ba932cf1b3044cfad7e6f4113, 0x176b2a60d0c4ecb9a29bbdbbd253f39f0f49ad27d7aff8ac96744ed3f81b2337510f93003bc1883bf0d75a20ca3fe43b, 0xf93367971d17f155e15c03b78dac5357fc1e8850fbabd059919155b5ff517ff5725ec0ffb2259b13a7162e0c36e3fa5, 0xc283415d6cbc02fdbb61597a74d09458b53d962bbd5314166ec74429d114b34f1eb015574326ba917301b921187ef7b, 0x374c1ac2ea3d1db04fccbd55729ec67d43148e127da5152dca23f301137c4c2141d3c435f718b986ab81384182bf91d, 0x16582b38b2c30e43ee2a7e32cf2f6d92555ede2ce3964ffa619aacef5c880b22c003a3caf8c2218d4094f6d0a5bc329b, 0x14da92c1aa56fe4bf449c11749cfc9be4f8d50b4c1321c5e6645b17fa309691d1c702bf7ae8a2f82ff67696c36b7bcb5, 0x4d268e3dc2b021e735c1db9bc344c644bb8adeadb0ee4dfd0c6666c52627071b57e430e7b3433c74830197eb1eeb362, 0x44713d6a033960f70463b6639f65f1adbcaeffc8c83279e684b2fe5c5407d9fcd6c6718cf8d73ec0473870defab766f, 0x2e6bfc2d357203e5618a8fd54e7f7677273f44bb7cbcf4af2f0884f7e95fb8a2f465618bd53c2a8ee39c93472d355ff]
def s42 : List ℕ := [0xa8eaef00816b100f00beab955b7da05a0b81f8e897d9813930ab7263b0ee90381a59ae3e7d33a7603eccabdc60892c3, 0x3ed13a16af845a35ea955ce1df85da3706ad626dbccf4e3c8affe32a9f50e9d4982d42954b7dd613fac62bd517ae60a, 0x18668f15dc8df0bff0043da66380b9ff3bee80f159951bfcc3a282464a0337b848bed1c9a6f03a13683674459dadbd6c, 0xae115a6466d6c14c742ad4cee8ed566e4a57fcb955ee6bfffde54bff7ca895d2d279a248748c0b11773bcc875b2439d, 0x18dc84f90443af30d6c46f4862d61160cb73b751ec75c30f9fcfecd69e593cf0f7f06c98bb4fa9e5b0b36ea6a61feb66, 0xfd69f738230ed6b740def36f8118e6a1a404bd546cef4bab6d30381a644f71a94b2d143656a91bf85b458445384d27d, 0x7ed4471d2f965488ad5a0179f31012dddecac8ab9846a13594f954bc704d17452472136c32e969c44f5da4e0d3554e1, 0x103bd953fa9b9c17327fafe9f0ef06747d9068758dc4bd41fd2c0ccf959900f46a275b86ecef8dabf048e32ef6a3e3f, 0x307a98f2d0cabac788fe1ff9b4a7421cec9cef78a5a475490e05c218031d4fde3fddad5f70513f9e6eafaa19bffe0ac, 0x63b4d8c6f5c2588f57fc06cb3a19d60a992b4a795c96a120fc247ab38d56f0d4a3b60ec2f2e3258681bf9a14e7d20b6, 0x3298f4db22b049a9c31848e3622d9186597af01a3147526e5836f3cbac2381defb13ee778a6af68fe4ad2ccda472acd, 0xa573f80c6e153851c8a3066fcd9977ee86cfffcd86c85aa01a6812fec21169747ab3537e360dabeac6eed72e34d4145]
def s43 : List ℕ := [0x36eeb6e573c1c2a3634918e7aa202813a49b310d4501365b449e5fb10f36631a4a946ab7c241a10f013242dccb8c8be, 0x17625cb7fa5fd30b34cf2989dbac9c07ddea92b029cc86364d30b2671df911111bf79198c767ec268634b4b38f3514e6, 0x227bd6883311b0779f8efb4eea1ad400a4560206fd8406ec36dedd6e15ac9bd97e8eb18b7b17392069914a7c2d1f9ce, 0xa6eb91a3522346c24da918ddeaacd8cb2ed88bdecf0513a5a04a8f8a0fb0dab418b6783cdcd97272f50eb35b140a244, 0x986ae23a24a20ab6acd45cdaf300dbd8de535e3929f7f777bcf3afc145ff39dddd093018aa037cb3d7166f6601ba30d, 0x80ad3f77c7ab37917387a014f60b291c4c2b1f221eaad34cd0ce2ed1f9ee466320bfc0303644cbd88094adce1093808, 0x103f7f7f6dd1f3a1b70dd685bbd2016e138c9c13410c5f49ad4ae1f25f851a888aa5d33e5bcd6ec2149a76563c4cf3dd, 0x1701f631447f262c7dcf2e85c5e8f4112399aeb35dbac34206742dd161e531bac2f6584a2a34f48741ac3fba81a211bb, 0x16656198df8168c06fc4fae1f3536fda0336d12a00255e5bab9dceb217feb06325055ba08e85548df1f34b2b76115242, 0x14b79a33b3389f1d2ab160d09b8e303151e10e5844fe627e3dd3daa7aae7172ab706e2e3ad2e9ca210e175e48acd1038, 0x17db9dc41bd46baacbc542ce5270f5c19621386ac66100263b787ec49f6127af260f354b55dd50ef5fc3e0cdbea31efd, 0xa5a8a71e293b36074e50b1ff16e20db7d29c66813ebd4cf5da19d09cc3df7c717aca71467b2840c87a7ce4bf5db73c]
def s44 : List ℕ := [0xa62c1f010a01098e2f0f09d0f2b5585872d1c4c21d8d06a8514aeabbf5b4472814fe717dd759e25242b6d4a00f45eef, 0x1caa0289ce45851c58e980e5fb53bd90bce3dc4b298d4d1150a6db1e997be6f8b683de57820ad8d3bae7a4eebbb2864, 0x150ab454e27a44daf2692e31eb943eb1bd814cacd3ae2bbaaa82e9c7d4dc5c6b86d7c0fe2238542cfe6e55f234453aad, 0xd15512eff6a64912418e713bf973e92ce9aa59f3b495d01ed90586b4ededa1f0cf048b1a1ba717e1a99f810368f4e2b, 0x1819ba5c9ddbac9e7d93474d9d468b5de9ea4fe783373c7b3d16585ca796103c03591dec7d38282d60e13d3dedf6165c, 0x18d4e87b6c763f58210b16a32ec01bd67586c781f7bc73023f95609a1c41576bf1ec8a50bb95bfe14d84f4f3c349ab4f, 0x8087a4acf513d147eda62434db8eceac6c18538a84fe6f1a98f2b2bceca1b5187c1f6236da6da231f3f899040faf43c, 0xc96aaecef4b33c3bb13ad6b3669c2f9aeeb399db9621f380314084a9d7f6d79a46133ee04b1af86c56e7fb2a9378af5, 0x1d3e3328fba3b94093ca9dabdf8c3c8804285dad2378d34c7f9071f1fadba4ff9c37d85571a6f317600e8f9939e68cf, 0xf100fbb275f9bbac6ee76ed942207bd94b4cb3ede4a959f91eda2e02987acc71f044dd0c0c04e3ead2ca9e316fc14c6, 0x10d4f802f40ff3f08e765924479931b730ec107f241b1aa80d5a69b65ba4438e73dc1f8034798f9a961ba1431d8597ad, 0x1fc3bfabe1ece3e5bc83eeff99120f1d77ebf7ee698135664695ddd7355cf92fdac9b5112077918a1bc5b49ea0f95da]
def s45 : List ℕ := [0xcc81b155a8e198d96ee388875ebf4e6cd5f1ab8195c446eff16a10b97cad7fb139d671a87947c7481019a21a47aa6b6, 0x1695952f3be9a4fad59cffec79aac4e2bce081b14d89d7cc6daf133ab1db01ca219afa2ed18cda0e93e0f5dccb1f0eee, 0xdbb77857c23cc390d60254fd4579462b6e2f385232f28879f8d6dc5bc64f38497699c917f23a8ab9c3c5f8655eda287, 0xb1535c4f40713c84adab71b4810487ab58d6755b96c7952c2948c806df95f708e598f32ebde47379d63b54eb3f918f6, 0x175aa754d4801668879aa0b710301ed941dc713a49144ecf8782d659bdd443416cb8edc8c61fadeb7574af3ef4a45d52, 0x196bd2247eca9acea6ad5f5a2e5e2da873f55f7881ce33fb93192f0e564c4feeb83b40567f2b030719deba20c403c936, 0x797e4ebf2bb866a9bb89a07423582bc9b1ec7a5db71e8223c9009b8628fc9b6cc6857e80e7757c793c19ed6510f2a8f, 0x5cbbc9f41d0733547cd76300c52b8ed8df183e768e67e86367b7c4431a8d679e33059ee08b886e8bb19920fb18229cb, 0x1c1082e62f046dc29fb88ea6464c29e960643c22d9b61e3128a537df971b6d1a99e720fab3cae543d232ba8c6f9eb3c, 0x19c605654786db0128d70983e67bb00f2b7d571dbf0e135b39d66076039f176227e17e968535498bca057d970325c570, 0x12034928e476868c6fbcc1636bfd92e94a5356d402069abf6de31e30ad265a2cf65ab3f5b3271a61ea2d27cbdcb52172, 0x1325d57b054e7aa7255f376c11c2018e89990d214ab46979ad6ff08e946d78cbcbbb835b44a3ecbea8c45184378df824]
def s46 : List ℕ := [0x104f78bcf23aa2df2677f6198e366c6ec5ee64aa76d551c4a9034c33129885e15b86d88f14dc79710a04efa535dd4f47, 0xdbc32c9a5bb932a68302db293a4e09eada18574e2779656ef8d0fda20031c79457480cd8e086f08b6f044459507dec0, 0x7162fb5f9c4e7c1e0bc4bc106ce74b67aa60bed9235d91fba3705a1049621d590bc653332400fd655f1b0ebf4e15291, 0x1984a6f283d93a93e0dba41f6a19a3ff791dd71be9b15629fa5e3909dd5dfb6cf78a23a87716f7995c9d972404c3f02d, 0xdc0afb624b6298c82f69b13f2c691b61735a05ba5712b708fd9f857d6ca8091cef71af57948daea69e2a7cb7c3fa6d5, 0x50eeff2306032b6fa498daabd63b9a57db45b2107f9f065a1b304496da31761483bcd54fe34485fc30bdc05ff905ec9, 0x9e2d3159b7fadd83ffcdc38f17248edfafe5e6daa5756843843f9395e9446e992437540e8d439d6bacfe4797168f7ed, 0x155c3fa32bc721bd04a0bb6e51c177850c88b3689899599ff5c54198b1632a10baecf3553f482edd7691ddc66f962eea, 0x8356a9bde33b2686d7fda2a385a884a65bc35a01eac83ce1300af89540c242b12f152a19b0f54aec5446c96c48a22b1, 0x169b81142308b3ac9087bee0e9e7171824ecf648e82332ed9d26a0ecf25000539014cf2fec3fc5d71079627fd63f6c49, 0x638f85aaf2c23b5f13a4d8a9a0af31e1625427b558e6d20afbb8b3cbac4dd7960230a6aa1b8bf105c6e2cb9869e895d, 0x1894f53082529173278c774d041ccf766d58899e042c55f6296c09110cec090951771a47827a748ca1371df651190bd5]
def s47 : List ℕ := [0x50f97b34c2391d1bb6345540102ffa292f017a436862528baf608d8e06b1d879d92de7966a74ee53232c019cb0ac0d6, 0x138fc9874bc97690240491aed82480d134710c6885d2b2eb96f7edaa8c2ba043657802d9e0576f84c07e6bedee56c5b4, 0x1071e20f6bc898f8fdb5bced7e9e1ba86d153b531df378cad40e87dbf388832d7c65ba993ba23924461586413761d22d, 0x16ad260fe6594d6cc9d9acf4710fa135f8ce3aa745671a25fd342372101f905fb86923b714ed5379cf0990415a4cbdf1, 0x150051ecdafba0ab335b9a020d197eb87699892b96b72cc96649ddbaccc46c1523d0e581003cadae564dd5474339ad0, 0x91aa6d6badc9853f2b559e3a9f3cc3494ea0256f98c5fd230cc84134803adb87db99c46317ae1fc39ef0ffd721885a, 0xf7f186e044c7aed67e043da4ba601d9f8b6943502fd04df4563a79335c686a758503bcf69bff429df1616a0f042a16a, 0x184ccde9c7b7b4727ff298c622d9178fdee8e1d427e75ea1f2c376f92d81c3c7bcb3eedc1fbcae8eb3aa9edec9f15991, 0x84e05f4dd45e6007605135c3fd7cdec899610ca97f162b19a1fb2439f1e90754a0922c25cc4458cde7e92c00d2aad6f, 0xebfda5e6c7cd630b8c749e9261f3bc3f7bccb8ae6dfe733ab74c991c149727c271747e78f7780f010e43e723eccbc8b, 0x2372330edd14962909a8ec970f80f142522335a53cc9113672bd5f8632b57f9d4fc54e9cf96def1faa6a534550544c8, 0x17079fbbf8a4d5896d10f8e79af39643258cb48f7baf8478c0bda711f05f0a8fcc0098850e3657acfad514a20e9ec6c7]
def s48 : List ℕ := [0xd880e233f6211e7e0d2358a3d63db39735c56fd85bba107673701af87474c8e03447f3f5dc8eb5670778da87ca87aaa, 0x242b27e6df9d7ca3b96d8d93d63d688eeae86a081a04eae92b0821e6875fbfa0cf6a9b86760a2dff94e6c65e030bc76, 0x9a1545fc29b2a83bcfd78813476e7223cab873110a4659409973c97edf736d64e089e28f4db0582fea49899d762fc48, 0x39a7144d133e6fa179c11bc9171d816458fbe9408247217579463beedf71121e1ea89648a89c6855b7012e1463bbcae, 0xba72795399d48f3d6d9fa766fb7ad40c888c62388f5b5255c8cf07d9f43b521ba89b9bee8324903db8be033fe72e710, 0x683adf929c3829bd22933ddcef3576f4feb812145b2b0b69e4e3ea8d6c7bcef60cebbfb7d98ef1057452c1490f8d770, 0x4689229f69b412c14d46b81e26c31bbfa44a2399437ac5c99f6be53b48fbcf9ff330655ef10d20bd1961b8abeaa3ee1, 0xd8061f339819e8bf9d6a420caf99cb253ff5cdac13aafef98add54ff00d6d880b58412c5993afca7129192e712e0bc3, 0x17bd301828d8e809fa3a89136f1837ef112a5b02ce3b0d6e6da30bbc23922804034906c89f8ac20460fe3f0fb8c872ef, 0x17d7468cb5ff5205be5c7f5ae11dafb195fb727c701425578f8987de08a489b5b8257335ac2f120bcfe6a02e4afd5954, 0x14faad54cbb8d0eccea083a0bf5087040a7489f5ef54e88ae128bd42d4289e1ce8cb9458dd13cc4f2a6a284a5da0a919, 0x17749d8889f09e4d326cc69e967a3e3985df34a6c4be8ee417a0492c51bfa95f343810fe87416d3b296045012b254c94]
def s49 : List ℕ := [0x1634152f422f371cf989cfeb47db89d9980a7d688de5366ca546a810519b1445336e525e6f170dce2c75662c6e1bd39b, 0x28008d6ffded1a02d4dd2bfeece31019b724974fc6c4007233e70976d384777813ace045e0798af0671f87244e036f, 0x10155fa2066c9e64f6fb5a0af00785cad677c6f98b1fedddc571c49beeb11ee62ee527708f7ac1d4007a6e005ca1d02e, 0x16cb07c0ab69c0dca19fcf059164807cc3c9a16c786718ddd01db177644bb4ad9fd253497d0875050394368077e69694, 0xc5c2dc5e4e22db8309c7255e97cfbbdf646a93325df893d8d14912c02d6c96d7929b9d6cc73b9d8105261b3434a4a1e, 0x2ffc49bfcd81bcfccb7a6888a69980791038db44d8bd1bce37e904f9a5e1af64282dc80db90b1700247a71b18752d90, 0x1476eaa85ad7c321632d0d6d20698aad7dba86d47265c60bf82bd71e6901779e3f8c1e5efa5173e5cf639eca1a1de420, 0x12e355ce31dc77989d53ce3f591d21205b24a12f1bd3c78e61bbdfb21af3d8aaf6fc0846928cf465b73263a409314ef3, 0xa020fbb36e4e5d8a70914ab8d373b745445a202481b24f6db1f032de657ddcab6b1f9538596e3a0d5810a0b9a1c4468, 0xb2df0c7549319442608686149c363e37add2019c72583df594cc018a4c9bd8837f672953f3a984917871a9b0efa073a, 0x1a460909d8c8a3abfffe35d84bf97d8816907021c2482e3e22a8c4c5f0621ffb1e54325ea29af77372b4a6999e0ba8e, 0x10e12f2ad8c172cd7f443a6754ded057f5a95e03135e7250af584834c4d2ade916f87ad2ebcce8d44c847076e97b1f2d]
def s50 : List ℕ := [0x1673482df02f4b06594d474c9d3358b9fb5f35c73de4fad80611fe7f628ac0df617b4be598c8bc5e1a537c7847c83caf, 0x10862e7019ec1ad0f570f161197bea2ad21d5793d7641250434cfb0c6d5d1758a2a53b74d07d9a165fd42ff5e7c48589, 0x99b5e93707ae7323697666b56e994e6ded77957f61d470c72556a367464e7229ac65bc61c7a3e23be7305058775145, 0x9073e181385b192d34ece42d824e1c5e1581bb72934d1f7164738fa531d9561bd1722aa8839972c13c7ad29541a9989, 0x6d2380aa7e2d8c256b46a8b4441779a2d60dfb8974e356979226bc779c029f0a971e07c27e867cf4f6197b24285eff3, 0x1532581462584f6e550d94fd53b4d9717fd328b00d41e7fdbf8d1da2d3391be17da74155f4529a905421f3203f989e4, 0xc3c420a6a19e7a7df71b35af18e3ec00fa8cbde47517b7f96242dbfe410d6e08425e3301be7713f5cf53dec0e2d60d6, 0x11799660e2014a7dd997ce18bb79b6052476133e0b81f9064665a20429f352e901e88745fc9a7ee8c53ae3bcb59fd334, 0x5bc5a630f06d07c5c33774fdc2bdc60b2baeb0a2a227a314bff45c5a942816507881798704c78e4ad8473120ec2f8ab, 0x5ef5255dfdf99801e5d32b6db5e2d6284e388bac4a0e43c912b6961933c2704493c16c7bbabc3e726d372c77b0d3315, 0x936824de13e6dca62b8bb9f6008212eaaf5f28b8d870db69f843d5e61ca5ea166bee816b1b0e93423a314dc1c154014, 0x1789749eb88ca20348216f67bf8d18784366cbb3a199f278b2ef8983c142f955fecf42cbcd43efa04163a43079c99933]
def s51 : List ℕ := [0x10e7e26e790ddbaa602225c0c7b8f2ab233f3b120db5c5aa4d35223592da536b1c4df1ffa9c00dda71f7fb1f71288654, 0x79e76961e3346ab3b656f8d80b30278ad0f1f1b2fc6968d6c08ca8427a2f6047f76e931dc2ee730cafb436ef8778264, 0xee562d632b68ae6a4e25f5b3892f881507eb05a8c2fb18b2d97122748922373855054799fa8e6283340bfd3e9cd8e59, 0x1665b724cdd564df0bec939267e86a6a75bb77df5a126b9644ea001533b926945def5333a8bbae1b186e8ed5fb2291e3, 0x19006c5957b45d454c4d4002d0b03c85b3ddf2f9b2946907dc9ef432c379dd8f7e6f0359b425bcc596952d20fd9cbb7, 0x141cd30707c5e6c4ba3f1d43dcb1844c2513e3ceec332763991422e8b7982ad2fe24490bac85c4644f6a65816e41f328, 0x15d72ae2f74b3c9e71ed6d9edd123cb7cb453b19755d76b9ab4f0c6309d719f330bcf8c7ac726f110e493f98ff3356eb, 0x12196185cc65febeb7dc9b724d1362f1d2164020b22b52b31053c79f452c76ef3208ead5b88c17499c3d3d3823848d73, 0x2837d778d51b0a552a4752fc39a4e38686e8e5ec627c0fa0cceb8b5f41eb8ad7dd56b3967a96d203e18d1242dc12f7d, 0x643196bbb7d172b8af59b7af55134781d3bca85e5ce810af2c40c13cc99dbf13d9ce2e8bbff6a850ca6d9cb0add84c9, 0x16f97d4772f8cdc9cfb68534aa84a4e4be76b514d607b46b0af9b17c057f5459283eef16c07411b0ce5b6e886c7389dd, 0x12425e91072581b57514514d028eeb7abb270a7cde5e64464fb61da54b1b95ee664b46033ca96560c6f520d0a70c8eeb]
def s52 : List ℕ := [0x22ffaab71f212680b8f68571cffa7c27fb1e6b354463c4b15524b0064ac2a05d027abb25beb7e0d87214bfc55866dea, 0x10a7714dd3bb7ec5d662aeab6fde0b74bea35c350d800ea4cdfd92113e92d9f256ecd980d626f3edf6b7fcddabc07605, 0xe1cc99cef164923d751d45ea6bb7ef59753a2ea61df9f840a2d455184553ce6a87b780d0d943d71486c09d0dfdddd2d, 0x1279932e1791cca5a66da58352486158f75376c77f5f74ac0b6732c0bccc1a3d1728c4ea649071c04c85b6d30d6f1851, 0x571f0c28809ea6f45de2463f94c4abaec0bab171a8fd869fab50ffc44af542e9e6a2ac70768e49a6c535be9ac5bc3c9, 0x9e401031cee993ecfb9789f27df412590dbafd518ad525c5dd0b73d03de0b20c666b0e4854d53a7bd14b53f44df095a, 0x15bf606e5b680964b2eff65b1fff5622d9cea45ef5780f46783948b5ed9106b33851ea0f27fa40ebd7186dc7729ac382, 0x11f357c89fec4022f623adb66d6d49d0c809b7c2deea83639274e56085a69ac15e95b16f84c6c8dbb985dc7f264f6308, 0x1816c439183bc6f2ef0a8043abb5e8c85f445351b01214f33f587548740e696acca6350eaef75a803bf3319850a22090, 0x6d29bec0efc27c9546336c61e35822b05c67294b595f4e90b0a3a035434ad47f9b94204e2421a4a5d7a853bb4ea61e1, 0x8ff63b01336c3f39fde6a7584461cd80470df12e20f3e3541454a20ba68ca2be63aad758a47fe2d63e02ed41ee8ac9a, 0xa1c78e40fc522cb6617d6df5355eccd0bb008e2b5a68cee17e84c921070a441173e8e8ee31488efc330cff6fcdd3475]
def s53 : List ℕ := [0x181d35b5f98914473bbfb1d1459bc1e7113e8b3dad7e2bcfbece69d87783a1a0d674de742cc84f5164a0bf09c730f09b, 0xed52d3b8dbf8deb694a7a6a6911c84638628803f93e5a80f54d75fb9a14c7f51a4d5c5a8e523282fc88764bbe68a31c, 0x1626ab15f8e024a93bc940f4f387d1f439f5762719c42ca4d4f858d8964cdb0fe6ebdeb7f0282434dab679e315c5dde9, 0x10fef44966142473d22805d5664847ac762ae38b73b099527896a72be06967f5b2f1d05bf93a3ded832ef0655f1ed1a5, 0x96c538a885efda3968e1cb67b5573c405a59af0b5e339bb4818cad1310f75afbe5d497aabfa906d513618d604bf0416, 0xd0a2e901a599e67ff95ed87e5b31ee9444a905302891f964e864db30e85a99b102708831014829fb9c1d3ec2b4ed228, 0x1729f6c5b035bffd5c7724fa8724e3340b140e8f6bd18502b7a68046417b05a85079c71e0b5519a3a2ac8300126a222e, 0x149bd500fded7cd410b0789e78b7c7f100e2853f509986c7b412b923cccabddaa41c4401854baacdca65e64cdcd5a495, 0x13bf0df0b728c2f3489f0940001e1b0f4f58071305ee6fc84d6f63fe7ef05d2570d9a1c99a1a8856d1e9b2bb9c0ad38b, 0x125137c92f13481131b1c3951ee6101fe78654cfad8e74e4b79295df3fbefa374588cb04363acd805b3c56b7806c9bf4, 0x1019b6c041755ca2e16adc5f5309326a0f6872668b789b466be91ef51eff10a1ac10700b672062c00f31be601fea2c5e, 0x1358f69263d38f96645de1993ecb60fdbcf3fe2c6c76112e3d0ac8aea90c2968453f01b6b1766432e62e5d7e91d471e2]
def s54 : List ℕ := [0x7c9d481769bbe23416e381391b87652f342037f13ea3d4fd38b1384083ac0ce51855bea8ae823bf087ec64e9b4c6973, 0xbe3be3ad3200eff04dbdd182ffdf39ee3d333026a1545ef34bae72de59b4008f3f1ee346594155d5b47f52bae1d2c62, 0x151e2d836390deec927d697e4e950da660a722cb30583f89ccbd838e93401805c783b348ffccf48e10d0fb7d01dec49e, 0x13692b4dc3811d464523685d462cde2391ce4dc3dca9e39c44eefcdabc499de8e3f9aeb054b975d545535a6464a9f424, 0x163af028ae02cd2aaee2c1113b64ad46353e82bd41955976332fec3f2cbaa61ea575680be25c8fb2e1ec1eedf5e66ee9, 0x16ad0b90348a01550590e47069236fa283009200e67a3b1805a43206f65e4afbf2722302ec4b12068a99e5c2374465d5, 0xd4011fc880444242db2e60935404373af80240648d799e997822b3afb43810c6d8b2abc48a12bd82152184d497137af, 0x19bc77c341bae52e615de4c96d64fb627aca5a9d4ff20771e68cc3e4836f0f4e10ef3cdf978387a4ef1811890b73ec5b, 0x163bc01226345e7c815ca5d602f7acb795908f0b9e3d2b95afa2d5b99032d840b3b4646f1a2c10a51e055c58074ca280, 0x12d9a733a670df07cf91ac0f57d7df220656756a844f2c63951e25f82af4d37b0347434d8c60ac009a88ceb6c3543ed5, 0x86a3d0c1924287d3eddd0e835f04a009916973d66fb91dba770f80221ee2e67b8efd2db54e1f33e466775aae27023fb, 0x1300bcf004d881750bee9d0038ed7e9b31ef72209f3e305785e8f627000af3ecb0878a779f02b16ee32b220f0bf0ea90]
def s55 : List ℕ := [0xebecf2c3ac5b83678cf8b550204398503f748d4e54edce6de341cad6ec084300d0daaa846a4cc43fe6f2c63879b67f1, 0xd0cb5fe1bfc53358aae0dc009494564387c419b7eb6660fb2b04449316b0582b9a3e92fe6fcf4d86323532db646dda4, 0x9afc98b22d5794ed6fba98ef5321efa0cb6220f67f4e3a4a9803b027a0e784da3fb85184eebd047d0739f6c328072f, 0x164e9600783973d29ef53846e8942ecddcae014d8b566a4e94181f4de1c54d1b816fe40fd97afdfa904e687ebadd759f, 0x4b6d306244426a52284ae676d8447720b80c4bdcfa072214daccafca636b0d1a30ead7bf38171cd1101b5afe76d90e6, 0xbd06f0d8898bd895a3a36521f44abcaa19be5c13725524594bb6dd08762889ee72c047c77ec5366145ac0bec0a5dae6, 0x11602db0e22f9eefe03b3c23f105d476b96552bcb66bef0d6fe40743ce5e0b80dd09c085c20f9bac58be3f2c26287353, 0x12c658ff25db2a48b86d8967fff3693244d3e12233e16f6a799699ecd174b35f2a393f36694670167284de15473cc175, 0x131712d6e3d4bf2417543037e2648902110de12cf3ac6c0b4332acf4c3e5156e0297bbd516cda639267fb04ef67a0b89, 0x17de6d9a897d926b214a039220d822aaeca2de380ee30bfec6a67b1a1dcba49e9f6313d25ae0d4b77d09c4310a141023, 0x1405aad43220ea719e12489e0f161a07018077c6efd66506f976ea860aa3f5128ef498bbfc79f4e96472f5a8df35c129, 0x14a5fe770a3888de53430280a999a992db701da25bd3a6b29931f166eae0cd43d1b8561887b4984853cc01ff5c6ac391]
def s56 : List ℕ := [0x122933bc39a4f1d4f76158bc7eeff41efd553e7832f7e3f4c94bfd9aeee271fc2114e981bd8ae6f35c22d5127999cf62, 0x89b40a549eed3f2a6d0c72ad7162a7c01b298f1708ef4e7434f96438a9973cf2c0d9f70a550a8acbe280c491c92bf3c, 0xa8642c479ae0ecf6c587cd28571cf1510e3f1ecc585f582a4fccf1a87250f8a5370275158c69316875aea2f998eec30, 0xc3508baa4f707600daba36d1c18aeb02efb0f940c3288db6d413057685e096503de68173d3e210a3d1545b94020a065, 0x1758fb49aa9f7f6fa223cf3240e9abe84544a1af9b26758d5f30dfb164026cba4f654dc979fcd6ff66be5aa13e540a5a, 0xa9d37de44c379654195af738482f910191f9211a75c957d35f0a700766d6431779ac8558830110b125e8dd57362303b, 0xaa60d3886cc6a2ca9b442868d3ac15bb73f54e4b612578735b418cf58c72ba1bf651d108cc7837eb0f7baeada4688dd, 0x176f3c3cde44d7c2b39594055106a4119897a0a7a7309e208c9526ede28fead8b659e6dea1225b92061208aafb4258b, 0xece5e47302ce1bb149b9a759e4c1dd18721e047b8dd5c97f7f46ade728cbf8366220d96959df473316a556b9527cc72, 0x112050964585f46c56ec4acf81085af75e0031409755f06c3ba5d2d735f5af14b0dfc79947b3e0b991e3167f25444112, 0x1256fcab90ce326e99d728fd20eb7eb93c1b937e10dd765b9e9997a09267066f1ff5f2e0c5955dab210d3064e92e6d99, 0x1416e5532ce28651e1f0ec71c1b6add31aa36ab6809f26ae6932d782122f0897da024ebba352ccdd44f3e18132d2c0b9]
def s57 : List ℕ := [0xcfd2a2df06b90b64b6dd4a5b7e9c0ffb5c5cc6f63b039f9364d1e5cfa035e8e2c76c8de1707f98b261619b730114e81, 0x858fd3c6a17ff75de8af35b2b4e0b7c3f176a44c4f0728d034a675ad9b7e408da767e4312fc15678ac57cf20ec0c764, 0x14f0548d3661757dd5e17b640bb03861304788218d318da21c91ce42facbb0e3f9142c3f0ce219709a59d6c1f53f8f3c, 0x2730437eb28d6016d1962d28f4054801a2b1bd6545a1ae9378359a82cc5a29ebd62984e0bfca9aaa5a428f158b230fb, 0x7ed5f81f2f5d3370076c80c148345c375d193c2685d4e38b22e8ba00d3f2d5bbf9bed13bfce16de6568df85333a051b, 0x9194dab80756e48788dcc221fa6fb491106d3c52924869ac6a350d7ba6b28d61af366fc37026b7b520326b5d813b69f, 0x14921590642a9f7de1e08ab1f190c68ba96a27f553f2fd0c35ef398691b0fe2cea381515797058adc6e87d393461b452, 0x106228d86843da5780014620556965e66adf74c4d479caecad8f804295fdb90c589b8c9b2e9491b0a88fa4028f09793c, 0x341f61e75890661912bf4460db8d936d54df1d14da0b4f535d36b771afb2ee44b371935cb06228f4f65ec36dda553b8, 0x145130826a3d21aeb6a8c732d43aa4b43ff151df2545d3a3a80211547c16d330121c97564656b89eefe083a89a2ec5b6, 0xf39ef875cdf0ba2f1ad1d2b17964ce1d383da08b1dd1a09d16053560d250b88f8aa71700c6a3680333d37ca26abe98b, 0x2aee5aa9cac8cf606e7573c1470c23920eef258eafea68e4b8ddde47bbda84cb0066f3895bb2a7350c0afb817de5f24]
def s58 : List ℕ := [0x3f907afa9b89dbb5ec1912a404a7b4c8a9e8ce2b2cf92c965ea691798f5703f276e6eb99d530bf3c11ddfc886ee6067, 0xc9c9a81ecfa88953142a63634b31d51130e0abbdef01f2ca92f7cdc83a1955f21acf55eb3251264374a6d5da1c21db7, 0x81ba6b95b48f7030fcc1f82df0f4d761b61749063d9253cdc2115809b13080f1e53a43aa88109b9a7193642ab5efa5e, 0x96214084303023a2a595875b7d32894894834e5b64df1f64934a5512457d669726954939000c0fe5b352c8c9a9d76ec, 0xc7b7d4a11186e1b391d5bcbf5bd2f9be5e3e390d266af4c7e7bf487139fe5095aabdaab116a30163b6f31d8b04a632b, 0x148f23b65b0769abac6531ba4966bf90f062c4a28caba22ca2e04f3cff28397bb3a4f5ec5e908517cbe780b91925eea0, 0x10d443b147bb1fa32945edc083232f317ff1ebd846c3c033b69d267f7635a5f71b772996a7a2ea8c9cae746dfcd77661, 0x1373ada64622ee67e6b934f789263a28688de5285a3310a36ffb7a10b778ae242319fd78726c114a707ae4cc85eac0c6, 0x2020f02be0ee3bac8b247b5f18b77cfff2e261b8fc9124b0ed5d67453892a6f165795ba7a54cd53c3ac1f2fe0e0df0f, 0x90a7db34212ef978dedcd79a96180a092a8cfe7793f84b5b38c2da2b211daf5927ca26cfe42e3b62382022c0d5b8bbd, 0x19ed2401cc406541bc915178feb92a7d40b3ce7195b58b7cac79b3989ae53db61076d1c110b4804638b4637754c7c11e, 0xab1824007036435306e44403ea0c1d2c651bb59a3d3f423c7699b51f44e06af66e622f4a3a972097a85855e5df5a696]
def s59 : List ℕ := [0x17a38bcff2455eaf2c33b6f8659543d3b7860db524ab0de85afbd355fa44e37a68c37e413d07648341c863e869d13485, 0x5824b26be94af27a735dc8408418b350459b09f6e53a072b1a6024526bdf535c18ce550ea9b47ec48a92bd96c2dc926, 0x108d27f111de9a80a885d560eb1b1f8211bc7d737a51c886fbe757416de62a70c8123dd770e10acaaefc51eb0227749a, 0x8cb1ab2cb62bb0aa983a0ff0d0f8624c9af27b74fdb86e5e9b671a91b8abfd1f8dc3e1b344b88f3a463aa019d10984, 0x16bc88bce741a9f4f86238f28eb6410c0010e3cb8c72f184a1b8783016ebcf85292ca940cc54ad2a0f61fa69af663a3, 0xca9a32d2ee68e1846a14df501a807fcb7542d44272badf43f27b2c3a7abee9fc69fece754d4ab2f9cd6ed3e3a6a5410, 0x1523f76e8a374062fa88668f322b3fd82d58ce639319adf5e9ce9e6a321da616fcb52315a490426d0fc8728194ecd829, 0x5af1b6955a65d2b5f43b477d4db955b8a29fc52e57a76bbc765bb496446a8271a7bdac88fa95082c3bc2000316136ce, 0x18d25f14963a7b7aadda2342ce73810df58f07f55920f07d393cb8caa8756ce16dbca3120f9f742dbb28b69d55e13975, 0x2079998a52fe73bfbae0fa4767a8757644a44d079be07410974ad34ced54bbdf4a6e5464127beea6589cf4dab9b552f, 0xeaaed1074496cf458d533f1e163a25942a9f15b46245f73bb3a408d442ef5cfa4436446787ca8a879624c468f0517a3, 0x159ed7dc45cff95aac5db48e9b4e1763553c21a9395e879496a7cce9454b4078f2edb6637c4b0f24549e2b0d75011582]
def s60 : List ℕ := [0xe88d40d90d8cc5e307aaaa02ccd755aed14ffee323b847a66b40961907f67a79900b5f43e94212c91505505eef3b0ae, 0x49b5cfbbabfb1a6683b46816d8650b5312d9c8f482a0cfbc3a9cd0157052359ce5082a2c2d999ce95c3b0355ed3081c, 0x15225596303a2ea7b987396dfe21ae48825c2cea743a3c50894bcae754927bef2dc61983f4348d54ef6fac4ab8f48d21, 0x385753db4255afcbaf7b3d60b772826c23161aeb6031bffb3104b7546f1cf7487b01eb44a4ad530fdda92015dfeb29d, 0xdd0de1e0820a74d6ec146e01926b23338ad88347956b853588daf9cae4259adf731f4babdc38356d2f8504396afab2b, 0x198c581f2a079de97c908f39dd0680085cf6e389671b9d403b06d29679a8d77c08b9146e1251bf7004c7cf78a821ccc7, 0x6afbf28de1a38eb554dbb269a79c19bac1422f24e27d161f731bb78c3e987595a26fa323bc07956809a0c5cb5e89283, 0x165b54d7e8237b45b6316031c4796f9ad96f0a6a3a30ea49023b88e3770bac3af322224a021ecc86d8decad61a7d3406, 0x73fcd098016b35e0cb5416df5061eb0fddbfdbc072ded272d8481641ba2f57ebd7ddc63c7d6878bb79864ace2ddb752, 0x15a03501fde5d10827e85a3c83247053926b9c0967c82ed4e0860d85f1f72dede3818bb71ee18912742f51875aefde3a, 0x2e9a2c68d804c8d78e10afe2582091e5aeae557d9067a46bbff035ecfb353d30e034e633017e098be63b8453e25348e, 0x1145957af8e13c603297a80f6d1e3830ec34ae4617c263275e5f79c9e8abd89881627a954973bad0e00ba4b04012479b]
def s61 : List ℕ := [0x2af337ce3e24bf39a86701b682f2898dff8dfa321c3083700df35d5742dcbdafb501026a80cf774bddacae23b084e2e, 0x14f64da9669fc78079bf5d80752fd3f199f64c2fd3d93c6a7cc83a45b48e26583d8fbd8d8dd4d52d7fd49f9895e3a686, 0x4cb0ec16cf4ff4d853de6790ab97435d2bfd427420ed1a516b98975dfc2d6e99c82c076fd33218c87670be08f2a51b9, 0xbeeba036450161516ef07185d673f8388463ad5a7d79c67ef0c368b124335c1b0b3d8b9cd0cfb2fe697a2b3dec4d4c7, 0x11a1aeef20676024460a4c5609d98134d7ad5e5fa71abb3e50ed6ebc8d437cd8229e799baa3b380008303ec83bfb7d19, 0x116df2dbd04c6e5d9ca70109fe2d6113f95b7488e0d493c0732d8668e34bc31710a220662a3a56835dd3fb30b1eca8fa, 0x946908390b8a8913ff1c7cb98bb1823be8ae956afb2eca1c162d6d7924ae7bd03a3b108517dcbd0c54bdcbf70b19a07, 0xd9fe9c1e75148f680044c5d1bd5132b0aa1131a712bc3fd20b3fdf109ecf7308354973c2831d1da916723ce0502e601, 0x149bbb02add0a7bd6a83a5913039aa7222882218a383ed32006d0f020c3e54185653fddda303eccbab053cab509757e0, 0x176240dc9ceef3817c44d2ba0d9118b47c4103fe3b4258a65c7994afea7e940ff64965a65e60ff828d8b9bfc61771b55, 0xe920a9b55b1846c316b0bc73873f6131152f70438f72d1aec1113096d3f0bfd1ddd4b9b89bfaeadea5288d37916c4bc, 0x152908aaeb3f58a694cdc41d1806f6d7d40987ef89467513cd4b59717042413f3884520b5e8aa7b74cee921e9bd9756d]
def s62 : List ℕ := [0x36d96278cb06635ed77d4f1dd037bb3b2ebe4bdc739d16edccdc8fc54d42e38b6008f8ffdcadb24e879965a4a9c4ca8, 0x5983c3b94bd62091817cb87c41edfa70648efd5154dbc1ff51e80073e9d37a5003fa7540f6f0bb3b8dc9fbe093f95c2, 0x891837034e248ac10ebfc6217d930d65bc8c70402259205959256b4715998d66ab917e43759ee6d72ebbea5c4ab355d, 0x17b1c9e1af847014c1a3f3bb827a875bab536e08a2c38b511431d5ef249445e3cb3838a6520d21d558186eeb8c8ca443, 0x173b5ee3ee248e731f7d06b485f946f2acac646dae1132bedfc7a4dc6dd4b988f939a908f928842e293e4787a1d30fee, 0xc4ea12f1da1c49ec2b8358bc1b827304b70f1be8a251a70cddc163a0e0378d1bde52e8b7f46a0cd1a2b93e290c81eec, 0x5c9f8a815bef08232ec344066dd2ee793a741731557759e7376161fc123fab593d6f80c6f6cf3f16a021f0373453c97, 0x1209273a6a60caf833a8eb92dde5f61825f5a5cd04a34be30776cded0c5ffe3286f8628a0753c87777b2113e7e61260a, 0xfc7880da65d52481dd1a4e815635095d298909fb90a8b720f916903818c5cecc70e219a39f7a903e5f59d992ccbb748, 0x53ee74569250b86b7440ae4a27c733df7ad1f1f0648ee122133fecc404f4957087b43f09255f20bfa219a5f4d5e16e1, 0x10af653aa06e5a36094e7d47513185bbd63a33716ffe82ce3e16982bf83ea8342995a2b0ed0a6fec2093aa343c0aba50, 0x49862d346ed19bc51d2d62fb1bcd9afcac5f44e0480a50d99c80487300bf899ba1289935d48307e17d2e690f15fb9e8]
def s63 : List ℕ := [0x13ca58cadfad14069f5ec1828330c68680a6972bc4241badb2afd00e0d97872084a54d77498abb23c61b0348cba735da, 0x62a6ccdb4947eb6bea61885a81e83425665c7df89678911a286404a9f4509be86c48c3d7c6d3e8afeb06233eea6cd45, 0x17e6b407a40befbef977fcd63ece3f05162cac7876ed70f5dcc54beb7777b5ce50d7c36c6c589d5f55bddc5f1bad01a1, 0x12c147366a4f48ab5db7901ff34974d057197095b08af374155c0fa9450eeead1a7613aab59b2507ee9034a1da0332ac, 0x101130a43e95a92976a3b25bbb7f694c88ce721a1b48031e8c9514c5822c00b9e9c26288e5db3a528e6877dd7b8cab94, 0x1876ee261d3762e2371678fa7c87fa7fe23e81662ce61ec9cac699f879b53fded9c2907de9da3179a7e92e4d7a04d461, 0x11f4b2570abd8d32899034e4da04a136851e1df277696142b5b9e181a7c9187399542bfb57e4d695da4932401a459aea, 0xa7140c64867d2dcb8fdbb07333240014a21cfab46c7ee29210d491a8241c466152d9153979d8e2e2451e2098567c5cc, 0x4941d4fe45d6e97f5dbdaaddeb0ddfc587c501cfadf9c8cfa56be474259b1a8845c4c8232c640e8a5380575104b587b, 0xdcc6bcf10714a33e56bc84012dbf920e44850b3918cb8d3fde33db0f2e4950528ff1f3ca3b6211b87ddfd4804fbb919, 0x507fa8db2fb1e01c0deb4ae20e54cb357821949d7a6415cc33bb3485c34bffd5ffe3c8f790dca9f41db23d562838c0d, 0x19204ee888cc8a417f0a2fac9be0d8579637ca74761361cd7b7a11efe1deecef39095d5eade316cea11778e92090c6d2]
def s64 : List ℕ := [0x3a3ce9def6f4ca4600c22a6e3336bcb8b75480123ce4689b2202bff21e2c49adfd2150c4037c1119fec181a24c42bbe, 0x19b2a87c04f45257bb2aea7cd75302a05906773b8fb37060420b7358e591840f36a2850dfebe0ca0ec0f120a5f17c131, 0x8ebc9130372beb0e57a4a1bc963491830d9884f5b979dbb03b879116f42a5e7e96d83d03ccb9159498c052d008b0578, 0x240b14e2c43b65e74adffb90ca50070aa78bfb369592f3c37ac60de8e9badd17b011553a9dbb072388a623ba25690a8, 0x307e5db3e4f208919ecc8a350188e0fc8a9232e865ff3ec4bbeb565b23086db824551c57efd612d76b46be09c2a9f9c, 0x16e7e0714762b77dbd5e2d8459ba10a4c6b7c367d668e10d904a0a7931c1fba03de5535f3eabbdca56aeb68e51f700c9, 0xca7b55ab5421a4000eef54ac48fd21c161814036a14a744ee5785bb01d3dc33007c0c016e6a538c6d67a79089295d56, 0x564810eca0ec896a7e3fedf848398f358914765ac6d27c5969366e05dfe2bf3daa4c003c643246620066be4965b2a2e, 0x5ebccac6334163fffdb9322692f0ec409ecd790d2f812f6aefc4ca1d0740ad7080e8becdedc574edaecd9f007a986c7, 0x15c21018ebb198f614d4347d48901f3f43f102fbef9fefc0ea42fadc2b4f45e3662f2b3616817b7ef447b48df206d07b, 0x101cc3d4add3f2ecb492ad53dd99d009c81eb487df21b6d520902fc9704c4587cf0587a5d51532961446821fa0adfed9, 0xc62c52e3ab8add6684690c80c0f34405e6dab30972cc2dd9c6bf79624fe79b2e7b7b3d12cb8588a22c3cf2dbdcb51f7]
def s65 : List ℕ := [0x184019758c84406aa5299d2b8660e69c66c7f66034f6992d38aaef3a89590d69c21f0062b273e6175dd142c1b079b4dc, 0xb5117c17dbe32225f3eca659a755ded6fd321b0fd3b90b2c2858097100fee7da762fa63a34b0c5ab5133ee5fb3f014b, 0x1579aaed194d133878c51797dbb679970b690d4f6b7f90fed19054c9ef3af2b8d46617ffb570aeb64f65d42ab2597a11, 0x12b598eb3138d0906755427504dde8f732681ecf33a3554d596c319750156a22c1e9d7802f612a4fd961a0d3a2a529d7, 0x2dc47f8f49e7caeb3f8df787f2fc133b77bc9b623a48079c570cc539ad21476c718ac7dd312ab912c8f331a7fa789f0, 0xa7e0a02e18c3c8a730b2caa513a7c51400d68be3820ccc5aa8fc0544849323d24602b4bce0116833aae289c815ded0b, 0x5d8f5a40a28e980931a275ce111af874c9e13af91406d14470bef44fc835796c63d1536ccc5aa17884d9902161536b, 0x178ae96f0f7e54921c3c81b375c0652622deabf2d163b7e3f40641a067feb8068dbe29c14681d9d03d556f72d62435a9, 0x13ddd27fc3c5d10c0786bdb89521cc8f4daf2f452e313f4f30863014f554cbaae56c734f2905c9a7d0dbe5295b5982fe, 0x179085a40eb3001fd5cd292ff15774f0c109ddc28902c2b6833007a4297e89ce4ea4f004d9f7133bb6f0579b2ac45026, 0xe1aec66eb541571239bcaf16daedc2d4baa37f9df6428e8d89fab7e8e6cfcb5ad985660d0a7d287f3cca076ab50d2b6, 0xf33d0cfa192e8ffbd0a1b71cefa4c287c6187caee56adadb6788ea41c0588b5ee0843c63a2611238a6a86594834e30d]
def s66 : List ℕ := [0x104f24f3ff9660282a9631b8645c865fc3a7d75e4d13e8c6fb360e2737ab220f3a641c881a73b63e30d044a7668e2e7c, 0x13eefa8a8107066ad6f388b348de14eadd5d1b8124cb9553ab528849742489d9db55dd839b69f01491a81bc5ac2c1af0, 0x19302882329410fd1785c5e30ce4d034ede4024fe6b91e37ecbf199dd741c240cb5a9490c494d401a57bb024ae2510fe, 0xc4f6e296f9a5c2b89fc5051676a3beacb2cc06f5c273c0f41e634f9c16190d54c0fbabd56cb948073388c6144ed7d60, 0x20743f5179678bb730001cc0bfe2860b259c83df4585e30a8c8a51e0b6d59992deb8029c9902045268168ada8be8237, 0x3fa17bde5a21544fff2aea820c2a3f7c742a2f6b1f1a3c580dc60138b3abeb84bbce44893284f275cb08dd497b119ab, 0xe8725ca7f761b61ecfe2c44bb66b392ac5dd75e6ec1f247935eac64029954c90fdc9bb8c50bafeece984765131ba711, 0xa416e4b2bd6541972df3c24b6fc936a12e2526f5fae0c1f1da06c703b631c7c30f42642b94a6a82a129869bb5d64d15, 0x104b1bb1f2de9ba6abc58e08d30be5dbe24cb87e7e4f7d73dfaa70cf039cee017c073c65915dbaac3a27c1d5655483ca, 0x13a71e5c888ad6aaa0c3efd48be83b5ba4a871952d19af7582bbf9f106f0a1743e71e68d7e4ec6baf2edf40e9bbd477d, 0x1ee51aa030e96ff216718cfdc9612c3503f637f6d54b512baafdbb7b35f2acf05b75e2faa2099345616b933d7f28a27, 0x42d48103c7f6b6c4f058e7f84baa546a9363abe618ae39ec94da27e80c6af99c7954929578cc771e52f2a50d923e746]
def s67 : List ℕ := [0x4476431142e8d8957aa474f40fc4aaf5583656436a6092aa2f0f8dd33a4473c69d62e56f89275571648198ea13dbeb7, 0xc033fbb4f98bc8d9dcf8e543cc9de427a21cf50012beab1b00d4fd8b46b50ddb10813e9ac810b70e3bf58fa7c26e686, 0x1d0aa48e3656c6bf5c226218bf67fffdef209f37e15f5c81990fb1040e73730e6418e54588598cecf3b018eb13d9432, 0x2fe4e71b271f9affa1c47e614d9f877fd3c7f7942ce3dbd6a8921c7d3aa0b257a592c675c7e9959bfd891a8e8b35812, 0x57d0e43b4f742dd6e75814030007e616195d8c59067a309c4c2d0378f5d3501f0cc76e882874bc632776abd29507c92, 0x69aecd9e02dbd8fb976bf075c34b28c231f50aa4e39c87e6d9fd8cbf79f4fab3f4894b8466cd367311275b7d8a2ef37, 0xcc1adfb0cd86303fe990b3da4d4e548bef840b760feb8b58c45ddf88a8ca982e263924b95fff9944391e1e0be2578e4, 0xd8786aba9b49a6993693a55da30b75548c11704ceb94a12ca49bf067fbbd238c41272243d32695645b9dd91198fa103, 0x91154024056d40edb63817ac7b07bc0e04b2245015294fa6ca71a34dcb9ffd35816fd33a2dd0f6dfabd7e401a017b9b, 0x7da8cbc7c6ec1020a77e34faffddd2dbadeb3006edb152b0d0dbfb53b09f487a06c40ee9887426a84d5221fb30f1d5c, 0x679f390b8197c72376ea83e42f1bcbd599e2046d515922a2e0cbd1e50d369c496ad28785b7a04cb238eef0458a65a6c, 0x6005697b283976238e2e440f28af5f40e79d102dc9c26ee78e144430148a8fd2295277db6604c9d193d70be63400255]
def s68 : List ℕ := [0x9b6cf7d2b16f987213dc96ac39ea29ebe8503d6a764c9988e7df283a45f043bc52900b7b7f625eb4ebadb11df7772a7, 0x70a50f11f3f9a614dc57ead26e7c3897175423431d74b79305e05faa5b997257f9645e429ae8079ba955f9bf1566d28, 0x1434ca7627208b631fab9fe851983efa300f78c547c61f10017a080635adb658fcc639b4ed513fdb10cb2a9862a855e3, 0xb7d6d1b13e6243511478f797526152e62fda14a2d4c8f8b0aebc34eb120d0ab2164c83c33c103105c8ddd2d8e7789f6, 0x31ee0cf8176faed3d5e214d37e4837b518958ee5c39b2997f01e9ffb9e533bf5cb7335184e4b9b91c232bd7551f5ef, 0xa7c646316b69e360461d7675d8a81a59a22bc5df6ffe13fc2828cc449e6cf1a2f93ae1fa98238536cdb59140e578242, 0x89a1c5b46e5110b86750ec6a532348868a84045483c92b7af5af689452eafabf1a8943e50439f1d59882a98eaa0170f, 0x13056fab81ba378cab9b13a99bd9f5d78ef1cfda01622729bf5e520394f115f602aee495b2510f47a9d41e3d2a29ff91, 0x193502b86edb8857c273fa075a50512937e0794e1e65a7617c90d8bd66065b1fffe51d7a579973b1315021ec3c19934f, 0x16cc029491d0e9c6880057ead66635ba9dd6620c88cf7b8c4668cbf3c0a8cd13a303ef3910b40225fbdc6e5f3da51109, 0x18107154f25a764bd3c79937a45b84546da634b8f6be14a8061e55cceba478b23f7dacaa35c8ca78beae9624045b4b6, 0xabf2c63d5c0ddcb449534ea73312e1028caa6adc6dbdd7a88316a34f94300e04a1d55da016f81e0bc1ab6c7c498447a]
end Bls.ND
