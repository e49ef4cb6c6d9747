import Verif.Proof.Chain
/- Generated (slopes of a double-and-add chain): the slopes witnessing `(r-1)·G = -G` on
`y² = x³ + 4` modulo `q`, `G` the standard G1 generator. -/
namespace Bls.Chain
def g1Slopes : List (Bool × Nat) := [(false, 0x256addd10de5f1125dc01df7d60354f49e4cdf6d84cbf619723a3ca979025d49cc7536b86e8558e23d63cf91e1aeda5),
  (true, 0xca01508e09da63bddd07d68f0f5ab0663574e3f1943434405546e7593972a28bb131f34db86678cd2a6b7c494c00bc),
  (false, 0x19c6a9e3932cbf51d588fbcc9a29514243c18224f628796847f8d37c73774c9b12981e8adbe51f8de63a11800e3cd6f0),
  (true, 0x17a3f3bfcac45d43774343d5020b503433069c0eac332e69e616817e8fde35dfaeb93ca3af389b202b941085cee9a625),
  (false, 0x6f0881b6ecc23052ae465001906677523bc2004da395389034c166958be0c0002f835174dc84fd233664b18d5a9bc7f),
  (false, 0x10b0ced413abd6b4535115c0e1ab4b05636d8771364fa66cf15e03688a016f09e7c79fcfa869dca4fa74c4cac1a8bf7),
  (false, 0xf217c437863ec7bb3b10a7fd86ecd1097cebc41ae5be1c12a5461c0f3d5074a6903759222691977a3f1262b9e60d519),
  (true, 0xf2ef4a2bac1998e8df2a7f89f1c5082da699cd50f432d1d790c473e3c67c65da6fe03db80e86b1943ab239c20a7b98b),
  (false, 0x823480ba27710d1e252816fce4cf13acb66bd0b5eb290f33d6d3c80e93c232ddf8ffbfb2713983cdb4fde1b5cde1f0c),
  (true, 0x4edbc34232a0d2537b8b1755d8ca46912821380131989755e455a8fc6687a0c4f6878ca7b79e52ea520bac80dad768b),
  (false, 0xf9e62109a666b45bdc62c8b93e4cc98332476357318c0f3a11ca43bbd533b01c27a325e3e13369e21576e2e085111bf),
  (true, 0x16bbfe9b6bfe533af991c71dab66d306486e74946534397ee6cbc43d73912bac2d3a291468251b5d97b040134e218de7),
  (false, 0x13ee391db57f3391004ebac13fcf13fe650c9945d85b4e452fbef6636040c486fc2ef8bdf437e8e6dec053ce1d9e7ee2),
  (true, 0x16d3c97ff039650a5af6acd04bd1bc9fc8459b43ea221f94b6e7c0280965f4c3fb8135ac2c8f203903f40a6a266e75c3),
  (false, 0x268033a4625b6e333ae54a979790ad518470eab09281776c05341de6b6585d27d66751321403aa46a0d1670b71c76ea),
  (true, 0x433d47268f4c0de76133313b333ad94b33d6cff9c6bfd763d891c62a2e47b8ccf068dcbac45d848e42895b6343f59e8),
  (false, 0xd914b5bc71b564856f8dc86816a2c6a439135d24e3ca7cca38adedcf823bc4d18d0ba8c7159a03d1f1451c139e55a02),
  (false, 0xb8fd56603010c41855f0dccdc13bd8aeebdb2f2be90ff590610b06df958d13802e0a30c80f46b93052ae9878d6b7aa),
  (true, 0x13fda29690583203ac331c4d3427969fcec2b8eff17d8a7606e4a38513e9901c5514159ec7cf53c03e9018c1cfe313ff),
  (false, 0x8133b7d9025a3b5a2a12f499d42ef8a89f99b513f9bf28a44717c5b6c9c411fae4d3c005cae159f41796506c72cfb54),
  (true, 0xdb86965c3d4a70205a6275d40b76d706b6c209510885b2ccd2c8f1f0f4442be2584ef99ccf405be6d57975ee770ce0),
  (false, 0xa08bf0092f0ed9cb44229e78dead7c1476f6ccc80aed9e519866bf3b0f03b0ad671f9a43a81341a61f8511600f75799),
  (false, 0x7c196d88b23cd79ff578730b3df78e7af585104651417ce4e85b424d70246fc2d3456c2b5966512b84e28e7b16a3a06),
  (true, 0x101af1b3afa8ff564bdbeb89b482992eaf439ebdfb237d7544d8ca657d5763556b65b78b1455e3d6dada3cd62c4cf830),
  (false, 0xa19290eeebc25efdfcaa491d5ccf4a9a53e658aac2395af73cf27a4fcc5be28ff0c8382b8a6d3455cfcb5655c901e9a),
  (true, 0x170b136d1ce8cd4c89dcdb4eae6aa5d71ab4486b96b703bdd1bd19374c7b925c65a553792edc4b5a1b77b9a3c31eb329),
  (false, 0x959581f83f44087d9c3e80d25b73c9c46368217255c176c8618aa53649f6772aa2b5d23cdacf4b569690c0aa30b6a02),
  (false, 0x650c04e8a250c523ce79bd714e992195b623b1677288cd4bc74f5c0ed9d4912e3614589547d075e9c9b214325967d38),
  (true, 0x4de82b69ec8d3b49a0fc968870c6f579025ff52e41219a46463f09db1cdfcfe145800110abd502ca7e3b6fcded23d04),
  (false, 0x1582092726a3680f2a1321e59aa9659da2f8dfa2a9d21c633e276cd484a85cf72dc55a3bd1a8b52c21c97ee414388d75),
  (false, 0x752ccd1affcafbc4ccc7ded77e3b23ee7ffb6e737524449f1e17d73865b63e1242f0c281ce3c132d364095e646bcffb),
  (false, 0x87d5bf8cfc49be8e3c1f560007b41a1694f81e7d2934a6f5bfbc2b1debd17594809b802abcded8eb1fccafc9cae6e0f),
  (true, 0xd0897ad9198f21fd557db9240c837e6dabf3d7f502ace5df06e7f74ba4b76e4ac134d5c664f39f36b83a4790120c6a2),
  (false, 0x1957bee45732e3dd74498f578bcfa5cd90d935d05dff581e21846cecc432bf8e23e0f69d1d5de856bbd55dbcb56190f1),
  (true, 0x18a411ebafbb6114acfff2b8c6a7cb3e58abb0d773cb2f7af1e25194a42e518e8701d97eab6042535d9f5948cbd51eb4),
  (false, 0x164f20e95661cf3eb749681004bce3a371f13b4102818742b5e4b0d25cde1b1a110ba8c22e6bd14ab61ed03a91800d3e),
  (true, 0xdb314959daf79dc6f9789dbdb728072317e91e2b65194c1d4e4e0814ef5e7a9737aca9bdd7478aeb6161cbe864eb064),
  (false, 0x11f95a819e1239ff96c8c1efc0c369945989ae6ad8f938372582675ee7795b699f8dc72aadfb1188485286909fee994b),
  (false, 0x12b496564c5a186f23c462820c59c15ff254bb3cb024e728f2b52c02148213774471d627070033ba4b708865699be962),
  (true, 0x18f7ff0f897e167e27697059a81c28d0ca780b83196454b5f010032339b7a856611234a00f9b2f6f552b8f6abcf02dd6),
  (false, 0x8bdcf066e4807dc9741bb7cd5aea7c41d0f90729fc361880e5e4372f0102d654097e0afb32fd6be43774b2e89b7c38b),
  (false, 0xd01f69aaf0e6e0f666feb121e91c5abbcdeefd6cc7dd5fd41b7d9a4509da59e5555ddfcc624541036666e7d4f5f7488),
  (true, 0x104a958068f614ccedac60adf11e81693cd93a1bc20a0e2a9880c58b6bf4c99bc1a3a49a83188e5ebb3cf78c9b0e4813),
  (false, 0x190b85fb9de55b40e537f1547093a846a46d68392e976a8d291b5a7e56ec0a032b088272f350bc9ac7093839823dc018),
  (false, 0x19821747f8f5d35b348c1bfee47ff4a7fa99a36b154d2275ffee10093d87a93d5bc8f6b8a4a894d25161337b67976c0a),
  (false, 0x17006e0676a7c2a2d8dffd8a5ee701b15822ad0f796391b25f4655ea20ef8ef1e025a0c18ee4bd4b82afb7fbdc0a8668),
  (true, 0x122a38b216df2eefa297efc3cbaac3adb5f2987ba5db0202faa10609043289cff6228d287623151e4fa45874010118e),
  (false, 0xdc22fe57d1a77cc9d16053c5e7e6520f621f244e030e2a3ea434e09d9e3582e05845e9cef02374cd008f45e513850a7),
  (true, 0xd118c9688811b3b14613c82f534ccd480d8fb3ca7825ed37a8db2439a7f4ebdba18bfdf4ea8c3996be85f790c9c830a),
  (false, 0x850c47b26339c6b7031b7422d485a1639ef16230fcfe2293d5d8fe11baf195aa4b924720778d5ef0cbca2fd87b598af),
  (false, 0x6da1493c865f1816826dc5394ae87b8e4fceac5eb2c24b7570399b78bb8bc13b85183ad611a7d581db7fdf64b8502c),
  (false, 0x19bfd752c142cbff15898e4adfd17b08f6ba3a2e9eb1e77f36d2fcf4d91e287320b3ec67051c128f94e60c4cc49b9d28),
  (true, 0x4a6b3e52ca5febda72781f484493eebf01f921d4f7445ae7498d64a17392c08d03e5523e5868a28fa5a3de1cbbb2839),
  (false, 0x59870a5d89399cb7fed35f865cd4806a78b2b5501560aa99dccc145bad62b3233ad7992ad85b3a18e7b2aed6aa92d89),
  (false, 0x10485e8bc615e912528b1d75ebeea45ad55fa56c6c04c4713dc1cab2ea690a5c125539ebcce4cacc60c4aad09da21fa2),
  (true, 0x13664470fc62572fa43ce5ad60c15e67b289c4880454f2f22a43bb1a9a548642ab5143dcb481f313d8408530f094c9c4),
  (false, 0xfdf3726ecc8310d99aed970ebd038417b8d3af26bfda872141edd91545f934f4df6bf579bc85dd101dd2fcedc5bbd1b),
  (false, 0xcbfebe540ee9384448e26fbef4a16de31d34db8d9ebadce10bed4f9a0bcdb9e649c03aaa3922f2a2883e1ad140ecdb3),
  (false, 0x16252e055d9aa87be230fecf337763cfa3a6797285543fb6c5b5892ae50cd24ce77abe9ce5b6fb030f2f4566c038de20),
  (true, 0xd9a104cc42b9d4596ce74d2969fb6dec335ab6c1e03a4d5cce45d85f0c0d81a3094ec7db50bfda84dfab03d207bdbc7),
  (false, 0xe55c68a8247b83438c36757b1cccfb0c074936ec7f61963b85be3fe49a7b9a493d7677a14b0f34f1279f7ba39e49afb),
  (true, 0xa8110f47c4a050761926b3ddf86b6c7d6fc27fd5ff45f5639359a4e57ea7444a7921c0e3f7e052f22647365e92c5b13),
  (false, 0x27d570a601c4b8f29eb017cc2e3b8a37a6d60d146bd260454fd5dea61ae9ad1e88644c2d59990dd15c7fcd382619f22),
  (false, 0x19e8a66dae55b8745d458fcc1c4fc01fa5e6b61a64ed9d852cdb8601c1624d30715c5eccaa582dc4131cf365fcd5c261),
  (false, 0x1793f96d8abb889959cfcff6bec9849007be3314e86c5b5e8712327dfda8134a05341a2547b852610f660ecd55cf0e61),
  (true, 0xfac195aaebffa21b721420a9ac454b985a06f768da987f63538166c4d829069bb1d1648817ce8fd7c96008289a9798a),
  (false, 0x12ca5feb6d591dc0ee9e9331a8bf1a29134a93fd445fb232ac627fc9da1952b6475d0a9862ebf1677f8cc550727aa90f),
  (true, 0xe0b8775d768bf92f89cfc146c4cb5ddf13fa7de3fd9a83e17815e3f4c0e213db1d857c1b5b284b20ccd5521b02e243b),
  (false, 0x8f754cf10cf890e1479e6edb299aee644e48bdf4a5ae4e779cd0b9d1166ffba5aa6f8c494a0b5ee96265ea032358f2),
  (true, 0x194f2853de1867503940e31f894f600248d34636e137b13e0d66fa7164c18a491d9e721c19e27340a0a7dc3350002d70),
  (false, 0x6ec16ba1acdd09b127d23cd735ad67a20f99df24ce93acb712fa01ad438bdf5787f6eec590e6cc56d4dd58f7100ad99),
  (false, 0x2f677e8ac1fa3f8cac9d24a3dc8cde3f5fef148e8bb3e07cdced28ef3c50ab6546bc4f0b8d755febae723984b03b453),
  (true, 0x1754ba5acb6ee6b2158d02e2ef9205055c609457e9b7bd08977d664020fa9a12e0543e06b4539b4adcd978f222b84db1),
  (false, 0x12da24ec4bdd597980dc4c3f0da71f3054d547541e4849c0092857eb19275820d76a2193d229f139753b76ec7a66a649),
  (false, 0xa054d4e1c737c249d5f0140527faa22cbe81fe79419638ebafbc0f9bfe4a970448c8243650fdabac53f541c821314b),
  (true, 0x88baec5bd2096fe51d4fa5ea3d247a67328189f3d63cf83218cfe22f90b944b4f7eefc412ed4a864d7783df904f47e7),
  (false, 0xd043a8c4244169c3271dad173ef8db2840f30e5306d0338d280657e0ea96e5d3bdcfc12345afc1607fcaaf27bb0a834),
  (true, 0xd893532b9632e48604af039ea804c8fdcef3a488c1f551695910efa85aef500d346d2624b42c64f6b50bd0fa855faa8),
  (false, 0xa1491389eab6d7c9a9ea34bb9eefbf46222c4e73c64ddffd94d4b166ac4bcf9a0b9b3649eacbb29041c7f998f3a9e94),
  (true, 0x1619d2af70b0718de2f5185c28e6174c54e2c7333bf6719aa2be362635090bb6f9bc0220cf34bb19999699989156caaf),
  (false, 0x18ecc7970eadb3a9f9ffba9d85ae6fb5a8e61339cd52599a3da3a20e1f3c5a35a91b405556f980aca7290f38b0ce1c82),
  (true, 0xf8f762f78453942320c9bf6f1df79d31ef2e20efebb529cbe9eb31a4a72813ef93d933aa60355c28ec419437fe59c82),
  (false, 0xdd892aa2861466eb3ef1a319f9ecca987561ca49e8af50ca31a21a74a084df865fe247eccc56d1a30a36dc879fffb50),
  (true, 0x196791c5f8fa4fb40731196fd872f1e709e78bb942142aec68be954aee67378ad4741c7507f835a9334b38eeea52cdd1),
  (false, 0xb643c846de44ef9e39e006733ac078986656ade2fd6b7bf4b6eb7256b0a7c0b94552ef973b873010b7ba567256a4529),
  (false, 0x12ba7bf8179317b8ad38b88d6a0ea57dc4957bc9765d694d3d9a52f990ba4b27a9e1a672d4dd14f0f18e2fd0603e81a8),
  (true, 0x421c752b7ff4eda8343b4d6437d73e9f4c01edd86c0ecae9b63248e7390e1b4916518ca847e027a215ab7b740cb815a),
  (false, 0xea6d90b5149ce12e86d30969b296fde45d6ce0233710c0e9fb758cfb41e0c8512f34a0d30a2dac7324ed3c1ce51d48d),
  (false, 0x1428922145ee757781f8cc3746cbfb966dc1f68ffd2a48bfc457f87c50c7bc5e5935e9de6cb9cb31c17a3efe7e9b2d7b),
  (true, 0xc24b3e529c73a9463ef9bd28e505f141e6e7d594a239091dbd58c59ddcc8cd2ca10a3126f55cd4279170346564a24ca),
  (false, 0x180dff9f00652a09498e473111cd1f0eb2d56996b0c2e0c20add2975d2c6123faf1f42022c88e3700f2d75ec445a7325),
  (false, 0x11b0f7bc366955d2ba0414d5e1c27953e814556dd97465e879dee6e6f2828e04ca0c604a7f79218b6e21e99e728dde50),
  (false, 0x5d0fa5de7d23a509ffb7abf5ce9e9e241ff5a6bad3865e39c117e18c47ac79d5fc70c6df6b9cdd14b4507394597da3a),
  (true, 0x149a66bef8d8564d22b2d987351f7daa957ce82f1a547eaee70f9c58d5d0196128f5cf76a665a759d7d6adc877586398),
  (false, 0xaf43a79f1882663578d14ef9974f2f6daf29eda0bc91de75ab1f7c61cbc5afb10c8b946aea0c1dc81d9ba6161cddd5),
  (false, 0x197d63e0e8473541d7b4356d98186e1c7d13e7bb0513878a1148f951d7b10d0454493b6930cd7615669a6cb84f2e7e08),
  (false, 0x5dea1080c982365edd5b838d47ccbdd76110e014c325d5d1db876fa70b84e22a6c1f89264f4400c71b5d8a0cb6ec5f2),
  (false, 0xb00055fce949dc6c9e5dc3d796cf4342cb70569f34f7a6422d2596fcd4adc19a06749b93a7e0daf9bcfec4a25446505),
  (false, 0x2abd3251430949bed19694ced1b4d4744ce39b2e044eae7095b46c8cbb278f256cb6056d646bcde0a5b831bff4e0d5c),
  (false, 0xc0eb36f92f6adc9e595034f0633885e3886b5fff87c0873314c814c47200a2ea213e4977eaea9369f35a6fc7dc7e144),
  (true, 0x246d5e7400b648cc428fe948348c7a777d934a69b9fbbcb08163e97a620eb182ecfeed942ccf06d9904d0e54b46fa40),
  (false, 0x18cbeedd26085fa7a349415c09c0be13e48761cb78646a5c2d47e1fb01bca33479d9570916723fc67dff2e4ef654ebb),
  (true, 0x23a370c8a333b7785c871300f562a8dddf9668cf7b3ead89cbdadceb382fc07eacea5250e82b05b93ec0fb87152c511),
  (false, 0x2de336231eb5810b513cf179eb2657115b69e92f5249b2111dfed438f2d835f9089fac3655a7147d72064ee6ae70f23),
  (false, 0xca9a4e839f797a2f698050ae27c742de78b5b228aedfe00bb0e7f371ddd1d3a421de5462cd16e7e62b021e3afcf4d6e),
  (false, 0x14a79e986c1099c7066e0fc3712591f538a1217424336f1b2fb26b5266e8cf53ed745c987bad76fce6afaa13d99cfdbf),
  (true, 0xc9935e6f052d408e505ebc336e7e031311fd50c8e1290155704e41922f418c2e1fb2f1f12a77e558b024edbc798af8a),
  (false, 0x1142f17aadc1070a3a78bd9bf9708dda23cfd427aeb14e27d17aa2677e637d6bbdf9b763371d3d28694c2e13d4986234),
  (true, 0xe32c76761cb04f09688427d14a738b0c18b8b328b6128ead98728d4b58632e28e163af4dc225fd69d808726e629c36f),
  (false, 0x1fc4717b6ef5e174b5eb8051612fd0706a4b430f364eeb4809d844c8bc8c75b46846649dd6d2d96547b5eff5ec4ebdb),
  (false, 0x94f253cdd0be0be6624a17c3996b5967d096a2d0450ec5a1c61efdbe088108aed379516644426d64900f8b282a3ea01),
  (false, 0xefc07a96b2d3fd5844487c5e988528a859ef4dda1487e1a725834fefa1f4d69fa66265bc5a702abb6c56f8749fe5e77),
  (true, 0x17f01b46ca988b898d1f60abba144768df22199ad2723ca5e25cd65f3426e485dda5080a28f23a2088e053d72e1ce930),
  (false, 0x9baea2f8c0be306c5efb808c20e91e4f2ec05308c53dfb9f0974c81bf036fc59fe508dd68a0ce6c9405d32de0a66ab5),
  (true, 0x12539b563e1cc80c4e2179d57f80e90c3c27d9a5fff5d6b729118d371825a0435575ee425aee6e9fb89804d5055a03a5),
  (false, 0xd8b520fb9c5dcfa1cff52e9009815dee26366bcb8c8880c28c430daec1dbd43d796c1796fd3b61bc31a13865eb32377),
  (true, 0xaa5aeaf75a37c18e20616eb0bccabfc832d1b4414bdf8691ddd904390fc53fd5f7877e46781a67db4fd9eaa595a3095),
  (false, 0xd1a22bcff3f06f15cbbd91e6ef070a94fa8c18cfde3e188aa4541779d46bfc614db7c0d1e00da63cc73eb96d5daf036),
  (false, 0x1948d18918c6e4de5484aaaf84bc1d3ee8b3b55b8e1686a08c7d98f77f73b1923b661c5568b7aeadad59d39a3623fc3d),
  (false, 0xb7d710be5734c432df1980ad7587860a304a17d00f53597e877fe77cf9224adde14094dc722fa7d10fd774eb10d17d9),
  (true, 0x118174b22fdf2e109de4ea296971837c28b2de6b0efdd096c3091323ec1687ca16b8aabb59ef979eaa9f968352369aa5),
  (false, 0xa0be656b6a42b650fed7676e5409187807e730f4b196b081dcce2985d35e1a23dfae0f3f16bb1a6202bfbbae24ec755),
  (true, 0x151b964ef2e2f150317edf9a63f0081d48e893aad7b659db63eff788fdc32631a85c7fc511bb6b6865c97ceb7ae31f2d),
  (false, 0xbde19f99cfbdc27c3e69e821bdf4f3e63d5d0bba9a1fa0b699eec8c67b0fb41bad4e5015eff0f7817ad5230d7f97f99),
  (true, 0xbaed78abf03b6f5324fdc091d8a0413bc109080b40fc602859541b96e69191f0edf4592cf52c3bca959ea61f430ca63),
  (false, 0x25c57388a6da955841bca7a9a2f543a699f6680032e88c82d0b2a43d587b44c6779eb48f83b85faf5a34b9c45a9cfe5),
  (false, 0x9999860e28800de1aa85880dd656bcbbbf6cb33e0fa96a62f6b8082714d3a9ee7a14fa6f0e543d65b4d216c919a7c7c),
  (true, 0xedd784938f80afa3d01fac733d059972988067b37a4548f2cdbdfe158b0c00ed5701303b4e76197a815d399ca38142d),
  (false, 0xb2fe9a00cb55fd25b0357d31f9ad82f14f6d91a2cfe791b8e9791d58121e553304167b51006e13c65102d1bb8bd1b7f),
  (true, 0x14bf894710cbea8ef165af41be61b00608d16284f9ba20a8190ad797627c8c9b73fdb69c73d3faecffa700101df12470),
  (false, 0x138f267d38ca74ddb526903ae99d99f38e0471faa75ba599f093f9945320a61abfdf798e4033bd854e7e70c59e75c49a),
  (false, 0x4ce7d34a183104125a82009fad92640db88fe660dcde7984bf59a5b336afb1e1ea64905599e00f7f6ef9bf5a9fcafce),
  (false, 0x107254ed5caaf7ae4ba01accabbaf7fcfb6b0da111a84c75c818eb62d264f67f497254d2e6fb2986475917d017d9a6c9),
  (false, 0x4fa1754d0e86446d84ce0eec0fdabfe73f6635ca6e5dbe21f90d5393246c4e9ab02dffbbb3fbbdfd7d23cfa8a561df),
  (false, 0x6f91855217ba621566bb2322afa426ced8bb6b25b4d0dcd7dc0877d87fe8565614f0a958ae7dd76f6b6394b4d01979),
  (false, 0xfe375e2b17d7d9f013211938f377eaadcdf7d9dd740e93021e6e6e068ac512fac8185e2e3fdc7d5edd6a6b8e3591d20),
  (false, 0x19e8d6c65048d58f483a1e5f81723001a040d9c24f498e67c975d3c2076c58b981e31e149d4eeda4de64a6e02ed23637),
  (false, 0x5b22ceed65aaa3088234bfbb60888ada373433427cdefbc973974bfc327611756e67fac1f2fc954bdefdd823d6e567e),
  (true, 0x12629b32332f8e41300171a1b1594501a3e2813a4172fabedaeda927730f2a59d2c51ee765fe85efa36534a872a0c772),
  (false, 0x13e2860b47a1807c60bac85f23690c5ec88d17eba072d5952cd2e3008b1e7649f8edd8a7a7eac3cff070056752384633),
  (false, 0xe655330e144518ae311b896d5616ef98ce4447cf95dabc61c676c3566ddf7c4e65c276cff5a3975ed3d7a1b47ccac5b),
  (false, 0x9df982730d151d9c20ddc6f7fcc08c55908bbdc396554092425ea5ab3be98f2e0ca40d5ccc1dcc0eb8a334dab12be0),
  (false, 0x3f03f2e2c49e942ce6e8f230f8bac7d0b41b8cef0b4bdb4587a75e17e7947655aff05b83b1d1852574e722b7f950aff),
  (false, 0x400e9b6977b6052ee07b4e8439d3bddec61fdbc64b9b00883379efc117af0600e001a2373bbe052d32abbcfb3541c2b),
  (false, 0xb2958944d20506d59fa96c5bfbe34cf15df278d165e135109ff25d956e27d97695896fd87280ae6e9518df1a1c395dc),
  (false, 0x199216fc585ccf69e8dfdbdf922128b5bbacb2d3ecfea3d5dc39e3dcbcad2b1ef5116d3dd31f59eeb54ab2ebfcc07a96),
  (false, 0x3f8a76995533fb9fb79ed2f9540b8a1fc445efefa43b1665aeead9595497964ef909d591984de40a4b182f049e3000b),
  (true, 0x1168df4d39136bc63b7c91c65a87593fad027e9ed0b9da380f65a0d46e47cfcf90704d7efb7c1962975485ce8129bfcc),
  (false, 0x13e287d8db293cabac20f1e3de4bf7164c9234416f8bbe0b302daa0e2e38381f708fe9123185d85d8d57b5eaf97dd8a2),
  (false, 0x155bd519f7d04999b30b91ed061771f342840d965ddf5342ee6ecdab4d2042c0d2eb2c09a009d85c4d9aa787dc825b73),
  (false, 0xa706f04d54d4d70cbc31deb4a69f3235927fa30ca2a5f911148b6926cc1b8a42a2818c3ab86209e71301805ec8d55f7),
  (true, 0x14b59ff3909210e9480ceceb670ea84cf106284ff24279e8a44b743df390689dd4b9d9c0b312c4a0a34b4e9dfd3184c),
  (false, 0x6f4c3000070ca7969012038ab5458d0d13b962912c09859091e7f082dc0f3342c9906238d30920d6ce76bf5eadab0fe),
  (true, 0x1409a91703db043d699a164aa4138905b9374ac4f817c8ce1d13cb77fcd77e13587f45d9f857a2e9780aa2bef3ff88be),
  (false, 0x2ba10dec8c0b009cee44e36c43e6da97932c77621440b21585b2e30ae8ba72a4b4ba8f136ae4548de26a198ef8de340),
  (false, 0x1a3afb3a4a19a9a7a4332de7501e7f30d19e71aba862b4040c716b73c9457c96971121758f03feaee63bc8f7e823f57),
  (true, 0xbc7f4b001ba39c9dabbd162b00409e8a03952e3813aa95f862d0de163aef00a8c65e4b9e9268ca4496e45d78d25f51a),
  (false, 0x158713de1d65d7161ea466f7533f7e91a41fe91b8c5dd3329a29a3e4fc3656f606b7c76d59a97aa447867ea551c542ce),
  (false, 0xc8b6a2a3308ddecfc77c35beea2f2a7de828571f85ac15f7ebe27e3f89d4c6e4e037a95556e46966618f9d4d93af3c2),
  (false, 0x1980f2170958d2f2524a7e6b02453c7be078eb34417ef013a8a17b3ed6c887c3d7ca1db979090377c78c0a27c7e85857),
  (false, 0x12c299167eec1f16729a0d2b7b198082e26d60917db7d4a03bfc612bc6e2c3f0201ab5d25a933ed4ca0bd12fa3f8ff4e),
  (false, 0x8bba8e8b665d20c00c5db763ab20057fc5bded7787bb2a8150bd03f04850a2bb0e7c7ce01c3cd0165f4176ea6a9b657),
  (true, 0xa31acc21a9482217e61c5b17e1698c394fc7cd02d030c4350d00c19e0559f6c834cffd493d38e2559492b6e5d499694),
  (false, 0xecb560f5b89367baf757236d0f741b022d59d01ea258400599859e1fcc41f1223dc49311f490e2831cd9196abb03d82),
  (true, 0xabdd2b867bed74ed4cc513d329b94d35d4fb458f22cfb398eb9415c8b4035478886656f8f5d5067bb381b8f53613871),
  (false, 0x14aa1878157f4a209ec04ede83a79641a58f9d8ddb63a2c840cfbb256f6a9ff30399cd735507d47514413028556728eb),
  (true, 0x2db7d052ad4c1b22509ab2ad2770463c1cea4b5d8ce1212b33110a47fc96bc6e637460014aa1c3e1967761819fb5f26),
  (false, 0x33cbbb35c81df6085a9ddeeadaba6464e6a1be630509db30aae7d6761417857b0927019f03d98c1c0bb148331026342),
  (false, 0x70c1133d9b67ab3ffb85d8fd2e6b14477c406bc77875024a412ef7b7ba3a19d9e81e8f6ab772ea5a652674085c3710d),
  (true, 0x16e89f73de3dc72d758e0097b4cc93f91bfe4b278ff11d2bc4bc9e7d6f079726a95feb7a56158970f32a91be418114ae),
  (false, 0xde1c2fdaca84e97504bbc3f506e16009a7fca071fdddac5563aab5700df1410b66d1e77b3b39cda555b6f3018e96129),
  (true, 0x8c3250ce81209ff747ad29247b4183aa2f54575a66409ea1d8c2795157e160014aab6d21db1bd68a42dcf522a23afda),
  (false, 0x1129fd3fab9c9fdc741db4d697b623e2adbec5d4cd5ba137b05966763f9d658ef6ee4d8d6176effeeee64a4f2edb2c30),
  (false, 0x94094300b0a4b010520ab6c8e8fd33fc175f01ad0bc4e2800feaffdd26bdf03ce4b76526e197dd3082e45065024ab73),
  (false, 0x6b3e07149d6f71fe48d2dfcb546a0703f3ca53d7e40c00667c05aea3b9eccf2d6a8dc3532b50934a7892ccbe2b5a1f8),
  (false, 0x192ffb402a27a7e23ddd512e32c3b06f4f2c5236f9787a42f0eb6bdb9b6a9d06044677a8087d6d039f7922b512843dbb),
  (false, 0x2a492a9e36843c996be836ec2e10be07324e0558d2bcdf203b642a5f8ef856846f071ac8359e8ed1fbb8ff9eafc8757),
  (false, 0x847917e20130c24bd779c25c29bc887d050db82a5efd87528a494993ad53c765f1d36ac2ce8e76a2f97241db1a5e248),
  (false, 0xb14cb8e886d5ac832be23d88d3b80ef434078d18a77debdb498c70153e1208f4e044ef4adbd97505f4399632d2b573c),
  (false, 0xc8a95bcfe3e5359be3a5e396c26ef375f104d89c833dcad1fc320ba976bd6617692b17495e8478ad0e68059f6c4432c),
  (false, 0xbd26f8d533edebc5ec6eb68b77f4e3c8152fce587400a1332bb34dd5fc5dfc9994a62d592e944b8f94187246de3a800),
  (true, 0x16bc5ee59c03983ac1173d03fe86f6ec8fe055362233e300b21ee13cbf0b7a53a2a0cbe51bf9358242ed9bb977e47374),
  (false, 0xe89ec87f558270d9a3f4b15a03782f368bea37f7cb3d605c2b53675b1ec9316c482573cd3608ec8834c3e32b39d25c1),
  (false, 0xc30334faf680d1c51109bfb20dac58cb1c3e94c52ae8d46a77adea2447f6783c2a3b92127f51ebe42a09ca5f5d62efc),
  (true, 0x187d88d758b3a57c6c3942d8d26a9015f85361888ff9ad12f273b508f6e0bb29163ae5beba422b3c36a965a4d8db0031),
  (false, 0xe6f97e314f4217e9f428553bc276e29ad2c51fe3a284d13f99651f05d8ad5ff738826c5fec4e1e0d6d4f172706ac3cc),
  (false, 0xf0451576b478653ce25fc0ba83382f31c0806232bec0a5823651d2b0de4aa8c9dae8ed4c1132143f282a2abe3300e23),
  (true, 0x1832732455f93659143ac53e8c1f7ca54871cc6bbff241b44f44f60615b2fa15dd1e7e3805255f4bc59e8d0ded98becc),
  (false, 0x16a9e1a3f7ac93319dc93e917aed41d96b5c10815d2a6a5797ba504e57b88f1402c3e22f4f0e3c3c84a98e84c85185ab),
  (false, 0xcd49031ad3ad9e9e4d5f77c54dd68511d1e96bd9277997169caf9d652594fb420fc7f4d147f508710959dc939f49a6e),
  (true, 0x344270ddfb9bd78a71fb92a863dfad015771fdd1ed274f8eff8954e4cd0a326ca05a3c5e7495dc69348abac79ad8cb),
  (false, 0x17289551ff99feba6915f43587fc8528924de2bcd869c3d31953a3a0abf766f58c4ee7f117928b0434610b4cfd8b929f),
  (false, 0x1093cf99d2be7933de74d0f2ddde17cf583e60fd0562d17eb685f59c120e7080d2fc5dacfedb2e57a79a622e98905cb),
  (false, 0x1396cec71da7f823bc65d8ce1a7613e7904b17fadf232a450a9b1ff255020cac80535b592bc040e0fb46701382a2fe6f),
  (true, 0x3efced9c1ec6c87c42053cf1b51331f80832cdc01459fd99d46d533455b01394673c760c75835f5e3dcedeebcdc17e6),
  (false, 0x647fa8589a70b69641d9652053f297d9ec140812cc5e791a0adbb5343002c304c90ee66ac2b8c45968287186679ce7a),
  (true, 0x167f196c608079f6dceed9493898ba1da0a66202c2aab0036bfe01218932bc9fd5bc6ad18e3af1003ac5c1c82f5ef904),
  (false, 0xcc2858f85fa5ae35fcaa4cf14c65a83ac3034b2061c883e82011ec8cc6325994cfc02f1d85059188dd96f5a35f4c95e),
  (true, 0x12810905bc10861f9e82cd9f3bd5b97bb0c5796ea5c6b08ff6557189f3851c5b8ca58f68450cfcd27fa88de80f4d644b),
  (false, 0x1197856793c5fbe80571fb83f5f4cb74a3eae08a73fb98840ed24acaea6da311285407386716d0a68afdae4b4090c87),
  (false, 0x1676cc36d62ec10bee0ffd9839994a16fff554079a93724a240c2636419aa9594c53fa4c4be53953fd0a4d3e93b57311),
  (true, 0x3bbe31ca5c0c422a710b093afce50396dbd4c2b48bcb053e8e59a39ebc867268be44a6295777e4f4a6f00858422e49e),
  (false, 0x10fd2e9e3ce8a94bbb574f30765d8f111d2ea61769c270dc0de667d6ec3355f20c004f98268a9ca9da60517edcd955e),
  (true, 0x199414ba09efdb3ce6dad1800b1b891e95a59b3657daf3ba478405169330429f7299bbc83943a847a6257deab7bdd22),
  (false, 0x19cde797895aff9472040471a4e763674f2091b84a3768f6101ba7156b742734ec1a3c152ae371661c4f6600be39a770),
  (true, 0x84a7b06c2da03473246b89bd61bff390ce8573c5f1e7f80eea630ecc60ff3c91c9de63c42238a6994bac2248bf8c17f),
  (false, 0x166790bdb71928d605b305f653fc5f6a0969dced6cefd4b7bd91a8ec74012a0f366633e5aa1f943144a052653b53b1ff),
  (true, 0x14253ce4dade19361cff28a651cc69fd5cfd382324871b37c8589df4446563f22fdcd095e95fa796b7f3004506fdee5f),
  (false, 0x38ded97bf805b6f4531d461c679f8df287d36af575caf5dbb75a822260560699c1155108318512cc2874c356da37faa),
  (false, 0xf6a335f80037a756be9265063f42166bed522b2959d7ab57f33448feb9210bb4b27cf47772f9421e3cea64f3ac83234),
  (true, 0xb001e62de83d0bb61128e1aabcb8e612bcbaf047364d1af5007686c710b1bac38f2175921e576b60ba6520dc9ebbe94),
  (false, 0x141a6f55f8996fe1a3119416e0c6efbcace0273c46a0092b438b9bb41fabf68cf73fd58f068290cedf0135505ab1032f),
  (true, 0xfec36544c15a3d26a16dfaaef0f9e927e13551ef2bceceb801acd53c68ec169d2de8ec7ab90c22201e0da50cbaac35e),
  (false, 0x17e158e963481c684ee2fa237bac9249701082dd4727652029ee1e531273848e25de925ba52a7dd5bbe15d193b129568),
  (false, 0xba84f7fe76b4e56fb86c41be95278aed2d0f15bfb2a1864408b83f78adc00cc3ee912011d862e0d03e37a2021298a43),
  (true, 0x361ad8fe05dc7014fd1b7835c1a0774a2588fa92ac305ed6d333e61b56cb3f1ca5ade42acdf86035cc0a0b80cd5ed90),
  (false, 0xa56236b575153760dbfa079cd32269d1b43e912a96176542ea53ad28102f33e46765701ae04890216a23a33bfd2b9fb),
  (false, 0x19de5d87654c1f3ad8330d9da767cad45046dd7275c5031e7644f7a4c07fb3ef7d5164400b19c992d8e02dfc15cdf5ce),
  (false, 0x47100d915661def54e90692b684fff10be648771447c30929f08d808a485f8bcc2e4a8b0f91ccc01232b40a0067865b),
  (true, 0x196ffa2ce042e9893eb2e83a3fd9e07d180fddf9a0b2a918a2bf7aa5abcf825da3e8d34a20b30131b592502b6aa29a63),
  (false, 0x16da4c25eb5db526f18e2c357d603a1952311a24c636810da5ec3565c61239fbef64b35d5fa2e121ea61b4ee70dab972),
  (false, 0x7845ab7a37a9e05aadc535db9a252f2aeec77ec089845300fbb4ec8711f955c1ded908dcaf628c802c7ccf8049e5b21),
  (false, 0x17e879cc337fdec47cca010e3cce37c6cd14fadcc392ef3d5074bfc355c642ddd7502a3b9166516e9861ed0b9c55fb5d),
  (false, 0x1504f086e1b5ffbe5b49a63507c7c25fe4b0e20b2a25ec339a49b8d3141ff494ee8e7f1fb8c47c858d05a41e9bcf3b64),
  (false, 0x7e4f16ce911b261ad58a3556062386ee25e99799267675cf2c8ee7ea08c4ea679d1dfbd8e9b62eb55bbde2b5788fab9),
  (false, 0xb4d333c4d6375a1bd163937ec167124abb1343a9cf1982366fa595219da7d4d8e12fca8148103c1abc5f41b42a6aba9),
  (false, 0x167fab89ae882892faef72b7029577eee2e2ed96edb705b855f272690a5edcb7985f34944b4c335630e05fbb7f3ea400),
  (false, 0x19e7f045ad543d795a7fccac28856c8d7d00ebcc95b6b462b75370c018ac7c106189309701fd78f89ca337de2a2f7ce4),
  (false, 0x2c4c98f4e3006ea10d9977569eda07c07682e57cbbcda25c8a3112f4aac61efe38bcaa76d599464247ef1a39c800d69),
  (true, 0x1790e909c7aebc2d5a9bd24a0abe91facede7f4accf90f91894e9eaaaa974de1404e9f0a9d02dc30fd428b48ef99a1b3),
  (false, 0x108c09b2987fba44b166b080e81079523b47194b1f176765a56f51e627dcec1bc658ce1ffc677b07f6abe377b3e291ab),
  (false, 0x142f1bc250b70a5d0289544f627fd70440e53963de472728d2b6208fc4351d4c620739b7e4d3ff299dda7dcc6d77cd14),
  (true, 0x423ba39e6c405719cb5c9dfa2a31ca7861f4027b65107a4dab374149962513e26c25fc5f8cb692168d1ce69f300c7b0),
  (false, 0x98d70c0fa0aeb74902ee5e1802d3ec5f56dbdc5b4298577250c16d2eafe6b179828f8a86f830d978b8214df227d5fd),
  (true, 0xec06308d2f0bf876c32d023213b6e8ee9df43aeb900b87275d2b502facc936cd8ed1647ed48e8da6392db0f76e44ed9),
  (false, 0x30941e9a08fa1f7e253fb7d3963487dffc5e2539dd6c9a4582fec0c3e0a86da14e4c564d7bb15a9897c7cf8be385fc8),
  (true, 0xa9b74dca2703ac4aace4ed075c35a9e7c9f4dfd9beee8878e5a0c96c8a4e36632a1dd123bd308f80566a6702cc1dc07),
  (false, 0x12ad4ce03f851e4768f619de672815cefd11a0b797c3e285f847b4df25a85f58121b564075bb78c2ee3b2439e217b179),
  (true, 0xfedb12488fc7da02ee199b77aa1ebff4ddcfa4ac00ead86d00d5a850e55d25dd83a5d481f6970942c2e275e0cecb1a4),
  (false, 0x35fa8e5a35948a3ff2e753cb51257b2a0cf41f629ad5165a0ab99384aa857f15d2e8e54a46096aa217f9b5bbd5e3dfb),
  (true, 0x1648845461c55d21e84753d28203779bfc6c9ea0b9700feee401c0e3848279754e7b058ff5c06c8d71b626a48cdd5649),
  (false, 0x1039ea4f22ff8fed9b3b637d857cfe2fc363e5992c2a397938151d24c456ebfcd1f5aede6f866660fd8e3ba288a9b0fa),
  (true, 0x1200c744bab5c7902dbc020cb8383b5e7552c1a4810e352dcceae15feaa50c587f1c741f22279565b9062d8d1105a997),
  (false, 0x16d2ae5d8c4e6e76432881665799fddd37d9bdfe4132dbe346d9a72df464014016352773bd013285cacda17cfc9ec63a),
  (true, 0x13ae5b233c7082802dc3fcf201b3ae539a1f904ffd8e1c94dc445bb9db0095ef7a55169d5cdc136071598a896cac36d5),
  (false, 0x371d24d26146b460ddf5053c70a1e54c90a7d3c1707b6cad8a47a78884e1b32b8284399fabd733d32131c737b26de79),
  (true, 0xd395df4331c7c36f607777ac02310bbc4592c74fbc6c6603dc8fff67681d2d3adeda2c77d4af0146b768c22627b8ab9),
  (false, 0x1808351a92f441df7d29782a423994e937fead464c5c469061411bf2712f9804be7c758a1cacff5bb23a7e924384146d),
  (true, 0xe2277fb3ce021c1fe7a5c7414c147c35a76bb505b9b925c4bb18a6900b080840c8784fa8ed851cc7f716f60d7385f4d),
  (false, 0xe073fd4f28192c4321df93275a75c26fb06e0808c8461da12a712813693767bdafcbcc5357029b7f1895e7aa17ef320),
  (true, 0xd640ca46d2f83677d793fc7b89cc32b78443554e0dc34231551be304ae04ed0df626e7d6931208a12e3cb37328af689),
  (false, 0x39966c6ba6b401bb48e9f4a96d0dd0c301a6b02539fc06c855c0ebdbbfe7a37daeea53de1b4fca7b5bf0d78b410b15),
  (true, 0x788c4f2774432dd12d98643d4569b028eb7a21964551b7b915665dd3868a0218810fa973fb4bb1f79250690deb8fc3f),
  (false, 0x1ba9bdc676375f9d808275a2bcdc5dcc5be6a71e4477b24c80074301c39e75e8a0dab2a8f9a27cdfed5e7ceecea5cc9),
  (true, 0x5b59e8709cbfb95dc39d0cf88ce8ff6abed85e5ef3afdb4702a685319cbc9530ce96a34534e39c8f4d4bd58c7b9e76b),
  (false, 0x5bfb18ac78ee03ce6c0f83a3f78552ebd8a93eca50773dc8c51d261f61791b3d193414bacaebb5b03a54b7bce46149e),
  (true, 0x162a8ac4bb495ea3034274ae8c9ffcb8a1caf368c406c55a3a07197928b3ed08676f9e9dfed0dddd355001e7700899dc),
  (false, 0xc9919244a0132f06006666c1819fedf1a23099b5e47318c1afba80630d1f3d8f61c0ccac988afc0d8ba65bb04ead1d5),
  (true, 0xbc6f270ef88436ebe9a82207ba378202833d1560cad0cf19addb423099dd503c4983b58048d8dd0b56c3f9d9c00f6b9),
  (false, 0x6f28f34ed7825cc37010a611ece167791ed526101ebd617e7cd8e744219867e75241563857dcffa5634789a10cd2b0b),
  (true, 0x9364415af01992d957516345ff7714445fbcf304d0b00962eabac0fc6c6a66c16c5e8bb928e930a4d61d2b074803185),
  (false, 0x14a55e224c7d4c9eb3ea9882234be636f8c22f6b17b578c03ef20feacc18eba9d5d83c7c6dd721d6e6b0d839d037a535),
  (false, 0x168e72b22a03630b2b2d8b91f09dc672c7f375b86ffdc4439119ee55a10e5a048e6a06afa05accc4bcd999716aa9124a),
  (false, 0x199e604d0d696fce575633587bebaa0d38cfcfdea8ca2c4cec1a1c2d9f6c8ab276b5712b9fd3be86b11b7a065ccccb9a),
  (true, 0x115cd41862c0d289fccf612637a4be6208955737a82c1ba1d1514f159a328ad707cc17d56ea50d461f786b2aba26888),
  (false, 0x13d7d3ea7c6b46745c94cc42a94da4830f5e721ad960e7ac90b12a79ee7324877187cf9f9eb16858ee243a5cd7d58628),
  (false, 0x5d97dfb0367de0faa7cedc3c396b5a5dab0eefd59a37d85318c83cff4b792adae1364063dff832e5cfd225935e5d6d0),
  (true, 0x3cfa81d3c08f86dab9d308b80d91f2ca4bfaeb265e5060134b8b35c5b3d899e72d4e3ddafc5962cd8a323fea746616a),
  (false, 0x19e97b542054a1ce23268e8555db3db8e090d3413f8d5398c98f2c5c61826482330e3e67d17ae341c44ffde204a4fcb5),
  (true, 0xf51a6d69068bd5fcfa60a6538d4c67b26a50bc8b6d54488f9293015e24dd04f7ecf391556d3d6ea91f3cf0a5a788159),
  (false, 0xcc82d3bf379408b80e7010296941e16c60a9401f5fac6cd808de1b5ac0d1179e149eb35228299fc3da8452a8a024d6b),
  (false, 0x8c7c226b5df3976efee7dc37a12eadd812fc164ad6c68e2c8f657b2151bb44cf734283bdd1fdd610504b4a1f5d101f0),
  (true, 0xaff2bd76a0767e71a3d7e9f59f820ad7749a49d04550a79d1dc6eb58f9106b863aa9e442645e1d2c011c0985408f6d0),
  (false, 0xab34d8240283f8a855103334dad614cc822772a54fed684bb866f09a0625631d410f322750759b82917414568134af5),
  (true, 0x189ee4c971493525cdfaa0bcd50f60043e52940ef607c37f853fd34d09d633dfb0db6804369b0f09f87805737465ab82),
  (false, 0x8ce77d83410f33262fd0cfc7a4da6783e6ab7a49ba7d22a63744bad2186a347bff6277c1597c9a933a0ae97ca377a3a),
  (true, 0x65310c33ff4cfe3bb25e32d06fcac70c985ddec900d3e23d06f2a8211ca8bf0f1c82fbf57aaf93f907122d2635fb1f0),
  (false, 0x173f9a450a8131f83cc658cb9e0f75da33c0151563caa18a6bdb1ec29c292912ee7b47d02db076786a354c1553284c1a),
  (true, 0x7ad4365bcbfa08d8477147482fab2cfb4ee5177cee529c37f5aceab71b0465e8bc7eb928790f9c34e68ac5eec5603de),
  (false, 0x1da20e6babc66e929290959bf550238fc315e9486c58787401d34d8769d6255b4b60450fcc7e730c52767653bdf3425),
  (true, 0xd3cb158c8a12cfc2a30b9253a24c8caf87a27e941e64f351d79df1ec028ccd69628d3bc1c46bd6f8b4c55a22d9a6cb2),
  (false, 0x1787e7f6a5a911a052be1ff79c14065ef86508d91a9db0498ba62b08f0dd09c11514a9259e8c0ee1223af930f07ff7fc),
  (true, 0x191b7bddacad4bee307513e9b74f64f6bd99a6745bd537ae0aff8861711bfdba26303037a6c2f077cdf123e8c3fcaee4),
  (false, 0x3c1d421fd4658415d18a164f318cb541f3cc601d99c7ad90da2ab2bd22760563e5f1a8282b4268838ab19c832078248),
  (true, 0x5b464bfd04cc8bc97077760f2980e7766dd25d1b0467f4801cb06c41727d3f7b3deeb3ca7b99214c1892f2e477d31),
  (false, 0x1481e015d2ffd1a7b8e88ede205acbbcc3a68ce1211bd0f80313bc9039ff63b228c9073ff846689029dc68d53fb40c0),
  (true, 0x86474d8e3c7f922c225933a2e3a3eaecdfcd7ae0f4727f4b8a6ccf873d778339c79b6dfb7e1434b5c960e895f82d000),
  (false, 0x18ecded2c6ae57e4d95753cf1606831a692ea44576c32d39cdec729e32076e63b6cef702d345525677fc56b93331a242),
  (true, 0x297ae6261a328cc1920b44be6922c7b5c39daa3bb60cd31da6fba200570519e730855452147e855a36dc692a72c8d87),
  (false, 0x13d13e0c21d717782c752726977463edba5512c8da6b9c5fdc609de2837a746861439dc8874eb42679e851d98fad77ae),
  (false, 0x15b96603f04953701338c1e5151cac393226da9b3f9d30f989f982491c81a83fd8d1f2d3413562ecd48fff6d4c18633f),
  (true, 0xed9cf5ad91fd4d7089829035d7ecec769e54863d44df535fb92c7390fdf5e8725b57b85977eb1ccff5d53fc0a822691),
  (false, 0xf0f960d74e42b8189e03518ed37b51b2e434116fb5cc628c90768c6c1055abff77b87ffd12bae945bd8d3eb65f581ee),
  (true, 0x6b1e93e93f12c06d1d61b5a15a98995ddf3b7bf8a2f7c2bee4924b2b11845f556e269763468a0ce94b040a3d3c1566b),
  (false, 0xdf087ab490c877aee85b6524dac0e4cfd3ef0f3bfcc229644863166e66ce8076d3dacd25d1b436950caf332f83163f1),
  (true, 0x189afced1c140e8eedae8f2b5a714ed528a8b4529d24d5e9e6df76f8b5edcc47f83b019fdd0b27828033e3515c29a0b4),
  (false, 0x6ae4b5a7c70e84d52e7a64e35018688b93714503473bee837fca578818c11f1b3e0e7675277727a2505a0b7dff19411),
  (true, 0xeb9b917fee029eef20b844baaf6e028e263be0d8a5afc4b60e72632be92be098bbde206883bbac627c1080565ce705b),
  (false, 0x342addd57d6780cdd6a8ff4ae2074873d77670c1e1defa2bca93d691eccb85fb70519f2ca28d0df3b833b53e7661031),
  (true, 0x17840b43e9736579ba8b1bfa0859ae8764a4806765cb715c9360bcf1089b58db7bd0c3653fcf2b79c46d7a72d062695e),
  (false, 0xcaf0fbd475cedb4ef025e61ab330feb875e3c79cb9874bb0e243bb0a4566cbf40987835d24247afee545f6e69fec729),
  (true, 0xc2ba55928c16ff8107bcd1f2d1af465b8cfb5979258aa6e8c38b0a65258532742309e51ec1e3039bd72257379aea1cd),
  (false, 0x6af24647145e796bdd9fdf5b025d3c9c50cd2ffe6db05622fa8e78391c798699a10b310e3a7913eaa77aed9b0c247c2),
  (true, 0xb5882a99ab2f3f9ea2711e29b88aa4a444b6c3958200725e988ec941d61f35dc0903fdf21806374f9b200d57babdd2a),
  (false, 0x180a9b27f0e1c2272c0a50882c3d10629f9c6bd37a563749c4538c7d12a12810d589f934f439bfcfd0225ccfe6b0089c),
  (true, 0x27580b8222ba84a350d540c2ef72b22e07a9f980d17cf41b5cfc620c0913f2d66624993c54ec49459c591bfa789f1d7),
  (false, 0xd9b7c40105011b66df6a614edf9164a1b94df26b2f6258f20cc8439dd70ce179356f212a99ab078037cdf05b0009c8d),
  (true, 0xce756edbacc903e6eebbb312fecff31281bd395872f699482476ff58d8c0fa2a7027a24efa1d6f3b721202c3e3452d0),
  (false, 0x19e8f6648a7d672253241286f6a9a970a4d5bc155714995206c731e352b77b0a0c231c525cecd2ea8f28632222c3d1c5),
  (true, 0x44e94040f5db02ba1c83d01b527f3133a3cfc8b87ef00e86deee7a7a1b0d5a9fc5d415f186553823915ba50676ae73d),
  (false, 0x6a8d722b237ae185eb8d8058456c3efcfd8dd5be26821ae1efa33d1c48a0e6cba6b0dc18d83a7e049a72e27381de12c),
  (true, 0xd378433328bc7f4149b455cf2129640c96187abf9536dcfb2c71344926635000330adec7ac5ebbeb98ea13112235cad),
  (false, 0xd44e177f2589b44bd608d15840fa0ac6a3a422c93bbe93bc6cec76274476257cb190118bb95e46238542e641a19844a),
  (true, 0x1fefb1077bc27705302e563ec516a8bc2a139d0f21a4c5522d78ddd87d898c6270b8de2fa5c15f84207065e814aaa5b),
  (false, 0xad5909efc04e13a81391cd5548e62c9882243bd0553310c52be28b0f361df2069a47a5832fc11d477eb1cce1bb0f57c),
  (true, 0x116df871b463368e575a52886a662abe647f85f53fb5d244c212842ab10446b160253d5734971459cfbc328c6a7c915e),
  (false, 0x154312e21763dc70338dfcf091357477dca4b65cf71032a5ea564f23c68198ac9ece39fcdc9811faeff37687f28935e1),
  (true, 0x8488d83dc2cbad37708f5ea2282c5d3e3cfd7252aa4c2b28a7010dd6dc31dd42e3833c6b27c3aaabd0e24806f05bfc6),
  (false, 0x4c5c73e99d63d6db029bce25fd04e07b46bc659055e369df5f48b9dba35d3941aa236dc59059c415423a6c4a1022c4d),
  (true, 0x111c4c3cf843464fec413bc89bf624048349713704f6395fc9f2dc39c842ce97623baa98e6d5e6ea83dad7f3347441ff),
  (false, 0xf197db46fd97075bff3fc832c2b3868f4074e691e0901f2242107438065156177c18125c715c01b624c700aaf73cc88),
  (true, 0x842acb665cd5bcaaca9bd4c05bdbfdd7fe91330bae954f7f41e79e39059e5cde4fdef31601809806daa70838c5172dc),
  (false, 0x14d9159543cb5c5d824168d713a9a79e4f36bfd12c8cb7fbb8f183084c977afebc11a3f7b8ce28eae57a9794b901a02a),
  (true, 0xb736b6b927e6b78017c284f1bc7361b4a4047f00ec189d12513f59e34289f4068f4aedb3cc1979a68d40ad793823298),
  (false, 0x78ad31496aede06efe0105837eac391ee22d94ae0be11484eb08da36ce649b20c6892b70d91adccf6bd82f3052744dc),
  (true, 0x14072464b5e6e3e4ef07e48567bf5b759cd9f5d085c73b22861c88075e26c0f3f7eff3d22eb4548fc51142507e15ebb3),
  (false, 0x78478c94728dd5f1b792b92b22d356c5eb39e1c6bd70f6fa15cd681661ff37560d48113455d2eed811569c24506fdf2),
  (true, 0x35c57d6ee33cc1014388234f45ee76013a883dfa66b49e5bcee407593ec66a6e020fe93b38ee1a6431f008f7f92f54a),
  (false, 0x1120d131528c11292357808c7a72faa8222f1d24b7f48e64cd05bc07622d1e5543dc3c9cd1c966af02ec99e73bd3f631),
  (true, 0x168a246d4556a61b9574de0e871a7c2f6ca4bd12dbe7582df412f6d33519efa1c0b6a3c001f5cf5035b4622516e331a5),
  (false, 0x155064327561b75ad6b565ec919c980f74b02102a2d0b12a29d68d24634a8530be3ceb62d3b1f51ad16355b614c1bddc),
  (true, 0x9b6f6969a59a74d8079dfe4af4a288c8e9690d1184b1cbcc6cede023cdf51817dad320b0420d047b4e8786e7b92202f),
  (false, 0x114d4c9b4b89f4dab0c47bc44612615e63145d45b1e0f8338c049eb6aad922c32f675fba6af2d22ff053074e0c8a31b4),
  (true, 0x7e1a6e913c30757087ec795381fcbe8b0ea52dd5413f6aa4fb6f473ba9d8b4995116c64c937c9d65902ce99854ebe16),
  (false, 0x7bd22f9e06a6f7b02c5a34eea7e6fdf2ba99134e82d036d75cc5a4480dbf06e1b768561991c31d6849d5d16ac34807),
  (true, 0x156e805fc10f815d7eaa9d14420a432c0c6110700f44281d5c66f1bcc81013d5e3cd1890bdf28256750badb4b814a56),
  (false, 0x125bc0aab4e57a4b7d1b808f1fbb0ef9a914cf38d8b85495aae5e8e3e35fe777dd0239b46c3bd85bece3e5f67ecce1a5),
  (true, 0x12cfe8759efeb20652b3da6132feae9cd3fae9c60bf3ba007731e3f14df9b44f60d2d6387e4e747b3ce4c5e605c851e4),
  (false, 0xbc4a960271f4eef831dbc95b71ae928e60fabbd9c642b839eb6c5a01a1cf918c2fc3a68450a4c031fceb4cc0658419),
  (true, 0x1164c6585d9cfc7587013fd1095df4dfbd13b332f219dee06507dab1dc34732bc05ad0cb92a8c873e0d173455ccc06ad),
  (false, 0x1138a9bdc931a27577070b5097567955bcdf654f5a68f31cf5492199f9c7c9103b11da57f32342330ac98228974bddc0),
  (true, 0xb5ec1a68a6a5911714562a573299aceaac9a3baf6076cedc2809fc80e24d5edce68ba2e3d6e0db61ab3ef491acc702d),
  (false, 0x17e9b4b114f3d7053c6e2bfbeaf2935d1605071204416b401c0f03f529eec7b1dec1f6c70b183876f828c5dfbed906ac),
  (true, 0xda9b361e100dccedb01c4335f00fafaf7e578cc94eb4ca03c6e60a224e97535cc69c09678e61f137619d47916e8461d),
  (false, 0x6c4cfb9a0fbb03a72a47c98626130bdb4bcfc9b7d26ff371e18a037002b9621f9fc9518a17594c5e6c4049f4d8a239d),
  (true, 0x11525b4d7fbd74b97d265d21568c3e537e253781451a78db4eb7a125ddac016f7aa3d94ce3a3c2e88b2076a4ffe19373),
  (false, 0x7746fcb7efacb895516fce3b0a1630309963d8758ffc71a5dce158751dacaf7aff58f442ba192d949c258976c541d76),
  (true, 0x2b874817472c545643cd0ae39bf8b85fdf6817dd73dc5378444a93d96b78acff029ff6bfbb283c0dd5d780565924968),
  (false, 0x9a121b140578cb2f5fa30cded32443a6e1026b2aa0d69384e1bb172d49ae3cc887381442ae935f265bfe6277e3030e8),
  (true, 0x41bec3cbf53d4577c341092fd47e0292d8985925759c4d12c3a43b5a7cee392eb80d89d48c7f95c7a71dfc23204f7c),
  (false, 0x183baae60608b7b8c2b35e4bdcbc286bbd5291de48f35ba47085a445cb7e16da609f285704ad3ae2457d7b703faec4c),
  (true, 0x7b58d71a65888efab2a4782aec87ac314f197f6e591f5f0e93e5c28e729bd9c0bf641a9576f8e1afe9bf63381b816da),
  (false, 0x136d092ba577bfd500d8c726e72f2a28b04cc0d158310c0db1b80e5b9e090b322e1cc9255e6115fab4e0fae83d3ba24c),
  (true, 0x6fee5c8c3e5d603f78630f7b727b7dbbab25c8f47e9e7e83af93a2a26647f6125cda4ef8f80770c273157c3609db41b),
  (false, 0x19836f17197df938d86ba8086c0514521359f3a0293747ff71e9b8a4edbfb791dac0077d360b888741278172c94fcd82),
  (false, 0xc130154662a632b945de83c6dbf387468eb31caac98520fcef3c453a0da63cc1e267ff4e852bdd4d85ec93b5ee41f82),
  (false, 0x1888932ffa661a696882b82f5fedf0e6171fe97cf656c9c9edc162f5bb7fe16b52de1fcb4f3ae8495b3bc739b7335906),
  (false, 0x628cd712eed86085af61566b36931a6a2e904b6cdd7dd9783a8f5db0bbd480e6f86293231a87769d3acb23bd55eae48),
  (false, 0x74bba3d1a2457411b43f2b30b7c950f2c4367210e2bf2ed37e02320abfe4284e679ff933c9df8efe261fb866c1f9f8f),
  (false, 0x194b032ae485ec1dbe1adef975a5a77f8922b6e57cc7bf24c6eb046614d4a111083287bc9446525fe93e126b2f5a846a),
  (false, 0xf08e17ad880565ec62f74b0ae2878a12616d104e2d02b8974fa77d7e6dd288428289a1af2ffa6845ad5343daf7a51e4),
  (false, 0xec6466cc4826abb175bd5b175dc0fae0d0480da8f908950f5a6e8c6271a398f372e17959deb0bebf5fb8f7830d3e95),
  (false, 0x1631e6f6849f0352418a35decc7fbda4bd871760935e171bb4c673eea358001b3455eeece1219b6f21297194f31d88b7),
  (false, 0xe6bba274acab1837e8c3393888e3301f43d57adb660c21a5ee5bcae2da65ed1f17a67802dc423b7eb31549d36b55a21),
  (false, 0xfdb57518f8210c8fde5268cbd4174576f68974bfb68b8bf9e2528242556db57539e888665d27d2f921c837934f999a3),
  (false, 0x10813412d7a57115761772d0b20537fce2abe080db63fd004dd58358a4d92d1514a9eed650e20054c297d8b126b063c5),
  (false, 0xd5815a03314c4d8de3a5774a5579e12f749fc4bbc424978b18052798597f802edcea15c9692005baa0c6a276ae0a337),
  (false, 0x326136dc4a71eb58bc9202b6d982d0399056e7d6de84eb0d42a540c461970f68f287de885985a4730342bec434374dd),
  (false, 0x124310139fef5e1c17ce6f35079c12ef558e7c69bcdd8c84a89bf00e00fb6efb546469464cbeae359c791c25ba186e62),
  (false, 0xdc40002a5dcb3f3f3202f35f77bf9de254b4ee00207ca40a770ead57dbb39440dafa338a6e6227a1229f7d6c1e9e415),
  (false, 0x17c5ab8dc62ae9451cd50152cdd787b2798c5ec3e2586a10bc24da617cb6f18e0ee219d3b6af3e9923213369792056c4),
  (false, 0x84d69a12d374af57b4070f7983eac672470c48a0f1bfa964ed7e860e0cdf0873036b83631ad84acfa526d8f4f935e49),
  (false, 0x53260dc0dc428653f0013fdb5c3f1450ea57f1a4e43f2a48e49f676119515d7c078f2fba80c84be50becc587405e3f9),
  (false, 0x13bf2b4189a7b2889a7933da195fd78fec084936007f2e364a72fdafdffcd5c92bcb240bfe5bdc0d92b3f6705f870945),
  (false, 0x1110a81a1662152c3551b0c19cc71d1e6cb20ca789e330e7eb2140a327e42860e1f84a4ad0de4437c930f860ab7f6b8a),
  (false, 0x6b4dab0f583b1206fb4de6fceb833d45cd01f4ace6f904c37092d70cf4959026670fadfd87fa891120a0ca88e1dce10),
  (false, 0x15b8162087de2a4a6763f6915494b92cf30a6345bc41391ede41646095cb57b7f01a97e436207b312d4ba20bc0a74613),
  (false, 0xc037cc5e0ee7242f7e867b518007f006c973dd2177cb4e78fc619370931cfc65c0c244b05ad48b26961010192105f7),
  (false, 0xde8510c94a53272e56429ed7fca40ca66b755aaeea7a8c0b9a22195113e2345df4ea523bcaf13b4f23fb5f68a891ba2),
  (false, 0x78a191a1d4b815c787b5f15acfbd6600a84d297c573d1d960c9c55593e23d71fa4885bbe5978337343a2aa0283c58f2),
  (false, 0x142c9c6a0e30eab40f3b9c2905cfe3030f98abb75f6c7e4216332a895d2a7899e817d58802c0f445d2367fa8491366a),
  (false, 0x197ecfddefd0494ca6410cc34b36136993505c46b78ada8c68f722553e1290e78929e68d6562cd74f3f3e97398f5fa6c),
  (false, 0x16f935f3487cf2f35accb6c43c3a09cfb5dbaa714589585355f359413c6e6db97e71fde08b1d192234371747582c897e),
  (false, 0xe05d771854d1fb63278865b0a1f61d57ebd0ee23520b6e3ed3f5121e353352206583ff6e627c149634302402028f0fb),
  (false, 0xceeacc8f4de4c88b0f3800cac83632659a9798a04c6106ddc8d25a89c6e6f4786b4410dbb8ed789c7fef9af794f6ae7),
  (false, 0xf0139b8391c428efbe0092ee88b9d9529b83b000ad03d808fab28882cfb32705497821d88c46bc824042e4848be7541)]
end Bls.Chain
