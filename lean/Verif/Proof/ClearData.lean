import Verif.Proof.N2
/- Generated: the action of the Frobenius endomorphism on the points of OrderData, with the slopes of the
chains that witness it. -/
namespace Bls.Chain

def b2713PsiX : N2 := ⟨0xd85a425be148eb93a33b09129d40fa208927bb8c5911735b5c0bad88924f3502701d631f8731f674eaba1c869c31714, 0xb1d0f8463ef7af5fc447b1766d243712392298d8711c83d934887941c1ef9455163e71cdf692d60487a799797f01a6d⟩
def b2713PsiY : N2 := ⟨0x14ed18f629da6e97731f4c609f2694bc6d8f355eb4e5b5e4843a88844aa068a05b2ae4ca8c979b68494a51352451536c, 0x9fc91933d869d65c49457fdcfc64370d7a85ad54bd8dee015441d9fb13069a01c08777db4b732251be8c005ee11a8d4⟩
def b2713Lam : ℕ := 0x7e1
def b2713PsiSlopes : List (Bool × N2) := [(false, ⟨0x1616780fc2d02f9a25777bd135177db3331a3c02516c79b8b55c5e49fffa5a8bb19d809bb5d71f7502e73bdf60733336, 0x8277e0f5d6a884da56431affd07df51ace15987a7b6320aa4ce4f221f95e54ead93cd530dfb11ebef091461f79f6622⟩),
  (true, ⟨0xae939b77c14968a415b894784f7a8b6d658b96ecf08adae37ca70ee7ef27ca01e46c24319e01d63022c15369f2cc218, 0x4533db1b042d09c4efa688525956a101f6fa7ddbb053298cdc80ce356e4f003a5d7066b05a9ced65ba7ecc4edbaa7a8⟩),
  (false, ⟨0xafd96197ca26d5d6de4b6d167e751dc17e45c9a3fc6b3c174d082fd75db2be9e2e88aaf7117925c988f06f6867c235, 0x15129d5dbc991e4618b775fd93edc5c8f72199de2176e0905371134c7c98f950d9994846d1111494b80dcabd20e79851⟩),
  (true, ⟨0x1212130b229fb0f4a04de281e74ed609419c4b0bd6611f61b700299c9a64eec6c340ab54da1df0ec761801914a8a9d17, 0x1853a78f039b8d2e459aa5f23b62747e916a65bb2c3974aa67998606f8e32a6cf4b6e94d0e5250f839618254f4ab79a⟩),
  (false, ⟨0xa98f6a5ba56451c36b3a291612d1eb393ba81f20a4a2fae635e42d1141cccbbf0708778e56984673089afa26b925491, 0x6d76b7bd72e42039ba8efb12de7a49d6b66cc5d0b25eb89f486d6d7845c86396e25c9707ce86b8a31bc9994dc9132b5⟩),
  (true, ⟨0x25b02a978e1b304a4fcb4495298a202b911b38e862dfa9ece9864c5968fed8cc31a47acc79ecc879445e9a833db5d0d, 0x12fd6b8d97767d4eacdfb3a80726128bd6f71f020f7aebd5c01a34463d0eee5d7c263fbd72c9ae388540b552197aa5a9⟩),
  (false, ⟨0x12cb95724492e3a288255bbaf19e932e3bd98ea7cd87a477738bd4eb768c2b17bd3b6d39ee58ba4c8d5c3de5f9cc77e8, 0x18b7cbc1c508e006f8ed6495ca514364f9735c5f6bc5349c2201c4ce36de3e06bf07ad32a79b2d5a0a451c65133773ae⟩),
  (true, ⟨0xfaf7e90f793255cd77f769f34bebe57798d6cfd77cf8b6c13a28f3f4c26cd1892b123fd1a629aa4314e5e87b1f477c2, 0x6973e67d7c508fe0168feb4834db589a1289ab4810e446144f0920f7295b2748478842133d5c76a784f4a438996fac⟩),
  (false, ⟨0x1067473ad982ae097744ed6843299b54b7d621f890ec5f833a550a4acf07188c050437afe807c4fc748bdf4b06bf6658, 0x17fb8305f464d873edd8e2b96ca47f24fbf011cf13b5aad655efff87149f92e16501d44ccf17b6573e969d5bb12df166⟩),
  (true, ⟨0x12c21b8e5d39221391f9ee8e39173c0db65e5e7356ed6f3800b0e2bce262898aafd84e8c95dc3ac4657acf15435a40a3, 0x7d4900c04db597a914d7e11adde215a7e27a34fb7251c4e12fcf22d4fe864bc0b5a2e880b7e0a97895d2f661538e03c⟩),
  (false, ⟨0x13387ce48f5de07690377f1f366a593159ad4662b74b65853a189e071a6ba0a17459479fa864ffeaa360458c30c76c1, 0x11bfa04871abf1161bfd5e1ae4de8eba6ddc9e73e0949c8a0ad8dfed26d581fb3bca6aaf24dfeb2f60735918978ed0b7⟩),
  (false, ⟨0x133e49835f4ff23b8aca2df29d6b74923b9b922159e95bcd6b3f873a9b34b95a7019bfb7377c2ddc17ea6a94ad5aac5a, 0xb0c7e060d80d0f01b9dbd96ad38c9b06e3787344076f3c1ce09fae41cb0fc099be3cf563587978eb928f981b7f2b1ae⟩),
  (false, ⟨0x14b0dbf8b6c71d5e2ff80f372823ce26df95d02be282652ba2e9e19b648751d0e343b02b4537f01290e3527025e4e58, 0x953fbac87970dd5de910abfdd682540cf32161fcf1eb0f17c01eefc3ac22e9c9784adc787f50e9d060cefd0c08c09c2⟩),
  (false, ⟨0xa1c5e929d55441b68ff91f052c5f09a5878e63d8e41a1e691a984c0e4d23cd3b7446417da4bbddf1b949eeb0e0aac15, 0x103747a4c6e7254e9c99516f20db86a5dccf9c720edf331331239844fd3640eec26db0f4c561ec6f38e4e3dca00cff5⟩),
  (false, ⟨0x10d6048fcb7f731b9f60127f0c9411d89993a57073761c95e897fa2b9dbed87cde0f11add1089aa9a70ccec8cdecbb8, 0xde3631aee663de6b79b6469fb1107e9ba55a9bdd6ba4e1dcbddb79b4f742444b95b3e34fdd4895f67aac3e280d65e4d⟩),
  (true, ⟨0x1658eb5cd6f5ed1a4d0e85d4883ed2e509e2bd0c28bd5631bae4e013f858c391a627c944fa754d731ecc2b839a1ecc31, 0x968b148c49600aa409d6ce7d93d7001ac43a4887a77e89ce32d2f9d5cdbc1df2d7639bdae37485d45a4bbb58542cd0e⟩)]

def b11953PsiX : N2 := ⟨0x61f6eb20116ad04711685538122e089bc7f08f945a50b41dfce24e9ec267e3491ddddffbb9ea5e0c943b8dc8e1f9211, 0xbb08d7b62424408b8dd98764906ac562ce45049d74d4d796779ac0d5fe9b48355cf61019c676423072d9df8d37e568c⟩
def b11953PsiY : N2 := ⟨0x6233fa7371131f1c78cfbe85ca167dd5937b2b23ac2907ea029ec4e9de2d4304fb77ef721ae715a34b0685d118450c1, 0xdb39f60d47edb1ef74a94217d6388455f34cdc796df3614b042bdc161decdfe539f54436b2c67f41fb3e9bbae476cee⟩
def b11953Lam : ℕ := 0xe15
def b11953PsiSlopes : List (Bool × N2) := [(false, ⟨0x120e572248cca9cc63b26d6d62e9f8b0121aef88075156e376f4b216ee4c0fa63080b35e23359bf31ab97a102eb47080, 0xf91bfdac8673bd51987a3d1bd4512e6ef262d0b85367c4ff6fb210a07d4263cb3c4445f9de6886dba3fcb162df88426⟩),
  (true, ⟨0x13c06d770f8e333f2d63427bf255d7d432a22be5a4dedb442f3f022dec441f89296a3203cc946baa16affb02b0e79ba2, 0x15c1ac0966ea7d29e23dbabb7a9e3bccc281bdc51f11911ab37adf48ee76f8946f9ea0b0f3f8de227cdccf2980d0e0eb⟩),
  (false, ⟨0x7c156296f89eff088efa00c7d99dc83a82adf02065be61a03ece25d916df12895d3e31e738448febe4a4a7f3a15cdb5, 0x6f9ba2b7ce06b0dcbac5a9b8377d76ff1323cbf595b584e600e950749fab5c431ad83d592a1d06104b8ed2918de49e1⟩),
  (true, ⟨0x9dd6c9fc3d498bb1332660d9c526415255e2e887b01db11095a0b98ee0cf7849fba8ea3f6e80cdd4d2eb8946bb2c30, 0xbde1b48c05cce5e2c149142b48b2a0364d8e0bf621ecf4e8ca76c3beb2a194577fe2d8a67f88509cd1d7569a305afe2⟩),
  (false, ⟨0x51db4dd60f4b924d186110966a0c9ba9e687c07c43a75f920dc460ed3c342cd02ca1832e40bdcbeb0cfc884a9bc028a, 0x4a4d8c0b4407b82d3e131e8e6402233a79cd9d89b73424d25808aebb349c56bb120e738944afa7e36ebda9bf57286d4⟩),
  (false, ⟨0x19ce5e7081a1299cb91dcf6ea743d417cc2c2771122fadc34f3bead7641e7efb46b43aa59984345f6a25958df0af258d, 0x16009606ece5652fe38954ed9101b32b4b809c4a09bf6a87dbf2cab62ff911ba3b44e7428c723036ed5b808b39de3aa8⟩),
  (false, ⟨0x639f79099ec23c7cb241f8af0f6c5c9153e13cc04a4a03eae555e05561e7df03176131118fe07f708adf48e760515d4, 0xd6ecb481a1570ebc17cfe90a0b03baec2d6b135f99e1b4a04033525179042844b3fb7984d5fb33336209c6c966a99cf⟩),
  (false, ⟨0x485ed9c5de37b884567430aa6757ccd8f6af32b5cab435a61cec7246eb5e62e0bd276293a9179302d2b4fe3d42d54a1, 0x1277ecaf647648a3819cda10e0760e8d972a69954ec47cf7b56cd83f8378f5693d810146950a537652f4b999aec4815d⟩),
  (false, ⟨0xcbf25ea325a7a75a9b7c4b19eddb6bea07d46a4c1d0b82c4b7c9361671175a8b51874607720b4015653d8109c7746ab, 0x165d4a8dd35390fe82984de11a8199d25e04616dba5262efc21ffeb5d5de752308641a0fe6ab5483995ccca99f4fdc48⟩),
  (true, ⟨0x17009ee9003c8bea9fbcc30208dcc01dcae3b68e2ac08284e7fb41cab2cf052d59d1bf15a1b67a65210e8f850939620e, 0x7907c488315b97fffd39f8b626a2ed4ca5312782bad3bbfac326ced60f6ca26671b933fb06697bfb0173c4052e457c1⟩),
  (false, ⟨0x1606e47918ea0bcd59f96622f9c3b04bebc70b53898e610e4ed90909d64e4e44250f6f9e4e91309d9f28bc00fc18f0b, 0x107d0929afa01423501a8c67b173e016028cdc0fa1df74595405821501283ab92d4fad09751bb96851c71b8bc34a9516⟩),
  (false, ⟨0x1627c3786f839788dd86088ae35790201e681c1789a7557a3b7e39b80e301fe056f6c72823f8cb014845d8948339fdd0, 0x15bcc747cc485f7d813d16e3355c479a8c87c6d9588502bbe31dab1eb81e5a9925575461e58e973a621bb35c0db08e04⟩),
  (true, ⟨0xce366f353f725bade9751fdb138d631d55a242ab73500dd62bc5633b687fb9624acb06c7b94ba44d131d51537c6b965, 0xa85f5a79b8403f5b25de64bd0c161a60dbb0c0804e2450b908539be078cc643b09d1fc1e80992934d08520e4a3c64fd⟩),
  (false, ⟨0xdac3a2576b6fefd393fa0afa7190b3f30dd767459834acd20c6c9ef4242a777eaeb7c31db6ff6baa616ebac4e07b8af, 0x7100cde462a91bcda21cda2360ce8699828a4ce1509d2a7851f73d6334a19c12a392f3a826fec7d8fc3ae9056e9d3ae⟩),
  (false, ⟨0x158f37daf288af619e0d0ca20b47473bb526ae2d871a9cc28c6973fefe1ed554b4d79081ad3a1ce4ae586944a567d85e, 0x147e058b7d499e23ed00a98910f0329039223d2fa9fc17ada1ec6f2cec5af2b1979e1f57e21f3e9eddf875d90f58c27e⟩),
  (true, ⟨0x991818b1e9dc9ac19fcbe70c365b824b1c85493d0fda589f5e78996b5537e231a2f4322b9580ce49cbf16d396126833, 0xee8f48ea5b16b1f6a64c75a47d4a2ada5c977b9c4e6d65cbeec09a708c0e917cf4949493e4b196178f989f10062e192⟩)]

def b262069PsiX : N2 := ⟨0x1281bb30ebf857e654852af958f09547cbc337b4b5971e3898609fa920a6beda2ebcc990ab68d894b2d63827b6f570e7, 0x37b6a7433ecd139601e7826d22ca5eaae5df37383ee50843941c9508b51f57a24b5673d6cf6b1aa24effcbd6a180c2e⟩
def b262069PsiY : N2 := ⟨0x531fd8c4f3a3518f0a0cf1efcc7235b88bd0513f10d50eed775a461e37d7b0a9e78fefb200dc661e03e9930307d37ea, 0xff74785de2d21cd322c19269e3916a00ce35161af15fad05fafbdcc2511bafac352edebd2984b7f994aad049490c8⟩
def b262069Lam : ℕ := 0x15802
def b262069PsiSlopes : List (Bool × N2) := [(false, ⟨0xe2b6188ef06f496e44f8adaa70fe5affe6c7e4a0f961c0d20d4e066ee043a815159937322487d1e8227edcef20e56cb, 0xf2f256a0a6aa445d23c125acf9879260baed626f64794844130c4cb81d6321be9c1ed2bf8cfc4af7d0ea42de3a62240⟩),
  (false, ⟨0x1265f9f8f58aab63346d29ba0611c693557a3b2c9ae468c9804fbee7cfb711f0eb7d16ca93a1d6008ddb24ff4375a8a7, 0xdc0650e56baf481f7c04ec3bec18f8d0f46e8a5190c4551af93368219dbd50ef22c0f2f9b007ae87f30b151dcf12a6e⟩),
  (true, ⟨0x54863138ac08e9062cc64fbd25b91aef59d77040307404db4f18115315fc288ac84a215ce995ab35f94c21fc6fe0bcf, 0xbe93b3a5da6a584dd96b61fcb9febcca813764689dee9476aeb6182264d30dea9c4a2676db0dba79abe43cf38f3bd70⟩),
  (false, ⟨0x5e51d3a3163fdee19030e54c009cfa06ef8d3821907c161b3b9277ae8d53a7be28c8b002a1b36c4649ba401c9c317e2, 0x13d9ac612e9b24eebd7a40b344dcb593d031c6505e3f3832f1d0675b323a23181b083c1ee91b8bb83650d4afb1ab4af8⟩),
  (false, ⟨0x2ce81b8aa7084b4791c2c81703287814c439665aed05d6509705a8c3889a53520e2280f37c5e9295254f8e3e10a127d, 0x3c61e449716f0c988a3fb52ad4f8ab19910100909eebf03dfc13ef799e7506b2a805ce1651d0498308735e551ceff7b⟩),
  (true, ⟨0xceadd0453c75190871f58113363919ba476dcbe9b2fcef4e5d4f767170fa34557eb65f44fe38a705efea564e61b27be, 0x31b04fdad1f61329c9e526402fb44c953ecc3948518a5f2ae87015703be3a8c0339fb2af41cb29a4e0b8a8fb2805f50⟩),
  (false, ⟨0xa1cc1f83a77bc95d2f1ea45af6c77fccf828926aa70c205d580b6daa94d429fe095509a125fbdca4453d5ed341d5791, 0x26cb876c6c8cef2339f22e4e394ee57127ca9e3e39cc8901ca8156a10d66218ad22fcb830a441d3c8201cebc0f904d1⟩),
  (true, ⟨0xc855440a15c0f92a89f3a71ecb06bef4e83552e451d4914e1b347026d3b14d606a9526d642a5831ae881b6601a0560e, 0xd2d9a520937336846bfc6be0fbc63b0d0a5a9b394ed0da35530c87be046de28fc97788a5b6f3ecde7d054253ebe36b4⟩),
  (false, ⟨0x16615f00e4e5fea4ef25c4995741d33d9668e081880e6d084aee735b5840bc3d3af971258cb2e9a526f94d1401575e36, 0xde8ab42e001d9f381c5ef9d9dcd146542bde08cb73833b2820886171c76e54a54094282cf9b6802f7004fef8ea28b0c⟩),
  (false, ⟨0xc83991dab0ee3b9c506409769b1bdedbf83d9db3a757e77389e2b4b9c0d7b5e20b2799e1c9f564418d1422f5788a28f, 0x11c1d049b19ee2dc5d3710b3ec57d125e64e3ea7ce26d75d75c6cc55dde868ad80ec20b646d3b50174f1246b15ed0914⟩),
  (false, ⟨0x8810afe0c37fd4b7b7eed8304aaf88e2a3376a8962b2046e8d2a987a3953db628c554ac2593ade3997f04047bdb2e10, 0x5fef4e897f5be9857606f8d8c79f5d99f4fb33e9f0098ba7bafb81160945ea54bcdf8ff86947028945bdd83e172c76⟩),
  (false, ⟨0x98993c02f213835c739c51dc5a96d57927c250b80e7cd9584ce589788ccd95ea86d1b569c5ae17a941c8148b8f66bd1, 0x7c208bdeca553d2efaf7439fc726fcad065f28cda1984da2b67273d31c64949c48aebc52f1ece5d473c1ed5f2fe5e15⟩),
  (false, ⟨0x13b480eca08ba90f28744b4206f80ecee2bbee5ca18eeee7045259a27c0d362fc6bde7c00fae0d569780c5ce7bd492ef, 0x186eb522e847687ca381f6349ae8e097239cedfd7161edc68064cd8f31e5462cbd35e5d5c02a96b742bc622d6e08b4f9⟩),
  (false, ⟨0x12cd288803a575836857e1003a108f36cca9daa3d209026f49e17fa75e8f8200ab28b380baae8d2e1fe68fe2af4525c, 0xf95ba7efb08c9495f92177161c3f700f00838c5e02191756c5d7152e7b475a3c463deefcd6767cafb48e8f4fd575a47⟩),
  (false, ⟨0x3c5dca564bde466e0b728c39a30532681370cc768c451a9292142363609079b435cc031398d8ddb05ce769f1527431e, 0x1028cf5957ab6aa97296df9775f79288510b03444d52bdfff5a705be5bf7dd517849fa1ff455598e4f195361464711fa⟩),
  (false, ⟨0x223152e5997e9f0d4d8a0ea671757106c0d04dbbe03530f3e050c2d64569717ce7b4e7756f1545836b281625fbcb1d9, 0x4210cfde9841ff71644b4855db23f4cf8db29658617af68c86fe17af40297657d8d321c95d14f01a1f12324418ebafa⟩),
  (false, ⟨0xd94e848791ee2d6b25b48ceb5017e02798dcb6f5dbc37b1ef81ccdf580b3222d2e67403eddb88201f8d173601b31db2, 0x148797cbbf630a8f14a4e78a9c35706059215cc80887c0190054a8059e818870106af1d04fe77a97937ae641216c3ef⟩),
  (false, ⟨0x11caef8cd2dde3c7ec13f82c4b403b693f672fc8b7e11acad7d130eda598e47fcd0fdad0bd54952ae494166d43f1cbab, 0x18b41f833ae5687fef35d7df66058c1439a3df3a875acacb80c1823125339316d4a949268c4f76a14fea0ce8bef6bb3d⟩),
  (true, ⟨0xb11796d6fcf36af97cd6efd11c6d3ee6745e675b523207994e579d6bfee9a802b3cfe9cc9acf68020050a124acb2f3, 0x8d7ed643941788fd8215ab95453429c44968000fd99c2c067b3d54305e395a6d1eb61bc5d514fe16d96a8c73d10cc6d⟩),
  (false, ⟨0xa71b42185d818fb44a29bd0ea37835a53fc1edb83c9e9064741ad8d67cb5cbfd55882f808783a3f9a82d7f82888f760, 0x18e6d9350cc8a3691962fa8cf02eb1eb4f0cbaba51732b1e8234575ab88268231d26f006602190cde6f366d6a4f4fb84⟩)]

def bPPsiX : N2 := ⟨0x76b3c466fe6412d023615b567d08e802049931375eab3ed1a434dc7c2861c634f36cbaaedfb109894ce4efdb299f53a, 0x122b7e704f468801b44a0a06f9ffe74b42faf24ba2facc0cbe876bda21afeb5b8d77f86262f33c0f0614ecae31477635⟩
def bPPsiY : N2 := ⟨0x4355f6ac0564680fabe70e3123e2b6a5aa1b3456456982ee9cd9c0ca8c1ab1b467aa099383dc7cbd4daef3abb6643cd, 0x2a3f2b09e050b835b5e0e3fd5d01cf236db480abe7464d0c5ce6c5bf4f653f0952f479db39203150e826572028eeb2d⟩
def bPLam : ℕ := 0x17f8c0adfc4b3eb878aa423b27751b78f9a51750ee808b61ef5df35dcb04a884c4e4f62fe26b74d0ce6cbaf10c3e4d7fd4a8d459268c4a4
def bPPsiSlopes : List (Bool × N2) := [(false, ⟨0x186342b209bb713bb17f2b8106bdda52c7ebe3b7c754da4ca589de58235d485a33163f3706c7a87efeeabd06915e5dc4, 0x1838830f44e8f2fdd879907981b1afb02ffd0b409b96aa3259f4422efe3e4560034a8d4991b430ef7a40bfd763304904⟩),
  (false, ⟨0x110690a4d05ba121948b1c4eb265d1a3fb9c60387e474927c37e0009b716cb11601046b2c49c13968f27660457f77f13, 0x16af6db5db56e59187ee5f2722d42ce6192d92772487bf5efd970c3d1e410047f0d3467d0a97867607f6d9e413cab044⟩),
  (true, ⟨0x13c8561ada43451eaca7915d952ea5e1f3acb81e542eb1a1187d6ac5f8546f1ed267215cb47cf01dbadbb91a624f4c1f, 0x157cb66c69f2c89181681828bc565af3a45e96678382ec1db3bafa50b5af50690bb2ed491239956683095b9bbbf5b840⟩),
  (false, ⟨0xa81e6ae7c037c38022282ae0c10dfd04146aef27ec2145707d0447653161b3cf0cff0aace6d2f20f3d35fd9fe40290b, 0x8fc30196f8252f9765110c5cc2e2189a591e6ec4ce0f11c39aa8dedb9a8a695312f2009627bbd65189d191f3ceb6de9⟩),
  (true, ⟨0x15c436c6b2209f37cca42a29cc4d888cd7e504bdac8ffb6807fca51586a904feb47ee10d60869c0280a56cc5e5950a62, 0x19a3f66e9f293d9b67777ce72bd7d58003f10fe212ad99daef5cee165630756e1b1d9304c91434f466446771d34f0a9d⟩),
  (false, ⟨0x179465e0d84ebcf504861e067913308b1c1df36f6b7d49ee5accb059185faac309bb3ac0f86e448b218154a201ec1f58, 0x1023db4e9ada13cbf99aa06349555285d586ba41a8e02376160fb237e919b15fbdfec12f58b0d48aaf7471325fc6e21c⟩),
  (true, ⟨0xce562c6e6c74cfb599c9d65f7a90254e9095afef437a6b60127be3de19c5872a21c0969be57720327dc8530ad10aaf, 0x6a1df15623bec6746521ef46d672ac4dd12474cda3045d229eba54689f0b8ef46ca99a2363e81fe508dd607a97c730b⟩),
  (false, ⟨0x1e57a4cfa02e23adeed1bfded965f12df7943a9674f13a444ae4ed4a361aa1256b3e045eca3717c89cb26ad7dbc55e7, 0xaceaf8ad4728fe1d62414be62dae477b0eaaecfb559f5ffcbce527de7e83205ad94d9d9ff8ef82e1a4adde28f76fe02⟩),
  (true, ⟨0x16a225b6a7b86207dc5a5a9ce3c84bbc6991750a04c4e0ebff6c4e5a7815f2ba7bf6c44a481ef720c52d09a0c10bbeb5, 0xbb7bd4b2c9401f480c992cf798d817a55a61993a26d9e72b4ef7b126b120609a2d90e041c6dd23f3b9549fe124b054c⟩),
  (false, ⟨0xa9d4a3f66f9764372f33c7bbde9fe251560cabdb476835615c129c101a75a5364d25256220b6566b084d76c2ee9051d, 0xf53ef41346d699b0d6709fdb252f89c122b59f9e2c5640c71c7d1abe555e668e0c5242e274543e7656c55e0bf449bf4⟩),
  (true, ⟨0xde7129eb1bec25d80ef313d4638740239fe6cb3cb40b0d464115636bdea72ff62eb88f81a45dd7fef52f1c0e1a190cd, 0x19f0c61d58fac17d330e4b84ab9052a912af30855b13b1c445e0eb7318a60bb6021ad15dc007ad980b2a615cf9c6b38a⟩),
  (false, ⟨0x19543063edd27c3e2e7ef8a74a2af00a675b5be5291f024a6426dd4ffc03e4b30976ba5472d0d4d336c9bcf75995b7f8, 0x15da5568d680a3e70a1736deb6ad8bc2015e8cbea9172874a06afc3384178ed09a256304c7963c808ada0a7a1ad099f8⟩),
  (true, ⟨0x104fcbe95805b31179286534c3d313412febc365758ee735a5b1991b2c11e9a68053a934ee325e900b4885d15a7b3503, 0x106cdd7ce4e586b5cb1a432b3319ae866aa82d7f45978514caace31fe7c419737a52118bd2f71953e21441a6b8c8eb08⟩),
  (false, ⟨0xae1a1662f5a9fdf28c4ec89d935c7d36993fae122d7962edfcfbf13ae4865e88df586c059201fbd3297383334c32f2f, 0x8f298a32384af6bc543adddb262dbd23a2e4568f105adc847aa3d09e02cb4574e70f249ab17a9c4bc86b9f6412ea610⟩),
  (true, ⟨0x1205011fed99f774d11f285447ddc82bbe3e446c0d52b04a904b0a5cba62c268eddd05598b35b561a6eb6ab678b0b496, 0xb3e19e2a68f28019d644f4f559a012cef00e2b88fa81dc4133a0ec7d48d1aa6a8e1e28fcace9ee1dc60a9f180cd2099⟩),
  (false, ⟨0x2e1fc46255fb1ed44b2caf190a1a9a5fe9b1910d337adbe52fd64327966b92ff37a12781c4dd8de7b6b0a2b4cca4d00, 0xe801b0156582ad51467d5086f47b077d57f46a68a606cecf750496386c8af750a84860b972db8c0ae9a913554e4fe4c⟩),
  (true, ⟨0x68ed29dc66784852968d5b6f872b71cdae5ac4cbb9bf76f0ec6d0e07d77357679b32953eec8ef0063f161e91d63dd49, 0x139b7da2d41721d5284692856c04dcb90f031ca2d7ad1ea6cc5eb07b67a38f811fc1b87b7291f513b46ff0cdcd93da32⟩),
  (false, ⟨0x16a56f9a4c3ab0d45d79652bd5c82282ceec79cde3f232fd86ee19144e5279ea4955beb8dad5397599f993d5a0d98fa6, 0x1243084a13395c668bce0b9938b607c5fc06b0d38bae309f4fbd7ee2b5cfb71032093b251e578f727af7566a868adc59⟩),
  (false, ⟨0x67545c90c01e4b481ede9c0994405ac80fa129f36647002c47d7bb9caaad7b6b2a40d857f4ad748973410ccfbbf405e, 0x73737c701a90f626d78e532d706d0729f2e582055b222aaa4f59588f8c28a8250c49919248baffa52f637438af1597e⟩),
  (false, ⟨0x187f6bd66359b9adb3654232b51f153e375f63dd458e979d418eb2bd2dc0915301ab4f5104ee267e74a48dbb82c6278, 0x24bf5de28e41179a1f6e6b5082ae665c9443a90f5a1956588d5f5305da6db0a5002d07753f5143b9303584ca8483c73⟩),
  (false, ⟨0xf9e146fad7b7e79a60900d28b4b338502fb10c0ddb35968157e08193b98e1dc2376d89a7e7bec3f6c98dc0884227d45, 0x155a519b7393cd4b7307061d7e34b2f27f35f5b6d62a9dc33e9ea0b576b7627e5841552132200f3311d5679a2386f9cc⟩),
  (true, ⟨0xa2fa0d2efea4e3f72914cd01cfbc3de2e3885ce853854fa7fd5c9852b5f14bb022027785dd4c7348f60bf790aa89ea2, 0x17c42239940dc44b9f60bd9c4fe73276541dcc4f76af51a58e3ff8eacbeafcac60cbbf88650ef11663c0f6957c1941cf⟩),
  (false, ⟨0x128a4116041567120a964931239242c0c47a23ab0cde9ff6de26d29ca01e9a342350f2afd1be6a6e510659fc26d5001e, 0x18fe4e40962870f9557c2a8f4bad3870ca322cdb80edc4b921349af85c144a999425baae9666fdf16020f8bff42811c0⟩),
  (true, ⟨0xa5f89a5c9cb1aee68cc0f63f90a152e71b4cb507af4c3131899ba1adcf5ba2f01c3b0d5a3225072dc66022d59ee9094, 0xf29e0cd312e4905bf41650e7aa8e4f40b923e4f2ca60adac3e31ecb889a5515c261cd6c19e36d3fb1f7b430b96a1fff⟩),
  (false, ⟨0x1785256397b8491379e9363c61d2e80ce2673e3c3d409738dff4abc096c195a43026a8a48c9781fce026ff2b5f3a37b5, 0xd96f9d9c47528ce35d42d3ab2a0be841d4f68f9e113856e00b470b9123c604584f58dab5860cb592a539a7af472624d⟩),
  (false, ⟨0xdf5791c121f074304a7e97adaccf79e5bae28939e644baae63cf0d882eb443de0c80e4580e6b174ab5370addd1b8a11, 0x376f49e03e23a3214cffa15466a08214abb78a4f8cab57ef478e9035b4f625f0ac9cccec00b87be331c0292f116291f⟩),
  (false, ⟨0xf02c92ac311ae09b3c6fec527a48ed3287cd9fe08ed39c7318bcbf3c8b6cd2cb77ae4e54b54851c98fb7e5ad658655c, 0x172038c61252eadb17babcea716ea794f8983225074c6cfadd05f9697e6b07c2537f9b8c485f518ea3f279f7cfee7eac⟩),
  (false, ⟨0x2b699fcb2897afadd1463c678183d29fbb3acdce57e9c9ea16a2fdf3275bcbce5a5c78500b7b47598ad8e914a52f61a, 0x13c3e6abc4f673a27d9dcc0097c6468ba586b07f5630329320799b425d99a6ae7cda598940435949a274efc6f8cb2276⟩),
  (false, ⟨0xe8a90d28ca746c21435285a0237c1609c87c835559c7723e93b68d29574b0192d2f0d6b31d73d1c0d835d3333337b92, 0x9a1654d410b93bd717ccfd8339345170de12f7ce7c485fa7c37e2eca259bef84e9147f0ee91bc58ca34802538f19601⟩),
  (false, ⟨0x182ac250982eaf64df060021e0a843fa1e438b2c9c778917fabc8fcb85fa2457b17642e81d1d2df93bdab723694b75d4, 0x193765447e48ab2945cca8efd1221dd22d0068ea99fd2c887989fd61adc5f488548c95ad11415b8e37f5bc8c21cbeb51⟩),
  (false, ⟨0xe09d586f2b67d616bf33ebd2d996ef1451ef5c54dcea621c4257d7bb34cf94e96ee3392a00ce140c0de8f1b49d35577, 0x179e43115b6cfc54a50b6906f919d6d9c59e4d431b7df989db100524a11783f4bfb0a4d59a5297b605f21effbc9376d2⟩),
  (true, ⟨0xed8b4626105295c8608514c7f8b2a0192a7bca862a3bd9fa608ae53e07b38fdd38776f13ae67656d743441df15be3ad, 0x161c917c48619e52d8d4d4f5b3fe11bbfe08cce6ba5a878f01bd090bf1829740da5a5e6b0db15fdf754b523dbad74db2⟩),
  (false, ⟨0xa03750e0aa8666b93388917790bb8e7136be77c11b2d0f76d03404b7daf6c18992d0bb0e65a46425b0dd477a6a9bf27, 0xed284366320d90a13d9acedcbd15c1321d94fc332a68fd60a0b028467b2025555a1932d1bf1119f71a36e4480ea9b85⟩),
  (false, ⟨0x1e8ac10e6f9ed816dcedeb8bf4b8d6db566e5f0ea792821152b2b3eae882f54277fb527aa2a9307e2f97d2aea965d8c, 0xe78d11a37e3112d3361130ed973d9c976997077265f8d64921fbe6b7177d5b3e665fd58c3e51236eca5134c234999c9⟩),
  (true, ⟨0x931d27ee0e48f4cbf93ea8421810147867abfcf5d9cc89052e989ca95ab8fdbf488b303e7f80c04c589708e68bf65d2, 0x157dce33599f626de21b88adee5b5dbc050ffb89093cb616733a5d6e1223a23763b56dab8aa226d6dca69c0f2d4cb47a⟩),
  (false, ⟨0x52563ef5343aecd074d24fbbd1054d70d2c7a2a83502bfa466adb15ece2c32d0029c9bf42055b74e1a50652bc813ac4, 0xc640f79521787085ce879eaab6ec0f9a02ffe994944742e787f888f87f948130316392ce2d97e85edbc18665ac4eee3⟩),
  (false, ⟨0x11911774fa7b96d56d2eb86e3884e1b8a37456f9570bb4bb8a155fcae1e773196deeb1dd5227a9cd8a9e234ac105252e, 0x82dcc1b9d91a449068a054882b68c1d59d474bfe2499c79a2ba36463a1a64da803b1dbe2592c36389efc27c94f8c087⟩),
  (true, ⟨0x6ec5ef2a4d20da702cc63c8ded10dcf5305a4b8085101a5080414a2014d797aaa2b265edcc3c2a04397ae6a07eb110a, 0x25d19fde121e1b63ab36147d6c7eed6511da6a6bc1718d8308d7a919111838804ba53937782b8ac73b05060c7f8f590⟩),
  (false, ⟨0x11048023b26f67bb3d895d5c4dfb95d801d1c43e8b2a50e3cb045296d24d412c337c33dc3cacd30fd93762b9a3d481e0, 0x16fd75e130efdde7cf2d3ff14eb26d29bcdee73e9811b76618ae74905a4053c758a1944ff0d512d7b3ecf6048533c720⟩),
  (true, ⟨0xbf82455576a1ed6efd65d5843881c526d22991a63bb327ff9add6b393ec302a705d0c4839235ecc90aaf967bc266081, 0xe46c343cba8dd323061d634f326e7e37f64d71f6dbc6ec594320635f10935329689864182ee662795ad2a3266286687⟩),
  (false, ⟨0x11e086b66be520ed38707ae6602acceb87889cb4f2738e5770029afeea7c54c8d60a29fe821648c3ae9c62c4b1e331df, 0x37e08770817c4eafdbc2d0a642ef109b8c973e6d7e9ba303eea0378a4d82bf53df81dbc996debc7ed755c10129fb40c⟩),
  (false, ⟨0x13e5b6481a28f1ef5b866eec8fdc8155eb8fea6a758def58e407a560b1a4564e3685ceb085b69b62e60d33080461a58d, 0x19eb46f5d5e3951090684097d00cb15c8e56c7077a52deca830190d98f6f4b1b9d666c858d915fc94f7e7cdff0db7c94⟩),
  (true, ⟨0xc75fe7f2945ebfb62a6729a5b5d268a3f5588e167cb5feca2de93c5f079e537a961ec3a4aa4abc7afe7db86087fffca, 0xd33fa9ad5cd5728eea8f9593d0cabfc37b92251f3b4fe714d2f204537aaba0d266d24d1bd1e90edfcbc5eefb4c555c2⟩),
  (false, ⟨0x180c7f353ba354604fce264fe8d70e8dd98a706de2e947938db5d19da4111b3472d8b7156f0e5f931bda11dc7cbc6149, 0x3912a0655a98f5735169412d563b48584fd353b0735c9f5846755d12c50afbdb8f0b4a062588aac697d3e351fa52168⟩),
  (true, ⟨0x9515faa7095abff96b386057b9ad06a0672305757f42edac868f64e6c32a2ded4058e8fcdb48cc415cefea2623793b1, 0xef176111222c822c98dcd3bc3d0383e6d46cbd6bb4e723bdad60e5b896f838d9f72e530ec685e441fec943dfdd7f0ad⟩),
  (false, ⟨0x1115fa62428fcf0002320f47a43f0474852710e8310129b7ff2e3f66e13bb7872129ecf5ec044bada17d248cd1ca46d7, 0x196694ca7dbd232a24a5a924794fa47fd44a60fbaa16f66a6703cb2ef6e33a3a17847fd459d6f0ee49d0d51afdd0bae2⟩),
  (true, ⟨0xc041b44395a89a36f09bf03d949d21ffc756c6e37f6ca85121cb23436aaafe988f16b57b033b899e7d8db07cd6f622e, 0x14ee758d8c2c443efe13b6aac1c5e3aae60d9f9f1db6a83b366381e4a909b6011ce665c60558619b80ff9b00f45bd5b⟩),
  (false, ⟨0x6dbe281e42dcf32ccbfea50e1ff8b4d5d2f6009c4fe0b199a8739ae2635ce165d090148bb9766c211ce651e703c7d15, 0x61dc67859001d1a27af3dc8c4afda637046f11df7c692fc05adef7467e880b8219177dbb3eb54d022c4b1a4c852d794⟩),
  (true, ⟨0x630c8e44dfc294b9d23246ec88a43f89ad3aa53f6b17c6f89f990333b94f83888fa39036e03a67e2665aee6b867008a, 0x3f5d0118591d430921e40a4cce090e6f3b3ed3629345917de9e66c95dab020b420aef4171bb3841d893ce91e759d4f0⟩),
  (false, ⟨0x3420c6f8cbec1a8967b2572d43b2f688a44d8bfd7a3e8feeb2058de8a8d4c6ce0e5d99266f7f4348eb35ce8bab9873, 0x8e25976831a82ad00a4ec410cdcad6a00dd5c3236765cdd5891aaefddb79f064ca169b4de4f53979e0a19958f39e441⟩),
  (true, ⟨0x17edd362cc6ab42808df5b0cbd74450fe7dea603567a7bfd1832573d419e20d897c6f35cfd726d034c61e1af1512d2ea, 0x386e4bba583cb5913e0905a70fef31306f9b39f401b7c9ffa7d1f89054f3420147b7d92e19ac4a7eee906bfe5888291⟩),
  (false, ⟨0x71ba8bcf0319f68aec21788d39bdc30fb2e0a24d9f51a5802553f83954df38f46234f97ce9198d356eb6bc36773f919, 0x10fee4095145ace3f1e5dda1bf66ae0e33690e8350741aa3ccc3cd8bdc0ac9b348e8ae09ecf9c97186ce1a762f918544⟩),
  (true, ⟨0x17cb566da584f7efa7bac703e97d6b2ce5f4c65232b7f418d824f1756b51188faa8e8b1fdbcbf94bfb460b1f7f51d0cb, 0xae3c2e15592e43d971c375a0379a797afd221e36ee8c11fe22fe05151b7a9b7b3f6eccbbb908572d3d09665970fdfab⟩),
  (false, ⟨0x123c28c04565c0af73d65118369ebb85587fc22c042729e7d80e07e71cebbdb2a2543c8ff72b5394ec8a15c8f097310a, 0x6480137bbfd5f2912eb6b6e8abcf1f87c31478c5935e99bee4c7eeab9a45e980c7e3e343a63ed09178b889f20fe27b0⟩),
  (true, ⟨0x196ffa5d3624c1fd4daaa6fb78b9d83e437e43eda396be762928002d66e6474e6a0a67c4052f7238f65fb5a8dc3c9c07, 0x39a0afd2f9b3b39f7ab7e20dfc3f4382bcb146e44af3032ccd37ca2f4cb61ba7016265b86dc2bf67eaba45cedc879⟩),
  (false, ⟨0xa947f6197a1ddf494aa53275004ad27cfe8775557e4d2272ed5eeb6ccf7a4fad0ec078879768b74f4f8d5b07abb237d, 0x550ad929abc771eb4d93e1b72d47e5be2e195db2eebd552f4a81c39ac40940c5440aac0328838447d6bbd059e86ccf2⟩),
  (false, ⟨0x36f4e211a4a8d5253bf6e3c3d5e40ab793b9212d9fa1303b26cc03b4c759cf4fa4acc8a7e583f0d8656b617973fa901, 0xb28a29a17619a4a8520cc5f014dc00bdfa3785716c789d6f426792a9421f7532f1b9b05ac1c7b61d1cc48cddea8f43e⟩),
  (false, ⟨0xcfe1b51fbfd404bdafd2da4a196bf133f82c9022dfdd0f518b05b270f581d05271c6ce4ffbf5e1466461fc47a7c5903, 0x561d847a4a7aa749dee806566827a954115870a40fd19db3e4762b815de26246297b0dd96d43309396454ed992b8422⟩),
  (false, ⟨0x56240b5bc90702dd6772e67f5a5565d108338df0a80804672e77c7b2f67750ddef4fc38babed6e2db7399657187b9c8, 0x17f992d6fe1d5f9c9dad9b3ccefa7ac09e151684187f9114fd76284dc54114f8ca712bcc77e9ec2b971cb6d142c33bd9⟩),
  (true, ⟨0x8969e1bbd111449f331b3c8b4bb2e05104159525ff83dc5efb90e8b31c3efa3a55e3e4e2eef920cd1820d3399a6136, 0xbd3d30781b83da720929a0060eaf8ccffe8fa5c7052da83133a3bfcfa569c11ae2445b7caf93c3df9a08e400dbb1f68⟩),
  (false, ⟨0x15fdcc082562ddeb8c8d77886bf4f83443252f8d62a2026bbc8b746ac2ef4cf0c336934cebe7865d44d4b3c24cb0a51e, 0x4ab1eefc40db6cc70aa08f326d66fe142629d428cc9fb9f2827bb3b800970b58856413ce65923048914fc86402593cf⟩),
  (false, ⟨0xf2cfde32161de4842c6014e03d7363023046b83974d7652fd70861097b3407fe6db1fab5a19f5ec016b1ad35e33ecb9, 0x103ffeac671302e4091a26d2ebe1e72172bf4543f2eac160561bcd4bf689c6d7ae2d0361189a55f318a8e1774be540b6⟩),
  (false, ⟨0x62a68e7f6b4ff9e28e7966a2cf9e923f9613ffb54febae7fda6ef6e72177e092bce75986775c00074d9aa604e961d83, 0x13492048ebbecbe656a144db9377f50d44eba2bfe2d68cd56e0d01440ad2f4914143443c3a579a451001fb12319d0423⟩),
  (true, ⟨0x181a2bc31acab517583bcb20e0cdd28557a131927c173d9aef9d0f86fb5994e3d8a759a9f1182a9b0c012abc0628de29, 0x155a75753a2db7f36c43788edf43a3cf790ef9a91a1daafb7e5df0338d843b647e6951565a023f8b29b4ed2faac12d23⟩),
  (false, ⟨0x8f48cc748f57a159f9faa117968e3c515425c6be30c850ada97d960985bc7efdb952ce1b5f4a99d0e75e8a4885548df, 0x9955b808e7b44d32ccfbcc7f5e533250b66c1348f7db1be409b232c15e286efb85917e17c043e589de176b50cfdf633⟩),
  (false, ⟨0x144af7c4544c2f21353e88acd7b5cbc9bfa44dafb32cbabec433d3e17e67fd53afbfada093ba2613019415affd83201e, 0x520dde890694ed881e6526cf4857ef230808b8d5c9baf972147285bc8990582f6a7b6147e5ee03af135d59244db3381⟩),
  (true, ⟨0x1917eb3583c27d0bf0cc31affc3867b7844bd80321241769943d62fa6d24a3e98eb0c590b76685324c48fa6e71ff0f7c, 0x156b636975a5b60cab15adecc6b00b5318aede12be26bdabca2aa2ea2986d95cb78c7b48c84b8458c9cebc63fcadb0d9⟩),
  (false, ⟨0x16d5284e36465c583d01733ef0d1516b2ff623d963957b649371d2cd9bbd1ff42dc53c0d443615ae3d79429730f19048, 0x183074d6c04d26b5a52be992383c99c5b31e8c8b0347570d68fbd5326c612f9bd36c85fb544becc98f46226e1e44f8fa⟩),
  (true, ⟨0x149ce908c91cff93244b76be567448eddd306fa76f39c084b30289eacecad3c12b71dae64ec0b39d4b12f3e14581e096, 0xe8a485ad738628c5e9e8ad8e8cda0a19accc0e306ffc67d3c5885baea049eba1c9c180b14b39f4e186a2d474cc4285a⟩),
  (false, ⟨0xffce61d5cfa99eddf366851201335e082fc2cf6207ad4690699df7d5c7e44ada0c9e5a807bc515b21fee069bdf24786, 0x17b66086337d7dad1fe28b85d8aa887b699924dfeedc50e0cb901065c2a183dbd2727f7a04d5c1b4bd4863b9857ea181⟩),
  (false, ⟨0x18e17fa0063c48b712c2e95f487987ad367e9277966065593c688f50ed6af2c8be8c93624270bf877853fd399f22be45, 0x2157c71f4912be5dca820495fd7f599bc3649826be7c645cd234b0b8620f8a40d0ecd3da24885a2d227c41e64f07616⟩),
  (false, ⟨0x42c6d89d5ec2ae4f721ef9ded41273683a517e74056fdbfe6ad986ecaf495f6c449697876fd1657fd28d28ce4552501, 0x19cd218aabaa5f4a3d0db6a3729a0648adce266d68380bac5ac661280550954bff4919b7ab3ec07970013b4df5403f50⟩),
  (true, ⟨0x2434f3742d468131b70a1c27e896a4c9cf0e00d32d0c04dd1c2d0b69306bd95dab4662b761c8f8197cf58afb78345c2, 0x15a1917dd7c016e12a38f9fe374e2065bea68d32cc45891412737c7a803df6878330f6d82414d83cbded0e7bf6943862⟩),
  (false, ⟨0x7f24b77f4ccc038bdb4f28c9fffa93ea1c1ca639c25d5492f5fc36b352172e32b6d1f2694e3291d385c76c5fd19847, 0x17e611ab2ddd6dca32a394ee7274d9b7766f5f1f83ec0d2bc03b357e5eddeb2467bc60dadaa04fa1dcb887c6de02473e⟩),
  (true, ⟨0x7b627ca80b5c22ade6c243f4d56d73aedc5a9e998e94e3a1924e2ed92a62a7e8d9668625c8406c81174fe9bdece2b7a, 0xa56be0b262aa6d66392e2c9e2ab698990fae3fa5451b9b38ab3ba46957662d26f513053f6189b78dd79c978a435eca3⟩),
  (false, ⟨0xa8d50f5ec7eea5a799d79f728fbdf19db9ed37711ed7f51e46e0ff1db216f8339ac3770b28d292ad024efd887853aad, 0x9a073b73deda4a8d0eb5bd8f563f8029f5fc0de5b8316b6793939b406ede3b1ba909e13d0bf90965236c9fe5436084a⟩),
  (true, ⟨0x1386b7ed83627e02b0ba1104f77ed0272f85d39ced1e509c05a83c3721f09351c02e9f10bc1c473c04d4947256fd6e98, 0x1c7b7896221774eba6b0a3823c00807c3cbdffa91d0e3d798aa91a0fc18d12a80899d3394732d44a97c9aaac40404d⟩),
  (false, ⟨0x18d0299967bd7822120df17281af17c86f2efe3b8e4eed52849a14edf6a2967857bb7b8018b7d27df376e8bcfc90cbcd, 0xaf0d0ec7f89c7278dbd2f1126ab2fc06287a4a964d2a0e65e679b9f36a8f36b48c1b2664bfe10eb30131b49fc03067d⟩),
  (true, ⟨0x139b6c216e95d24d59f81fa51e0d1edfcb66ee3a4c4074a1f8d07a173aa5803320743b37565165d1211c4b0ed9cddc64, 0x18a49150f502e23680cd4f941089d792209767a758e86a049f94ce356e206aa83e8b084ac0707807b7345d58fb5e6f53⟩),
  (false, ⟨0xb5fa2fbbf09da462871525e2be17a9e58ae7b165c4fdde93badbceafb741816af6568c034cb037ae215528c63d6f027, 0x210a76d3d9f7b5af8db0dfecfbeb6b014fc8ab9db13ef39bd44495f211f58fa125c21f8b43529246550cd5747913640⟩),
  (true, ⟨0x18702c9afd7114b79a659a68868abd8e503d8cdc2aa503bfb298445564385f6c822a4d21ff716d8f1018270476c25f9e, 0x345efdb5f06c7bc86bcc63cea442ad48741140548fd5b09a78d10f465ec3af85d6910d7694bc8dc29a47791a6192531⟩),
  (false, ⟨0xa44e359062d120f912ef62e2810d59563bfbd4d6bb28cf281c8a9a81919681b92020a089b69d79980e0e4fa9fbe8278, 0xfb58de75f4b17d1978996815383e9be684545e709bd59c89c71e54be14fb53bfbb3bdb26bd2f3e7803411c36339b2bd⟩),
  (false, ⟨0x57e66f1266e636119906a38d7380b7e4f29cf20ebc43582f81831fc0b66b6ca116807c20670cea8cab105dd528f31e4, 0x31130ce0e31c93f07663dd1f797aa241fe7945b26cfe1e7e67a0c0867dd07e9b8b6537ffde5815800ef685b63516d96⟩),
  (true, ⟨0x1785e74c35bbd58e28d7d38b874207ff68e8b66f8fe3ed1116f08d9162f61ad05ec06093ce4ba76996803bdf538e4611, 0x13afb1a24e95e1d83611635adb96c1bd5d2815a44e307462a0760fa7c2321dcd5ba1eaef1df27991108b133c9d9d04c9⟩),
  (false, ⟨0x46379de071fa6af0d25009e3d35fd2cebe57602f10ed6562cee748241cf598c7582915a13ce628d749490b016b02acc, 0xa8ea2b3199e3d19d468c0ebee9c2c9a0e1df6fe20f17be3f47df4fe4c7c27ae52c288ac65fbdc44180eab9ec2680b1d⟩),
  (false, ⟨0x123e0d995a5f26e0b3f56a632e2660e1bbe8ef11405dae40ab07d6e028b7d427c9edbc74b3e98d5eaab12ac47202cccd, 0x11cfb81355e234bbe1b3a467aec808f1cb8805341d1959719192c87290782a0d12588dceca565515fc6fbd7e7b667bfb⟩),
  (true, ⟨0xf6a4a69cadfa5c91294f954980f1b7c5d7d44537897e2b0b2891dac90628b1ac3e1d107e309a4877e824b1b1780990, 0x24e54da57efe61cbef3392811953c1991ed6b0839c36ca729ed3950182b37effbb5f51af38dad152689c8ae0323edd8⟩),
  (false, ⟨0xf57075108541ca4b0bb5989cd78791a5b423c1962b3a132d15519031bdf90a38493c2770115237bbc9d26beca1a6822, 0x774cca88c2c18f81851249089fd4cce8c34c09a3c7c017dc865e79f1111175fccea3ba7d53cd61eab4d5c42582756eb⟩),
  (true, ⟨0x37a51d9f51840eea1c0998fd3bf66bcb4d5059577b9b460ce91e73a05c61eced77b2417220353063e67593c9650474c, 0x925e7e49f11ff2013eb350bb47c8e9165d2617649a3ddfe7e8f3b49306aea10cb077dd3639ec47507b2fab683d083e4⟩),
  (false, ⟨0x13b4a14030ac8ac42fda348e0a5d44d6291b03ac67d437fe5d45f4cafff51df81ab7ac15c12893c079749fb73705fad7, 0xc2f2b2578c78c14afda1f3f91ea344260c385ecaf5756094cfa844fe939ed2fefe30b5f6f5cbd1978c3f4977a9a9a44⟩),
  (true, ⟨0x78c955f13608d7e4ea1b19d8e8a7b33b5611ba4c0d12dc1dbb0aea91aec65b0063bdd8e980e5f9a42dc62259dcaa632, 0x113887bf8ae31e5a4039d9706bd2c41ab6eb3df4f979567a48f29c18486f3aa4f07f95c136565b04fbfc1d2e3a3ac5e2⟩),
  (false, ⟨0xf1ef5be18563cb46bc2a132f15e91649cf2c8e626231d6326444c92c644b7869420e333979e55afd896d79bcaf0ed58, 0x557dfe9fc6a230f324194142b2fdde2f8001b3518467c239c462d83b22e3b3ce446ba0a79a2fd88831e6fc6ae9d4f37⟩),
  (false, ⟨0x13e166d6c0076bd1a3ee8580fd55930ef13035add0ba3ec60c2a069ee8cb6247199571bcf9137b16576b06beb4ae7686, 0x100d2f53a0b7312669576448f4e2b1c513008cc7e6a92f70d8f66e304a36536fc4cad1bed2a6dab30cf9fc4f5c8ec942⟩),
  (false, ⟨0x41f38d9b8ba62edd2bde9c2a33ff2c2dfb045732108c816a3c8162ac5fda136797a686d0ca989e1f6b3a6d5f7d993f6, 0xde89757a7b1d5939ddc7cbb34b1b63ffd2f5788cb9c12a353f985007b218f89ffd0e0a29c199c7b0d0c44ce9f43eb38⟩),
  (false, ⟨0x1954fde85ada2592b3f610661b4af50b67566bfa3477b7df2e6e26b807f260af93e722893b7082a430c402b51fc618cb, 0x6be82338d0d74e0e484a9d4669e0a1458d4955807c1b5ef0f723cf4a6fb3b1d5b378b4ea235038b2606467c8c053bee⟩),
  (false, ⟨0x1247bf1fa9ec02d3f5477c84c5041a6c5d3f1c34dedae9054c433ca7be4862fa8b37853fd827fa79cb5daf7b007a630e, 0x14f92a58ecb0ce843c5ece2392bf6b3053ea2942ed345993dc3e9de6e5ff9cb4dd0ab201dd8f7068f8b098c56d0ac6c0⟩),
  (true, ⟨0x40c0d23de8860a94ab4d96de5c99c6138f46deccaadf2f79d433fae6a61b3e5f5f4bb8c1e162b9446cd2ee321de564e, 0x590d7867f99679c9610e5686d36b2c22c5fa95c9a91d49354a91ef751c1ee81830cb738f02f7787207d11112ab8e0f5⟩),
  (false, ⟨0x922d0cdd13c9b693a6bec76bf3c1e69cc9313ea4f190fb886e4fec5b802201d4d4a3c68c5326436fed6723880897060, 0x7214d948c724c7efe1c68a0ffdd930fdf5aeab4d32d9da1be64128a7871a670d6b82f3721540cf06b8bb0d00d51ad2d⟩),
  (true, ⟨0xe168123e77a1759ec86899c0326b8ba6efa6fce79bbd95a019135469bffab35dec5731ae41313a03c2acfe5f4531d41, 0x8afd15b28c377ccef34e252b2637bbcad0b65b0611c2e87e94284f8d4aaf91355a86d98ab883d8cd35056b0a0409942⟩),
  (false, ⟨0x183c0abdd6c5f6de8c0afe894809d839e97d5a54bea60fdeea03eeec96d99d25a693543464010d727e0a5e40e8d4c492, 0x13400e338f0a4440e217f0d2c87b194c13e888039effbb2f8d8b6ecd74c62f75830df00ae0647fd84bd300027d356f13⟩),
  (true, ⟨0x17a10d24ddff72c445e374b7bd2a0990965cbc6644478bc8f2e3edfa15948be5e459940efb6988c7c2bf5a64d8dc922b, 0x1363c8d51db718483b665730a57e70da60d0219687402c4c35efa9679f22897d0c6ef1214ea246e7ac2a29f9f29f21e5⟩),
  (false, ⟨0x122d374c776810855e7ca1bb51149a22dac8f1faf2f13e0bdb30e4b962c738380f67cbd969c0c25b96c63c85f6b2551, 0x15e833056f7ca10bd4c9e2a9e2d9222448b7e7314fb88b6415a87054ea2048155f72e6294c0229e9776fe98f80f36ffa⟩),
  (true, ⟨0x160a2c4e70c34174cd52d7c5d68da990dcf4ab9e5d4169b6c2516e26ff8a183d90c9543d9afd0ec84acfb0617d22adf, 0x1527ff2884a077054f4f60fd325aed6f5c52b7a4e58ddb6877f2f6cf26530dc351250d16c94868c337c183ab672d8156⟩),
  (false, ⟨0xd1bda1ba6ae1288a040040aa4724a724813ba9daeb091e3b1fbb5b10fc264e1d6111dff2ed3190209d7e619062f070d, 0x7606876f08da7b44547108ccbe948a2f0771b4627a9c0ce3e5e23a8a40ab86fcc2383f1465a913f4df7cd0656610ef7⟩),
  (false, ⟨0x196b94344201b16b88bbaf0a6247435822f9e1a46493c574533853225a5b7a32dd93e92990a7bd0fdcb3aea27c66ecc1, 0x12afd58e2bebd181b6aca5e1adf833407d534e4a79f804208d6e3818c0491bf79def45fb4dfc96c285cf655d9fea4a51⟩),
  (false, ⟨0x18e8b8982ae0e028742c01d9272d8602189811ec2dd6fe3c8855de06fde2cc6c3a6c4f02420bb828ccfa8ec6855f2c05, 0x1650c3b99fdf1e736509f90af57983a0d2e4ea38944a93a11de4205ee170d29ba8797d561eba5a67bb27026102542422⟩),
  (false, ⟨0xb4577f50dbc3f6af63de30da2253e8336d8cab646bd3bd2c3ad5776bf636c590850b05e81c0eb14a840c6318528f85d, 0x1708ee448d2f716704c67fff23dea35845165b7a5273daeecb32735b6814c5ac3cf65f487c10cc99dd4708055f01b7e5⟩),
  (true, ⟨0xbdee2af6c9b713ffc3d5304e4ac6ccfaeee2d72dc89c0c854e65f698416ace6b6b00a95c6f0846f2437f2299448e611, 0x1847febdc898f21158d0d689f82e767e6b121b44754f7aefcea5d7e43e8447da61886979e0d6e9291fd97ea238788e2d⟩),
  (false, ⟨0xea6f92ab531e5da61545a99fefee93f3956e67825d455eaad88b6e456aaf8c019c932fd45a571fbd15f04445ea81c59, 0x179059639f488189e4c6f96f0063b134b74f17904adfb75c22c1f95ec2f7e9e0e581d2010dde1a098ea7a5155a5a75e6⟩),
  (false, ⟨0x615fc5ee53a493bed93db521c5ffa3fe7fb8aabc03f2c4aadf28f0eb55b31d136cb835c38d32e60d9fd1ea02c6b165d, 0x171ac322ec83c7153ea1cd7342ec09915d0778eaca1789231de14a95552cef4d8fded3569a1f4529fa7f2ca282d54791⟩),
  (true, ⟨0x42edd7f1fee489ae4adefb8aa37b5bc91be6d1ce914f54439cbf16d0518f785c8df25aef82ab34fda616b3a4a0bdb0d, 0x64204c4694f231fe736e5bb8449a65c3b13f7b746d0d2f091054f0381356196d1b6b04f274281d876e1715372b3c149⟩),
  (false, ⟨0x92d471a11272baa4ac29ef1b3b0b0ce780b33de8819fe051b74e3fb8de2bfca89486bd6c03bf20c1e3337afdceedd8e, 0x664e5a4b3fc0b498a65c3141fe6afffed2bf2777bee39d4807c66ac462de7b07f55c410a0532f9db985c2a017cb16a7⟩),
  (false, ⟨0x3e0c0654a1e1f5c5d4b8772cdc2e70b57a38fc93b6399d6fe15b35f52580bc37bbfe41363b47c2b930971c7a4e4c7b3, 0x66eed88c86de3f9a839b0bce4631b48145b1199bfe4478158e68267d7e193d9711b30a70a490d3077181d0389a742ec⟩),
  (true, ⟨0xe2652b3dfa887c0265b3a3f7ab26ffe85ecb6d182816b931d01a2ab40fd1e6dc6c25f3cb15da3a60a529ef03987272c, 0xaa9cac6e23a7ba0c033ad585a41aa6d236497d259c0a5629611544c325e0f585dec437e7450efee2fc8fc432ae0dc85⟩),
  (false, ⟨0x8dea2203ed69ec4f5d1d97e78f446fa996b9bd1bb456493f012d6bb944492bdbac65db4d6813fa419011c099e3999c3, 0x14ace47c282268a815b1749af9a63bf4567e2e761427a4ea99a500fb2c15b754bebe5eaa683e1b54becbea6486bee6ec⟩),
  (false, ⟨0xa67f6d2f4e658588c7d08312de75c8715e6551f92cc42b010696983f11f09101ff90620c5ad537a84d7e92d878302a8, 0x3c7017c48e3821e083e2286371f611b443622c70298f8edc4be5897477c1d26878e384df699977ab62a119629ab94c1⟩),
  (true, ⟨0x9de5f09ba2e2b30bde0dec73a428fd26c78de007b40c04e22ca3546ba8c3ca2051c5df3449e032c2d71c78236f0603d, 0x10a3a4cb1aade3108fd9f1679724e07a97723b08f646d6823c2da1f9ab6ec407e144f35d681ff46f0d53c20f77eb21ae⟩),
  (false, ⟨0x5b1297c3440a95b61f0c5645350b2cb44ad14d914d77d2a0258cf3ed9958daf3435f109d240435ff669ff9fe81b29cd, 0x123d1d38d04a50638b4bb0395bdf279b1dbaaabe50e552d4ea2e7ddf54f38263f1ba804685d32cfea5d1b8e4a7132352⟩),
  (false, ⟨0x11d57fd040f3152218b5cd28230c61f7f35253028c7e6254f67c070cf33a50af95b754ca09064f58ae2c6a86d715efc9, 0x12695d89a6bf11851debd328f95c3b26d5e558272d7ac363217f556b9dfc138981bdb4497a37ceaedc12d5e94946c8b8⟩),
  (false, ⟨0x14356ea47bff2917dd00ca5f208ad328454e6996bedcab40f2e3c04c4b22e95e4e688c505a12c6291f49ff2f096b5ff8, 0x2cfde88e1794d95ccdc2a7bf8a24627fdf95bc11b808220388731c1bfb7d76a113fc9920361eb9c935fbb9aca03abe5⟩),
  (true, ⟨0x151f7b3b103abd5f7ed807e8f2119f5d8beda00d5d31c504eda64ec96a2a31f7cecde396ea755ffd23fce2a006974fe7, 0x186f8656f142264ee25b39091ef0a689f5d11064617c6cb4901ff9d0d6dc95955352c847c71a8e634087506022409002⟩),
  (false, ⟨0x9d298ee855a6f89f92582b081d7346123a0ebea6dccd84babe4c63bd16d9731345157931bd43aaa2873c508e8f0bccb, 0x40e89e222320629c2525414150388fdef249f3a0f683083a2ea8f74c779affbb443ec3dab97bb6aa0d7c1ce06ff2b27⟩),
  (false, ⟨0x17da64953296515f62d680280b14783deec2de862816bb0fc07aece60afb12770a73e228dd2bc38fff63b72d01bd2cec, 0x5c149e6d5465aa41550c75d034cad4e7096c981a93ca2690cdfab38a6d18148282a7bc1a144b8c56b2b1ac0620ab884⟩),
  (false, ⟨0x63aa1a2850f568cb5543add0b43f7c3b3aaa4e1b4a218e91baaee26d5b386c0ac09d22b8f1d3b3b557eaa20ea350416, 0xea19ff53be2ce34d46c2729be72b999c47824774f4994532c30d2185f372848b6a16114c78b0d8aebe9fb1d6a702064⟩),
  (false, ⟨0x7bb9b69c7866c289794511d961381136cafbbc1e1b0387475c97b154e5d06edac30114c94b2d3fd9f252d7de0ab5027, 0x49b854519e8f29097e2b9fd74ba403b9783330053e0003cda8cfa90c10665fe8f592bfdcf3b7fe55e3335c15d401dae⟩),
  (false, ⟨0x4e031185c9ef6a68713feb219ef188f84a53c57607c4162619bec16723a89ad7a7347c4916384d67aae414cb76e1678, 0x6070c50379d1e890ce04e8c02da9c2762ae5bdf18a136dbcbaf6454eb1138ad111952ebc51f7967c9cf19e416b99235⟩),
  (true, ⟨0xce2c550c0124f4b54c5ad282f71e673898417abac955058a0caca275bcce53be1c3380e3600c4403f5bf779081ab4bf, 0x168b5b2d15b489b4c9e348b1dcc3a5d3a96ed9255031399acc00d745cc3244fe40a379aaa8b5d32aa2ba65b3e62877f6⟩),
  (false, ⟨0x349744494ffba2edda2d721b00b6d36523071b6afc2cfaa996c81eee6951e26e5dd9d64e1b4046990266847d9abcb0f, 0x109a8c4029e03e7806bb405853468ddc97ec570bfdbc8504b2d4d902c357b091715d039cbe7cbf43ffdd62c5511c92e8⟩),
  (false, ⟨0xe7499efcd438d95b50f7a82e42aa016f29993e15e654385ee25db3ddc00f1b539cd72e8260c7aa35fc1eaea9c99ea8, 0x3aa650a0096368884ca1b7bd92d9225691a84b53c6b913c16fe7d8a54bb6ea1e9c9ad9bb2707a6b522249ccfe279d3e⟩),
  (false, ⟨0x151bbf2d4f4ad86d9d77619628d37d980463bb70677be69309b2819ce028695b535ca99f034ddc3845d2fbb1a479b4d2, 0x148e8be8d44b00b09afc6711065e524f0d4a308a381b75756632ffd07c836d867f611348fa810914b4543c16892ecd26⟩),
  (false, ⟨0x32b1a00fde06e783d841fa9ec964034fc4201750ddb835727b9f7bd1fd0ba369664717873a377be55ce06b3c4b2ed56, 0x2553e5a3a3ba41f1af1c5bf8147dffd534ad1e69416cc59b03cb7fee92681b5a93df2936738c4df324c85a05b48e0e5⟩),
  (true, ⟨0xd62cd5c26a1162f8ac8f4bd9469033a9d24af9ff512a6da29693884a5e7b43280a782d0c382dd53c003b63cd0aa996d, 0xd04df0bf3c00eb74d01a1094bc72b2b7e3ae973704fc8e1fd3639fe052eca8a6c3eac8dd5a718835c884b1e61addacf⟩),
  (false, ⟨0x658018b1dd8d7f8a6b7ecca9276cbac25d457b154c2d4d82f168afb173079df9e2be3c7bd26a858e27e0366f440f312, 0xd5db78fe5900e9da0737c75e50056117bd9cff7b4025ca92d91fc4e712e2fc0cae60d9cc24372434c02371e6a778ba8⟩),
  (true, ⟨0x19d329f047ce34387032bbdbb1cd1f87e1312c6fc04cf0fc749de9a3cb5befd62380cd83000686a746419d1792f00aaa, 0x731efa5b90f01f7de966a359b11cce7a011473e5e0f1f71763f8b447ab7a3ac84144bff9574a3bf64792f948ada9d35⟩),
  (false, ⟨0xee88c70c258e44f59e2a1aba871f0bb9fb07895a2cbee84cc3687ccb8d195b234d336be330fa21953e017c5adf154a8, 0xa534af9e234fd5c3babb695ae1ad8954f1b703e06175760c063f2147ec4ac45e6dce25f969da0c018d5d8337b5ca8d9⟩),
  (true, ⟨0xb363f4044ff7432128a88ec8c08f49fe4b2f7e403aee43aa5756c32bf2e394ad5058f149183d619f302a074a2f10532, 0x19922777d9123833ad035e326f749954daed3a896ce6ae465c5e50168256af2a23eee2cc8dff72c13e5077a8c3dc843a⟩),
  (false, ⟨0x1056c848e87f808ca52c156d00f3a2ed0b9fbaa6e24adf74c32a2fd38d4d5cd611a7aecd0f63afdc0010194b262de42b, 0x1e4851fe4d81da743cc748981da2311666906e5c1b3f90f50011d4f150240becac20b5977d32c887e5b533e544d091c⟩),
  (false, ⟨0xac40533ba6b7c5ec588dc3a985cf2693b38c724c7a74472e40b9d4d8d9d27dd1ec1ba368e0c8e451680cef93bcfa6b1, 0x18c187a5dec3840a4291bad41f125f30b90593fe8e9268df09f230ebc7c63be78a051f91006615a3324f018aaee8d5d8⟩),
  (true, ⟨0xd721c3dfa26ea3be66cbf3b9edaa3491c56d6e0199ee623b6bd7bd412565cfa3f6a0eff2373ee04c3e6345ab56bf2ac, 0x27e7e628461a9e7e80c1d179db5e96d554019f28632668b60abd035c2b76015d632bb03efe7fe625000b9ab91e8525f⟩),
  (false, ⟨0x18bb2eb62f697b7bfe65a0f217eccb19dc963eb7bbc3541babaf844b8f59f402c2390ce229c8d85af43f6fc3866e071a, 0x148577edf66dfa8132912a6746876548e38df2432a7f8d7e5e567a8449ffadf4ef42bdfc51d7912c2faba22f9cf1448f⟩),
  (true, ⟨0x139ea01a730f56750f263fc44d9a9a397798bf6a8b7a6c0475c0396707339433302f1c39bb5caea99624472a8ecedcb, 0xad61957a3355ffec9f3e54edc491c882735b38084559160b92d6a652e29da7f96b042886e6b71f5a031d92b8b2e15ac⟩),
  (false, ⟨0x2455767589de4feb8594aead30135de20ad61aeeacc301e3e4b9fc45132d61ef3b1972173291cc0bbc84db9bea8f61d, 0x1373ec7c2df618fe2dea9c054f67093e326b140ca04cb17dbb51545a9a01c4394f98179d86e51bb1ad106a2021eb2d7b⟩),
  (false, ⟨0xb747c070e3664cfa7751917f9ed7601c436f3b7baea37bc5b6f598acc2883c0edb6fd647425c3b30f24a25a36b0b798, 0x12c157bd174a135488fe03203fa0524747df9c8fdd584861f2f5d0abb2fcaae1f494ae11dba55a1620baed4b626fb6b0⟩),
  (false, ⟨0xc482c1f0334e297cdcd1411a5db04d85306a97af1b8f241c3009828d9e7e621a0a554394ef85e123c001c594ea13d58, 0x182df6f9a0af324d8abf7d166500dbb9f4fe76219546c7ae82f2c9f7bb60f8d049b9bdded68118b0ea2bd105743ccce2⟩),
  (true, ⟨0x5279c78e6abdcee6964c78ed4f26ec8c97886692feef384846f66eddc6dd5c4ddeba3ee0058ecd5ff1f253db66a0e88, 0x1473747584c487ce384d4f5053201c2b9c5bb53a46e4c11a8561c372969e7fb08c3a0e072c5374323b62906082e0d704⟩),
  (false, ⟨0x17353fc3dc02e1ce6a9e0b1b27f793a8151ad14cd7f24f19f6b0803d96475811ebd907f742b6d57b263f1cfae0156bda, 0x15e7249d386da64661426bf53fd1cf0f3131cc78d2c9a067240cf4d26832ccf730273e687a05695c61454ed40e586a40⟩),
  (false, ⟨0x137debebac92c7f907793a4962d9ca6dcdeb2c7cd80a9596e4b736d137421386881ce4deda333e903b9ba9521a49fa11, 0x796384817151daf7a26e2152197e8cdd1a90737d3e335f3696f2923b9d7fcc4fddc51b39d183244631e882783cee352⟩),
  (false, ⟨0x784b9c81337946aff65fc819d5116ab088363510eada53f75218f977cad93b96c6e05109067cfea19730477f8c24632, 0x3bc6124a5b9a54c4adcc81aa7fcb2426796488f107746d7effb6e3af976186e42aa0f8df9c70fcf6c23d48a213175eb⟩),
  (true, ⟨0x72a6c8e07d10184cb1d94b28661df0be721d37c669aa291a6af96b6076190c48ceca9469515dfcf689cf2d8789b51d0, 0x9e7b583f0ea00bf348419e0252569e49b0291787abfca34b3d85159e891af358deddc350d7526c4942d95127de0e547⟩),
  (false, ⟨0x8a2b9fd51237f87c9e6526209c2c895856ab8d5777a8a09c6d5478092b9ab1797918095143d38c18f022d3a775dde6c, 0x121841fec28c04e593ee1b173034ec1205e79fc62f48c4f83027a823fe43e4f40756107196d1c30add4ad816fc45660f⟩),
  (true, ⟨0xe5c36c0a03eb12749cbce033e88a3b2565e4350e4f7b36e40c0f9b457277b6f4b39625adc57298e091880885e484356, 0xd5b15a2277fd73d013ed769ed0ab13d4b39066e61b7ae96dd0e42e23eaee45bab5c85756d4df8cbebcf287bad5b780⟩),
  (false, ⟨0xd634e27e73c49a627cd16913237219a4c958c3db8f953a99eb3a0694a5374ad800374a69615e63776fc5c6f817868a5, 0x17c5f20f9da67d989d83c5a18458b51de34f1e2c22f4bfad4773bbeb5d242d52652084fa941677ec1f20c836eb1f815⟩),
  (true, ⟨0x15721a791782816b3799e75b470e984565b40024cc711d4714da825f7f9f0c4188f6929ea871d40983bb93c7eb4a032c, 0x13d856f89631be48d73af1765e7e0f588103c13a79f3e6d679d9f86dbe57c2433367266b0c1359ebb33a039898df61eb⟩),
  (false, ⟨0xeb3a79d17a38f17bdbbea1bbb96131a28de9534efa5aac495ae7ac170360fc4f1de11c2626850b0e2b3fef412bae5ed, 0x18be06c48be02b888037eeaf2ced0fa5a0df968c9ed5d23a5431b5d4d3bb917c1a67f5b502a56dd9ed30d59f4d0e36f7⟩),
  (false, ⟨0x1553d7f3297fce6c8fecb2ef680721b9de730040ca7ff45e275d4e58ad440cb4a239ec3aec9179769cd47b0e1d72f2d0, 0xecb7f600a3b0ab98461a0816bcf33ada7c50ecf111d829f3ec6779e2357e6ddac7641886bef0ce3c03e12477e316eef⟩),
  (true, ⟨0x12c63c212fb9711a66554f8a80eb980d9c72e21548e4ae6d0a70c1347b32d5fa690c46924cf1c1c9aa323b89fccebc7b, 0x1536fd456fdf1f15574af0414c155887a985ee3314b033da5e2edc167272176f1f5232495298304c27821bad63ff3c00⟩),
  (false, ⟨0x251718f3f7528de35208f62d0db9aeda3663d1ffc379cc188d3a3173f4f79f869005e4d546f8b3e0930a8f6829dc7e7, 0xf33952e0b821e2a13ae5c3a337de528a10992e0fdccdc8e828f73ce4d62c9e229265d07d40466d3c02dc6aefddcdab5⟩),
  (true, ⟨0xcb1f194b809e2a48b63ed15f0ea7620652e6af4a9219dfa9240dda734688a3ff072b37b095f7fa91b29d5aea2fabe71, 0x2ccc053d8d7740fc91261e9452d4b3cc33936c7ba81b2d58aeeedaa5de25b03802878b30b52e10d7f7bef539b882b31⟩),
  (false, ⟨0x621fe6a338162d62d335a7fc26ee7f9527dac6d936b1a7a0367234bc51804e171e006c551e550648b7b0bf9bac8081e, 0x8bded3fb0088d5117a845a182c07d5fabb285a5796df880204d61734f5621c558d2de5766b5e96a48534c57b4529453⟩),
  (true, ⟨0x156401f802ff83e9f837831246a9b5eacc9518f7ffa63df4614a28930e4a7bf9011515d24694846c0a504eadf700ce53, 0x158e667c287d12d65e147215c224cdcd904048a89d02f7c5654f03e854d0fd8fe87a6995f325708c23f63e772b083d1b⟩),
  (false, ⟨0x41a82722a6e4b428e33813b04789a18ed3d0ffeade8ddf95294397b24d66e98ba00bbf013c269c59ffb656b1ceab56, 0x8f6e232783875fc0fbc2e94f6c13965d1e5493227bc9d113fd155fb659d962f55564b6b7009af23519bca6501ab0cf8⟩),
  (false, ⟨0x7563dcda236ce2396c3fd32ca92b3d2378783c01b55ca3d8535767a1a5b188369f299fb80557823b8f6b2cc39683652, 0x6ddd40bf16660acc401f3d9b551fbea67f38d130b0c47eb6df231e6fdf658c6525a07689b92f2f9091c664ce611628b⟩),
  (true, ⟨0x26fb9050476949b40473041e468823b249a032032d807692d99e3eed59bf02e6963ea0e4277c764f072467d48ff668a, 0x68f2aada02b3c4bfa1bc3221d8211ec75a69b770339dcd4efbaa5b53387a708b7fa225c60db9cbb5441f47782fe6a29⟩),
  (false, ⟨0x110559f45e1ee33872fc16718b5739a2640d36e9303abe723d16b65147b75567de0410609b6870a776075da323c5b8e8, 0x160897f723f3b7a117ac91c45d5233c9a82771e537c8dde839767aae025c12ff2eb128328e3e97024080a27866cb18f2⟩),
  (false, ⟨0xaad57da30000e78b6ba077f42cd25e57c6d3d94c5326ae332c23c5ae8ed953d26dce4c2b8a02b8dde6a8853d6395b7, 0x14f65608a475bf11f52f764cbb0a029a1b6e806bf240d564357f5ece02550394724ee15a624110cf8618747b2b9414c⟩),
  (true, ⟨0x645152dbebef66ce2ad9fbcd68ec5ac56613cc4e1de01c59851d4344984a515eb6bbfb813c84cf3502798d7844e5e56, 0x5a32998e40ac9fd52ba0634c0a56efd5afe8c25ad8614d78d0a0cd8c3fbfbdaa2896760010bb2c89eecfe34d626c6df⟩),
  (false, ⟨0xbbe3536bab91dbeafbe797ff13cc5c26265035628d262d5f69d764d51363f280b41058aaed1bc833f25ea42b3e6fd21, 0x169f026db60fdb0714e2a1f1278d4080054f3aa6561723f3b833f6e580e95ac0f8e049c47c533eee4430f649abb0b3d1⟩),
  (false, ⟨0x176d37ef6793680bffd2f88b0a30c6ec748f5ad3c6c7157347d95a537d1408519e88bf5adf30f8d64533f661dbd80173, 0x93364d36aa17b8a81409226c03cefc615b6001cb626cbcebe6fdfbeac491643af97a67538a1e1196e4c252bb3711b04⟩),
  (false, ⟨0x12455ac40dcee99ceecfc17a2bb59826de7b40ac14a280a917c07716891148135f651b9f32f00a8a153f1d6884c0d1ae, 0x114fd1760ec38076c00fc753f6b3895e444582ce21c7227699da11cb6189acfd5ba5f85f5bf0948748a7aee066a1ac11⟩),
  (false, ⟨0x19c51e4cae822d3286e9fd5a47f02240e801b3e9110e7553371abc166ba16599a9a1b3d0f1ad8aa3a07c23bdf6b881b3, 0x14b98607c133db891b305f21e84830cbceed891232152ed2ba819a163fc9d5a9cfafe107a4d07ba32a5c0db6c39e96d4⟩),
  (true, ⟨0x8ffe6b6c5fdc5ecc4422b00877930b5ad1660d309f802e8a6b2650c2ee06e6f3741b439d73bae6826d1a94d8e7c4294, 0x11f6e8e66fb6bff8e19ccf6f0846f9da1672ac99a99f8013cfe96102da1db136e3d945897345980798d10f261a24ed96⟩),
  (false, ⟨0x19a66647f0dd18538184ba76298e46697a5201fe27e661d039a0b20e8a6733efc5a5e7ae0104089b536590e1b2834093, 0x1856366a56d46a5ae2fc17c059bfff0d488a458ae1d3441b8c10845c15345d5cc4d2100e3795ae71600531747a992d9f⟩),
  (true, ⟨0x133b09acb29cbcbb9dfceb8129cd338a3062ae6b6407c9189f716b60e40d0327f34298d87887621e01e628bc670fdd95, 0xcd08ac19494229d7cd5d02971e5e1d9f56e3b2b1556f4635886c7979b0a1ddd1dba3a4a87712f318fbb5ec6e2207efa⟩),
  (false, ⟨0x4ad0e0932f0ae0caf3971677a06620d93b56472bc07fdda0e5e03c8551d2f734456fac0d97b8d0215dcddc4f4b9cf2c, 0x9c79da29ea0b031f00bc555f5926f1b34e490760a7c3976ced16dffd280983b4a6dcc5f83d3bfbe39a2754faae47cbd⟩),
  (false, ⟨0x13adfa3b58f17ee4bdb4f371bfaa0d42165c6c34c59f68c1aa69d5f876a9c7f417b3da60e9b3cf861bb920bbe999056b, 0x16e21b9502956cff91b510e59b09dcfa77cf36e69bc6a7125377d065d3c1fddbb13c6f2af24b7fba15fe97629e052bbb⟩),
  (true, ⟨0xefa6c5fc3ce5f3a2f5f9e653c28731d8d605d66dbb4850f69f3e089b4aeb2676d28d5806bc385235a23606a023ead47, 0x3f1ce0bb1ade4a3f1967f220231df3c43dce9b81b46e5ffed93a118f30298b5dccb92a4af9b75596b629b6310a97b7⟩),
  (false, ⟨0x19d49be289b054ce40f7d1fe55cea5a47a3d25d07a4d131e20095f9214163d770fa104c4cc0ea3b0c8747d405495bf61, 0x17a471d42d54fcc622ab4ccf1fe6ffb652f22a422033f0f088dee247f16b1bcb6384448ce27151b4d766b44a0ec06997⟩),
  (true, ⟨0x6c9e55b592e5d91372a77255cb55447a502f9fbad585d8e4fca04bc281422db975a128234b336bd3cc8ab449b42123b, 0xc57ef733537d387af5119a926cce77dd9b5ecbd15017666b98f34c8ef50afc081cd34edfebc6199241011ab7bb5889⟩),
  (false, ⟨0x19e44e81777731534ef4a2670244980d2e7faac4cc4618ff8b1a381fa7134cdc45f16d22b034df8ef9a705f3da17fd45, 0x8813782ceab2f99a2c44ec9bffee2596fb44e40e3faf6ce7aac5f9e673c8f0cc80e6bded88d775498e233b4a2dfdd73⟩),
  (false, ⟨0x13b2b11d51249fd4fe675a8f0113614254b9bd07996a38056c6a399429ee5712b599a614639007e45128662ae4b1b034, 0x43854e24617e35c400f377178388da21354cab88282c066a0935f7b31dbecb7ae155cd20262fcb5b22217930fce215c⟩),
  (true, ⟨0x520019c7a3fe02796decc525d39426fa12e5c912519109eab8a0d36a9addd4e14f3e5b385c540ca33cd4f4f5bf14d76, 0x36b067af70aef8329c7e1eb245f34039d2b31ef740072a79b90fd90efd0bec7b73fe54283d72216d1f6f8e3826bb710⟩),
  (false, ⟨0xb44960101f993cafd6040474116a47b1e059e60e3e6f96c8adc290c50df86e0df8433d02fe3e512ec0ccf63f048783d, 0x24d1340c148e165a667983307a4fd6d3e3004659013a66ae4c167fe6afc283ae17cf3297ba562f74f3ac8545cf6e007⟩),
  (true, ⟨0x1192a3bcad3794048392bb69a77ab65eb5a14d4cae70b1f59c56a2c81801cf316b8d802d11c8967b56623d2f742ce1d3, 0x30432d0b2ebd60306bffaa1bca0c1365ca5884ea3fedba7507b8a6c9346b3b2bd6825c47f2d048bfb53be9d45c9f282⟩),
  (false, ⟨0x12f366103cc7f7372a5a8e534bc5cb99bb882e0f9e7eefd6288334e52285cc7a8cf70b06ae1ab91cec24cb1d2f7cb217, 0xf1584cc6d99f594315f857b5a0cb8947abc61f56505722dae97447853edd0b705301555f4d83f30472a66cb6f35ddd4⟩),
  (true, ⟨0x18b72118a2c86e7aeb04146ac0ee578504828b6be2df69d409415d7ddd556e1a587948698b655cbbaaa52a6a4d7ab97d, 0x80a1c70d437bb488e2048b5952c930c841879997b42d3e30c2bdc131b9c674540945451a4074abf291550a25401f70⟩),
  (false, ⟨0x1148293a8ed2650de7fa5b990d4670abadb916dcbbbc4d001adceb30b1cfec88585c2250cc4473bf97c01a6540894c6a, 0x69649f0f46dd3fbd3ec7794a1bb128434c5fe5baefd15d50136b26868f7b7bd41bfbccbbfa2df5c31f09d30f5b486cf⟩),
  (true, ⟨0x2c5968e7efeb1d49960682a5ba8aa5c43c8f6da962f172e6e72d64e5865e422905e0062e7639bb33b0eb90e73952760, 0x6bac43491dc8ac469c2fada6cff05c5d8cb21f4b4e8498dcab3687fbac4602e1403c82fe7509bdc3ff6b60596f23ecc⟩),
  (false, ⟨0x7f8697cd75fc972fca2b907f6f9f60671efe3f2a9d5c3b8c69981c42e71253876b111d5a5d6cbd2292d48ded6751c9f, 0xabbad0c8d3bb6e69b13393f76ab25a7ef1f8c9465f2d249d54e2649f2249ddaf7c0fb93c137e349ddca938a88022ff0⟩),
  (false, ⟨0xd3c13a4ded8b277b6845249225b50a1b40a5acb276f1865f67202605a564bf517d6897af89d1a9c10d464592e6e5b0e, 0x2480121943d27a74485f2826112048bee8c052c49b0bd0ec8e6e02339a599b449a5838c211b8451940c9b518b2b3408⟩),
  (false, ⟨0x1267462fe270bc1870ec6440cafd51d0ea2b4617b5143729a6d5aee2617bcb61b546f908583b74011c71febf70ddb575, 0x12b3d446e7de09c839158a925e79dc831260e61600a904c9c2206ad41474a788a830da4aeddd6be2e472012b0fe50385⟩),
  (false, ⟨0x191f70c9fe4367eb8712b09d2b84f303d0495a86a26d2e8b5f6b6830c684e19006bbca0de355fb778da554d05a7163d8, 0x33da154e99e46619a294948aa995b567f03993482e11d28b1764087fae0115a021575f4d856b0bd1425696c9480e47f⟩),
  (true, ⟨0x36429a605a0443e51963a8f74d3e4432725ce0a9c9912b79e0a6dbce27f30cb0d15f4acfb554139d33c2f3cdc0dd807, 0x3736266bb89cb86b5cc466816cf4d71d0c7011bcb43ba5ea2b813dfeb24d158b2cc4c4c269eadd99bb7d6916fe33b09⟩),
  (false, ⟨0x1261c0df00c02ad0637212c35de4e81f388dbebb8c4732570dbe26b5ec66631f89c8b3e63960a3aacce235f63da83dda, 0x16a201f82b2d87c34a8e75d8c06321e8e739556a6d4eccc7505469bb8c3fe642ce46b7feacd940f968cecb69cd2a973f⟩),
  (true, ⟨0x821542a3725ef75fe05f7cfe2633a5983c8bf5907b6840cc5e1f3d43e60ae879e82735982dda05344eef946cefde58e, 0x7acd13a4350e186a0bb2bfb0ea314ea607018a94ef5d6a9259ffe42f2d506269cd043faa824335e743b82c557248918⟩),
  (false, ⟨0x48d53789779afa677de5858f19974308e72cf3f905e240b6e80c30927647dd25feaf0d42d7fe04509c6787f2cbe4b32, 0x17b9bfb510fa02de3f60be7c4488547476e569ad0802b82213b0e30d90c8e51aa8f7ccc298de211965c444185a5163f2⟩),
  (true, ⟨0x931195320d871743f3ca72c6103e25f4c19b3557f3594b29e7cfe8da5974c7f704736d23cda6ef7ac6072401e0131a3, 0xf11573f900f6b3817b15c81736cc9ac60da3011d098de2b01f48889c5fd8e09c06c374ae527fedcf549460738127c76⟩),
  (false, ⟨0x12af07a78bfb9e481a73f5f64be1ceac3df5aab022b847e5878da8ed9c78f31b3963a1f0722d449aaee649ca2e398e15, 0xb21113ad9e74f6fa22c7cda1ce6158591deb0ac67e3f76f47788af56201c01ffc7ae1fb9e45b4bd61ce80c42aeb60f3⟩),
  (true, ⟨0x977a793b1c672e48119a6eb0068c678f7efc83bec0af632bceb0a4ac79f0c6625565cbb0380af04ea4ec70afd020c4, 0x9b30bb6b5aaaf068efccfa53d7f0f227f211f962c8ab2bd5835c641006f32f4aa706db891309084b1a430a437b4f833⟩),
  (false, ⟨0x16d6d0297701c55ef7fcf709fd99f73987a6e98e28b18a363876c5bca2c20d59cc2f91c65540a557c8ba13386871f8a4, 0xf67a603f7c3cf874f83487741a7bbed61aa823a0c374ecae35a6b8648f2e031535ba7e7c6bc64d871fcfe5e00f0573f⟩),
  (true, ⟨0x267217b0e58ef9c1fec08ceb673fb60586b4e971e487086152b82edd04f5ed8b6d2abc8c4446a6ca631e178007a8b44, 0x11932ead2c82eb9c1b9336fc970f53feedf8cbd05a5ab5fb2b20d3a15245ffd9f8370773971af9c389e90215d27c7cab⟩),
  (false, ⟨0x174baf9752bdd7df64441717b6d0d8f63ddc2d6423c526e543680289d3ddd13d2225bbf5dc7233ce98965379f2ce3a5a, 0x5237ab3758d7ee7faf48c05f0c7b188108d7e381bf6ef377924c49feb0fe90325aed86f0f0e28ca7a11edbed8ae440f⟩),
  (false, ⟨0xb137278d666c6e7265376f019574f1f0a8178d52be20664513f0d27a649bd68eadb24967124016457b1e9620f2ac30d, 0x5885826e219f42c7fe0c03222f05adf30797bee80db20008bcbd91f94a985d70d138c8120687be92ff61a03387bdcf3⟩),
  (false, ⟨0x8ab87839efb488337421f5221c49dfe9edc07ad979fee8e40a987271b6cffbbb873266879f456f6a3e6ce0d7a80dde7, 0x7d21d9e65973a2c90dbf0d6289f0e457ed297b4039992cae35efe07d8e3c44acd165c8c142d85fd3cbb19f32bf1f067⟩),
  (true, ⟨0xebbfdc2fe02695a2c6b13f4c031fc70c8d1af1ff46b100081b28757f71fa507fa0f39b67b48a50618a5e85c570bd51e, 0x4251e123940b8529c24ff99d1437bff67faf6a7e9b2ebf39d396e6db4527fd1d61737e7072d0a3871ab1f1fa306fd3e⟩),
  (false, ⟨0xc2133dc68e5322781f76ffa9e5d35c2c003b077683cd017ba2629388abd9be6535f0f44ec40aafe7ab0d8bb94151af3, 0xf3488e6debab8d325e533a167f0d5b0bc0bae2ae72d4885d736f737fdce94ec4b4ed68adc66d00545aaf661e8c961ef⟩),
  (true, ⟨0x8d930246ba65b9fd2d2b33389abebcd68e24bb9805ab4ef14b35da0222e3a2a016a0fb04880418d7e4c31498aca348e, 0x12ecaf5f379893ab8731db8bbe1a422787d52f0a864394c8af17970c90109f53e6c6252601ad38946fe8c05636aa24af⟩),
  (false, ⟨0x1023f6f93747f6d1e61115b00b72a995b678ca0e040a7acce298a807679764c3d9f00cdd02b24cbc928bbb2e68d9f6e8, 0xff29793d5d2e42327e5d4388832ad00978219b6a59a039125210c0054aaad240690d97388fce138921e77baae0d2055⟩),
  (false, ⟨0x4ce085db1c8f2f10f6c9bbb60f90b5a8b070c54e6d45164a7d4bcee3c2505d51ef22d6d3a41aa4df969947ca18ad3f6, 0xec1c9b1761b960686567620cf9985c64211078887a5aec375130971f8b43dfef9520bbf7f85e521eff04393e0fb4b86⟩),
  (true, ⟨0xe6faa60b7522311a53af5eb482de293a521520da5a8ef8863575432b98f42103de5bafb676803ad99eada34e1c189b9, 0x970b18e55a61bef770741c214af10e757dda9b12fc982c71fcfeec8ad475988dafe802cc4671c7906ca6a3d199abfd0⟩),
  (false, ⟨0x12ad07d1091283b878322e18bc70d66542b9c85030a981a9996018e9c8bf78d619a0740fbf9b40e65bcdc5c46b6b3893, 0xaaba42b4f28f4c0993eaf9ac7d91da64c1e0338579c5b6da2e023ae1e82c0ee23752a83aada07adf6703d56409ae77d⟩),
  (false, ⟨0x64e7a7041856729510feb9bba718c86a1062c44f236e062fa7a73b66419de2955801b33b6f5055556c7d55579bf7aea, 0x1032fc093d5ccfa125bf191318d0161cf07426046125f6b0d26028fdb0344347b9bc979f417ddf0bb7519f95b35b1de3⟩),
  (false, ⟨0x3f8e1fe35c5ef22424f0607aa9693b5602feba6f0832dda58981e1bbecb527986dcae57578154ac78113f7da9fa290e, 0x3c95cbd52a091308bc7bcef04337313b5b24a3438271e65e2da3f6cf1008fc94afb6f4c4cfcb3174c51ed20bb02530e⟩),
  (true, ⟨0x9f9d5175b155257f7de1565937c2402caef26c41f4308cd313602e3dfaff265b661512ea7a7c2df535b30163760724a, 0xfdad589375e21569bc93cc27faba55ca4ff8735654c17fae03b57c5e93f440140e1626d646cae6702cb676408405c7d⟩),
  (false, ⟨0xa33e78f9cc8874de6f1fe4963b32dc846d9c121fb8628342e379def18d4378774117845e7a267e22b7360d63e53ce93, 0xeb8df0fa293cc1302650c09b78255f4ab54a8e85a3b2d8861ed5be158ef3f45e701fc8e7468aea3fb65b6b1ec6b5bc0⟩),
  (false, ⟨0xcdadd7901bf032d361288d73c0dd7008ecb760682b506e73cbc9cad420c731d600386a9b72289bb75f8ac691b41b3b, 0x18d02bf0daf7b95f1e88961223c79ac5ce92753b150716e89abaa6d1fb53921b6a45d24146c56818bfc9b75d5e965118⟩),
  (true, ⟨0x18f0eeed2e3ddc5aa57fc63b277d94165ec4fc34ed2739b6021554c47b010a1e708e8aeefe7f592acb381e0364c56377, 0x1816d6e471f27542337213ae5126b2313e4babc873608d6906077f9fae6fbf3a5d446ff8c37f15d945987373523f6ba8⟩),
  (false, ⟨0x7022f748705c061b304a2d397f6e25645c1bf2206fc7caac42327ab15c0e96b453ff226dbffeeaa0cdab87f468c976d, 0x45f77ddeb1c98eee76f3849ebef461cc2ab9316c55e13f183958db99bf9a30a8473cb8a6569321f1de1049ff1393482⟩),
  (false, ⟨0x4ec95227e2e318f0626a29c6b4c3cbb8c346868ee806f80c6c444032ad504c331178050417b0f17a8f51d037d485744, 0x174998d58ab757ee29ad1aa339654081d505092a5521a7b61ac515299fd57e696ad1304a7305d6460cf5d09cc21d31a9⟩),
  (false, ⟨0x83fd88b03a89a693bd2eb39dab250d01f3bd3cc92582c9804ad39236f13e40df9c2f3ff76c254c03e2a580909e1d177, 0xe2cac0eca85d894be7be36b3c7c1c37f14f4d8af3ea74f2d6a7d9de2f3d7cbf96bdf002909c89c113707c687a9ca78b⟩),
  (false, ⟨0x19b80eec069d6651e9b5fe48d91e727774d408edfe392cf490fcb8f3c793f8df5ba2fa5b8241da2963c449814daf81c9, 0xe4641b3ac463981754d9c004be34660af86c0e953e772fbc05e881e406b0e0888f0354dd9a9383193f440987c93adfd⟩),
  (true, ⟨0x2d3f22f6a3b6770f324f5a49c23e62b3ebd53c3a94aca7a980f69f95a5139b9e6061ce16dfde253f2835be8eee51442, 0x1396a5cda4938237be78d99e018d5dc7964148c4779aa78670ae21cfe9481e9155d6fd7b1fae8c684c35a204b58dafcb⟩),
  (false, ⟨0x14092c792d7a0ba7652a6c8422328c58d9003752a4d16e0d011a904c070ab5562c4bbc95e5967065463ce21c38fa8778, 0x183d03137a9c9236b916458b2214135948842a42c35b9e8e099a4d4e3240d3c0e27a5a037ad88689ac52978ae43df7b1⟩),
  (false, ⟨0x20fbe40e1afd80e31650a4e75bd967b36e870137b27ef85b9448ae8c51ca956223c9b7909ab22273274c296da2514db, 0x2baa4f740ea15727892095e53667135729924bc5ce91c85ebee2a7bbfdff8549064b27f30443ef9545b2870cdbd63c⟩),
  (true, ⟨0x1494a6f6e0db595682ac6806b1c39b525a0ee07da03efb9da1f14a118a5a7735f00981f723e16518f337ea713af6d2b9, 0x189e984c5eb90a47e1b3739dbb9e2f7d07ccfc469fad427b526d1477133f431d45ffa45d519a1671d225721a3be1aebd⟩),
  (false, ⟨0x5a74197313cd9a1352ce4e014d6e802c249022806b45252554bbf8f135d99b7ee3b82550076b81cc993da5362cb1d8a, 0x180191fda123fa9d56f25617c45f0ba04ae39a888165ae93e28f3f14add75d1c03511d493f555b54839d4bbafb1da097⟩),
  (true, ⟨0x13753a8459594ebf4ca0deaefaad60aba58fa3d84ad161971906e6962e8b86598caa6944d191972ce46224c7294ca179, 0xabe389a56542233f72fd852df62333fcbcac2ebcba0e0232a98fb68f6ae2d26322ddb8ecad6c4c5c1b67cf6b197e212⟩),
  (false, ⟨0xb76dd224bf727d9eaba2a6fed39c0d2cc733945f21e3641c87c5829a627f58b9c8ebd545cb8bef02254b5e2889ef13f, 0x7452cdadf525cd6efa2572b7690406b700a2cbcd7408d8dcfa1d9010d84f3b45b4fbb85805ec692c1726fad2096fe72⟩),
  (true, ⟨0xdeb3b8b02a435bc99e071aeccc6476c9bb30fd8bac7bf60eaead349172780432a2ef443154141f4caf55569e611e329, 0x107e3d3eb1d5c9810f7b7ee1cb3c85fea1d513a6ae8586417362b98409f9b6f89ba484324ef6d93d79459428cce8589d⟩),
  (false, ⟨0x324fd0a5d8162632deb0c68331dfebefe646bf95facfe3d3dbd1cffc7eefdc2d40878a88a119d2f03b4f525eb7c3ced, 0x6b79e680aec7d1143a3cc4d9a2682ff87e22aaca91ab474b1612411e4b042df68ad6e5f426683c32a399c8b7491862c⟩),
  (false, ⟨0x15668e95d4a3ce97f07225dd96a649c86be940cdeb206d05473f00c2b0c11733ea45a6d5ad13c371da9598122ee50cfc, 0x123ddeb88ae7db4654baaca849c627a6857c04da4f8ce729f10b93b876c1f0b886bb4271332b9ab8f605b1f708e47499⟩),
  (true, ⟨0x1093c7f91b64419d907e5554c1d305394e9fa812a6dc4697425426316299b4534f42fd3c4533de9a29a93efd3e853b93, 0x4262e156a8c332ac290857bcad4bc217dac35f8af526b1318c79ee250cab4b6abe301e90739978ae1e78255c3a35f67⟩),
  (false, ⟨0xca47a6a8868aee6bd61d38623acda75acdb49e4ca6d6ed6b1f41a249b6f9f0e65dc519c04dcfdd9458fc0bf64a3e170, 0x1914daef60bada7305f1992461f4e06368cca076c10c69c2521abec72f9ee321137f25d0d76279db26e9abea6e93eb36⟩),
  (false, ⟨0x11519b443698d3e69010ecaf24d3b8a627dd2fc532424061c639eecbd1f06f00900617fef51f46860be530c6f7aab1b1, 0x4bfc4025496d256e9b980cdf9254b70a43817c33e809bbacb011eb0ce8043bd00ff63cf8953d53ba6a4f7b9b715ebeb⟩),
  (true, ⟨0x12f4e9cd1db9c222bf79957eb9f360a004767666261967e8a3d34c989c5ab7bfb06b621621d3bee417dc95ae6c22d3a9, 0x132772e9963546f996f530cba06e7ae488be889624730af67330a7f27392982de4956428cc55e95b9611411ef729a0be⟩),
  (false, ⟨0xb0d1f9146c27af40c4496efe06b3d3245a3d06fd122c46456c2327f385845a04786ea65e36a1820a730b55a01f241d7, 0x158e98059c81a0648e9527c2b1c9b02aa16e724f67b6456cd93e04beeefb3d32cc987101bfcb08b8cae0ad5507c8c521⟩),
  (false, ⟨0x8ec9eb6d1abb901ff6c396ee2eb19b44a9b26f2234ec362824249faf942e83446212b7a108d9bf39adcfcedbf55af39, 0x4041ce9151500eb2f2d936f61d30c49643b446a6a2f0a760afe6cd22eca481de04e0b8f74c9a9487a201c7ba6ac047c⟩),
  (false, ⟨0x18c8f8aff3869cab504cb53c8ec9afb7f3967f3b1c9e5c2772146acecd6b440606c38d18b60fe1fcf6e761be55281e6b, 0x11edd7f303775f77918fea54f5e97cc79845c7a49db3f8c6fc3999ddc090ebc6c9bb30086559b07e77939d60a33f1535⟩),
  (false, ⟨0x1466a62abe0e2f6f2b066e19c036599f7f592ff0dc970f9700ebe1207d48d063bf658d20595ec5e2fdd967a26b4a69e8, 0x1898658a04086057760e3676b2cd01dae08a520ea336ea7728375da512c1053c694ec8617c996b6dfca7bf7ff0a1ded2⟩),
  (false, ⟨0xdda6755ee9a7b57d1fcad82cc4141c565e40c143fde7bd314c81f09bd323fa09b2c2c58a7ddfe694db0ac03968721e0, 0x20046646a18c13081c79133533acaf18a7ccd9fe2e7e7a208bd1aaf7919c5bc9731275ea9801db4e9a2cf0a263cd74d⟩),
  (true, ⟨0xd30c099a7f30cedb0cb73f995551cc7397f4e2ef4d5f70ae182e7795fc18171d4997b874fbad79c812c45b608fdbfa3, 0x17e40be4de0c2ff59a56ed2cbdc7b0dc7823a58b9dde55f2a6f893ca84c3ba5521550106657d89a4b46906a4725c0e42⟩),
  (false, ⟨0xe9caf09c9950cd7854ea67476d072e7e254bbf9ecb88dd8ede36849844851c7b019b489fa104003143e5e6c9304fed, 0x53920e8b353cfed7a6e692124380526cc8108cbd0a24bd12f73ed99f9ef309f5380f1b42c4375bad9defb292084eea2⟩),
  (true, ⟨0x7ed56c0446835e6844b65c049cda1b8b626bbe900f6a250d436b5c4c244fc8d8051ec675cdf6cb1425eb28aef8f5519, 0x4e9a338f49322a8b3889f6d27151e984cbb8c4b37140d239f783f93d50df3893ad70f53e9fcb6c7b734a903080dfbb3⟩),
  (false, ⟨0x1240660207b5b5efa5d78855f9f915fc8f8cd6ebfacfdc02711fe25fcdbc624cb54bd379fbca32375816d76477acf43c, 0x174ba6151757bc8ce83bede858b78794db596c118dddaaf406e22b26c11312355669815f5a2c7ac2a7f84c16a62f0149⟩),
  (true, ⟨0x2008a5a5d9d49226dabb85f71a86fbda78da6802ae143b1d6b26049b6478c4a816d5e6374c3bd243c35c81e380b88ec, 0x55b91fb5ab867c78165ba258e6c849aeedcf40738541c5e3291449b78f94b9f7d7f218c9b9c306055d788c2ee2d5cc9⟩),
  (false, ⟨0xb768d18eb1fcdfd83a8d2cf3c8c63b3cd2f280a625de23b6ca298c641b3d3836361ff91d5950cb174f2e4cfc1f00f2b, 0xd26280e3559d4c1fd25f1cf2181df1663f0ddafb7443473e4d3e03992a125bd16fa58eaed57e9cf147d65ffd9bae7d9⟩),
  (false, ⟨0x14e7c7a8af29e12ee68215bcd148edbe0d8f37009f9443124a9a2c084c90ca7b1c0e0efb54407b14b8c3f710fbfdee9a, 0x177ce5b00e4dac048526fcc1b3dfe22b75db16178be004e984279471e060816592f5fd5bdc585a1f73639a10056007b0⟩),
  (true, ⟨0xbb0ca3940f084ff3819c7a2de000629bed13e15ce7090d014ec1bdc9619666c5668d86be8a368e0615a4d440edca1eb, 0x157be79f6e8616b6ee3b88bbd6b51825479c4a270c11198e8a951e239dce4d4cbd5d0428e88b850c1684f91a144f4efb⟩),
  (false, ⟨0x80cd863fb7991b8f0594a2b739d41c7ea4247d42e33d1a3e9020e8fe1e6c5e40ea2b3d16468c16f5e73f8b1579df2d4, 0x18b7f3394dc9bcc244db8084662b5b577a06f25a45c40a2525d07555e89f7549d59a577c868572966464f84c40e05c65⟩),
  (true, ⟨0x7cd3fe3157e343a0709cbca94efb7edaeb26537416b79324db0e28f07d78a45ee771c3d0f7a61de2e4a13b59473f506, 0x22d4d98d83ee81d17af9f6d3fd018c15a045e1b870aeb9fc01ffa120458a0fee469b2e189cfe9c6ae131bbdcc8829df⟩),
  (false, ⟨0x86075a0af5635a424dadc61282df55270209f625da11c920cefa4687a679194ec6f18c4e0cdd4c6ffe978cad854529, 0x133bc7426b2e4959cdc98d1f92469105b6af39bbdb159060df4d74dfcabef87ab31e8e15968a2bf6e5e1959d5b4f4ec1⟩),
  (true, ⟨0xf8e3fe3d312c00f141c078b3eaef25db9a100554f9b8c7fa9fb8fd1569148f84295a44234043a41c56e41ef12b023af, 0xe0644f7dae45f95599f40d7e43dce5b3e2bec93f7ec17ab1862bc5d0b42ae25f948ba37e812126e487995067ce37c08⟩),
  (false, ⟨0x10e24b63099a543998b2ecbf53cf55634892879dde98caeea08ac7a49ab4032b2f6b9afaf08d9faff2172c904783804a, 0xa038c9c1f46e5bf4bcf2faf06f04170aae8f44e216a7a46b106924a4eda460fa2ae551770e9b3eaafe7847b6f54e961⟩),
  (false, ⟨0x6bbf169ff0200802f48d7b859a9c556c378e03c5f8d98d61fe372f077444f05a113fde5de49d0863fccac6a104a4cc6, 0x8a8e98166fb0e6fc323a11e9ee94388a4f32b9e69f4a49f41c431224655c36b205e48979902d5288ded6aefe18f90ad⟩),
  (true, ⟨0x1b776235fc0cb988ebed3d22da1d234d2b90438b3fdc49477d37d21bdac6e84f519c88f2fb586b5683f2128df1656af, 0x6a8cdd27017aee94c1500c742d956dc8ab3ab7f4d0e6ef7afd9a4bc046f1649dfd86bce534f11931a161b1bbeef55fe⟩),
  (false, ⟨0x1968982a51f681af74de665d483ae96f8e1f45d5b12faa517df2017e582bb23e58714bd00428e687515613e730fb61cd, 0x3f4a2ca0f430bbfddc7a9394863140ec80362073368450c8e593968a7667171debec04cb95c4b91669574c27127f767⟩),
  (false, ⟨0x176614d1bf5e3e0dafee6ae1be5221d8873ea1018f2c675df56eb5deaadb3158846170d52da91195de157012767a910b, 0x11ea4493c1235bb814130a6fad87078aa184ebe4c62393e574f401c9d55e686af80a7831bed55cdabc6ba846aa337d6f⟩),
  (false, ⟨0x14062a1a9935f323f915dab5100269638577507dbe0b06b295d64e9ae66ebb757d59fe2060b2b3a0da70098aa859133e, 0x37d474c71568e566e0095c6824cb10cce641686ab1d69baeaf08f2ae124345d545b40c7ef97f096a99d45ce67c803a9⟩),
  (false, ⟨0x896e9eaa4c84f293d51ba20ccaf769a2ede9e7fa23bb9f54e626ad7383e2496b66640d93b8a1143306cd772e0367964, 0x12189d60e77011b606d105bf991bd782346ab49abf164d25ed230dd76f765ebd6dbb8602bb8f8093c0db224da1d8f56d⟩),
  (false, ⟨0x99b9d2f6c3c2c2c238d3e0f8047f9f06fd3aa1956645f9dc371d3b0245f8fe21b8fe5d61d1480e287f117aff98de02f, 0x126767e54eb13c074b43f92dfcc17cd50d93e42633ba44e17f57ddfd1d71ef5fd1900495e840e1f35a338aed78e9d663⟩),
  (false, ⟨0x77d1b46eace2a9ffc9b42e5f7fd602b185d06bbcafda3df4ec4ab7ac8a2eedc0a349f182298bd0cd38e8f43bf907cee, 0x70a20f05a5f98eceb17aa96d6637077d87558752e69aae2ce61ac4e4e2f619d10784b884df4ababe310db8724b1353⟩),
  (false, ⟨0x13b26004b3f32b19b5b64e269ed8161c3d74c98d120e8cf00052b775c15c6544014dbf9236a0cb1dd71ef93dd332522d, 0x372d0a183959e10f785042923410943fa4bc32fd76e3b7e07fd1cd236f397bdb1ad6040c1820e5c6a2234ee3d9852ab⟩),
  (false, ⟨0x13e2defa7dec72922a343a90f1b92cd9e180a700302459fcf964785a4408f6a19189dac132494f7ec9a79f0a9ba5edd7, 0x144f016c088c1980ea396a31db3e7eb007a2aca7e1530d67f3fb677d68c8f90ba78de0d6e354f29c7853fbd31a8eeb35⟩),
  (true, ⟨0x63e2a19ec8523cd1ea82cec868e3164e9c4f1d5df9e683b87525f8e08c6784f4df624ea4883e284e6d7fbec1607b7a2, 0x58d8b4b4e31ffebd7efd8485f9f9c0c64c42a9b137f86d32093656feeb8add8f7b8744d4938d6aa169a75d89667a2e1⟩),
  (false, ⟨0x580e57c37f6cda8caeec2c6bb9488cce44a2fc6137530bc63eac0da0335ff97d1382abc3dbceab93dc58a6a33fa0891, 0x150e3be6e014ae597a1963af2b0030b8501778d53c6e757edf6a75efd14ba16cb72f4af9601dbc69d0d50afed9f9bb77⟩),
  (false, ⟨0x867ecda657d3379200ac387d539be720e971b5254715109579808acf942e51f031a2c7fb223ff878f4cb93a0de8771, 0xe842ffbbfa4882979f7573bad67f011a460bc93db4770b6d465e22685e05a8fdb450637e797d37fec8461d02d2743bd⟩),
  (false, ⟨0xc38816d0098d7d3bc9c5621b6f7da90bf1bdf7cde9a9c1d86a03ce2ac596d621dda33a4b8a6ba13bc49c94101b00b58, 0x4f492b3e93ffdd748c741365fe0815d5e4a5e0d63ed6cd7cf5da4aac39a99b46058664fc4fcab5e96f8bc889d8b6bac⟩),
  (false, ⟨0x14c030e0c71fda6f80c2fa8ebcaae0b942b11b97ae9dfc3cb0b6c0116fae538fdd399c04ff7bc6ecc73f54d5c7452c21, 0xbf6485363054b7b1923bbe514127760558254513281eaa30b973ceb0bfb3ffb2b3ed617ec9b6334630cb1915b65386d⟩),
  (true, ⟨0x3534b343fea2044040f7f8ea9924d1ebdc639a73a42cb92deb521df4b031518b3c70dcef20a6637811ffce7e0c87866, 0x4a7d77fe56be582859acc0936d085d8eb31cce374188a27027be39440b76d9e541b22af9d2e8fc4920f95e766073f9c⟩),
  (false, ⟨0x523b5afe8ca8b044e08d15c5919093b3c8010ad39e66bbfba8fd3146a286160e1084f7821afc272c28deb0fce717837, 0x9f4217e028dc6601fc1fd34e684fa69b0fcb687a079ba7a6db0c1ec575922e5bd3d8e4cf5eef3a7125475028b4a5888⟩),
  (false, ⟨0xc1e7ca7308ec06372d94c641accd6b5e8953b1d023ad39a11cc19706054457a33b78e21069d8cb8f06c0149908cce30, 0x17211316fd418c7a6c78bba30ad5ee6e8500350a2c49ae225a5173536511fb5c4d1c01434e378549d56ee2b784b5dab9⟩),
  (true, ⟨0x15f1a015989ec96657e04aa1ff6d6d5f977eda16566043fdb9d0060d6f22298901b52a1e2e8987f924817c85cbba0160, 0x4ac242989f9d5efbb90149145676c1a907d8493d7976417b1ba93f7afb9b0fda5f719a2d552df28012fe200a454aa3d⟩),
  (false, ⟨0xf6cde212c2b9e58fba3a91964ecec3fdc58db955ea33f1ad2c25f832aee619890b4a1325439cdbf6df5ec35a2ecf52e, 0xffd61778ff47295789fd82a2b676c070df3b9c2ecb2580818a9f100f28a6ec8001ea8924a0b424773914f2e78537515⟩),
  (true, ⟨0x109673dfd6829f8b80fb4bc1ee3cadfc423699108c53e79aad440d74110a0ca1c18278fac720c50c204e3d8622255f99, 0xc8a83d1d16f65d22c5774b3cfc6f665598be3efddde68c3eb4206598435e44b6e6cf1bf526a643840ada064d785c959⟩),
  (false, ⟨0x3847bf4abf050f5cfa261728bfce7343b2845b5c6ef0ddff2f6953d89590b03a34adb3fc6338994603fd1b6c415819, 0xc9b9acb2786164dbbe3f25e0d1dc01dbe8466150daafcd3d857f18d6c513c9d75fb64aa94a008355854a23b208396bd⟩),
  (false, ⟨0x197bd5347933698f46f43be1527670698f85c3c6c63a7792b0b6a9046f76458822091e47cee7405214b2774b115311ca, 0xb10b2bd672aa6f20620ef96977e2c9046d93b1ef7b6f1e6fc6d04d093379a4916f736938009ac044a6cc760c305e42c⟩),
  (true, ⟨0x118442a526a8ad4f09619a8758818dd74f6674a6d2944dfefa8cdc5bc0b225b5e80139ea3dcd513c7f54cf6b26f8330, 0x4c15967ee3f80f048f767440447b8678e46f2636cffa2eeb6f28678dcf653b41c9e243f00ebedf9e471418ff553f1fc⟩),
  (false, ⟨0x133ab13c36d5c778edcd82863277031156de39d411d334e7cff7e02b96db06b1033595010e18dcacd9ca2b119d62612a, 0x17ca14127074c8fa28c5835c905b5bd5225523e87b0a6978a906f9cc4645656da146c8d454ae7599e36efe2784b549a2⟩),
  (true, ⟨0x4aeb8b4352ef245c00033f071f8b52a1030b07fcd21ed8620dec9b6646c7c6ad0a6711be8d031d03d7f6b5732e2ea3c, 0x14369bbb25aa32874b4417462bcd406f9fbf87aa2c271807d07416de67282045b7957940b6127ed1a27b83d6d9a1e4cb⟩),
  (false, ⟨0x120d11b8c78a8451c504a729b6c3cb4d593e39838ba12f08f8b7590b96edb0be6dfcd140782c9ca529a655776ab7af0b, 0x19c186a20c7e3ca9246d8bdd41b9c76fe303baa1d6c58b98f82ee206a926db359a15d2e30c16d093c0f64032862e9ad5⟩),
  (false, ⟨0x39b7916caeea1ce71804a7c450d33f9d79fe7a664aea39c739fbd2dcde3c876e26aca540ce3203fd94db0797d9d80d4, 0xe8aee001c7eb78818db9df96b61dc5a08129964ed496b0396ddcacc4e9fed74e8d015197c8c660d343ff4b223b3ba4d⟩),
  (false, ⟨0x79fd61f8331709585d3456630eb4650aacf275da3e83c61ca2b43c2e3df95ace80173cbe93ea74f4cbb8e0be4a04585, 0x152b8c40249e45b09addda778858163624ecfe51c82f2ba60db0542990c0ddcc540d51d58f9873a1a294a622cb1287b8⟩),
  (false, ⟨0xb7e69784d1e21aed6443e0e7ea4bafaeccba252492d726d09431052db4f004f16d73b3457d36bbf8dcffa88ffedc401, 0x188a3a3d7c8c190d172afe3f3644b5ea4ceebcd4b8d0e5bc55260f169a672540db9f59bfcc2f2a847d0ec9dff5457b46⟩),
  (false, ⟨0xee9d90a1635bc03b2c612d96cdb55d682efb459798a6e7e0e4765d47c69f40fb30d10d793277a389caca127ca2c749, 0x14092706daeb3bfa476a7e992dafcb658441196b71a26626ae3b67b1e32fe8c9006e18984767ae6064724e101c70fc71⟩),
  (true, ⟨0x659210d1362f8caad48908b64530f06869d0cc805ae40fc03d4033f15a613f006a966499391907101e6fa8efd2ceb48, 0x92bd9d721a31cd10b19e4278cb5094fd19431899af5699b07fc9c0bc5a3e520c735149eff73032ea099bded144aa5f6⟩),
  (false, ⟨0x15cfcaa2409ba9e0ac879b846413ff6bd49e29b38b5fb4b6ff65eb5e67f794edda5cccd9948a502444954604a991a01e, 0x11a1a9f6c74c275ebc84f3d6a2a95e23a7b682f16c298ef8f0d6f5abe21679d6487c55275b58a8a70cb4ce8804e5358⟩),
  (true, ⟨0x10d09e2d95fd3108ab55d144ddc10ea702beaa5e2623d161e1b354200fafc6c63412d229ca191a11c6f1cf3a552f1e4b, 0x1209cbd2feb64332f072935deb37cf941701fb1c6d923d1fbdb11cd32b7dc2fcf28a53a006551a4c983eed20dbe24f42⟩),
  (false, ⟨0x574d872d786cf0590980e3a841fa3b599ef310b541ae5ff79a7aae2c24a9e41bc7c66331d93ab18fbe2b222d265c5f3, 0x114fe3c96495de1c907e8246f5829bfd71eb9cc0c9533f7e2a1236cd8db75406f65de2d22f4d7414727f2c2ef822c411⟩),
  (true, ⟨0x157615752c44373246871fcc7df95ce68119626c2e53e968ffbea317ef9af3643e3400388288d0ebf83a2b27f95611d8, 0xfe75cfce369aa68a8b39c4b6fd8e1947505689492a31ee786abeec0cea2861909f411da41a521f7289b8609994f89a5⟩),
  (false, ⟨0x18e5567e2d795efd357576566b631d5cbf1c06af16d873ab5b450d6b84f7f684736a1d9921ae51f318e5eced2e63fc57, 0xcef04a997a64101509f77882be794da7704632efad7e84f4fef4830e5d9710d69cdba3890c57edeadd5a6bf8c4cf9f4⟩),
  (true, ⟨0x16370e66b2b03491f50165f46941efdfbdabdf775cf477036436fdab13de7e431cec02e7ee23eafe771df2c4abd3980d, 0x101723ba9d57b6dbda58e99b69d0d09c08c6b0ffde61ccf439df390806fba55df4c381503e41a242bffdc39fc93fb689⟩),
  (false, ⟨0x78e47e8b86bd8984621896842fbacf74a7e6edd94caf20b2cbebab67d3481d438182ce159d698242e80f04104e3c27b, 0x63518f6476efee4cf9843effeee5264aad0154c20e0370b43138ed295852fe50ccfe80e671d79bac8ad6c7de47f9618⟩),
  (false, ⟨0x16a679a42db74dcafd00e677fb4afee1c612d342f5568cb49d135352f823ca39c1fea129a050fb511845163ee9a43831, 0x1519703fb8db195945573a6a8e8e49a7eb6a4bf51cd0395c0fb2ff56e304f32e72ac695a29f85fc82426175d0d5f632a⟩),
  (true, ⟨0xcb65ef1e1d4c1c921c4e9f5c0f09f5b58cabefe1de5b64b696d2faa0b9e326d76f7e1b09fd28bd198a67f9443317b8f, 0x1122c599bf08f35b5c5e8ee869b585827ed4c8fbf1611ec9e02e18faca6e0e6f5ade9164235a501c185dd2657c86780⟩),
  (false, ⟨0x8adf0faae859c97bd602f99c9382127cb47494ba6275026b66124610413fc1f1456a9c162ad2aadeb9515ad9c863a10, 0x1602e57b91eabbe7972e3d12a1c0f439a29bf27f61a18d3ce3e5d98b30654abe11a3bae01b0cd38f10764e65ef768843⟩),
  (true, ⟨0x1240221c5882110e80953942f0759f128b3c2c8f67823e6d12b603a3306e041e44f7a3e3ad3b52f9eda2558376f9244f, 0x77ef5dfbdd73335a9a3c640d5616d0c8df150c8979e1ea65275f24b8b83d9a745238d2b0cb474820dfdbaf35d2ee9f2⟩),
  (false, ⟨0x15f65a8a58aa09475c3e002b4ebf6498be005611bba1ee014f051d2f999daa3d18df6c675429593499534589f6c51fe0, 0xdd100eae76f488689cf098150c9a20607e2615bfb4a68dd69a8ffaadda754c75c78b8b6d89a3b14fe319a5cac2a2d84⟩),
  (true, ⟨0xf50ee0f0c1c4cd1ac8652fa7707da0826ca10cf5839a589a143e998e770650ebd4eeddc78871afd2a62f20631e8151, 0xf870958ddfe05da267f0b2ec92ccf79c3cb7aab351e11a8c7e1f99090a7e1f25ae93201249623faadb26106d6bd3cde⟩),
  (false, ⟨0x76f8f0c4d14a2f004cce3754c95a5d0a75dd73a049f773f758e87825580ef1f218974fec183c4273a3f5bbdc1776a97, 0x199925c058bb1205a16c78025ffc5eefad9adce70ae75fff76f0e21c07636136100504bcec4825d8cd68952933871ef3⟩),
  (true, ⟨0xb8e8c4f7918b4cfc727f262dbebe5e8579a2ce7cd232a1d2728664c3967cb1ae5b9a3d96a6ef82cbf195b22edd56cbe, 0x18d264c1588b5288440945456dbf30140e839077b94001143c94b51e1d94b89642ac3e74b872d3b64f529e5b61327a51⟩),
  (false, ⟨0xd3d044b75f2580596927c16e72da966cd056d7d54b9c8a04f03541595a8ef777205b9e4c1487bb4fa97d154050b74a2, 0x10dc52015fc88b58f7d31228dca49646c9ccf42e6ed83984085957bfd0ddb4ad66533e72c01ca6f680fd238f12edb851⟩),
  (false, ⟨0xe3682551057bfd6ac8e74dd53d23fa4e6ffc529bb38ec14b2114c2145f8597038e77de8c1b32ea19b654aef579645b8, 0x6da49d378b2050058a57a582df5be9594c63fbacdd06b95fbcf073bafc323673a5242cd522131663dcce0dc9e649196⟩),
  (true, ⟨0x8b4e1c9e831ced6b20b6b6573332b520fa83bc816b0206f6e02e961083a4d18bc32cfec6af4d25f8801ca1e1177269f, 0xdfed2fc07b8ed9f47d1833d4fa648c01441577ba3b6be6d62c5e958e33463b5801546f03d14631fd3d8bd13c1cca1e9⟩),
  (false, ⟨0xf50e1bea73fdb493d7f458bf74b558721eac9de574a2ee64c535e86e85a6eddf73e986afdb0ca6eb84103bf8868c6ba, 0x19a7b45d1e7d3faeb3ef88e622f9b010dac5317cafb5a000abf0a89821c7ca9836e1f1a80afa60d1c21ed0cf795532ec⟩),
  (false, ⟨0x16431b05a123a19e9d61b2998f3846e6cccf8fb30dada5bcbae607268629e475184d61ed628b532ab566722ae403ae20, 0x5c590a37590d6d08f9baef2f216bfb0b38add65f1fe69755f46911cc1934cdd0cbedfc8b245b46e1a2e52e35ae85a8⟩),
  (true, ⟨0x1432d3add148cf28fab0a47641a0498d67afb75c9b959f35877e192ef9e3156de6112ee2f52fa2018e9d4a6bb32b2d71, 0x567bbc356deff309ab51080314f6d7902b7b111ea9e19ccd861ce1720620eeb7ad0108163040802ff2570e4d8412d7d⟩),
  (false, ⟨0x194abf259c5fb1b37f0655758ec7da30d4155b1099084a35e9a85cac4bc01c56f929b6919c7a1f1a5a61445f32237db7, 0xf5a8612c533ea32f7b9124f3a614ed5ebcbfca9f17261b6c278b4faa6859d259fdbc117828f23a95880b2d60867e6ba⟩),
  (true, ⟨0x648279b14d270a675c971f28916cd933238c72edfa2c98de47dae53dbcd5cd83c67cd5479912bf19a60874c7068e48a, 0x3062d9299e60f8afb1aa65ccb2da9fa621190fd5fb1af32c060b8f8db8621e1fbd3ba61f6fd6108c73e4d9f02218339⟩),
  (false, ⟨0x1a1974d91357fae4899d499bb8600c9c364a7e2ff88ef604f6476c2d32373443bae91901108fdd043f83d5ce21e03b2, 0x15e51815a8219ce3c7141cff2bd8e8a84c0150801add69a3d605e10302dc25b6d5c0b3afa229d252a756a29b9b7ef9ea⟩),
  (true, ⟨0x16861c84363ea44ebb58f2ff5f79473867471eb493f8e418cddbb4db747b7dde0db51f006bb1f535c0e30a8d09f1337f, 0xd9d5b95a5ac075a7158d27ed7e80cc5299aedc1cedface33318768b48bd1764e8ca00b12e043aafd018c3e2fe55e8a7⟩),
  (false, ⟨0x121b05796c7bf0def75699da081949f93570d69aea536732e1eceaf077cc089fa808d0ee10fe34b883fd1b5eab6b4cc5, 0x47039a5f2423886d32b3fd0f476856f651f0dd8c1d8a886df1259b78a9e60f89aa57ea63b380843367f3115d8bc2b05⟩),
  (false, ⟨0xb9cfe16c630d3d909cfcf24d036efe5192379ececf6688c8ddf2fd9b494494c2a78d05d652fe4783d16be4c2e599277, 0x19227a720442b35444654b00a7fbae431fda2200dab7e561a29fb99bcd374cfa5fe940e6bdb25218a9b897fe477d343d⟩),
  (true, ⟨0x94eace8109b82f940a02ce039d25cd7cf6ee6a0eee692222bb7edeb6cf14499c0d68bed1bd7bdda1d407dd78b6e7226, 0x16e7649f53dafdb88cacf48dd08a335814b7985ccbb97bf125843671b636f967a05f8c90853baa7e33f97748212fced2⟩),
  (false, ⟨0x1927ba0cef403a06f6431abf28759198241611369286f97826017fd6618dafe242c059aaacc1c4076c643f4d4f6d233a, 0x19682c9794f7b5f4467cb564a3857ce91674f2d90591acdbf9842c4282a311d9806fcad5c2f299b7a63c596a68faa5c5⟩),
  (true, ⟨0x15600cd06a52ff46a862b08e3e6e3f7983a20201ba2257211a51d7d99797b7411a1bc18fb6044fbea8cede450577f8a8, 0x1ebb2df0506242fc41da0091f3f14623ada696b0fc88e171f77d9c1678d5580057c7ee44229fc2a6b36272037a1dcbc⟩),
  (false, ⟨0xdbbd4f4ad727f95ac31e9e2ca1c3793f2d5398a849aa0396a902fac68ef4fe64c14fc90eaa0a46c8f490da9910bc96f, 0x7cf3a9ddc747787308e6589dd622c18e42e098679bc719b8455bc9d2b22e7c780a3844225f246d5d865b1a3df5d6236⟩),
  (true, ⟨0x4bf2541d7560e33f1d541bb685408e1ef3c9b5b55fbd0389e004acd067a5427d712c9f9bbba34ec2b65903a8ecfca2a, 0x36e873fffcf820a48274d2987bc7390c39dde02f8ab6ba5bcd53b15404c614a186953623c7caba13584b871d053ae70⟩),
  (false, ⟨0x9af745b751eb0896f29fbd57bed82b0e4d29576837220f313fa235ead3b8290b151aedbbfaf709e8dffe98e2b20c191, 0x14a98a0619b392b53223242304117003251b66095e7d8b3274301a9626014ebb1e64921abcb9907c20c497bdb3a7ed89⟩),
  (true, ⟨0x14131e4024af4e7dc2fa2c234818990750644d87af4725147c1fe22042283e3d369b2769fafd3d4262567d0ea94b4825, 0x15b48cc5e257a4d39bc313601a25963e54387b6578544567227e643dc17ede41594d63bb3631b0aec6df7c3866313289⟩),
  (false, ⟨0x8dbc6a3eff78aabb6372727249ee35ae919f35ee5c3900ef9c9ea06a34ad2f013916194d23184769720d9c388987f, 0x110c605c20bd6d142c19e5e408a5855e5f9577dc9d64871051eb3bc6a9115aee161531e6d2abde8a70aeea4d0c0838c1⟩),
  (true, ⟨0x18a13858518ad40ec1de0443e9bdcea18e8896a53f47b6d8c658f2cfd571b65260ba9db1154e31cfe9ae739bc8d5a927, 0x57ea662c52d7ec066e5ba8dd4e30892ad218638f1305cd9250710d6a896d64c7280a0175c5e19be9a0d6e3a4e1ace80⟩),
  (false, ⟨0x1794970e206ac7a0b6e090cefc1e2cd2c6ae46f6d312de89114eb941eec1feeea232a6dbf875afca8c798c3fd33aba18, 0xca86cfa362816dc0b607267b47c6976a72b82c821d942727d74345e3652a9697c0887f25455bdb9e3736cf7507b8c80⟩),
  (false, ⟨0x2ab70d27206791cd8ec8bae75571c6ec4b49a6e49903971f2d6f807de1970b793ccbc0486b4f5af3fa9882f2dad9a03, 0x13a70b480f64233e214d9c51de6f5f9ab85becfc6a6b145b28e64a3df67cc44729ad15c562456ab428449b19edea7add⟩),
  (false, ⟨0x4427f489b41681bafe4caf474199e49ba61362393cab863cde1172963819beee46afa020999a3b703f948395d4901ee, 0x9c8ecd2176f1a3e8706e53c15377f68972c5342e4c8d3953e770f8f8ff7e3a58c12744d224a809a60f0b3027a26fd05⟩),
  (true, ⟨0x799d34fe77d7f436c6ed3628b31928ecc03e09a30000bd491b11714b43cff1c0b8211c3aaec03de3d5efb7200102713, 0x16a0d03ef05926eb97395c9011dc7750c00c753802d51cbfc26e21582039d10adb5d3567c307d77b6c39aa769a931798⟩),
  (false, ⟨0x1906e7c983c36d1a7bbfaf6e98b91cf94469c8f91b8da677504ef047a83d54dc73a30d4292706fc68a25bb9e221aa62a, 0xcb60a92027ff30f47ef7e8fcd42760e25e71356e1628fb55eeb0b79420f1f377c5ed848ac1fcdc6d1da8a67b336e137⟩),
  (true, ⟨0x146d55d2ba89a7c4c0fbd7b9f0274a950dab510862d3d3d82e71be0e5c25847777bd5ee0060ada4f968e476e39828103, 0x18d26746640e2d9cf8ca0c35d025a8ecf99a29c45c8ba4a15a9d9d77fbb6626a5dc649b2d6877322d6b66ca7e9777a8⟩),
  (false, ⟨0x199d52179f54dfee5e6804f2ac2db3972ae0ddd4ec7f8185ba94e8debde726165c6b763f605614431e26d348bb813271, 0x46ccfdfe1949c9dad8f460cc69ba67026a676f7537b031443060b054bbd4550d5dfd843a61e7cd1627fc7b3a299e7bc⟩),
  (false, ⟨0x11b75f355d272ac8e91e4589316fa5cc59d816269c8d6ebb43cb08b22b7a7b2a3c3b7a216c4fcfd3d73f68ca11cadebc, 0xb6c131d298b797df6ead3da1548dcd683efe2e7c42e25730c487cf5d9cbbf13d39150c0cca950b568b402ccfbac7e04⟩),
  (true, ⟨0x2fffb6b3fa2c9f02bbda639033390c81d6d342c8070e63a4ea18293f0e62e63fcb475844642759d510222c5fec504ed, 0x315776cc391001bbb35e6249a72d4730b6de78b819da16d759e786d7fee582b4fc50c9843fd061aebbefdb4c9d9fd61⟩),
  (false, ⟨0xbaa4d3efbe6bb94a98fec568af63c71db6b60ea4e1dc24a2e81e8c75e054955448dd742c6f681a3eaf916712c4636c3, 0x104cd08a1e0af387de1caa5a73217ccf90647d3d78d772ed484174bea3cc8b5b4ffc95ee49ef5eeeca0df1deef594a31⟩),
  (false, ⟨0x161e75daa1437e768d744a2858ba03ad4796983b6dc58d426a07c42f75f806b6a172a5edb2627bde7d915adaab32016a, 0x18dd9ebbb56b58fe8000ef3432741cf268bd5979a7f6fed7dbc5d5f055a2bc86373d682ddb2809610970489023035ae3⟩),
  (true, ⟨0x197b59c7a65bb124da9ca1953c3a98840b858a4d46be5a67a4fe3c031a5f88e3ccae2ca81c9261bdaa066b6249b4e027, 0x11bf626dc6d3f5b2bc7623af5c2ea002d8b6e3dbd0faee44f2634aedb21c4629037f96be65ce359640eb889b340c30d7⟩),
  (false, ⟨0x8824b0cdd42972ea89bb575c09b7ba45ba79e4a092a902a16f6b8bdf105e5e1d8016546cf3d25583a37c97a69ff4ef7, 0x17ed5de8641c9683a667fbfa4f285331ad61730c782c2562b3bfa34d3ea251cd69d00cd545cec6f0ea2b8bf4e9bbcbc2⟩),
  (true, ⟨0x17f2bab9d128666d2b96dc142c893c78cc84607b2246894c0e22d726d79f686d9cf919c070baf59dcd39f8cee802ca1f, 0x16bbe6b1c7ab7ba1fee982584817a30ad9cea78622d46a311a64dc7a4102ec2b4eb09375f72796d96bb4ddafb93f414f⟩),
  (false, ⟨0x10202f95b79075ccfc98a966a67f6c403d02d432d701530eb110787a7e41973bbb8bf9afef8be5111507043b7af16d92, 0x11848023fad30d6f3df537935353bcc40bbd8fb3f565e0bc5f7768182e070b43ced6fe5f706f03ae0c996ef5e30ab2a⟩),
  (true, ⟨0x11efbcbb9dffd7c0fc2b0feedbfac150862dffb50dec5f52ee209b56799fd8745ad41ee438518c89feefed854ae2c70a, 0x6257189c4b25d10b08897dbbd263a534d6ca55c5c7d8359030cb87c49a815aeb08c54a922fa1d4138ae6a1beac75e21⟩),
  (false, ⟨0xa824e5a22741ba2897cdc86e6633f4863dc8ba18740b63538e4d2e0d60aaeb882727720f55804e08416f2a89292cf4c, 0x111f6cac17886f9d6dec03d3f51dbb87507b2bc0e5dc01f96ed4adf1aa811df592fb2f6a8cba7a570e3e945f5f5c25d5⟩),
  (false, ⟨0x73cb3394a24d5ef39e6e917349cac4a71ae315144a7a7c44e9ea4f5a8e97e579454f87a10310bc889473bdf585b107c, 0x10bd1767bcd707eaf1772b8593b5a042649027e724bca09e123eca2bfd42331a871a3da4e9a06e705638158a489bc4b5⟩),
  (true, ⟨0x39173d0def1f186732be9f163a923f8f7e8925979f9a396c4e83c19258b768217a08ef8a346447f5cc530fdebae72b9, 0x77bd08875c329e89bbe51f5168e3cf44aff355fe3a8c30c12cf05e7141e8ad48b7709749a619375f33c29dc293584c⟩),
  (false, ⟨0x19a939c7284beae029cb735ba9114dbb59a8b3efb233c103562325bb3b3cadd22b88ff8d8f34aa8605b1cd78a18bd294, 0x17fd500e1c43b2b012700ebec0e1ebee8bdde84c35d798a5c82a005339945b70f35fe517ed2c7da0ba10ce71a290f4ca⟩),
  (true, ⟨0x821e0f0ca2583c3634630d8c5145e362a94a5668d7e2fb385d337f231c2b23321713aaa483e1490583a2302cd0c4bb6, 0xfeadd6c772bd6dc63a2e4ae1b856f30cdcf2bd829b46d7ac04d0d3727ff81c85432b71d0026d3032d482994ac08d933⟩),
  (false, ⟨0x10a8fa83be97766d80835cb837c0fcc4fd02ded187b5cdb53f71bf217021d949a6b130465aab9664701d2c4bd724c665, 0x188cf2278ef99d9baf62275a8f1ef980402e186d235d3aacaa7acf2b595b31b35575b2ef8e99578c04b4fbafe6a90963⟩),
  (true, ⟨0x237334406db3f19b3f837665fdf56a8d5e0294cb98d98eebc83d8a8454b26bb34874e9aa7429b848e6821944e08262e, 0x65a2e98cec1d5600900b08f422176a268580b7a23e2884f0661c93f59dec5a8790624240e8e70a354313506335ba61f⟩),
  (false, ⟨0xba94295613cf86bea63998cf30a649bfb4274b1549a98bdceeaea17583e0b1b18deeb6b08018f2d865f0ee13423ee43, 0x125f8bf32153c0cf325e7db8ace84296c485e4e8a43247296aa91d6fe8b71ed166b84efd09d09c7def61ff4d7b01218c⟩),
  (false, ⟨0x499c4d8b0ee7e7023fdf3cf763d644abf0c73d5017e6e7be0022abf97b231ba41a15c5bbce57c7409963bc2b9fb17b7, 0x12a6b1c65bc12c93172b09c17e7e783d4f0c7d680df5371ff04dab8d38d558115696c24efbfeb87526d800a1051c08cd⟩),
  (false, ⟨0x2d6ec42b9bf4abfa78fb784b19f7eea8f91c22371231a90ca39f6b1b81f1af1aadf7208d3934870284186bfcabebd67, 0x4e67d1bb3139689e9adff4be693d5796b67d5f93dd5d96f4bc02b5dfdd4ec74ff2ac7a2e3d5a6af4c0b6c5c88e6ba4b⟩),
  (true, ⟨0x17be618f49bc92880cf4ee6efe7f471995dd35baa095353fc06f5f60c13eb0c62ebdb59b0880fea6fcf6633916787675, 0xe6f0821e117c6e1f79fec28a77444dcc3bf4ef73a8461d321a50805ba04f6d1de289ed680506bc928bc74d2904769ac⟩),
  (false, ⟨0xfb53558f139fbf9807d4f18670cbf948f043c3066f01d8d00b30ad1363f5d1646de64e95eddd705fd44372a53b80708, 0x96e2e0553a00a255631f1a32877aae84f0ab54ffaeb833ce99a1914bf6173c7a0e7025d32ad36108f98abb1e90ad6⟩),
  (false, ⟨0x197bcfacc602204a195e964bd9e335c73b298583715f0c790ded3b86691b63fbbf7784fd32e72e65e6296b26544e6510, 0x9d9a5e48605474a6f411b1df4b84483c7b87af2397e40706a034b338c9949060cb882328a19b81aafbb03139a63d561⟩),
  (true, ⟨0x118a4e12357bdae1d948ec2d4eaf69861645f9dcf59a03567006f4b36f1f289f15f88ac411e2e6c72a52928c4300ecc7, 0xaf8d94c9f4d706f1a7107c761f9145f0132fb2e7ef95bafc3e0961e9a8ee95dff3046e1366f42b9f8751768d1038633⟩),
  (false, ⟨0x14990cb82afcf2076a4d14795b59e724ae28db4879256455470da921228daa43ffcc727052d9bf7ba6f7bc43ae78597b, 0x17466b95225d8d24b32c58b4c607e3c489c851632132882a88ff470f56566d124cc62c03938c9375d4f542345f116c44⟩),
  (true, ⟨0x769ef25bf1d67e69dee93af0df2468c15cc6ff995b82bd5e93aa07871c85aeac42ecd2108ecea3441d552934330adf9, 0x8c71a6b6cf3945f4622c35f362c75f00e733ccb59b6c8f2659b035bd6bb244efae6ab5b6c6a6e7648da5dbe92a00579⟩),
  (false, ⟨0x104ac46be41ca0a4fd66a5d1ab30233aaa33fc2fc0ec098a6708d40058945cfc4837e2779269219cab4fbc400552d299, 0x14b9e31a0dcb6ede7d9abe1ecc4ec9738e122b591ee330323f54a9d8aa1acc72a64fff4a80213eff5b781e9251be397a⟩),
  (false, ⟨0x418ede54c31e627c60b7675155dad79693006138d7f3a5d75b4f5e1bf84e639b69e4d4dc55319eed25a564077d13217, 0x9e9e4f74545186f18e1b17b763283e091d6f638896d6fabce55d6271718d77c0763fc4715a62b4b4db636553b5bbe20⟩),
  (false, ⟨0x4ec9ee55568425eee3d8a98af37cd9a6948399c9f1d39e47b116432b87b879507d63248ef4150d62ac226d5274ab0e, 0xe98cc16e94e16aa45ec6aa23613e303cf5cb92df52ad054e4a8c658b494da7e35b154ce6e81dcd3fc1d0d75c3225cb5⟩),
  (false, ⟨0x12949a0dbdd080d22952f40fd94d86a8a9941e00f5777280cda5724070b44528a54ef169c747a4b79f8385b1d3ca82e8, 0x5bb2083d92627541f493a212f05f04d708fdd7307e171da64751077480a106f4acb0aed6b2b04b746762032acd44cf9⟩),
  (false, ⟨0xb2035d8823f6dba6de1b185be6ab8662603354d1e26bf5b65d9df7383f82aa71f3dd7f8d27b9de9cd7c60558b97ab8a, 0xf1381a9e41ff808afcc88c320726b6202ce8caa178be0382a42ed192b3988280a034fb8eb0f18c42a54f376689e4988⟩),
  (false, ⟨0x171a15a0cd8c9e36070de05ebe3e110d70f79f46fd825234b6cb174d03f094244870667e9cb30eb671665de0b3ae7173, 0x19636eb3b9a43e021f74a433fae20339bfc155084b582bb5e6adaec48a7987cf085fd5dbd3e8c3ea064149ee6735007a⟩),
  (true, ⟨0x15897710c7fb9ff0b1726175eb5c09b5602b7a898d2f5b6e1b5347a28855684263b7e209b5ca09d1c92d54d895309f72, 0x7eca3166a53ff130ba79c78e5083aff04513f065782ee701a4083f2b1daf421272cd7238dbee87e95a2241b9698b313⟩),
  (false, ⟨0x81bd88e4b87ce7c85538ac7731864098e00128e94ceb0d08b5bea175dc7e4f1b52ee97c4e1d91230d0abc33dfe8f99f, 0xc28a5cd484b4ca6bbc1004bea0deeed5d9bbec2f93e95e7ea8b5f03ea46fdba7505719019a3de853cf167f72e34db6a⟩),
  (false, ⟨0x430dd1e03f5b7881c8777ea6780f1977b50410f658b48fcaa495513dbbccd723919b9353ffb163a170d2654da276537, 0xc48305042b97a77d39c22812eab83d2ce3a73bbbfb81e2ab8b080fc0c413461c4ceb2016ef9fc7e4e6a5ad3b40390de⟩),
  (false, ⟨0x153755c1d76223ef54f17f4e8fe6390539bb7212e71edf5e8e20b5f09ae4cdaf3d5772080e1ab30f7a5dea239c9c72b6, 0xf18fe348477ffb5aa9d85a1d814ff1dc387015b78350c1d67adb792fdf00d5bb202c98e432651116da15dededbb5ebd⟩),
  (true, ⟨0x152117ccb83be9cafc319b4711b264df2459e8503c608517a1187e88cbe10bd8ed9e06dc0e4f1de3e3573f2acd8ffabd, 0x7bcc0652035d38b7d6425f0a8c7d0da7b607ac84304bba8f69b40d35a96739290981c0f9e3bbc09616e15299f994611⟩),
  (false, ⟨0x4bc3edd9e6a45faac11594f5570b878a6255d682a9cd0e05b9c7794e29d1716dbd7542daf84b208bf51c1a4dfe87340, 0x9ed1c195fc90459fba6f8a8bf1d46a30811f1cd1e6c61eafc4fbc46146fe196b3f7fc1935453de6d10abdebe3165a93⟩),
  (false, ⟨0x174104382391206c408cf8740fb90ee45e9ef1261aaba3432505effdbeacf917faa075a11fd6cbcec9a67bbacf254ac0, 0x106dd719f2fe438cd2dce512226d623a1544ca52d38fcea7b16858a8888aa5d267f728350e042e53680f95ded72c54e7⟩),
  (true, ⟨0x191b989d1cf3de6e2fbcbbe03fe0f3710458fb10f313bfb6e6699c98f4b0f4e6e94a2959c50957503c91fa6e8fada7f9, 0xd2542895f946df3935ca546c3793deda8b692f16e4e2099ce4337a8739950f84f0f6e41f93fb4bdc93b73779fcf252e⟩),
  (false, ⟨0xf7ff90facb3b763a29191ccc95e982774f3363c8a1a4095c69d00b4cd0f9c5b75ef296c56ee6181af13ecc493a60dfa, 0x152447a7592e730ba6d59d42dd798fc1f15b8855813f194d6674d27eef5acf005ec63d2babb583ea5efc7cd5493f2ba⟩),
  (false, ⟨0x4c2ec2d1619d079ee300456e7c000dbf9430b25563ec376f11e91304c66b2cacda83042d95fa4cf5b5956d8002db572, 0xe702d12055d8c1f521c249f023c03c97f9e85785d3288068788bfc56a8bcb51088463fe2c80052183d55be0de4bef00⟩),
  (true, ⟨0x96d443db80ade25354fb1869ab3fbb80f719d9424159086201a055fcf62a857ad68ed6177c3b010f18502b2d42033d5, 0x16a10501f52beea82ec8e10d8ee24d4b2abec39a8096ca536eaab7efdbbb980bf1414bc78e5df626a4b5639009714fe⟩),
  (false, ⟨0x367916fd7731fe9f7a9a9691046db1c2b9cb8876472729bc4ba1d38f693f19d59464d1e547d7662a90fc9337e911ee6, 0x6a8f91b1e095cc0ad1885cb88ecc50a1f5844e2baee1ac8ded71a8283bc857ac8d09f84b4545dfc58b889ee767d86dd⟩),
  (false, ⟨0x179e782640a224513040ece5f30b24ceb46c68528eb2f4004b6e5848cc3615d3a0395252d49c1fa28393f3ff8d3e05fd, 0x14a0e8d97057b09b7848c752f0e2b8d0b87bf6ab0c06cd0936fb05bbb47a12163f892ff648495a725c7b7cad8c74165f⟩),
  (false, ⟨0x143e4bcbb3227254a4363145fcdae1f281eff56ed4caabe7c7523436c895dd87c5303a49c802e55a33154b9ce8a7723d, 0x14b3b54ff13733b444afb1e8a2862c22db951a9364ee51ccafae5d2042629fd554b01eff74f0e81554e021a5c541348d⟩),
  (false, ⟨0xefde200e2d79ae501043e6727f5c45203bf3b4370b76b49c36aedd16d21980968545cedc27b3531773623146d07551a, 0x7d87e29ac9add7d5b7ba601f14e0c4047ee8618edf120732b4cede3b2a86108878fbae7a386707d1d2e6ad19b288b56⟩),
  (true, ⟨0x98c897400c750c971f5b4b8dab971dbcc19cc2c9e26a600780917e0552d3594c78af39cafb280653b0881ca5e450c41, 0xd1079df41f82a65284c72d679dae9d60ed5e6acb617d7333c3465f19e72dc244e59e20433fead39a86122d05bee5b07⟩),
  (false, ⟨0xc03ef2478b8c35ac93559545720be7d3fb543a58073f1c13fb487684de0d1475e67325c49b52428d87b1254969c75bf, 0x3727a80cc25d2bf580a33f7b36ee4146879517eae0295536d7984c8e8af35bb916c12dfc2c9dc1bdd3a035bb646eaa7⟩),
  (false, ⟨0x1d4f0c8004964be1a85ecc9b9ec2cfa6880a402e71108990ffd98e87194c3b737cf7f338c2b833fa2cd35bfa25ee15c, 0x149ff7235509af385ac8ddb8e49b601c8bae79ccd60bf1f4be2bc714581753b65ff0b0b42461838a7b67abf3782e3336⟩),
  (false, ⟨0xde9a357aad8261b9e9fc7fb4dab3d99b3b2de163d3fb91c7e123b3ec464c5be2d96a53110e4889d2407c379d8af66d3, 0xc21e582f8d7c341dae8f4718b884f0956a435b46a1df4aeddaef462b49a1b72f334650e57c0b1cb0b5ed92eee7750e3⟩),
  (false, ⟨0xc2c20f2cf04cf4cccb4e572ce5f20a88098d9adad4af38e5030ed9e2d49ca0251c2eccaf351b0d50e3bf74c90d7033f, 0x777314101d0f94ef7e793b27431516468d21b6a510009b95161b0a538f7111c0060c1c7de49139bef5a305ae1bea262⟩),
  (false, ⟨0x6478a6836b20cbb80d5dd4f741d47a9f44074fe6c27586d8c73fa6e95f4fe89a8c82d279f7ad784ade4934b94feb638, 0x321521e5032f95748021c8ddbf4203089e4078adb3e5f5a890e44cdc233b5653635a4dae551f44e77f685f53314f0c⟩),
  (true, ⟨0x11ea687682c06ea199e5fb98b204310eced3dd4b2e54a815c96b6f0c8635a820a6d5afba59f603562ee19744f2f8eff0, 0x6a4eeb116a364015af635758c2e5277a745c5a77820d7004228090ec309ced6b8bde3e743c606a7628f52d20801c47f⟩),
  (false, ⟨0x118fc2b87d16fccba716b02c4d4fa779232089d51df05d649e3381983fbc575e6c1e1eb87588363ceb711c66212dc852, 0x728c5bb4f4ebf896c5c69c4b17b1b83c1778609da97d06c8eeff84560eec7fcd6a8cd3195be5b38235d8ce26e7868a3⟩),
  (false, ⟨0x4bc515609a05776634876e8fd58e2f1ce208b6c6d69c8f9c6f14a3e52d79b0adf0df8729bc1bc7d81fdd922c33b2716, 0x14d84ae47045f9a1422eb7f6da88664be7ba93e7d75832d4e14bffba1eaca4a826c3466f5bd4ad151d3657d02a2d42b6⟩),
  (false, ⟨0xb28d47dbb4b0b67aef53c2b5c1b3bb57bbb3c76824455b285fc26c190eb7e8286bd5f6e4b897f5856cded3e2cdd0134, 0xf515c71d87b57290b5f6e60b48ea8aae2d3a0df512b8e09c4a256445dc23960f709ef750105371a03c1347eae3b50a5⟩),
  (true, ⟨0x196be62b897cebf9317d939ba6ac3d908ace51cc74b240ca7463af96fbd6973fa64545e000cfd246c7e7216dc06a9107, 0x7a258b9b60faee9473bd755bc9adbaa6e38a4086894d8a4aa4a1af072ef187e75273d675a33b00be5ea996a9e6ac633⟩),
  (false, ⟨0xa6b67b8b4ada0d256d9ab6f47f775b897c892db28ae753253fb7ee053d6489f95cdb294b2dd3fdb73ea7b7dc99c68c3, 0xced00ce29fdd17940cb9229e8ddee4cf065b022b56c7c0c078efabc7c8d1fa1c6d7ee9467ce6f655dde09a45f692eff⟩),
  (true, ⟨0x11b809901bd9dee3dd59bbc226a495d82976c870954f78d851ee71615820e5f3c0adedea7d63020ce12d5070f2f11a78, 0xda321c5e2ee4e6fbc7bae80677fb1715645a32fe3baa8806c397cc6e8365a5cfeb37352c30615c29671c3a5d063ffc6⟩),
  (false, ⟨0x114424d9a73c8abb070d13663ee7d43e9c87d5c39b5fee650956928ab309ae1dc32fe3fe00029ac43bd6136f894f8071, 0x5e7e128f6d5e7ea04ba0f9a3a062610f75bd67c72080dab0118576973b284e1f92dbb218ce85b4e5142faafb7337da⟩),
  (false, ⟨0x7c82712fbea58c0b279f218afbdeb7129c9219f9fe3eafb25c1af8cf7dd26bbb37dcfed44318c43355cb1f9f5f790cd, 0x16fc0e471ed65799b32badfe321b1d151b992830f32633cee30412d5e45bf94b76b50d0460d9f084b5dcd48ecfa4c400⟩),
  (false, ⟨0xde6c540ef433d40acde406e72e5c97d7853ab734264970bf496cb9aaafababd8496f6af0f1e981a74c4e9dc6d255b72, 0x5d375468dba66262726f7425a34035b69bcf169f7d180f1f952206ab2218da3d5478c62c4546d95c6fcb722d58fe711⟩),
  (false, ⟨0x81911b1d0c8a66d4746395a83c8c2cad97a51c806fa79ed026d1b89bd96cb3afd1f49c9e9185378bd6e05e592397242, 0xff110bdf03cacff2e1b7119ceee871367a25ffdca0df50c71d9149068cd655442321cc953e4ad2f0b609295d2555ad3⟩),
  (true, ⟨0x173f757ab3b1082f43d240e423e09e0ddcf12dfcec0caf413391eb655a33a04d74a19824b0a12f12a0dd0f47d58d7c40, 0x28eee65485404675a722c51056d538d881ca48f41dc464597da98d4396e5b0995cd29c25378f93cb6cdfbfe8538f687⟩),
  (false, ⟨0x5c229b68f74dcbfc13549b5144ba77aef8d8fe25621db424638bb675f42eb9a5aa780cbab2ca811545523ff70f1dd3b, 0x8119a12735dbb18e490ea31ad6f6ca5afa6345f17dfc6d7c1f21147dd1708ee3ffba454425f711a91b6065f07c17ca2⟩),
  (false, ⟨0xa5098712e1c35be62fd9b8a75963359b053b6bfb649cb1e20319a737ef0f4967b062f2358a8998d8515612876a87eeb, 0x1505fd39d32a2b8d9a9d831d5a4e52c3dc6c0159c87486736d332561667be735741220868c070c24d0aaae6f29d7bc73⟩),
  (false, ⟨0x3bb5b9397bf1748c831f94ff512a83e45e2df82dc4401d24b07989f4bd6398ed9a469ca05a236da572326f1cd985451, 0x191216048aaa1392bac056404711bcbd4b522c380267dc962f2d1e07d156bfd3eed40a51e75376639224649ffbbb8e57⟩),
  (true, ⟨0x105aec5c0a96fda8ab6975f1a0ae8ec0132987e107ef3c04e51ce8f4e7353ba36e99955a233cf63d794f64d470d60984, 0x19178da99bac3c5625085779cab230491f43e73941628677a0de30f9e51701afea5c3a6914f12433d6da134357d1f447⟩),
  (false, ⟨0x1afd5f1b2cca416250861b09c8671698d626d58661c2503805a7e75adb13ea6d6f3df8e0ad530843f08aebf6d9dd109, 0x32858a2593eea262335a3181fe5e3a90e02288b4e2de72f43bf597923a2eec144fe628865813cefbcc952786b403849⟩),
  (true, ⟨0x196b605d49c6ea07be1d1f3b98a9957e06ec76b8422aca9074fcbe2d5a00891fa0494ff199e0a580e584e9ba964419e3, 0x19ef9d34030c68cf16ea8f708d162a3f23288f74138cc7de0dbead8f80daab114c6af1d146a4cc7fab7d7cc802eeca5d⟩),
  (false, ⟨0xa4ffd5fca8a05d9a2a5a85faffaf4513de72d1161ffc0176c7285d2b6f1d33a97efd3378079635e08ee29b94692fc7a, 0x4330cd3a3f77877117d127638a631994f5ed0651da9674c350b3d6c683499edcf1b8511a5a2937b1dc32aeca6112c2d⟩),
  (true, ⟨0xb311bc2f7482a65fa11f333b1b98918844b3eac67e3b89e11f63b3cc86af25e278ba12f4edef06b29f9bbdc6a61c0d6, 0xedf4d836098e01c0aa92df165b2fd71c86322fb4f9e9c5fe7f4f266bab4299694b1aa47ccc173a54cfa1c72f85d918f⟩),
  (false, ⟨0x8e9527768e911cad05cf8c00ee9e36164090a394dec9dd36d695e3057a7a5f2a8a93a53772e333fda8515495b1b5da8, 0x15aa3e85d4b060a741eab7a1a8af1f14abe556b0068a72e290f10d7735cba7894dbd73e0ac6351e669417ddf4be82d41⟩),
  (false, ⟨0xe71fc748bc8524eb6d41ec98072ab554601352bd71c59cd1ffa50b8af28dbddd8ebd3fb14322d156555f31d63e3f451, 0x118a4a8b525e446fd304f58066aeabe304e60e202d534034162d91ef7ba93ce4468c27a26ef9f8765063dcaec6ab45e4⟩),
  (false, ⟨0xb977bac804282581b9b533fa23f6b48532af9967875d9b0187e109749583d8c27894342375643d34ea689406da00580, 0x6c2c50df3becd9f8ce6413d11b6c960ac90db8b37334ba39e68cad67870a7bf04073e3873d0d3e6d5eedcedb54ef096⟩),
  (true, ⟨0x15e7810776a99d08e6a7405304f293163b8386639e01caf64969eadbcd30928cc78583418846fd3e57b676cc4fb7e21, 0x15570fee9ce7654f8348c8bcece8d17996841e420a2a0c356c82be79c3a8fa2eed5760b0771191f1d5c4b9fc3e3a2f36⟩),
  (false, ⟨0x17535d3dc44a5b4306f6a5de46e8265f9a1aaed1f502032341bc53111811e753e80d96426fefac8a4f1c2695e5f7344b, 0x114d062e44d71159223047c5504297295e244b9b622f109ff834feeac00cb3ec2f8a5f4f3a946e77b646736663133f29⟩),
  (false, ⟨0x18b471ce84505708f3bf85059464b24c37a3437c585b704bd22d0ca3cf65e59d4a7e0a58902aca84d9b42bd688b48831, 0x34948d33ed0a87985163631953fdac33103edfbeae5a4b34b7e210b898f411c372f8c4179072a8c169f9d2e7682a33f⟩),
  (false, ⟨0xf90937cc64193d2c8ba00cefdfa9e5b1e3595ffda1821a6c8ca0ecbed95bdc78dd70b3c58cbf96a4f9a843d7e7f53be, 0xcb93fced61d7ab7c7768188bb9948b6888130f901ff52004fae5f124fba89bc92e88ba6109914f085c6138e68b983b8⟩),
  (true, ⟨0x18ae8dc224da61d0e53d57cf2337df76577886f4b246275d7cd9f6ec461920833b9833e584a52e0c1172d23a0e05f48c, 0xd25f4bc5fe9193e2b1e113b08df07f052e4bff5794830d172494f7c75c31f70e3a4fff7c6560d7bb3b77031d30ef5ab⟩),
  (false, ⟨0xb375391250d06fed051afb27606cbebf5ef9673a9163e17bf01d2933fef51283a988adea19200059d6b62064b1ed37d, 0x10a9c6561396255cab8f1e3ceec21d16e792214229d213c9ddfd2fd09cba393a327ad99625987786714f0fbecdb5095e⟩),
  (true, ⟨0x87f07d83beece036d8b348689f719eac3742656e0c83322e76d436ae5f9ff8f3e6582efa517f1b0dac5e84644c037d6, 0x109e1ab797e1992773020aa9172925eb9370579b7f99ec9e447ee7d11a13bde25c28ac24e69027630da36ec5c5170547⟩),
  (false, ⟨0x717a3da9c08f6e13b175b2e653a4feaa2eb1e19156aa4a834242298cc4255f975fdb0d2b06a643443bc342192510251, 0xc43b95920948669a81e4668350e915a0bac21bd1262d2daf00b91454df93af75e9c8a761b32def089ae3a583593344c⟩),
  (true, ⟨0x13b464b8ecc7574defa19329e82996802fe63119359cc9862251a9a31630e4f3b98e1ca36c7ed1a60adfde2a7dbb1adb, 0x1206de049d887295d089ad0e10d86c986ae68dd84e19dc6e13550d09f826989ff2b874e22700aa0615698ec7d293834b⟩),
  (false, ⟨0x16a11eaf04c0f756d61647e326400566735aae67ed84f4ff74ee06202fcf0399a9ac217037babf15631d73d41056395e, 0x8017b29e2e0c91152b4b56a0ccdf03f346250df0a595a1aafbbca473c1aaf1872b12511abf3f632f4e4681b58a5fa1f⟩),
  (true, ⟨0xb91e79a6602e165a770b6feffabb697296405682f8ed9d8c761222779c49a045173b48e5d3a3e678ffeee8864dd6702, 0x11db547d9d64b4e18423a9e4106be0b1b6757d3714efa81c71021189feb08efe522cf8660c5509e12e3879f5b98195f9⟩),
  (false, ⟨0x60585123229fb38c710a6856a1034565da549545db048c22e604a8f8ac48bce765d61cc36318882c676b46ecdb37623, 0x8f1b1c2338086fa183f711a9ba4959addb5d654da5d3a51a6eaf70cdb0cca0c52f0289d2be9cc999ea09aac77865b6d⟩),
  (false, ⟨0xde5fa154ca9cb5d7a5d8cc320c88f0ec55e9ae8e3455b5a81ece503ae94c821b4291586630d918e3ca28a085926cbeb, 0xe518b2e2e5a544a7bf629030a6aa977d09fa59f74dc2c5d3c95d8723eff56eca67692d034923bce7671e0a60bbfdeff⟩),
  (true, ⟨0x133165ee298a2d20fe93785189fb2d7606c23c7e5f72709aa48c10c167015b3e705723ef16e2c6460ff232b46cb9eed1, 0x17a13a3111c365315b56b8e3882f0a7e047eae78e55cbbc7d17eaecd346269c5dc312fd16d912643bd073f97cf7a067e⟩),
  (false, ⟨0xa3d943a6cf4b14cf5b1ba50ac0386b04e10049c41b40e97e64e4442c5ee6678c55505f034e6286e1678bc500cd75280, 0x26bab87158ceb7c7c8a5531fc0e14561e7274ff6836b9dccfa37597b6a7a09ea5e8b2463907c97df426159190d7f87b⟩),
  (true, ⟨0x953ea2b10243f74f9b6f0a38535d6acfc1ac369fdc9ab40f6582e57debd14394655131217e14e7cd515854c875a7fb0, 0x1f8959472ab5cd1f1d60834e2e75dde75bcb3f286cb186ce4c1b5cc690a1f5f0919a03a4e9660bbfe94a7e83bed38d1⟩),
  (false, ⟨0x19c1a0101928c18f75a0837698379bee0863552ef75711adcc01692af6b7f88f430b390af613e3f22a942b2170ca20ab, 0x1255c916cdca45a6a988b151c2199291980c0a4677d5233fe6a801f9e318fc84467af6a7c8aa034bf3a6a65ffa8747e2⟩),
  (false, ⟨0x875739730edf37dd26d7e69883bc194aaf8ccad0b73d251149692bc435764529dbf535ed920d5fa2cb85e05aa1dee77, 0x1899dc097b026e96d24abbf2364fef739fff9d7163561371fe31e441fe2956af3b88fbbc782a6a0fbe086532d5335182⟩),
  (false, ⟨0xc6909b4bc95865abc7ffac8db41eca44c11a41983746354f05ed90af376435493daf4b7117abd65f3996e2b9b5ee4fe, 0x4b16454f27ffa326727033b25cf76f3fdeae4d9419f36a096b4208ee408c6832becaae1e7563f9b985a25d32bb258e0⟩),
  (false, ⟨0xd6331046fb92f84c4e8c67946f7b120cdefe39942b5f56e8274c76d4993ef9d40d9994487446c239dfa0db11f14c47d, 0x12167c977a647dc5b388928d9695248ae6274e96a86d658ff80b82f77946d266b9eaf33061836b37ce3e2417394595b⟩),
  (true, ⟨0x59de5584d1926bd90ec6cfa9db69c637547566d96dee9fc5302c5dc7c6c9a14f022632700d201ce52ba8a307845b93a, 0x28607eb900f611e86a8c146cef88a12bf4d5de469f908cd85c3c51ff0f07550894de5f58c1c34aeb52fca9185b8eb7⟩),
  (false, ⟨0x11b662e3ed5d826c5df57066f9bef2e40b7c1c316f077fdf06411f5686a578d5619ee00b6900dc199b0a12477ec50641, 0x1417b6866356bc77a75adc8e5ed18aa08cb16b615e12f60009cb30c2631959fb3a3f295c2a8092e07ceee1c1b028a5d6⟩),
  (false, ⟨0x8f37d753149d7ce301b8fccbcaa623baf59e8c725539834425bda1029894a48f5e72450c42573312777bfbe87e9055c, 0x9c016a897cfff75193519be4b4e04e81adf884ebbc40a1ad005c9fa4424660f4e9bdb9dab8c4c426aba874f4583b2ed⟩),
  (true, ⟨0x6ce1f50ed617da837093df351fd1ea73de87c59eed96751e6d3cac95b86d3d9157411b8a1fb58dbb7a7c66a4384194a, 0x950422123d1f4a284b90f56711e05c6de20d6a9de517aa120cfed84141fdc8b1872a4c91a6a73aa434fe011d9f113e2⟩),
  (false, ⟨0x1290414229c928a51992c8706c44830f5a42dbf4db9c57b5015951821469c35c031006178bbfe135653a64535548bc3a, 0xc77a2317046a832a7297da65712dfb47503d35e144e5b77f15a75e317b2d59dd011a6df420e76bf16a29325fd79dd2⟩),
  (true, ⟨0x18d286a96d26aef2254d9cc837bf36d16c6daca59eabaa16181a8de3c6f989a56cf7d9cdbd1539b01c17dd9387720963, 0x15b3b8757a8e379500c051c0f1be1d069561805564a2dea543dddc72e2cd19049bf492b110a936686e04a7b3c4eb3f8d⟩),
  (false, ⟨0x14f1e87a44066f0864c66d8b69cb29be6e7557bdd5d4e52d6ec23a0263ea0927e02bb8536be3d9f3a1609ddf92f6395e, 0x80fc1214da62eb103cc25a40d2ee77750294784cb5aa54a47453b6870e21cad9d654e1cba846489bf57b817f6ecf4d3⟩),
  (true, ⟨0x8f61650652e681d7f20f74dfefd7bb9339d69c4d5d0cd9a8c22f840e2289f0646f35fc8e7bc952071cba3c4777650f6, 0xf842a01b06f9fa8bd55917e004d014a29ca3ec609bd102844a5db403c0a1c3d2858ef57693ca8f7a3402e6855ca4069⟩),
  (false, ⟨0xcae7bd01ec9f0f32fdd324a01b0566cb8b66e96b92bb748782566a310d5ee6deeab9f433634026d0da7a91144564087, 0xd2b2f33bbdceafebe58c513cded86ffa39ccd14d354a11945d0a8ffe0880308338854c7f85de8b36396db3f826930e⟩),
  (true, ⟨0xe78c0fba010be3661eebcefe5c337fbb35861b7bf2a4cba933a799d1f7ac0721d000afd6380251e8028ee8e2fb7bfbe, 0x67b8856f1a500f02c9e0d25969f37d82035c791abba5588b1690da1aa256782d6fb32bd47bcbc425ef28c20c27412b5⟩),
  (false, ⟨0x1f278d4e30b62eed6f0c16f47d15ae04adb40fc2da7fb8a772406c706f54467907ee558dbfcec576631e7064c8ad415, 0x3811353c38324072a57968a6bcb80e11bc0e7d13419fca54219a4c5beefa60b94cad393e4a077522487f3e47b7b86c5⟩),
  (true, ⟨0x3297186ca224a33549022cfe154c1b6a64dc4c4bf860af9b8987439059a3ab0ddbe877d1c6a9adf7c404364d1ad297f, 0x6dabf48c1758b62d9ac2085a2d38f6e1889003d22b6dc1ceb251daf8e3534fbeabdf619d16e45a96b8d3fc3601a2637⟩),
  (false, ⟨0xabe1fac5464064b7ee38db9d22b619059524d6ff69750859ffe878a5b70301856bc9e5d3025463d4ff21b22a28781a, 0xa7bcbb00a6b6c1a7ed97a54e19d658829f75962fced53e775595f912c922f074045ce5ea2a833575bc7e7ede106bcc8⟩),
  (true, ⟨0x18ef2dd7d0441e4eba3a2c4451a0869924062fe682205d44dcac066c2ca9c0f420300942ee8a22282e3ca5cabe1b2a18, 0x387ab825f149440c9c904205e1a2e16548d3fca7acc9b62f0f6763f2a1996e568e76fee9391ff0f59d4b263337953ec⟩),
  (false, ⟨0x815db043bfa64c2e61a52cb4b525441ee933bc8273c1f963188fcb5459c71f3834ab52e683758f24010dd73c81d68a3, 0x38c3530882dcde68f1d2ebbe26586b307ddf2a5b8c759641d5aefbbfa89d2c081cb66d1e16401189be2e0d33178e30a⟩),
  (true, ⟨0x162ecd1387d106720792ca0f463cbdd5d5c04798a6d91d5cb337e272c4a463de17f846cd593aefd09482b4c3fc7abff2, 0x14f03b7c40ea42dc0958c8477abd3be76781365a40d08ba6893e0bc38b01ca645cc250f6b23eb2844256e0201256ebf5⟩),
  (false, ⟨0x4a278d2958ab8326a9ca8aa2210c236112f63ae89668d780d861570855e9fe28c1fd06ba252bbe988fb2e0649bdd495, 0x50f5b35ec4032114510d371e053aa810dccf91fbe6c8329dbf7a39838c221e881dcb44582aed12ea1fdb318a055c79a⟩),
  (false, ⟨0x69e799de026732293ae79d8fb33b95753443ac49468f22c79a5e22bb6a587b2d442193853609508d907eb2a9a10b060, 0x16fe359a7eba0f6c99f28db70fce04dfe4a4e4519c8d253a1c547fe214477719decfe080cde9493faad11eab1803aa1a⟩),
  (false, ⟨0x1686dc58a3785fb647ec0845b07c8fdb9db699b49de9fd44bef717071533e9611bbbaaf6896f8c57b458cf44c35dd1ee, 0xd794f91998ed092802cfa86de0ee6386d2d25f6eb9a70453f2e500b52970370b6f464dd842143ba803f614343f97c2⟩),
  (false, ⟨0x851985aa3cbd560b29bd95f0992f4ed8241121efd93b4c893b4f0fb3d8ad3df2e6d2057a6451f7a2cad88ac56fc5fbf, 0x1639163638482fa673a3fc7751a9e7b600f05d5496c291c85ae6ad2d34d727ce0ffd79b343403edf6668133bc7915e45⟩),
  (true, ⟨0x1725db232c40f259bae850b2384790fa1c4e1a6ee3346605f0074c37bff4903d61bd55a5e74e491e52b02aced3ac2336, 0x7342634d7b905d159d01e0149a2a2b523cb29e70ada2acce0a456bd547211296c0353e107446a42521049a0bf4abe9d⟩),
  (false, ⟨0x189fdd385a1145ab3a941e09699acabb85869b2ca6fd35cc3489113469ea64c3627a4a76ac6381159ba16e7a46f54a23, 0x171b1be406bd1b616e19350cb158644c0371fed7663ef4ebf20677826990f35b00324990e031673e644a617995e40b1e⟩),
  (false, ⟨0xfb44f1c2622e909f2cda496ea073b0eda8abe44d6c021ee59aefeeef7582639ae06b5d9cef4afbaad1b242fb58e14e1, 0xb38352b1b52700759011d9866cff365b440f3865254becf6fa5a0274e5ac2a343b95f5702aa91cd872ec592cd58aab6⟩),
  (false, ⟨0xb347b6b84b4d56be1e13873e99fbb6ab498b9a0171d107eab79c347bb476cf7976481c6c6c5b6f87d08a1fae4c620bf, 0x177e87d82d346ab771884cbe76171c3e45d274ddc2d826dbe6680a9dba73c8a7250da832e0181d102b86e69628d0215e⟩),
  (true, ⟨0x626d588cc2226b18ae95d5e1878e2d8c9d3e422616429f61a5aff8585adb0e99d22d0efe1aac077bbeb1cbc8654735c, 0x1040bd0802fe467e380a069691c27fc5284628cd7c49e38b4ba5fa52921ccef7f82b53d985f9c18e8a939a567c49098⟩),
  (false, ⟨0x173d6233b6e0cfe794a74583925d2136044d823fa63aff6da0dfd71127e4eb78d966832a7b6b987463bfb05d10122463, 0x6fabd4c212ad590deb9206f4a368ce2778431cc19dfbd477affbb287a62a0a38d284e54fd61048f5ef83746114c0c45⟩),
  (true, ⟨0xfbf2955f90b9d7c55eff9ff0266bead4a091a4f2653a3eef963741f4de946f2b6fd6c62315290817fb3f6673755a28c, 0x141c89316b4f79826b3414d719ebf695d5f18ebf278f1d6d97873474cec44083e5f44cc05a0677999812a801d2762160⟩),
  (false, ⟨0x21f3e59da2e6d4fe5b422e4f98c23504cfd01ca27b43886eeef797aaf9277ddaddce3277b33fc48451d089a5841be76, 0x5dc9ff08f1c2f8d5e0c35a9a8fcc31332cbdf67fbb2bdce87f212df5b16bafdf340a9e7ca536622068e82b9eccefc4d⟩),
  (false, ⟨0x72e510616272bb413fc8209e79a316c7eaa4688227b5a0274444656418e846712e2fd58aa963e75840bd715980e3450, 0x19da67559f90a4a2c5cf22cc6147bbefe2d46329b6abeb4c62d82328445a8ceefe50849a42a2bc731076ad2e54fba27d⟩),
  (true, ⟨0x165e8aa3402e565e2e8336da5142f79d979cebcd30530950c28286eb65ca7385e49c6690bc4a2f03c2369d100093cf7, 0xc1e452e2e95e6f8fdc1580575256bbb00a876cd76ba5546d0c8760db7a22c26e102721e8501096440230ef5ff5e6f8d⟩),
  (false, ⟨0x5b3ecc4608565fa8d2244c994440ad8ae1833f0f611b9d3b3fa35167f54ecb65801958d7f97f98926498ff5af5a4609, 0x112f45527f2ed0f5ca883a85f01b1dc0b7a117e23c35052a9287804eb919ea57b615961f9cd88eefa8cff0f6a0f1855a⟩),
  (false, ⟨0xe2e52098e4a69f697d6ed792926e8424ae99c2b2bada6177bb0d7332a9b85370777253abb5fc0950c458455e63ba46b, 0xbfabb47bb1472abce32db3c28d467d43eba2ea02dc15afab80e3c3852420cc31cc4df4a66b7171c6a67f128d1fc83f5⟩),
  (true, ⟨0x10155c137ee3da74c41b1bf7b4774022230e5a99da7b24172fe942f5bfb65019fe7a93c1b7c2f126ed8f339b3e1edfa9, 0x769e0bbc8109dfae7096b99b8513a8046072e21552c377cbb173c2ea10a434a9ac39ac6a14d492b53e94320f0ba701c⟩),
  (false, ⟨0x2378a7d0bc6b8d030b0ddfc7d31e38250fd2cd2fd1a973b067f7181970bbd010801ac641777fe76caa9a848a1f80dac, 0xc99325b22c24a406095d1f1bea8fc8aa44963340b01b9a66d1f19805d01254f8b4cae9d0d291c825863b9ad12bad9e7⟩),
  (true, ⟨0x12b24723511f6e7c8942dfc9dd7407bec95ec0b787f4e9688577bd7e43652f62316bfbde8212cf3dd841b97bc837aed3, 0x6d280b77ff040bab4a59ee269a942f65daeb10baf181694a6cd39b2f8ba1f531b088f564c30520c2a46365b15f28dca⟩),
  (false, ⟨0x976694879f13d1c8e60327ad4804e631fcd5b4e76ab007ce735c188b46decd461a0a27ce8fdd4146de79437654ce578, 0x8df896e4d3485758f24e028e5800c652d0fbc682a4cf7921e3d7cadd8092a25d8f225315a438800133c4d5ba62cb287⟩),
  (false, ⟨0x102e874e7f01d42205078e9f7d2a9750d8778f9c6a56fc8267587eab2961c4e1f79be3cf55c9db836ec473b1dc9f27be, 0x140dddc2dc302a9e569ec8d522044b43e87a1b988abcbb7c69f43e65e098ba298e8308d9fb4526629a28ec84c4593b29⟩),
  (true, ⟨0x993eab569f2f8146020f3c23203f1b7c597f31c1adcae8d20f2cee85be6c060794c2a39bf1dd6438e2b2877f91ea997, 0x18142d2b91ef8be4e7451840263784508acdab01aada75b3b8e526ba00c420968377bd9abe8f1fa4b053d645c006b1ec⟩),
  (false, ⟨0x739278d0b400db4a2d698f573404cc205836f2849b2bc95872f0745c293618fc132ea4c08b8931cf02e8a909ed7cd74, 0xdcf715983e5e5842ba84ba6456c989b2666ba94003000aac4a3a2e7172fe7a38bc9e3c4e55e0f50e037d172316b3b37⟩),
  (true, ⟨0x17ae79a2a4ab62df8c58788faf136587843dd9493d4ca091ebfeb627c95e79191219bb96bd4a27c8c33772e455dd42b2, 0x1954d423abe9239c0fc626c22bb13699a7d827adcbb868743c6b39ce2002a56b6744f909cc7964655eaee218f5ac6ac5⟩),
  (false, ⟨0x2d86dcd1d9b43d35557c529a28b2a5847a27bea9820b8c4a7afc7439a333c6d7037f62caaa3cf9d40c9ce687655e509, 0x320dc05165256efe1a946d407868e5be02bab65d894d3fdd877a942ad2cba7ae9be36cf68910ede0383c8b901ad71f1⟩),
  (true, ⟨0x78e81ceb9d5e066559d14968a0b531c7d73bcfbcea5e97cf640ce6f9a589f297a38569602e8979ce95973c287b30d4e, 0xde3911ff209b4e17323266575766a13c29acc300ae037fefe057dd241b60f88b08bb2a854b2cfc5ec9aeb55fb17a129⟩),
  (false, ⟨0x5f9760a15339e6bcc098fc6ae3071305d220bd7b4c361e87cebbaa881f2ea81a6279f87d47e21b624c8522b15447e13, 0x121c520f67ecb881daf4c61def41f21219e30e01c22674e03f7bcad60e95db5636da783773f66467db7e2fe1c74b2ca8⟩),
  (false, ⟨0x10740aeabfd82f6569fe749a0cd370a32b4520afe9d0e55e2c9e2b8d0ab120a30ff74c169518172ae395000d2763a0f2, 0x1b6c74347ec4adc3fe7f1b1ec2dfa2a13bf2477e5d0aa1f680a7996552e4ac142caee7702782a7028f60ab987b614cf⟩),
  (true, ⟨0x90ec4c1888ced9ffae3a0e0b0059a5aa55e2c9aa49e891f35636fd4e2389d1c1e51cb61f163dce49e5c807ae5435df1, 0x10119a925a60277f6d1b5df70976fb509a7cd276c1d145b13adedb01dd22722fca340fe537268490674d32084920a126⟩),
  (false, ⟨0x193032bdae655adc904a92104cbcba04d1a4cee5820c2da8ca034a4fc871c7d84a93f60cb8486f5194d1b0e48b559ad5, 0x3bd0234618fe316b05922e832b1714969794cf942124422636a3b0536d4857d9d008b09f966f0167b578a12e2756f17⟩),
  (false, ⟨0x1354bcf8a6643638ed8e1829bc79409f26d88d3bf79973d007601b097ca1f15442b174ab047a9bbb66b483b5f5dde8b6, 0x49e857853823a0b601896e316ce99b2c26fac59c678f64a0337c778173da9a3ceb668f115cf18037c8e425ffca3300⟩),
  (false, ⟨0x79f80efb35ba4315db549a2c3371ed9aa4f0c350dc4c81e193ffebaeb0d148bcaf70b66b32be6f7679285eb3e32f71f, 0x16bc2307618f6301f3a52957522cacf5d526391852aa44f580660543b3cb54d32b11ea72e09e58a837b94c97ed3f223d⟩),
  (true, ⟨0x10e3586a22190e02064b19125d2222157521ecb1af7654acc4b06e8e0a3574b0882a3c7863069bb4c5768d27da049f9b, 0x102a6eed3e944f55764c7d01889743bec15763d70bc4dbed22646d0d7ed479b411efbc4b068f92a91f0afff849dac45b⟩),
  (false, ⟨0xac3961d3110a90e6e9bc012391e00bdbd2943805de4f51e32061a28ac67e658b4aebd89656200eb8ac39a2437d72fc6, 0x1586e11befae9ddbe05608b1dba86f21810dcb050be8214224e0d1c960326b3bf8ac72a9f69c528c334db3020b386569⟩),
  (true, ⟨0xf0b9a616ddbd6a04fdc63f8b9ef522464fb2fdeef5e0d81d18928e7db5670083d389c71795b33b825b1d371540a84aa, 0xa6a38b3f5573e5a7640df11e707c1e40cbc796f4a7db920e9110351221c4bdbeb97b71a9cdb1531340a7bc48fc4ab19⟩),
  (false, ⟨0xb1b7ffd49943ae11522f5ff708a978352bcaae7cd0bdb793c496b0e8c5b6bcdbe24b69b8194ef8e6c27957b81c6ec2d, 0x67af5d71ffc0055f2ef45dcb767389ef2e1d358657997aacbb93c96411dceede1896070f4ff545620420116a98d41ec⟩),
  (false, ⟨0x60f3d12711031339c0281c62fd7bcd912ed2a02dd07c7568fb585e24aa02943f949894d0573bdc75f63f1aeb238fd32, 0x927a019bcb5a5caf447af7c1c32592d465f518d529d33d96d25e9a10dc030e777932b54e55cbe569103784e559a2359⟩),
  (true, ⟨0x392cb9ede573e5ca29ce248dc5cad6dab3b1bc53fa3fbe1711c35aa61f9af9dcc13004eec6283e100f731726bdb7e5c, 0x968d6ec64bfbf7ee9ef47587815091f068dae2d4a7dc2b2f4160e596cf7a2612a0304257bad19cd6a285131a21425b2⟩),
  (false, ⟨0x1977cf16510dbb112a88fa1dcd4aaf20cb0f246bf5afad744a3f34e10aa72bef9bc340e761e86549211870c08cf22b72, 0xb10f005315be0a69b18b088d0c1eab3b98649fcd0b5fe3439ac34307fa6b28501b6553ac434ed20e210b103761cc05c⟩),
  (false, ⟨0x16fef6025b6721d950555332defab0446f77c1b2b1fb05040cad78fa2ff679e827ed567c24c948a71e65d06fc4f3e28a, 0xaa9ae4b8de1a920795d8c0f514c0d461beb0c5ac976a8587ff0cc3130caba5040030dc628c033999a28a2fe57b542ae⟩),
  (false, ⟨0xe16437b310b8e8b2efd772e0d043441fd449dd3294c086b356fa616ea34a10eb8b5d7b19dc1998f94242a75f0791436, 0x10112cb94d8bf447d7ecce8c273b29e819109e8066d9f13a76fb0a59babc26dc33fc455039e35f34f2fdee7b700d33c⟩),
  (false, ⟨0x144b017d6a8a1f9e9bd109635f4b5edcd27a3910a489730050d87a6902fc28ec2d530065ab848471bd486d3e1738020b, 0x140add1b0d31bf47c2f008a25940083572ee87cd7dc7c6ef5f4113bd1395e5ebe47d7b0caf8410ce762dd0090f5d9e03⟩),
  (false, ⟨0x1137288796c269e7803857312a7ca13cb5c95b1edaee3f593587505629804a5df0263c4f1540e18bb9f126e26d97d689, 0x9d3075267aa211c7ddbad9bb606678b99fbe0b091cec46edf591fc313f9cf1b0a45d25258d3d22338161b828fa16488⟩),
  (true, ⟨0x154c03a38cc799d972a3bfa182d67534e408aa39b65b775b00f27cd4290470cebdde7494e341a538a76d980d207a803e, 0x45b6b6cc83a04aeb4aa5aa126ee881a824c17d00f45a399ff05ff93a86342dcfe79a91df993b99df1a7a39fd8dfd44d⟩),
  (false, ⟨0x94611e261078e738d713ced689b95c02185aa70c371c1c2376aeb508ca9653d39cc5ffaccd5f3062de4bf6b0b615713, 0x13d00485183ceb4885c1136ba2415cca0f87915edcf1675307f60154c42dbdc81b2fe6fb67c4bf6c317ab500f3b5882f⟩),
  (true, ⟨0xc26c06aa31a986a59e8cfdd06ddb10b29860de2c2eed78b825e006eeed38e1204ef35ade756ee3f645a61b26919ea72, 0x9ccf21bf73987d76b290c0382cd20cd89a7e64147ee440ae390f3622bab14251f1609082120e7515387f15a66342860⟩),
  (false, ⟨0x111120abbe39a98bc2a344bd126811002596b93a621b3785f1189ea602becd41b9f7caa3a8768bdd7cce00a799f75601, 0xa48b3518ccfbb3f48250618723979da9d86ffc5f6e0d4cd6d7271a78697e6cf30712e1ef07034c38937c909ccb0efa9⟩),
  (false, ⟨0x186da7f6d1f64c80a010d24661821c070bb202de5cec3eb47ea8617b28118d842e4567937d32b91672a8a524c91ece4d, 0x110ef797600a1a0d5a0f129b3a503b7545b33d2a9d1f9752885ae631ccd0df1310c80053de08efee76a79c84c82f677⟩),
  (false, ⟨0x52b5554a0e4f3e5dddb9fd2cd90c147bab3c1f4605b4ad55b0a8a8d03a69aa873da708f87a71f3ff1cbfe14ae336403, 0x13bd8fd73674a78ef8e88832ec9cb02b866a4dfce0b70cfbaa8c35de0e4b60806a467e89e861af321b43064b897956ef⟩),
  (true, ⟨0x14b64ac6c60a2ab3d1433304e32c0e9fcc2818816938cf3dccd6353eedc0245b0ecacf0381013d5d608fb80cf9e10e8f, 0x195e212f89242bfc930927dbf7b34b3cbb17f1a0cf6cf6c6043fe9ea2e237f6fd82cd2c94b0e6f2ff6314d138ab03269⟩),
  (false, ⟨0x25a3bffc04629d333687d56a010eeaee49f5757ca45ed460ff60beb03bf4a045105f617a80b2a7e77f61707f13495be, 0x438e077751c67b2af084937441f3f724a4a928a06eca5ff79a933a84fac9d209c10d67d58bc1f898ac09bd71eed11e8⟩),
  (true, ⟨0x13d00961c23341cc7cd277688a2c2f7e09097c28ecceec01397370201ec82ea5f5eb6c12740ba7e9f009cd5cb9aeadf8, 0xa54393766c96a4afb3ca33e633b246d39fd84354906143cff20dc867c81f389ff9a8f61a4dea9960c8075ed45cc01ea⟩),
  (false, ⟨0x22cefcb1c4e3a7c82233e4b2e2df9a500f99d9a522e77951fd028ff465615be63444ae1e240dd06b9e567151e3e3636, 0x548437fe7052fec72c122616e4509e2ccc053fb4a61c424abd4539523dedf5e578f49a9e72b2e99fd9e7b566a845e95⟩),
  (true, ⟨0x59fec733969b54a2a2d29cd6e262a54d2e3263e39b39c2abdd8cccaa4c044d947db4b81d3a9ee6105911199c317deb4, 0x43b0bb3dbaea4ceae62e8cfe887d9ef409f027e3c60e9fe0f97c857525d323cf1017e31fc194a197b10faa792687fe3⟩),
  (false, ⟨0xca124467dac5003e113ecd90ffe837c0522c4f32efa1f6cd00c378e4ab233d039dfb3cfe80b3c52707dc2b95ac4a9f8, 0x29949edfdffc225f1fcf9a416da103a462d3df25a3d5d20ae4a2ef474f85cee71c81f0a383c914db5921a2e32d88a99⟩),
  (false, ⟨0x5c62c7a07ab878e8ab1f6dd79576f2c6cb58c608c484440b311e11fe89bed10acdf44572865d2ac372062c39c0849cd, 0xeec18493043356f4ea9e1bd134361a2894809afa7f907c50751d03a0bdd79ac981c6b9bb484f4ebd22fd8f776c44dce⟩),
  (false, ⟨0x6681757244d469303b353c320293574fc362435890812a327e23a926c663a249a0f2b52b6a924e5bc6fb509227992e4, 0x1375b83e5cdf0b230a4905bd02d8c077c6a857e355cf561fe2150485fe737c4fac9282e5b5341aca4e7c8e744a77d80d⟩),
  (true, ⟨0x172ffb51c9319abe2edd70e997542149ecb61af6d096307fcf19d60cf53ca2746279b26be796be541d6c95c34455c032, 0x14417ec0cbf79c19ef81e8cb45f75033b422365d66e85e218704686a87c0b50419bf1d944d20d532b6e347fda17497aa⟩),
  (false, ⟨0x2ae76389a5d489cfed4d10594550f43ec9d28ad8f50469f352f488e22f5272284cf586150940a34db8325548c2d0079, 0x19fa33af2388046a9a4e0e283a0fe8a5dd4f717c2fcc935b25df5479626b5e0c7a35ab88557f0045f966de5af8583847⟩),
  (true, ⟨0x479bb1358827b28a50442ccd9364243e2baaf32425393697c67e801b03be271c78bce362090ac6dd0a8be19207bc74b, 0x19e2f4a8b5c29b89fb44ec69ab30599e30687f4f0cf08a99c90de1e7b13eb2c65054c8a1e931b9a14ca5b854afa2d84f⟩),
  (false, ⟨0x97d942e68e71dd7733c7f60d2b389320f2687ddad58ee55de501377c14cee4472c8c9b026923259a6e4cffaf7f4bcf3, 0x2c04761a3e50bde47dedb844d042384882d004c47441e050eed33d587c52a62c24b0b2afe066228073e71ac77110a7c⟩),
  (false, ⟨0xc3c416750fc3c229a8ceb65af5435797b845ec2967b5cc98a9def7a9c9a73676a5a45502e9331e49dfc5de578fa05d2, 0x16863ff484b6a9b545e267a727a61cce1e849fd316bc29e373cee84d54f45d3488ef25bb7060ac2b09db65162e0440d6⟩),
  (true, ⟨0x4766fb034cf870303252931792cf2c62411a8250f19eaa0efd898b6488084507ab6e687c4e6cd85ea9a4721304565b7, 0x4bb619af3b672de688a4f5ba9708750923e84da106faaf0ddef0499e688cb1035a44b00988e75c6ae88e08eeffdc97⟩),
  (false, ⟨0x100513c0b5e10037896204daf02db16418a46029ac9dfc3a65c091035388e98b01b777b19d3a64bd50b6e4c4e7209d56, 0x125c06a313c679f969ff833c7ccf5cda056a8b797a4b2e322969272bee6a649dfc7a20085e7c808ea3f8af8fd52cd4a8⟩),
  (true, ⟨0x14101a4cb024e8e46414f2df329dacc2a70fe627882b4da51355fcb50150894ab25084b950df589f162508433d4b6cc9, 0x175d4a07a665da19ff3e56718fe7f126bdce9b599653e2b5b6e7e9aaf3fbad462305fad1e29ca7bb08e8031e5cd40e18⟩),
  (false, ⟨0xd9b7f33866c3a83cd92a2119e578cc4532165df220c5f440953623188ee54e03110b5c01ce1814e096719cf67d119e7, 0x55e2d156c232cca413ce03b4c7885313628b400f3f20a79b962698126390ba01d4b1ed7003a328c4aa3f1ff06b4c5d7⟩),
  (false, ⟨0x117dd3971e3c1b939efc600f8ccdb3525c1987a21c749db2986f1573998a750ed3d061108e9620ae40050fca328dfa0f, 0x196e889b509535a8ef7d4d46ff307c51923af46205996b7ea3dd5eb2a2e1c87431b3375826a6c5eaf7358e35b266cae9⟩),
  (false, ⟨0x4a0fb731745f716a194debf8ab3d4b28f1fb7c40121228cda3835dab2fa60b35d27f2d4065e6b12856ad4ca45969c4, 0xc63f405c70b2aa7239dc47d8d3790254e104bd1a762435279ccf045fe3b25eb7a7874524984c720f697baebcb15ea23⟩),
  (true, ⟨0xc60a974b58c72dd7b19dc7daf871b01743a5e78f2aa6d9bf37e30d106ee063303fca310049c6f9d9cc765ce0ec88ca2, 0x69d1d131b07a1dd139fcd097e2eda5c59d37277cfb0a0cff5663e91bc47cd3456cb89de017bfeec56a62f968b87ffca⟩),
  (false, ⟨0x82436aa1f4827f982169ba4dfad31ffbf0f0b4c53d28e7db13da58495cf09ddaa9160b0611696920e40e4708f7f82ba, 0x251cb8700e937e719e5bb866e921ec673f17544eaaef26fec4f685732d38069c0167dc0fdcd72905f6a7b8fe385f6b4⟩),
  (false, ⟨0x2d0cbc59a20a51d244876dfab138b995f1127ab49f599fc2a30d6cec0b539dd81e5bb38bf0715747b682256d048a309, 0xbf1e0b2cf856f5d75d884a6be009d1e246b0a7fba4b76dc3db70a218857504cbb51c0996ee69f71f73ebcf26350ca9a⟩),
  (true, ⟨0x16799c8047656c81494ad596c7f99ddfa20797235997987d454661cb2a4bb3ef98415b0e68d7765e219fe13a041e678a, 0xc57bf2fd6e0aa70e0be8addd1d589c692b372f4ac969da70bb451943c7b046f906d43780611c315880875ef62ec456a⟩),
  (false, ⟨0xc6cf2d7adcc5c2c9b6be4f9cc6dba5a38dca39abfa694c05cfcab303ea1b96b10b5fca5d344568f5267729d92a93a66, 0x38bc3ef93d59ae80053c084a345ab1a2de3755b57698c2a9fcb48e056063c5c663fd225da0b9f618a131b2e167531b0⟩),
  (true, ⟨0x8966e6d60d4f569cfcf4b2a9564843d6953e4ede08c46b46b3e1098bf867236650154da50f5fbab0b9b6c317044449e, 0xed1d8ffa7d55d29c452a78a8510367a777e9e98cc4c41696a197770d3523ee0e7383024fe839fd9a280e4828d04c080⟩),
  (false, ⟨0x5b9ff8492cbda893db3685235faf30dd64cbd8eaabe4cb6853441a0002e572d7c8b6147a01371318b6af6923b030852, 0xea38d08c00f0fc45d108ea7320bbdd7939bbfb1bc28d6e0f7022edae377f33fb1b871846f0896d687a6e4fd4067e12e⟩),
  (true, ⟨0x1634d66403f9183cfc8b77942beec6d10a20b236c9088fa1a70560e5a2a5cd445792279a0bb5b332df6a73a457c8e925, 0x1575d4d0126b6329b2fee7a949f97fa55db44f984cdbe69d08d3ac6336c84b47ee88aa9df42a372a54dbd06a8139885f⟩),
  (false, ⟨0xbe66a0b7678fe98c303fa9bb123aef9b39975e1389ab8ea9dd6a018bda3ffee707a38f891f802fe4895bfd0801fac59, 0x10cdc3352d61df6444ead9f5feca9c133d355a85cd559ec9be57aa2b2c8da62b74b6f5a3e78e7cfec0414a386b3b52d8⟩),
  (false, ⟨0x2f18932ef2f09056ed90086b8c7d2ef495124e9c5757b8f032f4f23bc7c16faa6deb338b5f56d698f81c489a0e58637, 0x2e304b321c2ca13e5330b0feb5f61809ab6648efc6e9cf213db8b1448d5792e15efb517d64c02fe7e6b6b251eefdcd3⟩),
  (true, ⟨0x299485494b0a96c0316d76776d4fa3aaa587c6b4d3d3def3f0799b64d0c6277211d5a1208ae581fbbed6a59f783c285, 0x3fe22c76bc665e1c0ce30da83b040b41864e02ea1a81cd4d960507952cc1feb424dd43227035e37c044ffafcc217f5a⟩),
  (false, ⟨0x1422c4dd971d9a2429265cbcdffa269aa1ad3d0ca283d20daaed7093d9bd71a23430ea75a5cbef0ec107fbea371ee6bd, 0x196d82d225c73bddc8552e88f6878c53ae9946b20d63b8387c2af297e7ad31c83f8fe29b48c6322f0316007319e53f1c⟩),
  (false, ⟨0x7fdf2e137ef1ab255fdc743f3fe24170484f33361359b9676ceb0e2bbf0a24a6feff915b8a04f1761c3b909b3d7750c, 0xaa0370d5633a1fa96848452554cc9778765d27f6dd0a1acf1bf9a401a3cf6c30b70a8e70aa0bfb6143a2c36fca2f287⟩),
  (true, ⟨0xe6b0ead9d0aea8652f3bda650f0ad8f7b0a8efeba4bfb8fc816153f4ad78fd68d2068332c0ce0173021c81961f92e5c, 0xd3f7b9078841a28c8ae6ec2123c6df0b9a8407f41dc66869e528e25315dd99a1479f389601ffbc1d6cb7fb03c016a39⟩),
  (false, ⟨0x4440abe50460cb7eef81220df7309c7bb6988fc6d1d38f71d612b022b779b542fd629957804c3f76284eebdbd645f91, 0x3c7988d700e55b7f89000138a0fe7159191f57f227f9a2b8df09ff88d3ab0fac4afe9fe91e8e85f1a1f1fa3269282e8⟩),
  (true, ⟨0x40517339e2036202862e4250fecb6ba61c728a7cdac7fcc9e005ccde1c821523ea4fa943d67abb693ae075e8a26b801, 0x16d69e2d8e2c467366a889a1fcd2d0be13fa1f7d17e9ce63b5db700544f80a899ede13abbdf7e37223bf09925d60f4ed⟩),
  (false, ⟨0x109c0f416f64f509a46454275daba9244fd0be29fa9272d8c3a65aa7223ff6bf54c069d7b7326d0af69f37d100fa366b, 0x8801b5961e72537527cae2831ec71ca1117b07ab642a5c717c5c5705bddf42eecfd93168eddf0d0e8d9d12339cc74e0⟩),
  (true, ⟨0xa5371005660e671444c82145c6e35df192e0b344e3cc208de29c6516397dbe48ca7b4e3ec416db4756f4c2caf2a25fc, 0x123d56a8a8e0ae8cfeb9fba813bcfbe3dfb615903e8010467d0e317e9408797065a6af774499d4e67d2a76df3a59dab4⟩),
  (false, ⟨0x10cb62763d72daf0715e861ed61b71a420961051d459071629ade4cac4f1597515f6aa91ad58e8cf8d02a5a1e18d4932, 0x8a3cef0125d44f01d417cd9347d9384fb3a76050dfe8849d428af8cc3d3f06a22a320bfb93f9f1885895f38de931a85⟩),
  (true, ⟨0x55b8c6e1c719f3bc045e8f60f5c9dcdc387c30ea31138eb964327ee436bb6b01271ac36245216fdd8900b8d81022513, 0xa50b9696bbf5ff2c513e98ae8404b316fb056208e5e37b1b786c69f7e744f41353a4455fa17bca2e96f5293e5e51ae2⟩),
  (false, ⟨0xf883f97e8d7b11a0cb1bf1c81456487cabc0b6aa3ebe8c04e26f3b40606ae8efa03822882244ee2036a175eb4068a32, 0x13db2bbfb9bcef115751a19b670811b1bf4c22f1104296813a39fe777dd8a087a189674ab841ada38dcb1637ae0608b5⟩),
  (false, ⟨0x8d834827bab6de2317753b604e5facbccf65ddd0c3334060143cce4c90b4bc6ded66e6c1ab90d3e344f8b705771a7f5, 0x476143060183cb2cf4b883631ba3386ec86e79b11e622b3298b9cddd50ec359a1f3e9bd98322d15accc63b3092df732⟩),
  (false, ⟨0x6c80c1fc7802822cd6f12d6f7467c3a0c66d97fc70761aca1a43df9ec2fa820dec05bdbf0f91b83de11fb6063155340, 0x1940babf4a1928ff7f39199fe41e22eb321aa1636a39b2964bef4ff61b984be5c987ee8bace095b8c5a4b539e3c6d4c8⟩),
  (false, ⟨0x136eded6b1518990d23c2216f974b983f4f4864e1c3397364bef5039fe0a7db936d309d74abc745e18295ba424d2f12f, 0x26657498d7469ac2f81bd6ab8829df4d4c08f7afb1457e18ea383fd63c071ef4cb82d222fe4ba50d1d02502e81e0d47⟩),
  (true, ⟨0x155584b7b0a09b19deb58867c304ad2bdfade6913de9194497d1e101fc3134b9b3d4eb06d4c55e142cba59c4510e2990, 0x952510a823828e6a56ed3c72f6b718ca13850992ae2aa458b63fd938dee2e8daa17866c0f0ae3448d4c268cb21c7e08⟩),
  (false, ⟨0x185c5e8f428ff18b0139a5320217cd64d2c45f398f874a38525763f227e1017494c957aaca75968411301bab489df23d, 0x121609d054ad388201b3a5e65b8f93261b765d6aec729f45ab802f8399cd890dc257871a684c97fef4da65de55e6c331⟩),
  (false, ⟨0x12030b35b0cd8463e496831d80a7d44f50cb3ef06c09fbc4ea2552e0854f19927afd8d8da6658c24e1e033a7a0ec3867, 0x16935bad219c6cf08a4429a26c45db3b47fc35f111e28d20f81b598eb0555267177a333672add66871065d165c62dc67⟩),
  (false, ⟨0x134f036eb16b89e1a007e5d13bff75cdc07c52cfe15e92e2b678fa2b47884fcb60afb62a2ca6273380aa839e185170d0, 0x498c16c3155be2dc56e14f9d95ac5825aa58e5273de06a20670f9283452fb468bc89b4a7f6f8cb2dace171ff2633f75⟩),
  (false, ⟨0xa5a117f8c0b8f97d44674baa8747407bcd6a156c7dc14b334f0bb0b962184c84da8d68feacf53f030ffa0b0daa390bb, 0x10721d8baa9d39c3b7b264246a7b038028ce6d34c4d5c0ecd887ba121250b908b887a4ccd0d3172320e6a4c6c687bbcb⟩),
  (false, ⟨0xc31c0435a65fc7e8ae15de7900d77e0b8fccd36c07450fde07b3c202f81ba19a702aa9800247349a24833235210b2bb, 0x11aef437ccd520de33411ebdc8d5b0ec2fae2ec11478bf14f2c54c48468932e0868eebd1b88365d67a9670a885bc293c⟩),
  (true, ⟨0x137e7cb540c937bff6e4decd4246be8b3f1d8b2792d180f6f692a6c1a2b4712f3b5446881e2ddf43d9ffdfc8f8b0f842, 0x1527dddd40a1d4084024d4e8b609c2c7a00004cfc719e8fb06648be531184fd623281833807f1c6edb4e3abdf03e7f5⟩),
  (false, ⟨0x1073edd2976ee24c8eec48dffcd9b027baf225d70ec6ee017a1f2e7be069a3e237d60955c1cdd8eb43b747344fa560cd, 0x94a020ecf8bd0ade27802da7ca2ffbd6b67d95ea12c01b89d027547dc673cf4ae74e98ca6637e7d69a5ba44b397d358⟩),
  (true, ⟨0x1766eea97662599a8da44b113bcd5fdc6b084abbe2e3f9876fff7478d86f801564a3c57798334b61d52d0c29887b5519, 0x73938951f00387c03f4c3f89bff4421e55555accbb726c2ebd568543e380c7314441437a0fb988c077c763bc7769d9a⟩),
  (false, ⟨0xa29afabac6e858d9eec05dc5958758822e8d3a8e8e42f0b4270351c48468da595e658b613b3562b5cd3c0b1100969cc, 0x195286191c61920479a4b22df0e7aca18d4c99406848f4c7e07ae55fd91a30648ad7f6819f5d2a8471614c0e68daa81d⟩),
  (false, ⟨0x145c1e7c4d49f258a5f96509f3109324c6ee41af8d5c9775c1fa85933f2407b328fd72827d2b05e83d4ad3fa7a236d22, 0x8fdab78c3c1ad6443c9e3d318462e54f45489bc5e2a80c673c91c8d3a83a35c054168861797ed8cec4d8f3df784a028⟩),
  (false, ⟨0x16be53d711c449cadf132060bce1da5ad6281173fc19ac84d58e2418d30ec541bed2eec034882270f1a5d2fe432865e5, 0x13b0c0194a7f66c15cb0c6f5d02f9da66f9ba9138ec55d9248919bb8e04904ef6d939a044b14952c247e1be41b28bb6a⟩),
  (false, ⟨0x17b499ccff8ee14038c07c8abf3c93ec7ace1128504206970468f4ee74efcca8a2d4fafc15033dec3dd12ab723a419e6, 0x4933a45b7144d5659f626bb130906a346e32d83983ad212fde85e56e5b534943a5a0f31e378c6d8c2666c941aa67f2d⟩),
  (false, ⟨0x128cb082bd1e94b29ad7c401578b03bf5ec300610e674f42ad9b76785e01f99b41959ca8e491848d8df8c43237555b28, 0x283d171b172c80773711ab56919702ee10cfce79b1c3182fe10ac57371e76863fdbf47741544d6429466e97a36f826c⟩),
  (true, ⟨0x34894233f77af63fc6a4ac78d709c8644efdb516ed6a44742f8dfbbfc4737e37adbc39035867f3c616bdd341a56eaee, 0x3f381b2d78894ac29bbe516533d8b4daacfcba8043b3183ea4f3edab84e3a4b5e10192be7819f921464e231d369464⟩),
  (false, ⟨0x16692f03445b24b3b625dddad9011b4de53f7e88023307aa13694d5072ad03ebe78f9c3b45117d82da07986ab1270732, 0xa3b7388ca7c98ed2288d7906ced87ebb1f0eb3abed2eeb3f79e7e631bba6d6835a7a13f4debba5445d2ac1b00c7b226⟩),
  (true, ⟨0x8e7c49cbde4f7fc9225fd0f33e095ff585cbc7111974614aa936225bb654a62b6dd92a5ad577c2b822e17085c4b110d, 0xc4edf075a9fb2a2760cbcc4ce09d54fb52af2dae286981ec276b02b71cf0d1332ac602a92089a454b054fef5b8f37d8⟩),
  (false, ⟨0xa4349544bf4875a4c4f5e5028a529d129c1464705bb63d2a91d181551a2006d872eda477c7a36b43e591b3a8a8b83f6, 0x8484c1b31accd0783f52e8022f436708025527d02f8730d290f136ef473736c88b57e93e305d33ef515a38605b77f3b⟩),
  (true, ⟨0x19f7ec982dd00440f5c6cc063d200e2e11f979279e8b3e146a2492a8e7b3b1edbeb49d2eace621687b302777a1c430cc, 0x9aca6658ee12d88abd4702d99599bd1568d6d6f50583d5ce444f8cecb814756bb897126613892c60d2d719e4b6042b6⟩),
  (false, ⟨0x160a406c2c67d87dc2e85a92be2a47c76264d62fee0f32e822f0c8f78a7bf9f7b730d954aa50c6cee0971d62c6b4447e, 0xfa8b4a50b635a309e2628a0dc9e11e9bb3b303ae021b2372999832d8cd5b714d78cc84d0d21823f11d115c8990858c9⟩),
  (true, ⟨0xd35c1c754b670bf40fa2b41133d02f2a89d044d45bf8f374cef08cfbac833f401330a9ede5a95b69ffedc6bdaf7bdc7, 0x1378dce5dad289dbc887b41bea49c2409baa926c95ff4866d2d47c3c6d4f04539c676223a40b72c9b944d4c41601cc7d⟩),
  (false, ⟨0x5af996415858b9ed4c09525ae9dea2ec50c98ce0d010d5697747e031b643ca027248937017dc37aae8f6692fe049e3a, 0x5ed90500d975491ddba54dcac423603c7e2d39cdf39cd11511e5e951d541daf4608984e76e11049ecc4f70eab56eef1⟩),
  (true, ⟨0x16f0ac4c0fbd7ec49a8ca50fd825e72a755add32e256bf77b5da3d1e21ea320f7a75410727f3f9a639ea04008876ed9c, 0x73012086ab4401239e35744e1b49ef88875d7260e9642ef61b52c8eb2fff6d10b7518d85af4fda8d38e048f990643a2⟩),
  (false, ⟨0x68c437c8a6ae085b2fb0548431541e82127d95f2240e88fa800eeaf9957f11f8270c5cedf90de0adce9e455f2e6464c, 0xb8e93276cafd458cf03a0eed5d06a67f6e9cda4d5c3424f6d43c81ea03baa2e82218650b1f671e33a079e274209ddc5⟩),
  (false, ⟨0x1272bed1c2ccfb12c0403dc73da3ece5521bf7810721ed90151880a01718fc24fea07a2a3fdc1d458f88286ca7ef0317, 0x1b533437ac188c39615a66a7dd34607b6d2e26cecf9f4d73e53575a1b145afbaa33454f2cb70d63ee015d3408c18364⟩),
  (false, ⟨0xdbbccc1fc67e37e60afde210af4341ab3eab31ae6e0cd8f54c599bd463f4f0de28abf9515250bf0afc4e371409b3864, 0x13412796e07ef9b9feedbba814dc7b49152a9e87d1392eac519c8c64d148ad985d31d34b47c5c47a65b8c314d02ef8a4⟩),
  (true, ⟨0x4405f7f0eb7d97576a48f051f572f857982acf763a0339ebde3f4bfd9a0e9a90e736b98ae6fe4372890b1a345bf93a7, 0x79fabf0af8c0b70a400488f2024e778fa534f725f45a60804931b07d12db5f08668cc111cb73813fb6399a76ffe3ead⟩),
  (false, ⟨0x1ebab10ee5b82da9cd6f45de356c03a4c8f6f542834720ceeaf324f0df0de56f1f9e3161495f5a3f0ade5c19cbcc61c, 0xd909e4d1dac56d4232267841fb17b3967972b158228d86f7485ca67c909d410c093c30d5ce0e6e61c96ad06c5e63968⟩),
  (false, ⟨0x187411314e5af5b2e8c62a0918305fa95ff604cb3d043e38b841111e14a4b868bc8031b2f89854c796d14e43025c4446, 0x5d919b4d91785272f7ae346179bc9babfd1f72c393c5937467e7ea1732de980613fd71c9b3934892ecfc41c171e0a63⟩),
  (false, ⟨0x2c368408b13a66106acc29a408fd14ed21faddae6a0a05119e7f5acb21818d85aa63f62cdd038e4b6dc9f2e526c3270, 0x787cef5483c79bf4058fc8c579fcabd6fc768b3e34441e0ea507939381c8c85138c1c4c5a87c7d38ddb2731d9c86fe0⟩),
  (true, ⟨0x1698d40ba8e6443e46709909d314a5e727def731ede6438bc9ce19fdfd67aa552326d4a7fdeff2fa087ddebb476e448e, 0x6ca393e07718a94d1d0a023adcc3d8abae14f7b077e7af822a1d65c8ca9ed6c0fd8140c23e91208e2dab32185472a47⟩),
  (false, ⟨0x10a2dcdbf8c58ffd4339698ca6bd581ed24847e7a852d3e7b8dfcc67c79e6ed900d31d93db3e48bab2791f69ed778577, 0x11030c345aa2ff74a837a7022ba6e791232e0e7dc4141dd711e4614a2a9c5f036770c2ccf78f235deff8a6a6e8b070be⟩),
  (true, ⟨0x6c58027318e8db819461c3cc5f3f6ec515005cba82338695a574436e08f3ca4e0648d529a559357ce7bc831330c84dd, 0x51e084ae987a487a898420a34e1e47215a762fed043831e79b56ec351cd4328222320e6712ffe229ba7e4120bab2df⟩),
  (false, ⟨0x172d1f6364d1795e3706a064ed25c527d3ab50d21b37ebdb1edfc5ba8506d014013a2f7b5c56d3e81c13be1de44f97d8, 0xc1b8dd206ae5e977b3cf3011b9300191aeada293400cb2540e89dce749ccf37ff452eed7a2218e219b0aa911e4fef50⟩),
  (false, ⟨0x14197e32a003c09dcd916edf8c6767f122ca2faf6af20510f4c6e7e53aa6bed3cfb54e141304f32d6d599afce7b343f3, 0x1574f2cfe6f2686760de37d8e90bdcb75361da2765d9c9a01fbfa7ff7d6dd7f2305dfa48c891b2e9494c16d7f196ba56⟩),
  (true, ⟨0x574f4b62ace45823b4b15d59eee8de4ed98113e7cc974fb9c4106dcf2190411e2f0dac076ff9070dd1b63490ec419ce, 0x1603527e2806ae0aa80d68f1378bf4001334b38c8b3c0d4cd6fb7215a4a99d4c36d09107e63e0494c55088a41de0047f⟩),
  (false, ⟨0x1126cc819d7e5bad3f451d179618a120e6260e1d7fbfdecc93d2ba4bd2d90d4f9d8c6f3910129456c5a05474a22d11c4, 0x106bd9b5539e4e86431b218640498d51ae866d4efaeedb4acb0a99913441f2a6823c34bb9ecad60f7012072fe7cfb2ca⟩),
  (false, ⟨0x58699e39244c732ed5353160b7dbf418e0461c08164d203198f664de2eba3d83f2130f799fb994cdd9211c868ca1ff, 0x594e2443e3248ebb16f9d8415967ceb7daf5edf5223109dfc1b6a9cf471d09eb03e367a2480180b7e398aa29749f34e⟩),
  (true, ⟨0x156fb6fde6928c8b54cbf99f05f3f5b6549059934b063f9e817fd80707ec4e6d4863c2be291f8b8d1f9b87e3a12840c, 0x181bb988b7a6ac4fb1ad6f8bd697b0175eb17ee81342816a0c4ac4e44091385178ffc308e667ae7a005ce527167e32e9⟩),
  (false, ⟨0xae7632afe6fcfe4a14bd69cdec91714d5cf4923c97cd08eb294b716136b8475e317fbad1682ad2720d9467085a0fb07, 0x148f477b12f22097cc8dd9a9326fa4af33d5a7601d94dd9ce5b36f9bd8f5e6ffabb0e2b957801142f6369e6473d18ef0⟩),
  (true, ⟨0x158c8ca35e36928450139abac3267a11bdf8bbfc54cb4075edb554a0ad6a846e93ef5b445dedafcbdfa4af40aa85fcd5, 0x644497ab9e146416d55b36a4ec18f2304c3abce3333f37387783a376ee6544c373c0593a65698d3bef96025356d30ec⟩),
  (false, ⟨0x175def1dfd547ffce0259ca3c4e65e26f23d610a28317c19311a226522d1dc4bd6e0dcbe691075c2671958787f5db671, 0x17fad45c8a628e54a9596303236fcdb59888ee7eea50bdfb8906499e7f13cd68951acdf81c0556d298bf7be9f91957a9⟩),
  (true, ⟨0x10d24c1a2967bb682387623b857c4c16348e7ab83f4bcecd1d421c227a2e660a1c8cd0ddb49aad03b1b8b5cc6fed2102, 0xfefd7538e5fceaad24dbeabb9bc07e738961f8a6d8a81e47a7cde3267a2489860b835a506cfd13682c4bd17d8eb0506⟩),
  (false, ⟨0xc40d886cd61b0cf1e794968af8039d5098b803b3792f0dd5b9b3092cb6458105d0d00c3310dd2d55b38457b63a81543, 0x836ab163b908485f6fe3a8a58957020ada8c5a15ccc2cea3d9a94233feae8290669830dbe48d626cc81396cead2fbe3⟩),
  (true, ⟨0x390352576358de23dc6099f8999b414595125725478f91a5a310280abc53b7f2c366461ddfa7624d6ef02648e87fba1, 0x190c0092c2615450cfc285217da2a99d3df9f90eb726f8913340044de50ed5a1be864a22791ff979ffda72991cf443af⟩),
  (false, ⟨0x5adf871e09a334d474a66c0e0caf8224fcc5bd0330b01f036d1afb5fad6719021358da095fc364803aeefae1fa530d8, 0x3078cf1f7ad73651f322ad20c1afeb607ce2c67c07f5f16708ec64d040138d4627d29dfefe798dad7b5691aaec0a468⟩),
  (true, ⟨0x51ae797e6453091b32d1e530951c9c653765640e31ae5e83a688e0138b293a467ce56262c72ed95d5f6beeb0e530fe4, 0xf1c7e5ac63358ebb82b22c74c3d422eac1d3c210e03bd160aa0b23b2b5d05a61c92c05c90f0f79e2d07931dac6da133⟩),
  (false, ⟨0x74476b893281f0008eea2e7a71af9aabb2d67dfa6f6054045088a42fe1ae89a24a447de72d937028c3615c222699fca, 0x1636c4ccb507231ca99eafaa30557edb8197d01e946ede11b70b9486be03415e3c4bcaa7bfb316dfceb3d75d5157c169⟩),
  (true, ⟨0x1198308093a11d36542dc4a132d319c535270334b16b1c5d03e4c9269e1b573521ba19fa003dd44bad8410dbf4350f92, 0x4f6f93c0dd58e8c51aa098de508fc4699dc880ad2d333cfa48f86f15ff783f02640e532e65890fe751dbf3232ec4b26⟩),
  (false, ⟨0x1086bf2acf6fe39a4a451b0b4d8388b919fb81b5adc4a88f32f5fe12a0794b9dfcb449cb9a92f0fde2ca7f4905309ddc, 0xce50ed2c0a67eb567fc13d2322449f8155873f9a2ff01354c1ffd08b2bf44ec50f316913158656d30f4d52e3a4b38eb⟩),
  (true, ⟨0x9145d863b9b690ae2e14d475dc0fdbb9791ee20d934c2b2b88d58e5c0ef7be25e28b0ccf9dc0274206fdcbecbfa847c, 0x10e268ca1c267b159ce50c276d6fd91f1818a6ba9b27b5b79eff7a1732702d9b84a36dc27c9233515aee612c76ee387c⟩),
  (false, ⟨0xfe6b0271f65925adc96617513ea504f7b3945f651139cce95f42aad8fbb813d86be339ac9d113b317a06ec24ebdc0fd, 0x166ffc3eece8bcbf52512131e28cd9145f465e79c159f873ea994799694d55e809146ec95894259c05c3a028f86e453c⟩),
  (true, ⟨0x1249c0921f7fed45e00ae0f948f63a74d8819bc8f69e18ce196ea75ed5549989f5660096507e41702feea8296aab3e58, 0x195f9b9866c4f88a7dcd699b34f333493788c70e3108935ec53243018bfd43e1910e8be343422bac1af3a47bdbec43b1⟩),
  (false, ⟨0x15715ffe308a1522c0de7c2a2a8890d0d5bd4df8217a53584638385930ccebf0865951b996234ac4c1a507db29dc0705, 0x13d7b6dad06d78158feeb40ba5d6b5e833313c6d310ac4c07802eda1a6a3acf3e60a550677bb66e0f116609a97e9e994⟩),
  (true, ⟨0x1c904c4f4e50c0b253e1eb26e3faa574e5f69322b0b5d37ebd720f7067eefc487abf339cdbc125514e8abc1bbf530cf, 0x4c90ec1a95f695b04ba0e3eb1ede4ba4ac70faac55e7e28227fbaccd6a161cad5fa6f8a2c4bf8aa8a2e7532f5deca0e⟩),
  (false, ⟨0x50a267eb47c79d9752273613143104f01b3d53ca60e549af9496bf9793eedb9c17c8a99959898ae3f8bb130a1dca0b5, 0x140998310efabf548b3336c57c95fa8dc741eb15e1807c3a3b5b2c1b392321e7d7159f47d27550649ace42e19a83aac3⟩),
  (false, ⟨0x228c7d7dd795aefb132ab9c22f9a06bfa9dc3554d967726db21be09f5d7b32f4f0a1101b9a55e9e2dbe53265fb8fbb, 0xeb523adbbc20d8802c7a73759ebe5b5e45bad4c9d831111b928c734151318229f6af7864daf98b9edebb83d0b695266⟩),
  (true, ⟨0xdb452aa13fbff956b1b9fdb04488036b64c04a53715cbe89330873ac3714bc4a51fbe6e87bcf4810a2ea5a6db015622, 0x3f6a100b5b125bf0c8a5f7782de93e2612028e9cc92c94de3ce3334083dae4336598f5e5b058f300ae2c5814c9b0ee⟩),
  (false, ⟨0x3deb61d0f49d0a57c2881f837ae49f52070f1709eb29e9260685ee01d824a59efe9383fb0c3e22a2857a686eea1297e, 0xc0c3c485b47a6fe2132c0543e4caa9d1da5799bd91bd40889deb255664fdb14c1a4085f6417e72c2589d7b137d8f130⟩),
  (false, ⟨0x3cec7b16caf1f3f1c5a06bb632d3ab50f563212092dd6c0de2b8324ba3d9d68cd39358444cb3b48de594a930f057444, 0xa2e312d84751504fe1824ddaa2908339f14587fa16660bfaa4e820641b5c163e7dd525e934f74662b0ef9b03582906e⟩),
  (true, ⟨0x1037a5b41ef5d8137106a87e57e3d2c131c9288c189aae618badc6242a9ce4c81b73b9b70cd275037571353cbb3568dc, 0x8e3f0f12fc505f1e65fe2cb64e84d925a0dcf7d91369ee18f389b9c485714da82b107c8a27272b8cd470d3a172c795d⟩),
  (false, ⟨0x560922e975502a607186da4e50f984c52e2cb625214e4c5c95ee824ee1b40e9e62a36c98e5f44258817f3b6b60b17c8, 0x145c2c7826aeb753bdda508455b304260afab59557bdfa10e03616a5aec79fdfc6c6b2ce21f1312aff8a0e6ab68a4412⟩),
  (false, ⟨0xd86054c99b45c25bcbdbfbe125ec2c2688330ecc7698fae9cf392b5f672c006175f7f9a52d8644c5447142ce91ad18a, 0x128358ac12986c072628c6f7e3fed07562a4cfb98d05b3674ffecafa5a2c6726d409f456dd646cafb89f84dab0501d23⟩),
  (false, ⟨0x2cb5da26c8f19a757611ddde554b28fa5161a213e8884678ee8dc5200cac5fda25633e1abe65c3ac7483c2cfa02bd7e, 0x11328a62e5d576a35da068904452d215c458a11fa93151223506be6341e33ac1601973b6fe607178ce870b47c47a1151⟩),
  (true, ⟨0x7269cd0bc7f5930a2835ecff86385c58f23e9ae2321509d5a94ef917092cc401ebb12cbcd37b37f956a8bd023e54271, 0x16da9f6a33ef7a829c5158493b3b7eceacd362d0528d1c7d311124887a94fe19592e18dfa0c8fe7c28017adc684fdc0d⟩),
  (false, ⟨0x15192aa68077432e6a87fcbf8c68ffeb8300beebd544d01fa0e0cf1a78350f619c9e75148936ed9f0ce391ecd913954d, 0xc64b2545ae14b7a0a9c98437c66c7ce014ccd942ee8fa6062fa7a6b1e366b1e4e4121e1ff30cf70de6905f51f450181⟩),
  (false, ⟨0xf1c44f17d6f9971478d81ac23853d58d2d11e7df35c068b50c994fb462f2acdef6a9af8b16235cb23c3a00fb3d4c25c, 0x2b4c8ebf5cbcb727398fb893a1f74ab76c1282aa10985750e508c8027d9591d93011b14288900cb0e1e2157e348af20⟩),
  (true, ⟨0x17e56947053e06cb6aa4bf214eba95879f111f6ed08b194fb9b4306fc39ad2bd2b9fcdaccb3a9be61d4a8f45246a1ae0, 0x13cc21020ccdf176d24c8674593207572c91ce971bb6d98d5b3907268bbca5cc6b84cbb777b57662bb01bad18a2d6fec⟩),
  (false, ⟨0xcdb57ca7d8b6b7388f92180f9f558eadf3189587d1212b2ce3be36bf71d34d9c1d5a5f2c7efcdbf6978967d5c772197, 0x1318601bc0da5a464d021788315e75c57c35b668fe48980ca0820a79959ca644f462dcf8d1b83f023543af92253c7630⟩),
  (false, ⟨0xecca88e8a993401a6e3c2e20a11b893c05dbc925c6eebe8c38f177addc10a41844208030a6cf40a45c3dbd695b7164a, 0x1787dfc506cac43db1380cd28e322da4b4a93d3316d822fadb26b3db5068976ea274043b19f4caab88b638b8bcec6174⟩),
  (true, ⟨0xd53d9ef93cf48a74cee43c1ace135f86cfc805b220853587d5b6cd09ab635d1b6f56923a54351e9e61b9586a4b2d297, 0x121ce402de658db8c4b3add04d87cfe6554f03e33fe3acce6b2f210d64d0a1f429ba0f83bcf7ca3dd3b1a2712f982c16⟩),
  (false, ⟨0x6af04bb458a0386f8f3836e932417c44593154a9c1537103b9e64d4991c9011d01249548569ba452217d795ec001cc6, 0x8f85264d6b4a13cf1694d3740162aa85b2e898c524ddea606514fb4343d9c6b98130d8885ecacb34376e3041babfcf3⟩),
  (false, ⟨0x159982c64c35545c858cf1dda31eb82373eefe3ded13292da887e27b36f379d916a9bfc8ad71977ba31aeabb35cc87f3, 0x10edc877815a9c9deb2374ff725977c6911ffc155d5e23619107e4a58d6e371234bc2aa13a1c118653ea1f279e03a514⟩),
  (false, ⟨0x16b10065b42177b86be9dd2a89b38d11988419228d7a740a7ef2c29f70de4d37868eece2322512b24ac5f2beb0b2ee9a, 0x1546f7c3d3d3a2859153c3380a1401edb388dbee0f8460b747eb572a850daa31bc5e2e4b0834b2e23f5b9a31a70a084b⟩),
  (false, ⟨0x62067fd817ad1872fe1315a3ebcb814e1e02a7cad58f4abface659869251c43cb84aca2f5c35364e1b5c6c6e9db068a, 0x11a41bc8d69ae1cf3fc930f2380125162ad4818e816d72b798ad7a3c45d880991b3e43b1566d8f9e579ca4cd9e6b9414⟩),
  (true, ⟨0x7b9d0700d0d01bd48da05944628dd59e3a6bc2d486bfa274f1df317bf132b6249ee8acaf5964f7a3eccb4fe2cd156db, 0x31f8e60bab6a23a8c71b3a4d0c459e5f6ecb23abeeaf6a6ee0a16964064830fd315274d57ed431c86e81476bc824cba⟩),
  (false, ⟨0x1166e962d9737439058040e26a763164099c592f16d2973b21acba0701978d4594401453de006c8a59806066b4964272, 0x13ae9f0f77b9e81d2252f77fee300a894ad6c4164df5665096aa41087fb1c643e7464a0ece2504624aa8cd368875bfd1⟩),
  (true, ⟨0x9c97fea9503b7983cf7c44c6e0f0b70d0c60d20c5059c34a4a589da5b5c63157be06c84e7e876a158276cf8c0290626, 0xd7c9933e78240ae969fceb9644891fae9236de6bfcd8fd795c2159ac9dedd4a6ede537d994f22d9cdf75a72f6d41ef0⟩),
  (false, ⟨0x3e61230373fa359174c9bc08f16ad2be626cebf96e3f7a59552fb2aec4365b35626eed6b5aa6918dafd3c5b91aefab5, 0x139e6095c16b282d9a263013c56975dcf8cd84fe295c6e1b0bc3242791fd6638878a97375ec8f8864b98af65c102b91⟩),
  (false, ⟨0x9687dd5a198aff5600a7db08347d302bb6ad26d60fef9dd1506d61f3d97468c7663282d3dece4f8c57c3cdf6c1c8351, 0x19cc01c832d2aacb19c730c8e2d1591f4e6826722147188b10dc53d476ef087992c382ef089617f07acb79979508d1fa⟩),
  (true, ⟨0x26e79c15f85aa25341c9b16280109dfd80f86942a6d57bb464ceff9512019d52dbb460340af4089b7dd72e6557388b7, 0x18def8e0dff3a91397b62f72f970548b2675720bbc4a1730fdecf630bc529669ab9f449175e0bbe850677715a541d202⟩),
  (false, ⟨0x13b1f0b802230b4c632168d97c8ea07993120dbf32d1735c0c8fc7153dc86d2bd2f3eab0809367129f1516115f5d0242, 0xd8b17082f33c9d23d36867a808e6c957cb8fcbe6c525d8f73bc4e3805cedd6548450ba579c0ae7c82f291a82b37c1ca⟩),
  (false, ⟨0x99508a1d140d2797a65b2557b6b2739ce30f571ba22b9e65e62dbffd22319dacdbae0e99f13ad339d9f418b6891aecc, 0xc527eee17a7c382b2b0462e2a5320a50a21f4d8530056c3639dd7a9863023bc9f6b887433544396bd4f0b9ee88979b4⟩),
  (true, ⟨0x4e9507db43a3f11d425bfd15b939ac1367cdcf17fe5f6ed300f63deac1c4c7b3fd537f49a0033d813dd3ec6617b07ea, 0x2696da8586fd0e9c02c25f7d6b42ff3fe076d426965e5446355cd3ba83d6a387291411d8ffbc7091dd1d59eb6c968b7⟩),
  (false, ⟨0x15e84380d2427f3e12230643f77518f52b28dc0a409f20a4f420128112ac4fa353870b3815f06b4389a729871c5bf2db, 0xe76d62583b341e10d42bbf6e56a8b29b893851710e80606391667d468e40a85780e304240a4b15fcb4f4813fbef44a0⟩),
  (false, ⟨0x1817a98db5ee6333adea644822286197d556a8b94dc1631bf80fe7deb0376628012c8623f0e1938000eb1621de8d7f18, 0x8cd0199d4ebe87b26faa22d37b8cf2cda1c912bcbe96b7efba5099303f959da531c6e862c5e26c80268a34d5b9715b0⟩),
  (false, ⟨0x16d167f4d5dc37077a9f87d536d0f83c65ac531666861e5b4306f134d8018423fc876f0a4418df9ab144123ad24d02eb, 0x7fda077d4a28eb0fc3f1c4ba5230d68645ac8e507145f29248c2d5848b74a026ec8662c7be472562ad4bc92627ace10⟩),
  (false, ⟨0xd1ef330e2dfb64d651909a634128b7db1af822c46b86db6fcf68a92d529a5837435287e092c41bb9376920f0a395d61, 0x10492667d8638a6b00c4b51b60134a27a4a13ae405bcb30e75e12c2db9500d334b27ed1f928d8d5200425abbcb992019⟩),
  (true, ⟨0xfd95cf45a4127d6799c22dbcad67b8edbe68901472e55a7e5ea30e6c1022b6d97db683e66042d6e52864b7bdd5b5df7, 0x18fa348731300aabd07b85477c5ee1d0ee3e7fa3613371d4a190a93c4cb168e8659a3286a8ae3c8b6fae45f2e0ccf716⟩),
  (false, ⟨0x11887e4b03ad1f4950d17e2b0e5ca48c6bac39b3f9b0b5c83cddff666a4456e88e638e3dd83b5f529c9f642b3552790f, 0x1394bd81f305c33829576068f0301199fd9b1734751ae70b47fe93ce49bf26ed2955832935d941d36a44740796d179a8⟩),
  (false, ⟨0x175505840093428b771e0e55627b250c349983b75fc687947b7a66b6ff2c4ccdde83346a804d0540c2eef18747881e7b, 0xa3ffaa3a2f6ecddcb340a9a6a138c41a14050cc1c517fc34f608776dedd6e752346e546ff48150846b16d94db09ab5d⟩),
  (true, ⟨0x86ed1e88cd5a7451b61dd54bfe4b88d833a5a75a58f30bde2d461a6fa8fd3db4d2e3462f2e481b05febce9236d462dd, 0x19e662bee11707fbf073e382af3f985bc37530f299e2af7be26e1071ff41562e45e138af3b9f065226ca8b0b17e2e78⟩),
  (false, ⟨0x587e9c2aa4986a1cfa8f52be37956f14c155075d6f18344fdb898d84d85d45a4f118bf563497401bc79964162147ece, 0xe834c451cf770352fb8bb890690b021123327b8096af4b134b862f9930cd1e8dcdb1198eb6b099bed980490734baa2e⟩),
  (true, ⟨0x117066fd891b73a103b58d887a64491fb39addd8cefa016cf17975b3e4e8b39e6b74efb518716306c19c19dfa3464b4a, 0x1139bde87774008fa3b76e11cdd22ba570a6829223843eaf35b13bd41e867cde8f520ff66a7ccc4d6cd3e210328bf400⟩),
  (false, ⟨0x71112294b2d33d2b8748a804cf176f68eaa7cdd5052c63453f33c6bcb5661d2c5b93144b9d604a2720af0968cd6a75, 0x3dec82ff9469d6aec3223e0bee62674862a3d790cfce914d53617ea5123c3d16c2930c27bf9a72e563ebc72eb858be0⟩),
  (false, ⟨0x108de53f8012532f4f0813833ad6c816dba26d850f032f58729c648d2bf597415d176b23344eff34fc9d98f593f2c6ed, 0x15e800bf5b6390cfc242d6b6ea785ca16537210ce99f053bdd4e904b37f7903ec9259c89ded0be0d8964d1546124abb1⟩),
  (false, ⟨0x12bf6385b843d4faec8c74bfb1ecb6e3db5eb5948b655dc3afc1f1e5d5c88f7b08af9819a54e5209c4526894dc7e8561, 0x415928961baf2165281ed0aba54f88d402bc25755037af60a16754db1744a915834ff7a9400333d494cad68b671ed94⟩),
  (true, ⟨0x198b9c90b437df1b636172d2706675561fcdfac2c3d1fbad2075d16fcd12157a2f7905e592735bd6c112dff960f62ef6, 0xd5f3637abcb519a9e19109c0095641f938fbcc1b33a59ed2ca6afeb2f00927120ea39a91f140f70c42b7801b5305ba2⟩),
  (false, ⟨0x3e5c2111529d4ff8d33c2519fb719077e7fc090c55eeb786e13414cb1acb4cc4250a98598f66f0cd39ea91cf5342694, 0x39597abf1c7d749ab937c1c308352d018c405f451460b0e7efffe90a2ca810c8c6771b64043bc60fb9a79e5b49a1cc1⟩),
  (false, ⟨0x3ba23b7c6a4a9704d23d538e213ea5703afd95dad77536dd258502f4df7c9d57e584f318c7dba394c855badbf545aa2, 0x15b9e70076a78506a63f294807276b8b7f392a0fd853a3f86fac572c57a36ca644133bf9009a9d4dc9017f6aabc2b87a⟩),
  (false, ⟨0x15a032547936653d5fbcd9ae77d3345392b0cb2b006a935b8b41ecd176db15da5622e75df321f82df990bf7ff193a40a, 0x144a7abdd584e48171c82c9d4c22376aba32a814cfc4baa24d7698e5e216127ca95eab0daf471a4da0d8931c72ffff3d⟩),
  (true, ⟨0x1310be0795fce931a38d495f3311f76e1d9e06e12c2340391eaee36e6546b3ad0a898d2a1657c14553b1f61cc9890d0b, 0x191b41a1957939c78619307338f1296b6ca655ab70fbb4c205508dd585de6802fd94e803278af1f3af3770f43bdba0e⟩),
  (false, ⟨0x6600856c6bd7f7b6d2b102a1997d00b6903ba710c5fbe77e0ebad894a52d32d39888189a282243f463cd1e6432c8a75, 0x30168229f0515f680d0cbf65fea419691648a2ef70da82da466d217a9065cc57f4619b187cbf0a2e0a1b63108b53df4⟩),
  (false, ⟨0x9065a89fb86a6d704f479399738a980d00226b30616d692142c002359454a99426a4370c32b689147ee3f529f94fb66, 0xd4ccdbe24ba550e616ef3ea224207565bcb46672dd3d7ed56320664d3b3f6357b904d5663984929a0414fa666b6a404⟩),
  (false, ⟨0x1868cb75ab911fbc4717c1620034f631149b480a21e2f3dd103ee04685e0a85193be98bbdf7f41aea6e05a6aadf5f451, 0x556607c8c630921c863b89bab8addc0aad31bbd4f81ff3e618475ca88a2fa009c70367e21f20d0b8a4bd8ad1a06ab7c⟩),
  (true, ⟨0xd93d7ee5b6b99f027307cf96e47aaddeb1161c775cddff542fde742f6f55e25b93b33ee289ddca25e8cb4766f3cf027, 0x157457adf82dcd7f59bb79eabccdd58e9531786a929c81b71fdc96c5c3881c5d0fd55406484c7bfd1bccadde90d01668⟩),
  (false, ⟨0x189f2b1f818564735dec243cde654dfed7792b2200ff152594ff011ce3a58773b39b40b8ca71b7da42fd787b6cf75edb, 0xd553e1ca6076b7f2e68188e191dc3a79ee82fff8fd2e5a6a8a17dcf9fe4aec7986d3ab5082ca085251192ee18090575⟩),
  (true, ⟨0xbc141fe24aee27d9041818d0f64494393c2d0ac01d67b3ad2f4cfbaaca9230523e941e81ff05e330476783762cf0947, 0xbb5352d7e9cf2baa8e7a20d5021f01ceec003b7dcf4888356b0d939ef961370599d70f3d7e29c8a01559239b4730596⟩),
  (false, ⟨0x11f1cd6a981b1257b9654c7fe4b8cabfec0049c23821ea53e4c2382b8420019c74975d7188a52653c355571d98beef98, 0x121520f94b7f6240091dba8b6759f66e9f496cb2197a6541082581d47ccd33e78604c1ab2403017b3ada9f408326a7ce⟩),
  (false, ⟨0x173e9aab5257a2906d04572cc29b03f717986f33939b3bfe23476b423698b84bbee53514b8d82c0a83517b11fbfaf3b1, 0x16c3a8848f60c824c8cce506ccaa2e0b5b171b60ee3727d2642b7cc20a79909a37cb54df69bbe18fd78f3c87ac20c6a1⟩),
  (true, ⟨0x18f97dd1272725b90d27bec1aac87d6162964de71d96ee9b6f02d831e9098c706bcde564e6fe54902e177d6b076bddc, 0x1718891d29a1dc1a09a508b4d9229926566d45229a7c6b46f6d06113ee27ab0a6492f6f93e6c158bde1b0859fc3eb48b⟩),
  (false, ⟨0x1119defa7e107b795888f0533983e0865dbb3aeda29cbac217b4dfc9ea6f2fc0a25d396561ffd8ce4c0033450445aba7, 0x3d5d7110c62d47f09fc2280f4bf0fdb59f15f8a9d35ceea5a28d7c4fa073f2bdcfc3b0cd40e5ba61942f3a8480d0ca8⟩),
  (false, ⟨0x170f49c593a33f37a6e4d60e282abb4365e9d6d12bda5705dc59133ad9478a829161ab042643e94923fde99d354cd48f, 0x60a4a2da2632bc390fa4d691426ceb0cddffb2a56cb05af38abab1190820752ad8b97b98e8f99845cd99fd70658afbf⟩),
  (false, ⟨0x3c8904a93fa147d17a2d1e424fb7ba65f6e2d634a9f3b5112494930c1f12644bec081f7715dfcfb12cf9e4ff4db4048, 0xac8ad0d26f680470170a1668445bc9072524af13a708776118aac6c01232c2e3231130432d29df93e9560516e4152d7⟩),
  (false, ⟨0x611a249e6be8d035e19d62df632c9dd040d88ae65da5174104fab59cf625bbd46b11c941c13a9ecb2ce9fcad4f8f5f3, 0x6ef45baed24fc5cb071da75f3e6631e0b1537c7b0de2ee41e8c79010f1cd0b479a477528c556bff0cecfee36caad713⟩),
  (true, ⟨0x13ef75b13f4e224386a672d956c4949cfb5ecf7a931dd9d00c7a39d7cc52798fe908951598e9403e9265563acf8facf0, 0x1437a078447d0f77307b6b29fcabdabcb375ed93915c668eebd397ae41358ee528b88d768665158209f9eaa3637bced2⟩),
  (false, ⟨0x66c89a50fd19af68d811098cac59ef6bcefc66252319d8ac8c22764fb52310ef57fabd239b36242014343da20ad65fc, 0xa12f18624ddb0bc7703f77100522f2478c6445d8ca0e3983e7829cf3b89196ef6ee18935933a30b2b7707b7599fd689⟩),
  (true, ⟨0x9e8eede0eac8b781f2355aa015394b8b6593858cf9172a674cad7b38f44dcdbb544a2c2d8ec538e2ab9686cbaec08fa, 0x1662ae1ff4a5015a98d4a88ea46c113b54a8703d19298e5a3175e7581a4031c58b35faef5deb6789b00c3443bf346d49⟩),
  (false, ⟨0x8238b5e38dfbe79a1eb8017c655047aae77fc0cca3b26f79a6f03f52af8e804b379846f2df819dc05ed993489eee4b0, 0x92e247b7764a387fafad12797a38576d0b549b7acbe553e3fdf5055ebd335ce19f2be8a77263be79f27516af097f72a⟩),
  (false, ⟨0x17407fbfec8c4e87295ec53c4625f4e517ef55c10c89321e66d80524ac7b49f93941e389a855988c4c78d4c2013d4fab, 0x8fbba9229072cdfb21aefbd706bee4566afec33f19700a2660ddf06babf71f34a9f03ec1111bd830c2cf4f2e8624f4a⟩),
  (false, ⟨0x1361dd096dcad3b03013d241b614b3760d280dc432e3a14cd0ad79d94967093a3dbdb5ae83b4a604e0ee0956542ae90f, 0x3a63a6f80ed63c99a4c4a7a47f1c8c9793bed4ebee3083d37628e5af720150cf6f5df7d31f0a82738feb1bde0899b0c⟩),
  (false, ⟨0x409b3348ca9273c3b911a6d3dcbb1ede97e9fcbca6156736d2bb58d411f3a18f7af8c293b28db5dbcac797bba492ab5, 0x1270e51940c0943efabcb2f2ab1ec1b9fd50733f08d99354a20dde54bd9cc1a221bb16e7783c6e4e3fbf2d8eff14502⟩),
  (true, ⟨0xe62aacefb846ac7c9937ee54d3d6fe9414f0f009eea620c63ac178dec3ba9f795d906b19850cacc268cbec6e3690056, 0x9db745e0478bd1ab6d21e22b4c0493a66326ae2030b39d8c3055b2c9a4d868bd192be603d2d6b7fc425b89a9738b442⟩),
  (false, ⟨0x8779f7f8fc50d0b0af29196451e308f028c0c0e7fe070ff2c164a47d667542d855c419eca0d5c993db393fb0baf4d9e, 0x192b80baeb8bdb638037beab9f962f20bb457d9e672107a903a97ffcaa7647f195ced6ec79db411663defd7f1ee3cd13⟩),
  (false, ⟨0xf4e10e6210a58b0d0e5f4511771654f15e9451fbad89a2178cb575f61014ff5bfc8fc3d8e9a4c61419908a0ad2771bf, 0x146b646c486488ba63443e713451da4b26bd05d6830352fc1761bdcc5621eda13e6f5040fb1e58eee849fe2a4daf5eb7⟩),
  (false, ⟨0x3bf30c883b449a5856d360788da78ee17b2583b14fe29fe762e3a4a0a3775e8139fdc5ea65d53c129d1726ee0426222, 0x30a5185b0f6a7d3342411034b7badfa0aa048b9efcf69b50fa943c592e351557b4746c3185ec66e267567225c51e492⟩),
  (true, ⟨0x1521af491fce208e26705da91f72b3c4f559e9a640ac92a85c5966e66cd32e40c6b0349e89d6abf7130150d45b566cad, 0x117795ef257f94df9faf89f68e2d4cd691b71f44c078ce39056ec9ddf050030d69e9deea24e3ae054c0295224f3e85ca⟩),
  (false, ⟨0x6d88f47791df42a8245450224ebd78b24a48ecea1b0d2d5925d2acb6eff3a08100a0d5af0d74b42fd57ca9d18be6024, 0x16dbd85eaa55324037a67df850e98aabf0573eabcb625024ce7edc7daf802ebf1e61b4d4070f574f784ff4f5ec84395b⟩),
  (false, ⟨0xaa758bb05421ad331b78bad59e800d0f8b1c70d57e9ab065c48bbc47843a936e8c6614d1b2fd6312b5210a44343d942, 0x136f2619ba76f37774dc0f72cc8a43c5ec2b7cc0f4b50ded1b96710bacbfddb3c472da19b5c20cac19e187cf3426983e⟩),
  (true, ⟨0xfde7c4d70cd20d2e5b2812cfa7aa703e7932be5af2d869c989384adbecfda76b98e3f2c3d8997e92acdc96abbe00f8b, 0x29c3a3ff96c354040f2b59694c40a0af5734bc7178beb35426e9472cec3ce6ecdb963d2bd30707c85cc22d953f0382f⟩),
  (false, ⟨0x11a6f47819dbd5b96ea8c21090cc9fb810d38d455916ed9de2d632f94b9c3da2fdfefac787babdda9b970d68a771b6b, 0x45f5f4bab061a11294b2ec3f7e618ebbc2513054a7e948cc90d999dbc7d153cef4190a240ef980c7ef5e8c02054a551⟩),
  (false, ⟨0x8e0de547c07b77e644f7bf866c629693a2b6002e5852387fc1067a92fd5d6c0d18a0382ece59457686ed962679195d5, 0x13c9ee46b71f383cb499a92d035da393551f1bf57650b675376054793979c4d16841b70c80ada0b9a9619896d13db2bd⟩),
  (false, ⟨0x139b21f885955f06e3cbf313ecc4c10d684419a30e31698c38d4298c7c7ff823fcdd23356fcfed397d043ffe5a0ffa1c, 0xb44cedb7e0b7ea4f9b8c6f18f5c33508e1f3705cbf0b769575a60b740c7d62ec8f3d05a1e20ee22d2dd9fa1d0953987⟩),
  (true, ⟨0x1838e14c9ae23c35a60c48d805cc4b2dc84eff61716c43887be601c4c28ecee975ef497317e9ba934ae10a25910337bf, 0xcfcfb373de9ac4d2757731ac8de7375b823260ca2c4b31f014072376ee24ed9f95539676fd54144d495524ce54e60c4⟩),
  (false, ⟨0x731ae04f8595107f75c7e98b528b13d4e44058132fb01ab31407626b2f13a3dab32a0720f2075350a099f6d8446cfcd, 0x11d20d98bcb15fc80bb23f3503d75d529a37684807fe41afa30413de9421c63b2ddf541d12ed5d5d42e24bf72350fa74⟩),
  (false, ⟨0xe8d7730513239d145e310821821d174d3883ca7bb73c3e5493e692f76a3ae1d638f1b0ad3ed9969187fbe16ac3a1ed6, 0xd66970d3949d7647c4d30e21b551757f7857ad79dc87997f5ce68b05f46627b16cfa3bfcf6e93a223207da5eb7dfb8a⟩)]

def b13PsiX : N2 := ⟨0x9c801b1c24e6662e6c94f9b8f0ac01768d0b974fe1ad3d3727c7afc77bafd60e086aeed8a678de31267be27fd73543b, 0x3a58fd8e0c4b1a4025da5ca3176405ed7fa11dcf55003b1ceae958a7a62815f5f3a79792d91eebf83ccffc228784a45⟩
def b13PsiY : N2 := ⟨0xdc15dd3a859130b0ea592a28a701de2591dcba6289b7566f61a3b4189fc29bdd362fb50ec83bc5deb4a60a992d1c34e, 0x6bd8a12921ffeb7e44526f18db0b4ede9d625d8f171e4da83dd5a09ba7bfa8d3bc2493ea42888fa2925398097fe24db⟩
def b13BSlopes : List (Bool × N2) := [(false, ⟨0x9bc1b119fdda0d7e04255bf3c3c480abe53910c04fcf5c73fa55451d6e380134b0224d0beb3954ade8aa9dcf05669d3, 0xcbb04b60b0dc82f9fba0eb8523f0b8b2b1f9a1fac103062ea3b14e95bec73a29d7f8fa4d24152e93a28608a766e00fc⟩),
  (false, ⟨0x596e7d50e3976ce7ea81d52e2a9526eb490ceeb4c4e77e30eff36c5a9e2160b44384387d44975367d89b7e9f6c67e64, 0x349df522223223cf6b5ddec9a37fa96f963efd816a12d03fec5590b84a9e706a613492e00594801dad98978b36c3e0b⟩),
  (false, ⟨0xa6be0f6cf1d6aca4b365cd9642a645481f496c86d3b1f4462bf0d2dfa76db72432330526b2a9fd2100b4111cb6cb84f, 0x57e11903a77adc73d69ed17b7fbcb94fa2965cc6d8571f18b49ee673f6cf66040590061f0bf81f4b494a74011ba148e⟩)]
def b13BX : N2 := ⟨0x3b6f406ba15bdb68b79876e2d945db877818dc2cd072d66d0a04e67b06cad0ddb16388f76903b395b682cbe636e87c6, 0xbca17b89f1b597d2c85e8c958338024a58b9caa53b4bac0a4ea4477529d59a7486a934c1e6175ecb6dcebbd5723acb3⟩
def b13BY : N2 := ⟨0xdc15dd3a859130b0ea592a28a701de2591dcba6289b7566f61a3b4189fc29bdd362fb50ec83bc5deb4a60a992d1c34e, 0x6bd8a12921ffeb7e44526f18db0b4ede9d625d8f171e4da83dd5a09ba7bfa8d3bc2493ea42888fa2925398097fe24db⟩

def b23PsiX : N2 := ⟨0x141e3451fcd784480631496913e5e3c6c76b9e24e52d50a0c2f004a59a1795dd9501c0413c1871491648e38081968be5, 0x186bd21c83ed70fe21189414fa622e972c1c5405aa9c0893d2616dc8da971cd08e573a775a4d5e87ec196dc38e94e049⟩
def b23PsiY : N2 := ⟨0x4e96591930874da372cdfdfda00397c3efcc3ff64b4c9c32934360e517ae085d9848b4d2652c241f8e3954bcf8dc4ae, 0x1353aa410de3cc75b483cba0afd192ab5448c9913ea2aa2b9cd83632229f91133d059f7bfc876b8d8a0bf7adc0ef471d⟩
def b23ASlopes : List (Bool × N2) := [(false, ⟨0xfc564d86fca817acc4fcbb76e8a76f08e7c9cd4c8097e615a0e6703ba8ef1f387f5a8aff9d2b4e476e5957bec7e3faf, 0xdcdf32ec3cf50a50fc51c36503b6f9746c5e024ca951e4ec8009a27d1073017fb6759d78d59177f17a19008dc3c9114⟩),
  (true, ⟨0x10efced0a49086fb4de437744da255786913ea94c13848a482c99ac8c17458962594947d737cd2a18e300f1669250dec, 0x13e29eb17c94ccbb5b486da3fad2039ffd232416080873f48cd494695ab96a7434e0b95385c3ae302d08ce1589dcb3d9⟩)]
def b23AX : N2 := ⟨0x9e0bf4256524a407e97829b67ccc85828192c0624c8e845ddb03ae73cecc16bed9bad2b5831ffc895c1531774c434d4, 0x98c477348b39e7b79bde2caf686d0fa4b60f1402ea61cfa6ecd61d30d639c9a87502c73f41d128a1555f3be76a9e64c⟩
def b23AY : N2 := ⟨0x26e6a04576ab59655a77e2702175bf8df7b3e2a32e48accb9895b9c21063f5c45475a865260d33b3f0a93fac3b24447, 0x52cd0c237634c4bcc7d01de1232e14314ec61a6f6d9c9bc99edc690f09430fbbf4891050471eee7d2c2033b8ce1fc70⟩

def b23BSlopes : List (Bool × N2) := [(false, ⟨0xfc564d86fca817acc4fcbb76e8a76f08e7c9cd4c8097e615a0e6703ba8ef1f387f5a8aff9d2b4e476e5957bec7e3faf, 0xdcdf32ec3cf50a50fc51c36503b6f9746c5e024ca951e4ec8009a27d1073017fb6759d78d59177f17a19008dc3c9114⟩),
  (true, ⟨0x10efced0a49086fb4de437744da255786913ea94c13848a482c99ac8c17458962594947d737cd2a18e300f1669250dec, 0x13e29eb17c94ccbb5b486da3fad2039ffd232416080873f48cd494695ab96a7434e0b95385c3ae302d08ce1589dcb3d9⟩),
  (false, ⟨0x13ad3fd6df1fe3d51271e2cddc39222942bb5a580a7d2919c65b9ef6458250f37800501de3fe876a99e5fe3ffd06f0c3, 0xb79d155ca1d15efaed43952ebcda39e13b3465903dde6816e0aa0b6e9ba588efcb95e8567dfdf2b4506f3e4b48c8ab2⟩),
  (false, ⟨0x7c7fe3673b48038954e4fe0e9fed829e3042a074a5b52d3cdffa22c7cae3ab637946b087275ac9898374950dc53b170, 0x14daf6004d8b128c4a9f8872cd55e57b8a2401d9a285ad20cf1f23c0e11eb79e1af3327d8dfb03b7110da9d82ca53c44⟩),
  (true, ⟨0xfbb853a814fd6a8a785534e569b9c8370e0de835d144a4e19701cb441f10214b8bf9e448fa0b7732dfec3780765ec1e, 0xed5bf6a466abef62fa116502c806dacc37da4e021d3118992f5a283016108e14a3970f3d356a8ebdbc8825356b273a6⟩)]
def b23BX : N2 := ⟨0x8bb44fd575efd461f87e2bd7775990226ee929a1016571f77f406fcbe1d8074e69236b9c2f70868d4d2f218a05e13c4, 0xa97d9d308c7fddab9fe76ff9ceb64ef79da8ca800ed7c08e5f11a92ef99d39b7d497998705fea74818dd0f7ea55893d⟩
def b23BY : N2 := ⟨0x110972eda6923de7c27da0f02b497c56880aa85772672bd1c87992b70842f04fa39d2bf7cde811b2ebcb13f275d19a6c, 0x13130ed624f49092d85d50f1392e6f819e1cc52e82c30d1b0a8108e1da6648dd4f19770514be85b0fcabffaa2b80a3f5⟩

def b23L : N2 := ⟨0x15bbe383720d857908a8258f2852a05f6e4039173b344bc9856aee55675f53854a0a9b6651d57cb7383c9e65d6b92e3b, 0x19595cbfcc9a6631c3dcadbfa02027a4e8c2b2dd47f5dd6912a13fa3c31b13d1edc6bf0352ad5faffbbdab4924603b85⟩

end Bls.Chain
