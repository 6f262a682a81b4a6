import Verif.Nova.Blake

/-!
# The MiMC round constants, evaluated
-/

namespace Kogarashi.Nova.Blake

open Kogarashi Kogarashi.Field Limbs

/-- The digests as numbers, least significant byte first. -/
def digestNums : List Nat :=
  [0x151aa2d5459b3d4cb5c6fc74d4b5fe586de58fd3cafdad0ddbc8a027a0b72ce88b7f8320152c0ad0858e567c5294648b1cad06e64795658ba975cbcb1228c993,
   0xcf612cca587c5137d2c0b1d427980f2f4dbcd12367e93d696a41c2c97fa24a9904639993143b24fafd9f3e424bc6af144e2512755a5d53f1614e3b5f59eb8be2,
   0xec12863d6da8f973c5a7be34a2d6a26a3052ee58ac59c0573d7a62e05df17219decf8db4346a93a4489a9d7a899231ebb77a0a4d46720ef5b3d1a5709b21e332,
   0xaac09695d31501d28bc58e42337fe223243077ebe973c8310e3d1538ee79544a67ceac80ffcea741874697eb9ce667a4b832072659c338077709533f73f82dab,
   0xca733fecefb6067732b0b072f8e13322f4a00ad53acceeab89b3272abb2805d38defa393af6dfa692ed32718d49769f0c025c381c2e23de01e39604039aa2e06,
   0xe45fdd35abca0d596d25642e11d4e65e3febc18669c12b12b1fe85842c6ddb04785331f4f01eae49e244d574d429a7fe8b101c5701a6eeaf94ca8dbeb6d913ef,
   0x3bec393f56a97bc22d70ce6c733fa683740fa55f3d4978451197492c3c480f8544b0e7f808071510780c57077febe43bedb66bfea74950f93a85f6111fe8925f,
   0x709fd4276456e29f1d27c8f875a244d2f8db7c0e423e986856ecf424ca31960152dea18819acc659f484bc2f3b1959328263f34b6ed20361f0f489dc6648fce0,
   0xdf2c652a8ef5409198d1d8815d472d07a585670f16d263701b7ffc8250adf325648f779fbf980e0e38c03f202164218480fd64ef7fa7a9c4c6f9660f166f3cfe,
   0x550744516117ef2ad1341e94d99d418cafd5b4a43453c4f78a4b7894117b4afec3b5a5e775a68ecba2a2c6ccdac189c688336a9d5d9962c576c285d0e4a214e6,
   0x2e68b43ff3e240d006200cb8fd77641c83a4dad025b7ddb7d2d4ebde0371e01203e7ca628485e835ba3e434c05db9850c02430ee9f01d68743c6c5356d0b52ae,
   0x421dfb21f6587ac0ef663ad43b3c78da99ca737d6e04b2a688a5bce3f0fa9cc8e86f7cf6d0e60ff079ed86fcda6294fec71751ee94358c54045b50215f2e664e,
   0x193b4bfe3a31a59b7539c1b59fd7e9592a116f2d32af4fe247ca55e09437087147b5e6f754a4eaac045f5af3a4e3264d35c3fc56796fa5bc3761c6877b093eae,
   0xe88fc2761d3158f1829c9069dc670607b86cac1e06a3685f9d0a423b920673d92245d3514c91540b077a7a9ac5914505a164c1dda9b8c329915555d75b71143e,
   0x6d5e6381a751ac9ad25ba54f1aafa5e85ae4afbe0528e9f9acf664a0a9a4ff110e4297ab369873d094cdc3642f57b3b73246aedf7d6822db7cf94bd6df2c8604,
   0xc3869dce0cec43fbfc803c74af1a349cf007515b636b92e83dee1b1bef671db183aa68df928f6e42334f42b062448fffd8a5f89caf4942b462dd5f753b01d45d,
   0x10c8484eb82e3071a7d6c226751b4888258720426aa1654946016d78271c2df94849ac8815028f8ddfcc0949bccfa950b3b73a23be1c43111bc0d1c110c23ce1,
   0x882effc741dd4a3a186c61c33f3c22b6a9e03ab33e5a79d64d4b64b6e8dc13a8a25ffdc780dc5b050c85495e240d69bc111905127b3599d7d2fa92b9e67078d5,
   0x592f4030b14bba2924f7f927ac61d0557989ceb9af633e8661cfec5d1f4bf9dfc04443d91f6afd7f147dc14e4609b05d841e357c277259d164c7098f140cc74c,
   0x43e0124cc359cc149bb5be2557109edd453c918e45c7c974e1e58ee47059b3a992a6a0514ec7966900a737517a42fce2e071600871a04e20359884ada99e4ac3,
   0x5cec8da2aca111a1b90bda0f572b2b09af4b7a7015a170b73af61274f590918ef2dee858e060e6b9215b929abcc410666850fbadfb2afaa326f45efb1f69829d,
   0x7ed4f15ed710d6b4c2acca1aae6e070a2c3406dcf4caf869a7a9bc969d9c0ee41943df2b55a6e7f47a431991da09c919af4533f7dea1678690716ca79956ac14,
   0x88e45a0792485192ef4ca90785f7f8ff198f5450c36ca0a9a320c8b6973fe5f731338f1399341f495d8ac950d37ff5779f6a621a6d73fdf3ddadca700b806dd2,
   0xf0696078f53943e032a31a1f4da7dd834a0d2a9a716f566793ae7ee2aa122f47506af931b123aecbf7775be3568426c3826e4077b3a5266accb39b4c87b3de9,
   0x17e5972831cb2b0254f591d91b692053e752d3c0b4b0b3ef3af48ca1e28b7e1aac6c6c21898477c1647b028004005a1c7e767f2a04f6247155ebb11de88941b4,
   0x203e955bf58b1e9bc9332d5f02b3fb3f03e1d01e28cbb00c45f66b83e73696e8e069d508e9645c7508ed5c29862b76e4b3e6b290accce4294b949d6696fafdd9,
   0x4af8fec9fe051e35d6abc330b1b0952d019a90637b604098ebaff725465efd5af9b23c20c2a570beb4f1c5d1a7bae272192a08cfe764ca7ef0940c6a146e429b,
   0xc63fb734a94e723b17d9d8ad4e54b2ab3de5949ea1b96524241f0cea1fd93b39699275a115f409b9a0a4ead454fe2c7af9a8e823ab44b95826e8e8d87534e89f,
   0xcd4fef5871a9b03a34017af0006028eaf3d54ced7ecc92d2d8ba0ce38aa0da0e17ed833835cfec7d17c6bef8bb2a07da7ced4e7b057b85f3da5a226822b9c4b4,
   0xbf0e2066ce91b3af49c08dbc15479d21cad8c7718b5f82a970956182560bd8567536987d9e13e6ee427e4407de8723c513dbaddb3a7587e915fd0caba317b98a,
   0xdd3d19b58c54665d4c07a4eb85e8cf610521316b48cb9ff6a3671facf3a1c7a6ea9612aa7a53b5da5e5a8e1bce9fb6a440bfd5ee5f4ef4deef9bb3f1f32058a8,
   0xdc4fe990b375e44445fbb1080f61697e9e895c4276752cbe2e45bf3594a3e986ce01185213787323d0c24c30b4f91e1881d995706488dd1c3752971fde6e5723,
   0x7e9929ad9bb0bc29b6fb06db5f1c5a6941d0dd1d82134cefbf342226767036718dc78c0a6fb10e82bdb4f18168a8f0c44f3fc64cb4bbb73f31337ee5a269a562,
   0x99988521b6125ce47c28605844dfc39c38cbd09e1d5ec73a58a17fd463589f7869cc2e9bc2ecb381963b7184921fddccf0bc4b45b36ff9079aaa5bbba85d1210,
   0x91eb05d80d1c0a04f3373b08db6f87c3218567a1d735f63a2f22214f59c71f395d0d7a33e9fb0e4ac140fff794c0e9238fae64a2a61fdb00078e905d29dfcb77,
   0x39e4713bd1b0f32030284e0d8f8b8abd3a64173135bc8f2dab3499a91582aedf0fa3abea85d157baee628290afde6963fa17b64a582cfc180eb96a887104e639,
   0xf4d88394448fa4dc76d05276bd3268b74d42784fdc61816e23c7a04d00813eeb1af9662d18c85085eebbcfd63ca3f96f933f8be81ba5e600411a21e93b37587c,
   0x9c2d53efb9683cad70f0bd030fa6e2fd4c49f61d8657b9b70112c56b7b994a7917c6d1afe5816a68f4264abc526be9c087e02c6a9a57ebdd251298c15dc18972,
   0xdb834b8ef86b53c2f7095f4b9e7b2156481888fb0f7946f0bbad88807956fb9070c0c407571f5928d983a1e127fad10382c775b7bcc82cca8b849886c2cdf737,
   0x5a20c2c624fa427827ad81f39e02855f928ad1a1534ea848425379ca2ae8bb2b5ecb15ee9ea91952c299210806714a3016192f48b1f0a431a53063adbf00446b,
   0x189a33171babb05c20f7d2a28ced4d6eda719f387d090a2bcfd2050c07b9f2803d9fabeb370952037f2bbd96a4f233a2f1af8276d942d47c405cf3315b8bcad2,
   0x7491af24a462cee131418f275ca8208bf08ada15db7df6a442aba253b5a08d9f51fbcb0b5b4b2968069a068f61c3e282e5f101bd5d450d5d0b38d6f5a2cce46b,
   0xb8a84d56719d38d4578704483b50d48a857574912953d0f49c0a010b0f5f9839e5b679db9f8d885b36aac249ee4e82b094511fcbaae4569aebf17fde08f63137,
   0x882b6b05b391a3ababcb8094b836dad6ac0b006567fa3aa85633d9d433bf0b52915255cee792eb19a0445b328b57c03a89b974b745f91d7963b8584ed4da51a9,
   0xa64430c2310eb701acbba857f1984ad9de2fa30406335e007724b1f3975eafc80c6cef44c4936f2a3a60e2af58d238a283ec5c73239620d1ae35b9f51bb215ce,
   0xb5c2250e34a937fd4db4e42192bef1f559752e1d633ed2cfb4fd64e94ab1809d6b429c4cc043f5c36ec1ac008438e07c190762064542fb77cb9eccbcd0250b3d]

/-- The constants over Fq, in Montgomery form. -/
def constsFq : List L4 :=
  [⟨0x47bb5de1aecdeee, 0x28caec56fc2026fa, 0x94fd18df8656851f, 0x134edc0b5e08c0c0⟩,
   ⟨0xfc82f5f92d6086b4, 0x75dfeaea855a3aa7, 0xd390d84a314b9e8d, 0x196069c818f2c66f⟩,
   ⟨0x3e11961ad146b364, 0x127209dc7a63f008, 0x24f1357da4a60610, 0x1093c251c24677a5⟩,
   ⟨0xdf929056ae99a76e, 0xf3279c11f4af6a7, 0xb61b0702ca525987, 0x17080295d2ee9181⟩,
   ⟨0xcc0cb5abdd419e24, 0x6d78be8f884e7d73, 0xe14a7ef3cdb398a2, 0x23ca2213983ec856⟩,
   ⟨0xcc1a24e1cce3c16e, 0x4e427bfd99129278, 0x649f323d05ed7a92, 0xaa6298c16317cba⟩,
   ⟨0xe3649d6e7ec15622, 0x29146e68800633af, 0xb886ad14743da4f0, 0x1a45901fe8a58e4b⟩,
   ⟨0xabf7439c6486644f, 0x2e3257bc38c82e0c, 0xacf5339874d5655b, 0x10fcddd560411f60⟩,
   ⟨0x1942006b20dab6ca, 0x2e3381aee5d1ad29, 0xa6eb22db6ab537a8, 0x2efe63431bb9ce66⟩,
   ⟨0xea4c9cbf7ecafa79, 0xc908ffbb6cef0b7d, 0xa77ec268b01f65e, 0x20506e029579a489⟩,
   ⟨0xaf9515e35aa560a6, 0xbe7ab62f96227de5, 0x5fea275fcaf9caf3, 0x7791084250f460⟩,
   ⟨0xc3d89e74c9231e4b, 0xa95121a781392bde, 0x435c957e90a3bc0f, 0xa8e9fb86fdaecf2⟩,
   ⟨0x6baaf1625722c7cb, 0x240ca510b7636e5d, 0x14964d661fb9ac88, 0x9f1e1a13c98e8b9⟩,
   ⟨0xf3000e4f4e943377, 0xb62f80ebd33cdb17, 0x2368906ed95b78da, 0x11de6eb942281636⟩,
   ⟨0x7354a9ff0ecccaf5, 0x66a01a3ab0cac15d, 0x5c21797af7028d57, 0x1dcb715fb22c24de⟩,
   ⟨0x1ececd150bc3d14c, 0xda4d2f662148ce59, 0xf9748fd951f9e9b5, 0x221b6dd492693e56⟩,
   ⟨0x838a8d0bdec293d9, 0xace3a5b2b1658873, 0xa28ef0aba3148914, 0xc731a81d07102c1⟩,
   ⟨0xe197ce37f766dcf0, 0xaa8383f8ba47b2c, 0xe60c484a70944e3, 0x1677aa41e7bd347d⟩,
   ⟨0x5c78a16a76acea38, 0xae4eb7bb83b332a4, 0x9dab7826a294a6ac, 0x20841a6e050def2⟩,
   ⟨0x19160e5457ff1ac1, 0x61aa95377e41ffd1, 0x5eca8629c08e65ff, 0x2cfd98a341387cb1⟩,
   ⟨0xe11174eb76250721, 0x770ff1267d406b0a, 0xfae54e6d96dc1b8c, 0x1d716b0471e1cbfa⟩,
   ⟨0xd7af0409cc79ba16, 0xdb1172042970cb9b, 0x9d4959a8ee8d097f, 0x1152eb207d9b31f8⟩,
   ⟨0xc47834dae7cbb1dc, 0xd1356dd13804d815, 0x85844a2e8bc14fcc, 0x215afb31ab1c97bb⟩,
   ⟨0xd431cefebca0abcd, 0x86a517a2f079f3a2, 0x954e6baad6a7dbc6, 0x2619cb9f5eb39752⟩,
   ⟨0x24a34e09d158b3c, 0x4f0d76d7ff1c7c3f, 0xab6879e27d54b9a1, 0x2b37b825b2645e7a⟩,
   ⟨0x7d13a9068e8fdce7, 0x28ef02a1a81db652, 0xd40d96ca026afa86, 0x63832cd37dae6db⟩,
   ⟨0xb7d27a805712f404, 0xeac45cad0479339d, 0x1495844a675c61b7, 0x3a38e77e3090809⟩,
   ⟨0x542c7f2908f88137, 0xa9c0e30d964f61ba, 0x5a3700147076ca8e, 0x2c85e34e168cc3af⟩,
   ⟨0x48a822c79f624a6c, 0x91968374d62e0f93, 0xfd1a7c94acd3e626, 0x21dfa2bb49c343c0⟩,
   ⟨0x7d046b2d7ca7dd6, 0x79224063e5f07f77, 0xc8689508c7eefaa5, 0x793473127248345⟩,
   ⟨0x8af2a9f35b63cca1, 0x3711d22106125902, 0x8cdb75fd1693f19f, 0x78c6f36c5966ca⟩,
   ⟨0x6e97712cc8e93a31, 0x95bda8faeceaa65b, 0x249ca56eda54f924, 0xe55c923f9028fb1⟩,
   ⟨0x9b0b62423ee4d874, 0xca68232437aff75d, 0xc8ef0f57ded882fa, 0x448070eb6dd9a41⟩,
   ⟨0xa1631b58985420d4, 0x3d592e28056b9370, 0xaab0a40d94ebf6c3, 0x290830e1dc5f2409⟩,
   ⟨0xb991861744283daf, 0x5f69324d1d3c369e, 0x41a1d008803e471d, 0x12476e4c41f488f4⟩,
   ⟨0x781c2f88a5ddb064, 0xb58eee2f41b24e19, 0x65e1f50ff1fbb874, 0x2fc8348771aa89a4⟩,
   ⟨0x7aa54f16a2110e25, 0xafcae9335cf85dc8, 0x1408de86d8f36781, 0x1901229b74c1e6a9⟩,
   ⟨0x22e53e806ccd62ed, 0xb4524e3c23838d5f, 0x9f797f940e951401, 0x2399f241d337fb00⟩,
   ⟨0x51791d8b6be08d9e, 0x407638601b62fb3c, 0x4b811c4b2bdee334, 0x2d3849216024635b⟩,
   ⟨0x543a3cf5155e26f5, 0xaaa3232de8ca1989, 0x55211c03d856e83b, 0x17f0a63431d78719⟩,
   ⟨0x4a4c65a195a783b1, 0x6d082a0494a254fc, 0x795601e92de68a60, 0x169751fe25ffaadf⟩,
   ⟨0x6fa6d8dceee261d8, 0xaf1e2f9eaf176428, 0xb620ed02d62aba36, 0x284bf9ae25634f0f⟩,
   ⟨0xcf7901e6aafd66d6, 0xb874974cb457599f, 0x67c87944c2ad6e5, 0x12b715fac1d86e54⟩,
   ⟨0xbefb6e2a8a73e2, 0xf02602039ade5735, 0x833f5701fdc855c, 0x1fffd672db965a77⟩,
   ⟨0x5962dacffc6db808, 0xcc116fcc98bdc188, 0xc550e71c7ebfabae, 0x8af98cc5f843383⟩,
   ⟨0x395cdf620b6c6d3b, 0x43c8c6c555f8791f, 0xcf7c8df7b3639c0, 0x21c18e867297751b⟩]

/-- The constants over Fr, in Montgomery form. -/
def constsFr : List L4 :=
  [⟨0xd0e5698a011dd047, 0xc97e3ff155b4e985, 0xb57b247dc29346b2, 0x25533ee16d210dca⟩,
   ⟨0x7c3049b3a16ff943, 0x2403e28a5577ecf, 0xd18bc719261c56cd, 0x240f3bdc5c2e731f⟩,
   ⟨0xc46d8e6ed672be0, 0xcddbb767cce09f2d, 0x9cb62e919dd12f67, 0x26fe5b805980a2ce⟩,
   ⟨0x3d6e590e1c71df0a, 0x7083dd6550b1977e, 0x3634bb8d442536ee, 0xa62ce452a08a8c9⟩,
   ⟨0x598ea820f1416eb8, 0x58631457534516e0, 0xe3ca2e92fd85ab62, 0x3043abb2bc48ad1e⟩,
   ⟨0x3ac47645d0b47251, 0x2a0805622cd3e0ea, 0xd76c9bc0a8fd40b3, 0x29f6bcd2643d2614⟩,
   ⟨0xe9383168b59bcbc6, 0x95356ddba5d58516, 0x9c908f1a2fc41cc5, 0x20f82cbda3383c7b⟩,
   ⟨0x40a922c1fa4a60dd, 0x7c6a29d091745f07, 0x25e4724428dafd0b, 0xab6946239d5cff9⟩,
   ⟨0x15740fecad1faede, 0xa76cb993891326c8, 0xbed9ce8f7f68df7b, 0x2d22b78b2973509e⟩,
   ⟨0x27097c553526c534, 0x2e6490272e0958b3, 0x793cd2cc092d3c31, 0x795d10d61b98e7b⟩,
   ⟨0xaedf86ad2aed0445, 0x85a43ea1461f65c7, 0xd34e356edbb58b8c, 0x4263913baa74761⟩,
   ⟨0x15f68a3204a51bf3, 0xbf9fb7f57c11d88c, 0x6ee6c46e4bf2ce95, 0xffdfbd2f252546b⟩,
   ⟨0xfb1401cba08e675f, 0x1439ce919a79ac69, 0xa32adb929a6ea7d6, 0xf38319f7c364a46⟩,
   ⟨0x7bebc792d953e51c, 0x662eb4e83bdf9e41, 0x5fafbaae865bbdaf, 0x650cc9daa3f9ab⟩,
   ⟨0xc1273852c12961ac, 0x7d6fddd660f253af, 0x15ffb48bbb1bab51, 0x1566cf30964b61c7⟩,
   ⟨0x72ec5da61d899379, 0x6b5c125449d35a51, 0x449d6c82008df6ba, 0x42f973423f64dcd⟩,
   ⟨0x1965030e393b7b43, 0xd14e5d48cfb24968, 0xb9616ac7c3330add, 0x2bdbfed72fce0b01⟩,
   ⟨0x8ba10550790bb954, 0x9302ebe309deae, 0x36cc29b40ba6e49b, 0x24c3fb84580e2dbb⟩,
   ⟨0x8418055a16301fef, 0x3fee10951f64acc0, 0xf22968b35e0f87b0, 0x1fd84fefa81db02c⟩,
   ⟨0x8eb41377cbf97cf8, 0xfbaa03f0e888b990, 0x30ff6b752192a82f, 0x1e101b3e0d9faf28⟩,
   ⟨0x2012f224bd9732ff, 0xed12ecef91b08dc7, 0xf813359e48e54ab, 0x152f7cb241a9182d⟩,
   ⟨0xd4a14ae147957165, 0xc4102772555c5646, 0xa0dfcc9f234235f5, 0x23ef2e6ce8163222⟩,
   ⟨0xcac75ef6712f925a, 0xf7fbaaa9a20a8136, 0x8f4fba08c82f927b, 0xa6a349e2ba866a9⟩,
   ⟨0xbceab624afbc2969, 0x45541c11deeba32f, 0xe39b72689bbd66e, 0x1ba124555f2c827a⟩,
   ⟨0xf5ba84609defe932, 0xcf9a48f6cee232fc, 0xabe97b2bebcabd76, 0x2586f209ab9ffa7c⟩,
   ⟨0xa3ed75d852b7acf, 0x621cdc69efaa540, 0x918a5f504188c42, 0x3352fbac1b0b42c⟩,
   ⟨0x4781b93d2867a9c4, 0xa413e52edc2a5a53, 0x3e2e8779ff909b7a, 0x23f261bfb97c6051⟩,
   ⟨0x83e935597e8b72f2, 0xc6fde78a7ca0d93f, 0xb3b40348c3828ce4, 0xf0e0b3ecf2d3b30⟩,
   ⟨0x708ca704eb9b23e3, 0x15b2b8188fce3d3c, 0xc003bb1618488d43, 0x25766ffe318fb20e⟩,
   ⟨0xeacb82d2071e8320, 0x549240b870e31d11, 0x664ddb756b5fde71, 0x3008821a6b9ba677⟩,
   ⟨0xb0c5815207fc77ac, 0x30cdfd711b3430d8, 0xdcc6ce41f37d8d67, 0x86bc63d1053c65a⟩,
   ⟨0xa850aad783cf3767, 0xef459214d89833c2, 0x8d6599ef2c3c968a, 0x26be10ee33736991⟩,
   ⟨0x84c8a44d887f97e7, 0x58db5e1a30687e86, 0x8b4091e2fe064224, 0x587822ba366f9f5⟩,
   ⟨0x30b41521d9a2e98a, 0x4c6740d7851a8ccb, 0xb0584c6d4394e1fe, 0x2a0e050a788e3959⟩,
   ⟨0xbafecc777ca0aa40, 0x3a4f29171fd6ad32, 0x3dc90232b2ff3856, 0x21c3c95da719cc49⟩,
   ⟨0xbb7ba019a83c3b71, 0xba584e56e6465a31, 0xbeaaa2e24e4c4724, 0x131cb95298583709⟩,
   ⟨0x91bd778a64a00acb, 0x3fb91c7dfe971b37, 0x7ede18150e074f1, 0x170221b9c360334⟩,
   ⟨0xcf8afd00a829a88c, 0x1ed886c62fe46493, 0xec1c4f41205ff45a, 0x1cd45f2ac96e1b2c⟩,
   ⟨0xe5687201e4f13b83, 0x4f92e5045732542, 0x8f9a461364bf36de, 0x20c890d1339f18dd⟩,
   ⟨0x7162fca75b3b7b90, 0x896615ab2372ab72, 0x4aa87315776630fa, 0xd811a55f37550b1⟩,
   ⟨0x396e874ac8cbcbc1, 0xe9ec80331479b117, 0xbd6ba6159c890927, 0x2258469dddd1be4b⟩,
   ⟨0xe23e7e8502cfff64, 0x49b603dd92fa461d, 0xd17821feabe4b671, 0x2b0405b753343c8c⟩,
   ⟨0xe2933d3f2421238d, 0x9e098d7ee0993ea8, 0x940ef58200983cbd, 0x258b6f4de0873f9b⟩,
   ⟨0x873121405bf8087f, 0x99f7a7e65a15f834, 0x69a55fecc5718c9, 0x14be1af3c49d8573⟩,
   ⟨0xdbd2211b4f2fa6a1, 0xe252e55d49b785ad, 0xf5781f28bc8eaa73, 0x2f3551ffa48d9c0d⟩,
   ⟨0xa8149e5d7bbc8788, 0xeef9ae8242b07244, 0xefd782d2d0329f92, 0xfdc8e1a5b017fb0⟩]

theorem digests_eq : constStream mimcRounds start 0 [] (digest []) =
    digestNums.map fun n => (List.range 64).map fun i => n / 256 ^ i % 256 := by decide +kernel

theorem constsFq_eq : mimcConstants fqParams = constsFq := by
  rw [mimcConstants, constLoop_start, digests_eq]
  decide +kernel

theorem constsFr_eq : mimcConstants frParams = constsFr := by
  rw [mimcConstants, constLoop_start, digests_eq]
  decide +kernel

end Kogarashi.Nova.Blake
