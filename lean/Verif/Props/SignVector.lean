import Verif.Lemmas.Nonce
import Verif.Lemmas.CurveVector
import Verif.Props.Cosign
import Verif.Props.Device
import Verif.Props.Electrum
import Verif.Props.PSBTMine

/-
The examples of C72, C103 and C107 with nothing left open.  Written by tools/payvector.py: the values of the hash functions on the way to the nonces, and the
public keys; all of them are checked here.
-/

namespace UB
open Spec

attribute [local irreducible] Spec.sha256 Spec.hash256 secpP secpN

theorem signValue0 : Spec.sha256 (beBytes 73 0x0200000001070707070707070707070707070707070707070707070707070707070707070703000000025152feffffff0200f2052a01000000016a00f2052a01000000016a11000000) = beBytes 32 0x8d59d35b6886c56062fc30c8ffb7641c9fbb9c1bc7ab7997ad06fb25cfd4e034 :=
  sha256_of (n := 2) (t := 0x0200000001070707070707070707070707070707070707070707070707070707070707070703000000025152feffffff0200f2052a01000000016a00f2052a01000000016a1100000080000000000000000000000000000000000000000000000000000000000000000000000000000000000000000000000000000000000248) (by decide +kernel) (by decide +kernel)

theorem signValue1 : Spec.sha256 (beBytes 32 0x8d59d35b6886c56062fc30c8ffb7641c9fbb9c1bc7ab7997ad06fb25cfd4e034) = beBytes 32 0xa067a747e6d3bc64f470cfd4339d61745c8934a9e47a577d42492b190ca9df89 :=
  sha256_of (n := 1) (t := 0x8d59d35b6886c56062fc30c8ffb7641c9fbb9c1bc7ab7997ad06fb25cfd4e0348000000000000000000000000000000000000000000000000000000000000100) (by decide +kernel) (by decide +kernel)

theorem exParent_id : Spec.hash256 (legacyBytes exTxSpec) = beBytes 32 0xa067a747e6d3bc64f470cfd4339d61745c8934a9e47a577d42492b190ca9df89 := hash256_of (by decide +kernel) signValue0 signValue1

theorem exPsbtTx_value : exPsbtTx = (⟨2, [⟨beBytes 32 0xa067a747e6d3bc64f470cfd4339d61745c8934a9e47a577d42492b190ca9df89, 0, [], 0xfffffffe, []⟩], [⟨4999990000, [0x51]⟩], 0⟩ : Transaction) := by
  unfold exPsbtTx
  rw [exParent_id]

theorem exMulti_value : exMulti = beBytes 71 0x51210379be667ef9dcbbac55a06295ce870b07029bfcdb2dce28d959f2815b16f81798210279be667ef9dcbbac55a06295ce870b07029bfcdb2dce28d959f2815b16f8179852ae := by
  have hx : xNat G = secpGx := by rw [xNat_at at_G, ZMod.val_natCast_of_lt (by unfold secpP; decide +kernel)]
  have hy : yNat G = secpGy := by rw [yNat_at at_G, ZMod.val_natCast_of_lt (by unfold secpP; decide +kernel)]
  unfold exMulti
  rw [secOf_neg G_ne_zero, hx, hy, secOf_G]
  decide +kernel

def deviceSteps : List MulStep := [
  ((0xc6047f9441ed7d6d3045406e95c07cd85c778e4b8cef3ca7abac09b95c709ee5, 0x1ae168fea63dc339a3c58419466ceaeef7f632653266d0e1236431a950cfe52a), none),
  ((0xe493dbf1c10d80f3581e4904930b1404cc6c13900ee0758474fa94abe8c4cd13, 0x51ed993ea0d455b75642e2098ea51448d967ae33bfbdfe40cfe97bdc47739922), none),
  ((0x2f01e5e15cca351daff3843fb70f3c2f0a1bdd05e5af888a67784ef3e10a2a01, 0x5c4da8a741539949293d082a132d13b4c2e213d6ba5b7617b5da2cb76cbde904), none),
  ((0xe60fce93b59e9ec53011aabc21c23e97b2a31369b87a5ae9c44ee89e2a6dec0a, 0xf7e3507399e595929db99f34f57937101296891e44d23f0be1f32cce69616821), some (0xdefdea4cdb677750a420fee807eacf21eb9898ae79b9768766e4faa04a2d4a34, 0x4211ab0694635168e997b0ead2a93daeced1f4a04a95c0f6cfb199f69e56eb77)),
  ((0x1be68a5a028f2601d0e80d468c344ba331d611b96c358b6032e8b4da0547fc11, 0xbebc47511ade7308b3ca6265f9400779c076329c75146bc6ff1822f5d1f30e79), none),
  ((0x70e6b44a2ac6083ab673bacb5cb7ca554b795b416e702c1c980bb7b87c78b8e9, 0x49ba3203048e06d84173867ab5324be40a0d0e6436da16754ff98b2aae170cf8), none),
  ((0xf25f6e271e231dfd5f5f8d2aaf30fc6dafe835feca1575e93f667f69d0d97018, 0xbab2192b75324599d2946af2a8737bb68be2ff17f252cebd369ee69a35b4af25), none),
  ((0xa83d1893ba454e96c9c91effca154cde3ff705cf3d8eb91010758152439f943f, 0xb9a6c10d32c12d523ce267208d0461acb4548da9925a056a7516b51563ee2043), none),
  ((0x59dafec54df05695e123004d38d9aa126a06c399e52152455392e5e3f1a47dd6, 0x82e8c23125c6133572d36a54e9a757952669e71c0248344f84fc39d06953c4), none),
  ((0x4ea911dbebf1493db13847b9d1f819eaf059c9dffc32e57af024c71e17b9945d, 0x732faa69ac0320398052e1158643273966431e8c777ff9cd3cc58e1bb79b66cd), none),
  ((0x615adc1f7169d6ec14075b848ade3150a76fe98ab4cb4fc9a51a6e6c530d9e, 0x3c6f2117f2baea97047f81affe9735ddc423bdbdfd1e2ef93e505118605020d0), some (0x659bfdb766821a91cd030917ff21aea4488007f0b7ef38244f23b665e6496998, 0x2ad708bc4506e85a341ef96b78bc247fd7321a8ebc21f9db8444e7ca254784e0)),
  ((0x3262493cf77e01bcecfbc12634386d6bd41d2932ecf1851ba3eea187879d7ddf, 0x32204beca7a736eb392a85dda1453a8f5ed2cc075eb3a27f2bbca8fb597cffec), some (0x2c1cd64dbd7ee24b2bc5a6b72009b788e2a5047a8d10dfc94a46d807c133f457, 0xfe8a63dfce7d7a4be7c31a1f05e688267a9449fa9e9ce30cfd8684b7660aabe3)),
  ((0x41cd00fec00048fb604ef4a4f783736f5cc35675b18f6ac168bec290883972d5, 0xd808ee229fdd597b3ab45aa42bca6c9a004ccaa15691d72366ad4ad9dae426e5), none),
  ((0x3977375f4122fcfb192badcd853a50c5233fd75b7c0799f5a7fb7c299d66e099, 0x2cf2c0cb1e2f4884945287037b10c1cb4be545c3a70edc4f368dd5550545182c), none),
  ((0x3761b5d5c4dbfd747a2b27c86e6eb61afb017de95ea8c60614fe93d307e2fedd, 0x2825dbdb954cf353e629144ddea80e0ddfee054974ce73a192dd253c50e97556), some (0xbe260881e8269d8efb97167d27d5c82257580ea38b93fe28ab46a5d0c2afea67, 0xece4866163ca04143eecc19b46bc22bdc30eac38d2d7c20ae53f54c30ecc78f2)),
  ((0xfe534a7046f70ed055510659534081cf12f403fdc116c11b05b2592343906a7d, 0xad918af738a9b89c066023797a04b82a48de1a5a916d5804c909bb9ea5ba5c3c), some (0xb12919c1f28b3f593d7d24859ef20bb1c104407e0a7b36e2e4d5e6ff14c693b3, 0x6b56a566873f113c0a706b4bc79ed061cc01167b1d2ca5160c5ceba8b21669e1)),
  ((0x88f61df998b000d47cea66c9f4d368ee903b75fd4305a1ed54822875c72b0a26, 0xcafec5f7e222f379b5a2526778e69de87e4eabad2aba4deeb9cca70119c51797), some (0x2649d592290209612c98f285a9cc780bf6470c8e70068c3510e260e7ddaf1fbd, 0xeb5da1bbd3367a03ad761fa5e1ef45a71482d609f5f371b7ec790d0afe6ec39d)),
  ((0x8ef475b4ff38c85f837280724e1e21f5163cedd4d7fa043ed27aec42f497e979, 0xca01592d0fc7ddd3f0546783216896f4dd80b4a1342085333f4a24bfa6754d92), none),
  ((0xe2be4535cba1b29aa17308eacc0c97af7b5b8cffca486403e7bcd25517abe7c5, 0xcc7745a8b2f52cf39dde3b9b6b9624d793201102f8d1db9db02269a324a4cf5f), none),
  ((0x5492d6a27f960d3bf45844bc017a9d450c02ffae06170a4de057f42b6136d6ab, 0xf9509a7840360611332d4a92f72ed664e25375bd4802701f22fe43636468409b), some (0xe47ce39e7125f6318332d6bbf7e1ebea82208077badf112d38d3a762c4fc5b51, 0x6e820f0fee6122c72dd31d1156b8ad9970cbb362bdb8e40eaf3d171313ce83d7)),
  ((0xcc200fd09b188632d976cba19f1c079378e7d457e0f6d020c3b9ea9b2ecbbf4a, 0x9b1a4277a3ece5750d192a35750b2367d99d0bd25f0a6c9579b3cc4afc58cf69), some (0x725a530cffeee074e8cdd931c440dc00b8df8514b0f025b4e070b6a200c3ba9b, 0xcb4f9d1378c4f5ac3eeb621a28fc6672cc92efd7aee0bf681a7b11ce0159c71a)),
  ((0x54f4e39f1fd1b4f712f980a305926546740c07a62e19a88cb2d86831a7dd203a, 0x1261d6be84f95d46b8e5d26345b9d0abb46ad438e52cd2d1784066b893d0f91c), some (0x8d834ce8e6653124f1bd183eb010d62c49338fb7a525f5967bfbe6f83138b2bf, 0x38081772bef213d669ec804002d50dfe0a1899dc1fa2a8e3aa162bd272ea8ee4)),
  ((0xcf41b3c65307a31941e8f649f54a8d322f5bb15d803283ae33ce21d362258a35, 0x5b76002aa564360be5479eb2e16efe2e64c9e882b068510da46630962cfdf3b5), none),
  ((0xfe71a22e026f5d9f4bf93e54371e53977d17ebca154055f7aee3ca560717d778, 0x84d780b1623f17aa0bb672ef2fd1b5505c3a745bb0b4f66a13d6c4bde14fa1f1), some (0x8ed52463baaf235301336316f2e8c872c60cdc70b012d1eb86867e500fc171cf, 0xa9f636b48f40c714d7b79229234cb2956daaa86f4fc114facca5c80443c577f5)),
  ((0x578af94b7e9bdc7f2188512eaa5419b9d536f711b2931bb734e0828d2696026, 0x32769256790f02c0d54644645718c2a271bc4c0c47412c43df080e90bef2c9ca), none),
  ((0xec2ac8af7720c2bb44318bcb2eacbbe9d088d833e5d82574d943e2ead18bca7d, 0x855cf15ab46f164f72aaf09edc062f2435607af6afcad486c04e51b3f2654fde), none),
  ((0x5fc4777152639b923d67d5c87f8331bbcce4b6d90810e5c43e40003c3a62f02c, 0x53f25c69367642b42ddcd15bad983425789aabb3e7ed9e944fa87778cccd5505), some (0xf8a4398397e545aefe40105376be64d1ff95381d292fefdaf132d1235a361728, 0x8f4d67ad8f0b5c29a8c84a43d8e7a17c06e46fbbc31e9d2af09c05cc388dc11f)),
  ((0xf641e0b8e3e47135e125b25d32b81c384fd308ac40cf220c29be0bface96c27b, 0xab5b079ee249343e13035a24aad6d214fb01b12a4bc9ce4a9472eb130d9f0693), none),
  ((0xeca67662bbedb6bc400567af6c8864fa8dc9c40e3d9c6768dca895e287518fde, 0x964204a963d8e20956561b39353c87230df71d0ec947821371ab0b8a7d5e1e9e), none),
  ((0xda3c97b9cfa63a9d861cddf359424ef543081bcda2358ec462f206a5a4a73130, 0xabe6e8323c07fb61a737276a181a2baa6937be03506bb445e08f84a8ddcad1c4), none),
  ((0xcc53d70c8e8c5a10d5e6d49ef6d741b3e4f6f7e7f1433cb2991fd63edbcccb5d, 0xf675ded7d3e7dc10b923cde7504ccb69b53341eb9531af6003bc77021354a3b2), none),
  ((0xc434f5de8682d1e6a03c9c8a227690c17cb02db5b966af12b1337766749acb5a, 0x7b9b07641d132396af8dc258f2f58383489e4dfe022581ec8f23f03fa983a74), none),
  ((0x5c70833f4fd2071e98352906ce049a8a523f97311b300ed8edc66d9ecf881502, 0xc73fdaab85044b1e10dc87f0d90a7318bc46cb7ebb66618c04f94eff21080f8d), some (0x5c88efafa7a9801fa2d308462d476e3a894e49a0bc73d7a2b449a4aa3564f7d8, 0xf72399c6ad88bf6f9e7b0bfd3f8cb7b83e0cd188d42b1424205b23083fe32f32)),
  ((0x67266ff60c716e272a93a72ccfbaf5452590180c81aac3c22159de7d9755be1e, 0x56edcef528e7298766f519893fbd0ce7165dd4f3b9bf8c2c5a96b1205c088dd1), none),
  ((0x261087e6276f31d6f45d6158f0223914bb170e6543f328078324692ce24f5714, 0xc95989504d084ebb4e4162b9efdb9c3abfe5586bacf601cf39d286ddaeb2bbb1), some (0xfe4bd93238bb2d82e6228c49eccc91a40a59d7f38908e8f0db861781bc3d36cd, 0xeca896d333b15f5a653b293907acdc04dc2387597006424cfa9737070f70b32f)),
  ((0x613aa705938f899095efc72ba04dbcd8dee09037898314b77ca44ab242a3f658, 0x8b34b624c2d24123b877318d97506f0ba688e428bc88d4d6cb49b613fbabd769), some (0x5057d77f20f79de7a84eed3110f74de3fcb696b48bd37aef0a60b3e193b04399, 0xf1a5db512a3f67db5af316033c2a4c277f0e80d991ee715fccb88bd1aefad877)),
  ((0x588696118556239c899f701b43a6a2df5c31c6863e978847bc1199abdd27a50f, 0xcddb7a7af3f77c2086a86660a91d46e8975d9cf3ab362c33d40dfceac54045a7), none),
  ((0x113c4067e5b83d47e161429e65606083e64c3375d47c219f1b19924f78d6a75e, 0x6d80b86f4716a2e7105aab528e9285126e86370d1838132957935e2a9b6b412e), none),
  ((0x58d14bb394efacb94426d20d79b86770621e86a322bc83c7cf135a1598c54911, 0x7455591ff0a0de768e0325b702c2d496ad445be95f2ca3f6851addcbabfe7fe3), none),
  ((0xd6de3a85972c986fd2eae2a66ae68d3a526bde9057afb58fc97a7cd48e88b6b6, 0x1e370c44112e0d6d59b53504e87a367058a539e3decd845954a62e15f2f263ae), some (0xa1aeeb8a3f54e764bb19247a6b92654085287bce1699e38462c82a48ec1d182e, 0xe65e0366ed1e9c06b552853c36495a3b54c517dce18e7a5bfef9940b3838536)),
  ((0x1f06b93bdad1e2b0508c914a19c32aa373c2222f40f84757fd6c81835e84af20, 0x6347de80775bb92f8ff4a31bf5597dacf095728f1cd2d8e299b738684af0ccfa), none),
  ((0x162fbc8b82e0b2328db13c88c7b03a803508573904bf79553935cdbd24d9fe44, 0x12b6214d6e414d9b50426732517e1e6a0d6d4afe3373eb74b63fbab8aac017fe), none),
  ((0x355864ed6133aad8321ee488cf5505b311101d32020d6cfb59e8b37ca029624a, 0x1bdf5c661611872194ddb730a4beb952347333cd04b87e5b97e674a443970857), none),
  ((0x594c54a255763cb7b5bf5f5432adf2082552d57ff3c3a6034ede8d617845198f, 0xbaa3c8373b1cd4838f7065ab4039764ac25797a197a0c9e1c22cace0d684fc51), some (0x819a90b083a4e58808a027b777a87cc3d8bbda44e499f44f3c675dd02720417d, 0xe78acefaffde9e85c9184b1126ec95b8463164a0fa15cf061244c3bb016833cf)),
  ((0x424bf877417d0cb74a34c32405a5b2e40ed0adeb17ac739fddd4588d44a99a30, 0xf9a27791410fdb1568a9ee1402f57c94ee504e23128e838e86ab08f756e6dd41), some (0xa1b28cd54e12c75a8afdce2361a883e23eafeef6e9921079a10a753b5d6a2db7, 0x989c6fe83806f8d3c3cbe1bec9b6c0f0242d90c2612a79d952fc669a9ad7d1e4)),
  ((0xf5b668b0737186617084a80bd341637d980a51d8a762e224e1c29955eba5bde3, 0xd5ce0100b40c5f2439a73ebe3433450545d12ef8fb3de3ddb65244cb3757b51f), none),
  ((0x18a17c1a5d8b87eb1815c8601beb1bf43cf5e2e6bcc258cef8f6e7641673174c, 0x352aebed71d304e735497bada9332b533ac2f129cd9682c0b73d0ce1b490596d), none),
  ((0x65f21abd34df7923a1293911155006abe018bde6bdccab55a73e6f8253c2c708, 0x897f4d68a7a99f7e8beff4c190e40c6117d4ad491b39f0e711cffefeb2bd50dc), some (0xed224ac64e7c0f3eb2c986c7564cb60b1668a77d0e405b497b760ad7c9ecfdc7, 0x1ae2f7e58a9a445d78a9501344ab38c28aeebbb9d0fadcd79032f726b8e1637)),
  ((0xade4207d57062a88fc9119fa00f8138ef4fa346f6a4902a8d4f1b90a06c32bce, 0xbab9c7db4f258181884939a5bb871ede6c6e6cee232d8abdc15a916268f6ae36), none),
  ((0x6f9d5cf976ca74be354b160abe83139f650a4915b4da731e9d47bcef036bafbc, 0xc10f6a72bcd9b95c1b7210ddda44fd0b1e40e8b65e244329cb2c22e892041ecb), some (0xc1a25a4537ba16569a41673847449a8361c85de4c61b66350b107b064989f86, 0x26f06fed8340c455e1da831562f060d99f97240f92a12ee9f848f87434bf6bb7)),
  ((0xa023405e3d3f64df68012c27233d77eb98a59ca3cd8d7fd32549d5b076ea844a, 0x1f0f9edb597c371aba11ed2ad050b5aede98b79fcc7f880e8997c153161c903b), none),
  ((0xfebf272aebe53bd573e2c209ec93f3500fed6751049285f4f176aa40443dc36f, 0xff49e5005af4d693635849c07cfbdbb091aa1bebba37eda3457568d64a13ad20), none),
  ((0xdf52184ff371a9d86f7e080bb3035c209f1a5754b6bd6a2bd87525de8edd7a05, 0x1009597f4c3e45eef5777656fe674a25f2a0e748122d47913d652a6870dd227), some (0x5f6ba262c7a8fe08ae6ae255619b1ad0e95b729d99bee194e6f0fd9646c9a669, 0x8191963065bfc7845dc7faf0d6a31ae11fa4d3d8cc7cd4b7f97181ed29c4d4a6)),
  ((0xdb3753627a3e669daf07714ce9c11d3876889d40eb13315dd0ae48e926a5cc82, 0xa2ebe785c76fa49e0e76372140e4d8a64cb8c56099a10719cc59f7ce76382c9), none),
  ((0x74522e4fb85874afc656e20f1d0099ca4f480b25a4fc04a9785bf8210216e098, 0x417e67eb0929f04774c1bd53ba94b34a48a3203b4530e70aa06127b3ba636879), none),
  ((0x22ea79f7d14690668765f2b0d8098135cfb5959b6ef5a58daed388e222cb622, 0x5706282cb7fe9d11b14fe9ab9abdabaa568661dbae029e2deb2f57442152fc21), some (0x23a2180e14b4ef16e46af0a04d2248bf30c9c03f4104c1fb6ae791453d9ee8e7, 0x307b4de68b8405a97e3cad54b4dc6fb3d63ba2fc6ebd2ea87b9938e8e4541717)),
  ((0x61f866d199ddf6d0d16d251efbbf824c9d4fba8df916e533d31e17a49c3331b, 0xbff437ebdf5ac259a3a72684b106fec4b0e734ee2d60f00acef3bd827d0f3772), some (0xd448fe3f0f94d5ffc5af88d5cf3de1c977c7c7c2096eb6b8f0d2ea316aefccaa, 0xdaea7589a5df9e2739884659e6c4e80e58dc9fc4a6f6f1ac1b4eb6a0e8effc4e)),
  ((0x70fee97e1245636c3212753037816043c06c984ad746e9dae4a542eae753d532, 0xcb718f1a6d73e104b8ad444745fe5238db465deccafc201ab1a8d7bede5034df), some (0x7db6efe2d3d4b0970346eb24ca60821dac9d285be885c35da863c4fabe72684b, 0x19f51dfb992d3fa4ae0f5c8cd0717dd4b11cc21143ade7b9fb9bdc740a47c261)),
  ((0xfac0965242b1e67d2a1a02a03dc44e00b8aa70c3d710c8b1714682dcfc6b3c98, 0x349c6a688b7b58a1860f9d038704d933fb1be340432a0da935a896fb0379ff4f), none),
  ((0xd30fde80e3300b987d04a06587c486b1da27ad628007acfc47ea13aefc655bf4, 0x9c1e118b3931b68ee1a9d3b3d8f081e7017efc949e2964a9d73b243cd4eecc08), none),
  ((0x99da085296e81ec1e30c8e8b95f520f084a7599e145503d762382502bf2d8248, 0xbe5cf39784c08f2af89c23671a64354e0ccbdabcb2ed5e442589f7ea9a5eb6ae), some (0xfeef6e3cf12bbd949a4d23e4c60b5c204a1581a4123e881661828dcc9632e3f8, 0x179d1d5dd2c22c2dccf8b31e0de5035e177538f70b863aaae00c59ae881cf48a)),
  ((0xd159617cdb7b7e5a6646ebda77675fbeefb925b938ef55f8f5cf58311a62494, 0xa82d4fed9678584951990e64b50ad8e26e858bbc7e739556779ad69cb3f81193), none),
  ((0xb882913285ba26209f374d5ef2aba0808d69a53126d7f5e162ca108d11be237b, 0xff61d2538d65f18682d1857f56ccd0100d1e3a1b1179957b7f8ed6d376b5033f), some (0x369dcdd2193c0ea8301a8ea3428ca17136af30f0a720c389f8004ccbf85cb9b9, 0x20b8e331381f4b24044443cc784879c16b00eecdbe559d58fc56af544ee6db1)),
  ((0x6d9213f5e2a4481617cdaceb6c3ff175cca03658a9af31fd09ca548c7314e64e, 0x830caf1670622c7d4c9dcf8b883e23ededacf02037953ab98a98201265641c2d), none),
  ((0xb420d5ad44e36e6c2dd22e52d7ba52b515d34a2e6d0bd4d6cd5a764063aa8431, 0xf38198e4810c915208d4563b665029cf7d7ab0c69d1d442809b4f8933d259c1a), none),
  ((0x936cd606327e6a45c5daa076e0cbf6769b6fda5dff4064f935ded7fba6a8d3d0, 0xd6aea998ee0a6b644158a1f2294be55eb4a9597f7f733d90d243d81d21c24710), some (0xea099a10aad65f5a44ca7db32db97363e460b241590e3b86067de7f3a3de6629, 0x9b1a7e35d9c3b97da15eecb2df2806178852727c1f73df69c0b611088eb6e986)),
  ((0x62b6b4b54c5a10ff364b96dbe28ef9cce62078a0547cf9c07ff524c36b70ee2a, 0x3a7f9ee2fd2b5d7382dbffa5a59fdc1a28d8b51e44f94b6acb2a67f85f431e1e), some (0xc5dc9f72a5a16b0f6222c2bea518ea870e77954eb5fdf6e692c533563f7bca4, 0x497cb2cbfd40a87fa82818e6ca8112a0c44fccef8a305e0045f04484ceaf4ea0)),
  ((0x597ef500976ee296c1ca6d7814d8255dda0db59c134fc96f5d75d1e543fe98c6, 0x427fa01e67ce42459fdb608bc1453e1a7f656183706a18d0131dae998f9002f3), some (0x1df4d4e05cf67a954d63d83b2eb0b1d753cc8beb303ef24cc35b43dca3b6088b, 0x175486ea25640e2885e416f6c87e739d75768bb709d84f7969d0c3e43f793ace)),
  ((0xf0d9b3a892a9842a49c9b4dfa7f818bcb000847ed2a5ec8aae581db5b3f3bfd0, 0x30233e3a522dd790bb98e0cdbbffc764d6921de9c2befdc7e6d23d385982cab7), none),
  ((0x6b106a05de1bd1977dd7eef012596d774bd291042943db0cf2c3810b48874886, 0x806867fc3c2bdd3cf311369f5b0d1d8b925a7c48d594458daee124290853a825), none),
  ((0x4d38565c711e232ce941bf2f2e2ad7d29558b78fda917fec8a0b7ce41a2f8775, 0xa3f4c21ec919b01f02b2ec6d7b1548c02330c2ea00b9135e7037fad2547ba1d2), none),
  ((0xf9328421304d6b0480b8d6529dc1fce3bf75ed34ab02dd48ee5bfcedf2fa901, 0xa91b4a288a18a894dd6c430d8e30aeec24c16a0042136dec48be5ff43140a748), some (0xf5a13c84b653dba101d49fd110d97434c553f4cc9e76a0d48f99a440e7c08812, 0xf3f1c7c0837912bd5928db48ff9f15f3cf7ca973bfc825ba516b1bb5065c5f36)),
  ((0xb985d428ec37db3430117910e2ff678103e123759862e701efd969ab05fc7da2, 0x9d0923f365ad646ee22c491581196a55e96f994a3c56c05e1965118f0ecc2052), none),
  ((0xc2f4f72bcb9a6a2a239b60a0721c0b9f475269f8a3e854f69b2b4a1bd222fb0f, 0x2e9c3390e6e9465b69545800322203cf2bac1a134c92b9db1f6671aed1f4e04), some (0x11ee93b9645ea3e4df643c6b475d4bb621ab9df75d53b5c30a4b2fd4a7577a55, 0x14051cc87a0a1a3c95431d4744d6b91beda098698dfa71b86909afbbfadf5603)),
  ((0x95423c693db42552b68480909b92050261ceb3a10619a414659b83dcc4bcc8c5, 0x9ea7273d04f5f2b89fa2c0d9d882e5560575ce95193a00d4168711122fe2fabe), none),
  ((0xf9a7571f84ca1712f583f7eec1190f0229cec308c64cde1825093b503b8faa03, 0xf5eed486cc05ab9bacf7cb54c359e58f711244e88f468a438852c64fa17120bd), none),
  ((0xc486b864f7ec23b826b244917309aa22a2ca764aacced144c744b4fc76459b2a, 0x2340d887869fb021166b2a043c8849561058a521f5029219eee573f2ddb89cbf), some (0x68be7052bdc2b63253d06fd2eab24c866d9e3e21e883a06b68c5f5f3b3da7c57, 0x22ec0d8c4065d69d77666f9872fd0cb9a861d0c6cf75fbafeb116a1fc40a6750)),
  ((0x658b332993c78494908e109097d8e5deb6765ad7023dacf85f3a6dc480feadfb, 0xe4e08375301b42a91f60fb1485e81d20945694aabd3569e404d86b82dda596f5), none),
  ((0xc1ae2281647cd9674417157557ff09253b8bd7bb6b09239b14541d3bac95a470, 0xf86ad94c2d772fe0a9f8f183f70cdbe7c1c326e7f6359017ee6dce6ac67d6300), some (0xef35f8607a7ee53cf919aeceaf95489ae9c58642701d740a97d65aaae80cb195, 0x372eb5e1a07a1adb154221132c7bd2f9a7363f7314b6a820802aec32b598d93f)),
  ((0xd5bea90a2b4050d2823167d1f8c8971b5f397b783abab6027af759dedcf3e820, 0xac2b6bf6f3179e61076cc304d1da6b4c522aadf9fcac202ad55a2a8ecea0c605), some (0x4c456f8d4d69505a170ac8b925191412bf02de4a39d4d5b6671207ec908cee10, 0x87222ad390a5aaa62b2603ba9c832bc461cb8e7f19d72f3d8b7eb1fe9eb44640)),
  ((0x58c2d5c94126dcf25ab44e9bca0f7c19ed2d0f2a04ef2cf41ffb9cbb48585a5, 0x95f2010b2ef719ee3859dd924f2dea420cbb7636c0a1c2d5d648d21141b7f51b), none),
  ((0x96708f6d3a2e8f9d5badf8ce7daf7aa5c0a9c62ee49e8ff4f6c566e8cfd61ed5, 0xa23c7c52639d8978883ae2330373f792733f6e5dbee6ee08034b0173bbe5dc69), some (0xd9b8a4642b4f4a9e51636cabc346e9084fb77da48030d89f189c34ccf319f535, 0x6b193291687428cd71f725cc95984a66b9ce552a4cc3bedc7de0f38b80c6af4c)),
  ((0x289623e8b4f110bfd73ce08dcfb449a4681ab48c3bab882ae5984a7543fdf830, 0xf11d7cb1adf45e1d4598b94c874f843f4282e72352e47c3c40f54f2532682f22), none),
  ((0xf110091145f98b4bbe62591485ea7b1c219fbef4a09ccea7e1143678973d1ac7, 0x6fb6ffbc8c3f0f7dd894952d3beb2aca8c1005e4276d37f9b131b7c6ce3624f8), some (0xf8326064e5e357e40da61e61db91863fdbe40fdeb3757ddb85a3f7daca860cc3, 0x1ad88b24ac79a044986ee498e5e6c41e499556304525f4d2cf3b882e10610d36)),
  ((0xc1313dad6f32d09a1aaa9223db9ca6dcf6593046aabec89e3c9b50af9471c8d1, 0x95ccc515b38663a78ad06bd9d544811c21a07494b497c68d6e6a7973be1adc9f), some (0x86005e4a159ab9fd1e10fca5190e5669d65dd979b269bfb169b0aed928adf9f0, 0x82a8e109ea3ff3fc2f3bccb8edd1064d42c19c76e35030ec8d176bda7b4a9407)),
  ((0x5afeb8fdb2ed9bc21397ed73fd4a5e8f873290df82a9a05f118a60fc2e22d580, 0x2f155bd53bca344be1127eb5871abe0630158fa1be9b889019678abb482507e2), none),
  ((0x62f8304e31424bcd958bfad6f900875b0f0b05a65decfcdb2bf5aacf2c1585cd, 0xa996efc4da5fbf85bda74ec11d9436608e032a35f655d0d49149df0023d28fa8), some (0x35e83cba47d54c51ad09c7bbd17db82a689cdf8e517899b302a92fe3d6846066, 0x2620e698887c762d26fee83daccda3b8cada103791b8c8872dd4cd61c4af09ab)),
  ((0x38029817b0374e3bde1f89c4ab0ee4ec9aebd36ed3d958f6b3653fa2a9206ade, 0x168bd3df41bbbd824f11c2b885d2cab73fb54b98ab8d826c0012029a8d2ada29), some (0xf3b41cce907febae7ed88a38975d6a87df277a2f310ac814920d1411d495f46f, 0xaf479cb9bb7815330a8e65f3ec83b5a11554a5956d84e3e214f19d894f0e1871)),
  ((0xe43e68c4f4ed346f65d005e38f5b1007fac82c23d741c1b2f91a13d814699a66, 0x246b6d2a371579b7675bc0e6d237d413483f72826e6c07a1bec5066fa8b111e4), some (0xd87c6e56cc9fe91a5eeb93485d5b7c657415f1e520adbab804b5c2512f246a5e, 0xece1108b71ec3d1195f0cb120d81f4d1f5709ae26960532bc1e0373a2bd2ed93)),
  ((0x59846396f5b390551d29c1ca8333455330e61d1f72d1b748b520f66f56a05ba0, 0x7f8a4640cf6f25614d3d8bb7b7eaa524968c819dfca26c2e4620b4d8c2e73aa3), none),
  ((0x7b92f8d3e188f48b6359b4471007ba146bdac33fa910dc3ef09b335d708a9c, 0xe6ebd8d9ce58b0a6a50fde9593d9ac48f9dc2ed27966815ebf31776f9e1609e0), none),
  ((0x35e84703b49b66f965e772d7fa00bb7e5dccf3f2332d66437dc760c6a462c216, 0x5d6a8b23060749c3c24f4c36e2edb0e44147855195553893eec48298a8d98a3b), some (0xb58c87caa55d1ac579dd0e72ed5226087e9bbd969e0d13613176316918516dde, 0x3cbd24703b99931f9ab3f95cd86c47680492a080febcf627375b7d97137a121f)),
  ((0x43033f1e1b2042b40f0b77fa8503f82e313f557701525f636b406db6f105bf48, 0xb962a469ba9179826a64b0487f3fc468b7105d84717d574fe00c1f58a869b659), none),
  ((0x5c6c76af9424fcfc3a5d13184b3f3abb4e539f0f9d633446a33f2125c516f987, 0x5ff36fd7151b0f95fd2b7b38e44ff84354bf9a49914cca27ab933c34ab504f60), some (0x5a1e817c07e0a742025714adae721804b8ce72e1b2a0f166d79ea0c50410c4cb, 0x2c6ffab82053488bae16a4ed3ecacc23ffc823117834696ad97a06752f1d1ab)),
  ((0xf963fd4027d76adee1ef3d6e89fb30386109fd17882487faf8743df0996a80e2, 0x38af56c3fb8972b0aa74f0150dab937d362be860e60125b5148d39a13f8fc233), none),
  ((0xcd4d25a63d3057777160e2d5845c83562b712bd33db04241548ff097f15e3e59, 0xbcef478e6a3b5a2d186ce7e1b68b2480da8cba774461ce5e12f8ee16e008632b), none),
  ((0x569e4bc1c425645ade747b75c35f4c5627dfb42c3afe746e74b56190eedff0c9, 0x8477b9467146e11ba3ad90775da9e17920b9de60042afc674771987ba94691ca), none),
  ((0xd1914a46193eb5e7eb5dea2ba3a16b292c643d2d0ec4890a32d4898c3d8585c8, 0x6db4db072bfd70697a579c4fe78fbf830c4faaf165c721712905327ea75e616e), some (0xfaec269f1bf63b9a7249820e9bf8e9d1c1f0a809f2fd660bb00caab454974c97, 0x3665883b3c5d346b957cfe6872a2975891e12cd1a2ade5fe7b54c31548b0ac79)),
  ((0xbb0d4e4318f1708a574626cd95d9dd93db1747ec067b40056f32f4d2d9af8fb8, 0x492e236f0f629bcdcf1dbb0611101d8809a564052bc0d2cbb559352f538cc785), some (0x5b7a5b77b5d82206af1c5ff20a2eddad9678b3f5c6755e9f43cb9e1cdf28e7cd, 0x822320f55ce4aadd915fdcaff22031635cf460f2d082d15f77d41f57a0633ba4)),
  ((0x47d29e2b7a3ab9c9d30ea8112b903ded1b3c304540a3798cadae9e8188529468, 0xb19dc6f04ef95800011860f8597cdc570613b2a7cc91ccf2aa6a6d1e736cdb6b), none),
  ((0xad4623eee0e291ab4fb2496f8a3a3f451c27353f773b9692029b74369c83a404, 0x734a0dd171206ee8c37913e01743bf369c8475417ab5d87d9105244296d607c4), some (0x41a79b301bae2c416a5f68693f047d4ec9732b9a8c06c8f82c6bda841d83ae24, 0xba66d929370ef612d9b04ea10f66384812ea986a671014f832b3c3972a67574e)),
  ((0x2ea5227b2c5400efba1894fb6749b5f70532d6a5ddd4a4244e074ded92eeb527, 0x80086ac3127eb5f269d3cafab7df44af6139139c50947461c00cd1cd64786a1f), some (0xbdce7104a29872f383f951c195237d3bc5256dfcd42623d954620f493cb556b, 0x1a37c4b1c7a6c17a9855464c020cff592a7998abbf6ab121ee1072cc482bcfa0)),
  ((0x534bf7460fc017ad6562ba8824e789254045f4b444a396b7d635f031610fbada, 0xf496dbd933aa77b7c22a4cd7f7a922999d060f7abc22cbd1fb79bf78b7970b6d), none),
  ((0xdec2e961c81654f400019d0bfc03a709ce2f2a205510fcf6b01d21c14f7b2f09, 0x6f344e8233549ed5d451142131c9ea64eca53dac56bb497e12abf8ee2442cc60), none),
  ((0x970713ed85fd0bb1590b7b2a42615bf76889b033675dee8a407f3ae045233c02, 0x859bf9fd680ccf57e574c514cdaf09738a98ac24a69f5cfccd9a042a980e46ed), some (0x470cce16abc694c03e9528f46dbe020b2953d724c35fa3e0b7812d323e864c96, 0xa84468a38648390f410f0b904be925d4c85980d0c24eca3c9cd651240a671f4a)),
  ((0x4951a5854d43ee7222592b4a44e41bbf2d0f967c9aedbe05cce91c9ff74febfc, 0x2bc323224b824c8e4fb8ec84badb721e34d637a2ceb2b6bc7c01a254ef1d5828), none),
  ((0x58efbf9060a774cf9f673f9a49c8811fd0d1a3ca7a6f9c993b9f7a322ff7802e, 0x838b7b06c0212c7bf6cbe9005f52358c18e5c7e03c5a99aab2add8ad938d592e), none),
  ((0xbf5d6d7c8f0302f33ff205d0cbf359567c8b6eec52ab8b5b852000a136b22ed3, 0xe4cc5da499e9bc71b00bc6d1d3029135f4b8f79ecea5405222f1e6c1416f645), none),
  ((0x936830538f093c36b6b4fd4c836ce1d07cf666caa9278dab3386dc8a536e83fb, 0x60138e819ea69b7adafd0ee421a25b7bd3c2fa678842e76975c7cfc20e620b2e), none),
  ((0x3352dc24e6b20731c399021bc8bd245948cc8b97b95f94b54dc2577727fd6bcf, 0x677402c00b40da5a4f4772b00aa730b2d1aa0c87682c6484be24d34bbe452e6a), none),
  ((0xe56e56b7d1f06c323461995301a091be8aac495ea6dc82514374b237273134d7, 0x66d9a948571acea61e64c9c953bc534be1c3193c109bdaa32a019786f4025ce2), some (0x761fc66c5161c1e2331006a744b0a22a57fd245c813a468d0367e23222bffbad, 0x494f3a1ba9221fa0a43bb9261aeda847a27f85659255567f9eb12616da76dd4a)),
  ((0xcf7bf5fa4237e31d87fdec5102c8f8c12acefff51b42f6ef51024ef02a393a6c, 0xa1c80775a3859d9ceb30dc4ca6219d8ba3aa99ff335d5b58c7b19a7fddbc19c6), some (0xba6d7b00646837924b598c29970766842613a51b1842f00a0a9f1bccd3f1ec59, 0xe8b6e5e15179c07a12a2b21accd52acece366052809dcb544e33c17cd6cc899e)),
  ((0xf1f93f1767a2c9dc890cba495e48279a1735633efbc7d6ba04f7078f482c297f, 0x27160d272d1bb78f3a7e93bb16fb31038fa46bc92907bd6d723cf32879c2d124), some (0x7c35c205b2149102946b4776a91f6470e1d00387887164c08a8cc287b6c47832, 0x7784e6c99bbd7143f18f76a96763ebe96049abc67de85211130e782677dcb112)),
  ((0x58d9c04496d76716b08b613cfa7f0f2db2d2e4bb157707360135df0f6bddb7f4, 0x4d44f70f724620a63149a58895e5810826a9874f2d5669ec3088369bbf7814b), some (0x81517025ee18714533cda2b486809c59b88353eea7734f9c50d6699bac47f23a, 0x354f03adb2e8c5f0e18b16f795b47432277b297fb1df369b4cd47defda7421ad)),
  ((0x74f6de1233986734b7d9029497ce188fceaa76a9dfb31861c25e813fe8b79985, 0x8cdddec6cd7b1838bdc4d6de4e86943c115856b5341ec4dc1951ca7f68e79614), some (0xb68eb12c8cf599ab391a0e1d70f0894b29ad8a14476b3e47862b0a9238a40974, 0xaa23b3b35770104195a8ec57cce2b084668331bd6bf65743e43ac11ef0474126)),
  ((0x4a18500e27657f8f27047392625f9e4dcdbd5e5733eceea31a2b2687e52e04dc, 0x2bdf4df5a9282040139c4ed5a3debb3aef047c8b8973f4c7707e07f11164403a), some (0xa9fe3d43532e7bbce3bcb525084d93c0deb0709445722bc99e4d25f721fd4821, 0x66dd60b5e8620bffa84d5115bee5bde23c9f90ca04f9b784f8cee6f6222721f)),
  ((0xc82222dbcb97ccb2011c4d5872fa502eb2bd67ca4905fbb18b3ad9a5593639df, 0xd4d09f9109a2ac02d7bcc7de39674e4bbb660ec34ed5239d18bf6b6dd7269254), none),
  ((0x80b78b578e5152192cb7e97d52d173ea337babae83f949399ef5d51422ee8524, 0x4cc12bd9c37c3e304480f1cd8800542a737f4fcca2058f5258b32a1ad4fd70a5), none),
  ((0x670c685014c0adb0172e5b9d5d3dee81366c706ea88aa03b39555493c84ce731, 0x18a0223175ed24370f6446b39f895f3da441582ff74ec37e3b956e36d543db5f), none),
  ((0xf85bcc39073e5a78aeb2cd6f6adadcdb2cec28382479e530efefaf12c0245c78, 0xa6d45138d72f6bfd9ffabd99db0a8d10bda760cc3d6b040583595a49acb78bd8), some (0xe3bdabb9e78ed56ca544d93fc2755b5966c6a4302e181e9d3f3cbc3546de8ce7, 0xb81d5140195d53b62ae489285f19f4d6acd9582be8f8787d8487bb3fdbd6eb42)),
  ((0x2f7352193343f02bdbae361f130f0094a2cbe7356f2b06422e888cee61424b13, 0x13dc496aa98fbf62beeaf9f22e973ad1c644914552a615e2559715243f9e83b2), none),
  ((0x262bee7b3c2e513a4e6884554a2900454b3b00fc008472e29fa27bdf228b1940, 0x7a60ea9ecfdd4fcd42419b9af765ea0db344ced598434071a092e7b9f15f967), some (0x17f7465bbdf35995b1e4eb39e4b012013fa1534e68126df4841bd8872637dc7b, 0x335ae8c950f16c579aaf79a5ed76fb1e56f82a232fa32b930d30d2279a79a75d)),
  ((0xb4911576736121c2f7cb819095d410495ba6a709cf7da1821b4c9e4c1dce6bb9, 0xba445b2071165e457bb038d39993d01438d2454b929fc0e319b258bb2519b919), none),
  ((0x317d3a6301037f82d830bb57459a4b91bbfb6b684f285608063b3053da9334a5, 0xcfeb38c4a7f6f730108f85a0c3cc36ea50f4eb367cceefb1c42effc9ee573468), none),
  ((0x60bd4d18886143f3aa29e6664c2d1983f852757f08e04e8885c5470c2180361, 0xca92f60f568a525e95ebd6c933ae76ec011ef793f2c9025c8b1df18b35cbd353), none),
  ((0x5aea8e5a6b2f6c175633e6a43fd6a60e851bc5e7dd33356283aee5b0a3a271d3, 0x4593e581a6447df2689d40926a177d1d1a6acfcb2f595e83e1b1dcbe8bc7f6c8), none),
  ((0x3d6c86eee7bfb8e29c4f3bdaffe4dbc76b9376426eb7ae54b36c3cc0dbd94e06, 0x5e16e514fb4250797c99e2faee384ddc8c51a38b100df9bda55ba3b1c67c8073), none),
  ((0x1c3d9fa0e74c8c52667b27146d5ec86dc222e64ecdc47d2187f9f4928487976c, 0x744bd1be573f1ef3fcf19c0817b3da6a259386a734cc19a40e76d0c42345baa5), none),
  ((0x67c1be7d1298fe59cbb0c6e362b740e0371c7d79c96e0f89a8c7cf87fd6d15f6, 0x2d3af035ed751a9e12af9ccb15c46402c4d0bc1a96663eb270bfb90afdef705e), some (0x7a59379d1bc6672a30756f416a1c68ee3baf36f83fac4deb7b83a3976f51a7b0, 0xf4fedeb4e64c810d4213514c1a7ee168464278cba5ff06892b760a822cde4c41)),
  ((0xd0811fc65fc98c3aefbef2478d260fe91787754d63755b0224aca38dbd79976b, 0x7e5f1971c75b2797ad510493f3dbe2cfdb0ff191316a95529e334a157f5c1af6), none),
  ((0x88479bde2e1dcf2f2c1eaacc3deb3a9ec362344ef58888ef36e5682e95484c5c, 0xbca73eb2d614a99b5c56f2bac31fc5e402da8b26c8a8ce010a88f653076b3781), some (0x1279eb69d374aa32aa70316f0b831107fac24be5c9b40df97fdea0634897cf84, 0x4070199f1a0d0bcf803e3c51732f5758928bfdff8eddcd8f3c911dedcb7db731)),
  ((0x6c0beb1e81c6d6d2cc10c1614ecb89c4b4aa4fc103003559b594d71246fb1c0, 0x6d89a618a77a630cc1b7cd903f9f962ece0f52d76159a76257d08f9273f6a159), none),
  ((0x75b1779c2adf0e2f952acfb5171f879b9fdd210c920991fa9608cf496bdecac4, 0x8105fda687f139e05755fad4cace145974da9b3a5f9b1e78bd30432115dc06a), some (0xbdcc2d92e8712a3c7e5eaa5c5c329769ac80443a672e08eef14f8050d1007614, 0x9a9ade21b09a8d8edbbfabbf837827dc916f071edd42233c082e32278637987c)),
  ((0xd54d76a301003efc8c419be0274c9e402f3d58a6ffdddc65cee19ea5fb76cdfb, 0x11b3676155aa89a20791b03e473afc4dea3484a32695fb3ada2abdb33e98c09a), none),
  ((0xf69f7cf24e139032ab0f0c373e6a2bf99a77c85148da338f64034f36342ac8cf, 0x6f97df102bd7beb8ad3ac5e47b1958aa238979beae3c46affaec0fa79e5ed9f6), some (0x28f10e3d0571c7bfbddba3e1bc971f761944d986c2e0d7048470482d127a079e, 0xc38445d9ff8ad81a8f54122f3e4e45fa2328b770258779b980e41103bd188f2)),
  ((0xe26ecd5443e3fff78ea1c116f7bffb53e8201be39a9b59c19c17e0d016039382, 0x4bd8125796ffdc3623918dae188b1414721590dc0f9262720596cb783e75aff8), none),
  ((0xeb848435d947dfbce3c4537235ee74dc7d87ce29d6a904a1a66846fb45aa490d, 0x4ff5d6b864493b46afa17cdbc734a521ddb8953adcebe0770be624f45aa52b67), none),
  ((0xd6db6bb2ddbb4e71d5a3defc898e01e9a56ad89fbfb19e6ad64925dd325239cb, 0xa73caef50c44072b0f4250ba76f0a5c71e01a829104e0c31bd59368ecfe65a97), none),
  ((0x53ad51641f4f3ecdf8033a9a1b690ccc9db066821b07635c40528e78f0ed6efd, 0x8302a4974eed6ecf5a627b4a077c71ec3c10a48681700662536f76a7db028c6b), some (0x38afe275e81200987aadfa86277ad609eddf73247605f9c2395ba49e610f2222, 0xe767eb0585ced973a23ee406ae8b8456a5db7c81b66413eb351c56b8952debe6)),
  ((0xa6d97c78f3ed482cb222b8d81fa9484b4324e3956b83e350862e961b13c6ab89, 0xd48919579aae8c56f1905215e827b7a00a7ef45ed9c4da2f6544a47e50005565), none),
  ((0x494ef0982a8a8e637a1b1c2dd58fdd3bd29f9f9e0bdcb529de34d0358c145b59, 0x7f3a9d24597fd0c8d55b6177e619b01822f50c6990a014cdb8354be58be3e344), some (0x845e394c4baedc6b5e2fbff38973bc880692fad99ba19c6f7dc221953063f73f, 0x8e7f0db148fd1a9eb802b8c9f0190a746b9cda64f32d3c9c8af821a453c81d1e)),
  ((0x2b26d94fb6352e59a49ea64dab4dcfaa1c096e0fd02adb500d9aec3a4dc12167, 0xfeb6dd2371c4345a748a6128765521c898fbc9957d7589ab93874e3ebf687ca3), none),
  ((0x90da662dc402984d174ad941791bbe3c327348f7ffa576b4bd8aa86f364d1b72, 0xbf34843e36cf586d7a5789732a0c6e989cd431df6caedc7db150c2ea609d37b0), none),
  ((0xcc7b29efc8c0b3980b28f9cd28cbf53427d72325238c791f7573685e5760c014, 0x29745ce81c7d8367389e22b84e5c330ff0157d22a6d301c5434182c689251ae8), some (0x7fdfb29413e6835ed715055027133ee1418ee1191a46b8703cb273844595b7ec, 0x861d8aba001bc7675b7e895570a6895ebacda1c5d763980c89202c7672be3acf)),
  ((0xbd3c6683686f97e75816c4fc974e8280798bfe83671732523ebf01776368534e, 0xb9af285bbf0131ac194e5c705d92d0f14585c55eaf4bae3d656a0f3e9fb9af1d), some (0xc8fd4f064f317b7335c6a3eed55140c5d759c1cc4136a1ee58fcbf5402964e8d, 0x596bfe867a88b7b603c890239a830fd66e58aaa1875017545a833d238cc21bac)),
  ((0x85acb7747c94f798744bca4fa2b385392fc577ef9f2f65e456b0ccb744a826c1, 0xe56dabeb86c67e22a7d3e2507463a96deca15792ae0c997a260a3c93cdfe7047), none),
  ((0xbf6f4c7e1def3d4612ed3c78fb476a21ee1964a2dcb59e5f1c5e12f697b5cbf6, 0xa95c0e4318bdfc1d35da7fe202b9af3114619145d252574517608b4adcef2d35), none),
  ((0x7ee9a853b2328571874c292e2e92262ec263bee45087b917b59e8da77ffc6895, 0x2c5b94e3cfd5cefeb05d3cc635c20699bdec529f1caad1a26fa9fe0fd89cb801), some (0xb96d7062eaf453ce34e043a3300f01572a1081562ac8de451075ed87fce41353, 0xe2fcd0a3fecf34a4b884ee9c7b2904b7071bdf94c9b7465dc3cdf42a26d5fc3a)),
  ((0x266232d947695ce6efb6384ce6d7c3d1d62ca0a54b1506b8450f15c5717de138, 0xa202121120d71c4325d15519f6affa7d7e69dfa1192b6bd86c8c19f7749aa52c), none),
  ((0x6ad94f384fc758e365058eb436116cc087c5035036983b0a0996b48391502701, 0xa2c073c63ac9a7fdda5e15f2748f3ab065a3e00adfaebe2c4ab89c144f13dbf6), some (0x47a2a74a09402a1b1fef6a85a684b25b4b8b73525d51e08c8e9d20af2c9e235d, 0x55b841eb98b190f4009de9c5ba07079a959c67a85e3675042be6503f8363d10)),
  ((0x347e28d1c5870f01b2bb7e6039923f342ae80846d067fe887fbbb0da5241fb31, 0xa10d5cc08729bafbc6e13fdc5e63241478bd63661887f5e93055e25cc3754b00), some (0x1fc89d450bab07f4a6ad7d510b9ac66688024e476423c35432d50cbee4cda0, 0x2db992bb01ec4031a18ba361f11bc069e4c45acf85fdf385ad6a5d353cfdf649)),
  ((0x9075ee61809f76739fabe04e25dea74802969371ce6ca7e86d5ea6b693f51333, 0x600a3d5fd6542b9eb4f4afa9e7b3e282224ea583077e46939dc4c886207db724), some (0x39e50ae6368d55f355ccebdc8a61432904f9bcc856c2349545141305d767d44e, 0xb58b4267b33589a143d4c8649901ff60f6e5f446b4784fd598ee4f51d4440583)),
  ((0x1cd79a45a31a691b508a01240f4e371c0c0c64c47ff2a1403c9093d2127aaf51, 0x82741db9bd31cfaae7df8d0cdd5bcccc517858a3970bba8f350f71cc13b441cc), some (0xb97cdba592d67ccd60fc39e97d060107f85cc8091bdcf9168af4544e39d5126a, 0x1977c81632db2c89f564445a3fd31568b7d2cd03a4c3f86b06494261c8f94405)),
  ((0x35a2fb548152e80acd1d1ca8fa724721acf03ab6cd93e4de55215b242fd50ded, 0x3fb8082ea0fbec89868f3e9bddecc46ed0c26a802bd0f16aae5f0cd29257ef66), some (0x929336cd12cc4c760a2050d3851a31b7116d9e92518ba54a6144c60bcc097e83, 0x257db753fb11c1cc23ea93611c61709b7cb3579861c90e7f57c0fd420a3a6362)),
  ((0x351a5084dbd843bd3759390c6a16ca088c44116221628292f367a5c5b84c4246, 0xb6fcdf3099d3354ea9bbfdb72a471ae77711f4603cda47deab1ecae3aa8f8088), some (0x2461bef34ee84c9792201569af9ecc0d6af9bd61026b8cc3db0abe351bb3c232, 0x718106f5f4a79e4362a3c0ebe17bb98e1d8560289109d9f22167f7951503ff49)),
  ((0xe237cb4b8657b79abb19f874f8dcfb2b9086c03d71f76ab8554ab4e24aba9150, 0xaefbfbe56dfb1a94bf69d542fdebb6de38125c6ff42102c525c08c0efa83c5b), none),
  ((0x1d2f5f751796bfb5bfb9c0dbfef9d9abe9b198ee96d60178ce21f62454eac014, 0x60f6548380fee957adc9d36318c3dae867eb25d51d92e421f8b3caa15b4eefb8), none),
  ((0xc242e5ebe6da9b997f57a004f3d9f0453a7d8bba6ebeea2775a6f74946913f3b, 0xf8a6f564188c5f8007b4b96038b938e3c0cacffb0b5b72dce53b9617028a463d), none),
  ((0xa96c85dab3b6df9db018d497e2a60720961a624be12aee396a4937b9b640e13a, 0x4cb21311394b482f445134c33ec5f0d527ee73a175ea53043bafede130d9d6ad), some (0x6745170d62641c4cb2205a28083ecb603dc98e7835260af3f08b84a4d40bef28, 0x3011c46eafec245397f91321b514b7dc610c63e4119706d91c68fc59b549280c)),
  ((0xb4f4bf1c1eb6e171e8c41b9c718f7daed0f4fa43fb9a19cf695ae553abe2b731, 0x71ad00bed277293451382d2c1ab6e822e7e7bacefb1f9b2fee717b0803a7d91b), some (0x8a45363866916ec5265f8b16489a3dce88063ef455ec9aca94a7b24d9605d9af, 0xcea8412ac5dd29df6dad409be3b8652aa573487afffaee212b9fee6a19953bd5)),
  ((0xd0adbfb531018dd9c9de432788a94662172b0b1a21dc575df2f3e6141f6bf54f, 0x12ff032e4b2a8acdd531d5e10b70b2a20b9b83f69a2df90cb25996256862e81b), some (0xae78c16032fde076ede567c28a16e3be4fb4e3c8c2ab5b5cd54c55a27d10d2f1, 0xe1395c562c9572e4cd8951633d27149ad2329f20867f17ceeb2f0cacb5456ae3)),
  ((0xce8bbe9f30db183e49f26924253d241bf6e7104a73333cf21033aa05dd8cca76, 0x35fb246f17e2f6a38dc580a0670af6bca3682d0ee82f6b611cac8852f7d9a6ff), some (0x363391279a7fcf0cf0fd88165c5a7b0e4a1bc640beae457aec408eecb7117be6, 0x79168466334c418653879e523b3c3b9cd98f361892898f7b7f8184cd3b1d8492)),
  ((0xcbc8e7480126a071cbb02c12bc6db267d3f22e677f26bc37f75910a746f7fe3e, 0x9e6f7f3c666a005ab04a0c19e38bf40478d0113c593ca4f30036914f2909b4aa), some (0x67f4df7adc147cb89ea4d0ec05155bbf5219ec6130cba8f03c56a53502deea5d, 0x9da48d7e9e280ba63be76826deaddca76576b16d318414ace5d2e847c367fed4)),
  ((0x6fd71c86f6fa545259ebb4d704b0adb05fe78c26e66bb78b16a696565b7af6d5, 0x788baba5cba933e5f2fb6280db44982a33d0e51c630a19f8e4609feede2bcd77), some (0x5894066440e7ec9728924d9f02e269b91d19a3c9b01b55d4e4d220bd19155450, 0x4a53e11618b9e85bb0ed71b323e459c93192e15ad04611ed2b127e78b26fca3a)),
  ((0xc1fe5d7657c1fe15a7ffeac6b6887566120073bcee15cf9b1c1e59da79e6e6e4, 0x57df4438998783fcdcab759acd161b0c778411d67e2032737d7167398ec0ee6a), none),
  ((0x40273dda68183bb700580d1b25219005749dfacc1e79e920329fc8670affcf02, 0x285eb9388230847facaf0e7b680b3bb37bd23b6066ffc0981619c7f7b075b995), some (0xf82bf69b2b48b10cb80a4177490af19cc465646e86dc90fa41798479b0b08b39, 0x74bd89282d9a45e9d5ea41e01acc6d31266f9b2a231852880fa55e3545964839)),
  ((0xf798ca1e54c571541e06f3bec77900b7ba78727b7b83909d672ff85b86c655f6, 0x2be33f2a9eba5db97fa25a0827ebd22297a5c688cf856ee7915e57cfa8603ea2), none),
  ((0x6351df7e45b5d69f38e75e0968cc2e4ea5a215a236ac32669489a6d94ec05dbc, 0x804eb02e83acfc43b949862f93baf0e0e3754f3454d636b3460de835de5efcc7), none),
  ((0xb694cbf06d86a2455a55faf6b4bdd0e3a8bbae3eb5252a65a7924cc7c68847cd, 0x2a6a6178a5bbdbfc713e65b78962ecfb4eba0fd6fe21e54b9ce08aa60501d8db), some (0x9234eb8f99a73073eeae2bae477d4fbdf9f5eaa148ecf97a270c46cdf71a3a99, 0xd1a0c3797dd8c9ecf2209a1dc8ecaef68e74c9f3a3f7e3808a480eba2f00e58c)),
  ((0xd9318356448d56bc07d55df470d172da68a59e35fc37754c7e7103ca178c5af9, 0x1f52cbb44432d88330e9ca5edf6f56b568cd77bd1ca5dc3e054d9b8a00080d19), none),
  ((0x99d6d4f05063b3fcfdfac2120ca425ee71646f0b5cac6ae45f05701ff7492dd9, 0x68f16b6d388de5ab70e6caca7f28923667d89da9d4d90fceb0f0205cec44459b), none),
  ((0x8e79577ccac02781c908966a0fe3b090ccc6277c87b9550082ff3d9bd2b77248, 0xbb5cb39b20870262f75e2eec9193c434fd03c6426cd3562c6ee868948276af66), none),
  ((0x1f7ef48f1fd2e77ab2d61b0bd85502831b92972f4f30ff3485e7d78bc7528cde, 0x133ff2d8d738705919c1723b34a5660c82cd11f4a539161e0d518ed21afb1652), none),
  ((0x1a1c0ad00ff0b9324690352a1a0df91146ba47619db52f48a954881ae435deb9, 0x95acd546fbffa665ca7e135cba79bac815170691983e93d4a32c308538dbe752), some (0x304764ee49ab9bc21a5f81e5c7dccab9014e3ddeeac400d7f44b25e83fa3e7cb, 0x1b5d66d0ca8157e963b2b4cd0f8103f4760ca8f76fc264429191d3ea0129e808)),
  ((0x49f458dd4bc3a854769681f2709c4d5563938c8301323dae35eaaa66773870a, 0x190a3295447f14af421488f84c681fb3e27947d2b74b45e4ea39389be5c09f5c), some (0xff431d169a535522ddab43d3c7183eab4ea18e17a06901b6eec1c585b949b06b, 0xc1a883d735550473437c4b5b8fda8492d99c07f0e6456c6384e1e41e0cd1511e)),
  ((0xfbf221988acf818cc74a2fca473f6dc50318bd30c09d3d4e6f4575afbfd80507, 0xc98054c71930c4db2d4ab23bc91c1a414bc6bdcb2e99c69205d0914971bae495), none),
  ((0x1280fab752f88756c5b5e8c570b6b805aaf2e149591dcc34977fb05b446f9c2b, 0xba575a9a144990f3618008c9f656c324da40d5bed9e40615b16ba1fd3c4a55c4), none),
  ((0xf8140f714849674e5f9bb038c7b727945d3cc21eed21ebc9a733a2944fc703c7, 0xf59b70109deda90658817eca190d91df62088f53859f65068d965c4fbf4897cd), none),
  ((0x86cd2ad8219c665141c4bbf21d5e503ba5d2ccab39700b0f9499318130b973ed, 0xef1141bf981a59bc57d0b953c2d4b2f1040c2a35d84583247adcaa0f01dc7608), none),
  ((0x46d3487a9bcc2ffba468574fa433286eb5c0bf0f71160bfad01b43ee4b76dc3, 0x9ea48f0ba08be2d4f93daad63f742c9f0a33c6a01cbfd9d1b0e33df652b7491a), some (0x99833df9db6ab33dca73ca8a31e4e9c4272d522d945310974f26ee346104276d, 0xd350a888f56824a35db1b40c636703a2c75cf89164181bed50e36b677dd258f3)),
  ((0x4d1ca00beea6fc6d2bda436736446d4a6d4283694ab01d8b4f5f9b7a4e0b60c5, 0x6a148f91d0608ec9e2a23901d9e3a9909903b490edc33d55403ac40e70d8a57), none),
  ((0xb7d6d1ad14bc1261e06269f46d8c7048b61119ed6cd96af4becebcf029e21330, 0x2e0b982a58ea619b1e889073cbaa0ead6956b262f2e15f9937867a8563613add), none),
  ((0x80cf7a0292e83a5b4ba6a2a899ed0eba9ea1ad100567b47b383326e69d5954f6, 0xf1089327fb0722277f6e5cfd7e5e1633b5a1b94fda443b04f98d246cb59e46bb), some (0xe3043ec1bdb89c9b84373a3427783ecbc036119ca2bf3351d1b8208b65d2cf1f, 0x68f823425236a61afb1d8c2c166a92be47cbc6dd978fef3d03d4de18d0246f82)),
  ((0x49354b36076ed87aee3fde78e800481164a29d41230393c643888ff5337859fa, 0x88bbecef7be9f417832820d3ce29bcfb754a8ffdbd2ca4c022e6b97a0851cbb7), some (0xe1d01f61c885b8719b9e3487612f889395086d3f41630847e45a185bb5300334, 0x5fa65b09163dbbe5bbb516905d51e775c753e40b34a3f090f867a280c19a1eb)),
  ((0xbbbf947d5502cde25b82eefe2e7bfb769f8bc066e564e2e26511b8d7664d7702, 0xbb3e8e5427cfa417ba9df8087c3c5ef9bcaa2e6284c202632547ab1f8b619a92), none),
  ((0x79f1c105dee31c53da953e42a64bc76a3afc2a6438bf85d4e1089c132a8762f3, 0xab0bec3b63dae04ae604bb1cacd211a34e197504a73edc1e6e1a9e5b69cd862d), none),
  ((0xbbf3af2cb7365f520e14c369f4076f2de0d4ac0da137c7020bf874b96f30346b, 0x76c8249d5bfc49bc8ad6a906dc381db9ee3ab49ce9b681b002238baf31549f9e), none),
  ((0xd74b4f61f8e32fcfa6e8771ea198ae16a9687a12e6baea0773286f558af69d05, 0x4f5d15017a400a94c5d2315f474c9e273cd14c99a2a153eb612996cf0c2def12), some (0x5d05ab38b862865a2c45ccac69f6a11e4a4d55e9f63fb4c20c48a0b346c10013, 0xe8d1a7399e7141a6bb0ce0ff78fab170245da03d51a0a2d735b4b3c1a4bdc71f)),
  ((0xe472d3f0ad21a038f4bfbad50e43939f110a3033b25e28cdb49fb1da991e18a3, 0xd7c5b5eafb0cb2ffc4c6866b8a7972709dea789b57043c728bf0acbb0adb4d91), some (0x8d84194d2b6d482a9b55ff8c4f998cb600d7ed4200b5ea863f4d6a5715900de0, 0x38bb37b0cab290c68fadd69c4c06d6bae1479cb7ca0a054b930f08b4f3aacae5)),
  ((0x9f7a0203b88b0af7621bb2e1a755e351930fced04802c161fc51dc68b203c678, 0xd183dd0abc97ad784d2e0f93d61a3e29b2d1b132e23c57f25379cc3edb637b75), some (0xb64e5881a03860bec307c81bdef70dacd8b6d10a72e7523efe4f4f56f7e3f43f, 0x7d0874990be66eadf2c9b8353869d9fb7ef7445ebab9955ddf53d60c1ed6c822)),
  ((0x13ea8dd485c09c529ab01f4f0378239eaa1585d9f1fd9f0459bda25ed68333a, 0xf8bbc74fcda330542c269334df56f701600af415ab44d20ffc314a95c8e59a3e), some (0x1d6fc98454015261a66f6aef5f59a29f73038f32096ad177288c3ee0fca04cb4, 0x315a54a11d39fc7d0a193dfa689c821320b741d6a2c73a2967b39a8bbc9b95a8)),
  ((0xb60185303a8d6478a74acd2b77d3e092edc175228f3e9a84ec839c30353e9a7, 0xb3f8e6a946a6ee9f164f98f7028a016ad1f9527e57226cc8bf9acaf5c05f2ca3), none),
  ((0x782836bdb694b0845853399fa3ab3e054ef0e571fd1826d5ca8065d37c25fa35, 0xfffd4b267090a3c3f9d8e150e853c0c53f0c736723474afc28ae5acd10de22e2), some (0xb5221538deda39251dc3c63d2c6bbf49428b2ee047ad2b6542f47b309fe1ba8d, 0x2907a70420fbf62d8d6a569b46cb9c489ebde6a98a781eff2c48672a470eb30a)),
  ((0x1fde323ce25653039f7181c79f961e27500952b2d69a52b57e2728628d3a1f8e, 0x5e3c5b9bbfb67c8052d9858e684806a6d029d1d09947322fb5160fa8ccb3cff2), some (0xd04bae22cf13ab70008a1068786b0137db132d579280b0e5c2d97ee0fa2a2d0e, 0x9d0e1f2e6f1a17fa6b0e5660e2d680893d221f9ad3f2f900c903f1b5f1ce6620)),
  ((0x740f3b34b79b49adbf4b4db9d479c4752bb9aec473bd20ec5a95870727304e3f, 0xc171b5ea07e2c11a93d8e4a96684c7301e3c04ff8e67e75d2d8649c26c2ca73a), none),
  ((0xcb104b87eff432aa95f9948b90c0b206e25a650529682c61aaa23fa5e6d7dd60, 0xbb75ada19bc74ec4112bec1b7a5d18aba9cd829a3d0b7ae8b3ef69feea319b08), some (0xb58dfbd07d84766a43a9bc86c7c23e08a02a269924b599193d0a3ae6e03531c2, 0x1ece2e3c2cdb7312eceb77f68ad8921f796ac2e8f40ee28f4780bc6b2bc34a39)),
  ((0xa6d0fe81ee9ed1a4d3599d09df479603f660a39dfd81509d8efa7075b974127a, 0xa5b99a520a1ecd5bbd068f4e706a5f8776e6af433c46f532f160cf995b37a425), none),
  ((0x7774aaab287a8d95571404b5aa136eb93220e974f62ddb7afc83dd23671e7615, 0xa443a75efe7a99f9b59cb8fc6f0c75aed2a7d066d9e62b87f3d845c65c6d204b), none),
  ((0xcda9a5ddcb47e9b7b74ac552c1491852fece35dedaf22ed950af882a2dabadce, 0xc8d3f53dcca3aac9be29fa542140fccafb6995c1ffc5b0babce85818e9d341e3), none),
  ((0x49bea9c79302a368fcb4495fb7f682db8879d7cac157a1bd7a63490f7ddcdbb3, 0x108766fd6b4f7379dab5abea7c97eaa85cffdeb31358c62df7b236595cd6e649), none),
  ((0x940bc66e1b6b6150a88fb9be2bf17d239b07d6c3ad20c70eb62f1fe774192d22, 0xae5fa49ccd549f694f968cabbf73740ddd8734a7c3fe77039992059198055a53), none),
  ((0x2937cac416e9bc5b88719ce9b83d6534f3ef08a3d388c62fb2f8f85953955693, 0xc1b34bbe578f7caf93ab70855cedd60082ef28989ef7d1ab2009828d92871c58), none),
  ((0xeb68531dd8985e4c892ffdcbee216c893513ce7176784798237bcc963fcc6006, 0x28575c77a3dd736944ebc60b3dccf288e1ee36308fdd737482576e844c067fd6), some (0x17e1e65ec8c9d528addabb4ffcd23b153a68140b97958d5d3f3a5ca70203023f, 0x7a05c13a7ec0757441cd668e5e08564675defbbb043c33ab4af719221b00e208)),
  ((0xbb8b8d8d7fec7cbe26bbb97ab70d710e7aab7985e08c1b05527de7412e08d68d, 0x37abf7e95c58706ba052ed660bbbc59b4910a4d478c87a974e46ed862e6bdd1d), none),
  ((0xf1b54f863d65b808e31889be89ef53532630c5a935f764531a9637a2decadb29, 0x300317352564ee1b818fd23f754f08ba04fa3c00853b43e8f95bbc63b791b2e5), some (0x939d3ea789ae7a5758bf6598d7db34a3649f8d825402708b0329be75c47b89dc, 0x472ea28549cd4739248614d2ba1f598a0a5f79c470419b9ab14e3b86ac4dc15a)),
  ((0x3f31ec86c9a33ca3a55f9e3899a2de4d8e5264ea8ea83b2ac4a85fa7655d44a8, 0x4a9540f7b00cf78fd68ef8c1a81f90222b884afcba51103f27fd68c11c617f7f), some (0xb7a36db7e04983574945c016534cc38c5d97d984beacd477a8d49493d3375727, 0xdb16faaaffa6c3f620d6bd16ebee4de02eb6f5b3a0bd618ddc88deade4b1baa1)),
  ((0x4924b67592b143d4fcea2efc78c76fe535e6773b443305303ce00f6c5d60ad29, 0xb23bbcb2803298dfbfceb070d4d9a2e7c79b01d96f847745984f9da7732fa72e), none),
  ((0x967a4aa6f7c59d7801f455fc23ac1363d72b3b340c23f10505bba7759bc4fc89, 0xc49f2ebe371c8903427a6f90a0143ead08a484a68dc00349a26aac69d6596636), none),
  ((0xd86c8093cc38615c255cdda49ad9ef75ec26e4c979c41093eed10d9e9e7211be, 0x23813c7c3c57f5c007d29ac9dc03bcfe742c2559ef91075e0500a5eec3ed89d), none),
  ((0xfd39d05de0dd742fe389b2d91afc79fdbee9fce5de9969e310f71d3d63b77643, 0x74f87537ca4128c539ea5bcf77a585707d9cd4324c5cc02003a34ab5a0e6f903), none),
  ((0xa7fb32fc2668db2fb8ea7e9d8f1257369ef127f61044e7e2e14bb97fd10c976c, 0x578ce316b019568848e170f0c8b8e07a380fa375eae8c400e86c4aa3f16649d6), none),
  ((0x356fa8db86628c1df633d4cb95975ef4e26c53cef71d38f57f3e95a1db5ce135, 0x8b7cf23cd858290d25d84410ac99cc3f309843300e893f654bbced469a6ed4f6), some (0xea83e7ceda00822f6206d19defe54feae8779a5709cb49c53b6d14837642ea4, 0x8b80d9965240b9983f142273fd31cac0e8c9356dc86a57babb6319ec1c8dc70f)),
  ((0x268a434d36a61026eb85733f273d4516648685e82d6186f8fc8472e8c1bd8f5c, 0xd3f404db06440c2f85c8599d00a3ac6066355644ff401a5af9cbfaa37740da46), some (0x94dbfd7c9872b570edf1017417dd43f23d2de158fd35ffb3727051188ca976d9, 0x16b30441678f3808cf51008ca0153bd0ea04d92fa61af7112c4c34291d9dd888)),
  ((0xdeb6b3c4d529cf8430a63fe15f2114c4572a8e82b855e9b7b602d6a7908d01e1, 0x70a1304cca0841063d98e5e658eac3321347bdcbf2c34529fff5dc03636e45a1), none),
  ((0xe5bfabe85e918f19acee4bd326a5bdd362f7ab6a9c647befbe7b8292667c7c48, 0x54c8086041130505e01406302fc6e634bcd234f38c7f8c91276b53fe9bf0d117), none),
  ((0x4e935c6b59cda9019558acd2183e55e56ae29e4a02eb291d5e237e8d25f125d3, 0x21beadb83a0326494371b34c20edf2a4e539edcbda96867bfb91fdd8cd424273), none),
  ((0x4c6fc13fd0317b23bf99bc596bf1aeb7daac325821d09606be974b6527f97a56, 0xb389e97e6f6394ffea43b8a5edfb935c8937483e090efb8fd580b900010f4113), some (0xcca57f0781d0bfe3a14348d842172aa95c03d95795dbf6aaa9a0057d7c24934, 0xb4af017ceb5d4d691416a44308975a0721a477e529923c4c6860bf45fb09827b)),
  ((0x9c94a0d8625c915285a8b6ae252ae2a7970aa69e1c1c94408f3352497b35bdb2, 0xe5752d112864a97d5c6b76a915e3c4b40b0b39810c9385c1780219e4b5470e5b), some (0x3b7e0579a93970940b9fe8e98477449a8b154926a774d11a6f2ce50e4b6432d6, 0x8b4c34096b5b2aa47dbcead68ffa988a0ccf99673ad4e82911ae98b577af2cf7)),
  ((0xadbe1b29c8753a38d4a32878baddc1f3b9a62b5922ae7ca9432cc766b2d9edcd, 0x1b3fdb91a6b7f77dbcbdd3ff0b98dc1a5a25468f650482e6ad1b74539c19e0f0), some (0xf9d7c705350b9e6d2bb6ad66c269c0a73e79ee2ae2e6a573f81ce0e324de858b, 0x23481e01e7c0e76816f48946c71db9fc439fa05e7c06ac172e58fd406d915498)),
  ((0xd4297ed681732ba2bf80a09ffbf0a43df4d1b900959a4b8c0cf5159aed2625a7, 0xc2231ec1b5dc7c8fecf94e11e8b1114a352806a0c5db23ef72457216d6a806ff), none),
  ((0xf4ef202b76739347cc0cf08d3bb03660bea824c7cf4a07273dc3615cbfc7b571, 0xa020a6f5b34844319bfa7b7a7240c49595d4e762dff67644b2d6796697339ee5), some (0x68436d42a0ecf2d44bd51cda080f783ab59dd60a873fcea68626c874650f49be, 0x9946176c249d8f9935bbc88d010691c251de0a91a83f6c7676bfebe5be36a1be)),
  ((0x134e4841a5fb3b50e8255a141a8d13fe288a8f55bb1533887f5b485d389c95da, 0xf681ee0c41fd753c0a63bf744f592d8b435d66132bb3b1ba2ac0bebdea4c225f), none),
  ((0x9a1bc69303021afdaa248bfac399adca0449f1b2d09622954858be60511a35e8, 0x2790ad96b1c841c319ff70f43b588784af91db9fb5e3834f72f4d93b2d6e533e), none),
  ((0x7f3f278e1e17c03f7da9e833228f3d7428bdd641fad16a9e8c4ebbf582528151, 0x4b6a13b740c7f6cda405ab86202c1a0a66cdb6041009e4336492ba3e933cb90d), none),
  ((0x4b6798bef7e3e63d7d813899c7e3cebc7e5e36aeaa9297416d2abfd3d4669423, 0x721d03fffe147bda5437ed3227441dfb7a756c56a0236135e0376145950d8856), none),
  ((0xd8b547570370177e4aa997ea282453b174fc0e837b4084843adfc29b4479f317, 0x9d49fe9d677a5954f6f959939e82e63b72e3708727a054267e12dfccbfabc256), some (0x11c03afb492f2cc1a19ffe87abab2baeeaa91d6ba15c6bc364c10cac65c54714, 0xc850f8540bc92cb27d3eba4ce9b64486f3c94431ba4d880438f1f5dad973783)),
  ((0x1ea276035cee58aeff5f9b591692f104f81ef720557a24e64ec5228cb8279039, 0x28bb52667ac0329c01797f88328e971d6f934fa5957e64dfac37186b3fdf370e), some (0xcdcad7ce23d6c99360b738b05887f4cffafd7fd3a3c644452fd79b5e6ad681b2, 0x28b7326a26da5e3f8f29a92b35b8fe7f512d1387c9e35d64c195aadb08208bc4)),
  ((0x9a0618242757dfccb8d9e6190e4d327aa7bbc01de495909f51de6b0bd5834546, 0x9ad9fad6b1b63bddce8244266d41d9356c3e98e8ceb5ece3903773e9890d9435), none),
  ((0xdf513a803a33b6eb83417b80643274f0279bac1db8915d058b449965853fff1f, 0xccbd288f4c3490e5361e82d36815f45d056b3583476efc02dae78dc7c7880abf), some (0xe42dfc10c19ce06584a65f735305876cc95167e1cb6464633e32e3d02e2dcebc, 0x15dde30f9b6d5a892b52f0e2b32c7d9e7013368dfeb8d22da089efe6e461b92c)),
  ((0x252b899d23ea856b7a2a64d5c203fd265c2f37d5d60b93833b33615bb2517453, 0x4b4488d43b12861daac05f06feaeac76d850bf680d65c3d45172851665bd73d4), some (0xf048191d2b6d81d52c3c76ea3627ce85e605e96b2755a474699869f995e2713c, 0xcc19d59f9590001a54ec74ca1c8671e4f67307f0406bd7217b9e9cfacfaa5400)),
  ((0x36e5cbc6086d090db84c3f267b03179d9d99554aaf1d909d7cc0f8c83ce97bf5, 0x5974a84bcb31333e6f867ab072eac28028381585d978cb74204ea9caffdead91), some (0xad69a06cd54897c0148be993139cc45d7ccb51f6bb85e13a53cbadf524b852a4, 0xbddd7c65c73d4cf1b8da76a40b836a5fc90c69395c69e3ef83973f1342e33763)),
  ((0xd4fa31200c60487541bc422aaa5aa95fd488eaccda4ace904c689b4a3853398e, 0x82f21c6ad1c56944f86edd0279d6ebe1b867e0493c64f7be0072e1ecadf2aa74), some (0x6cffd48da1cd7b6a3c7fb63097306cbc86c06ef8e8310e6150f2e49b209e9d46, 0x3b117ee36050f48b5c5e6dd5596d50ba29a456f8e15694bed3e06010216b8f54)),
  ((0x562ec74bd84610858527501a39706f24af9092bd84a6a4a07d6853d1951b40d1, 0x9723ec4097096e5b83162a9e7d0eb717d70d52db4a164dc2a078ef5c147a20cb), none),
  ((0x2a9a8023c995f7da045bcfd404b0da880ae8a5bef0dcbf829cb64326e0f5549b, 0xa1b230d9c461bf460a4b4e25abd24bf5c8f199f880cdbd3181a2bcce57a517bc), none),
  ((0x35c372a53595f3432333e468d171a90d43d6c872fc7d3a2dba4ba6a04eb8229a, 0x2322be4001291ca95e0362330a905c214876a473e8556a400713c32975cdee8c), none),
  ((0xc3fa367a4338e6fdb07bf40687ca488ed9b9c684f9c0c2be0f7e88c32f2ba2c7, 0xf06e3c72f2edb105ac257d0928ae7e6193f57c68802cdfb348b272fb1fd7d539), none),
  ((0xe564d35fadbce660160643888940055cff17a64f271fb6f10eb3c607f6f665ad, 0xcc2ed9e5f777421340c3073db4407d095b272aee66a66fb0795cc57388771754), some (0xac30c6c7d2873f071df1f6c6e1b4e92e04d3db35a339904c9fcc52fb695a9e43, 0x40c904ccb7444671ae7fbeeec842c8cb498a6a4240bff05d3a356e272d2976f8)),
  ((0x5681d97a60f43f701284b7021f51b3e7286b535588db050e350993b2cf3e6b73, 0xfd88c533fb151a02b84997e80a38d260536693d7a62b2778caa56b1c2b0f4b6e), none),
  ((0xf0a6f2f9bcd21d7e24066ff39a1eb41781cc23ded36ae20358ad5337e54bc90d, 0x66941674703eb8224de5a77e1b670a81e84ab7418d95f91bba40479a7d39b3b7), some (0xda547f41e7f0c7a51fbf2606a63a651ba76251da9a758a67d57cc7c641b1501e, 0xa4bda12cc97f7a7620226905190da18dfb2ace5599c1a56cb93058eb87ae3e6f)),
  ((0xa185d842f6ca97ea894bbbdffa587744c9624a0c7c5be2533712e86454561672, 0xe1939fb12c37f8e8454cf602c29dbaa0881df391098527143f6697b5eb626b80), none),
  ((0xa1fd6a58bfdad62218931a7372787f8e7e43ef6ec0c0cc4f1bb03f12d80a6119, 0x1b1afa09a156b4dad6babbe9cdb0036b780bf8d214c77bd05dfcecba71449433), some (0x6d18ef5ee9548b63a5dc679aee685a07edfe41dd3be2f31a918b2de19a5bca60, 0x184d86f43dc8b8d6e9afabb3d47fa793a7973a8d20e9f3f1711315e236aed05b)),
  ((0xcf612bef265f4992152b6d928a7d3e49b938c65b3f58345d59ff70c61b54d732, 0xcf5475d83efe6fe8e40816887d36538e9ec131bce61eaae56fe3155303980e5), none),
  ((0x8fa9337ffb7927a084e1ef6726b043a90edc4acf4110ece05b08d790648f6c07, 0xd251cf1e15593e0a18b8111aa73629c986d8642475c8cd691a516459cfeee68f), none),
  ((0x61d5ed6e92a3a6716de0fb875740e7c93c21546c1b7b70682a840eebce2ba71c, 0xa3374cc7554289b997d860ff595a0a6416b6b71d82a3647f1b77c09409b9af87), some (0xe53fe5d60cd12d182f1b80703c0fe978e5a7f9ab02b6ef1f453d244785912ae4, 0x5621f35ead9b6cc30428d1c1e864f407ee2a634d491366914900272f05698e5c)),
  ((0xf6f142cff0e19c819d13e5801809f5872d38ba5494518fc22e2c83c1ac1f36a, 0x3345dcf45e402d34fc36edaed5c35fef089c6a2627cb68ecb51686afa8f0103b), none),
  ((0x53ed1d9fe76e69ae61ce6df042fb2deca6dd8d41272fb09f59961b1e8ac1db4a, 0x869ce81013c0cccfc27b2f7fb14aaeda3c10b10a19cfee19564a8f55bf6c4861), some (0xc3ea30fbbc98b0b63b11b0570c05369bb823eea3071a4809a0a1d0e0c70d8150, 0x69493f30b2141313708e7d03fc8170d14289f90dff6a089efab286fcad733770)),
  ((0xfa739ab335a209f729cbd29605887a7d795ccfec2dd8f757ac5a9afc6e5f391f, 0xb3703013b8abb06a21e18f47c9f58f1c9604f9141028217fa4f6de4bc0679aae), none),
  ((0x141a91e75fff1d3e2c582c45e07a1b63f4ab5b14600c6f75e825b472757e988f, 0xb8ad6037ed19e92a275b3ea5dbe3626c482435a2dc542112261be2a668ae6440), none),
  ((0x61555d649602373227310cc425bbf5eadaaf593eb091ffc7125fe5d232a760d9, 0x7be3d8782e573726336274c8691a197a28dffba139dcd41812b23f6f3aaa3084), some (0x419d8a2c1ea02cd6bdc72d0c7a9a064dfcba7982f75c93332c7e89070a0c0c6f, 0x49160d8393c3cc03ba0c782357cdd32c8823d0111421c7468f10cf67d00e379a)),
  ((0x43c455fe3dabf8960c448db855e8d003b0324a2947070a251e38039b012f92a4, 0x8dc90f7031869f60c77851f580eabfcbdc3f7b172f4dc334ccb80bddc2ec10ca), none),
  ((0x586951b99e1822bc7245067f16e6e3a26521554b161443c439bdb23a17c4e96, 0xac8fd747d70d23d0551d08caab1568142b9f7aab5a3f4311441f10eec4fb7725), some (0x3b64c53422496626cacf44d8f3efcb665403b86831b1d6beab152260f70edf20, 0x229bbc1772051fb37f7f493626e6d0283dfbd8c6c41875b007c8f8a8937078eb)),
  ((0x81f4791b1c63f7b09d8986ea7ed91a44115f833baff6e45bc2452a09996256fe, 0xd6103dd20c34177b3cccd7ed0324886a9e6e272d1010cb851979d2461edf8cc0), some (0x7966f564e282ea7201422cbdb14732fe7af0f90508e56d70e98d52a9eb3b0831, 0xf341c1130bcfb3771ea4bbd961e4461f235c87723ae7c228b72c8e9a477247e8)),
  ((0x57c89d0c7f9e884f661c464721447ee5f4b988fed7e66066bbf3953c00930b0, 0x39a1f7ec3c414de63290e86af4b49065b3699612b7978c82ad72c1b104986c59), some (0xa7d30ac6b0cd55b6868f5a65aff1dbdaa18f4315fe04de809fffb2899340ae0f, 0xa7945b11703adbc3958a5dac2d0e7eca690ec98e501c9f8222efe0116c6378da))]

theorem device_at : At (exDeviceKey • G) ((0xa7d30ac6b0cd55b6868f5a65aff1dbdaa18f4315fe04de809fffb2899340ae0f : Nat) : Fp) ((0xa7945b11703adbc3958a5dac2d0e7eca690ec98e501c9f8222efe0116c6378da : Nat) : Fp) := by
  have := mulCheck_sound deviceSteps 1 (secpGx, secpGy) (0xa7d30ac6b0cd55b6868f5a65aff1dbdaa18f4315fe04de809fffb2899340ae0f, 0xa7945b11703adbc3958a5dac2d0e7eca690ec98e501c9f8222efe0116c6378da) (by rw [one_nsmul]; exact at_G) (by decide +kernel)
  rw [show mulScalar 1 deviceSteps = exDeviceKey by decide +kernel] at this
  exact this

theorem device_sec : secOf true (exDeviceKey • G) = beBytes 33 0x02a7d30ac6b0cd55b6868f5a65aff1dbdaa18f4315fe04de809fffb2899340ae0f := by
  unfold secOf secBytes
  rw [xNat_at device_at, yNat_at device_at, ZMod.val_natCast_of_lt (by unfold secpP; decide +kernel), ZMod.val_natCast_of_lt (by unfold secpP; decide +kernel)]
  decide +kernel

theorem signValue2 : Spec.sha256 (beBytes 33 0x02a7d30ac6b0cd55b6868f5a65aff1dbdaa18f4315fe04de809fffb2899340ae0f) = beBytes 32 0xa064f5c9c1860a053c36c6bc9450d1633d87f6ebb7a74e764703b05ec9d68b8d :=
  sha256_of (n := 1) (t := 0x02a7d30ac6b0cd55b6868f5a65aff1dbdaa18f4315fe04de809fffb2899340ae0f80000000000000000000000000000000000000000000000000000000000108) (by decide +kernel) (by decide +kernel)

theorem device_hash : Spec.hash160 (secOf true (exDeviceKey • G)) = beBytes 20 0xb706ea64436e6f672bc6cda9741e063e70a50604 := by
  unfold Spec.hash160
  rw [device_sec, signValue2]
  decide +kernel

theorem signValue3 : Spec.sha256 (beBytes 36 0xa067a747e6d3bc64f470cfd4339d61745c8934a9e47a577d42492b190ca9df8900000000) = beBytes 32 0x935d4a71685a3897bc1dc0735f4a07ec2f039044f13ee57921ccc599b52466a5 :=
  sha256_of (n := 1) (t := 0xa067a747e6d3bc64f470cfd4339d61745c8934a9e47a577d42492b190ca9df890000000080000000000000000000000000000000000000000000000000000120) (by decide +kernel) (by decide +kernel)

theorem signValue4 : Spec.sha256 (beBytes 32 0x935d4a71685a3897bc1dc0735f4a07ec2f039044f13ee57921ccc599b52466a5) = beBytes 32 0x7a15640ee75b385a35f514977762234399705cef7d21c884d27aef0e91bb2792 :=
  sha256_of (n := 1) (t := 0x935d4a71685a3897bc1dc0735f4a07ec2f039044f13ee57921ccc599b52466a58000000000000000000000000000000000000000000000000000000000000100) (by decide +kernel) (by decide +kernel)

theorem signValue5 : Spec.sha256 (beBytes 4 0xfeffffff) = beBytes 32 0xb4248c210a2905b94345e1a8414d0e12efcfb2f4f0f2397159a71283397a0ccd :=
  sha256_of (n := 1) (t := 0xfeffffff800000000000000000000000000000000000000000000000000000000000000000000000000000000000000000000000000000000000000000000020) (by decide +kernel) (by decide +kernel)

theorem signValue6 : Spec.sha256 (beBytes 32 0xb4248c210a2905b94345e1a8414d0e12efcfb2f4f0f2397159a71283397a0ccd) = beBytes 32 0x18606b350cd8bf565266bc352f0caddcf01e8fa789dd8a15386327cf8cabe198 :=
  sha256_of (n := 1) (t := 0xb4248c210a2905b94345e1a8414d0e12efcfb2f4f0f2397159a71283397a0ccd8000000000000000000000000000000000000000000000000000000000000100) (by decide +kernel) (by decide +kernel)

theorem signValue7 : Spec.sha256 (beBytes 10 0xf0ca052a010000000151) = beBytes 32 0x3dab50da904323e381eaa1d57734b488da4e1cebf6010654b26af04ee1a727fb :=
  sha256_of (n := 1) (t := 0xf0ca052a010000000151800000000000000000000000000000000000000000000000000000000000000000000000000000000000000000000000000000000050) (by decide +kernel) (by decide +kernel)

theorem signValue8 : Spec.sha256 (beBytes 32 0x3dab50da904323e381eaa1d57734b488da4e1cebf6010654b26af04ee1a727fb) = beBytes 32 0x8bc0e516d28927962ee7932b54f547d874b8b08bf05a762083a5515df0fd2859 :=
  sha256_of (n := 1) (t := 0x3dab50da904323e381eaa1d57734b488da4e1cebf6010654b26af04ee1a727fb8000000000000000000000000000000000000000000000000000000000000100) (by decide +kernel) (by decide +kernel)

theorem signValue9 : Spec.sha256 (beBytes 228 0x020000007a15640ee75b385a35f514977762234399705cef7d21c884d27aef0e91bb279218606b350cd8bf565266bc352f0caddcf01e8fa789dd8a15386327cf8cabe198a067a747e6d3bc64f470cfd4339d61745c8934a9e47a577d42492b190ca9df89000000004751210379be667ef9dcbbac55a06295ce870b07029bfcdb2dce28d959f2815b16f81798210279be667ef9dcbbac55a06295ce870b07029bfcdb2dce28d959f2815b16f8179852ae8813000000000000feffffff8bc0e516d28927962ee7932b54f547d874b8b08bf05a762083a5515df0fd28590000000001000000) = beBytes 32 0x38d627ec5b2726d1c7eea52ac48249d85c00fa3528d8901fc5a9de111afd1b1d :=
  sha256_of (n := 4) (t := 0x020000007a15640ee75b385a35f514977762234399705cef7d21c884d27aef0e91bb279218606b350cd8bf565266bc352f0caddcf01e8fa789dd8a15386327cf8cabe198a067a747e6d3bc64f470cfd4339d61745c8934a9e47a577d42492b190ca9df89000000004751210379be667ef9dcbbac55a06295ce870b07029bfcdb2dce28d959f2815b16f81798210279be667ef9dcbbac55a06295ce870b07029bfcdb2dce28d959f2815b16f8179852ae8813000000000000feffffff8bc0e516d28927962ee7932b54f547d874b8b08bf05a762083a5515df0fd2859000000000100000080000000000000000000000000000000000000000000000000000720) (by decide +kernel) (by decide +kernel)

theorem signValue10 : Spec.sha256 (beBytes 32 0x38d627ec5b2726d1c7eea52ac48249d85c00fa3528d8901fc5a9de111afd1b1d) = beBytes 32 0xb06c5b08d1824526f6fb9fd081244a7f618597d182494e2ad1c5ef51f0d1ab9a :=
  sha256_of (n := 1) (t := 0x38d627ec5b2726d1c7eea52ac48249d85c00fa3528d8901fc5a9de111afd1b1d8000000000000000000000000000000000000000000000000000000000000100) (by decide +kernel) (by decide +kernel)

theorem digest_multi : segwitSigHash exPsbtTx 0 ⟨Spec.hash256 (legacyBytes exTxSpec), 0, [], 0xfffffffe, []⟩ exMulti 5000 1 = beBytes 32 0xb06c5b08d1824526f6fb9fd081244a7f618597d182494e2ad1c5ef51f0d1ab9a := by
  rw [exPsbtTx_value, exParent_id, exMulti_value]
  exact segwitSigHash_of (hash256_of (by decide +kernel) signValue3 signValue4) (hash256_of (by decide +kernel) signValue5 signValue6) (hash256_of (by decide +kernel) signValue7 signValue8) (by decide +kernel) signValue9 signValue10

theorem signValue11 : Spec.sha256 (beBytes 161 0x363636363636363636363636363636363636363636363636363636363636363636363636363636363636363636363636363636363636363636363636363636360101010101010101010101010101010101010101010101010101010101010101000000000000000000000000000000000000000000000000000000000000000001b06c5b08d1824526f6fb9fd081244a7f618597d182494e2ad1c5ef51f0d1ab9a) = beBytes 32 0x1f291332116b915eee7f7a05968fc6dd7e000ca90ff80ce96c5dcfddd6bb84d9 :=
  sha256_of (n := 3) (t := 0x363636363636363636363636363636363636363636363636363636363636363636363636363636363636363636363636363636363636363636363636363636360101010101010101010101010101010101010101010101010101010101010101000000000000000000000000000000000000000000000000000000000000000001b06c5b08d1824526f6fb9fd081244a7f618597d182494e2ad1c5ef51f0d1ab9a80000000000000000000000000000000000000000000000000000000000508) (by decide +kernel) (by decide +kernel)

theorem signValue12 : Spec.sha256 (beBytes 96 0x5c5c5c5c5c5c5c5c5c5c5c5c5c5c5c5c5c5c5c5c5c5c5c5c5c5c5c5c5c5c5c5c5c5c5c5c5c5c5c5c5c5c5c5c5c5c5c5c5c5c5c5c5c5c5c5c5c5c5c5c5c5c5c5c1f291332116b915eee7f7a05968fc6dd7e000ca90ff80ce96c5dcfddd6bb84d9) = beBytes 32 0xb2fb896a9165f537798e4a603725ff8123bb75b22ff53c9feffa17317e8b8228 :=
  sha256_of (n := 2) (t := 0x5c5c5c5c5c5c5c5c5c5c5c5c5c5c5c5c5c5c5c5c5c5c5c5c5c5c5c5c5c5c5c5c5c5c5c5c5c5c5c5c5c5c5c5c5c5c5c5c5c5c5c5c5c5c5c5c5c5c5c5c5c5c5c5c1f291332116b915eee7f7a05968fc6dd7e000ca90ff80ce96c5dcfddd6bb84d98000000000000000000000000000000000000000000000000000000000000300) (by decide +kernel) (by decide +kernel)

theorem signValue13 : Spec.sha256 (beBytes 96 0x84cdbf5ca753c3014fb87c560113c9b7158d438419c30aa9d9cc210748bdb41e36363636363636363636363636363636363636363636363636363636363636360101010101010101010101010101010101010101010101010101010101010101) = beBytes 32 0x500f573ca73a525d41e4265c91893f6ecd7bea919dbaa74922fb299b81c4473c :=
  sha256_of (n := 2) (t := 0x84cdbf5ca753c3014fb87c560113c9b7158d438419c30aa9d9cc210748bdb41e363636363636363636363636363636363636363636363636363636363636363601010101010101010101010101010101010101010101010101010101010101018000000000000000000000000000000000000000000000000000000000000300) (by decide +kernel) (by decide +kernel)

theorem signValue14 : Spec.sha256 (beBytes 96 0xeea7d536cd39a96b25d2163c6b79a3dd7fe729ee73a960c3b3a64b6d22d7de745c5c5c5c5c5c5c5c5c5c5c5c5c5c5c5c5c5c5c5c5c5c5c5c5c5c5c5c5c5c5c5c500f573ca73a525d41e4265c91893f6ecd7bea919dbaa74922fb299b81c4473c) = beBytes 32 0xf0c5d836393397707084274c839a7a38f0e5e846fde5204db0ec2852fb5fa780 :=
  sha256_of (n := 2) (t := 0xeea7d536cd39a96b25d2163c6b79a3dd7fe729ee73a960c3b3a64b6d22d7de745c5c5c5c5c5c5c5c5c5c5c5c5c5c5c5c5c5c5c5c5c5c5c5c5c5c5c5c5c5c5c5c500f573ca73a525d41e4265c91893f6ecd7bea919dbaa74922fb299b81c4473c8000000000000000000000000000000000000000000000000000000000000300) (by decide +kernel) (by decide +kernel)

theorem signValue15 : Spec.sha256 (beBytes 161 0x84cdbf5ca753c3014fb87c560113c9b7158d438419c30aa9d9cc210748bdb41e3636363636363636363636363636363636363636363636363636363636363636f0c5d836393397707084274c839a7a38f0e5e846fde5204db0ec2852fb5fa780010000000000000000000000000000000000000000000000000000000000000001b06c5b08d1824526f6fb9fd081244a7f618597d182494e2ad1c5ef51f0d1ab9a) = beBytes 32 0xd9628a2382f0c08220557451b027f9e911f44491de598a24e8230284f479429a :=
  sha256_of (n := 3) (t := 0x84cdbf5ca753c3014fb87c560113c9b7158d438419c30aa9d9cc210748bdb41e3636363636363636363636363636363636363636363636363636363636363636f0c5d836393397707084274c839a7a38f0e5e846fde5204db0ec2852fb5fa780010000000000000000000000000000000000000000000000000000000000000001b06c5b08d1824526f6fb9fd081244a7f618597d182494e2ad1c5ef51f0d1ab9a80000000000000000000000000000000000000000000000000000000000508) (by decide +kernel) (by decide +kernel)

theorem signValue16 : Spec.sha256 (beBytes 96 0xeea7d536cd39a96b25d2163c6b79a3dd7fe729ee73a960c3b3a64b6d22d7de745c5c5c5c5c5c5c5c5c5c5c5c5c5c5c5c5c5c5c5c5c5c5c5c5c5c5c5c5c5c5c5cd9628a2382f0c08220557451b027f9e911f44491de598a24e8230284f479429a) = beBytes 32 0xe13e1ee6b790adabfba103f039e5571b1f804dccfce62e8ac6d738af17453782 :=
  sha256_of (n := 2) (t := 0xeea7d536cd39a96b25d2163c6b79a3dd7fe729ee73a960c3b3a64b6d22d7de745c5c5c5c5c5c5c5c5c5c5c5c5c5c5c5c5c5c5c5c5c5c5c5c5c5c5c5c5c5c5c5cd9628a2382f0c08220557451b027f9e911f44491de598a24e8230284f479429a8000000000000000000000000000000000000000000000000000000000000300) (by decide +kernel) (by decide +kernel)

theorem signValue17 : Spec.sha256 (beBytes 96 0xd70828d081a69b9dcd9735c60fd3612d29b67bfacad018bcf0e10e99217301b43636363636363636363636363636363636363636363636363636363636363636f0c5d836393397707084274c839a7a38f0e5e846fde5204db0ec2852fb5fa780) = beBytes 32 0x0cede28cf2d45eed684882c0b8967ff00f61874ce45f183f8e453c5b36cf3dac :=
  sha256_of (n := 2) (t := 0xd70828d081a69b9dcd9735c60fd3612d29b67bfacad018bcf0e10e99217301b43636363636363636363636363636363636363636363636363636363636363636f0c5d836393397707084274c839a7a38f0e5e846fde5204db0ec2852fb5fa7808000000000000000000000000000000000000000000000000000000000000300) (by decide +kernel) (by decide +kernel)

theorem signValue18 : Spec.sha256 (beBytes 96 0xbd6242baebccf1f7a7fd5fac65b90b4743dc1190a0ba72d69a8b64f34b196bde5c5c5c5c5c5c5c5c5c5c5c5c5c5c5c5c5c5c5c5c5c5c5c5c5c5c5c5c5c5c5c5c0cede28cf2d45eed684882c0b8967ff00f61874ce45f183f8e453c5b36cf3dac) = beBytes 32 0x4e687af00d1c9ab3b3ccff3086c5f7338462be8511573b864cf345c6ce592eed :=
  sha256_of (n := 2) (t := 0xbd6242baebccf1f7a7fd5fac65b90b4743dc1190a0ba72d69a8b64f34b196bde5c5c5c5c5c5c5c5c5c5c5c5c5c5c5c5c5c5c5c5c5c5c5c5c5c5c5c5c5c5c5c5c0cede28cf2d45eed684882c0b8967ff00f61874ce45f183f8e453c5b36cf3dac8000000000000000000000000000000000000000000000000000000000000300) (by decide +kernel) (by decide +kernel)

theorem signValue19 : Spec.sha256 (beBytes 96 0xd70828d081a69b9dcd9735c60fd3612d29b67bfacad018bcf0e10e99217301b436363636363636363636363636363636363636363636363636363636363636364e687af00d1c9ab3b3ccff3086c5f7338462be8511573b864cf345c6ce592eed) = beBytes 32 0x2eb5e5495cc2aca3a6287b1c9d7a4bfcd2bb375345f979116173ce1456bfbe53 :=
  sha256_of (n := 2) (t := 0xd70828d081a69b9dcd9735c60fd3612d29b67bfacad018bcf0e10e99217301b436363636363636363636363636363636363636363636363636363636363636364e687af00d1c9ab3b3ccff3086c5f7338462be8511573b864cf345c6ce592eed8000000000000000000000000000000000000000000000000000000000000300) (by decide +kernel) (by decide +kernel)

theorem signValue20 : Spec.sha256 (beBytes 96 0xbd6242baebccf1f7a7fd5fac65b90b4743dc1190a0ba72d69a8b64f34b196bde5c5c5c5c5c5c5c5c5c5c5c5c5c5c5c5c5c5c5c5c5c5c5c5c5c5c5c5c5c5c5c5c2eb5e5495cc2aca3a6287b1c9d7a4bfcd2bb375345f979116173ce1456bfbe53) = beBytes 32 0xfa829101e57bd90779698430e8f4565fccf75e95a305773588e612b01475996a :=
  sha256_of (n := 2) (t := 0xbd6242baebccf1f7a7fd5fac65b90b4743dc1190a0ba72d69a8b64f34b196bde5c5c5c5c5c5c5c5c5c5c5c5c5c5c5c5c5c5c5c5c5c5c5c5c5c5c5c5c5c5c5c5c2eb5e5495cc2aca3a6287b1c9d7a4bfcd2bb375345f979116173ce1456bfbe538000000000000000000000000000000000000000000000000000000000000300) (by decide +kernel) (by decide +kernel)

theorem signValue21 : Spec.sha256 (beBytes 97 0xd70828d081a69b9dcd9735c60fd3612d29b67bfacad018bcf0e10e99217301b43636363636363636363636363636363636363636363636363636363636363636fa829101e57bd90779698430e8f4565fccf75e95a305773588e612b01475996a00) = beBytes 32 0xa772a3c108043cb42874278730b3e60e771085fcc4b9944eaea5a299b71ed4cb :=
  sha256_of (n := 2) (t := 0xd70828d081a69b9dcd9735c60fd3612d29b67bfacad018bcf0e10e99217301b43636363636363636363636363636363636363636363636363636363636363636fa829101e57bd90779698430e8f4565fccf75e95a305773588e612b01475996a0080000000000000000000000000000000000000000000000000000000000308) (by decide +kernel) (by decide +kernel)

theorem signValue22 : Spec.sha256 (beBytes 96 0xbd6242baebccf1f7a7fd5fac65b90b4743dc1190a0ba72d69a8b64f34b196bde5c5c5c5c5c5c5c5c5c5c5c5c5c5c5c5c5c5c5c5c5c5c5c5c5c5c5c5c5c5c5c5ca772a3c108043cb42874278730b3e60e771085fcc4b9944eaea5a299b71ed4cb) = beBytes 32 0x162fdd6d30606ec4286782ac7c3e4f68fad27b6e6dd8ae1103dd376cc78cb5cb :=
  sha256_of (n := 2) (t := 0xbd6242baebccf1f7a7fd5fac65b90b4743dc1190a0ba72d69a8b64f34b196bde5c5c5c5c5c5c5c5c5c5c5c5c5c5c5c5c5c5c5c5c5c5c5c5c5c5c5c5c5c5c5c5ca772a3c108043cb42874278730b3e60e771085fcc4b9944eaea5a299b71ed4cb8000000000000000000000000000000000000000000000000000000000000300) (by decide +kernel) (by decide +kernel)

theorem signValue23 : Spec.sha256 (beBytes 96 0x2019eb5b065658f21e51b49a4a08795ecce44d585bee982735eb015af1ba83fd3636363636363636363636363636363636363636363636363636363636363636fa829101e57bd90779698430e8f4565fccf75e95a305773588e612b01475996a) = beBytes 32 0x32600fed2e865b37daed695ddb9b687ffce53204dfa6475d3c2cecb33a57e63b :=
  sha256_of (n := 2) (t := 0x2019eb5b065658f21e51b49a4a08795ecce44d585bee982735eb015af1ba83fd3636363636363636363636363636363636363636363636363636363636363636fa829101e57bd90779698430e8f4565fccf75e95a305773588e612b01475996a8000000000000000000000000000000000000000000000000000000000000300) (by decide +kernel) (by decide +kernel)

theorem signValue24 : Spec.sha256 (beBytes 96 0x4a7381316c3c3298743bdef020621334a68e27323184f24d5f816b309bd0e9975c5c5c5c5c5c5c5c5c5c5c5c5c5c5c5c5c5c5c5c5c5c5c5c5c5c5c5c5c5c5c5c32600fed2e865b37daed695ddb9b687ffce53204dfa6475d3c2cecb33a57e63b) = beBytes 32 0xb080812651bf80ccfb0fe1b34778af5c152f15bf3a053cc1bef8a99639ad804f :=
  sha256_of (n := 2) (t := 0x4a7381316c3c3298743bdef020621334a68e27323184f24d5f816b309bd0e9975c5c5c5c5c5c5c5c5c5c5c5c5c5c5c5c5c5c5c5c5c5c5c5c5c5c5c5c5c5c5c5c32600fed2e865b37daed695ddb9b687ffce53204dfa6475d3c2cecb33a57e63b8000000000000000000000000000000000000000000000000000000000000300) (by decide +kernel) (by decide +kernel)

theorem signValue25 : Spec.sha256 (beBytes 96 0x2019eb5b065658f21e51b49a4a08795ecce44d585bee982735eb015af1ba83fd3636363636363636363636363636363636363636363636363636363636363636b080812651bf80ccfb0fe1b34778af5c152f15bf3a053cc1bef8a99639ad804f) = beBytes 32 0x58ab01317de70a68c98894409351f70e087e79de3a3b20e52c8b0243cb52031c :=
  sha256_of (n := 2) (t := 0x2019eb5b065658f21e51b49a4a08795ecce44d585bee982735eb015af1ba83fd3636363636363636363636363636363636363636363636363636363636363636b080812651bf80ccfb0fe1b34778af5c152f15bf3a053cc1bef8a99639ad804f8000000000000000000000000000000000000000000000000000000000000300) (by decide +kernel) (by decide +kernel)

theorem signValue26 : Spec.sha256 (beBytes 96 0x4a7381316c3c3298743bdef020621334a68e27323184f24d5f816b309bd0e9975c5c5c5c5c5c5c5c5c5c5c5c5c5c5c5c5c5c5c5c5c5c5c5c5c5c5c5c5c5c5c5c58ab01317de70a68c98894409351f70e087e79de3a3b20e52c8b0243cb52031c) = beBytes 32 0xa226bcde5434f2679a90a09fed8cfb561252a61d92419935f6f28fb0659b9279 :=
  sha256_of (n := 2) (t := 0x4a7381316c3c3298743bdef020621334a68e27323184f24d5f816b309bd0e9975c5c5c5c5c5c5c5c5c5c5c5c5c5c5c5c5c5c5c5c5c5c5c5c5c5c5c5c5c5c5c5c58ab01317de70a68c98894409351f70e087e79de3a3b20e52c8b0243cb52031c8000000000000000000000000000000000000000000000000000000000000300) (by decide +kernel) (by decide +kernel)

theorem candidates_multi : drbgCandidate (beBytes 32 1) (beBytes 32 0xb06c5b08d1824526f6fb9fd081244a7f618597d182494e2ad1c5ef51f0d1ab9a) 0 = beBytes 32 0xfa829101e57bd90779698430e8f4565fccf75e95a305773588e612b01475996a ∧
    drbgCandidate (beBytes 32 1) (beBytes 32 0xb06c5b08d1824526f6fb9fd081244a7f618597d182494e2ad1c5ef51f0d1ab9a) 1 = beBytes 32 0xa226bcde5434f2679a90a09fed8cfb561252a61d92419935f6f28fb0659b9279 :=
  candidates_of (hmac_of (by decide +kernel) (by decide +kernel) signValue11 (by decide +kernel) signValue12)
    (hmac_of (by decide +kernel) (by decide +kernel) signValue13 (by decide +kernel) signValue14)
    (hmac_of (by decide +kernel) (by decide +kernel) signValue15 (by decide +kernel) signValue16)
    (hmac_of (by decide +kernel) (by decide +kernel) signValue17 (by decide +kernel) signValue18)
    (hmac_of (by decide +kernel) (by decide +kernel) signValue19 (by decide +kernel) signValue20)
    (hmac_of (by decide +kernel) (by decide +kernel) signValue21 (by decide +kernel) signValue22)
    (hmac_of (by decide +kernel) (by decide +kernel) signValue23 (by decide +kernel) signValue24)
    (hmac_of (by decide +kernel) (by decide +kernel) signValue25 (by decide +kernel) signValue26)

/-- The owner of the key 1 can sign for the 1-of-2 output of C103. -/
theorem nonce_multi : ecdsaDeterministic (beBytes 32 1) (segwitSigHash exPsbtTx 0 ⟨Spec.hash256 (legacyBytes exTxSpec), 0, [], 0xfffffffe, []⟩ exMulti 5000 1) 10000 ≠ none := by
  rw [digest_multi]
  exact deterministic_ne (e := 0xb06c5b08d1824526f6fb9fd081244a7f618597d182494e2ad1c5ef51f0d1ab9a) (r := 0x4f93a4f72e7dbad90904602f7edbb57f592945152cff5210ee0c6f3adf6495a7) (by decide) (by unfold secpN; decide +kernel) (by decide +kernel) candidates_multi (by unfold secpN; decide +kernel) (by unfold secpN; decide +kernel)
    (by decide +kernel) (by unfold secpN; decide +kernel) (by unfold secpN; decide +kernel) (by unfold secpN; decide +kernel) (by unfold secpP secpN; decide +kernel) (by unfold secpP; decide +kernel)

theorem signValue27 : Spec.sha256 (beBytes 182 0x020000007a15640ee75b385a35f514977762234399705cef7d21c884d27aef0e91bb279218606b350cd8bf565266bc352f0caddcf01e8fa789dd8a15386327cf8cabe198a067a747e6d3bc64f470cfd4339d61745c8934a9e47a577d42492b190ca9df89000000001976a914b706ea64436e6f672bc6cda9741e063e70a5060488ac8813000000000000feffffff8bc0e516d28927962ee7932b54f547d874b8b08bf05a762083a5515df0fd28590000000001000000) = beBytes 32 0xda76551f21322b65b273f7b4c642343abe06a91f8e3b2f97fe5ea47754fa1b5e :=
  sha256_of (n := 3) (t := 0x020000007a15640ee75b385a35f514977762234399705cef7d21c884d27aef0e91bb279218606b350cd8bf565266bc352f0caddcf01e8fa789dd8a15386327cf8cabe198a067a747e6d3bc64f470cfd4339d61745c8934a9e47a577d42492b190ca9df89000000001976a914b706ea64436e6f672bc6cda9741e063e70a5060488ac8813000000000000feffffff8bc0e516d28927962ee7932b54f547d874b8b08bf05a762083a5515df0fd28590000000001000000800000000000000005b0) (by decide +kernel) (by decide +kernel)

theorem signValue28 : Spec.sha256 (beBytes 32 0xda76551f21322b65b273f7b4c642343abe06a91f8e3b2f97fe5ea47754fa1b5e) = beBytes 32 0xfd3dea51733689c3d649a576b73f6c0318daf01696d318b87adc01feebb722ea :=
  sha256_of (n := 1) (t := 0xda76551f21322b65b273f7b4c642343abe06a91f8e3b2f97fe5ea47754fa1b5e8000000000000000000000000000000000000000000000000000000000000100) (by decide +kernel) (by decide +kernel)

theorem digest_device : segwitSigHash exPsbtTx 0 ⟨Spec.hash256 (legacyBytes exTxSpec), 0, [], 0xfffffffe, []⟩ (p2pkhScript (Spec.hash160 (secOf true (exDeviceKey • G)))) 5000 1 = beBytes 32 0xfd3dea51733689c3d649a576b73f6c0318daf01696d318b87adc01feebb722ea := by
  rw [exPsbtTx_value, exParent_id, device_hash]
  exact segwitSigHash_of (hash256_of (by decide +kernel) signValue3 signValue4) (hash256_of (by decide +kernel) signValue5 signValue6) (hash256_of (by decide +kernel) signValue7 signValue8) (by decide +kernel) signValue27 signValue28

theorem signValue29 : Spec.sha256 (beBytes 161 0x36363636363636363636363636363636363636363636363636363636363636363636363636363636363636363636363636363636363636363636363636363636010101010101010101010101010101010101010101010101010101010101010100220673a4162329394e296b728d907e28154532fc7e90c263da05831d0de15297fd3dea51733689c3d649a576b73f6c0318daf01696d318b87adc01feebb722ea) = beBytes 32 0x37bc5401141c7b436b7b7924648bc5aca61fcb9938420484d6f1fc8e836c28d1 :=
  sha256_of (n := 3) (t := 0x36363636363636363636363636363636363636363636363636363636363636363636363636363636363636363636363636363636363636363636363636363636010101010101010101010101010101010101010101010101010101010101010100220673a4162329394e296b728d907e28154532fc7e90c263da05831d0de15297fd3dea51733689c3d649a576b73f6c0318daf01696d318b87adc01feebb722ea80000000000000000000000000000000000000000000000000000000000508) (by decide +kernel) (by decide +kernel)

theorem signValue30 : Spec.sha256 (beBytes 96 0x5c5c5c5c5c5c5c5c5c5c5c5c5c5c5c5c5c5c5c5c5c5c5c5c5c5c5c5c5c5c5c5c5c5c5c5c5c5c5c5c5c5c5c5c5c5c5c5c5c5c5c5c5c5c5c5c5c5c5c5c5c5c5c5c37bc5401141c7b436b7b7924648bc5aca61fcb9938420484d6f1fc8e836c28d1) = beBytes 32 0x43bbac5b042df3d592098ee9f945d4d2286c1da702e62faa6d814feeffcf25fd :=
  sha256_of (n := 2) (t := 0x5c5c5c5c5c5c5c5c5c5c5c5c5c5c5c5c5c5c5c5c5c5c5c5c5c5c5c5c5c5c5c5c5c5c5c5c5c5c5c5c5c5c5c5c5c5c5c5c5c5c5c5c5c5c5c5c5c5c5c5c5c5c5c5c37bc5401141c7b436b7b7924648bc5aca61fcb9938420484d6f1fc8e836c28d18000000000000000000000000000000000000000000000000000000000000300) (by decide +kernel) (by decide +kernel)

theorem signValue31 : Spec.sha256 (beBytes 96 0x758d9a6d321bc5e3a43fb8dfcf73e2e41e5a2b9134d0199c5bb779d8c9f913cb36363636363636363636363636363636363636363636363636363636363636360101010101010101010101010101010101010101010101010101010101010101) = beBytes 32 0x46eb903a7e830eef15b803fbf9b777adec56b0ab077393a667dae625f3bba59d :=
  sha256_of (n := 2) (t := 0x758d9a6d321bc5e3a43fb8dfcf73e2e41e5a2b9134d0199c5bb779d8c9f913cb363636363636363636363636363636363636363636363636363636363636363601010101010101010101010101010101010101010101010101010101010101018000000000000000000000000000000000000000000000000000000000000300) (by decide +kernel) (by decide +kernel)

theorem signValue32 : Spec.sha256 (beBytes 96 0x1fe7f0075871af89ce55d2b5a519888e743041fb5eba73f631dd13b2a39379a15c5c5c5c5c5c5c5c5c5c5c5c5c5c5c5c5c5c5c5c5c5c5c5c5c5c5c5c5c5c5c5c46eb903a7e830eef15b803fbf9b777adec56b0ab077393a667dae625f3bba59d) = beBytes 32 0xe9ca3929524501fd48a9873275a199cc351ddb5bdc1fb774152e1580cab15133 :=
  sha256_of (n := 2) (t := 0x1fe7f0075871af89ce55d2b5a519888e743041fb5eba73f631dd13b2a39379a15c5c5c5c5c5c5c5c5c5c5c5c5c5c5c5c5c5c5c5c5c5c5c5c5c5c5c5c5c5c5c5c46eb903a7e830eef15b803fbf9b777adec56b0ab077393a667dae625f3bba59d8000000000000000000000000000000000000000000000000000000000000300) (by decide +kernel) (by decide +kernel)

theorem signValue33 : Spec.sha256 (beBytes 161 0x758d9a6d321bc5e3a43fb8dfcf73e2e41e5a2b9134d0199c5bb779d8c9f913cb3636363636363636363636363636363636363636363636363636363636363636e9ca3929524501fd48a9873275a199cc351ddb5bdc1fb774152e1580cab1513301220673a4162329394e296b728d907e28154532fc7e90c263da05831d0de15297fd3dea51733689c3d649a576b73f6c0318daf01696d318b87adc01feebb722ea) = beBytes 32 0xa16b6e772fd4306db7be9b769e3c034b2e9d620c543c848cdd1abb2ce2957fbe :=
  sha256_of (n := 3) (t := 0x758d9a6d321bc5e3a43fb8dfcf73e2e41e5a2b9134d0199c5bb779d8c9f913cb3636363636363636363636363636363636363636363636363636363636363636e9ca3929524501fd48a9873275a199cc351ddb5bdc1fb774152e1580cab1513301220673a4162329394e296b728d907e28154532fc7e90c263da05831d0de15297fd3dea51733689c3d649a576b73f6c0318daf01696d318b87adc01feebb722ea80000000000000000000000000000000000000000000000000000000000508) (by decide +kernel) (by decide +kernel)

theorem signValue34 : Spec.sha256 (beBytes 96 0x1fe7f0075871af89ce55d2b5a519888e743041fb5eba73f631dd13b2a39379a15c5c5c5c5c5c5c5c5c5c5c5c5c5c5c5c5c5c5c5c5c5c5c5c5c5c5c5c5c5c5c5ca16b6e772fd4306db7be9b769e3c034b2e9d620c543c848cdd1abb2ce2957fbe) = beBytes 32 0xf6b8096e8251858d83c9068add360960b612e028d2a0c5c00b7782faf50f3aa5 :=
  sha256_of (n := 2) (t := 0x1fe7f0075871af89ce55d2b5a519888e743041fb5eba73f631dd13b2a39379a15c5c5c5c5c5c5c5c5c5c5c5c5c5c5c5c5c5c5c5c5c5c5c5c5c5c5c5c5c5c5c5ca16b6e772fd4306db7be9b769e3c034b2e9d620c543c848cdd1abb2ce2957fbe8000000000000000000000000000000000000000000000000000000000000300) (by decide +kernel) (by decide +kernel)

theorem signValue35 : Spec.sha256 (beBytes 96 0xc08e3f58b467b3bbb5ff30bceb003f568024d61ee496f3f63d41b4ccc3390c933636363636363636363636363636363636363636363636363636363636363636e9ca3929524501fd48a9873275a199cc351ddb5bdc1fb774152e1580cab15133) = beBytes 32 0x35f7df411a6462da0238fbec2c6e2e1633f2d798f34332bb4589e3a2ba3ebfbc :=
  sha256_of (n := 2) (t := 0xc08e3f58b467b3bbb5ff30bceb003f568024d61ee496f3f63d41b4ccc3390c933636363636363636363636363636363636363636363636363636363636363636e9ca3929524501fd48a9873275a199cc351ddb5bdc1fb774152e1580cab151338000000000000000000000000000000000000000000000000000000000000300) (by decide +kernel) (by decide +kernel)

theorem signValue36 : Spec.sha256 (beBytes 96 0xaae45532de0dd9d1df955ad6816a553cea4ebc748efc999c572bdea6a95366f95c5c5c5c5c5c5c5c5c5c5c5c5c5c5c5c5c5c5c5c5c5c5c5c5c5c5c5c5c5c5c5c35f7df411a6462da0238fbec2c6e2e1633f2d798f34332bb4589e3a2ba3ebfbc) = beBytes 32 0xa6e454e4d9d0c948512e202226e7a4e28c75ed4a9c364628f1ae608737b7037e :=
  sha256_of (n := 2) (t := 0xaae45532de0dd9d1df955ad6816a553cea4ebc748efc999c572bdea6a95366f95c5c5c5c5c5c5c5c5c5c5c5c5c5c5c5c5c5c5c5c5c5c5c5c5c5c5c5c5c5c5c5c35f7df411a6462da0238fbec2c6e2e1633f2d798f34332bb4589e3a2ba3ebfbc8000000000000000000000000000000000000000000000000000000000000300) (by decide +kernel) (by decide +kernel)

theorem signValue37 : Spec.sha256 (beBytes 96 0xc08e3f58b467b3bbb5ff30bceb003f568024d61ee496f3f63d41b4ccc3390c933636363636363636363636363636363636363636363636363636363636363636a6e454e4d9d0c948512e202226e7a4e28c75ed4a9c364628f1ae608737b7037e) = beBytes 32 0x59f7ed1e645bcd9472cbbf73ca0d2bd991ccae82dd5c81a5d28ad38aac136726 :=
  sha256_of (n := 2) (t := 0xc08e3f58b467b3bbb5ff30bceb003f568024d61ee496f3f63d41b4ccc3390c933636363636363636363636363636363636363636363636363636363636363636a6e454e4d9d0c948512e202226e7a4e28c75ed4a9c364628f1ae608737b7037e8000000000000000000000000000000000000000000000000000000000000300) (by decide +kernel) (by decide +kernel)

theorem signValue38 : Spec.sha256 (beBytes 96 0xaae45532de0dd9d1df955ad6816a553cea4ebc748efc999c572bdea6a95366f95c5c5c5c5c5c5c5c5c5c5c5c5c5c5c5c5c5c5c5c5c5c5c5c5c5c5c5c5c5c5c5c59f7ed1e645bcd9472cbbf73ca0d2bd991ccae82dd5c81a5d28ad38aac136726) = beBytes 32 0x3f83a4aab1e680303ffe7cff3cad1a6c20b33b10ce886240386f1b5b5f8396c4 :=
  sha256_of (n := 2) (t := 0xaae45532de0dd9d1df955ad6816a553cea4ebc748efc999c572bdea6a95366f95c5c5c5c5c5c5c5c5c5c5c5c5c5c5c5c5c5c5c5c5c5c5c5c5c5c5c5c5c5c5c5c59f7ed1e645bcd9472cbbf73ca0d2bd991ccae82dd5c81a5d28ad38aac1367268000000000000000000000000000000000000000000000000000000000000300) (by decide +kernel) (by decide +kernel)

theorem signValue39 : Spec.sha256 (beBytes 97 0xc08e3f58b467b3bbb5ff30bceb003f568024d61ee496f3f63d41b4ccc3390c9336363636363636363636363636363636363636363636363636363636363636363f83a4aab1e680303ffe7cff3cad1a6c20b33b10ce886240386f1b5b5f8396c400) = beBytes 32 0x50baaccf942f73d674280a3356ba62350def3298e9daf9179e5f8010c24a636b :=
  sha256_of (n := 2) (t := 0xc08e3f58b467b3bbb5ff30bceb003f568024d61ee496f3f63d41b4ccc3390c9336363636363636363636363636363636363636363636363636363636363636363f83a4aab1e680303ffe7cff3cad1a6c20b33b10ce886240386f1b5b5f8396c40080000000000000000000000000000000000000000000000000000000000308) (by decide +kernel) (by decide +kernel)

theorem signValue40 : Spec.sha256 (beBytes 96 0xaae45532de0dd9d1df955ad6816a553cea4ebc748efc999c572bdea6a95366f95c5c5c5c5c5c5c5c5c5c5c5c5c5c5c5c5c5c5c5c5c5c5c5c5c5c5c5c5c5c5c5c50baaccf942f73d674280a3356ba62350def3298e9daf9179e5f8010c24a636b) = beBytes 32 0xab34b16e411a8a750355086db059b0cf051f903897e040802025de0d4eef4977 :=
  sha256_of (n := 2) (t := 0xaae45532de0dd9d1df955ad6816a553cea4ebc748efc999c572bdea6a95366f95c5c5c5c5c5c5c5c5c5c5c5c5c5c5c5c5c5c5c5c5c5c5c5c5c5c5c5c5c5c5c5c50baaccf942f73d674280a3356ba62350def3298e9daf9179e5f8010c24a636b8000000000000000000000000000000000000000000000000000000000000300) (by decide +kernel) (by decide +kernel)

theorem signValue41 : Spec.sha256 (beBytes 96 0x9d028758772cbc4335633e5b866f86f93329a60ea1d676b61613e83b78d97f4136363636363636363636363636363636363636363636363636363636363636363f83a4aab1e680303ffe7cff3cad1a6c20b33b10ce886240386f1b5b5f8396c4) = beBytes 32 0x2ecfb4e361f4256fb6f50002de859d6800b4812ad8127831987950a1a5252dae :=
  sha256_of (n := 2) (t := 0x9d028758772cbc4335633e5b866f86f93329a60ea1d676b61613e83b78d97f4136363636363636363636363636363636363636363636363636363636363636363f83a4aab1e680303ffe7cff3cad1a6c20b33b10ce886240386f1b5b5f8396c48000000000000000000000000000000000000000000000000000000000000300) (by decide +kernel) (by decide +kernel)

theorem signValue42 : Spec.sha256 (beBytes 96 0xf768ed321d46d6295f095431ec05ec935943cc64cbbc1cdc7c79825112b3152b5c5c5c5c5c5c5c5c5c5c5c5c5c5c5c5c5c5c5c5c5c5c5c5c5c5c5c5c5c5c5c5c2ecfb4e361f4256fb6f50002de859d6800b4812ad8127831987950a1a5252dae) = beBytes 32 0xd2632247e3aff27e69621c59accba609ec1123721b7118af1fc3bcaaebf5b2c3 :=
  sha256_of (n := 2) (t := 0xf768ed321d46d6295f095431ec05ec935943cc64cbbc1cdc7c79825112b3152b5c5c5c5c5c5c5c5c5c5c5c5c5c5c5c5c5c5c5c5c5c5c5c5c5c5c5c5c5c5c5c5c2ecfb4e361f4256fb6f50002de859d6800b4812ad8127831987950a1a5252dae8000000000000000000000000000000000000000000000000000000000000300) (by decide +kernel) (by decide +kernel)

theorem signValue43 : Spec.sha256 (beBytes 96 0x9d028758772cbc4335633e5b866f86f93329a60ea1d676b61613e83b78d97f413636363636363636363636363636363636363636363636363636363636363636d2632247e3aff27e69621c59accba609ec1123721b7118af1fc3bcaaebf5b2c3) = beBytes 32 0xb2aa83565d95f9c03f1544515a14a2ecf4741e72095a7c69dc927473bbb30acb :=
  sha256_of (n := 2) (t := 0x9d028758772cbc4335633e5b866f86f93329a60ea1d676b61613e83b78d97f413636363636363636363636363636363636363636363636363636363636363636d2632247e3aff27e69621c59accba609ec1123721b7118af1fc3bcaaebf5b2c38000000000000000000000000000000000000000000000000000000000000300) (by decide +kernel) (by decide +kernel)

theorem signValue44 : Spec.sha256 (beBytes 96 0xf768ed321d46d6295f095431ec05ec935943cc64cbbc1cdc7c79825112b3152b5c5c5c5c5c5c5c5c5c5c5c5c5c5c5c5c5c5c5c5c5c5c5c5c5c5c5c5c5c5c5c5cb2aa83565d95f9c03f1544515a14a2ecf4741e72095a7c69dc927473bbb30acb) = beBytes 32 0xab6612cbbed9dd4a535fbf4fc7d76cb9f5f451221843ec7c86bcb7c53dc95f96 :=
  sha256_of (n := 2) (t := 0xf768ed321d46d6295f095431ec05ec935943cc64cbbc1cdc7c79825112b3152b5c5c5c5c5c5c5c5c5c5c5c5c5c5c5c5c5c5c5c5c5c5c5c5c5c5c5c5c5c5c5c5cb2aa83565d95f9c03f1544515a14a2ecf4741e72095a7c69dc927473bbb30acb8000000000000000000000000000000000000000000000000000000000000300) (by decide +kernel) (by decide +kernel)

theorem candidates_device : drbgCandidate (beBytes 32 0x220673a4162329394e296b728d907e28154532fc7e90c263da05831d0de15297) (beBytes 32 0xfd3dea51733689c3d649a576b73f6c0318daf01696d318b87adc01feebb722ea) 0 = beBytes 32 0x3f83a4aab1e680303ffe7cff3cad1a6c20b33b10ce886240386f1b5b5f8396c4 ∧
    drbgCandidate (beBytes 32 0x220673a4162329394e296b728d907e28154532fc7e90c263da05831d0de15297) (beBytes 32 0xfd3dea51733689c3d649a576b73f6c0318daf01696d318b87adc01feebb722ea) 1 = beBytes 32 0xab6612cbbed9dd4a535fbf4fc7d76cb9f5f451221843ec7c86bcb7c53dc95f96 :=
  candidates_of (hmac_of (by decide +kernel) (by decide +kernel) signValue29 (by decide +kernel) signValue30)
    (hmac_of (by decide +kernel) (by decide +kernel) signValue31 (by decide +kernel) signValue32)
    (hmac_of (by decide +kernel) (by decide +kernel) signValue33 (by decide +kernel) signValue34)
    (hmac_of (by decide +kernel) (by decide +kernel) signValue35 (by decide +kernel) signValue36)
    (hmac_of (by decide +kernel) (by decide +kernel) signValue37 (by decide +kernel) signValue38)
    (hmac_of (by decide +kernel) (by decide +kernel) signValue39 (by decide +kernel) signValue40)
    (hmac_of (by decide +kernel) (by decide +kernel) signValue41 (by decide +kernel) signValue42)
    (hmac_of (by decide +kernel) (by decide +kernel) signValue43 (by decide +kernel) signValue44)

/-- The device of C107 can sign. -/
theorem nonce_device : ecdsaDeterministic (beBytes 32 exDeviceKey) (segwitSigHash exPsbtTx 0 ⟨Spec.hash256 (legacyBytes exTxSpec), 0, [], 0xfffffffe, []⟩ (p2pkhScript (Spec.hash160 (secOf true (exDeviceKey • G)))) 5000 1) 10000 ≠ none := by
  rw [digest_device]
  exact deterministic_ne (e := 0xfd3dea51733689c3d649a576b73f6c0318daf01696d318b87adc01feebb722ea) (r := 0xf4565e2b51873858941ee55b4bd2edd292b25b0aa24f885b94abd77ce3850420) (by decide) (by unfold secpN; decide +kernel) (by decide +kernel) candidates_device (by unfold secpN; decide +kernel) (by unfold secpN; decide +kernel)
    (by decide +kernel) (by unfold secpN; decide +kernel) (by unfold secpN; decide +kernel) (by unfold secpN; decide +kernel) (by unfold secpP secpN; decide +kernel) (by unfold secpP; decide +kernel)

def accountSteps : List MulStep := [
  ((0xc6047f9441ed7d6d3045406e95c07cd85c778e4b8cef3ca7abac09b95c709ee5, 0x1ae168fea63dc339a3c58419466ceaeef7f632653266d0e1236431a950cfe52a), none),
  ((0xe493dbf1c10d80f3581e4904930b1404cc6c13900ee0758474fa94abe8c4cd13, 0x51ed993ea0d455b75642e2098ea51448d967ae33bfbdfe40cfe97bdc47739922), none),
  ((0x2f01e5e15cca351daff3843fb70f3c2f0a1bdd05e5af888a67784ef3e10a2a01, 0x5c4da8a741539949293d082a132d13b4c2e213d6ba5b7617b5da2cb76cbde904), none),
  ((0xe60fce93b59e9ec53011aabc21c23e97b2a31369b87a5ae9c44ee89e2a6dec0a, 0xf7e3507399e595929db99f34f57937101296891e44d23f0be1f32cce69616821), some (0xdefdea4cdb677750a420fee807eacf21eb9898ae79b9768766e4faa04a2d4a34, 0x4211ab0694635168e997b0ead2a93daeced1f4a04a95c0f6cfb199f69e56eb77)),
  ((0x1be68a5a028f2601d0e80d468c344ba331d611b96c358b6032e8b4da0547fc11, 0xbebc47511ade7308b3ca6265f9400779c076329c75146bc6ff1822f5d1f30e79), some (0x605bdb019981718b986d0f07e834cb0d9deb8360ffb7f61df982345ef27a7479, 0x2972d2de4f8d20681a78d93ec96fe23c26bfae84fb14db43b01e1e9056b8c49)),
  ((0xc00be8830995d1e44f1420dd3b90d3441fb66f6861c84a35f959c495a3be5440, 0xecf9665e6eba45720de652a340600c7356efe24d228bfe6ea2043e7791c51bb7), some (0x290798c2b6476830da12fe02287e9e777aa3fba1c355b17a722d362f84614fba, 0xe38da76dcd440621988d00bcf79af25d5b29c094db2a23146d003afd41943e7a)),
  ((0xef68a2c7ad33241d6adc31b4e7830036b5e571af914fe014c9f81b66ff472adb, 0x202632e371066766e8842c4bfd67c46c2abe221a176d0e2e786ef55ebe29887e), some (0xa0b1cae06b0a847a3fea6e671aaf8adfdfe58ca2f768105c8082b2e449fce252, 0xae434102edde0958ec4b19d917a6a28e6b72da1834aff0e650f049503a296cf2)),
  ((0x4b8b2d95c98777ba4663785ce387c4ac220c57cb0d48496c241dd1f60f2ce57b, 0x3cd961a34d4043d0dfd0c1bd2999fd38150334d56c3759dd4e66febd43ff0440), some (0x8c050fc34d83b279b6000816e18fca389767b7960e92677255b84a39d93a6807, 0x986314ef75b68fb2827c2965041981395d699fcd81cf23ce7019bc4135174870)),
  ((0x3373695d3221a0267b087b4d377956c3daf985e95ea9a33381668aa8ad046bf, 0x3fd2c9b429d77d978f5ca067c189221a728c697426f9da2e6249d685efe231c9), some (0xd2971091200881021154f4d3ba6f2da122fa74c64faae05ad76db7b09ad61fe5, 0x7350ebaaf2ccf3c8f940cc14151c23c2bc33cb736552815692648f6b628e3fc8)),
  ((0x2e891b9bac7bf7b38a52e06b2c569d6a0b81d6df8de09e277edd6990d56bd58c, 0x845d5b2bc0c9f3536a71707b50b3f0c881e147d491db2c1be154db4f698286bf), none),
  ((0x647be56968ba1ba0725a037d5f344e95f1d8a2297a748069edca22eb58aae683, 0x449c78532527f62f19dc6a6ea82607e44e6163d97ca0eedaff4cc308e77bc00f), none),
  ((0x3ba1dca1281378ae9ba5a32041ecee10162e4a897ea5de59b2fbedc687433b90, 0x11b72b6464c6fec218a5662c2ab73d2b206812beafd1d7026f5a46944da42fd), some (0xf506560abebd668e057e514ebad47a845da345ce50ac0e8801cccc2c81efa67d, 0xe2ff0bf7c9c2a99abc3580ad17f64a2663111fd815bdcd639d9a7d3aca0fc7e9)),
  ((0x71c36d1fba892daf1e7d200d9c18c8a2a77cde744d2a3d69b8def71b1a18c6a7, 0xabf7c1cfd381ebc246b5e7a38eeb3736f42ae8ba4fb8b609c05df01e5344b03c), none),
  ((0xc97c1d717c3245d01cc3fce6dbeb1cd8a769516b576e26ad57915ca8a6d87a49, 0xaae24faeb984e742a934d6a2a814aeeddb7111ba5ff82836584b213c848bdd2a), none),
  ((0xe51adfc3c847d98b41b6d9e457619de0c0def2b168c98d421441dd4950cb3bff, 0x1a58536459fab0271039795ba0e2877f6a50bafed20a352e4c3e1dbb1dd89e10), some (0xe1497bec7acc6b65db1a004812d53592774d5a912d5b17e66721db45dfb40a70, 0xe99c84357be71a15821f9966400738eed48c294a54b82986be7ee1d09bb47a1)),
  ((0x7a79510ae5e621c328010f12cd5b4df1498da7e567843255f4a6247c4df1aeec, 0x7bf2605565866eb7b0008196f7f7b985a81320f6f0a368518085c91e48325e35), some (0xf06675b5fb2db16e7fe1ac40cb5ac9b0bb37a0e2a25a229507804d21c3220ed6, 0x47e7f2e05c900858ea3411c097b55ae383575806192f97a666f6c1b23ed77955)),
  ((0x1eefb3626dc6c4f5fac0ab8df59914b8c536a7d208acd98bea721b951f1001f5, 0x99e0616080c88c567a710930d230664f53d602a26a7451f72840f9a52a156431), some (0xc854d520af418684d9f71ce74db1a797ce7311ecc87ce3f871ab2bb085a844f6, 0x5c961855ffce1f15bc6977b8f87e6d2fd956b8d3a1345bebf5d1c309598a7333)),
  ((0x2b3a2d8a018047703461193fe9791cc78f6281066f136d59db55f38d41b44bd7, 0x50020fa2de558c8d61f49e9b441b2de5985cc94e8d283d4a02fcf5f8f6b04984), none),
  ((0x2d5df9bf720eea71f292f5e13a234cd94fdd64f91bf2db1e717df0c41eb9c311, 0x350645d9ec1bb2a350a151cacc897c1b18a9f4140b8f483464ee28de8e7f5f28), some (0x74349833383391c377e0dcc32944b6f8dcc2e3295e567fddab96b9d19f22eecf, 0xb8fbba3fd8bbafe5db6d0895add39062eac4200dcbc2bbd05799e56110b5f212)),
  ((0xddb4a15ca77e1dec7e603cb0bb0f993139e38a61b858abae90ba8cdaf6d34cf3, 0xb5c4654dd084937bf21f66b0a24a019c79709deb7ade822632eca59b409152cf), none),
  ((0x908f8596e190deefd7b9a38155335c2e4fde5b5946e3d513a3d6a4665337ec7, 0xdc62804beaea7a0ed5856c203b6a13afa3acac8a6ca9ca4490c49fc140de45b7), none),
  ((0x87a530dc7321af79aaf825a1dfe521cad265e0cf5d1021d238a9d57ae6ac77d0, 0xed09dfd027b9b2dc0107d00a286969a7151d66f996eb172c1a8950324bb1ef17), none),
  ((0x30bddf939c5f50e2325fe1d7cd3abaa0f88d97a2425925c13d694bf96d5460fd, 0x39fd04cc1d37006379b9ff6aad2df41f7d7271feebc8b05308324d3705033071), none),
  ((0xae15711e0c48cc8089f6d3870076528586acf7eca34dbeb1ad81a6c3625d267a, 0x2252ebb9f458ecb95adea5dae295ec021e5513c6461fb8e731c14485129f3c87), none),
  ((0x7aeea31fbea49b5183c9eba4d6f430ea46c831088b83faa71c4263253e9b3f93, 0x16378e9d5039e618000770a449c65549450beba89eb3830e1dd617aac4fbbac), none),
  ((0x3286598c38686b540895fe666c8ce2eb10ff60fe7428bcf9a06e7108790c852a, 0x682760f15066ba9ce7bf56b0a63cebdc2ff8654940173c3ac1df44e6612ebec7), some (0xe45a9bfd7754ff09c719130358c214d5b8559edd010cfddc74463b21789a84e8, 0x20e94a9e28d7a6689fb850c62ab79250a877b2e9899bf1a30177396681ebe9ee)),
  ((0x661aa7ca4b3c9e9f4a5f7d5ad45316a57aff9c2bab1ac6725d4cd6490b1c2ed3, 0x5da7ef70cf937f83d3f0dbae7e790bce4011c5941a545e8a891688c1df7bd848), some (0xfe36a8e084b873a55a5b8f48b0979a07ee95c0277d8ce8f0bdd3ae1b41710856, 0xee5c0d2d31eb36eafb72b224fd7afb4b822d11f66586c8c793814688167f14a3)),
  ((0x799716b9b4b765e2cdb40694c4406e31855283a901829152815b4380f43e6a29, 0x47e69779663f0e4b154687682d876b770b0daa1cdd738e7af9a04f80a3582201), some (0x9b119502f19a7e86a8420b86411121bcc5244bb096487b4ae7deefff5b0c5c89, 0x7517c3324b400cadc08d71018049940ebd41454e3bcd5e6d6f4b72c3ba5e6352)),
  ((0x47276610b2e505730b478ed540075e8f6dc479a8b17616fa235422369b0b8445, 0xbfafa29499ba1426928021d7177ef795e18534b3d75011586ce4996525f95b9f), none),
  ((0x3413eedc8ac3c63827dbdf61396c869719feeae940f5ae483a08c284f4a3f312, 0xbfdf2d106ee3a864046a1f09fa115538076cd2f468fcc916dc3acfcb3fcf33a1), some (0x7a43d65fb5c6c14dd42419031fdac149b45511620b09a6330568235011bc0ed, 0xf3512b1e02a9f9eb4f7d118334fd9a3f9507716cb94f4e62bdf123d508cf409d)),
  ((0xe4489519fd8a52b7a27e32fea638cc2fcfab71ef003c541ff26eb38c895e3e57, 0x7993b82d60e24dbb5141599ae50b8e37463c83b78202af5b00f83ce9f29f49c7), none),
  ((0xf12f4f57dd7e71246260e45bec31ece03752ced1ffefaa9cb030d49c3bb80ec2, 0x4ed6e92bd0bd932821f0b0d15c858c7db4a1f42c4db50b91221a830035e57193), some (0xa066f65be59df21262043d2c9c98cf0ef6f39e1236fb90bdc6f8c099f6051f43, 0xdc0d42489c873e18aefb1a138a6a44cbf3f21dc17bc2f1e6346650cfaaf14aba)),
  ((0x53ae673cc415da9f4e2cc463555e99e8a319d913179d3c536563f2f6ffc79258, 0xfec210d4e22f7425e9f23b96d6d1c3656d6b3ce358b23d6c81110ac3cef9e0b3), none),
  ((0x2b7ac813f15df387046705505b8046971cfd063ac0f9af4e77c17ab547cbb9f2, 0x17dc80ed80da1034152abe8677908f7b4cc637169df20eb8426ddaf2c01796de), some (0x306af8130cce7c0334b5bb7f461552b0f6cc71b5b902b4e6bf07cd108828ab02, 0x5c6d0214cdb0b9abc66316e75d5f8ce0878426f0a5a1c78d6032a0f8974bea89)),
  ((0xd6acdfbd04fc858a62aa898b63aec8bd9a6950285490fb662c1c61d37e863d36, 0x21204fa8f19a724c9025f4012d0fe0e4d9ac8335aff7f80fb68005a570bcbc6d), none),
  ((0x1a6733f4d614463e1a079e1dfcbb7462e29122d21b6005f248eac840cdc08778, 0x62a76395dd3a7d6b8fc533366c2c4fdce8ec7f14b2449b2d36fe5a6af708c73b), none),
  ((0x3d4094d31db001a040f6b6c751040272c3b3c4f7acf5a833c66fcc5586df2532, 0xe9e9e5b57536e8e8f37f71f736af518d22b256647889938e927193f81bac2a26), some (0xbe6c00cab4b46277f27f2298c42e500a6d6bdaf25cc83130f6469003b4916bbf, 0xd0481a5c137d23174bfcaf339c6823dd1033d3c4730fc433f7f3708b95a934cf)),
  ((0xa4c9ddc6e4800959f5e9eb37b3806e329ef05a5a8b76286d4edf6e777ff2b634, 0xc379a74379fa1bd715fe662d9a3c878744e7ade5bf98f840c8af5aa3fea9c30b), none),
  ((0xb3b339dcb5466f029752fd616ebbbd9fd1693c73d4a6a393b98191e82b45bbc7, 0x3e5d0289c9921aac66a01a2a54a34d4f4c9a7cf5833f4c9d89f0e955ce9da2e4), none),
  ((0x7c5f02118e24f3b6f9b625b9d41a6da0c435ccb64a3148c6965bc9e6f181be41, 0x85a7d14c05486639581154883ac885b2a57530b758176af32b23f989b7f29243), none),
  ((0xb2ed0df772ce2fe60f96fad88a38e1fffc5a1173c3a81c81cae2c0291236e6, 0x18ea16fdb96b2cf513fe7f7631320ed5ee48924037766c4855a4a5e1a0048f2d), none),
  ((0xfc9d38ed3949973ef2281fab12ca64d0d97c1839c58ddef7ecdb4daf74813ddf, 0xaa0ae1d9e290ca8f515cf5b2a7fcc070a80991d0b07b1b81bd0aa61f9109b5f8), none),
  ((0x8cf6f71048b21206ca3ae2118c2094e324d96f8efc1cb828e9711ae672975cb7, 0xde3a2020c14353738b2f5108f5f8e033e4c7e0d8498d5cf1c8abc10c4ae8eb3), some (0x60a6e82b5aa5f633a8178c91838a1d4e28568f53749b0c8858041f22f379bac1, 0x510f8aae6cb3be762cc2c3f6aa4d37edceb71ccb7ad77774e6985d78fe600744)),
  ((0xfc5b9a9775e89906572243513603a386b514dfce500808e9becca4ca44265516, 0xb0271e33958203e088fb8648e478d0ea95d44ea5f4963382b4a2326e1cd43607), some (0x174e30ba43a5333bc523f3283beeb97e0be635ed1d7b62733b3b72e1663b1002, 0xde2fdd8fa7cf5bb1a3c41119cf5879f26ef9cf5b1f212eed96a0bbfd4f78cbb6)),
  ((0x2c0c014e7e6b921e98633de0c738d284b5a7cbb3b60c2378c7b570ce95121f5f, 0x88a4d587aa84e9d1bfdcb3b6d96e460e22cb852b150cab5fe7eb711fcb2d9328), none),
  ((0x86d26f6510cb3d37dc8e7dfd9cb1bbc43aa415249aeba20a8bc664fd2b4843e9, 0xc88b72c7c862072fa57a4ebccd4155d1a1795cd31b44cf6c4df29036ce6010b), some (0x9cc0968462225f555598426d115f3f04f6d4cd96ee548ddd5f9b9df6fb21cb07, 0x76589692bd53fc3474d429ffecefde65773a6df3dd842fec3428313d88b1d9a4)),
  ((0x46498898d5018b402d8de8b5270a1faf8db5681232f83aa6ebfb6f4932d28717, 0xddd8b33879dfbfede96c0846d714b5e4ce1969239dc6187d0623dde65f946e6b), some (0x68a7fd10cdca5ea411511e12b54e5a2ab32beb62fd40bc0d914b701f234accf7, 0x369def63669e61b05627396f8eb16e9b24f82ca4c0cc5ff15e4681978297bd2e)),
  ((0x70eb95be187a8c29e4ff2e764b9b083f1441fc8aad1f21f73568e5aa72f78cb7, 0x42c65799df5ff561983bccbb06aba85cda1e9bf3f10e6154795b0a90dbd01818), some (0x49b975b667e5df3cf25fc2117ca32e681b792cde3ca8fff3764a1ed938f82012, 0x83c7cab4bd73f9318fe28c9d4b904b4fb4587f174fb6b1702715c97857a123e6)),
  ((0x9133de92e6781bfc5ee62e5c99826ec05729e8625ed04b2126dd3c00872f2d4f, 0x8b058d40d9a804e79f194fbe790cd6e2c82844b6e65d02e0e48ce5b7d39f7139), some (0xead361394ba982db1641af13a219cc0a84901c7de824dd29b69c9b257ae5cb78, 0x3694cf5c7134b253e1f9d08702110d0db99c46a7b6d834f9110aa53c29557220)),
  ((0x15a03b0435970525cd6816cd25b74d5713461f86c557957630e5f6bcfff321b2, 0x3e95a4f0e707450502c1065d922adfd2709599357737dd984799c7065ddf8bde), none),
  ((0x34ebf9da4b05d63893b0497da50f892854ce3834fe10bb8bdd711f64ae3c1a1b, 0xb1b66f8ba5f8a067ef50dccbbda0fab9717c715bd340e6c6c0e54b8aca91ca68), some (0xe69a768b5d50e45223d9781ee298c5c762891d3bd5950dce243439272320b540, 0xe403621c6ba68fba1e34d901553b0e71c1a9ab17068b6b577ddb2ef4bc1b1091)),
  ((0x72e80f2dc9f6f150d2e8e626293f25542cfb415ba8c3073d263eca065020c64c, 0xec5747beccd845e8c30ab6457c19228f76a03807720394d9db8150914902c6d9), none),
  ((0xf21a4761a23dfff1129eeb2d8110f32cb42090accad8deb7b1c28f8c842af8e6, 0x11561c0768ce1a85b3e7bf0d92dfcf959ec0f4ce2982cef012027a45472b16a3), none),
  ((0x38fb87062b68105341506f2144b48f812f434597af0fbe1957adc61c2840bf7f, 0xe0b6bbfc69350992c19b77f67feec359fba704ecfee48c9cf6464b073efc688c), none),
  ((0x527a866de33e0e8d2ad9fbcca5ccae41fdb3974fdc4cf8bf51589fec1d14a22c, 0xbb06f549db8035785a5657d249c7da355aceb70712fdb291835577a633f0b64), none),
  ((0x574adac50e44605cd2e255edf7e0427488a9c2c3e7873849d894836865c27644, 0xa42ec163cb624177f0d5e99df59b9815f2fb39d6126034e8cc5bc5113be6a25), some (0xf74b34dbfbb8a440626d2d21e64f582a0e1c1ebee3466a524255b75ad623956d, 0x8fb0c6a0315b1c0c1c072034011eb83a6325d51a8297073152b9a2cf6b3ff800)),
  ((0x3a6e6fb39017a3219484fd808a13bd5d192304f88eaa1055f1991c969adf281, 0x304fa565ca206e08ee8456cab97b8d18d350ce41c67016aeb4ece40709b10eae), none),
  ((0x96c54c7a3795c6409721e31319ace0077c6ca0b78b7f2fb2e3b5026b6578e78b, 0x7708431644f66a8e680ebf158016d1e0fa99699f6a9a53145e6af24ad149e758), none),
  ((0x3210fc0a4c9276246a108de0f360fe4a7f7aa6f49a0eccf1903c3286f20b523d, 0xa5749c3ff0a38f053181af1f4e6f6a3d58b38df4940c6a8890fcd1af145ed78f), some (0x96ae40ce9e3ce72acd437f41643cb19ca4516ec5cde261c56cb25765436220aa, 0x738f35559acb6e27b1afa022d4412147c152d9243560f80782fe1766b0a0d397)),
  ((0x22397b39a95d35fbb7ef98accba5371aea9924ea4c56292c9cbca987cce7bfb6, 0x129e16be874a26e70161ad07177e00ae57e847611fa7b3a65555a13b10f3fb32), some (0x4db9630ca7b07d425a5e883aafc148377b01ac657e3a5c3b65dc23be4d1fca9b, 0x16c5b4e55234e5c95f5b2df4120e89d04254c1c9ec3fa3e72fe18f5e7935a319)),
  ((0x3536ddc568f2f0295e9f1da53e3098c52a6e53b661ec0ede8d0476129101f9c, 0x2757ee9d07b4d09e154da4216400818f2128edb2ea807cfc505d050696cb833a), some (0x269025d4c44ffd50d7830df8b79e2f254635e7861e1ac4b9a140bd57ff4a17f2, 0x225b71bea584eb815a24203c376b93f06bafd9f5b782beee71f8c9328320f40b)),
  ((0x9c38174281a2b981e502d7fca7d6b778130e1d01ae5f2ed31a2eeb33dece4287, 0x62102d3c8dae75824b3c4e2d057571981b49c74fbf122f119cfb9eef0f5bca3b), some (0xf7ec53c5b3c027d26cd183db2f5a6d5efc1f58bbd7ee21cb1d2eb0629bfae296, 0x5f18dd6204f5f5a57656a0383d9aecccd9d09f24faa06bf70b42539199870cf2)),
  ((0xce39453eb807d45cbd52e1dda0740df004271d6b15be20f1618f40b7dad05b6f, 0x7132f7b0711355b68e4eb1e3dec8b289b206e04e02a56ff16dd3d080d572bc6a), some (0x145acb6423f24ab8682bf20b4603ea76b9d0879e8cdf89cb9b8891242b9b6466, 0x452fe9cee709342f9c9bf9ddcac40a0e0373b86649352786e87b89f05a154097)),
  ((0xdb1c5532cae1dae4fd9228f6a2b54869c5531a94720e9a2ae4c73cc24189d3c4, 0xef58263fa7350942d9a77628b7593e3850aaac673e1efc82cc8d6ad12cd9343), none),
  ((0xdb27fa6baf969ab848916fccf0173af4dc80acda50cfa3164a4aad2ae791b7b4, 0xa47b6d6a8dcfa84c108474e0baf3ae979b9755bffe26833da3db9ccf4654d284), none),
  ((0xfcc60435388e20ba85684beb29540cae582093a80c39c2290201ce0370668b32, 0x9f8ac6b3abcfea653c4a9f816d7a11be7f083428ec4f7616323c77f29c2afee6), none),
  ((0x497c7df0f2874a8a9d5ad725827e5b018036b3629b5ecccdb00710d59d6ad0f, 0x1cff1f013c3505e9b98a1a7a197df017cb419e13d2fce890de19b6bc1f28f2c1), none),
  ((0x5742863193a3d26c817fdf6fd24b463a1521d5c3c3e76edda2d8f6c0488e582a, 0x259276f7cbe30f64a9492db835229dc98cb843a1d43430972d02f8bd0aa72431), none),
  ((0x532e7cfb753f05bb7c36255999d705b9c71f7da9ca6429eaa56b6342d81009ea, 0x69608a0c75f731e749b85a1dcf3b37fa02990da7608210118a6b9b3fceb346b1), some (0xe332075205dcb541426fe7f6c5be4bee87dc08dd5003c6498950ed61a8e31b60, 0x248e5a5dc5610f0c037e87ae04a56f12ddbf5b55013721272910b2051260c188)),
  ((0x7c1453d9bd33879a214c28fb2927ef42470a0bf7947e8b849a9d2d439f67e8d5, 0x1109dec7d12acf8ef42b71b56c0f8c45c73d29baf90e9abbb3a5b21d867bbee), none),
  ((0x15166e5da0d6dd9cfa9d19f5d341c62ee8bdce895521c627dc234f7618af9a03, 0x22fa2a72ea95444aa6e7d295867974756e3117853166fc6502a7d39ce5d01f22), none),
  ((0x19d21dc3649182fbe690f8d26673eaa0fb056195965b7ee3743dbd5a2de7df62, 0x77e1425caa79ec360887c2c58443676ecb4834878a92e0daf3c242137316b8a9), none),
  ((0x2ab2bc0f37762c07427b17aa791cacc545ac632ca36bfb51a5c5f123684c109d, 0x133047e585e1ca2452d8bfb28b01bc3dd746fe46cbbc99a9502aed66e21ed162), none),
  ((0xdab9c4807fcc7aac7cfb23d36441108a16489e17211571d0f98d288cb92e3d18, 0x6180fc4abdf231bfd96f8ac7af710ac05ec9fc25a7b47c04e5104b3e398f8a39), some (0x98c6ef987083753047642b4fa1d6236b35c8befdd83fda53f70c2741449208c3, 0x88ea01dd46dee917ebcd40c70469003aa5b277a522b60652df8c04d27f66390b)),
  ((0x9495a4e11b0a35e659b1977a53ce9e8f1113dfdc3864eae47a1fd58ae05e866c, 0xe462be927196501374eb681492389666fa66beb1c455718d2102705350ad17a8), some (0xcc3ad0f871cb57226d52d1e888fc6f945ae36e729acc43dc22e4143a8cadf776, 0x7fe7c3417267e1687f77397ab95b529c3ca19426e32f701642dc15e9f1b656b2)),
  ((0x738b523973697f80edf2b2307e8e5992f928b1a97919b156098838dfdfba7dde, 0xf48ba83284995ceb3caed70349a0fa844bff23918f638c95cb7e08c819fed61), none),
  ((0x928ef2264a557d99805b0c0de5692325d9d964a016855b947d525cf13a93a5a, 0xb310adb882fb3447e05e8f937e8c08b9e804bfb464ed7c7a262a70e862775233), none),
  ((0xe632ee8041e908df8c1a76355033167aacd5ef336362932948c805f8269f25ab, 0x7da832f15909679b14b6a43eebaf2c25ccf45db6d0e0ffa8f2ede4b4914dbd8), some (0xd12620821fdaf611de1afa1297319ae64549a0553c2bd9b7304a8f08bf2611b6, 0x353062ffae80ae28c8836dd17f809bb1283b77a4bf550096de8a0e3c5d404dd6)),
  ((0xbe80dda5c2c9d9131c1fbecdad4e4e343e916e79aa0fc74060a4691bb0626701, 0x34251a998328d1c94a22784d29a517781eb73072f6e8f4ca6472392bf655aca6), some (0xc37ac90d27a131e329254286603ba821c3acca99310f90b7ee4e8708b33727e9, 0x271020c4bac5a92161c59779275eaea1870d0028c000d3872ea552d104bf290a)),
  ((0x49b9516ec34e31876b25d50d81e9cab4c2834d9e01a9cc214c7c1b88150fa523, 0x49b1850b4595ab833abc31404069e662ba05331f08899923a3c26cb69cd2628d), none),
  ((0x50b1319f15940d5383f485cd1c6008d4d492c9a00dfcca978f52fe91fcc4bb79, 0x56060d732e23dfc2d0e86dc03b6b944334191cd597399226954b7ad7fd69253e), some (0x43a10d9d4f9b19d90300213f61d298c908071b2bca96598a340d064bd02284ec, 0x4c4de024162c81bb5e7a8843d7ac0196a268e7c6690a5fd258953fda01b40a12)),
  ((0xa390a9777c6c853077c0bc2ab7b73cb4e39726ac24a886645e9c7d726907cdb7, 0xadf4f3dc800d5015b7a9184263c6e32e533cb6d02a8c873c97abf645729571cc), none),
  ((0x6dd76c9f08f8e44fc61a44a1a3acd4111528016785e7a0dcf714ab4940b54abe, 0xc27ddc1b5f0c18191c1f0ca1d3731ad093175a48d2965f0cb6fd81e29842e6c), none),
  ((0xe7b221e3492d6ee9da356e9aebd4fe4abceea056b81b338801709867c75ace20, 0x5badedc519bbdae2176cfeb4042cda0ec478f5ed80ad3323bf34b0a8b54c785b), none),
  ((0xa974c17332be36d394fa98c6b20857fa69eb98c5b060de436716d88c4de799f6, 0xe75a6517fbd48065ede0972ddffd50eb0a8757550cbdc0c581d9ee6379b4b46a), none),
  ((0x100e969e9867dfa2729765635834bcb1cf1737579c0a5a1d1b7216b6ca9fbfce, 0x5636b4b90452394ba9f8ed61b53ac95679ab848da19f7806733c2876c52e1c44), none),
  ((0xeb0622a559fa5abebf40dca22b2dedf3d1f2ea1f1ec6b8399676e99dd311af75, 0x36814cbcfbdad5ae00baad1c00a9702c330f7024ef0c88d77544a5df794afd29), none),
  ((0xc218c2cad1223d9b2db2e8a348b70e66a8ccbdcb893907cdd6772be5f0d5b273, 0xf4c7a791b5b8f3d31f01571304aa8892f9c46bf0f974f9a7da53a3c07628b2e5), some (0x35ff74eb837f564ffc640e10a55afc14eb453e929c34afa9af4f49393ee56a55, 0x11db277276e8bcd163d5fb511c645c4b1c67a3fc4167f3e9ba4d4de3345dbff3)),
  ((0x620dd37fabea02c34876506b147572aaeda7bb7bf23335d4c0f90b01a55eb409, 0xd2eb5376cfd5eeb4123c6acc7ad694457d15f73aaaf11a24a8b97731eae7cba), some (0xf135a90aece49794e14a5f718cb10384ee976782a88e9f94593674762e4b706, 0x1a87569ebacd584b868ab1113b25bb7e6d1b905cd1d3194f7790e35944d1fe34)),
  ((0x3fc0da8f895fb417bb0757338e8004ac261700c631f58892581c91484599a841, 0xa6401cd2819528ab827487717a2ab3ea878f8bd4b73194b60b719a579c2dfa0), some (0x571aee117a30ebfe0e214e82cf1e9b8f07203c714ae126f50c918c8fbe36e9d1, 0x5e06ea5738728fbec421642ff6aa8950681c8bb4d91a27e7bfae5c6a1a7ea053)),
  ((0xc2c6e3f73a2a52027351331e47f91f4d6a0140bf781426efb381f1788d61d7dd, 0x698c38a286a908e190a2174c168f733f2a509dab4b700685f36b818308b6c1a4), none),
  ((0xef14b13103e379eb6a555bdc4f65ad4588cc202c1674c5a7d7d8d9f20e0a0ab4, 0x5c2fcb438b43ec42f46916a415a807b799775708ee5cfd511c390293e91f3f5b), none),
  ((0xa24268341c9b19206c1d4bdd2b9d1bd0066c844d5fa6e0c1e1e42065dccd8e01, 0x8f9160e95446815fcaa94c222c2b6bbbbd1caf7bb651292174180d93a6bb0580), some (0x350043a14bc69987cf484da0d8159de0337cc98673e35016f34ad76a20a39165, 0x315891c82229b0c3f3f5d42d4610fa75f0f4f6f433d22d5150dd968353f2ca4a)),
  ((0xdeca9875d4f89f45e8aaacf1be39dbadbef3c298ee0989f10e7c07b9cc624b7d, 0xe5c97f836f7e89919f27172d5e562b2f82b1ba547d295e370e354283bd3a18bf), none),
  ((0xd80603cbd1c00681ed4d0986b7a673f11aad0c7512e40495ee77ba4d4ac37bbb, 0xa6e15f28eedc7cadc0b33acd786796c3367a56fef232565c73893cdc9db6dd7b), none),
  ((0xbafe3a7d2ef8853c5a9fac5e63aa8bba3aed5811bfce00ee68887db1336d8931, 0x18bb0b1ed3bcceeed67542a6f14d377f0a651158fae27f56af229282dd69589a), none),
  ((0xe192fb7ec6240c0f143c92c5dd481a70ae63f75e56ebef5d030818b38f7c2873, 0xbddf11e4e374ee7fe25667430b3a62c587b8ef7becc3301e4c3982cd10eac41e), some (0x92ffd3a38dbcddd1b3b8fd80c8d5dda0a685249cbd521b865a3aa4be7cccfa3, 0x60d0f7d94aa76f21ff620b3c8e917b8ef37620706a3cd2d7a36f2c9680091ba1)),
  ((0xdfee095c464068f715d66c12f1470d92d87f2a68adb16ac78711d17d1d1cb386, 0x92857d232d6b4499d733456d684c5d766b0da6555dda494b7605a43079b52861), none),
  ((0x653bf642c1d489d065d70e115634fa3458e7497877a0e96a65262db9bf6780d3, 0xbbc0ff1cd52dc9407ec783bf97174c7442a6ec3a985864c82a55915c36ad7d77), none),
  ((0x69011c93ba2c36d467c398fb8f9c166053b2fe8c2f60cf27e1b615a8081af5cc, 0x29e778aca883064e2e5a69dfa2d86b7a33ab8b2ce545048b0f70256cecf4c597), none),
  ((0x45e8026a46baeb28cdd062749763eae7bc029309779ebb73e834fcdce1ae3eb1, 0xa686d24672c34e5d0a3cc120ad39179e504dbb63d90b968ec2270f24dea718ed), none),
  ((0xe0d53e163e6413d248be879b6a00853462ac8201896fd141f4d27fefa7993df7, 0xb19cb95dddbaf7beb39990e5da4163ab20b566fface17dd1a3589c78c1edee55), some (0xfa12782f79ad63aeb77cc31d6569cb2b0630314144b59f15ec9178a87036b5d1, 0xef9e975d44d87ead75899c6ef83796afc59046b49d8af18cbb2a688e7e7ad946)),
  ((0xa7bf597aae500a3f3cd41d7b7e556b0c24c772784b364c74e62f7a38d66910ef, 0x9b05b00127e7b179b6c0bb159368d262d2f4bfac7ac537de9329e299df0793d4), some (0x964879e7aa08472d79da658ed7a116296ffce8d66abd0079499f66d89d92397e, 0x6be20b62ac39a08a04e04011881b1cefca4638a58fcff9fcb3edb668af5b1cd2)),
  ((0xfbc59087b42f58b5d3a828da2f86933382b614dd2fb9932bee7f28fbeea14b1a, 0x540e83c5ec0e79563e22c184fe42c610092afd63f730a9d724765448b92e0bc3), none),
  ((0xbf91f2a2f0a2f3151482a4fa7b5ed2c13639eac86b26be04ae7397bad8efe5d7, 0x92da8d2b375315916823ffdee75be44594879608b653038e823937c53ca8b2b3), none),
  ((0x190cb89770abcc3c06efede20a1d6ef2529af38153a7229d28e14da89c190926, 0x19149777906476adc16e0b0ffcd5fad07a8382f765763db72b73171819087df2), none),
  ((0x3b118ae6a9198f1b43180a564443439f8a0b16614de00d7a7a0e3b88eb42f521, 0x9302e7f7f338b98ffc4a97d716c93ff9de471ab413f4e490dbc438b0a789b049), some (0xa7b7f8ae9f2184fa1f2a6bb10d36dc4f58096de2c95424c81bf22779660349b8, 0x668cba2f1a361a0a688e02eb1831d614d0aeececbfb06ac855337f72a594127)),
  ((0x2b2bb1a5b11fb7a4317cc12a1e065522d7da646c53b0d4929b9982f16756e891, 0x41dc8719c009e47bfc8a5d3dea886b812d847f6a5aa2e71d0a4c64782fc54f66), none),
  ((0x200876e2ded214fb717021f0dc662f1d49b40d4a5108ade93532d09a7a3fdc5b, 0x127f7161ee091866c8b5e110cb3a28bb0479181afac6f8ceaa1329b7d9c75a34), some (0x422e0bd1e598f94d262c46aa849fd18a9a1aa29b4d76eadbbc7342a17ec8c8ec, 0xfc3d39d2bda4d2f1688c4391f6bd93b8bf6d0add13a72adc10a038a4d170d85)),
  ((0xbe05480ee6b1449193701007cbe956a221b2a498d2460e7034ea4968d02757c7, 0x2a039dd1557cfcdc3838d2acd90c7ac92e902a582e2d8e56ac017ee77385e86b), none),
  ((0x5885b9f6070c7675468a47786aaa8ee4860401c91b83e73ae69e871ddda89b3c, 0xfc40542920dbed3b94f61b62163da4adbbc70d3472500a0dfa98a148274fdd24), none),
  ((0xe007683c1bc4052c6fdb2d13c8627a59ff84e0b8a2d5a6d592ba95df436950a2, 0x2638e4b68fe5233be3a4d67811dc6036855b95f0b3e4d4205945de41ee49c211), none),
  ((0x6ab38ffb5e765a1edcf89d94584120684163aed0163856baa0b4d6ddb471904f, 0x9ad86929c0c69f405c57d57a6a647a296f7fe737da8111d92bb0fd805f8b9a5a), some (0x96f0c027e6ce4b82167ebd4e013a768bb262cbdcaf6e8a1add267eb160cf102e, 0xe3a04a696de9b68d9dca403ce432731258568b6f0998827d247b148b16b1eabb)),
  ((0xb0a0bcca04aabf4e6dad7b66d623c7f482fb148ea860b1162f649111957551cd, 0x43fa334cf9ac08e01198fba576034a7ad42440836922a662669fe48cb675e886), none),
  ((0xa834bef9a6aeae51756b1a37a86f97df32ac37231e8b89661f1759742a180bc6, 0x5e179e6875743faf940e6d7b0ea0b74b2596961da81fbd0016cf58e8880b0896), none),
  ((0xc21e88038911398d1eaa013219c567c8008416b243ffd2927708826a2e300be, 0xfd1c1d5504f5837e45dbe632e3a2c714bf1e6802bc56b716b27bff80a7bea57), none),
  ((0x6e5e1d09c1afa9d4901e16f025b06d4027a3b73a74903ae5941ef6711a215ca7, 0xe439ed09aaddda382132c1938698c3b252c2ae1640769734b852b0fd9dca481b), none),
  ((0x8db81dc3d8867c3ad9d87daf3c27a60a4599a8302f57df66b04f1e5a6697a1e3, 0x46dc6392abfe3a7d13f367a9625d52f1c9e4b41ad0180cfaedaeffa91954393f), some (0x42273c188a11c2d904fbe85995e6f528b9cf880ec2ba7622e25fe4b944cc3ce1, 0x4fcff80378a07a163bd031363556e92a4bd2b8c1b32a305f6f5f598031bdef96)),
  ((0x3382ea0d5af47e9528bdbafebfef441850cc619eec7a62872aedb3bdf4666e77, 0x76aac38ba392f4475b0771cd41d0193ddb14c77c57fb4f9ab857a3849aac5b86), some (0xa46fccd24f6c99e0ef1f59a81ecab208beba4de2538636478d227b69f304e527, 0xcef8aa05810e379b0aab09b64bde987e839fc1da8e48cc2ba4698106f13552f7)),
  ((0x5ed15465eaf2a2829bfda0db26b8810e8b4c97875c4a9aa5a780a81aaa3ae8c5, 0xcad6b861e8de33fddb2d270e78c8df05d1a2d546275701447a3401fd3a80c009), some (0x6527e6596c8bd214a2108f030da0babc9b939b4f15b31a0088aa7ce338a64a2, 0x945ff6e6770383c8b0b30710dde8d3dd55ad051b1df9df1e1f1e6830f6f4b8a7)),
  ((0x50e89b335e7dfb52cfd2421153ee4ccc4dbcc29ac6aa8dce99a552c0562929ed, 0x86e9c42d5498f2b0cee65b4c383190d1593370d650d313cfad1288005a4dcf00), some (0x9d474ae6121903b226a36ff8cd25147d9cb369b3bab8923f4242572149334096, 0xefb73a6827391e0777ea4c735a6bec7ae032a60cd4075909087a6cfc12f03256)),
  ((0xb36fba16f3318020fec479819f468f583b5cce1669168212702d93f4f41d1df8, 0xdac4a361820e59b417f6ec1a74b0086406ab1f76354f05a38a63af3aee70fc48), none),
  ((0x1dc609c408149dd1811c3d8bf567b1430a77e2477800eb9c72911c46459d942, 0x18b16d91bb485f8da9b599b94daf22f8cadfd778bfaf1d78137b1f2362de4625), none),
  ((0x3d32b6a73e782047a477fa49c890788d12a365a7d98eea5ec20cd717ce3c3e83, 0xdda1d941b7e79c706e2ae0434fe0f329d492ddc98ba409715e5112726361cd6a), none),
  ((0x3bd18b159a19b5f35318f7c0397c0d903ace9eb82dfacf2a0ee6a270977952f3, 0x4cac7d6a67da19845dc541e28a548400f2dd6b0e30eb9e6f53b2286d9d0991fb), none),
  ((0xcf2ff68d76147910cf736f5ec88a826754cf15693a042ec96e5ebfa24a19304d, 0xcc20bdd708acd04ab3be7c71b60546130360ec4c2fae6a31c934b452d915552d), some (0x8e5ea92addef14975a4ea12e99b1040c621dc4dee1686208c742d64401b4e85a, 0xedbc76e5ce4da93589aea9cd047ee07d64f7a9c116d91c8b21c93acdd5a0977c)),
  ((0xe22c8b1e143db9717b4d25c901fbe3f1628f22b686c79e21da1a09f03917b6e9, 0x29857851f2399897e32a3a63416ba43cbfffba7049970b8bd048bca5a5db718d), some (0x12b7e43577f00be7ccc88a6814d0e03504ad6fbdaa2cc6e16e33e62c5bcba0a6, 0x473697a1d9f977bb52271575710d4aede2b341520bb7bafbe8c7abf9bfce870a)),
  ((0x645714b43e6deb7ecf5f5f041a87bfc322552751163b3ea21e04296877a63048, 0xdef09502e0e16ff4dd9c10d7ff33539fb9e45a680fd5440c3d93de53f6d74099), none),
  ((0x51c85ab81341b830d08f4f0c162ff103607708f33421dc44bf776cf84f55720b, 0xa7fc35e1064d9e3234aba69b1176424192b14f6b31257494b91132b5c1299524), none),
  ((0xb5e29ca2f5d302892f83985524d704a6138134c2d65fe555e5e07d3354cefb5f, 0xb5c20acbfb41658c5e66e4ed18b2f33aa60d522d306f4e9b80da0ae60a811b3d), none),
  ((0xf71fffae386788d7c422158c289abd5d38755a762091c9245d0f33e3d61560d6, 0xb9c92ab23ee0be1bc0956b06cd62ddbfb97abd39c8ff391950e5729f29e9cf19), some (0xd6a8b14ccbd4c70b0078b04c8746bbe340fc29ab385b005421aa11e63352001, 0x6a387edd3c943a2b199368ba22d977e5ef62dc716070d64951c1250f7949b383)),
  ((0x2fe03222a789d315c9365b938ddd7290df447c175019a17c4bd0d02374521675, 0xe7504d88506394e8c4047dccacf96367371dffa3c4906e7fd2e0e70556f715ab), none),
  ((0xc80fff2b0fe8a6cba02824f132f18b7353628d3f9966b9a74257d4119220c70a, 0x8db98a64c4f6fd2abf8e53ef87a87d749b8de14d9f76054673de7784e27321a6), none),
  ((0x66062cec7cf5c1c5142a0d89ef6b52d06f48612a58af5157674d62179b54a4bc, 0xeefa771d81424072c73cb5100bd5c1fe08032284f678600390d27aa4ffd5f4da), none),
  ((0x5f0a5595fc3e55780eea8d3da917d259a118842a66d26e644ed2cce7b545bdeb, 0xa230628edfd668bcbdb8a9ed08892697f13440ae74de0cc088ebe0fad384ee0f), some (0x4f1aef94b706827f30164c2fa0c8649d49962ba5e08393c06d4ccc25be549e24, 0x1c26b7c8db2b081319cd7d36326c0a311378dfd5e1190bd304149d4808e15c1a)),
  ((0x6b46c9ed8096af4dab0fe405a9cc5e376e09bdec07e56816278f668ba4a2437, 0x6c940b7e4b64a256eea1c622b8eb73739de9568ca1c56a739824adf400fddfb7), some (0x39155fd962aedaf29b1587b87f280c229e2257a8e62b660240ad5f87134f9ecf, 0xec17356de032931235f8be25b2b968de5f7764f24e604b41a4edbf183d9c9e77)),
  ((0x5244b43133e171c756087fc600b70ae37d3209678a7bf2d72288af0693baa49b, 0xef0d0a4037791bb242d15e191df1a54d78df8192076dfe65c8756cfa9ec0f3af), none),
  ((0x13396bea65222fa98d6894d92b1128770498ae2beceec4390038d6c5f4fa576d, 0xd8f3615e0a8b08ecd2e22789d977ffdb9110570d24ff09a9a0549856959fbf73), some (0x552dada9d39e7d670df5a911461e92075ec090d726f4693e55c63a41a831c932, 0xea4738f67e2d5c58a03c899c39c14e3907d285c3473e33ca8290287cab4c504b)),
  ((0x1a8e99939441c497e5ce4d2d35ce3e7c31a9c77e8b0f6cf1f169a05ea89fb2d2, 0x3a1808380ead38aa1efd28628763260b7e253ac9f6ed4e8f1732234be30096fb), none),
  ((0x1c81ffaa2f595b86d62a90bf15ef9ae16c332afb1ab9f888418f4e3f0227adf4, 0x69a5d122af09235c15af4c441e5a06fdc495264fdfc35e59c06211e18a6bce27), none),
  ((0xb46947ef80d36c8d3cfeee2f2cd23199dad801c0deecdcc1df0a8770e14cfa09, 0x788f1ae3465c8ed9962b8798433d8a5b19c40b7afb4d022942eb79a44276f263), none),
  ((0x54dd724395270cb38bcb4c432a556b72d05ca41aa340c55e626b04ef75339481, 0x522919f29d1599db06480c2ce90c75c0c5946b392242b64c28693eba9f7c28b), some (0x3682cdbcce666172db9f2f4162f9cc610bf30cfc98d2985ac889502f7b33275, 0xb2192377fa77175773265f33c899c9eb34e4a86d356c1e78e36638dde2988d71)),
  ((0x5b456c28059c828ee936739357ec961d52564ae48819842b80ed5fd31191b5ef, 0xa7c4157eec6165de049c497523c6f46d784d067d6ef060503a0c3817afb3b300), some (0x2c5815fc95f9b4c2bf97e7310ac81dfb05daafae5c6f6f9f3aa810ca82182c97, 0x90449fed7c9462c694577bd0b3138e9435dc2bd9fa732dfc7dfd369170a17c53)),
  ((0x9d208e7e0cd444bdb0b44bf8ce88cf33e23b821a055c9c5c950010de3ce9952e, 0xa98b34900830930dd9c4428de79ce0f61196368766fe22d3c44153d342af21fb), some (0x1172baf09c2ed1bd90a0f8210e6b5887a3361d717a328dc8ba207946ebdfba29, 0x25d0e90fd85fd19c6ae12ac2965ad456b4aade3d3ca8bfc77866694643e16641)),
  ((0x7b0fdb8cb15dea56898390776f3dd92520bf45e8be444b3d2a3e00320ab175e5, 0xfd25ace19be987d569a702b03ec0a48ad52528aab852a964df0a59275de08841), none),
  ((0xf8dceb0e8382c521b349591c5a62a907932ad2f20728b2cc586b59423eb7484d, 0xdc8819f336731b72ef9c3d03e8acc8ea7b501e8aa702f618a86ff24f4dd0d5d4), none),
  ((0x69cb1bafdcf246d5de18431667bcb83e2067ecb67adb8208a1d258bf54eae7d1, 0x779d053bb1d4f1a9e63842f6bf7a4518c0391a8ca731a675203bf7f496683e53), some (0xff9f754d4ca72381fc971d614afae8e104658b73ea829dc8d31cb4b4bf8b5437, 0x46b4a371b6cfc802675159a104bb2a07dffb9955a150edfecdbd55641fbaa5de)),
  ((0x62b9ef8385a6fcd96ba58cfb77ef776f5488c1e26ea9a84d235a495a2750b9ea, 0xa67ae6ad4072c167f876de288ddd2cdac39b10f601c5b0bbbdc3883204cb7670), some (0x885dbf79ad9ccf3c056be9e3caf64f6c0086a7ed7c2a6e72315669b5bde41c26, 0xfbd268a82b7bc1d53077ce6394d323648b0bf27b260bdbfd3e8b3d90f20146a7)),
  ((0xac47dd6c73f1844eab1be0c6f8b90a13b12c296fbab143cd1b9b6ef4bd9d3773, 0x9bf669cf0a173a10b2a55bf191b9917bf661cca20bf907a5691d1bde01820030), some (0x1ad8fb61ee3530795c2515e63e136f69da7871cc7275a9cf1dabe84774ef428c, 0x1a84007a69d0af5c7413ee6aa3145de431262c6d198f56cd66b462d9f372b3c3)),
  ((0x56c0a05c1f31dd7b588b7ad712b59feb507d2f1a238b74c6b35e986759dc6577, 0x32108d0fbfadd63e2aa71e48b3ebb17cc10450be91d190c24ad28356426e4cd), none),
  ((0x7d1a7d7d2f8a46a137846fb82a7932f7090f05c6af0e75a76372c5f5672c5ca0, 0xffdc61a81b9fff7ebccbb8af179dbabcd30f223908de430c6dfdac0b270f9bd1), none),
  ((0x7bb230b855b1a05d4f23ba14c25b8c042e8426662bc27ee39968c59465f0d038, 0x86a329ce56c3896bbcc3374a9068fa19b464f5075d9d999d63344fb0a3148582), none),
  ((0x3e23c5d8addcae82d0daa97baec23c981d430fdd43a4afc244e8464fbdf256f3, 0xac4a0a5f686ee0b2404bde70e794022d82a671456b8461c43931df0059b7cada), none),
  ((0xf1203a9e333e27109d10c8f48838de0781413789dfbbfabe718051530b725071, 0xd7a7c5a465807f681cdd4930c81f19b0ac5c717b44725df7dad5bf64c40e4687), none),
  ((0x38219f4ab951f26e1c51c28d8655e67701dec261bace7312a329e51eb0807694, 0xb5e997a57458661abf6e8f5f43241b7b5af476e6b7cb6842e83d8f2fbe333218), none),
  ((0xa21c85d2f941900ec65dcfff8e81f18c6830381639990d45df93a14599445cab, 0xe62f4c7e67971d2183dc1f814901a419868c3dddafed01f3f6c80b2be6a3e328), some (0xac7292e0354a4ebf5b58a4239a0723deea5176fb3a4836669e29709e0d04d18c, 0xb4ef9a56e655d0ff2423acf4779e09797d5cb35b5dcf1528f1cc99b89b9c8d51)),
  ((0xfcd84ef0337f7e195b6ff26cb4b8979603edabb1e14ad1ae5db42c9da060f000, 0x1129ac5c55c894a2910918c190811e5b39f654319d5319b22f1ed74eaa46fc41), some (0x615279ebdbcec9b8f529117e6c6fdb947aaefa14454bedaeaf89ca46b54baea5, 0x59124263936ea16d0c7350dbc421ae30c23b41b1ee6f312a89c79dac4adbc568)),
  ((0xebb543815e3ccedd97c77c7472b8e21e2c3180e47f695529522632d80cc24709, 0x9ceeda76fe0ac93de434fc320725da11abc27d76ed21aad793dc307f7426bd21), some (0x160025b0601ca490967e0f8dafa7356c8494988aed98b2aab695c778c8049f48, 0xbbd116abda5bcbf6ad9f6f14829323246a75b89e402e26e05328ebd9fe70fa1e)),
  ((0x503117253bbb0a1be9bc7aa0ffcc2e21ff85a53c1a8b89ffe673ffbe60b356fe, 0x93f4991ad858cc98c7fa1c07c17bbddfa847117269431b86867228d62a43fa14), some (0xda652d857436930ea7a08ee91012f1190328338110f5862104999574d2ff9dbd, 0x117991de209f92bad65db1629eaabea173b4f3554cee472663f00057cfadff61)),
  ((0x91f76f94482c11573a9c4b0db1923cf7f2059076d13242098e46f2353021f48c, 0x75f1cae4b95e4403b0fab1e5247361487ab82c61b1eaf06be15fa790e0246a0c), some (0x1f6caaeac06d7f2adc915b137eafe3b77e71631db54b8eaa1db0401866351cc, 0x8d1bec294b3004069a256d264504fa4a4e32917699f638e54b7f07bf9ae90ab6)),
  ((0x7e944576e9edda6c52fad132db239fc236812c73804e8025c997057fd2ef017d, 0x39ea43d906d61c0765dd6bef1b77eb3de3527d86c05a66cb78f741fb7caa1db3), some (0x29d665c2dbb31f7c246dce976cada034aa3de933daa8c7b7b443c4b0fb721f44, 0xd7f339b26a4a92bfa797595ac9082336f3021e2c3d400994e37df32f6daed96f)),
  ((0x43a6d2e84e46b1d8562ed58db7797ad42a1eccb895524d5adf9687a7e47839fd, 0x21f83cc6669c2edc66756fee750c0f5024dc9346287b7ca6a8c54ef8a4d17d00), none),
  ((0xa8fc7a2df1885d6f5db1cdb5c7b14c61b4bc34110877c373a9e355bb3b15c6c2, 0xabb806b2fcd3b55d53b5eff114210bcd027e9835144003dd28097d79838b96ef), none),
  ((0x88bc285651117cf54b983f19a1a40c008d96977009b173032e68e741fd08d289, 0x70b6ee34fef7308013acc3feaeb23f43a157a0e6b8144193ac386947b7852815), none),
  ((0x8f6b2fd8efd8dc8fa7b23da348d8fa0270b94bbb2d619c0b0b64e594f7189988, 0x9563780787d80533a84d7795f733662b913afcf6f4460743cdcd991df4844377), none),
  ((0x8d5e01bfa57911736912e78c0a7158de8f1e3e4b5e43c310489959ea5dc5cbc8, 0x66d432bfa017c276e78fb4bdd3c0964305fdb89ffde2d5873389f5023e089d5a), none),
  ((0x688e4de0cb9b07419b187c06f80dc79df05d1a5a193615128690148e0daf24ca, 0x60e1ab9a96f14a991c95be51a6a0502da4b8a10fd052b2283cd72f3079e6faa0), some (0x201fd6dc6888addce838e7f1ee03b8e8a6648ef47e2efd3cabba4c2e19351c48, 0xf465af78e72e6b1f64808fb9f3421638385f2ad7cd57115b82b22e7611d3b354)),
  ((0xf8445e2c293392671033a6b9cd8aabe175c47a5e274af3b12a2205228a047d6f, 0xca5aaf0b9725b49a81524065bec2b58f8489ec15918b1429150c06aa897a4270), none),
  ((0x55873e24712bd753a2921358f30594f9f80bfd3305da6371c72ea8293e6d6707, 0x25d0ad60befb7792b88446eeb45a6fd92cb8825836299618fc580b6b794f4474), none),
  ((0x8863084e81e966074452cebc18801403ad104b8f5405cb420c424ac75957d6e0, 0x9f916a2446ea8e5eaae84a1ec353cd5815e47b4c554374dfd67da4cde187fd2c), none),
  ((0x58501d2d647fb45ba0187686e897f5300c58dd5b8e3a873308e9e2ca7f38045b, 0xc93d1f4fdd8ce75597e9c8c6d6b5a8de4bb2202761d5b57669d25be45e7eef09), none),
  ((0xadddf99af9d9008bb2047658d21ae13aacf1982838098e9994e4e4645884d2a1, 0x16052c1dd88440d059b2cb8b5e4430a98d98dfb626f2683f2a6912383ccd3f1f), some (0x3753ff261168a467592035f11b61afe3d38991fcb09f358743b89b7e84adbd41, 0x49700031f61a61a985c4b7070d12d1998f41f9e93a370831b691a33c154774f8)),
  ((0x62f1216aa68e9f437537f4d07aa71feba7fec0eee23cf660266c93a989dd0bfa, 0xaeb9b131c0b9e88baf175bb1d782a408e81ba70752cfea0df23d95d6da6040b), none),
  ((0xe859cbbc8ef66d475f616e811db8783736de2fcfb517b7ad62d0bc7f7d7766db, 0xa9626828d38f5992124ce8db4528efcf68a5d56395c0a263d455915e3c60be15), some (0x8a35ad53f927f991fb5912647b193e9728200bd47bbca52deb356e4d7db40fe8, 0x37b4366d073b7d642bc4490f989c62395fca423d447d19dc85d02a87cc22493e)),
  ((0xdab86b4d27374432e0aa911a8293de3a2c983511dcfd7a5e03e91fcd94d14906, 0xcd423ff510ba6c82e2df710e846b81e3624f68cb2e31db449db208c094fd0d0f), none),
  ((0x8516e18de34fc60f4d8489d69ba6255e9dc924fae3328327335b885e52a392e6, 0xfdff1e73a77cab77cc4ff92ea7de41a9ef9cb31f2cb5ab76aa107aaee7a32a38), some (0x2246217fe9b6742ceff97c4763f2ad53dad666237cf5791c5b1a7ad361480f8c, 0xbfe46f94fcedaf47f506d3e460e5872e733f2beb4f421f361fa11303357873ea)),
  ((0x8a337916fc59341c4e625152127b93c3ae1d2fd099dedf6695478b48d23a9823, 0x3efb5141ff6a524e5fcf6711e7f645922245d7835887eeea544f705943e4ef0a), none),
  ((0x889f9d67b084f35b882cd8546e8c4ef6fa98834e268999148cd2afc9af39692d, 0xd7903627a90a22974f370c34607f020795bb22919601e5e51f8b0c51a42ec78a), some (0xfa40fa9209f6e7d46763c4c20d080b3fd2089f6985474e9bb813661b5e3e0291, 0x9f4a3bd147a2c699fda0f38ea640db9dee26c7b597d90446503b196223483007)),
  ((0x24faeb8c2226c1fbd3f950b056e0aaff0e17c3363c10cbcb85a919b96dbbdba6, 0x496a7f5ea1bb5082b1abc637f14db78e790cbf81aab093a4519ab6c88565f985), none),
  ((0xfc469db3b3f31511cc438263c53d9234592985993901acab37d147e2613a674a, 0xe1f71773d66f8a14643aac856220283c1cb01f16f57d62395e6cda61ab64b15c), none),
  ((0x33e11566ac60320e234c30aca744a187e7332da70235b705969e83aa02632364, 0x1640b4d3bc94c675c44f20c667ac2087ad23d572c581a687bbe9d50904ea694c), none),
  ((0x26980deca30aa8a72e1c6fac79ba1a635051a30edc5acfa7b8141db402d68526, 0xed7c87a355fea51c50746a67bdac0f36887df2e3c0dd10848ff71bcd8c4d5275), some (0x7d1c0e760d2765d1eeb716b58d17f394d169ed834a52a573799a911d634bc9c1, 0xebe3230fef399f8e01aa9340cbf41aaf0512735a7a0f6a3deca2ce9871988b43)),
  ((0x93fddf602c9fafe68ee3b26be661b56aae749446e154118d5e18529c61d2fa5d, 0x4d4d6305da38c57c92103b20764070f8602b4059950b5ff3ef5ac9a749a7a246), some (0xf2cff95c404a94a5b39324a136bb87a9a4a95666e8c1bd433bccaa4ab3f7a0a1, 0x33c6d9291b3eac85a992baf4cb8f4e6aaba674a0e663649d704052b65207cb4a)),
  ((0xf938cf12f2ebcec71a3957947f0fcc1974de325417b4a71f3158a5c0ca68ce98, 0x7c4f26d0583477ad215ea4360d2c2d91118bc9751fa502bd20334557522956f8), none),
  ((0xb29801bbfe990a8059623b21cc33eb4ef46a68910a9538db9fc030898afc944, 0x41dcbb15fbaa84ed53a31d1a9e8a30ce4662c45b570ea6f0a3b4d4fc98ddc61e), some (0xa8f453ead453284ef139a06941018a3aded18c3ca58c67b42b8499f89372497f, 0xd87cd6a92ca9ec619b6ab8fb0f0e03d3c1875b88b4c3694d6dfde315a8e1bb08)),
  ((0x9bf9243f90a6eb65783bbaf94c8175cd973958624958574711eabf0c5f36433c, 0x70a5d736f36fd10087acb068c7284cb0181e84a463371d24ce2fbebbce28eb5f), none),
  ((0x3d3b7ef312fcf7caed6a3fc298acdc6dee00e1fdcb9f9860febf70a01a60e6aa, 0xa5790ccbfe79386f5e1f7d8d0704da6b3073801a6679fdb271bfd1942594176b), none),
  ((0x1b888b8e58c68eedc5e021428c09573505e96f59b047d581a7646c5170750d32, 0x950a34e1ad18f9266e24773d37fcfc986c129ea3829f15e6e0ced5c03785e940), none),
  ((0x74b92a3516dbf9e6533e67dc148ede198b7e5dd1219ab61d38a95758ef23ede5, 0xabca555f923566f940a23ad9131675409f0e05be434b0a4d56b82362ba553dc3), none),
  ((0xd59dc918c84d8d4713ce9c7475cc830e3042f306a2cc47731fffb602c9a987dc, 0xe37aadfc4d2aefc1c22c5b47b10b92d4c68199e62c5cc5f7cbe8119331a30095), none),
  ((0x6695c5177f56ec4caacb706689cb00cff6243f8d20cf9a09c95f5e2c59be89bd, 0x7f53e6e5a9945c56ff2f863ecd7c6d757b330cb81e6610ac1f29e414dfda36bc), some (0x8948a32003d2860fe106bc814e0428419492fe356941243c8a9381cd113c03c0, 0xa6637ef2926ec81a2acf7bf3a2b7629347e41ba108be3c1182a488afc29d6a53)),
  ((0x567417a24eac22d280697a3f3a52b8fc15338e309384cb9249ac6ca433ff2fb7, 0xe08a202208eae5ce945152b0c1d8abeda82cc91725e7635d067a86a3e30899b4), some (0xdc33a6ce566582b28086c0646c01e9fea3036305191bf341ab364014be623a4d, 0xef246eb5701d529ca43292cfc3ba9fadcdc1b6778085b9c0b7471a5e233a9d64)),
  ((0x48372be443dc5974472c9f5be8180d6580aab182edd3db2a6e438446417186c7, 0xdf1abb80db9815eb0784d843dfa7ba25daa0f247b044e46d230137edd4590e75), none),
  ((0xdda88f0dca5dcff44af008f696f826dfc594606273ed06f47a90f84818911cb2, 0x367f5a3f35fab2271f9ccc54647ac7e8c4a531643fe46b97f26f0407f461faef), some (0xc1a07e45f76efa2ea55698da35c9b07b9921824b3556d81a8b6559a0d6feca4, 0x918117389d9a6838da14db7fe689eebc0962e9a8e61722e694a4e520adcc96c9)),
  ((0xc7a5416a703eafc076b7c0d0a465e5fd141a617d49157851adfa857805850121, 0xf4b7c9351a24b9cf83595390436b1ae58ff7f9977e337c1e4dbefd4f41ad9b65), some (0x749e173f8ce84109e2b14f4ade6ecaad198dd580582177758070e73007dd9915, 0xa98134d613c7a066d9d0a1f83c243954a64fea7b9956a61cc8f65b0463b7f01d)),
  ((0x55196e7fce2bb7a2e39ea4a5c5ef19ff591056254b228e7f0b430c3b44fffb30, 0xa0bd192c4f9356356df6b5600536f27387fea0b7097050157932cb9b0d236d17), none),
  ((0x780c0002f1673207b47ee787ec7239574c84f2a3b928dc8aeeebb48838013c61, 0x4ecdcf939f6082e219099d7647d132c6b03def96393f0e61b7a4f9da9c7c7ce3), none),
  ((0x44ec1772e06bbcdd2cc716989d96bf8efe45259a2c2e1bc98fd3e7279a0a7519, 0xdd2ff01faab4072d29cd2b95ad20045041d4cd1f5ac431418c34119f124785ad), none),
  ((0xeff1a7d97474bce95300d8ad98fb053d0d2695d132b757259f25db036a5d7094, 0x6a0b1d0fda171d2f85cac07f507a01aa0214c67b64a116f7746ab5111777e6ee), some (0x9cf17424012b6055480d878df4402b520d23dc5b0aea7ee3c2ddcaec5a16319b, 0xcd3a91d14760eb2c069b60ea936e4b6aabdef2858e01953a55fdba8697a34442)),
  ((0x8c1579d42cba7b851a5ce2f18d7a6cd1f01f9f929ad03d7baa612989799382f5, 0x698c0e598ae1872fddfcb2b525ab22f9cf649de0b50dc7027fb9b502d5c4bd1f), none),
  ((0x5b5c83e89bf424491063fd77fc451e19e158d24e68ef102b836f5b3f28552ed4, 0x8f919886071342bcbbfd1aa946c331729e3195b760d16ee4e63475f242f8739), some (0xba70529af9d487c14406e8324a67154174850f07a1e20156aefd6a21da3ab296, 0x35b8e684da9fd1998ffbd8e851bb83e9a17bd2fc68e8ef5216e06b5693aad759)),
  ((0x6067c4f788992037db942de2b62ac4b7bb22f222559e6e1b5c3101c48dc09ef8, 0xb8bb7f51b9e6fea2dcfc7ca58148567016aa6e469cceed02f275c28c652d7b05), some (0xa197294b034edb54f54b54171039ed11f1f712d86f82db81c6db62e24be614fe, 0xb60624c0db7987f29e70a71d437755eeaa588fc41786215909ae038bb8aa42dc)),
  ((0x503b3b1efcb43483524735e12ea32a2c24e5f97aa5791023cef79c776525081f, 0x4b057df532536a821b1684f98dbcfceebf08719add1dd85c026a489514c6bd21), none),
  ((0x6e1e1eb5951cb20d6695eb4e04bf4726b11c60f1b70d0004d1826cf41d15fc03, 0x8e51469193ae11eacde4be1928167d6e983c59d2eb6bf8b50f16eb91f7311d70), some (0xfb2cab0df8a5d17203fa10e5be2b6c782272f526b8e278b648db75d7b5689c47, 0xdda772de4c905783d0295bcf611fa163d0ff224ce67537125ad891440ccde74d)),
  ((0x8455d1219d550b147e3eb909b7abcc0b75902b549cd065ad39e34f0c67262cd8, 0x262b97dbe7ec9c007c7358b342a15f605c7600399dec9ed624d0452d26035fa2), some (0xb22b63791407a5b9c49e273f4489391b1348fea8e19d0164dee22ae13d2957db, 0xe2d119d86ac14f0d918507588bd1520f5b44fd51049e104dc4c1a8928427776)),
  ((0xe60512eddda6109873b8d3c3b534c042e807b695b3eb0e98f72ee66e693b18d7, 0x6246f6b55f81030d31e8cfae5d3f0dac43f77dcd8fe50b2e4ae33922af8c45c5), none),
  ((0xf2c69dc5ef75e35a12b681223a90dac78ff51d72bd5eb70ca9677bf069d81d8f, 0x273dc620df94bbe0ad124fb7486ad1a45a352ad4348808e09447a4fed5e59be4), some (0xde354c8feaf0b80a552281cf372f5354bbc14e434d1e2a9c670d602b58a86dae, 0xa930a42900996f678e8a3f35c11b27a886cbf0284280711fc864655ee35b0bb5)),
  ((0xbda7c54ebaebf280d4e6921c4cd77e53f7e81cd8bf75f8772170313af2c4bc77, 0x8c8566380db6021abb26483e5d7dbcafccd62c5f954f95a41d12f0654781c0b6), some (0x79590bd78a30bc58eef30186743dfa56556ebc5f279eadedd621d403a9f6951d, 0x3009411c6aec2aaccd20c9d99d6e391a1685bc4fd8c94c4ec8ad0ae0d3f5569d)),
  ((0xf47e8b55d128ccb6e8786d78f6ac586703f62b0e05db0bc4d616795b1e10be67, 0xf92e93a3ef368f52354931317e658cd363b024f90d0b1626b98a40ddd8122b7b), some (0x91b8db498e29a5d175422416b9367d901486ddec3a31c4ebb86006ffc6936387, 0x8109e49ef15811fd6b5c9d53a8ed85d141784074bef9f84940414bff6245272c)),
  ((0x1de01900ccbcf2561819273ddf12a5c076283dff480c3668a409427aa82ce7e8, 0x88a9b1e9b57baef34e262b7c7179ca2ce98b695c93da19d31c547f2a5d7739b), none),
  ((0x266b7271a5071e92b07a4ae973c4d713267c1313b3bb6ed6828a72cfc5227bcd, 0xbf86488e288296a53c2349b8e52534a39d352be03da98c7797ce03b5f391d4b8), some (0xc0914d799091d8d8f9d307b5075d8c2135bed9e33f92358a33c44301086cc496, 0x4bc4dfcb895ae810f779e3f9dd2fb2c9b8151a087c86b7c41e300d5e92254642)),
  ((0x731c8fb77fe45212da2fa1663c195f8e49660bcb96b38ea6d3eff9b97fc867bf, 0x953c240ac4208e62f49c213013f9c850135d880b18cdf2a5f3bb64eecfff37de), some (0x934ef8f1efe976394ad358ea149b1b8b765d44736e5c4a6fcfdd6aefe3ccffe9, 0xea57dc327262471f049440fe6cf884fd541e91e2d1dc2f2ddce03730d4c85649)),
  ((0x30172d5fe29214fd185c12702205b26db66513c4790e6d9981f686bff622a881, 0x314c8568df49c2985d534a78bc98d34d88ab2723241d930dafa2c5205dae6913), some (0x29261f3d06f118ba1ad1a39c5bb5d56ae1bce48232b878ecd68992c7c8760433, 0xdb60694190e6e6c31f8aaec15b7f92e29006a9ac1f7684338597be486e011a11)),
  ((0x7d2e68cb0255ecdceeedd1858998ec87efd40c98b16d828824ee4e246f88508d, 0x5cc2ccbba50dea80631968e70dc4cede89ae50ed4df666b6677cd30c8100c7a2), none),
  ((0x5e10e0ebb5bda7dc5364e28f0cb8a9e6be58fd3837350ebd3c393826612f9458, 0x71c02a81920aea170dd0d689ce710e36b71a145b4066bdbcf91f21483cbeeda1), none),
  ((0x28179a04237df6f6c21c4a55623a2f5c4c2599d095ff9e3a57f5dc04ee299f38, 0x76c7b51c0da5bdda070804e63be9747e654bbdc6b6895560cc0e5de59a40add1), some (0xae9ed31db7b117be4ceaad62418f3d289e907f5bd213a6074efa8514fd49598d, 0x56626726f7eb20cafd3616a55ffce5f212cf10fc5bd6764d02176994fe9135ae)),
  ((0x209e350b0d3f3c34c0836ae7ca472ee733af39884feef260bf87a82b6a2b6657, 0x3e22748b2faf58c9884c734cb03cedad2bd034f990a1e71b888cecd48c225c54), none),
  ((0x5a1e7e37932a73f88cca692c5a5e960ce088cc4b5c36fe45b8723c7771a4e44c, 0x68e91069aa570e87b11098be5fb76dc8f5ca0a37a65d52584d2182f4f6dc17a1), none),
  ((0xd90fdf04e561cc8e27384fd211ab5539a5c7d7d303d8921a1760fb02aa4c8138, 0xe6678c8b3acba7c0fa3192fbc66e1337d6b8c1c80b2679fb48448946acf1d4e), none),
  ((0x4afaaf271aca0207d1fbb89fc09ff70a5d598c539922f6aa0d34fe20a1714370, 0x963439803a3bb5854ae51225afb558844254a210087e3ed27a34c635403b05bd), none),
  ((0xf365b8056db4c411144d9e32da2ed87aaca2def58f9c70b7dac633f498751e26, 0x7b6248400d4f59f5588ae636738ee958bae8b0b0de6db87fe084d1261941297e), some (0x7dacd4844a49211fe701e41679303becd02a58ad0c4e2c88c25376d9852a5a63, 0xf3ee33fd2e586f89210a90ae369a51f56dc5df2d87416618beabde0433e0be1e)),
  ((0x7c4a96ed081d4fa4b5018b1449f593952bfec71456a76bd2d9706e1d89cff488, 0xa5f5a6493bd6057c32ce861aac0e7aa0c2233b71a4b3adf8254cd91e5178c29a), some (0x77b5cf3d1a365ddf217317718d20c2d1d5b7d9a60f76c02afb41ba5683719096, 0x1522ea090812853a5d7ac9853eb38e3cc1b01b0069d860ceca60100bd9ad2d8a)),
  ((0xef9c977c8097578154f42d0d175491166684c7832ef68b5ee973c671bbfd5693, 0x9d5a69498f921c67375fb6c431d991b5d45033de2122ddc4a960395be6ae37be), some (0x35dd06d2f5da2b11b402bd971d42a6a9b3c5cbae47edb01cc7f853a27ec82c3b, 0xa5c3eda2dae27cdc1b5d9c7f77d6551f954120f706afc28020bc57d8e52a69cc)),
  ((0x626fa109935d1e2dbb1b5ddee88ca46c5947c62c5cd1a9c85a4e2bc4e7104bf9, 0x84615fd40cf53621fb473a66cde717d538bca37b0548f06cd973afa110360399), some (0xf3a9c96b84d18122c5be2e06e0515a7f70c75c38da83af84953b70d21c03660d, 0x8130d3dfa33cd9e0d979a0045797b99f407cb5f5c7081303420afb9cbfcf2ed)),
  ((0xf475a3b421ab63b7adbd3d1737f675a7c4a38f9f459db16b9230f98a7e207e8, 0x7ffbb70b9384015228c519177e79baf9f57d0dfb8a34db2e0236823e322f0055), some (0x6b98e93d3dff8d1ce5311d3c10338d12295072532d0f8cafd1cd6732c52bece8, 0xe10a413d45399c85c3c3027ec05742ecb715c2750542fda8b53389d3796f5b72)),
  ((0xbb182b693c3363b122cd3b6e6377611b37730b42839b6f851a4261cd2c56f22, 0x1cf08c20e5846da6ff70e4ac02b545047a795184b412685666f626c3b631d685), none),
  ((0x6bf511fbb64a3e56d576cf27e92f844d10052eb68f08d3fc5bac993896171499, 0x53801ac4c188a1c41decde059a80ac50d6d2c82c5b2b0a891885fe34c763eecb), none),
  ((0x2b437ec9d41a4df2ffe0c33e03d480a74c452e2d26d50e4d2c5dc70fe750465f, 0xb02025470b19435f1203576b4f16a9fd8e615a3887ee66809151f6171dbe8694), some (0xec8a0dc64cb7fdcbc9103ed82d8714e6edd60d4b90bdbf829a7c2f4c7c80146a, 0xc3a8195ad4216eb538ff677e36fd78edce373bda53bc51e931278cd3bd302daf)),
  ((0x13a0a30dd5b2ac3f7b1d65a75c1f1c2a38e94d8f37df10c51fba0286b1a198be, 0xc18e2afbfcaeb95d4f79faeae5c6be02e7a9eb4bdfa1575d0bdbe9ad26cca56), none),
  ((0x85a332f7c056a4decdb3a684ba4dfbd2622c673c2fe873d70b53e2ef2e9c75e, 0xc57085b9573922b1443701e4313141254b147a14f75d756869431caad22c27d3), some (0x1c0a4d4585e370989c22936a7d81ad707e729f79bbf064f64ce4202c59a6da15, 0xaec89eb4ef1a9c63cd9bd6b8328731f90a45eac8dc244c4cf0a9ab0a93201d94)),
  ((0xefbf0cc866cb19fcee38a97b0697184fcdc5bdbed8437d2c8765d2fe985010b8, 0x1fe4ef96791a62511368f3f455538330b0fb6220a416e903411c5d0cc619af2a), some (0xbba478d3cdfc681b5ee67233e7c34c2b61eddf7556991ed152624e507c638ab7, 0xb889d619054d980ac28f8e5edd914aa98c5d27639a837b25a270dc32bc3093cd)),
  ((0x275cede0d5db8716b420ec64d6a2cc4e672db421a4bbed47e6d07d43f5920dd, 0xa58322451f594f947bb23da162804e3906d67fa99fda7d071592b642aaef5224), none),
  ((0xf53d49256464e81aad942642a4c6757195312401e1ad9b137ffe68781d13ba3b, 0x8c2d682ba5e5085f8475ae63a652021b198f6951ef71491187281fa7d5fc9ca0), none),
  ((0x47f8113414f3d1af513614a9b636aa86682b94536386425e0bfda73b9589cd59, 0xf2456dab32bfe2cef414bb237b0adb53a6721631e1225777ebae6fef95b2d906), none),
  ((0x9ed90c61c387d05231e898f087101d95d3502413595a14e759e0963d5c8da373, 0xeba3117144d22a80662f8d3372b7430b3d35bb6a578f43390d4c9bc530d9879e), none),
  ((0x6ea42e47f823fca39a788226c832e2baef6e8b0658c397d7d56954954e68f0cc, 0x110049c7ea913bfcf545e680fa5635f3355f83dcced99ab94eaf815ac19ad067), none),
  ((0x35033c4de5298444e87066f6ddc539927959d57fd6156e6858f6e553e3414186, 0xbe851796e94fc5227b5aa6b43e74f07cfade253b2c57f6a6135dfe66be74188), some (0xcf2993f5fa3b9421948c489c81a3c12ccfc708ab87511dc288dc220e4250418, 0x6c9e925dcb0e4df11ee245946f700733359a4f6836aabee03990571acc64ad7a)),
  ((0x2302c71b152e4f708c1cd20f588f89f761524da24f80dbe4d8206f09780dd5bf, 0x44c13fbe55cc4bec5cbc5fc4f69acf5f146f4195d48c1522d523e03b6a4c2cf8), none),
  ((0x98fbfc5a7213816430e689196806d52db95269eaaee58eb4a3a62fea3ef69ea9, 0x913d4c9b86b1aa3c9716d9d4ca8a9af6208208a53259707843b2acdeba28fdb8), some (0xd2885085cc6f9cee580629f322b6340b50837971bff65ad7e4e1e5aa0f3be4aa, 0x5d452698a44f95d406c0969d89ecf5420dfa9f448fbcffb6979cdf88e04a4913)),
  ((0x7dccd384887aa6df51e446b563aa559b5d43f7264ddbbf315cb3c2e88396f8c1, 0xde945af19b8e854df6d08095ccdad69ec6d8d83afc845aa6e732f243a55b91c8), none),
  ((0x8ec1c6bc09ff7157f6c762117d2125c0502d37fc275295d253fb6049a97df046, 0x63347b4261473bcbe876a6d9c964ed90d685e77ef9f3b4fbe3df83e902afaf6a), some (0x2af29aa585bbfaf4dd219d33e584017735fc08f6f9a5969e7631fc85ffeb8435, 0x6e2d00bb71df95f6d36f42cd962d72e783991f09b1cc9867f11651e0e37682a3)),
  ((0x5230ef4e67970bf23258299497a0b0e6010ccc499047d6fafdd22d5d9bcae5f8, 0x415817c6a9a1944c390e4591e27e01f83ff584b8041c752be45a3dfed7bb6219), some (0xeb647a9f0516b8d3ab80221f1b6d2df9da1d757884cb6aead05ed9c912284fb1, 0x8821e8aa35c09105b42393cc557ea519c33e4db4bd2e1c77575192805ec4cb95)),
  ((0xe9a1fdf3742dd2ff97f9d1fc337b34a540030446ffa42a76c27af3d3da9f367, 0x39bd0e69c053bab3715538a13ac4fa9160b70348ad515c391140c838c6ded7c3), none),
  ((0x3226222e8d02ced635fa0a6bc0ea4940134e90d75a984cee97401ac6ab290b07, 0x26bb8ee6dd974ec5594968f8c52fbd0e80f0abb9ee1106398475c6ecd9fbb496), some (0xa712e27160631a8f3f831bbeb144ea9797465437ad36a82b0fc0c4da00234398, 0x972f9ca04129f5bc4657acf2e059e6654da4827b4e236f31b153dd661562b9f6)),
  ((0x2225d92b7feecd2e755ce87b9f39b7435b2d6cd843fd8ffc5ad2274b3789c772, 0x73b644d8f549567a0edddeaece5d1f3dfb30742eb46f74005d810131b10cc33f), some (0xb39161dc4cc96b7bed38fe298e3c317eea47080f4c3793bc79363412fa589685, 0x43f51bbe2c3bfcdfb7354ff73b0f422167b358a2da747149ae5aefc5d54d918f)),
  ((0x5f455f2dbd021ca610676153a9460441dd23ea4cdde0bab128d893ef3457397e, 0x35960b9f206c9b96c482bccf038a5ab41c3a64a4801ec2d894e466e1c0321d31), none),
  ((0x2ef89d41c95f323703a441d167f821955ba9b7f15b66fcaaab3b28ec353c03dc, 0x33870d3551fd9492ed5197954c16fe881d7208fb64819e75100a1c1a4597cabf), none),
  ((0x555629880f52410c5b9bcb444482b6b1c39e819da22dc6db586a41b536f997a5, 0xdaa15c47e57a88d7476ad9ba44ab25d257a9b9243817ec6fdffb21b300ea2a57), some (0x81ee46615f8376b625a960b5ef40a6f77f84b25e51aa426cb9d11e54dd059e9d, 0xf480d8cd968f84bb4f6e12537ddd54fa03ab48438f52fe978904e1b4bab8cebf)),
  ((0xb8404b8b677d91d52bdb60003bc525262f111c711a0693e8e213bc7213dab85b, 0x45b579dff58680b542e5718e154639ec8b008847450cd94f710c9fed30cf593c), some (0x2a51454f3f4110ca94e61b9a3c1368f5927da318751f96722d013f787d7963f3, 0xf5263f8a7663d30bc9bd331715fdb66683c8beb4cfc8a23d3807f84be878acba)),
  ((0x53a18c95c55926eae46f67ac3e5bb9643e98821dc8b4447400fb77a0e5c72ba3, 0xf50a56f2566011e7b6945ac5792b24b29b333f2c32b8108ced5662a1a2a2b54e), none),
  ((0x5bd77bd2c87e434ad3db3ee3a1326c2b9c71d059da39479411b656681e44bdf2, 0x48e81b96e7ae309623dfa2ecaeb239aa71efc38c89dc38b1f8e8fa62c2681fb2), some (0x23441129e29a9fef83663f0c213e7e9e3a2b271c75a3de06db832cb26bd28a55, 0xc05d4125c9d13260afde0f29070b6db3c88b51577590cd7eb4d55139a56a1f09)),
  ((0x11d7f5dde447d9bbc92901880fd5dcae4d46d5ae2c2f96d9fd215719c1f6edcf, 0x5a83d9d8076dfea4c174791945b6813dd6c359df657e7162b106614528aa71de), none),
  ((0x6c0047046bdc1701884d3fde89878a1c04f9730a1c0a6bcaa6f4654fed3987a9, 0x419c74eedd5ec9d258c5fb27949d302487804fa2ad82a75dcedcda47d3d685a9), none)]

theorem account_at : At (0x23f2740ea906f427c10cd03910c510f0c468e703f042a8d06c5b7721f2c15b34 • G) ((0x6c0047046bdc1701884d3fde89878a1c04f9730a1c0a6bcaa6f4654fed3987a9 : Nat) : Fp) ((0x419c74eedd5ec9d258c5fb27949d302487804fa2ad82a75dcedcda47d3d685a9 : Nat) : Fp) := by
  have := mulCheck_sound accountSteps 1 (secpGx, secpGy) (0x6c0047046bdc1701884d3fde89878a1c04f9730a1c0a6bcaa6f4654fed3987a9, 0x419c74eedd5ec9d258c5fb27949d302487804fa2ad82a75dcedcda47d3d685a9) (by rw [one_nsmul]; exact at_G) (by decide +kernel)
  rw [show mulScalar 1 accountSteps = 0x23f2740ea906f427c10cd03910c510f0c468e703f042a8d06c5b7721f2c15b34 by decide +kernel] at this
  exact this

theorem account_sec : secOf true (0x23f2740ea906f427c10cd03910c510f0c468e703f042a8d06c5b7721f2c15b34 • G) = beBytes 33 0x036c0047046bdc1701884d3fde89878a1c04f9730a1c0a6bcaa6f4654fed3987a9 := by
  unfold secOf secBytes
  rw [xNat_at account_at, yNat_at account_at, ZMod.val_natCast_of_lt (by unfold secpP; decide +kernel), ZMod.val_natCast_of_lt (by unfold secpP; decide +kernel)]
  decide +kernel

def electrumSteps : List MulStep := [
  ((0xc6047f9441ed7d6d3045406e95c07cd85c778e4b8cef3ca7abac09b95c709ee5, 0x1ae168fea63dc339a3c58419466ceaeef7f632653266d0e1236431a950cfe52a), some (0xf9308a019258c31049344f85f89d5229b531c845836f99b08601f113bce036f9, 0x388f7b0f632de8140fe337e62a37f3566500a99934c2231b6cb9fd7584b8e672)),
  ((0xfff97bd5755eeea420453a14355235d382f6472f8568a18b2f057a1460297556, 0xae12777aacfbb620f3be96017f45c560de80f0f6518fe4a03c870c36b075f297), some (0x5cbdf0646e5db4eaa398f365f2ea7a0e3d419b7e0330e39ce92bddedcac4f9bc, 0x6aebca40ba255960a3178d6d861a54dba813d0b813fde7b5a5082628087264da)),
  ((0x499fdf9e895e719cfd64e67f07d38e3226aa7b63678949e6e49b241a60e823e4, 0xcac2f6c4b54e855190f044e4a7b3d464464279c27a3f95bcc65f40d403a13f5b), some (0xd7924d4f7d43ea965a465ae3095ff41131e5946f3c85f79e44adbcf8e27e080e, 0x581e2872a86c72a683842ec228cc6defea40af2bd896d3a5c504dc9ff6a26b58)),
  ((0x6d2b085e9e382ed10b69fc311a03f8641ccfff21574de0927513a49d9a688a00, 0xacb82eb93309ad1cc739ddfa33604a83776238aa0bd5ff248dbac47a17f388fb), none),
  ((0x1257e93a78a5b7d8fe0cf28ff1d8822350c778ac8a30e57d2acfc4d5fb8c192, 0x1124ec11c77d356e042dad154e1116eda7cc69244f295166b54e3d341904a1a7), some (0x754e3239f325570cdbbf4a87deee8a66b7f2b33479d468fbc1a50743bf56cc18, 0x673fb86e5bda30fb3cd0ed304ea49a023ee33d0197a695d0c5d98093c536683)),
  ((0x139ae46a1133f1f9d23f25efba0f6dd87bf7ddaf568a5fb9e0a3bfda73176237, 0x995e555c8aabd263fd238833a12188b8a5ffbeb480ba0e3e6ec481a8991472), some (0xa598a8030da6d86c6bc7f2f5144ea549d28211ea58faa70ebf4c1e665c1fe9b5, 0x204b5d6f84822c307e4b4a7140737aec23fc63b65b35f86a10026dbd2d864e6b)),
  ((0x136933174bc388a74ebd6746e13afe0eef5d66580c8e23d33464c342dc0080, 0x27015dc47dbfe781689f232541c0410560ac69c82044e8e5906e54680127ff92), some (0x9e2158f0d7c0d5f26c3791efefa79597654e7a2b2464f52b1ee6c1347769ef57, 0x712fcdd1b9053f09003a3481fa7762e9ffd7c8ef35a38509e2fbf2629008373)),
  ((0x7bb81730470f80d054f0bd1f5d5db1644ade43bdfd6ff05fa77f2ffccf816c09, 0xfef23492e8346f322abefb8b098568fcdb2c8e4b4ba05ff4a595cb8065227081), some (0x5d34ff5f123b5b6992ac92c68c9cff460deeecf968ff830b5622090d682c5873, 0x2d1a0b9c8eaba06543204df148eb161825443efa80f8aff3d49b6626c5955ac8)),
  ((0xbaff8faf41a480a6f2e4c5f5beefcac629f38843e198b2d5aff9c3c929129c8, 0x4f06e1ca167dcb2a0554380969b9f83c090b7c6dc82acf71fe4c925576117142), none),
  ((0x3ca4b35bdb6d68191e2a978090036b234b05aefed04777fbe2bdec192af55804, 0x53eee2a8518c1be70e362afbba9585c7f5ba317df8bfa57d41ad4dd358676724), some (0x20df196be60ba71ae617a6b144757e0e87fffb45d447d9dc0d5480a034351198, 0x9c722d430c0d071ba07d49539ad0abaaf12ba35842fee0ae9960ce1f26eb07d8)),
  ((0x32a791151039d2554ef8262fcdf9e8331fb7007ddb90f1cdb4cdb13c05e77e32, 0x3c5e4cd00a79b525dea6cff3abe48a2ffea3344a43bdb59fe1baae56d16c53d3), some (0x76192853a45c3648749c9a40719424eb415a06f7c74b31bcad93194be355dfce, 0x311392873cbb5012d7ebc93452613c62b5517b3791475ecf84ef3745324ad2fc)),
  ((0x45d51e21394dbf9ffebe872552ee49cdc9c3678b650537385cc06b5e9cc0f78b, 0xc0fb59655ffbbdc99246e02e9ac9898aeaecee7d9791cb3c5ffce90507dd9061), none),
  ((0x5f3d4310eaf8d1b5a94c0cfe60d08721ed518eb3461fca988dc6c054eec323, 0x4b4c62ac624c21da7e3281371af6fa304c18e5b6a7f6dbabd2470ab34d286666), none),
  ((0x26e50cfae3e2230143558369afc3b495d7d4b9ff32a2ec28e5630e3de42d9821, 0x91f7953095be8033c7c11df041774a4db49efe35b8388e1ca4676543be0f8c86), none),
  ((0xba0ad99591a0269a557fa77caab37883c285b64bafef816cdeed224a7ae3c51c, 0x32d15b36b0f62cccdcc9a4f283408ea90632d74a116b450d6e5e8351326d85bf), none),
  ((0xc0d2a5ecb736362456d9804995984c2ea768e15f570a59acc0702e940b52a045, 0x6950912afd861f062126f857aec85bbc2e755ec74435b0e8384135a6890d87d0), none),
  ((0xee7e6175134a38ad0fa6d6a4a428bd0712d846dc57604d9400d5a3873a9f51b3, 0x4bf2ab1da3af497069604f40035b2bad015c4de96d6306b36f04d31e66909c72), none),
  ((0x990483da1e2c065deb07717107eeb2d2719441fdc594804d9ccb92749e66d967, 0xcfbf2d251c0d6a393d90bc57346d2d815d9607c26dd6c41d06c8854931adb2b5), none),
  ((0xe26ee6343d4f6fb0b816b630562683603dcd5883d23f0ab5e4c67e7b2dd058a2, 0xc303d9fb4f526ea1f0eaf9ca3afe0f83eb9e6f286a46df386c6d1022b357370c), some (0x3999fd30dd3c139eaada3fbf384003072aa0a542914ffb3b7661c273c6a9ce8d, 0x2c0720805b1244ad651d7160deb12a81cb201927975a8e71c1f2cbb425523cd)),
  ((0x5c202517fd17a25aefd18b3dbc5b4fe162642eadf4ef7ec1ddad9569401e3cc5, 0xc6b098dad284cb6a88ba8b4f996613074eb0e45bd13c2c2d528becd8faa82fed), none),
  ((0x6cdd025d335c83d45389668f8071115bbcf1d288718f0058bbd87d844e93b289, 0xed498b3004c32debd831ab9655e94df35957cdcb9d5cabd28b3582bbb5885cb9), none),
  ((0x8a48b301f8ee19bbaf80894d2f148dacc6e0a5474cddb4a71ca85b6f48ccf894, 0x2682c484ad11ab383681d34bd34170895b50553e8e3103911ebd9cd3923dde97), some (0x2264643eb65abf0268ce5b7d0a09343b49f6eaf066c88810b69dac78f1fb1cf8, 0x382215b50a76a7ddd53905d23e6b3f6f0fbb9a7c46d7c1fb9fc8b62145e961b2)),
  ((0x2fb8b535b3508dc428d8d012e6dd2ecb7d0b8a5614880a1adad2e4238dc5b472, 0x327f25ae34798a2ecaccd5544e381a9329ca56a0cfb7c75a8b3c05c687f27321), some (0x26a607d92d023f267b7518dcff9d9faf81034f103689f9c682fabfa6d40f3868, 0xb2949249dc4929c4e0caff11255dfb61405c693877485808ecbec3764ff8cbf7)),
  ((0xd45e859769e584edf226ad1c383660a9907dd57767c3edcff1419bd2965a3171, 0xaf8b05db8d398ee523c1480d6a438cad703e6717f6fd12d601db923bcbf45bcc), none),
  ((0x20ef18d29cf39feb4864d4970096c2069f180810e4a5b3c0f41a76237f54433, 0x835800a5a51efd78d5f855e6b28efd44288968930ba07c4fc7e0c3c29ad74f79), some (0xb40c45f6908b3ba03b78a139f557cafaab95661beff8e2d607cbb46207f865dc, 0x6d09294fe8862113789f405e608b7a3da52e1fa58106a3adadf5c03e4b851d94)),
  ((0x939e2a43f2762763835a3f7070d1f32b7ba407bf5aedc5b0507800927c357c9b, 0x262887293b7fd8587f896af0492c54457731cd1e7cb683cddad828b05228e251), none),
  ((0x16c167fb2539a11e50930419604c614ad47ad462c56e6790ed25e2e391e08c4, 0xd423cf984932e2005283884620e21cf93052814d01ebe1e37a5318859518b4d5), some (0x560304e4f1920610d09c3a7ad13584d5968dfcca42f7fd8eaf34c45abaecc1ae, 0x903e9b11c5d909edee25d11aa9e28cf537c5cca011f282b7ece937780e5b32a2)),
  ((0x8f552ee78fe14ff26c401abb73fe7c95731698f3fbf2aa8a32b4da27b918f10d, 0x7de525c34853117ad133eb1a286258a533459b6cfd8318c5cd56bcb32b5a02aa), none),
  ((0x462a5411ef29a84b9dc46d7a4f9e5affa1c9caa4352a09518eaa9988de93cb3a, 0xd7460e0228bf4038c8c176bc62491431fc9eddb7086c948a60c15770a28ccd42), some (0x20ad5430f26818df68103d2d72c4a5bbb609e69898fa5568e0f474ccab0b6f1e, 0xf12dd7ae50294c59ecd6b383330211327b834ac76275babb261b987ca10a29b0)),
  ((0x4b8cce229651729f2b1f6f53570d82d44467d55395afd9244e59f80cdc4368c0, 0x14a4464709d476de3df03a035053b8ae7864259542c6a90384c7ac42fe50585e), none),
  ((0xe9a000107052fbc7f01ef58f00e3305d17653f5012224a255dd86955ef6d4013, 0xeb63063b36bb70fd89c6d722de4cbc3fb5eab1325bc5568e1167479269c0acd4), some (0x9340e3daed78cced4b53b926d88b76b2b7f5b3b8323773565f70f169acde796b, 0xd15b7eec7dbca70de8d5a04ac0a6fce4d92ee2af6806eeeaf46a5f874ba1161f)),
  ((0x3cb7901d0d6b7f77fec24d5879a99fc7b856218a343673268555abe20a4b574d, 0x927804b572cfad45cc59dfd4c2184f424b64e240f0840d51556661372d0eda7c), none),
  ((0x7f4f002de47bdd9ca2e90dd5ea7cc8b0530e89e3339485233f6f9b75604643c8, 0xb6151c9c2740adae505e327a0e1331c45f8e5a9daa71e0f4f24cf8f2cd5ba9d6), some (0x5f89e779b008147a49f42b89170e852dd3bb76c74ee951b2de1d03df4081bff4, 0x8eac468d23d0c477adefcece7e013d24e40021371ef517d18c0a77e6725ab322)),
  ((0x8c631bccea4f996861eb45dc71698fdfb03f9968d35882852ee0b417cd504ec1, 0xc3e6b7323e6d48c32de67310d68ad88bf5c3971eeeb5bc3a2fd83526556f4c71), some (0x212489d7b2369f135b43ee7bb9255e556398524fc33dff8d74c67e6bfe289044, 0x2f0f4acbe815e281446c5d6bf2829ec17c4a511ef965c21d8cf08bd4e060bbc1)),
  ((0x6356df8fe7be3dbd74e51108fef35fba4e862bd2fe2858cfb1ec05ff0cd884ae, 0xfee559df2871dd5c4a285a8fc8fcf168eb20f0d53cf9eb6941a955f4e65b4eaa), some (0xeb4bafd44b562bfca6824417215125fd81aa7078c2a8de386c31d60d14c16fe4, 0xceaf0dacc18f676834b55228e6d0b3d38638ac8c409d6a059cb746d3ea19e1b4)),
  ((0x94cde40a25d5db5817849e70e375f00c7ebeb8298a26e5a215485b3201961cb4, 0x3d51ec40fbc8becbc99e12cd654a946061a0373c3ce950fa9571b29ef1384228), some (0xca04d6d92b7b309be879fd41ee37ea12ec7030b45b0967697d46cb870e587eca, 0xbb6748ff85c0126b3ab27d91883fc7dba7b6cfa800b07bce4b85948becb9c267)),
  ((0x41b74367feb70934d241cc9b925ca3b2c172d7746d89fc9b47d3ba59a2d248d4, 0xe24820b3c924388f1cdfa02947d290c7d5d6ad84399fe340f53e47ac0354fb02), some (0x51afea9b02319d398669a2e46b5ba52508b48a7676b180ecc0c177350cda1c45, 0x29f7b079ec503a2ed46814cda6e5d2420989513bd794338ee067802ceeeb3840)),
  ((0x11e8a9585323c585baf631017d5c33f6b66d72bf9655bf178ab12aea2150f7ee, 0x1b56ed44cf17df815fd2c46410918c3b4eebbc30ad1c6870fdb84c600adf6989), none),
  ((0x270b52b61af6d8dc0e5fe2819873c366e38ecf34e377ac4a88fa159c9f1228b6, 0x64a1a897b3044337a324189fc970b151e23e851b04109d55bedfc0bdc9b94bc), none),
  ((0x4e6561cb6142f3e97e6d9a7904df5791ba0b6283e4327c29856e79af9a143277, 0x1e21055fc1aa98a4462f236f3292902d59f9e6baef8041bd893c8777a26807b0), none),
  ((0xc159724bacad658bb0c21b5b64cdde4fe88127ba115efd7d46ccc18a05d37426, 0xcbc97ca089ee417d084b8eb00c446695f1ff5c3599bc37fb5eadeb801ff64207), some (0xa0562745a35c5ce3726d39f17fb14b34e384ba6fe5c41787ab9e1a622515560c, 0xba58f5fda88346285f6781262b4fae99fffc0f845a116e120580a33b2c20cc63)),
  ((0x2ce4d678a8b1b55e8569c82ed211f7e284ef9ecb231077852641a69e7005311b, 0x6e0264f4aafcd392e86ccb168c408a31fd252ae069f0bfb4e9cab6f9456b9dbc), some (0x20563eb6f67cf2e1e19ef738908a2126bcd31629930c6a1cb7374eedffa49a8a, 0x123fd948b9effa7e5b65f377befc8f2bd7e2a9bcf29610f7460172378c1a4c82)),
  ((0x23ae038e187f418cc0884917fb7059f33f44108a5df63b752c23f973cd79fd8, 0xe82e2cc189de1aeadc149e3faa1a05a7e6ba05af40d4048a99fbb88b62b59063), some (0xaf839cdfe0a1abb2996a41610a903fde33dde071e55891c4bd3aa6426ba93626, 0xd22485e0b62a30d4c840e6f47c77bd5063c8dafc5743389fba9b180bcfcdb514)),
  ((0x2fafe58cb3cbd19013b14ad2a9e4016f32380c92bd085c2a6ccf881537d245ed, 0xb0e5850188ad71e9b8a5abb6244929c6db3bfed7fe50ad86589ae4f777555206), none),
  ((0xe0d69c3095ca723c2b42945978c2a7ab5286586a55aca4aa86dfaf91e472614f, 0x24d95f8dfec866fcb6a6b572f8d0af6bd832ab701294ce88b23bf4cd919d2c9e), some (0x52e6f44088989e5674a7e187cfa8c59471918cd5cea9a9100b2aa9b8634e1a42, 0xf2b977e7f768e6e440cf5639c7cac9e2566e3051b7c260bdf737dd5d5ea30cbc)),
  ((0x7ea528eb5cb6dca1c6ad86a51300c70873532c3de889d751b203535698207af1, 0x907b3dba540aa2e6c2f9edfbbf6dfeb66f63828c9dd0e2fc617faa7b3e98d1dc), some (0x3480bf9545c2c2868badec00e26178eae10bcfecf9c049f35fe83f24cdbcf961, 0x19748e5ad5419ecf0dc07528e3b4a1ed456cc4666650e0d8b9d771cb72b4cb89)),
  ((0xa369379cda14496c478e7a6d88382453b61e608ff1a2866811110066d95b5a2, 0x4c66b7401c376eaa183ede2cfb1aa2f3c88da716b3d3422102a5d231730c2ae), some (0xaa4c6a67dd0d452d2fa9fe00999bfe722f854eb11517dd5afa0e13a7b2a36248, 0xac4e9cfe1137f428859ddf7dbeddb0b7877d039338973384bd08ad2eea644519)),
  ((0x418883caae4c75a36d530fa9768c7112728b20e599705fbc5e8ceda1eb744a1, 0x150ba209333ecb1d0a91fcc4ad6bfb0c57d0ba527ca116bae863fc238b76de75), some (0x24282fc542f9111147f5ff1f3c2190ab4b14df45812a857a7362d0db9b3a5713, 0x7cb14c8ddffc26a31825469572560208fbec53ca166b65667f1cd45166a23f1)),
  ((0x2cd9c1ffc547dfd7de037809ae7b9dbb992e0204bd88a417c439160da23a9f9a, 0x628f3ca5bd233f12fe3945678e7223e0da3b4c473fa785ef28fa3690259c59d), some (0x9e1fc2f6df5ee6cd95c14a1b61d807bc7a04944d0e273fdfd28082b6ec588dfc, 0x1bd8e964ca4bbc11a9d90e6553cc0bb6bb8d07cb5159b3c7a5bcf7610aa47612)),
  ((0x8808f7aaecb4eef40f3f1ade221c0caf0b3310c1235b099601520ac8c3da8295, 0x8e5c74f76a49e299283fe37d019520d3e977786405434f335cf999a8ee8f5c4), some (0xc8dc4cb732a25689bee1d952c10c66a5bb9af5b7d90dee6b36f99979cf0bac8b, 0x1c6a045c65b8246ada446cdfdd9f448ed5d6ae274aa067fe49e8729e79ca2dfe)),
  ((0xfccde21796e3dfdfa02c25b1ff4b7329f890e13ce1f7e0f3a08e3f89b0182f25, 0x8b33b4271115afb36aedebb5c688562490ba182f673b375bf752b1dc5ee28c8d), none),
  ((0xb95d1a65609896f320f5e9d3a41e8548387f9e94bbf9fa40e97c687ab6ca9e53, 0xc03f0bb6bf2d81cd003b9239c051d7f279e10c81d455b35cf3fd0315baf170c1), some (0x54bc8ae4b6ee4ae09b67fb1bef781ebdd04cb0adbcbfac073fbef511ee5be6e1, 0xe0c670f741476269389a0fec7f840e112329285c2e39d7a51f602295682c2bc2)),
  ((0x3bb2b90990696ae0ad9e7888e6e8402e3bf1f8e469eb8a80db165a7d29355f07, 0x7968e9c2956264622b03637e1de90737e319f95491c09cf512eb16387f67a53), some (0x33b72a4205f3502fcbcbef30337aecf42b34e4b86470234532456f7b004b51c0, 0x840912585f2f46d6f12b4230fa8962e0dbe92e5aabd0dac03cc15cc4a2d985e)),
  ((0x1ead443cbb5703f73c70db73cef5ba34ba8ef335da03977dd913e7af9be87bd7, 0x83ebe1c2ae440ded97f6c57d5f881b79a966573b70899c0e9d536bf4ea574774), some (0x2d046e750b0d3fd71940811e3681f07794b28e0ea9006a2da33c5e8dab0380bf, 0x1f596a08de41850d315be66b6baa79895649044e25bd5953307fcd1d71b1fd21)),
  ((0x2abe27094e655d69b1d5215cd1298da0c72520a94af980ff7ed7dd0f846dfbc9, 0xdac266d02303f1e3b5162e78c70deabe949be59cfce2756beacfa1dcf6aa13fb), some (0xdeabf2411dd24390dd79d80b139c42133f5e25220ab7f588b217c46c370f2939, 0xb37768c29823cdcb5fe063274f1c3e1a428b19472a7174dabcf46a45c7fbf9a0)),
  ((0xdfee49908a51be18f0323e1692a79cae2afa86adf707dc585a82898db031f5b0, 0x9e368be9db217b7bee13a287d377df3133a4ea763406a00dacedc8152e28ad5e), some (0x7285301f66c939bf2e8b8f9ede064a6be454904daeb9d7e2bdff73e762604ccb, 0x287a00bd73572f1af01afbfb4e384c78923fd7bdb61c3dd08367e2265959ecf3)),
  ((0xdad5ba736ff76bf0719d9942989233651537658d0798b2e0a4ba97a7d080877a, 0xb1bd20a0e49a7e09ad7bca7d15a5b8d4a82d9f0aa58197848a96988b7c56eb9c), none),
  ((0xb0bdfca5352a2b41b3c5dab42e0c3efb8187c49e1405963b19685fb1db42e93d, 0x59921d93d27231b00c5853378a25a8b1fc9ca8c3065ef233ec8cbac6be874177), some (0xa1d7721e2035ee3d13711a09bce80c72ef8f6087b7f95913eaa91221250303a4, 0xfc8bbc662c961075abdb8e152a3839bfdf5e960819fc3592b7198de11f5b948e)),
  ((0xa129e5c6b320265ad20ef846c175d5d57057c15fd7af3c73ac98b92ffcb3c12c, 0x52b28464be97ea2f8a112a5ab9f1bfc819a79bcfc7c10b27fd2da285464f04c), some (0x87cd0d822a5b8ef2360f36f1326150e78a7e393b9d4e49661bbceef855993032, 0x54fe582269a19f0b61fc97a9436307e9c61fe7600e5ac4e68b3e31e64256047c)),
  ((0x2aa98670fd3fa002dfa29c3376646db469e5f8438a118032baa6d74802c8b1c3, 0x82924e05a04e720b0aa43243bac6ad60ac6f7e3906b05a3602a6e1ad889c0c3c), some (0x9c1c92d45472cebaf02436cced6259f28248f1b5daf95f8e93812805244c4abf, 0x89caff07581d0828f47104701dba11c5aba845a6e90848e0236f421b7421d82a)),
  ((0x9ec9b66561a2806c507c190535734b68cdab9bf24ba5b7d3f7675ef08185b75f, 0x59ffc0ef4fb4b090e8dae380f83995578c9a5d92649dc319d01f78ea78c32e7f), some (0x925127c732115d06e609dfbfcce80cdd2b92a69a1287f15eb5a41d3dcc5a8cb1, 0xf6d9bcbcabee3706204cb393c04e0fb3b42a64abe32dc54e60405b77356551da)),
  ((0xedc44bb74cc548fda55ee46a3f657de63e2b7b800a3d598d9af91bf9bbe53fc5, 0x9fb387e442e4978473bc89acb63a533eb9711ab96679223d024e0e07647e5fb5), none),
  ((0xeacfded71f81dd3a57e9cd0a655f48f0113f228c57ce60b6bda474eb971daf1d, 0x796bef0099f3b77c296e611fbc50cfb9af7548479d2658fe18f37d1e2f81031c), some (0x48c84b4eeab3c32eb6409844152876737da1d3bc19b63c8fadad3ad07a358a70, 0xfd5ba29125d4361dfeccbf16f2946a4b801af561e9f5bd1d0660f1ae703627f)),
  ((0xdd3695a02054ab26adeaebbaca7278f9d540233540ef4488e3697541668a75ea, 0x6813c61a8199997cee150d67d379af4dfde6e602cc7484e5ab0079c9bb9f9642), none),
  ((0x5e9c9aa799a543538fcfdbd404e3d7a56ba4fc2f077e6f16b4cf59650757fc10, 0x4537d569c9cf01f50bccb4d056ea68887937c7464edfeec77572fa047d914bee), none),
  ((0xd4c75437f8d2caa370b249844979e7cc3513a079d7b26d324d23bdd06b397f0c, 0x8459471caba0af86b8a0d5ddd1aa6c824eba317979abf0470ce805ed4c62bc1b), none),
  ((0xbd75dd6c26a7b6eaeee550eaf6307d7e36078bf690488bd3ccfb8704c53a2762, 0x41da11114158e1701e51eb17f7ceaa8c864d7fe882473a8dca6c5fce7a403201), some (0x8e1f15b19a03976263bb11517eddf360c6796a357d12234dd1493837e78aae32, 0x91a8df61850024b33981a1ae918a0fce4f068f834d357e2cdd0e99d18c025e03)),
  ((0x6e34ac9bb5f0cb186b1f2ad8c324ffae6af3cdd47be967356cd7bb501461d6e2, 0xea0e14fc4c1d47380a38e2bdb5b2be180e56ddf4a2b17e7c860e7e3742147ce6), some (0xeb9bcaa8a84fa67a9fc8bda99670a2552e839b4b1cd3b1a0e842e37b9d96b43b, 0xcee1ed57d22eb3fcfcdd110547a5b1e9513c28b1c23050169110fde87298fce2)),
  ((0xd6f5f51692fb9e115eb4aebde1b137763f2b796d706a4a431713b0f503ff07b4, 0x51af09602fa80b1c1e410a226909947b117ed19f4ac2cfd6d221bd565df1cb59), some (0x5a1aed4fed73e58edfc57d8d0553779b300eba3708c510214c45a00f9fca3e09, 0x4853397d5d74e972765921722ac1224dbc2a527d8cb29cf795e84d1ae649719a)),
  ((0xe28cd100f141cfddeda4b311b1040054d10bd22a30d738e77622031b7857fe38, 0x1e4ae516a07ccc1c9bbd96707c8bd545c5bea3d0c8f0930bae6c2c561fd250d8), none),
  ((0x21aa710789b16b2f100e94477925f400fbde4bc9555b8d7732551c6ceaacbfa5, 0x4af9fb464183b22eaac792093e4eb2971d327036ddfb9a6c571d8aab7237f290), none),
  ((0x8c8f43407e68a776e0c6a9598aa6548789cf9f0ff600ba3c34d43e3586dd6d71, 0x72a960baa9bc865d8de3b07c34d90d3879fc730ed242ebf43c0b3d32c87094d8), none),
  ((0xba8aa622ace1a6f9c0bd17befbdead8c5b51b49a2bae84dfe55c270cd50a5289, 0xdf0a5639a9c0928d8d9a6659e1ab6ee481b3fffe4720ae67c4db3479e308c83c), none),
  ((0x5896329aa0193def7db27c7f08fcd5cea3c3bf2c79352fe570e5bc0289c6c081, 0x881b8450b27c4e093073e7104c176fb002c0347976e2ee5804474e2d5c17e0cd), some (0x2b5c156842fe9768a3bd132e0d4bb821fb01c04d1dac51cf9173a3d3f4fefed4, 0x91fdf0f31ef692db07afcda469d4c815c923a16ff49057c6ed5f544462f88ea3)),
  ((0x812e8b9c80ef099b045dea5f74f8f2505d4263b494d0b922d64b5e7a45b76807, 0x9f312c02a0881b993a5ecf6a0ca6bac56382c6004509e4b0e1e3439631059a0d), some (0x37e789b0ca1f46fb3b8d09979645d3b2e49bfce815a53130a9795857da24d59c, 0xc427c82f13a8359e69c5ca51dd128259ad8885dd166c824852055e4dd1946934)),
  ((0x80d0dae6080fae5e52d6ddb7baad63541f9a8afa51f3d5e66583562eb992fa2c, 0xd0365778b4167b6bbf94d08e041b96add6e2ee4aabf5ac98d14a01c11100dcab), none),
  ((0xd34379f8529b918a47fb1acfa0160769871efbf730fe8d67b59493922c740e11, 0x6b79680a11b06b0f834ddf317b6a48f99799eca31e82e345f90d72955a735d48), none),
  ((0x6e0518bc7747de8ae608e9b98de26b8e8f549484a4e099db26fa6627fc542f88, 0x920946e7b669675c71a30322c31727b4789de4d72838f99a0fa062d84543be8), some (0x539eceb925131f6baaecdbc80a94d6ebe80bbd756701ef8e4f9da3305750cac4, 0xf0c10a478e78595310f1c239aaf4a22486d20170a5a6bccd6560941b2542793d)),
  ((0x29820b0e68f4527371d97a0a80364de81be620f267b5d2373ee9e554cad6e16e, 0xd9e92663fd493c057b6319f78a1c5002cad7fb7b3cef44f9937bf7e80983377c), some (0xa38a8cf1c7e2dbf590124db16e5561ca80a84ecd96360c37a44b5a76f4d8f8f6, 0xd70d0643f4138941f70a346c8c4cdb800782f1aa9ab2d491984723d5b0e4a947)),
  ((0x71be0a9af5b0b9e44f75bfcd266743c4d16a0d63a3355dc755911b645dad10e6, 0x178381fb8152afcaa7f2bd757c7d9540093c6d07a42bef7f141c3875d0ae8886), none),
  ((0x37c66fc2a91e327b99abeb10d7cbeba4eb5d10aecea6724707a7750629bb955c, 0x220a47dabe6500d3375aa7dbb91beb612bf158798b510706fbb1792455bae25a), some (0x4927ed395129aa7c3d4ce71ba3855cb803cc6f98a34ed2aca582df9782b47af, 0xddf62776f5e918d9106345a4f37e010508d47c65e3a1f9ddb12fc0eae0e7f94d)),
  ((0x55d00729d7547d9680dbb5cc866ad5cc9f6806fe6ebeeffe1736fb563fa2005b, 0xb0a1810950823982e592357ab3c4b9c7c7905bdef5347eab781c180fec7f15d7), some (0x415fcb942d83f31a34257702c7a8fc1a31bfcf08a814e63d764f734993702819, 0x18429e39f6beb991dab2b33def09b6d4413da668f13634aee7a75ca93cd974da)),
  ((0xdb77577fe374e96cb774402575d3193d5b5c1571bb3f7b6af1805eda7966ac2e, 0xf96941d4d96d07079ec99f8584f8246c3be4ea0a00ee6a51af220f80d6c2f620), none),
  ((0xdc17586cccaadee7f51f125b20c2de3efa36e94811b7d38bedc6601a91eb5c4e, 0xf141d8db6120f91bd394b8d727454e153285e1e5e15b71a8fc6a63108320d643), none),
  ((0x1c488252c8e68415e07c53b6d9e4a9b3e2253449c22c1d0df73eabb728d3e17c, 0xa4d8ccfdf93f72a7bafed3da4f839caa2c2777f10faad5a24d8296e3fe4b626), some (0x7cd98c310bb3db97983a546e670925fe62a24857d8435547c26079fa0692cde2, 0x9c814bd472a39f14fbdafc84ea8d1f619399fa34289fa3ff867d077505451a3c)),
  ((0x1ac1176cc6f49f8b9bcaded0e83cac130d10446692abaf92b190c284f59ad06a, 0xd3f9af7b10b8924723e14d247248707c9a9af293b82fed54ed41bd277708d2d6), none),
  ((0x35c25918257dce642979e15e6ad2ba05e069acaf8664cc4afd8945c798aa9a1f, 0x234859ffccdbc9eb55fe1d37ae49c1edd23b092f50f789fce880842f3c0c998), none),
  ((0xbbb93ccdcc5d7f5e1b734b07ca9111b95dd17a0479bcf7ccda45e176dcd76be4, 0x36d1dd8b7030e5a78193e6beb519f97be4f9403c154b880d8ed7e1bfd3b86278), some (0xcb60a6a8b8965fe478f2fd309996176d5c3e6f9d2ef22f22eff2fe89e0645432, 0x8242b5e4c8dadc25ae3dca48cbbeef5ef59e58dc7301547015ac10ca97d8835e)),
  ((0xaa9a0f63b8c3b180bf6bbf2e598afc94352319fd61e61a9d97cdf95c021b2af5, 0x709e578a4a1880aaff96b1dad88b835a843ed8461081c38695c362060638583a), some (0x9cb98b5dba619740fc5241d49b00001e1639a47fc4c6a9b838a980a6339da206, 0x98b338f5a2029195cbfe8df4cec93f7ad62702468a9ff9d1c06cdc6c4398fefd)),
  ((0xd510b7875b5ed32c0b619bbf9067fc94c597f98f00865adfd21a1fadd18742b1, 0x470a4ee08816f0a1410e346902804d54a9754c0811a05a605396feefeb297482), some (0x8e8fff155e7f327b5e3e1a9178af7295a3df3bd164ecbb36647f7d9725e4f2d6, 0xcaf4d7b8a500759d4eed436b7d0faffef06e85612eaa94fe58b9e0e22d2e9d10)),
  ((0x6ab45308970b5b68b421e0a73cd52b5145e25e6421443d89b6ee1d365b49c32e, 0x73c323e73e7076092041d60f0a6e35d8763718c71751351062c4090162afb783), none),
  ((0xb73cd614f93d6f685a25bbe4f4ffd9be1b5abeffe31bfe5cde92b4c4dd76d1d3, 0xb3a0728740d007c88e74e6df3c1e90372c8b7d4f7746c0cd9f6b10ba806760bc), none),
  ((0x546c78a550b215712915ad99c44f6f06f45394010d8b775454e75415d15e1b2d, 0x2464af3a409254a388c4aceed891ce4a8ec7abf80618ea7a510257e4954cca0a), none),
  ((0x95a8b302500354743743b4ae9139a6092df7cdc7dea50ed4a4cf99e38407b9ca, 0xaaf526c721773558c347ef7110fc811218cda3c707be11bd4920fce856affb78), none),
  ((0x81a85a7f94103d5dd6230736f2bdb842121153b25c7210e4616db6d9e58cdaae, 0x3ee521bbd82e1d7fbe9a1f5ccb251f0a543c5d29458309059072dfa503782c4f), none),
  ((0x7c9d268396fe3cf1dbe6f6c0f5828d0d9549d8e67ff20b861d4ea7128582bf4e, 0x6d5ee0dd5df36f47117060ae5201d6887a409d2aa5764b0cea6c4e7cb58f065d), some (0x46ead70b51989953f1ddb9a0229c0bec98624824a745fbf7e35912677f4252af, 0x8a7a5953e1124ca445936dbf5dc6d8a4e49aaa227d7ed855ac4b0a2c08e422fc)),
  ((0xc09ae1520fe56d06294d8158515b5c6b18bb04b62813cb5b4a1fd45b5889cc01, 0x222e83f55a9696efa0430b718830acf878f888a15fde52a16fcad5c910163363), some (0xf0661815dd636b4dbd7de3064e240fc45424b2efd59d72ab38c766e081698af8, 0x3edaf0caf4dc4a28d02f2b88c4cb959ebace52fcf9c29183ebbc19d744c9de8e)),
  ((0x811f6ce76806486bb28565c1853ac648bed1f9ec5a5e1fdd5d7bd97b28cd406, 0xa066667d64e2e1fde864117f015a0e6453d29c001205df447f02bc8f8832866e), some (0x6fb8db71f69e52ef70bca0e7b4d5662487d3704571336e09cb09821baba0b40a, 0xa2e53636530f4b1e05bb3c631ed891a679984a87bf0949fd3ebf37e61d117de3)),
  ((0xe381337500bcffcb86705202635b0cc9436e0567a05e0d83857dc9107799126c, 0x8ebc6fdd13fffe8e124cb8515f23c1afe93c6ea4b4fbeed5b6191e9aa608758f), some (0x81ec7c53a5457583323e046feba245b0eff112be9aed6bb9a8d1533f95c50792, 0x9db173a3b3aa6f4f186fc788e71a8b99c0621d89855ff08905ce8114758cb5bd)),
  ((0x8d3c1231b2c1523a81d0032d5a9d7db7e7eae97d2c1ec54113a2932f45ff6c12, 0x116a196c6265ad9e9a718c14b564cf336def41c703f8281683b0645e257c9bf6), none),
  ((0x1babf9be3a2eabc772a1889e7be5f0469768a0ebc108199b592f3269270665ba, 0x2926891d93d642f652695a36f59f0a0763b8d89e31268aeb2299855b9246c02a), none),
  ((0x3a46da8a19ebb7151eac3f91d9a1a6b00fc89ba9a3479833c93c36436184a537, 0x67a2bdc0cb877df8d28906a7ad89b48a773ac470a69a629c9a5b654ad2cbcfef), some (0x53cc6bf6a86a56c80b503ec277a80c554e6635d3cc318540a4ba3f9c3d8594c8, 0xc74886694bd4a52e278c9a4f94bbbca6e910175e28980765e567b9989465a6ee)),
  ((0xf43bbb5a0138d4d46561ab108ecca6576d00c0bfc3d6a9a896f140b616c1e5ca, 0x676e17c861ac0369d8d4d162217e5ba42f9c3a6d9fc74578a141016f4bb14b93), some (0x3fce82a49251aa450f6ed6af7dff1fcf98554ccff65d14f99614ca49dd37be74, 0x1a4f687729870246d942f57bbe274af78d54858315e190dfff0d2284ae183513)),
  ((0x4899bbd23b448c19bf511b6052471f2e76ad5452f9a269c458c05ac24f29a8d, 0x1a77a4d38efe897b778c175bb4b6b36f757a98c336bf6a25fdf2d6e3065b6173), none),
  ((0x1f084d925da204a73e73a22c0ca803dfdb55436d5bcc939bd900ef6b6267a430, 0x64b871a7966faa5e8113dc8ee62cefca1ea2a3fda8e53125b7e15b05511b3f5a), some (0x74f0e87581c792ef0401f614bf6c3066827a0e64dfb14506e4db402fad05d718, 0x81efb1a059dd5488c3eca896dc409f43a931d93c7c2d212b7ff1ed5ffba341dd)),
  ((0x461c8d1ffa40fe3e125b5be0a4ed74c65a0fa50442dfb1dff3c8debfcbc0d618, 0xb8312330ae543082860602121ad62633aaf7cb3079f883bef557cd9df9314135), some (0xe48e7f18d475730a6082d3a4c9f32b82f8ca610a00fad197ce9dacfd67967de, 0xe8f472b447310104478a803d4045ebccf508d195cb91e838c4c4e5ffe626ceb2)),
  ((0x956b77d52cd6f75422925189e91150d886276c20be7dce8fe09c2886b686cb45, 0xc9ccc6485bd0c23a15671046881f857a3d92037c793fec1c07a0b187182535c4), none),
  ((0xc83a335866b1ef4c8cebeaca2e76116e5b12e0a3e38949e69f32bae44a03904f, 0x599b79e84890af4597c7db01818fe6c5acb2f91c668db7246c0a7c954e1ddd6b), some (0xf62c09f3bda8ab4bdd0f37891c33bd28382f56327e1adb1a1274bc4d1a294e1f, 0x1324d9c3185c79358c9b85078b6b18b4531ba5e418e0087cc8034a082502840)),
  ((0xfa9817083a17c065bfe8e41fefd2f4c8c046ebe856b1e377ddaf853e2db0db17, 0xab8e0a27ceddfada2fb7f6ff2ed9bbd712f1efaa1ad8b6e511ddd15da8fbaaf0), some (0xb21ad27e344729900ef0d61ae07a8359db6c12658209dd9cc00ff1b3fbefe854, 0x73a52a644ae044479ac195132ba8d62e5695a01c09b34ef8b18d4f4b27e31600)),
  ((0xbc73bdffd12fde885a899bc3115dd3a54feb4662115e9f75001c7ac436ba984b, 0xeab82b1fccd0d1a1ed5e33b8b6e89df3c1e8de74eeaa9d2d297aed2d563d671a), none),
  ((0x26d83f92715d9b9832340adc7d543c5380a9211d61ada22f97684f86cca65748, 0xf257a1277e18a6955a444241ee4bb2b82090a801b438d7758c52592bf938d9e8), some (0xdc6c53f198eed1ec0fb5cef168d0a8ab3e1a18500d7429e21337c79805abc4e5, 0xc6aba36af67f7f0835174e87add8dd9135b57f5c5ccb32a0a12d20c12b39e729)),
  ((0xd979949e100a696ba5338b30d3e477996fe7471cc607a83b67a5767861009b9b, 0x38ea8cb91b46e97c0bae14dddca0bf79888f890fc89779e31764be42bb79c042), some (0xbb1906a21e033af4a9c867ad0a2755d3d44555faa1e2d298dae6237c63666351, 0x10ee9eb9452ced178c10149dc72c656d9662fec67d39a8fae2602d33c085ccf7)),
  ((0xe999423a4e9b3e512bb6720af8af8a2cc452218202015dbd6504f52093b26968, 0xfc360b2367c722e9394e9e42a6379c51ea2342a8a6827a8c5a16d69911705bc5), none),
  ((0x16decce0089fc40d8de8a857a42e8bafa2ecb564326e46e983449fbb57e01e8f, 0x277c1d29b1a22472afa0cd4aae2574ad3e2e41142f71bf8dcefb2041d06ac4ae), some (0x119f459406f5c56ddfa1094e115e7211ced9aea75e113c3ad61f3d11718279d3, 0x30eed9dce1f595f0e7cf02cf3bc6521546bd3147745e4fcd4aa8b4566e595957)),
  ((0x3bb34d2670315a871eed2122d53b883db6c4df19860242f6f6d28642f4b83c35, 0x928396f0c3cde5667170b184a37fcddade8b5cf799ff185d8497d3018b4f9205), none),
  ((0x8826ec443c9779b6ef4b62141761de45bb0c31ba44418fad083fee6a336137b6, 0x5d1131a1ac056cea10cd61bc2fdb8636105e61dc0718eba281a6eb7b192960ed), some (0x1776fb0118691979b6b4c9910f5a2db21c3e070efe0cc0dbeac4461e88e26f83, 0xad454aa9cf54471cea11a93e5ac091c8fbe8f2cf328cd8b7663aa4c32ab8c110)),
  ((0xf660a3eda108f0cffaff0a71eaeb54e3aa3479a45e3a017479c160962e051a47, 0x286cdd0e6ca805236b01f9b22971756b3c1683862c2874c73a4d5bd1933bf184), none),
  ((0x35aa8a8fe6c3371863cc2ec8e70a040775bca03c1c6f693507759fde6129680d, 0x3728a1caa7895f1d4baf87e5ea2830818c71971656911fc2c22025f0eae3b6fe), some (0x92fedb2129ff5f2c08375a03541b9dafa643b92d68d5ccce0eac90a00c81acd9, 0x5016403bba29658ce4b3c75d76a9df23f79c7616e7402d0401a6b0d0cb792351)),
  ((0x3575b6972f5e23b59461fdcf83fdf95447954d8ad0e3ebd114d999dc4e305ae7, 0xf2b24e22ffda404e516588b44b6f27a9b763cea4da813bc73a2e99a34f19264b), none),
  ((0x25dddf8b7c85498b0cd687dcb65509486e235a4a5e3aef1fb3190f471c35e804, 0x8e7df16a415c15e492687bc7131b796749def7a3dc64bf6565eef892612e0411), none),
  ((0x52c6a62774d9004afb4b241732055bfd846a2bc504223aa9f07f74fd70641f4c, 0x9ec59c2d53098a322c3dcc609544f358c4965c46fe9ca157a51384a26beb0b54), some (0x9b791844cc6ede9f30e0439334b31e91d2e84e062468ad227e08f470ca9707c2, 0x1c5f440b87359a6d9df70cb336fb4eeb303b606c74325588a72a1f17265a7ecf)),
  ((0x1843ff977dffe676fe1186567f6b71e70bc8e9898715afdb3015de24270445cb, 0x75a3641e7e8b29c749750424a0f6121a94f1816d6f23334a6d7eca1343db79d0), none),
  ((0xf713db52469047ebbe5f6f130f2742a209438814c520ebd9e17379cb21882179, 0xf40e2679c662046727416e8f2ea19febd45a7bd16f9d7f69f80d90b6b9386c24), some (0x3d8b83e6954aae160cff1a770713e692b87be56978469588828f95cb5e6da56f, 0x229c965ec3e49fcb8fdadfee122839071c09a7aa1b36135b024c8700e220069f)),
  ((0xe604063f122b33a60ca3f6f27993b0ace3886e8c3baa5ac9aa64dbe283da3c74, 0x4e72fe73c4a6a63c0f96ae0ec6d276a56716f2271ec41a09ff2d41a5e029ab87), none),
  ((0xdbe10e5343744098e75acc39c6e51b214f778b1566b7e9e0fa736eb482b4c5e5, 0xc59af60ff94282bea29380639f9c74aee5c917f1befe8e710449ce2e0bd0ac46), none),
  ((0xe0c520b1a7e80e42cdf37eca5164b3394af77083a1887add9dd8e9982b942a24, 0xaa1501674e9e3c0d8793335982df3c44c178db77cfe9874059f0d8bf511ed144), none),
  ((0x74259e6343273ce677065ef8fb1df7b8c178a93f182de00d141b7d9e23f9b15d, 0x239bfc13ee81736fe2a07e61a4bd38bd689c3054784bc5a82a66cfbd421c1788), none),
  ((0x8444fa27706e77aff94c28e44ab200e042d50722025eeaa9181a0d515e80f1e1, 0xd60f606966c23bdbffb5b793884686d3d6c13732756405b8fa4a0847460eb3db), none),
  ((0x27e2fd634f2acd317f9c9467b3937a079b20cabae762d8c37402499a91a21f16, 0x9d17955e7724f231d03c4db4335c38f5fee7a4f3ca7e52c347cfc109e990de99), none),
  ((0x518d3a378296cc7a500389cb8da7e7687dc589e5ae253fd04ef121f37731e0e4, 0x330fc57bdb9e6668406f9c0ce66dd0fc8d349852d5c43030a8cbc33be984ad17), none),
  ((0x2728790c965716079cfce6176bd0339103d448d8b99fee3f9a964edc7ce69818, 0xa34076e5bd41f566746c0979172e728290f2eda7621df4672a1064a948949b63), none),
  ((0xb249f907f33a28bd26ef6532d99f628d94262980237e35ccce026da067f070d1, 0x48feba2a1c0fec7d5ced74c9e57aab9b192e3e8eaad5838e7fea91a827e8407e), none),
  ((0x1c64373bef2dfdac3442a69bb4dba2751f37b1369fed60c1de48d079de9062ce, 0xb92a3cdfe2ee1373da78a348666774a0993133b02bc5f522492f0f92eee6628e), none),
  ((0xbe5ab074720e864e34672645ace478215a57b0fe4a6d81ba021d49a86c08907, 0x9925cc6e0f0cabfeb5a620e18797e6cb7fa053b8dfde39f5962a9debc0dd30fa), none),
  ((0x6c8215f9af648867a374cd5b7ffef31966ce4a7a583ac0c7ee63d6b5ddb2e0f, 0x34d1da98d5abc028bf94aabc63247f0e179386eb6792cbe0f46ec1dcb0346d6e), some (0xef288b27d5d4f9b1e5848d37719d9bff78eb9251b7b94db822c31aeba26770cb, 0x11b77aa9228148448c6a87c77dcecc5b69222005ab1e59a873a9cdd4487b3cb0)),
  ((0xcabaf8cd996a512491e33bfcc55f83ef4031cbb4fa2a22d5986626d30a36bae6, 0x61ef3d1613b12bc7e65e4aa06952c4e3b1240a73df2febaefa22416680e5758b), none),
  ((0x49c93d58099dafe1cfabaf9057d52d4e972e24ce530bb0672e4effce973881ec, 0x266b05038f7e615a36205992c1088e9706054884191513db7844c9c34014baaf), some (0x448f028b6af92d1778d581a6e18791a1404e10878b5263bc673ce995e5f9d05e, 0x7c2d8b2a22d436914d455bc3e23277d1da8d0026818a55147ca980edc0187af)),
  ((0xf065b7535ba532d559279606270164449791e8262ef860d11a9dd83ff02ac2ba, 0x696cd8356aa61008c1f13d61e55db33c056c756ab171aa7e6a5c116c1a281eec), some (0xf7374bee6da0f21930b2f8aacf3664d254c0be3aae008ee910a37c25b018397d, 0xa52f30a2abdfe05ccf283298292f1edf44b20377d7d62b1b0dd62c0936ec7649)),
  ((0xdc1f9a3c6e457602982f85e55c9c7b36babe51c5abdec59a26cadc9161ec8203, 0xeac723aca84314b687e5f675041cee9039b2b770722a565b68b2594a5474b114), some (0xda5db2734a8ebac15f41f40377d7b533e7f1480ca7c445a48dc3cc95e5ad95ff, 0x3377f2e850232ed6e66ce8c7b1e6fac8910f686f83294c880d80c41273476561)),
  ((0xb22baee3881233ac09bd89ea30d9685d308d4d3c96f1e1b3f0e1ba321b57799d, 0xef60cf20ba737aabea92b4b28ef0eeffbc55c73948b173eba6310f3970386669), none),
  ((0x5aa1e035318dc28558c2a88f8ec171f079c20d27caa61f911e64088d66a8d01f, 0x31e0cc3343ba780e7f3e7e9976e014cb7ec03b00b661256dfa31a23d08bcffd8), some (0x530e59375c53e7a57405b52f25699b18d329fd1d43a7a9327f76ce8c0b562076, 0xa0eefd9814eef4a15eddc4b9167ecb832c4e48d3e224468b040c5dcedbd7172c)),
  ((0xd2c5f8cecaa415ee4d8c34ea4d48feaba74c55f3d1c3943b807f7481f3ce12df, 0x7e754c0040a3a2bf5b84c9f8a27d162e5c619d170ee7f4cc071e18b33670f58c), some (0x48c4c267600c166d613dcfee906838f10ad903a4e5af9f8b822694e3bc4a4bd5, 0x53a87521177ce656b36d63b10c775ab34dc5da7c4edf9a31ab9c60ef341b92a5)),
  ((0x7db055674c9fad0f23b1d7a1fae80ac530cd5e1fa54558a371b8c315b23b767e, 0x1eb3852b2f152aaaf9ef3fc1a9ca8c8eca22f3f22d3b02af4c6610ab0da73138), some (0x5f90e0ff7d61129d4d947e4b06db6e8cf717d377e854ee0fa01f7d00c4e148bf, 0xdb5ceda89989be8bf7ef509916251a3bf2ff1fd9f532399faa6f9dcc0f3c65e8)),
  ((0xf8d730aba03a01ebf7774700523689e6fe08a821f1c53a992fb52153ce1c0c60, 0xb9b751f3fbe31bdcc35b35f2ee0ed9b716b8ef5b087c1637958487743ad9c4c9), none),
  ((0xf28be87513488807f56f0100d8d086c5b5ed2ecfe91cb9c1a7e4238bf55b7567, 0x11393b2c0313e374b7f9d676bd9d862150dcbd8be60da8ec04ea73f5876f2d37), none),
  ((0xbf67be71a93c68a823121ece424575b1b92e760de51f3317576391bac68c337c, 0xfdbadaa045f1f7d7ebe907e5641bd7a7e4361291d55fd1a3171f5fced669920b), none),
  ((0x74006fa4a409182cd6d1b9052079e7511ccf079c411f6c85c62502e4e9102535, 0x253a4e18df0fee6a2b5fba2a1175ee642e633f44806b548ab9e5e038770232a1), some (0xd579b90198f576b4c1839c5dad790bfc937f8c2163b56b2e50d0e00c0a2678af, 0x540cd08f45dc7e4dc32b78ae0ebc245562382b2f8a5e3b6ea56050c37b66ec62)),
  ((0x9cb13a97b9c11c71dcbbd9792c808aebf89157fa0c86e7e24fd67d56c2c0df74, 0x31a9f2cff1bd163a2787e3285de21fddb0cea5f9d8514e07dcaafd2fc482db63), none),
  ((0x60e6dbae53f9cfb8f7a8462d9b854c8afa647db2a9c27ff555ede0375450641c, 0x2be027e22af318d3218065b04326734ee2fc11419662236435749261da78cb63), some (0xabd01202203fee22cf3250cda8139e4119cfcd59b2a072b8c1b84459dfeeed93, 0x1617b8b97575d8792231906a3feeac03782736b0dd4dd985bfb3c4dbf2eda8a)),
  ((0x94cfa8f63628de4eae1bc4090865da840340d303838fbff16e3951e146459bdf, 0x94671109f58d3a627e7b553110b76a10fe98c2c3dec727d86002bf90e6a5c07), some (0x57c0a4f82a912c4ccdbbe79a48e18a4ce9730ad0f6923a55992b8d59bc59413b, 0xea21a5f75d49b5e482b01a97c2af4f4d6e7e0aca34787bb3205953c671b5da2e)),
  ((0x8a7af931936862c4c0c6eb6fa28e99e48513b219390db9c94e250e1dece40f6d, 0x22df6071ea7ae56e99ac5b9e951d1612a1191218cda6c5e644d95845f0b382e1), none),
  ((0x84a56563a6e4386c9421ee7910cf617f39bed441e988babdf1234f25a51d11, 0x14482c1e04dd74da21b657ea0ea083773e07e84eaec4117d98187c0a93fc376b), some (0xfe2db060824dc578568b2aacff8b3fd21c98c90cf90db369522ec789b6ddc121, 0xa6725309c7992c416a308a1ebf063b7be52fbedc3c3aa3d3d4caeb1640804169)),
  ((0x1336f2ded15c15894223f3c31c7e88ddb143404c8d31d9c23e933cbc1e0fe5b5, 0x146d4baa73c8cd78f22d7c66f9d4a560140f4857f4e5ea1e0516641b2f1e7f84), some (0xa94c1657f6e45dfaecd782ab9d9c797170f93cc530e8099b32040ef8d66b5dc1, 0x74cb21449e0850f5e381e63ded47d142596b33f445ffa0e95005bdcdccb19fe2)),
  ((0xebe2006dd120e8c7e6d1752668e4e3a79dea6ade404c60153bfe2a501b08fc1b, 0x59148908be2d92975f496d6595b03a4f9cf97e0f2c79a67a828400215ced9a61), some (0xf0657ec6f06288c4323cabd6e116ecd573396828939ead924f21e2fed843e510, 0xcdbb01450fe28e3a563b1ce3f2729f4d9aaeaf088053e3d02119b041eafdad25)),
  ((0x1812c703dead09cdcee05fe99472fb14fc2d5a16b568c79cc5061089f59d9356, 0x111f6a57118c48e50fd341bc3097b8bf473c0fb9211adf76fe10085551ea31b2), none),
  ((0x691ccfd8c0024914ff38e86b8413b139d4d3fd3b974b903c492a4519267d84b8, 0x831d469a99b30433b1edbdc4f415ee55a122b11e3b3a4711c3858ec93dde45f3), some (0xac2057abd40267f18d688634c6facf9976b519a1291e68f177efff76e361674a, 0x29479b36bde5ad7016e55ae57c002e97a4186b0822c790fefef1ac5ad5ad2a83)),
  ((0x55e772a91a83837e3c06f88288bbb2ba607d9fcaedd9f183007da188cdb0a207, 0xc22f4d84f42c69c345623825ef5bf04e96e08566d5b3f801cf6b36907a783909), none),
  ((0xdeb3ee5cecf44fb1dcd1ef7fe392e77c2323848d62fab03b67997314a68f3699, 0xbb5be3346367a3209bd1c3ddf6794fa61018263aa03f7fc031d487f1e5817333), some (0xca5ab8f719828537e57d60f467847e4b37363f38f0af80dc75c90b5fe31445ce, 0x36f2504cfbe2803d3a232d465b9183310871e90bb7d5257f2d1bb269b98a49fa)),
  ((0x9c5d9abe4493405836886c3493869c3d394546cdf3165d638bf10606f789383b, 0x9f7c249631462ef3b8a67c3793ad0f4fa7383518157dba757b693df7e5722886), some (0x317b8ea090ae6c5eb7d203577a9af6e12ccc8383cf359f075623e63e2b723064, 0x1e0d3e647cdd0e8b4e7b026e3cd4bd98a0d822eeca03bc65aba64d30d0de3972)),
  ((0xe79412e8aa6e262c15c1408a71b6e01bf0d5f7f80f6a325df9ac7f56e728f3d5, 0xec5f2d669cc85a51e9aed04da599615a6d4bacbeaaa178b8f646f28a5d3c187b), some (0xce29fca55b4b974cd42de68225fbff65addf5b2c467e8957336977921c759454, 0x7e3fe6482c6e6d88f8df5606ef8e48324f15de0c6f6951d1f0355523e2d2b5f6)),
  ((0xd88030313cf66c3404c4312f5401528384e0996496e59de08488f4be82e222b0, 0x221e32de1b2933e4471d9cf1213fd5a29b9a27ab46af85057aabac77049cc79d), some (0x5262cc494613c5bddaf0ccb56493e489a8ebb52867916fdba483789224184ee5, 0x90b7f174770515fce6480a6204d74bba43e566a8e7427f82e85f4e256ccaa6aa)),
  ((0xe634cf1d40f39bcefcdc625edcbbd274e3d0b8c1a707957da7a0cc45bd8f0d39, 0x614126f9aefc72b0da43a08a9333a7d7857f33bbbfe9351900e36e50e47c903e), none),
  ((0x98323b263d647c25808d356f083f41078cdeaba3433dbc62ab82d3836f40420a, 0xe6d882a66f984e007c9a398c13e6f5f8c2311953d2371a5c008d698ad157b139), some (0x7ba6a4383626810d6f164b9ae089dbcfd756d267ad6000b3cae301acc4761199, 0x10ea5f101625461f7095920cdb83ee2dbd90f7fe5fd8e97c8fe0f5c8de3b90eb)),
  ((0x4d343fe3692beefa37a9d7718fcf0b361d9f624b3dc5ce93072d1066c7d70f24, 0xd30ba3d3bf25f371c185dd1988b28f28e864d3cd5947a13a6fce3914eb3c2f5b), none),
  ((0x9fd38a11a38d2f44fee3254eeaff960af33993077ec7f8338e5207942454328c, 0xecc95b51d919f44fd5337f5dd5ce9f5c2f5b7b85ea033bcc63ff200cfca06a47), none),
  ((0xcef5f2eac2dba04fde4614c745940dd9bf1f46e7f98f0369d55dae06d32d7b15, 0xeefec5f775c92720afa7c04d2b906786b63fd3ba7b1d3fcdbea0082722b9168c), none),
  ((0x81737906acdf045afcaec7a17c5177d8c22a39f0aeb80328986e0d50e58bd0c0, 0xe9b940b58092d262e14712382ab579c3216c6c4cb0ec9244caa43d941b5f497b), none),
  ((0x9e99a9c52d0b273d7fda6e29d15c4bc555afa2163e5a9ce859571330cb39ba98, 0xcc7a2f060d40c5e628cc3c0d15e1c8b0c677388b4f2519e92b084b0ae2a586b2), some (0x4d42685513b1f09e0a00194e454cc92295baa8d4c15c3ae15b3b9eb5c01d3057, 0x29054213876f9e03574c716075531144044982cce1becdf9029daa1562fd8299)),
  ((0x1f6c0e7daa40fc6ef6286f069cfd2e0d91eb97f2223f46b19cefa175a6ecbeb1, 0x1eb5e173d1c4d318d337ec7e82ad76102aefba3762080a5f6d8c78abaf9d93dc), some (0xb076be402313c0dc0dfa7760d8b13ef4ae4789c66600b01c204eb6d634882b1a, 0x29231bc1aee2f9fb9a7f767ad3eeecdff91872d1e320aa375f853a1f32a2e1aa)),
  ((0x3fdbac10dea3947e1e6adda5fcae5b76ba902384a4210ba1e7bec4a30f8f7adb, 0x5f54bd6882efd3bbc7d3d43218c86bcc680ad567f0412af7f4148e7c57e5a9c6), some (0xdbb28469bf8b3efa30fc5af44a975e8bab04633a6e1224d433cccc9af26f9d31, 0x772a9d2064a37512ad63b5d0745cc98fa335b50d377d6f17aaea05f51d0b9717)),
  ((0x6845d020494ef93c6effbf979178b7039f512159e5edeae8131968de69f704d5, 0x7d94ef2d4f1948f991ba5a9b2c79d9d8dd6fe45c60f2d1db691fb03b54a18651), some (0xee526fae4c7899d52af3725f35d1e8cecf67002d792dec88a14a7d26a3dd5393, 0x2894b093c2b2cc0b139d860c02b345b6566894bacc540d92ae9edb526aaa80a3)),
  ((0x5ccf161fb059b4e3fa04bea9b39c0dc2c10cf2b2dc73334efa1ab5ffc4dcccd7, 0xf63b5132e71bf4074ba108daaf08cf274efaa973882437d74f1f0a318522873a), none),
  ((0x94a175db7514528d20fd368e9cabf341c44358975f00f2f90332fcf6d38c0645, 0x94920c5d0c075c915bb5203532ef5782619583c47f3769804a629115c6aa5ad5), none),
  ((0xce67625a9c62f80ee134effd20260ef40233f91dbde9e142fc6fa2ad0205e82b, 0x5aa8d419dc3fa06c5b7815d94bdc469ba30e4ed956f8a99cc11ce4a2eae116d5), none),
  ((0xb7c9e6030c278695b5ebb87572ebdbd4fa425f3a12937b0bfd80b915997adc83, 0xefc2de670a09cbddd5df39ee91f77c023553f881035b89e29a5b83a27e2dce3e), some (0x57ed0a94e530ca88c3b8bfd3394421a05fe0468cc5564edf2e54ff2f3f049984, 0xd78f565ea9dfd448ac80e6ad70e7a2bcf182a680f70f5a7d2b9a5e7c31c30c0a)),
  ((0x5078e64b9e2c6f6c9a42bcd2dbae8367b653a599b53dd97c42ab9d2f35e11d3d, 0x9cd2f633bdd21246674d853200cc9acbbbcff622fdf1938b152c4944bf94fe9a), none),
  ((0xfc6a56b474cad2febda3a3a241a7d2f33c0cf3217bd422d855cf5d49ad08c4c0, 0xe67524490db8f3a2d33d7441e6d4b2ddf606171d372e70c877fdaa8fc72ff4a9), some (0xfda734a82bf2a75ff28dd51bbb37cb9b391dcfe12b4b6744f830385bc90a6777, 0xf1c290f7957d17f1534a620caed8c5a39f9d6996ef3f7281630ee2c0fa744f83)),
  ((0x63c1a15cbf0d09829a48eece80be66824dcdb4ff78e1b19f5752db08029462fa, 0x955b8788608705f92337975533813bb4ed0b8ef956b15d17a697985508972abf), some (0x9a37c147c51afca315dfb6b0c18e650a625827e28ef39c0440ac8412cf6030c4, 0x482491b248bfc9d435542a52dc9a9e12fbb73d474b4c36933d30d7d3bbea3d03)),
  ((0x5268f9941ac59d4448cf5379f4f7a46811c4a7357243c34a84fa60df7ac0f25b, 0xc4b30b90fcf16d6dab453764c35004231bc82c86d0df3cb3b2b79e2c4b5ba648), none),
  ((0x8af04223d72bf9ee4df873707ea1dfc7e05a0950f8fe087bfdb88a3ccb1bc910, 0x3dd5b9cc5f16a1080df3f3f8fbffc91e25d4ef772e7e0244069c4030ed823ba1), none),
  ((0x423f2f1ccab05427fe97cfb40737291c87af2d4a770d530189a44fdf184aa162, 0xf83f97621b1f1dfc99c42db467df0be6645b896e5be9205086c63ceb055ce573), none),
  ((0x2d1c66b8b713386437e0fbd2d8199bec58de8274e77b84d94a1aa14e2bfb099b, 0x7c55e23b036d86ed16d4c47eda778edcfde897f191ab453dd25e0ef8f244f152), none),
  ((0x2605ecf5639e127725746f37542bb5b91d672d064b68ab31672a81fc5193dabb, 0x63073f79001da7f97560d5b2b6f4b16347059fd51157ea7c65f058ddad046f11), some (0xebf98d0ab69e194fa4d8e2bbe8c1a190f06ba36aa119f5e4cb04feb83d31fb5f, 0xfcad873c29d1cf2be291304312da63fdec9b0c99055d682f3cf3033ce297d60a)),
  ((0xb56cebe9942deca63412126622d9bd525a0fc15c5ecb67dc51cf5dca4e554b6f, 0x2ddb46e63a33aed5d02db4938d4fee76d7d9b8d8ff1a34f46440e4c411d42aec), none),
  ((0x496665272ed28b3f062b2cb1e809e9fdd34fbc01e6089287a87d4595aeeacb11, 0xc342e6a9694254954a56323bed37181baefd3d7ee5f544edbc911bda96751a3d), some (0x1c158f8e5275b2c97419893aa2e99ca1b05db16bdab455e26e63f7fd97c8f383, 0x8218e5c82bfc8e5b2bd73f28c78c03c476d2d698034d1af3b5e0d01532a318c2)),
  ((0x42fc29298121168b6a52c4dc6aa6f533bcbb923f9ddb1df8c389e8f8a252897f, 0x7f1d052819ff885bf245e6cb5ca6875f9462812e557e1adb3525be539cc0a87f), none),
  ((0xc58cc12807425631d1df98654b42c71e766b1456ad94faab46a56e059cb801fd, 0x7fadfcb84c08903261f809fb1d0fa55003bb8b2bb270daafee66cd9d64626b82), none),
  ((0x61a5f67cd6df8bf06f508334e338d074a709032ae7cd422174a5d0ecb20851a7, 0xd4bb61be67f26d94874b0f01c111586074d11827fea667589205348627093892), some (0xd70797cd4c40f36ab7d8aecc1d9b72079cbdba281553781711527a0765ef2d24, 0xe7bcfd0d2463e2239ca42027ac9269996cb7ba475c4c0a6d8b5c8cfd6b12b45)),
  ((0x4e7f85dd47e1b7e570b28560df6c407608280468ef51ab052bdff4d64e0100dc, 0x3682d97e96cc10442f06f465f0038f51da06756f48fc0b7cf5eac5844d5d08b7), some (0x3c072641695a9cbd39d90d67250af119bd573b1e3d8a9c9a12ce53b234e36db7, 0x427050e50f926a9ed6c27f71fee675a66c566cd3b7e07bbb3411f551b5c64b49)),
  ((0x2c116431fe37683f889a3f0854b463a98c7c59d043f8b2cb47ab551031cb5f43, 0xe4592829cdaeeb189cf71e246b1611836de0a950a285bd60f96822eb383d9136), none),
  ((0x54a96eba1525948c4eeac059e46afb40479bf7db4b16ffa73eed5b00a9d0c86f, 0xa52141f29398050be3c45eb63d7dde57c8528b77728c2dfd4475cd4e8b651c6b), some (0xc0d34486e993e38e68da7a6b89a7cc5b4739da60d86ee5d2866b98d37fdbd0d, 0x613fe4b72b8a80925e70dfd1be64f09e487bf3778309762ab227d593ccb2c3af)),
  ((0x23183c5167e0d4957dfcc1b50179c15a8bb0f031e73fa93330ed5f319c72edc0, 0xeda91b6488020ec611f9db2fa3812a838be4ab713a081e3e7354239e5a99281f), some (0xa6d0ae6ee4c07185eab9152bea0c95a6f8a246799244b4629b6cdc961877dd04, 0xf7b11e8f2838c04183bb7302d952c699532ea66c22fe885a0472bb254f75ff0e)),
  ((0x2800a12833151ce0452e2cd05ad33c556eb65357d5fd7a30c4c17f6fe6ef914d, 0xef9c4bc74a5a6c6b0d52b336ce9746e2f0af48d6f616768b5ada8e3ee9e830a1), some (0x3ef66fdb22cbd051ed44b66893f896639edd3fa21246434e61a048e267c3f30f, 0x81b3452ae803733a2927a5abab51c5b52a1f285f0b99ff7f2a61c70548e19b65)),
  ((0x7d6f302f60fc81a3fb41b29c72836db5caf11ff1b0a318644391bb0b38ebeb02, 0xfebeccb7daf515da284374633fefe31ae5bfdf5a74c32a3f8b94561af5842e5f), some (0xeacc79847af98fa5eb909139a9eda670398e7923b51db8e72abe691811981120, 0xd3168e736a8150eb38e7c90c5aaf71431dcd6ae9c4bfb1d2c6983866f3ef09cb)),
  ((0xfb1318f771e74062de2660c818cd0d45ccc5101d09bf1c04bc5de1d7ea2a2aa9, 0x2886e07c565fb2cc88a6b6bf199981a16a9d01d736c843990542238786d5dc80), none),
  ((0xfee23f9c804c0fd1dbb5928ea2d1a3c02bbca28cee40d61548b27e471e70f305, 0x5ad4d613cb1c5e78c42185ea28962c8fd0a050e2d7c25443a7ac61ad53fdf3b8), none),
  ((0x4591690bfc4383aa3c007fa83b5e21ef7b83eccb040292d0c99ad2a5ee2752b4, 0x73652eeb9c6826bc5c1afffbd211d50426d91a536aa9b70b029e1d7870271444), some (0xa9df30bdad86444f7887c2db3a21fcc773cd2304b0b899cbe53bcb0b0475ee70, 0xa6cbe582d8f81afe2be58f9041e78b56fc63508f33b8051b7fc7b3407de1baf0)),
  ((0x9be6da72772306c1d1afede453b3a6ca474a785999d0a82261248851592a811d, 0x6bc4d0b07e040a7dd081cd69ac23eb0cd9643fae91a551a5fa0da9a3cc836426), none),
  ((0x390b3533421ea607e9e1a54f52ac9832363808d2279e357744835ea6efb1b971, 0xad53fb48f23ba1c2240d648b9e4c659c8e825042b308159f88a5976cf9d7d39a), none),
  ((0x8742cdebe786f726b76bf7ece35c28e6a2f6c98f8a80fbcf982d2188fa5df516, 0x80e01918876682a6f0497d690875aa4ebb49a6b7019a99225544e206c0aa7a79), some (0x5f05eae095feef97d54b74ead8ab5e1ac4a7e8da8c5a0ffcb350e280fb078b40, 0xe68fb139c0cda6f144bc654f33b6e118c3efb48166ab20740227b473a7ed8815)),
  ((0xa24bf0e5aa4620552b455e46d1409464f647fe7deb68f1702bcfe4f67d5084e7, 0xa46b63dcdc22f23d27a45ebac217d8cba79e51a2f81774ba4734072b7b5dbc32), some (0x65bb60dbdc5510c031131d571dc6424a6a290f003fb69a9ecbe2ef81f5fb57d6, 0xfb308d77e8278f09d47d27ae06cbfaa1195007b603f8a268b140c76da027d17)),
  ((0xb741b0779af15aa2e51e4e60b140cab3b4fb50e2d6588ed5c24b150fe0be73d8, 0x1d31fb02347ad00ad378a01dba23dc4cd353afc04ca9fa12a267727ea567f0f), some (0xf0c83a0be0d64cf2bfedba5652ed65635677820f0f3c9b6d8b13221d96a3ccc1, 0xa260feac97071ec7f0802d7d0f4562e58322b196819df4127789fd50b5b7ef5b)),
  ((0x3d56161f283279cf643f9001384f4f8bb5f0853ea5597f0bfc7a977d44850f65, 0x85445575b6219a84c9e07b69435968715f7235ca8bf1edc9d231601141e6719b), none),
  ((0x5f9b3712ce1eb7713bdfa26e76e843e1fd0bfcabded724d09261e79954eb627d, 0x89987d106d666e5ff4c4c040ae37fbb687fa7d883446fda77daddecd193032c4), some (0xbf2e86477d847b6571f3d76d630c7bd860b57ebf5f3cace1e66913692f3ff8be, 0xb30122f617c464dceb2ad0da78e9cdaceff08385b3356e6f6e8925dc16edfff9)),
  ((0x1abdd368e4373c97edb52a11a177316b1ef261e2329fb9d343125bb3b03b317c, 0x6995224a26e80f2b7a73dbae8d386b083263805b163a50afa2d3edb6c318242b), some (0x1ab5e97d399764fa6a56a5404ed25b12dd032b41e32c273076f3e68c4b2e8eef, 0xfa68262b17fb39a54963d74f187086cc25254a9b53c829f1298e9766b8558bf3)),
  ((0x49ea8be6f28902178dd8deab3fdda5e4d0dde7be26ebbfd1aeb26ae5dd0effcc, 0x2063154af4c373c0d00cb8bfcf4174d6b1b3eb3327b8f163ca9fdd5a270cbc57), none),
  ((0xfc808358054efa25afaf8bc58f5569c32ac6261c75ec54fc6baaa4f0c0f3184b, 0x53fc2dbec63f1e37874b9dc43410421348414d7aa4e555e3b1d04f8c55c865fc), some (0x802b1485c926d6291924b93d60f2c39b683dc45146deaa812705aac4ac1b7208, 0x4352c2fa6410c87a859b3843e10e47a88dba5a9897e935486d296c6302406a6)),
  ((0x643239c2be7fee5049b76ed9c3d00895fa76027e6c21377b828dc906fcebef25, 0x6e927dfaf063c5cd327f6aa7ac6535877347c24405768e80e96ea65dd4ee1c32), none),
  ((0xa43f84c3b407b76c22d4739bb38092d8dde05e0dac57a5768255db3dc7908b79, 0x4c37fe30cb28e8b543407bbb422c3e82cded5eb5eb1dce43bb9e4bb2cf8039bf), none),
  ((0x3d9bda435403a7e0a0d074fe95fc54f543a2e0dbdcdd7caf3ae9e194553cd726, 0x869b375923a0c00b28ae41c2abde907d508836752d010ae6c788f8e8f9f2efd9), some (0x2184ef75128f042a3eb8f3bea00124d83166ecb4473665d75f0b26c05863fb16, 0x770be7c37a8ee585ead9a1dcf3055211b543a54ef66f172ef9dae40742714418)),
  ((0xec3c4d4d7bd7e6b6f6726152c9b4afa5c272888113a3cf52b8482ca9a6d0c1cb, 0x70203f4069506185925e080972cb9d68094f418108a10ec3b3ca4e22c7d50882), none),
  ((0xdbc736905327070cd21ed95087121cfaefcd1be4aa039497b7f699a2d80d8382, 0x69143d1b07ef9cc5eedf1b7c2b7a4edc94b21bc1aae52a0bf84144caafddaf9b), some (0x2272d572d76a38f6fe28b072808ff679efe76d9f6e090169e7141cf937c6e2ac, 0x89f8f2d84ed7098c8f0c0665efd183e85d9d3c8f0c155f99fdf2d5ddff10328)),
  ((0x12a07562dd18123d45c40161bae71be58a2b33eadb4c6a25ff5d97e9c718fff9, 0xcafc74028ebc3604738766b3cf380ba8bf4d963bc997d2b4d5623433a232da27), none),
  ((0x1a9292e2d3111277e0ec9b2e31062dd524f6f7079938673b7c37afe22749035f, 0xa559ad097ef4fe11bc1fe8d27ee26f841935807a54ff3c3e9fc459bfdd7da728), some (0x20245c16e742e1d92357c8d64b82e9fc845139ea65deea7c9edd3987b1b7766e, 0x3e3b5c31b17cecc40873b6aa3b61cfbfdd131fedbd92f6dc68006262e24f1c1b)),
  ((0x898e713b8cff9e90757702981e802357d3d2ee9e71e3f6c2d38b2d40dbaad9d, 0x373e276b9899612be3c44b59dcf798b1d18124ccd3cbcde868e75e454d468af2), none),
  ((0x3b4dce92c60c5d7f4c83daae900c2016df268dbfb45f026a4ed46b0823b3602e, 0xbc26b62666db8d2787b81a9b8874327a5c4a76e3640977b81368a258cdbde3ac), none),
  ((0x4a9d9469e6f054d172d02bb46f3765ef57dbd978f75e017d8d21e38400f1a0f1, 0xd79055560ebbc3ecc394fee00fe74be94f7bd0e8716aeb9ff52f7f9d849012a0), none),
  ((0x6ad453fbf3badedf46a620cf2cfacf6afb6724107060049c41b4ecf8b92af83b, 0xc9f703ed7b4cbbfbe2af9798bdcd1d978d8e792588ac1ae70cd7d7350ed9c88a), some (0xd57e824fe72aee7fe86bf238c6077f78bcb9496cf887a306bdc968500b41cc88, 0xcfdb814f3a81133e35f2f4667d9d93fe623f9a5897f6de13327f7e6e323a5ded)),
  ((0xe2ac5f9be21018aaf660d2d60632153e4a5e5a03327bef61667721042174aa50, 0xda44e5af9c1f05b782c461ad18e737258ae036fec3916c4f78695efb9afc7a94), some (0x1f9e9fcc2b8a91419fa349d98121c16600f6fadc3d7e2295cb7c11ebb5e347a6, 0x4a891b48d985c31492a466b58ab154ad251d1c194b6d99e80481ff0e31920099)),
  ((0x534038be94bb082b382f8e2daf987ddbe5c04c8b1a15988dcc95a24264e88af8, 0xd67dbaadcf809b71501a95e7d6dc197952125cc406fd7cf80c9f794136a264b0), some (0x98315304431144e4cb104f657cabe1965f43e945751d2c7002ee85e5e3ed9a81, 0xf3ce1bd5b9ea0e71f1e4e613d8b6ea7c134c49ea2251e2345602bfb6cc711f03)),
  ((0x9b47034d53346aa75a1cd7612f1b8f8d6eeebeaaa2109c6362f1dc47edc708ae, 0x208eb53c27ab4d836b9eb6fa27cea59c8ddac979b2fa72fa9810ec7b1957aab6), none),
  ((0x429e489955317883de7726bd86a759251ab9cfaa2ae933276c30f18c1e807e49, 0x45c8b326744f503eceb4483bcf5d5f7c9ed5a4aa311d34d0c1a1b86faec1490e), none),
  ((0x57a08591d095112432ba1dbe657eff54f769a424912196ca466a32874cb513ff, 0x1ef62cf34c6e7f45c18be9a214d5a72eeb687c2efa27b3b0f80e5783da5a45d0), none),
  ((0x201f5f5b00c562fc49b70f3ade414bb508d8b816f212964c54f78509ce46bac9, 0xa977ae074f68ebc8bae416dd02ac8fb60be3de5859d9cc5502766813d04d97d1), none),
  ((0x82643d09331293c7d0814d635d8e0353ba80a6b1a04ee6136ebb56ee6dd99869, 0xd43c96080704aad7db9c8178c0348c509cf937772dea15aa645eea64c7887d5e), none),
  ((0x89485042a1db3c7226073fd9f5a000364e6b0899f2da76fa9a082605d1e1875b, 0xe1c69c1bc4b613048ef7b4ea7ee10ba0f18f14e385b4b6a0c1ccd6e9197d7be7), none),
  ((0x4bb2919058227904c249d4e525985141c113390e27d5cabf92a315f9fcc0a27, 0x19b5ab01aa52b647dd7d4f7a50f8ea13fe45ccdd6427b862767d55cfc91028cd), none),
  ((0x87778fb9d4d5862c1ce8d02315b5d6c9017611bb760f8e8ffacf956e0d676227, 0xb06c5b54b633473c61a66dfc4ae2dd6e0b531ccfbe61dff5d1f85e52313563cb), some (0x76876bd17f6831e3be8a819d5df2d0c2f804644f555f98eab9fc577a21ecd729, 0x2c7291fa06322198b36d0ee443849c57db505b3408b50db64ef4b8e94f7a3570)),
  ((0xbb15ca0f862f23a85f7667cd0b4bfccce3284bb9f9787042eb13c30eb4d8fdd9, 0x7ff1cadf38f0fe60b6eadf5f76646d91b78f53540b4fe2bb06fe9ebb41ad1715), some (0x859c2b01afeacd576399182ee7aba9a74462ad6c82c33f6272e2132a0178fbb3, 0x49ce6b315b9ce861b570640648ccbee299905d8c89a12e99c2e43af647b4b4b9)),
  ((0x28d8e94ac1d8c91ee0dba08925ce4c8954284718f01cf449da9699ebadf0fb18, 0x3ebba5702f81d00968e2ce4f7cf6e9188b6bc79fabac77a53f7ece6787a44a87), none),
  ((0xbc2c69da89b56fa2d4a73cec725c7ece7e1d26e553453c84e2de82ed9e6d1480, 0x6b4f9fc92dea994c1fc46b0e4e65c2c1e3c4dce2f61bc8d93bf2f19dd1c8cf7b), some (0xfa0e758d912b27320ed69ccc02cfd33895085dbcb857787d1c12d035f09cb686, 0x804dd43234dbca79ccb7e35985be384eb951160b159843cd80ffe88f6bc9fa31)),
  ((0x254228641aa5402fd65b24220748740b9afb38693adb744fbe16ff63909730ff, 0x8241cafc7f3e08f71c663f319c4a0ae01bd008fb5195817c46576902fdebe849), none),
  ((0xa7cc06ae85a19f7936fb3b7aa31d7871f4b5db34d5a94d7ce5f7ba10ae828b38, 0xb16ca5e7e1bdebed3e4c9af37798b30acc485d4b927c85473cef3b0fdf6cbfa8), none),
  ((0xaf13a137902bee7ed9f173db388bd61319bd919150f3d30c8be76f2162509341, 0x93fa8ae9e8981cdcb9798662676946cb7aefeb2ce51c0e20f68587f5fd83711a), some (0xb9792a2a03b3e759f01f7cc3aac5b1c65117fc3190bce573603ea7a4bef0c938, 0x22d0d7f6cf62d6e18fa4f39781345cc6058372ece8ef0165aab4cc012177096f)),
  ((0x214c9316d5aeb38a699411bb862eb4b1e05510dc91eb7620dd2e805bb0c21cfb, 0x540f7e75cb30da3448ac7c2fe370e32c4c27291fcd459c52cc2aed23f7c86a88), none),
  ((0x7b22214a02f159f6386daf283df6ac26915bda715ae09e9e17e5ef8010df6ebe, 0x1a03e76851bf9fd90f2a060be9223c04c2fe8b345b9be26bb87cb7c862593829), some (0x158f9e57d75a3d815bcb17a3118087f334a567145945ea7b2795561e1d8d9427, 0xac54c03be71f2943c24c56e9dfd762f8d477f6ceb54e88eba7bcdc542c14f386)),
  ((0x63c1cb5b207b88208389fbb7c6c83015ab9d8984e012ddb17b9ab9e3023f4272, 0xd1b64297547e5c5773d56a30ef9283dc5665464617d7767cf3bd505295afc2ac), none),
  ((0x29a2852be105af9e022d2e4778a189efadbaa58e97fb06a4516a0ac02d895379, 0x9c8bf5df42c277285e02a6b4bc34fb260e0b7ca100f32a787ffcbb0adb44a4f1), none),
  ((0xb6c980b3a42a8d854ce7d0e6c5adfe7b0f2e3e232c0625b2a46a0fd998af32f0, 0x8a21cb93d2dc02a453ad129fa3508f4f850706592f9079ffc22a71a3920acb0a), some (0x11be656c5ee962113b8b8db969a26a03df25a98c6f02dc5e597c3288cd5c9be0, 0x139b7fde311cf1f6e35325961e242f5b2bddf72d680fe3de8225834b95ce1441)),
  ((0xd6518ec7c5b6d1a402c3878611b39ec9aee501fd19784c132ec342ba38b2dc79, 0xbd27b2c177a3eb8bdc6febf1599043e505aec0550ba8956ad47483a4cda47255), some (0x8abcc6d547071cf2b95e22421c35cf9c4a97eecfa0eaacc8c6ee6eed4b3f8356, 0xf20f476faf47090fd7ce9a2efeab4afee8c4d5bf5e8116b1db2c5bcf6657980a)),
  ((0xb6e052efa7480fce6ed59f0d7d7421375d89de518a145ad7d64ee6b364ed6072, 0x8ac28cfcdc11e3f2cfb23051632ead435218811080659709e3e557b5c03a807b), none),
  ((0x1012493d967bdee1f924177771900843866700cb18000be870be06de3035645f, 0x86d5ddb4092fc1b746500490128ee191fe717a8e9f94bbebc8e8d5fe6db12224), some (0x30af4198fcefe55c5d9e738f002ec8ac29b753d7c736f8af729bf7bd9d540a66, 0xdacdfbaafbd4c1511fb0a5c2001fd8a8de4ec5c47fe7c73a159ab18f43013aa)),
  ((0xc998017ab499f7fdb332b88578179d06bba75ed3764c370489f3119cdcbda58b, 0x3719f9af19de31f0e6ad268afc776267073298b63d4830030fb33b3de0e768a2), none),
  ((0x1eadb97a8d1ccb81cbb4fa87954b033ba4997f013f0993fbb70cb15c26fd51c8, 0xe198159818bc3cc51621c784d4a25543b5ad7454f0e045c345adb91c5886c91), none),
  ((0xcde216520eeb1620a845f83fd6c6aea9c3ca1fb616ad8cefe41bb3d2d6063bce, 0x17316565f03dfbeb1c433e1c9bc2ca528cee4516c79fdd3a813ae88367dee61d), none),
  ((0xa78309e789931e0414d010dc46132025e6b4320aed1001c35ba7f25d0f66b6c9, 0x8feab94a330deb12ba2777a923156839062ed51dfde07d70ccf89f17c28c0a51), some (0x3addb84c2e75469ea3f4c2c90cb7539726376e42ddc51456e73886b60362332d, 0xb24298d1f9bc499f5fb891b5dca4e436c7f8e7159f4bd3effeda8e8fa8cb2acf)),
  ((0xc5e0681812a4684d30754e23ce9d617f8955099dec4914eb4bf44e5a761a5dd9, 0x28d9be97f16dcba2c926ff0749f4b9c759143bf3cc790895b3f0ff9e8e8ac2f8), some (0xdd59431e01877b9a180ef9e7eaa5a05ea0a8142a4080529c12ca489e4c0d0083, 0xdc4820edf22fdcc2ee4f24bb69e48d275ab4be92c421ff30c2ededcae59b6809)),
  ((0x15de8ae1b9e8b777b7645679f055e941303ce0666e1df7d1da95bdd36d1af30b, 0xdf57a7bdeaed1fff3d243a52968de12d8a103b5c6bd43b8ef09ecde87f3f52fa), none),
  ((0xc19dbcb738d1c072687460383c487f0c5ea80418a0ff71c35da6862420b7b7cd, 0x6632c0fc7b7b9961650501e8c10124b28b007ec7f491e70d9c6f8a07d972b38a), some (0x4a22e8406e482710f2912a043688668b5e151fc8923b8e3052469df3ddbebb09, 0x5052ab08a824e52327814a5b33d8911ec2176e902b9788dcd99d3e7f45db8089)),
  ((0x393f1c6944425d0af5a138a3a65563ad89b5959c0ee421fbb49e2093361819f6, 0x83bb0c954af195148d28a72015eab9a0cc3798231e61cf014db66a2f358da550), some (0x250ce9c19505c548340113abf92bdb69dc99857a435a519ea66f44bb1eeabe4, 0x4e7cae8bf745f2629c6646233803d1320bf491069b10d6dd946f940563936370)),
  ((0xa5079e33d31035290b4929fb022eb3f612e1b446a4320d73e4527d4a42ac07c8, 0x155375fd8d2ee3e54736a5c9972e69eadd0e1f5369cacf647d0aee1abe3e96fe), none),
  ((0x484bbdfc44d38f94dc6c98724236c3f99b579ed2fb92850023178daf6d643cea, 0xf2150849cc16a2ee3578ac6e3f21f892d0d98322397db3219a97c13cb6971bf0), none),
  ((0xccd3fcfc3d87c29eb43b1ea04103c9b0efb364fd877e93a12b5c6ace92507030, 0xa7b4d39f96bc031feab36cde5a3bec4df118b4206431aa7380a45256478465c8), none)]

theorem electrum_at : At (0x3dec04d55f1dfbef470cd9383cdb6a94005dc5baf43c5853793b4a8e034a68d8 • G) ((0xccd3fcfc3d87c29eb43b1ea04103c9b0efb364fd877e93a12b5c6ace92507030 : Nat) : Fp) ((0xa7b4d39f96bc031feab36cde5a3bec4df118b4206431aa7380a45256478465c8 : Nat) : Fp) := by
  have := mulCheck_sound electrumSteps 1 (secpGx, secpGy) (0xccd3fcfc3d87c29eb43b1ea04103c9b0efb364fd877e93a12b5c6ace92507030, 0xa7b4d39f96bc031feab36cde5a3bec4df118b4206431aa7380a45256478465c8) (by rw [one_nsmul]; exact at_G) (by decide +kernel)
  rw [show mulScalar 1 electrumSteps = 0x3dec04d55f1dfbef470cd9383cdb6a94005dc5baf43c5853793b4a8e034a68d8 by decide +kernel] at this
  exact this

theorem electrum_sec : secOf true (0x3dec04d55f1dfbef470cd9383cdb6a94005dc5baf43c5853793b4a8e034a68d8 • G) = beBytes 33 0x02ccd3fcfc3d87c29eb43b1ea04103c9b0efb364fd877e93a12b5c6ace92507030 := by
  unfold secOf secBytes
  rw [xNat_at electrum_at, yNat_at electrum_at, ZMod.val_natCast_of_lt (by unfold secpP; decide +kernel), ZMod.val_natCast_of_lt (by unfold secpP; decide +kernel)]
  decide +kernel

theorem signValue45 : Spec.sha256 (beBytes 33 0x02ccd3fcfc3d87c29eb43b1ea04103c9b0efb364fd877e93a12b5c6ace92507030) = beBytes 32 0xb40d98bee91a99579185eb7c38493a183c11253148c8f14fbcb2cadce70a8242 :=
  sha256_of (n := 1) (t := 0x02ccd3fcfc3d87c29eb43b1ea04103c9b0efb364fd877e93a12b5c6ace9250703080000000000000000000000000000000000000000000000000000000000108) (by decide +kernel) (by decide +kernel)

theorem electrum_hash : Spec.hash160 (secOf true (0x3dec04d55f1dfbef470cd9383cdb6a94005dc5baf43c5853793b4a8e034a68d8 • G)) = beBytes 20 0xaeaebfe6047566025397ad251d92df02f100f8fc := by
  unfold Spec.hash160
  rw [electrum_sec, signValue45]
  decide +kernel

theorem account_child : childKey 1 (zeros 32) 0 = (0x23f2740ea906f427c10cd03910c510f0c468e703f042a8d06c5b7721f2c15b34, beBytes 32 0x8aedbb4c67c846b9ed458f1fb89b9c7c62d695f210ab89c9c3f99989302a85c7) := by
  have h : childHash 1 (zeros 32) 0 = beBytes 64 0x23f2740ea906f427c10cd03910c510f0c468e703f042a8d06c5b7721f2c15b338aedbb4c67c846b9ed458f1fb89b9c7c62d695f210ab89c9c3f99989302a85c7 := by
    unfold childHash
    rw [if_neg (by decide), one_nsmul, secOf_G]
    decide +kernel
  unfold childKey
  rw [h]
  unfold secpN
  decide +kernel

theorem electrum_child : childKey 0x23f2740ea906f427c10cd03910c510f0c468e703f042a8d06c5b7721f2c15b34 (beBytes 32 0x8aedbb4c67c846b9ed458f1fb89b9c7c62d695f210ab89c9c3f99989302a85c7) 5 = (0x3dec04d55f1dfbef470cd9383cdb6a94005dc5baf43c5853793b4a8e034a68d8, beBytes 32 0xfd8935480721855aad06c70f2a739a70f51683245cdb498c44d5de1536d16c33) := by
  have h : childHash 0x23f2740ea906f427c10cd03910c510f0c468e703f042a8d06c5b7721f2c15b34 (beBytes 32 0x8aedbb4c67c846b9ed458f1fb89b9c7c62d695f210ab89c9c3f99989302a85c7) 5 = beBytes 64 0x19f990c6b61707c7860008ff2c1659a33bf4deb703f9af830cdfd36c10890da4fd8935480721855aad06c70f2a739a70f51683245cdb498c44d5de1536d16c33 := by
    unfold childHash
    rw [if_neg (by decide), account_sec]
    decide +kernel
  unfold childKey
  rw [h]
  unfold secpN
  decide +kernel

theorem electrum_secret : exElectrumInfo.secret 1 (zeros 32) = 0x3dec04d55f1dfbef470cd9383cdb6a94005dc5baf43c5853793b4a8e034a68d8 := by
  show (keyAt 1 (zeros 32) [0, 5]).1 = _
  unfold keyAt
  rw [account_child]
  unfold keyAt
  rw [electrum_child]
  rfl

theorem signValue46 : Spec.sha256 (beBytes 182 0x020000007a15640ee75b385a35f514977762234399705cef7d21c884d27aef0e91bb279218606b350cd8bf565266bc352f0caddcf01e8fa789dd8a15386327cf8cabe198a067a747e6d3bc64f470cfd4339d61745c8934a9e47a577d42492b190ca9df89000000001976a914aeaebfe6047566025397ad251d92df02f100f8fc88ac00f2052a01000000feffffff8bc0e516d28927962ee7932b54f547d874b8b08bf05a762083a5515df0fd28590000000001000000) = beBytes 32 0x9d8c6845d806f5548b3b3772d108192247b2daa1cc53d0418bd29764191c83a7 :=
  sha256_of (n := 3) (t := 0x020000007a15640ee75b385a35f514977762234399705cef7d21c884d27aef0e91bb279218606b350cd8bf565266bc352f0caddcf01e8fa789dd8a15386327cf8cabe198a067a747e6d3bc64f470cfd4339d61745c8934a9e47a577d42492b190ca9df89000000001976a914aeaebfe6047566025397ad251d92df02f100f8fc88ac00f2052a01000000feffffff8bc0e516d28927962ee7932b54f547d874b8b08bf05a762083a5515df0fd28590000000001000000800000000000000005b0) (by decide +kernel) (by decide +kernel)

theorem signValue47 : Spec.sha256 (beBytes 32 0x9d8c6845d806f5548b3b3772d108192247b2daa1cc53d0418bd29764191c83a7) = beBytes 32 0x7fe9364e45d5fb7ae642061d3476f86d792290daa088fd3e93ff544d5cbbeba3 :=
  sha256_of (n := 1) (t := 0x9d8c6845d806f5548b3b3772d108192247b2daa1cc53d0418bd29764191c83a78000000000000000000000000000000000000000000000000000000000000100) (by decide +kernel) (by decide +kernel)

theorem digest_electrum : segwitSigHash exPsbtTx 0 ⟨Spec.hash256 (legacyBytes exTxSpec), 0, [], 0xfffffffe, []⟩ (p2pkhScript (Spec.hash160 (secOf true (0x3dec04d55f1dfbef470cd9383cdb6a94005dc5baf43c5853793b4a8e034a68d8 • G)))) 5000000000 1 = beBytes 32 0x7fe9364e45d5fb7ae642061d3476f86d792290daa088fd3e93ff544d5cbbeba3 := by
  rw [exPsbtTx_value, exParent_id, electrum_hash]
  exact segwitSigHash_of (hash256_of (by decide +kernel) signValue3 signValue4) (hash256_of (by decide +kernel) signValue5 signValue6) (hash256_of (by decide +kernel) signValue7 signValue8) (by decide +kernel) signValue46 signValue47

theorem signValue48 : Spec.sha256 (beBytes 161 0x363636363636363636363636363636363636363636363636363636363636363636363636363636363636363636363636363636363636363636363636363636360101010101010101010101010101010101010101010101010101010101010101003dec04d55f1dfbef470cd9383cdb6a94005dc5baf43c5853793b4a8e034a68d87fe9364e45d5fb7ae642061d3476f86d792290daa088fd3e93ff544d5cbbeba3) = beBytes 32 0x8ce68088d16b47c22e574281bd368a51ecdca1e68a7bea5ea8b43f8804d11c3b :=
  sha256_of (n := 3) (t := 0x363636363636363636363636363636363636363636363636363636363636363636363636363636363636363636363636363636363636363636363636363636360101010101010101010101010101010101010101010101010101010101010101003dec04d55f1dfbef470cd9383cdb6a94005dc5baf43c5853793b4a8e034a68d87fe9364e45d5fb7ae642061d3476f86d792290daa088fd3e93ff544d5cbbeba380000000000000000000000000000000000000000000000000000000000508) (by decide +kernel) (by decide +kernel)

theorem signValue49 : Spec.sha256 (beBytes 96 0x5c5c5c5c5c5c5c5c5c5c5c5c5c5c5c5c5c5c5c5c5c5c5c5c5c5c5c5c5c5c5c5c5c5c5c5c5c5c5c5c5c5c5c5c5c5c5c5c5c5c5c5c5c5c5c5c5c5c5c5c5c5c5c5c8ce68088d16b47c22e574281bd368a51ecdca1e68a7bea5ea8b43f8804d11c3b) = beBytes 32 0xd6239f7445417dad79ec6fa651fc81ccc322f38cc9ef3743292ceb7e9873b977 :=
  sha256_of (n := 2) (t := 0x5c5c5c5c5c5c5c5c5c5c5c5c5c5c5c5c5c5c5c5c5c5c5c5c5c5c5c5c5c5c5c5c5c5c5c5c5c5c5c5c5c5c5c5c5c5c5c5c5c5c5c5c5c5c5c5c5c5c5c5c5c5c5c5c8ce68088d16b47c22e574281bd368a51ecdca1e68a7bea5ea8b43f8804d11c3b8000000000000000000000000000000000000000000000000000000000000300) (by decide +kernel) (by decide +kernel)

theorem signValue50 : Spec.sha256 (beBytes 96 0xe015a94273774b9b4fda599067cab7faf514c5baffd901751f1add48ae458f4136363636363636363636363636363636363636363636363636363636363636360101010101010101010101010101010101010101010101010101010101010101) = beBytes 32 0xff56fbedd013ec99fe284b1f66cc4439b0613a1ece58eb159a24725c9342277b :=
  sha256_of (n := 2) (t := 0xe015a94273774b9b4fda599067cab7faf514c5baffd901751f1add48ae458f41363636363636363636363636363636363636363636363636363636363636363601010101010101010101010101010101010101010101010101010101010101018000000000000000000000000000000000000000000000000000000000000300) (by decide +kernel) (by decide +kernel)

theorem signValue51 : Spec.sha256 (beBytes 96 0x8a7fc328191d21f125b033fa0da0dd909f7eafd095b36b1f7570b722c42fe52b5c5c5c5c5c5c5c5c5c5c5c5c5c5c5c5c5c5c5c5c5c5c5c5c5c5c5c5c5c5c5c5cff56fbedd013ec99fe284b1f66cc4439b0613a1ece58eb159a24725c9342277b) = beBytes 32 0x5406184935866545c4b4d66b328a7b3f3ba3e2f762e1af9dc2e048ce68981f97 :=
  sha256_of (n := 2) (t := 0x8a7fc328191d21f125b033fa0da0dd909f7eafd095b36b1f7570b722c42fe52b5c5c5c5c5c5c5c5c5c5c5c5c5c5c5c5c5c5c5c5c5c5c5c5c5c5c5c5c5c5c5c5cff56fbedd013ec99fe284b1f66cc4439b0613a1ece58eb159a24725c9342277b8000000000000000000000000000000000000000000000000000000000000300) (by decide +kernel) (by decide +kernel)

theorem signValue52 : Spec.sha256 (beBytes 161 0xe015a94273774b9b4fda599067cab7faf514c5baffd901751f1add48ae458f4136363636363636363636363636363636363636363636363636363636363636365406184935866545c4b4d66b328a7b3f3ba3e2f762e1af9dc2e048ce68981f97013dec04d55f1dfbef470cd9383cdb6a94005dc5baf43c5853793b4a8e034a68d87fe9364e45d5fb7ae642061d3476f86d792290daa088fd3e93ff544d5cbbeba3) = beBytes 32 0xbd24f22b447c6d855c3cd69d3be02b7d58e54a82eafc8dc06341c35870dc3cf7 :=
  sha256_of (n := 3) (t := 0xe015a94273774b9b4fda599067cab7faf514c5baffd901751f1add48ae458f4136363636363636363636363636363636363636363636363636363636363636365406184935866545c4b4d66b328a7b3f3ba3e2f762e1af9dc2e048ce68981f97013dec04d55f1dfbef470cd9383cdb6a94005dc5baf43c5853793b4a8e034a68d87fe9364e45d5fb7ae642061d3476f86d792290daa088fd3e93ff544d5cbbeba380000000000000000000000000000000000000000000000000000000000508) (by decide +kernel) (by decide +kernel)

theorem signValue53 : Spec.sha256 (beBytes 96 0x8a7fc328191d21f125b033fa0da0dd909f7eafd095b36b1f7570b722c42fe52b5c5c5c5c5c5c5c5c5c5c5c5c5c5c5c5c5c5c5c5c5c5c5c5c5c5c5c5c5c5c5c5cbd24f22b447c6d855c3cd69d3be02b7d58e54a82eafc8dc06341c35870dc3cf7) = beBytes 32 0xcfdd1ddc5a9ff46dddaa48b625d4ac297816518b5bdfd77171e5ad7a333ed3fc :=
  sha256_of (n := 2) (t := 0x8a7fc328191d21f125b033fa0da0dd909f7eafd095b36b1f7570b722c42fe52b5c5c5c5c5c5c5c5c5c5c5c5c5c5c5c5c5c5c5c5c5c5c5c5c5c5c5c5c5c5c5c5cbd24f22b447c6d855c3cd69d3be02b7d58e54a82eafc8dc06341c35870dc3cf78000000000000000000000000000000000000000000000000000000000000300) (by decide +kernel) (by decide +kernel)

theorem signValue54 : Spec.sha256 (beBytes 96 0xf9eb2bea6ca9c25beb9c7e8013e29a1f4e2067bd6de9e14747d39b4c0508e5ca36363636363636363636363636363636363636363636363636363636363636365406184935866545c4b4d66b328a7b3f3ba3e2f762e1af9dc2e048ce68981f97) = beBytes 32 0xbc79bebba6176b96296d8a7ffa095f9f4abfb1bfd329656bfa0012891ffc9cc6 :=
  sha256_of (n := 2) (t := 0xf9eb2bea6ca9c25beb9c7e8013e29a1f4e2067bd6de9e14747d39b4c0508e5ca36363636363636363636363636363636363636363636363636363636363636365406184935866545c4b4d66b328a7b3f3ba3e2f762e1af9dc2e048ce68981f978000000000000000000000000000000000000000000000000000000000000300) (by decide +kernel) (by decide +kernel)

theorem signValue55 : Spec.sha256 (beBytes 96 0x9381418006c3a83181f614ea7988f075244a0dd707838b2d2db9f1266f628fa05c5c5c5c5c5c5c5c5c5c5c5c5c5c5c5c5c5c5c5c5c5c5c5c5c5c5c5c5c5c5c5cbc79bebba6176b96296d8a7ffa095f9f4abfb1bfd329656bfa0012891ffc9cc6) = beBytes 32 0x503fb4f55c0c4ff6b5009b172bf13e2d266c9acfc2403afbc3cd597e8928a8a9 :=
  sha256_of (n := 2) (t := 0x9381418006c3a83181f614ea7988f075244a0dd707838b2d2db9f1266f628fa05c5c5c5c5c5c5c5c5c5c5c5c5c5c5c5c5c5c5c5c5c5c5c5c5c5c5c5c5c5c5c5cbc79bebba6176b96296d8a7ffa095f9f4abfb1bfd329656bfa0012891ffc9cc68000000000000000000000000000000000000000000000000000000000000300) (by decide +kernel) (by decide +kernel)

theorem signValue56 : Spec.sha256 (beBytes 96 0xf9eb2bea6ca9c25beb9c7e8013e29a1f4e2067bd6de9e14747d39b4c0508e5ca3636363636363636363636363636363636363636363636363636363636363636503fb4f55c0c4ff6b5009b172bf13e2d266c9acfc2403afbc3cd597e8928a8a9) = beBytes 32 0x5e90d04ff728287c594765ee3ea19eb7b1bbac91f5ac85c7940ffbc6714c1681 :=
  sha256_of (n := 2) (t := 0xf9eb2bea6ca9c25beb9c7e8013e29a1f4e2067bd6de9e14747d39b4c0508e5ca3636363636363636363636363636363636363636363636363636363636363636503fb4f55c0c4ff6b5009b172bf13e2d266c9acfc2403afbc3cd597e8928a8a98000000000000000000000000000000000000000000000000000000000000300) (by decide +kernel) (by decide +kernel)

theorem signValue57 : Spec.sha256 (beBytes 96 0x9381418006c3a83181f614ea7988f075244a0dd707838b2d2db9f1266f628fa05c5c5c5c5c5c5c5c5c5c5c5c5c5c5c5c5c5c5c5c5c5c5c5c5c5c5c5c5c5c5c5c5e90d04ff728287c594765ee3ea19eb7b1bbac91f5ac85c7940ffbc6714c1681) = beBytes 32 0x7b001878b42572eb0a5cac528893d537cf1d1a2084793bbd121bcc36bafc690b :=
  sha256_of (n := 2) (t := 0x9381418006c3a83181f614ea7988f075244a0dd707838b2d2db9f1266f628fa05c5c5c5c5c5c5c5c5c5c5c5c5c5c5c5c5c5c5c5c5c5c5c5c5c5c5c5c5c5c5c5c5e90d04ff728287c594765ee3ea19eb7b1bbac91f5ac85c7940ffbc6714c16818000000000000000000000000000000000000000000000000000000000000300) (by decide +kernel) (by decide +kernel)

theorem signValue58 : Spec.sha256 (beBytes 97 0xf9eb2bea6ca9c25beb9c7e8013e29a1f4e2067bd6de9e14747d39b4c0508e5ca36363636363636363636363636363636363636363636363636363636363636367b001878b42572eb0a5cac528893d537cf1d1a2084793bbd121bcc36bafc690b00) = beBytes 32 0x84426076971de68a29c8d43daa2998989e86a6401b35abc9824be616b12c45bd :=
  sha256_of (n := 2) (t := 0xf9eb2bea6ca9c25beb9c7e8013e29a1f4e2067bd6de9e14747d39b4c0508e5ca36363636363636363636363636363636363636363636363636363636363636367b001878b42572eb0a5cac528893d537cf1d1a2084793bbd121bcc36bafc690b0080000000000000000000000000000000000000000000000000000000000308) (by decide +kernel) (by decide +kernel)

theorem signValue59 : Spec.sha256 (beBytes 96 0x9381418006c3a83181f614ea7988f075244a0dd707838b2d2db9f1266f628fa05c5c5c5c5c5c5c5c5c5c5c5c5c5c5c5c5c5c5c5c5c5c5c5c5c5c5c5c5c5c5c5c84426076971de68a29c8d43daa2998989e86a6401b35abc9824be616b12c45bd) = beBytes 32 0xfbe9b6f676acd8a42e732ff959544ac7c635cdee438749efe47e119fe3264aea :=
  sha256_of (n := 2) (t := 0x9381418006c3a83181f614ea7988f075244a0dd707838b2d2db9f1266f628fa05c5c5c5c5c5c5c5c5c5c5c5c5c5c5c5c5c5c5c5c5c5c5c5c5c5c5c5c5c5c5c5c84426076971de68a29c8d43daa2998989e86a6401b35abc9824be616b12c45bd8000000000000000000000000000000000000000000000000000000000000300) (by decide +kernel) (by decide +kernel)

theorem signValue60 : Spec.sha256 (beBytes 96 0xcddf80c0409aee92184519cf6f627cf1f003fbd875b17fd9d24827a9d5107cdc36363636363636363636363636363636363636363636363636363636363636367b001878b42572eb0a5cac528893d537cf1d1a2084793bbd121bcc36bafc690b) = beBytes 32 0xe827bbd0d5194fbc28bd1782f3c3c56ec60fab1dc5662cf5222cb2a00f08917e :=
  sha256_of (n := 2) (t := 0xcddf80c0409aee92184519cf6f627cf1f003fbd875b17fd9d24827a9d5107cdc36363636363636363636363636363636363636363636363636363636363636367b001878b42572eb0a5cac528893d537cf1d1a2084793bbd121bcc36bafc690b8000000000000000000000000000000000000000000000000000000000000300) (by decide +kernel) (by decide +kernel)

theorem signValue61 : Spec.sha256 (beBytes 96 0xa7b5eaaa2af084f8722f73a50508169b9a6991b21fdb15b3b8224dc3bf7a16b65c5c5c5c5c5c5c5c5c5c5c5c5c5c5c5c5c5c5c5c5c5c5c5c5c5c5c5c5c5c5c5ce827bbd0d5194fbc28bd1782f3c3c56ec60fab1dc5662cf5222cb2a00f08917e) = beBytes 32 0x460e5b552370813758ed8a4a5d4298a84bf405e96b2052cf9224d6fbe889e031 :=
  sha256_of (n := 2) (t := 0xa7b5eaaa2af084f8722f73a50508169b9a6991b21fdb15b3b8224dc3bf7a16b65c5c5c5c5c5c5c5c5c5c5c5c5c5c5c5c5c5c5c5c5c5c5c5c5c5c5c5c5c5c5c5ce827bbd0d5194fbc28bd1782f3c3c56ec60fab1dc5662cf5222cb2a00f08917e8000000000000000000000000000000000000000000000000000000000000300) (by decide +kernel) (by decide +kernel)

theorem signValue62 : Spec.sha256 (beBytes 96 0xcddf80c0409aee92184519cf6f627cf1f003fbd875b17fd9d24827a9d5107cdc3636363636363636363636363636363636363636363636363636363636363636460e5b552370813758ed8a4a5d4298a84bf405e96b2052cf9224d6fbe889e031) = beBytes 32 0xf5e31d8ee357b797e7fb28100ebe7c98d6ada90338332c03ebf191bfa0581650 :=
  sha256_of (n := 2) (t := 0xcddf80c0409aee92184519cf6f627cf1f003fbd875b17fd9d24827a9d5107cdc3636363636363636363636363636363636363636363636363636363636363636460e5b552370813758ed8a4a5d4298a84bf405e96b2052cf9224d6fbe889e0318000000000000000000000000000000000000000000000000000000000000300) (by decide +kernel) (by decide +kernel)

theorem signValue63 : Spec.sha256 (beBytes 96 0xa7b5eaaa2af084f8722f73a50508169b9a6991b21fdb15b3b8224dc3bf7a16b65c5c5c5c5c5c5c5c5c5c5c5c5c5c5c5c5c5c5c5c5c5c5c5c5c5c5c5c5c5c5c5cf5e31d8ee357b797e7fb28100ebe7c98d6ada90338332c03ebf191bfa0581650) = beBytes 32 0x59b1eddf1d3f44c87217a63068d94c32334c4bfea1c07942b2671da505885b62 :=
  sha256_of (n := 2) (t := 0xa7b5eaaa2af084f8722f73a50508169b9a6991b21fdb15b3b8224dc3bf7a16b65c5c5c5c5c5c5c5c5c5c5c5c5c5c5c5c5c5c5c5c5c5c5c5c5c5c5c5c5c5c5c5cf5e31d8ee357b797e7fb28100ebe7c98d6ada90338332c03ebf191bfa05816508000000000000000000000000000000000000000000000000000000000000300) (by decide +kernel) (by decide +kernel)

theorem candidates_electrum : drbgCandidate (beBytes 32 0x3dec04d55f1dfbef470cd9383cdb6a94005dc5baf43c5853793b4a8e034a68d8) (beBytes 32 0x7fe9364e45d5fb7ae642061d3476f86d792290daa088fd3e93ff544d5cbbeba3) 0 = beBytes 32 0x7b001878b42572eb0a5cac528893d537cf1d1a2084793bbd121bcc36bafc690b ∧
    drbgCandidate (beBytes 32 0x3dec04d55f1dfbef470cd9383cdb6a94005dc5baf43c5853793b4a8e034a68d8) (beBytes 32 0x7fe9364e45d5fb7ae642061d3476f86d792290daa088fd3e93ff544d5cbbeba3) 1 = beBytes 32 0x59b1eddf1d3f44c87217a63068d94c32334c4bfea1c07942b2671da505885b62 :=
  candidates_of (hmac_of (by decide +kernel) (by decide +kernel) signValue48 (by decide +kernel) signValue49)
    (hmac_of (by decide +kernel) (by decide +kernel) signValue50 (by decide +kernel) signValue51)
    (hmac_of (by decide +kernel) (by decide +kernel) signValue52 (by decide +kernel) signValue53)
    (hmac_of (by decide +kernel) (by decide +kernel) signValue54 (by decide +kernel) signValue55)
    (hmac_of (by decide +kernel) (by decide +kernel) signValue56 (by decide +kernel) signValue57)
    (hmac_of (by decide +kernel) (by decide +kernel) signValue58 (by decide +kernel) signValue59)
    (hmac_of (by decide +kernel) (by decide +kernel) signValue60 (by decide +kernel) signValue61)
    (hmac_of (by decide +kernel) (by decide +kernel) signValue62 (by decide +kernel) signValue63)

/-- The owner of the account of C72 can sign. -/
theorem nonce_electrum : ecdsaDeterministic (beBytes 32 0x3dec04d55f1dfbef470cd9383cdb6a94005dc5baf43c5853793b4a8e034a68d8) (segwitSigHash exPsbtTx 0 ⟨Spec.hash256 (legacyBytes exTxSpec), 0, [], 0xfffffffe, []⟩ (p2pkhScript (Spec.hash160 (secOf true (0x3dec04d55f1dfbef470cd9383cdb6a94005dc5baf43c5853793b4a8e034a68d8 • G)))) 5000000000 1) 10000 ≠ none := by
  rw [digest_electrum]
  exact deterministic_ne (e := 0x7fe9364e45d5fb7ae642061d3476f86d792290daa088fd3e93ff544d5cbbeba3) (r := 0xec87250b7e1ba7d2691cfbb275810f6d7c55da828c4ea7c3a5e45866c5200dbc) (by decide) (by unfold secpN; decide +kernel) (by decide +kernel) candidates_electrum (by unfold secpN; decide +kernel) (by unfold secpN; decide +kernel)
    (by decide +kernel) (by unfold secpN; decide +kernel) (by unfold secpN; decide +kernel) (by unfold secpN; decide +kernel) (by unfold secpP secpN; decide +kernel) (by unfold secpP; decide +kernel)

theorem electrum_signable : exElectrumInfo.Signable 1 (zeros 32) exPsbtTx 0 exElectrumIn := by
  unfold ElectrumInfo.Signable ElectrumInfo.digest ElectrumInfo.keyHash
  rw [electrum_secret, if_neg (by simp [ElectrumInfo.Legacy, exElectrumInfo])]
  exact ⟨by decide, nonce_electrum⟩

/-- C103_cosigners, with all hypotheses met. -/
example : ∃ g, exSigner.Returns exMultiDoc 0 g ∧
    InputOk (exPsbtTx.setIn 0 ⟨Spec.hash256 (legacyBytes exTxSpec), 0, [], 0xfffffffe, [[], g.item, exMulti]⟩) 0 5000 (p2wshScript (Spec.sha256 exMulti)) :=
  exMulti_spends (by rw [exKeyAt]; exact nonce_multi)

/-- C107_seed_partial and C107_spends, with all hypotheses met: from the seed of the first test vector of BIP 32 to a signature in the answer of the device that
spends the output. -/
example (junk : Nat → Bytes) : ∃ (root : HDPriv) (p' q : PSBT) (n : UInt8) (out : PsbtDoc) (fs' : List InField) (g : SigEntry),
    ({} : HDPriv).fromSeed vectorSeed mainnet BN.one = .ok root ∧
    ({} : PSBT).parseBase64 junk (base64Text true false (exDeviceDoc.bytes ++ [])) = .ok (p', exDeviceDoc.bytes.length + 0) ∧ p'.sign root exEnv = .ok (q, n) ∧
    q.toBase64 = .ok (base64Text true false out.bytes) ∧ out.ins[0]? = some fs' ∧ .partialSig g ∈ fs' ∧
    InputOk (exPsbtTx.setIn 0 ⟨Spec.hash256 (legacyBytes exTxSpec), 0, [], 0xfffffffe, [g.item, secOf true (exDeviceKey • G)]⟩) 0 5000 exDeviceScript :=
  exDevice_spends junk nonce_device

/-- C72_document, with all hypotheses met. -/
example (junk : Bytes) (rest : Bytes) :
    ∃ e e' y, ({} : ElectrumTx).fromStream junk 2 (.of (electrumSegwit exPsbtTx [exElectrumKey 5000000000] ++ rest)) =
        some (e, (electrumSegwit exPsbtTx [exElectrumKey 5000000000]).length, .of rest) ∧
      e.sign hdOne ⟨fun _ => BN.one, fun _ => BN.one, fun _ _ => (BN.one, BN.one)⟩ = .ok (e', 1) ∧ e'.tx.Holds y ∧ SameButScripts exPsbtTx y ∧
      InputOk y 0 exElectrumInfo.amount (p2wpkhScript (exElectrumInfo.keyHash 1 (zeros 32))) :=
  exElectrum_spends junk rest electrum_signable

end UB
