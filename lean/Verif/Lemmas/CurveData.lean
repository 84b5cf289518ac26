import Verif.Model.Base

/-
Numbers used in the check of the table of points: for every row the double of its first point, and the partial sums of
Σ d_i 16^i G for the signed odd digits d_i of the group order.
Nothing is claimed about these numbers here; `Verif/Lemmas/CurveTable.lean` checks them.
-/

namespace UB.CurveData

/-- 2 · 16^i · G for i = 0, ..., 63. -/
def doubles : List (Nat × Nat) := [
  (0xc6047f9441ed7d6d3045406e95c07cd85c778e4b8cef3ca7abac09b95c709ee5, 0x1ae168fea63dc339a3c58419466ceaeef7f632653266d0e1236431a950cfe52a),
  (0xd30199d74fb5a22d47b6e054e2f378cedacffcb89904a61d75d0dbd407143e65, 0x95038d9d0ae3d5c3b3d6dec9e98380651f760cc364ed819605b3ff1f24106ab9),
  (0x465370b287a79ff3905a857a9cf918d50adbc968d9e159d0926e2c00ef34a24d, 0x35e531b38368c082a4af8bdafdeec2c1588e09b215d37a10a2f8fb20b33887f4),
  (0x423a013f03ff32d7a5ffbcc8e139c62130fdfeb5c6da121bce78049e46bc47d6, 0xb91ae00fe1e1d970a1179f7bbaf6b3c7720d8ec3524f009ed1236e6d8b548a34),
  (0x4c1b9866ed9a7e9b553973c6c93b02bf0b62fb012edfb59dd2712a5caf92c541, 0xc1f792d320be8a0f7fbcb753ce56e69cc652ead7e43eb1ad72c4f3fdc68fe020),
  (0xed0c5ce4e13291718ce17c7ec83c611071af64ee417c997abb3f26714755e4be, 0x221a9fc7bc2345bdbf3dad7f5a7ea68049d93925763ddab163f9fa6ea07bf42f),
  (0x57efa786437b744d343d7dc45773a3c62d240a43079849071fd383d60ca030d5, 0xd712db0bd1b48518893627c928de03ec689b6d2ae5e9974ab07ab44274b02f9e),
  (0x381c4ad7a7a97bfda61c6031c118495fc4ea4bc08f6766d676bee90847d297fd, 0x936af53b238eeee48f3e5fa709915eccf0451032db939c0093ace3187d493fc5),
  (0x8c0989f2ceb5c771a8415dff2b4c4199d8d9c8f9237d08084b05284f1e4df706, 0xfb4dbd044f432034ffd2172cb9dc966c60de6bf5156511aa736ac5a35d72fa98),
  (0xf4b93f224c8089eab9f95dcd0f29b2c9028a6ac5de94d85784e27e36a95c8356, 0xa67a92ec062962dfb0e5f6a7a40eee90c37ef1344915609abd5861b9be001fd3),
  (0x4d000b621adb87e1c53261af9db2e179141ecae0b331a1870aa4040aee752b08, 0x6a0d5b8f18e0d255cb6d825582d972cccb7df5f119c7293a3e72851f48302cea),
  (0x4dbacd365fa1ef587c0c0cfaaf00d8718bbd9f35ccea5a835ee3cc821fe741c9, 0x16c3540e8a51892e7fdcfd59e838299d0cc384a09fc0535f60be10f8338eb623),
  (0x1a575af9d4146753cf991196316995d2a6ee7aaad0f85ad57cd0f1f38a47ca9, 0x3038f1cb8ab20dc3cc55fc52e1bb8698bdb93c5d9f4d7ea667c5df2e77ebcdb7),
  (0x33b35baa195e729dc350f319996950df3bc15b8d3d0389e777d2808bf13f0351, 0xa58a0185640abf87f9464036248d52bcaa6560efbc889b702bc503cccb8d7418),
  (0xf6f622083daf54800456be134d5f67d147c82642befc1ce2dc83a27078f2827c, 0x1bcd4e817de73a0faf2c5715b367cee7e657ca7448321bf6d15b20b520aaa102),
  (0xae86eeea252b411c1cdc36c284482939da1745e5a7e4da175c9d22744b7fd72d, 0x19e993c9707302f962ab0ace589ff0e98d9211551472f7282334cb7a4eee38bc),
  (0x8d26200250cebdae120ef31b04c80cd50d4cddc8eadbcf29fc696d32c0ade462, 0xebed3bb4715bf437d31f6f2dc3ee36ba1d4afb4e72678b3ad8e0a8b90f26470c),
  (0x534ccf6b740f9ec036c1861215c8a61f3b89ea46df2e6d96998b90bc1f17fc25, 0xd5715cb09c8b2ddb462ae3dd32d543550ae3d277bfdd28ddd71c7f6ecfe86e76),
  (0x26952c7f372e59360d5ce4c66291f0b6ef16c1331e825e51396eb0457e8b000a, 0xf513ea4c5800a68862bc893d2d688422debe398f653d67318c3d401f05ef705a),
  (0x85d8da4748ad1a73dec8409be84f1a1316e65c5196aad27e0766746f3d477c2d, 0x58948b53665c6690586b536531efc7bc94b0a02033c4d5a62079816fc7d1dd70),
  (0xa5e00da467fd5494f40b6cf7d2d61b3ec3ab217c792a2ddb8c63c8c79e3d34ef, 0x98fe5f5e5608555421726fe99bf43d25b60dcfe790900acb855c5ce2f7adb4c),
  (0xeac134ca2046b8f9c8dbd304fad3f3c045ebfdb4ec6ed3cfe09aee43ed2ff3e, 0x49630dbe79359b4245bf103bf2b11799ac19f696b7f21376e17206207d210988),
  (0x1c5e548132b49a7f66ae9fed8323480e0d1ab974622e7cf08993895e0ec87fac, 0x4ffcf60f837f468f2bb959fa1d4c2ad3a3deaceb26fe324c555d7b3d5fc2d4ef),
  (0x899017b02696888f268a269f4e385d9c9b11f25a1bef8790e2821e6e7c6e1b4d, 0x43ae2cdab5b334f0bb45798336358bfae4e51bc0f932b212009aebdad814ab2b),
  (0xed9441c8304280ff180e03d850e8cd0ebb570ee5de3730488fd97c961f9756e4, 0x3dbe9e9efe8bfa19afa176128b13911e09f23774fe4de98bff0e09f93f3abfae),
  (0x708a530e9e52c73bee87c9d88161c810005d57622c29ae691cf999a83a1187a5, 0x9b884811e1f9a897fa9656dcbb6d38283ecda73c6d353e8a58a4f19b473db9c0),
  (0x5578845ecd7c037435b32a6992e7aa94647197ea49b8c9e4ddaab0784662ab1b, 0xe61d07978b6de2c3cea6d0a51d2a4053f653a7746a5d64de316d18f3056f3511),
  (0xfd136eef8971044e8a3a43622003a26703ecaf7a0ec40c3fba5b594b77078424, 0x218da834f3c652cc67a1d191b5c5efa57cf2b1f78a2adfa8cd61eeefc671ddf1),
  (0x6d36d105ed8cc5ce53f2cb698ab620f9469a3e5cb25bf6e6d413f414c5af726a, 0xe4ba5c34e377669e72d8c66c95c50029dcc59936b4108a35c570491a13f9fc7d),
  (0x440ca1f08ea41265981ac4ed1efe7a37122dcc3877d2f9162db0e78b0f83cd58, 0xa6c8b0d2cd5ee122af8954dc9d4e2f02a21e4d4269c0a260b07bc069b88a3f4b),
  (0x27e1e59cff79f049f3e8d2419e0bff74b43965004c34b5d811420316f24ba5ae, 0x310b26a6c804e209ee1b5e3cfc79df05df48a1a69afa63f784a5bfee883a45b3),
  (0x7e2cd40ef8c94077f44b1d1548425e3d7e125be646707bad2818b0eda7dc0151, 0x905b75082adcfab382a61a8b321ef95d889bee40aeee082c9a3bc53920721ec7),
  (0x4d49aefd784e8158fcafebe77fd9af59d89858ade7627eaee6847df84cf27076, 0xcd32fc59a10dd135e723f210359ca6f06e0f2d1a7df4d8466b90b66203aa781e),
  (0x4b30cbb7686773e01ec64110abdb362f88531a825ba172953bfee2233bcdaf2f, 0x74c6350265bb629b6f9e2c5777c3c4a91fdf3c81e434857568033d463d26b5b7),
  (0x24cfc0176da2b46fa8bb5bf9636be1effd7e297f29122fb3e84c9ab0c18ada5f, 0xebff8fbb079c61a69868714d5deda927ed959ca1a4f814f268fa6139978a586b),
  (0xf5cafaba036bf8d00d38bfb6772089f5203c35e4d6e32fa9d97e5b917b4ae861, 0x19e83b8a022a6d817bff9904640839159b3b2a9c552f05f3cc9c239c0d82239c),
  (0xe5d8e8f0d9823c88e4d36f7301f41593b6890576be79c211253ef375033eb51f, 0x4dc1e9b7861e3e04abb16a57d8feeef0e509dc46d9f0f54979d5bd965a62a2d9),
  (0xf16a409c677a40be402f8efb3752373caced053c6f702b828bda222ca412b6fd, 0x2a41311714532799d7a6a75a74e30e4e16540659249ebca4268dae77eca052da),
  (0x32c9331ea26f490228d32681880d7203f72b3e4a8de0db1fa8f38381b2919749, 0xd7cd272b34209cb5695a2f02b6f3dbb8268a4abdae39ab09631e97b0f290b5e3),
  (0xed32cad8d2cc998cd25317d4e4b87088e9de4554e57a8d70c0c6b0fc1da49e04, 0x129fef5f1d030204a541ca375859d20b52da9facb49fab7db63120d17c1db9e0),
  (0x2e3c05326255d80f0a42fc69d5c92aa40cd326a53e8535f0435efb7b694a09ec, 0x1ff891656c6fb5bddae240b82fc1abe048a53c707b66512534868188c7327e),
  (0x6773fd677c52e0640394110a46dc85df7c133f8dd4a28e661899ca5d82fd545c, 0x444eb6d8cd97652f0f0f25c9dd2b246bead780f5a1c6cf98e8c7f034947eb1ae),
  (0x9e5dcc62ef3b5a3b546520867be71bae6f3ba063c9acfb8dcec5725bda704896, 0x6fedd12ddb925f3ea5fd3a2154c7612279605d186030f51248f2769dca82c835),
  (0xe7b9796b5ca006d1632f482d7f0fe3932cf16a5ae104eea7a7ea1c251073e879, 0x12b8988c19169e2fdf42102a737cc1ca9cb5bf25eda98af338e71089baa89d98),
  (0x4f89bdee3771d350dad163b04cb18ad67ce5e9c55b58f0e7231047a60f59dd9e, 0xca7952d5227a1f695c4baf4c043bb2471e4882506638df5c1016ae320156b049),
  (0x6b790f4b19a4c4f4f607a6cfcd11df0468b482e009711ff756356d141d5fcade, 0xd03a981b2ff9eb3ef296661f9cae09cba83fa5b47be26b0ab6fff86fc338d3ff),
  (0x2982dbbc5f366c9f78e29ebbecb1bb223deb5c4ee638b4583bd3a9af3149f8ef, 0xa61b5be9af66220ab9fa5339c7b5bc9d095db99412e3ed8456e726b016c7a248),
  (0xb77f12a7dce56b973e2d7c8d576e6b3660470a9218b87461ef6e44b70cb1815d, 0x4b6f85b14f86acc43f0cefb373cc2e654c42f0f91a44816d6ba3d2bc8e57dbc5),
  (0x3adb9db3beb997eec2623ea5002279ea9e337b5c705f3db453dbc1cc1fc9b0a8, 0x374e2d6daee74e713c774de07c095ff6aad9c8f9870266cc61ae7975f05bbdda),
  (0xfd6451fb84cfb18d3ef0acf856c4ef4d0553c562f7ae4d2a303f2ea33e8f62bb, 0xe745ceb2b1871578b6fe7a5c1bc344ccfa2ab492d200e83fd0ad9086132c0911),
  (0x5be7ea3519f04bc6cbeeaa0344fc90bb8e8462f6ebd890560dae805d414ff9e4, 0x32f32ec3f638e605477f890f655ab7fe0e99c6302119a3094030b07847e0bdbb),
  (0x574ef0ce8a597e24e5670b5c0bcd14cfeefc983c7ecb261911b2365579de5cac, 0x9b99930281f19c73bd6ada0569b78451a260a7bef10008cae59aea6c75a4805),
  (0x63964eee619074e0780140fe02e90836e72328d2448386d459c5be23187f5048, 0x3b6cfb3a6b89cf41a39ff9b1c34bfbc93d580b934dde6c84383a284d89309df8),
  (0x9c7be00b4ef4c444df85d5f61dc1283a23605483e1f8e934b3c210d22cd3c369, 0x9220c0de74b20d2052a26d455ce401483e31153a16769cbd29ee3feba2329515),
  (0xcac6f2e7e27faecbcb876f805ea66e63efbe9eaa753d67c1c15eb9ea7f7653a1, 0xf7d416e5e2aa6f194cdb65d9a42a345081e83ae5688103a068c10ad0fec5e556),
  (0x20e6e2e796946bb630c7071ef1b92ea3d53d280e0e4501115f5da36f840dd273, 0xd3ad7afe4f1559e44a0ba1ad97874655811ec9793da8693cc07cfd15bb46b593),
  (0xcbee1405ff0da7deafe32ca7dd73d95ed702226b391747c707275a940bc8f53b, 0xf6211f4f4e75f902b51f3e689b8294cf0d9ff4f68126f7282922e6b278c87f45),
  (0xbaf183a76100525e23bc7202033725f922b9cd6b36c413497c6c4bacca72da5f, 0xdeac9fbe9ccb4d335688bd58dd69b1d18e2336c5ca739361377ce628a8f2a0cf),
  (0xb866d6b142df940f2cf28b54c92f0c1294e0b6a22a91f2ef44bcd88c4384480d, 0x1914b0b3426aeb7089a278d7ea9ad7ac24e522804b1d86d60e659b470c4cafa8),
  (0x9629a450bd383a8b9fd43c6cd1d492bf392ed605299561dde54433526ce9f114, 0xbf439b280c5fb6d7576befd220cef64db925593e5c56af8dca3972c4a24aa391),
  (0xeb3cf8f532245362ec05c88c85fe12d19182be7dceabe577c75849c6065084ae, 0xc833c78222d9d70043fe63dcefdca4a1f52b45c5e7dbd2a66f67c1fff96b9480),
  (0xda433d5e11ceccc0abc5c7626ce7bab42e89b221f785c409282de545f3fceb19, 0xe498dbd321a810301debbdc4af95e5218e77fc2d9227b277684e7120a6f5cc64),
  (0xab1ac1872a38a2f196bed5a6047f0da2c8130fe8de49fc4d5dfb201f7611d8e2, 0x13f4a37a324d17a1e9aa5f39db6a42b6f7ef93d33e1e545f01a581f3c429d15b),
  (0xc25f637176220cd9f3a66df315559d8263cf2a23a4ab5ab9a293131da190b632, 0x53154fede94d2873989049903809d7980a9f04ff9e027a1d6eebf3d6fc9590cf)]

/-- Digits of the group order to the base 16, lowest first: (negative?, j) stands for ±(2j+1). -/
def digits : List (Bool × Nat) := [
  (true, 7), (false, 2), (true, 7), (true, 5), (false, 3), (true, 6), (false, 0), (true, 1), (true, 1), (true, 3), (false, 7), (true, 5), (false, 1), (false, 6), (false, 7), (false, 5), (false, 5), (true, 6), (true, 7), (true, 2), (true, 3), (false, 2), (true, 0), (true, 2), (true, 4), (true, 0), (false, 6), (true, 1), (true, 0), (true, 2), (false, 5), (true, 2), (false, 7), (false, 7), (false, 7), (false, 7), (false, 7), (false, 7), (false, 7), (false, 7), (false, 7), (false, 7), (false, 7), (false, 7), (false, 7), (false, 7), (false, 7), (false, 7), (false, 7), (false, 7), (false, 7), (false, 7), (false, 7), (false, 7), (false, 7), (false, 7), (false, 7), (false, 7), (false, 7), (false, 7), (false, 7), (false, 7), (false, 7), (false, 7)]

/-- Partial sums. -/
def sums : List (Nat × Nat) := [
  (0x186b483d056a033826ae73d88f732985c4ccb1f32ba35f4b4cc47fdcf04aa6eb, 0x3b952d32c67cf77e2e17446e204180ab21fb8090895138b4a4a797f86e80888b),
  (0x569cb44c9b7900aa576ba0bf61c4455afb09ff4bc30242d7fba993fdbb37425f, 0x2021472d00e51c2be18709b9538225c23eece217f1da992f2ccbfd8cf33cab7e),
  (0x66697421b3d71e5251534ce02207ef68f2bb0ce81c4e2eb75fab18ed11531b19, 0xf6cad8b3caac22cbeba3934a183ecf1f1c2da03f299d6cde7840305e57dea90f),
  (0xc8db06b4203881c24280af548d7212427fcfb4d3ff2647b4d2d423b8135dd420, 0x4037b81be21acf19ab141c952570f1985653340fb451f11e1ae36cb5186d2c43),
  (0x4398a9fad1ee8619290bc61c46c7448a6331cee78f18f1eb5dce2a3eff397b68, 0xba9c5b4f812c68bd8eae301d487c2446c98153ef3e64fdd0f43afcafd6dce55b),
  (0xe86665a9762155cebe1129f2b56baa79c39c94851cacdd7510966cb07267a39b, 0xe6b18635fe40a71483a2844370555ebf01f972830d8880551c3ac649502e5dde),
  (0xda4e95adf16f0e8fd141d21013af123e7e1b5c6c5808add2c2e0e8826a871af0, 0x7f022cf90aeec778fdb7667b58771d1e571d65594622d27a3f450d15b51ec66a),
  (0x3ddd848b25422c73740fd47b688a494b4adf1bab39efc081e48b6a1739de3561, 0x15ceff6f097d3ae1f0b4abd17ccb41deff6fe02e67bd019c0a8707cb9779bfaf),
  (0x7ac5690e16f63b30eb0d34a6c61a333571387e78718c71befb92a452847222ad, 0x94f3d499fe2cb0371860c0de4c064f3a481bc59e067ad9b5f46f1a8d3df68b35),
  (0xb48748b4910f7493f7df5c91c81099695c1c557dca159b3cfa497256ec09e4cb, 0xce32fcd2e3a4fa873799a7ad1f9a2d42f2916977c0d5db3fe10db1e636eb1670),
  (0x3a7f5a222f30987c98c2cd3b0f5425d8eda26877f8d4a2761155830eb5a7b187, 0xeb2a26d16c22af7e35f1636cbef176a1595a543d34a9c53002969722c2f3e761),
  (0xdb4debedbb9468943822660643f229864d4d415da851d48fbfb65601eb0648d3, 0x8e67133a0b8e549b5fcbb222baf5ea310138e31bc0ee09549b3a123dc44dddf9),
  (0x7e6e0cd74b2fb86ac20274c8eaf9c7f9ab3241085e2be17ee70636a8d83248f0, 0x860b6eacda868eb88e08766f4ee302e71099fc45770641dceca1876dbaa711d0),
  (0x51e30660b0713bdb461f3977a8f778a2b3014c7d2b44b5615ef06b9bc32cf68c, 0x2e9935e9c1143b53e07b87f36d5153ebdd09d43ded0bfd3834e3877ab4fa87d2),
  (0x84f4101008af280dacc03df64cc1481b28cfa1a90dd79b0b14f8aa8a5ae6bf42, 0x50d4edeaeda984377dce6d3d859f43494620f783733e7e7a5f633818fe72d406),
  (0xecd7e0001a8c64ac630abdf2237791d22f6c8b480421757a062cb5c973a1b16, 0x66c5bf0f2d47a3416fc2c5683503dcb99bacb90481400f4e3715909edd32ed55),
  (0x5191bcbfb01282f6832b00011afe83ae0cc7d3dd1cb8762fd5c03af772a6c543, 0x69f816b4275ba02ddce7287933f5fc153e3079d8c8970f3fe9c7a4f6b045c5f3),
  (0x8c074c803b98bd4fdc254f3fe4a94b4ecc47153a5e9be8f5d945cf864869c258, 0xca56b20338880bf16c998c8bbae914c6ad2e311cc77d85630921adbeb6392e61),
  (0x5539473917b45d7983d56c66b4f5db8f8da79d515c9d2e57b29fd5c061d1826f, 0xebba553b8ac9a26926242470f3dd5e38137eb757f9e094bcd73feb69d296885b),
  (0xb5a6eae778419f4b8fb2c49bc465937d04d811d26615ddc1a4984ffc1de78db0, 0x6be7a06b35b189d95b85ab3524c46c27a54ac98c02a9aee47125c8d5fe1230ca),
  (0x5697fb65327a39d695f45850620a2de21ab27293d7ea8ea5898497cb331299b8, 0x42fc4aaa5a4355e0b98c9d8932ff70b43545f3719c9553d0457e3b0c84c109b9),
  (0x85fb62c5afd1c4bf9d25d4b96d47422798f7cd92d0be7d29faf069c5b92b73a9, 0xf30e1310c82f69ecad5e6e9b662e13f56aa8e1d26327e3e35faca7620905ded6),
  (0x6d29c82f189bb5f2dd33cb20e6ed7a53daf5f3629d0910acf7d88f32185417d0, 0xbd08d3757efdf1d2606d76dc7cb3605d5d8b75f1848d9b7f789a942a4ec79f73),
  (0x2e023f3352354e9307dba954a494e59490f878207e44d360caf7f43ab14150c5, 0x1a2b4236a7afaa54e76e1103973c653ba5714bb70e2295d2931faa7cb3963053),
  (0xe73dcd9449823ca72f0327de75505994adf71de4f3d63d07f158fcd76a1ce145, 0x7a886ee5f2da8cc37caa497fa92ceaa683295b9c68ff5bef112d528f2f633438),
  (0xf526be64e59e448494bfc16c842cc08b0238ecd47aea81b5fb2a175d893fabb1, 0x6bdfd728a83a5c4771428c94621bc1b6d859b285679fe0444a150505ad56f767),
  (0x853c61bc7c98a0546c2eb5ae5ee72a6cdd460dd25bef08690221fb66b6d5f487, 0xec91639270c1949811db69dae3952c2492f1b21ceb3c7f2df04e204c877bf8f6),
  (0xe0acbdaa856e2bb6748617420d4d2c423e4a54dda4bd9e075f05c47bff4b0b49, 0x8b871f17004cb6c7997680293692d31f74863e12db70029485b808b5ff6a46e4),
  (0x2d7268dbc9e8b611bc99e57e40958ba5b7b2236294077d7f2db8166c43f6594, 0xa41dfd9533968202289c34955b27b2ff409547ebaa2e39c335773b02145411a4),
  (0x5cf69822879b757e8677abc701d4721add75263406e0cac1771f3c4dadc17289, 0xa26ca7646f6a68827603ea84eb55d71fdc36400c27cfe55bfdaf16bdd31eb145),
  (0xf50cb15a62672f2e7e0ac8a9a896e1a2d52edca00b0c464f22917c18f52a81a7, 0x9b1496a9fd0939ff934bf6841dedd053c68ceb40abbfcd17a4eea632694ac919),
  (0x5b4aa9f5464f360f3e1f82d356075f1e6f13639afb6c3cd107b2c78acdb45790, 0x96a94f25d2e61fe7dddf0f638bd310cef2f7a8880f4b9341c1ff7e7063b59aa1),
  (0xb8ead36b106b1e77e66dc732b036fa1ea301edbf80271686f888feaebfaa9b57, 0xf147e75153f23c951f2bc0d45623fd051a70b2c1fd6d1aca1450236058e325e3),
  (0x5bd340c1ff3e1a5c15bc5ce17f7507f51c9f8a9a281a2284d34f48ad466f42bc, 0x75e3e9b0b909197e9f41ff5d2249204f0e84218740df7bef889c76e8584c94b4),
  (0x31dba3753460f46a6fef89624ae8f73c7a9eccb0d20d01e8731352d4ea706847, 0x314d948335b147d69107c0c23662daec17c05344f72fd4f180010420bb240e4e),
  (0x910e91ba5bccc2381081ff9a0c40ead75532d4d7751335a181ff52898af867db, 0x61010d74bc22bfada38824f57c1584454906365c75c534c63f2dfd4d4bfe6aa7),
  (0x53d267f2627fd7140d3577e26dd3a6559c50e09ac896129ab5965751ff12f77d, 0x9187c16ee14c268a58922f6dc095e3d365ce47180cfbd0081794722532d2edd8),
  (0x2e91e45606b00aa02490d59b2796c9b946208b3b322c03b29a4944d327760a3d, 0x23088e5093b47529f778a472f830e21ca3c8afeb3cc9824fb15d781584e9fceb),
  (0xb68edff82e574c531ec225c9797eac7b488626d8f7e80aed195ab8e908c4bc13, 0x56e2762a6a46c0449a256a7371e41511f57428edbb3938a2a126dac5bfa0779f),
  (0xfdb1b13c5662392b8cd3c2a92e925efbb13575e1e7f3f53ee736237ee8bc3398, 0x9e5c22a71cef3dd555288e57742201b8103e596444d8aeea46b10311cb46150),
  (0xcfa0a0ea5ee9ff6f8bc2913f88a5074070a379dba0b82f312bba64f2e5ef9317, 0x423f6a8db4a3b6f248b3e8f4f0e9fd56b9a4bdd779f1020c375d1dc6cb4cc1d6),
  (0x420bf137853b852b48e75f30fbc1b0e2a55358e05e5034453e5bfba2a768f494, 0x855887f7bf03ab1432452924fd1d1395e18cd62fb48cb6181118219d6d0aec7d),
  (0x32291d0c71362f6c129ac4d7292d2f63aa29f47a37c1384adf10c250840c64a9, 0x383a2f6c238881628e8ddab189742028c1687c491cd9debe0833ad07348c4722),
  (0x8c5bf317323d51a449292c726850616174b36d2f511a03ac061b6caefac62518, 0x967d8a9e15eaefe18f36e2916e9648a9b3054ddabb71a7c940fa7cd4f22f4c04),
  (0xfe39f9931f8580d74b06c98335cb270dcf72c1dd3ba2cb3564b2784719c5b061, 0x108a4dd147bef22f566109c48c6bc524aa13105d89992a5574e74ae19026b1df),
  (0x695448202f6547af91e66f3b38ea6244f9004d9d0aa593256514d5b7ea5c9909, 0xa87bb1736eeeb7ba28861350134ddeda4e00f85a742619d0393f2de7273e16a9),
  (0x2af86b8393e2013275e18347ec0eb4ee2df1df65dbb38a4e3d53f9dfd774c728, 0x378b41649a44d205e05db8f3f6138e71d86ccaadaf237453c26803ffe69e5cce),
  (0x70f7b8afc6aa2061bc6c93b2fc8c2aee471147834b69299d466009350de6ef45, 0x5a41e01bd28e629828cdaf5cc0736a7682a019d0edbfaa003488db5794ef0c81),
  (0x5cc676c101e027304169988905c307735015ed4e285bc0f3dc4e224dbf3a6a34, 0x7ed242650431c312011cab78076a3d231f65c11f34ee2f34c60d0df532eebce2),
  (0x6bba7755ac517a5621a4b588f59a6f00ecba19e4c5cd6de24b789934e466423b, 0x5222f8d9e1b7cbbb7b14cac6745c724f9df3b7d0260d55047d3ab9eb737ed0de),
  (0xf31bcde4637139b023f16fff60426598992ce559186d5fb458b5c09f50b577ca, 0xd0edc594ca974127b26bb4315f1fe6ce8b19bfc2017fbb0d67d50adbce5de279),
  (0xcf2e5e74f9ae703c0d86f152152f0b45dcbac3c1c145b85fd32d41c864b3395f, 0x93ebf4bbdd466b982c1bc4d491308e1a2e0d30235dabbeb92132ca6e4432c499),
  (0xd2d7e1bf8cc7e561a378cf06e4923f0eb943e02507ab40e05bf4cc87b8165dae, 0xea5ba67cb5c1fb5df8baab75d7f0296c7130a7af5bd08e58d1f300657b2d1b91),
  (0xdde1482e6bf525705d354681c5fb35c8aedf589d208d8743da017a64f2e73e01, 0x354f57edcab4a927e3482376eb3c6c41f0c31e49cc95e44dbdcec581d1a7bcf4),
  (0xad14da0ccc16eae596feef4f1f7273c28233b4263f9cfa8ee02320be367a29a3, 0x990275088fe257e68aadf546d348aa082784c614386a6a8da68d79a4e9cc93c9),
  (0x74b45d8e512382f2dfec78657473fbe8cfe97f9d22d1ab275196058fa3633772, 0x81c556164f23fc09b8cb1d354a35c0cba90e464bcbe3c6f8e783e01ec915bb26),
  (0xe35804f377aa78e768a70c6dbd3cd493b352bc5d870a5a803772c31fda578787, 0x433b1721278fed4c5d74ca83c9e1ebc0869e79d8f3e3be60f84e9ee30f9df057),
  (0x435819533a9bc56a88bb838e480d84af2aebd3e9956c141fbd1262e61897b8f7, 0x246aa5af676323eaefeeea2a4970832095244990998c46e53d67936c6352e93),
  (0x2642bc23054af85f666960a14be42d4df6cdd768f106b25cae172b73190bde3, 0x62ee4061b6111d7f1ae95b2872892ce863468d0797715e402e66a08439c9b556),
  (0x1f26aef7af0fc09b7af66780746ec9fc1dbcae9d3e50f516d3d3d27a0254da71, 0xc23047264ebc7cebf78a19b6dc72860546d6a0267c97f389e3d82c6868bb7315),
  (0x85c9bd8ad859cdb136a95fc386b552fb9fce855d6cdddad6aa62f800390e1b15, 0x31db9b715276022a7067aa3f821932111ba120b821f47047c0a3e162a659336b),
  (0x3bc6bc6446bf520136358eb0958dc4aa9e733164dd2d62e151f946107427bacc, 0x71cfa33f8e893cfa3249d11dd9293fd428e48a5add7414b8eb3cc0291528fe89)]

end UB.CurveData
