import Verif.Lemmas.CurveVector

/-
The multiple of the base point that belongs to the nonce of one Schnorr signature (secret 1, a message of 32 zero bytes); used in the
examples beside the theorems about Schnorr signatures.
-/

namespace UB
open Spec

def schnorrSteps : List MulStep := [
  ((0xc6047f9441ed7d6d3045406e95c07cd85c778e4b8cef3ca7abac09b95c709ee5, 0x1ae168fea63dc339a3c58419466ceaeef7f632653266d0e1236431a950cfe52a), some (0xf9308a019258c31049344f85f89d5229b531c845836f99b08601f113bce036f9, 0x388f7b0f632de8140fe337e62a37f3566500a99934c2231b6cb9fd7584b8e672)),
  ((0xfff97bd5755eeea420453a14355235d382f6472f8568a18b2f057a1460297556, 0xae12777aacfbb620f3be96017f45c560de80f0f6518fe4a03c870c36b075f297), none),
  ((0xd01115d548e7561b15c38f004d734633687cf4419620095bc5b0f47070afe85a, 0xa9f34ffdc815e0d7a8b64537e17bd81579238c5dd9a86d526b051b13f4062327), some (0xf28773c2d975288bc7d1d205c3748651b075fbc6610e58cddeeddf8f19405aa8, 0xab0902e8d880a89758212eb65cdaf473a1a06da521fa91f29b5cb52db03ed81)),
  ((0x6687cdb5b650d558f40cbdefc8e40997c03fe1b2abb840885e5cad81710c4c8a, 0x3fd502b3111178b11a1fa873825c72000ef8e529f033f272b32e83b25c83ad64), some (0xdaed4f2be3a8bf278e70132fb0beb7522f570e144bf615c07e996d443dee8729, 0xa69dce4a7d6c98e8d4a1aca87ef8d7003f83c230f3afa726ab40e52290be1c55)),
  ((0x4fdcb8fa639cee441c8331fd47a2e5ff3447be24500ca7a5249971067c1d506b, 0x25a5208b674bfd4cae4d91eb555010aa422cc82409d5079690f3743d00fdaefb), none),
  ((0x7e660beda020e9cc20391cef85374576853b0f22b8925d5d81c5845bb834c21e, 0x2d114a5edb320cc9806527d1daf1bbb96a8fedc6f9e8ead421eaef2c7208e409), none),
  ((0x54bebc996f6c2b7c52ac321ea930afa666c2f828ca99facc577e0ffa43b4f3bc, 0x15276d9145b9bcaf2bebede498e028d8041eae9f117b3e342a3619ad0de244e9), some (0x8438447566d4d7bedadc299496ab357426009a35f235cb141be0d99cd10ae3a8, 0xc4e1020916980a4da5d01ac5e6ad330734ef0d7906631c4f2390426b2edd791f)),
  ((0x32a2371e19493415af2eaee0d2c8108de38747872eb0f194854de34ac5146e2c, 0xd1716223ad8aaa0b9a6f2f56b25e17a34f8c1cf61c9551733dbddaa4c159da2), none),
  ((0x47f1e0566d559a729f1601ac67988f2ac34c40c169d4e4342b8f4fea240f6bd7, 0xaa92cfbf560f55d1afe5590aed5d06741f7c14ca5ad2b7e4173d906fcb540970), none),
  ((0x14aecb3f363403f7467fda62700a57210d51da7e69d5bd21792e32bbd90735e4, 0xe9d6a164fefaad8b4a8fabb5f2dac0dacc42f96b197c582e9085a123c8c0ed7a), some (0xdb968ac81d2e7c536c66fac9e194fb23540e2e8908cbd3af68e158ff2b34752e, 0x4d5c57ab79d9972bac6b4af0a634727104179e8efd14c769a24e5a73aab48a0a)),
  ((0xc5c10a8f1931148eb0dd24a3f0f1e479d114dd179aa8007afe2f3cfd289c17df, 0xc9c1efdc622eb9c95315e14ce849dc6b50935f84a655962fdf656b0a1240895), none),
  ((0x38db0204f61fb50b91e6aaa4c75778019def32c5a2ec2bf23fb4289d58b3e9df, 0x98427ab4ec6cadaa10c0da0cae889780722769a507428d9a719118b083d9efb8), none),
  ((0x702c48b031bf0e22339bc22863b43ce096d91e23ec07ede11b6051d046a670f7, 0x1a6eddbf09cfbaa09fc82194247f6e7ac2b591327981a7e6a36dfeb80a77403d), none),
  ((0xf00a11427909ef4ff9471223c35740f3214d725c625c829317da7fd243136202, 0x3dcfab9b8006367353182afbe0dd7d01d373f74fd82fa5dca9f394a7fc370687), some (0x3cdf7633e9d20157681022d2894d95a868d57bfa443fd08773f29111324f0fe3, 0x17ba3dba8c203de09774496b8f5316ad6f2d08a892f5b4c6e823ce625e3d3677)),
  ((0x8c7932d16389abcb430f011c47736d3e8fef06cb962ce3ef9f14bd1459b7229f, 0x685e76be4006fa6ab55e3c7e9aa8f51f68fe964ee1bf4dbf6a3aa8d8485d20c0), none),
  ((0x5a8ffa37bd61e2ee30dc6f0c3141118ff7b0b50de775b093d59e3e9fd020641, 0x823337081cb9b47f67d780f04a1f58eeb271dadd62139dd2a54f80615bef3677), none),
  ((0x13ebdc5b26c64d84c9382de86e8677fb1b1b586d6f44630fc7b2c6ed76fdfe97, 0xd49ae1cf4039ad55586a35b80446bfe7ca23d73a4d4b815ce42ee1fd43adcd04), none),
  ((0xcb86dc1f67417050400dbef46f9ee1c6a1a852869890d998c6cd57b51f8ed6f6, 0xf1a395f9d69280cbc5836af9fb3ce23ff8d6caffb049e2290560af9255abf6ea), some (0xe3dc1feb66f3ab1e34030abed545ebed5794ff5c5747418bbb2117dd7ae1b414, 0x86a4cb5648718309b6ddad2571cd61168befed08a560086d01dbec2c1d9ac0ea)),
  ((0xbe897a8e56c128b12a81e48bc8c0298541250a956296d2b50a303a6129c8b718, 0xab7d228669cc76440a9a20d0cbd824b8ec3f1c8e49dea1c1fa9dbc7ca2a4ee72), some (0x9d15bbc6f46ade61cc9a4378c2c666f8e8d4b325689535965a808698f274590c, 0x9d1019c29ef2fd2f6ac1a2b3ab075bcb39951a91a1b136355c01f0b73a9f28c7)),
  ((0x2df996dd841566f0bf59cdafaa1599def76fca8905a7e9c8d021b9e1857b935f, 0xa8e515f7d1a584a8048c1ee73023b8fafa62b590cae297e8e717bac8f5fe759e), none),
  ((0x6e69225e1d828591aeb5536c8724e6efbe91823ae55833071474cb3d82a8bc97, 0x27cb399be335c624666615d0712fc55b158cfb88b89ae4aa36907209822b745b), none),
  ((0x76f0b5c4404fce7d9db04d59c3ccca37ebe966999223925b4fecad725696131a, 0xb7314aae201bff41f260a751a7c0347186f5b51152ea837ba7b6a980683bfcf7), none),
  ((0xb365e98dfb76c534421feb1f1599a4b042bf49d44ed2bab563c38a6823806311, 0x7306cfcb9c7366bc66661cc59e780b2687d72206e2b18e012b0074e537d5ab1f), some (0x25f4a70b1971e9ac40acf84132d67ba19db40ee5ecbb9a2ba0583d398cc6ec81, 0x1bad3e5ad86aff759b92f0cd3ca7f33eb95baece03807d5dc3785ee080507453)),
  ((0xb55607ce4cfc2c7c9b7b24e701a0546e816480559cff4a415d07cc681f3083f7, 0x79dc271eb99ce8dbd54d3f8578fdd3d6aa6af15f2ca8d151a4215bf78356b062), some (0xaa08dbf465c440c10ca27aa719abf44f780d1fe3eebc25c0e36cd7fb542fd2b0, 0xe512c7406b5104c2c81e609a4ed19bd2f147e3fdb3642276e92d3369c915759a)),
  ((0x69262d8afe9f621bdc40762a6f397a8d2251cdac6eebb1b3a29f2359fc4da208, 0x6cdb34147c05d6902fe256e048665ed7ab2bbd11aa2305c3f602f04f94e627e2), some (0x63b434ce5f291a07c5a50008410403e0a5027a75af2d92ddb5a58dc90835dde1, 0xb6380b5641ffe5483c8192c8a0bdd8fed3e649cedaa6a478cdedac9770f857b8)),
  ((0xbbcf7afb20a2d861be69ef085bc9443313bfa3edbba98a9336fc46af7dc770be, 0x6a5eb8ff3dc9bec05e74f93302aae8296d336c3a77fff1802af6be1304eee13f), some (0xb1ddada8346866145df51b49f610ac23680237c7711aadc9153ee4facb748c41, 0x4e303fe2f79417bb18dcb4e42d51629bf54251b8d1352bde121b9080912c52fd)),
  ((0xdb707887f74943957f4f4013642019014e93238715246a06ef8c38a6aa0aeadd, 0xcfde26013d86690a992eb2b8d1a0edc98df46972be812f9401ccca1f5fa08667), none),
  ((0xbe216102cadefc44b2f6051d065940e4529c5761dca34fc1108bd7cafe5c6bda, 0x15480201b2d3f9014780e1ebafce8ef0f7298f80f2f3163c98738d010247e955), none),
  ((0xbd55e3135a65b580d6b2b9e28d82041717429e2745c6368d623beaaa41e3bb2c, 0x74b423f4d79bffc136c4523bf63bcca2030ae625dd348013ac554078ed8b7311), none),
  ((0xa09d174b6f657a98e95d6211a1d6902b9b4bfd463b43ce3ee576ede5e914ecbe, 0x1c80b0d056c5f273ed09e81d0036730ab4c587c1626271081d112b79b7066c0d), some (0x290c4190c09d61309d59618536c13d4e7d293a87cf028b10658fe31123409711, 0xc354e54f2d852db854fd739df0bd640ccf952d9cbd46c7cfc8d7eac03dbbcf8f)),
  ((0x903f78573f85482fbd0ca9e03faef789987377cbf49dab631f6ec838d0cccbb7, 0x435592dd962160d62f8fe8469b2ac32418612490f8d46ae0f9b35ebb1fb467bc), some (0x17088b3b901171ea887f98d428c6e392aa1273095274d4cf7aeee14528e949ca, 0xd9c5501ded51d106659d1262ee042879e579b16a550aa4b284abb633d79ba7e3)),
  ((0x9b675675b1470ba2134c3b4f0478bed1d888e979c3dfe1186396e48b3db1eb8c, 0xc05e56d95841554c6e9a332a567f8a20f93df8577bef62ce91122668ea503a59), some (0xf37171411e48ce9d7de041f6593798353c354b3fe3cb2b0283b9dedd34e2de4b, 0x27f20e2ffa646fe8f17a6a1a68de3add65ff2c0f367b3fb2d86102f180dc374b)),
  ((0x3aab2bd1424a2bb609ab3021cc4955210d9533fe63de09b820cdb040c096f854, 0x628f45ee03cec47725e1c8736dec5530d4dd6739811f305a0b024c6c120ad233), none),
  ((0x37cbf9a3852614e1c3f5bccc2ca06ba974e1453103482bee8bebc81028614f0d, 0xedbb52780f9edcc01813905ba8424e40b38e9c88aae54b8273a3e4a8ce7c1c23), none),
  ((0x9b0435e822d4e3aea13928354b4c73c19e28366b4e4603c00d0d71ecbb633da4, 0xf34ab64d5793273f0af1e740e57124891ad54b2b3e6669c839563c94d4e13cae), none),
  ((0x716533d0b2a0985bef0d583547ae2e570a1ebb96b7ce2a8a6e952833b548c555, 0xe40c19d2d1fde4ccfa4233feea09e22fc90dac8a7038b37220100d29364723ca), none),
  ((0x8b39fee7abd4e27b98d42ca945e21b4ed3e41bc5f1eae1d182589854b192a5f2, 0x32128dd0ea4400a95807dbeb4c2c0723a08fad41eec2b2ab1c3bc74508e4ee0b), some (0x830b0c30405f2907e20ddb4da26776495d2f1b7e2d026f5708cc773a72f665e2, 0xa10a39e5bce1b249c168511b387d33144ce98e30779a4ac5420204807436d5b2)),
  ((0xff3c9c37be5ec3c48446eac9b5e8bcf4e5e8e7fd096dbc172d6707ec9caf6934, 0x4c3b68b36a03f756577cf5e4ee265ae4f134a62c313d6f64509b3bb203673e60), none),
  ((0x954ebd0279042fd2c540cf5168b439c69407b6338cc91fa6b213c66a60891b38, 0xd160987b0f5d4ae86e258d74a86c342d17241513b34292a85ef2a8e53429de7d), none),
  ((0x582a16d48a4ec6d304ed4f2f186fff7ce8940cf3d6a0d7baeeb3425d7625a5e8, 0x88e7e3089cf68e96b09259002d40e066d6d9e0fd5c42d3f935184e11be818e5b), some (0x371a2a5f736c364814aa133f66f18cd58ca173156b71b0bb2dc8b4ff4e9f866c, 0x8a22a567d6140a520ca7e3ecc73eeb6aff2796f51d2d8127dde485be79c1700)),
  ((0xf5d11e36b3ce90e20bbc0b39d3a45b475bcfe13303ee2c09c87f6c3b4b2b4382, 0xb1fcfb78be4183baebb55bb40b9b08f6f33982a1a547b6ce49acba12d30d8a72), none),
  ((0xabb28d1920c8a9d570f8e06b3d6c8cac81bb4252a3bf296d98fbd9525b520084, 0xf4c1e17b5af7504764a605c6da05274a51e3b0648787b64c60776d5cd49565c7), none),
  ((0x941f3150280d4e35af948836c76e04a09930aba9e6deae314f7783f0a440c3fc, 0x502fd8aee22ff1650b94377f7281c4d44478c877b5d357b769301168b2841cc0), some (0x2311d68c9763ca8be61e1f802a13c099c941501537ed4a83ff0864851590bcd7, 0x6ceb7a4852f12e06139793ce34675f3e37bda2c7f0accfb9a1b48f6d8fadf858)),
  ((0xa7e09071b7254b5ea5eceda574302b79360704dd5e198fdfbe07df98fc30492c, 0xd235b205207fa71e650ca9d2497ea45d067fcd9945cfe447488e5d0a9c3f5fb0), none),
  ((0x18db245037b4ed6a1efaf73436468fc3cd61a86f40c5f5c6761556619ec58afa, 0xf3185cb98167b2767b2c694502226103408f231d515be07e7899c5bbc907c4ff), some (0xf9152f6607b48eb618ccc2a38d640c675525aae934ee6d9bfcf00b3fb70db628, 0x647c70d52a8ff443a3994480e9536c75f71cbbb02a3a9a4135bd73cee682ffed)),
  ((0xa6d50a6dfb220e75818ab4afca037631ee1395d7a2505dba2ea6105a60354c7d, 0x2f22d3806680bba726af87fa88d203a57ff37d1a5ba271461766b38ee2977269), some (0xf7de1fd4e1bc37c8cae1f712bc3efb659b87e607a329d5e3a458319083b4c63b, 0xbf41add45715c49df225bc24e05720f5dc8e61c31fbc629d02951fc564d3f1ec)),
  ((0x906b98212e407dfa10df6678899e8653cd93d3fb06cc93361dc3eaf173ba2eb5, 0x6a850de89ca4a0a5db966cb293599f403ec79d93dc1ca4026ed53c0335658076), some (0xf709ac52bb04ff6159d3f02f269968c5b0daec2adfed21fda9db152ccafff4e4, 0x9a1e3383f111ae6b8cc8b189744a865874470f5c9ab6dd6fa95e97f445221315)),
  ((0x868785d7a4ae13220349d813ed2829a58f40d5c5acbdeec0d0a34c6a34133b13, 0x42052af4ecea8c8b5497fb70ac707b6425532f49a54f57f6f64ac7972d0505e4), some (0x1a443ff5e0deaca092bb54f82007670346f82b951753f365010f9a002a9d5de9, 0x48756660213c3dda062f2dfa8278a20a07060dd2d04dad7bba484d4ea9d4404b)),
  ((0x55146358ce6d6cb2e1db4aa7553c1bdaa57eb9cddd08f3bcdcd9d80a04113e87, 0x4274d60b88ec012d611928f90eb23d09daf63cbf5b9ce5d7db350852b8c4da53), some (0xcc10080d6b7f2450c95f9677d75d4a87351187208fdee24a1ba4950478e9c64d, 0x7fdff72fe0f34fe73a4e0c56cfc5ff906abfd9d59b2f21f1d5b578ef54317841)),
  ((0xb1340aa5810eeecc653aa286c0aac5286bb44a98b171071c28da9077c37d9478, 0x4e90bdf7c66c8760f4626ec54c8e66306c193a3c7a798593045cba314cafc780), none),
  ((0x9da8a42a9fe7d4e4ead060f00ed744777b3dee66d4b288258fe445624ad4c320, 0xc7f2fffd21cd6ea3c22133427d3572ec4317185a051d2a3d199ff065bc417db5), some (0x1bdafcda8ec816dc36522ac634c78632ded69b159bf2fce6eb6d5281ba38ff89, 0xa1c1c76e53890b463bdeb08dbfaf1b1d1fa2785ae61e938cd0dcea23e93e72a9)),
  ((0x1e54f467915380a9bf65fc161160018b931cae504f2e962d99aa19e6b202a493, 0x9c7a05d21292c6b1fb6903781c7ba0a5b3b4d4d2db834dd72025fa523d05ca46), none),
  ((0xbe8c8110f2ba9e2ac137f2945044a27938b5e58da5c0a1458310d5a87fb48339, 0xff34b317109ff52f671e502e778a467db82a136adbcc4734a9869485746f8049), none),
  ((0xa47e32866c0e5fa74b85ff5384f752a4dac181cbc13e385a239afaad8497bb07, 0x5bfca9ae4c600bcd978f32b98ac058c819f0a54aa101628910b91c37c1f75885), none),
  ((0x57c623fd063b5afd54d96d93fc8363e1d62709e9413afeef2d191c223406d9c, 0x3434cea9ff2cae9c95416381446f6d719bd2876bae73ff125f2844f5b46ed47c), some (0x4306690e28618db1432924f506741709fc1e59bf5057a84556228ef346c48376, 0xb3f94d8299ea0ba6e5179b0cffccebf9d86649b9953af1cf84a057817d414024)),
  ((0x47dd6c40d78361069fb17cf62c47cb817ebbd9a266e6c54e972d149518782a70, 0xf92cddadccfd19bccc9976b68d22081be06f67065d4512c2c571684c02694d6a), none),
  ((0xb42b09d3e7f210fd50f8f1f4e6dc8796979d196ddc09fc12687cbdaf64dc468c, 0x9be2b7722ae98c94f8d4028e9248b871d57f65778676fffc5605453eae3cf2dd), none),
  ((0xc6bcda62527c204a262920d69ebb5446f9f0d8d1afefc3bea63777d069d5809a, 0x5ede5bd03fdb9b7ff7530c46cdaaa102ea6f88d8681bc59ad52b4d1b25b49fc0), some (0xbe3b426bfc6956607aa8a20a740f511706dd3217c0fecd351406482fb80b500d, 0xbb8dee232c2fb262227ec8247467529e263f143baf94e5b43ee6ef367035a4d4)),
  ((0x43005e3d5391ff8f555785ca449656484a90ae571a28e17cd0519d994ce1d7ca, 0xb9fbcba5f720d17744036b4d5c4cf7bf9ff47cb3ab76c93073a89fef603af6f6), some (0xbcfc78a9568ecc668decc685095402cae4842dedcc39e85fa1a5e065e14d9e51, 0xe110051be426a56b411a5813da3c7d48426fc24845cee1f785482b501cc4b8a8)),
  ((0x535a526487e69e00f4a981262b0b7298928e00a179b46ba8b51dab3f6d5736d8, 0xb5c67018ea247ff3bcac36ec55a3ff19bb39f7b9fde5a5e3ee3f31c1786e10af), none),
  ((0xec88a67a61e19ffee138ce9edece1285d483a90803b56e2373c71debeef1bc82, 0x4da09fa31aecf00cd6c14e246624a0b67d02d3da06433d1f69a09acbb627eb17), some (0xc14607f2582995e31596e166c17009d6b6255b0f513303a189637d590995c988, 0x12f0f17acd8473fbdc7a05d840652242def8e6b0401a28b2bc31e7b124d79a46)),
  ((0xf1aee58067bdb2a89f53926e37f402fa2721edd2d02bc25dc184b884ae882a2, 0x407f1a6737ab9473bfbf6f66c533353567148e6467e3fe932a4e3227cd72c1cf), none),
  ((0xc7e6b7a4dd4e438d06259da8d89c0133772b024a4b35ec8f043b96d15912b029, 0x7def7aa731fa357cd9be1481452d309bf8a710ab9a29de613a2024de50670d44), none),
  ((0x154a419bd1041c8621d51a779157a8fca505eb4bfe31921289e2bf744c172382, 0xfa390229190016ec9633fc73e5b0808a4315b5e9eb13194312669bda3db93bb8), none),
  ((0x555e17d3aaeb9e90f71756ac75d1462a45286da839885b0e39d7de4569b962cf, 0x17a86d44f98a140d51be058782ec76a83495424e724ad9aee262799268fe1999), some (0xe40999697224aa07f9a59e25e775569196c23d9aa2283db50db67043ba60973e, 0xeff25b5620f010047a471c0335d3a314fa7647d13e8ee156ba27c37b0f53b28)),
  ((0x64b54b388c324cc2557763856d18f2733692dc7b3d1c214ec22802e3a48e0dab, 0xe8c33b8e554a98bd4f85813d24cbf2af3a669a90b6b928fee74358b3db9760ab), some (0xd1a15ef451f6d0d4e227c54bef7a697c6c38eec4566ce71a3c5f99d5dfc13f6b, 0x8b0707744b7887bf7dec106987853c5096f0f182e2bdf5f02e15453e672c6325)),
  ((0x90a264a6ebb6839dcd18879ddbb69e63dd8f97b47dc65685e0ff84a743ca8c34, 0x83ffdf7dfe5613ab01e1763607f8c074756c9ff8b18a3afb972e233ba2932f58), some (0x1ae4c69a26dc3e40e9f8f113ec0551e068698aef69fb9e3208c5781931bd8f1c, 0x513de37857dc17a6182d08a2ba209f4e92fc9ac2413847cef5cb2da04e92c74d)),
  ((0x2959d0e8e2cf9c8222348156e03d5fb81c79a3ec74d87e3b318f2b832f554b01, 0x4280d01f304a80f405dceda74e78b3720c6d353a01e4d91493a34cc1e74ede5c), none),
  ((0x314656346b0c6fb72ad715dae22f8cf6bb61931d35c67121a447768118b1ab0a, 0x8d623020b7b94a91cd272134f4bf82e1b79d2d4d4b9e1af31c36fb11ee7d5c5c), some (0x8118e075475bd1f168e95e37b7551fd4ec6ec40e344494eeca3c0d07c71ec5b1, 0x8660537dcca490bbc6731a3766ad67b33b7611983ce12d48e24b163b8d0eac77)),
  ((0xa169cdf5c3c005b5e20858b00e738372334cbfb23ed9d47e75800afdc8c42ff7, 0xdbb0a7b958b747e547e3029deea18795860e19d0648bc69d0d086f702022720d), some (0xfe01369c484e25a91a93efa304d5994dd452beaa5b2e2fc332bb163d33f50c64, 0xe32ebab61a0d6e2d016d9a730d3cfab3b48ce6bbd5c0debe64b1ea75a9d1e274)),
  ((0x78bb46c27943856b3b0951dc8e471a0252ef56dfbaece37f73b4e356f30de277, 0x48edb80664e5945f6d792b1ba285515c58a3d00b62aa84ca794dee07a6d5f9ad), some (0x991e86011fdffd40612cd9c31aa505ce8187255301bef38ace7bd60a011528bb, 0x10d67e0c55b6463bb7549f60c220c85240925dfa1b1b62a7790da1978600e6a0)),
  ((0x8640e614790baead35216852601be69c3aac3caaa7abe283cc2502e786077acc, 0x4e24f56c329d9099295b602067ec1054055ae54d7f5a77009a22954b2199cf97), some (0x410a342c28653c1c381e4b42ef69a3bd35ce395c09e00ff9052204157fe9e78d, 0x1f06f9b1aee77e2a6b8c310c902b024956d5297fdc33b0c3d2daa32635b8abd4)),
  ((0xf9993382ecbfda2fbf822c27237f634c4d816747c850a91d1f2dfec5b9433ad8, 0x862f4f9f9a9b96ae4703ebb125c58b0b6ba67bcf370c70f3791da16e9a9a2db3), none),
  ((0xec34073c97a72eb68c773a8f2d56a52a00b0e4209d15c75b89121693fc569fbc, 0x34b61e4349fa71b175ffd457892fc18313323d8ba2d85ea134a47d1e74a63be9), none),
  ((0xfc4c707293e97ebd5c07f30892863c30458b41ee737dbe084e5fdd155c1d9c08, 0xfc718b93d036f8b8e497beab302b7c3a222c207274a1acca3d58b6b8fbc1d8e3), none),
  ((0xc016ed96d1efc6075bc5b2f784f5136b0c5aa021572d52db30f1ef544891a0ac, 0x29b71f78f500753e6971f281a7c57906ce8e4db2ed493110433334ae83d45031), some (0xa8400f4f6dad9c5f1be01382827d5eb774832225f99aeb58fbd4eddd9d67f718, 0xcb4a64d5aabd7ab9d36eb15364a53c7dea59cd0b07390ba973c7f3c810ded253)),
  ((0x8647524ea48c2ebe1f7f6fde1b55cedb900c01fe3395bc1090df4d8a26641a99, 0xd95c96912d2275326de0cbaffa3227f801895fd2241b471191ce86f5d47dbda6), none),
  ((0xa046c634fec9fb8c418df18d2229609d1c11c54a3d25608c899b35ee75d59d03, 0xd2055fd507977c1486616a12949e3dc000d3fe39f3e48bd983b3b22584c6da59), none),
  ((0xb6841d845afbd7580cef249770ad7b672caadbf32bc17e6a9ae57e869fe56d16, 0xeaebb2f2339bacdb5b1bf030bd86d486e10e2d982038c7f2395957295f1000bd), none),
  ((0x96cc2bf0088578eb0aa9d3dacbafb48ec2e3464ef0b2e3204a099e4b08039291, 0x8f8478f2dbc818f06df76748e498a88f893e14fe93ac5195bb93ca8bce2c98f7), some (0xff9585bf30453276f179583f2afd8886a75ddb73705b3e240ada6294765ead3d, 0x622c84fb29de0d3c05c2494845a29f04b73d59c22c403c1c10f95587c47e96a7)),
  ((0x6311cd483b3f6d892033c33ab53452b38f0c0e1e87f3174740cdb76ddf163c55, 0x4c756fd2dad3d491a3a785111925afa19029b371079926539b53b68555ba9292), none),
  ((0x53ad164f7ab3d1f59a2c820baf13ec203419d1ba8f5e6aaeaddaa28a0f018586, 0x140fbf20b941dae800c4dd7817f34f4b0be5fe2e1c63a1e1ea3ada3cf66580c6), none),
  ((0x6c9cb6c028617f259f743f1609b4736c06e8cac3e1a1fdccd198a7125be7411d, 0xf453e739b10cce1a75d1ec9083cbaf01442d82f2301f4c0b19b447b3599861b), none),
  ((0x1fe2c14bea4fc2716db0a44103ee78e77b64453c42e7ca3873f755af9aaa2351, 0x2dd66f358ab9acf8d1541efeb2fb4fa8d7a47d5bfb606adfe67c4def1bef0558), none),
  ((0xfc3e8b1574df6de48c9fd5c1eb43fa81dd1ab8ac4c6a255de233bbdbb5c01707, 0x99c2b77c7bf9ad50de2d99d76c8602ca378d9907cff1019e0dea413ff84e2c5c), some (0xe664d73ab10d908be11ac63bfef8e983c44ca879bc3e7606d1fb0ce223422f4d, 0xc484523ed69ad40b375e9a028fc866a9e50410f5ff6501a45cb1f1e1bc5bbd22)),
  ((0xa5d08318a3b01d6f560c3101c76aaf5842cf1e48dddf7c7bb6d3694e7240cc0c, 0x72efa2a7ed71a8933354d67385ff6a1c0e66d1c2592bb6aa72da0b7a77d50d05), none),
  ((0xc7c73513b63afaa4a45202355a29da5a554c63e5db3804340fe76a4328a7d3cc, 0x45bd86dea31fd525c99f4052e38f454e9204d06c47462869584f8d5b872379c2), some (0x7fe4c9bfad99e1a58de96bf8dacfea35fcbf93740c173ffb4526a8f1bffa2e18, 0x5afcb87219512b40b92b1bfa7b980e147428487de56b824ccafcc73bc045e0b6)),
  ((0xe369e80a8c7b4f1d48eba83e39be25ed429c6d4f9ad23029eaf6e0bcb82139ad, 0xdcc927aa0d26d558357e92a39c7610e8f39ac75ae1048dfd368fb011de5b2a4f), none),
  ((0x58583bd2903bb8a6eadabce66fbaa48d499e1a39b5338b298d801d8e4f749df9, 0x18c3f8c66e17cc5b8375bd12291106c611656a342fa4810f8f8ad0b3c9440669), some (0x478a813a1fa086e35c72e3492227f84c1fae29cc33de9c7ecbe502999d7473f6, 0xa0da612abdbed0563ea41c3efd42c89082f8084d6be397ca84ff062274d64576)),
  ((0x9d93812df5dcf87f32dee41893a732221b58c295654f4cbf2b729721a9b058f3, 0xe2967d5abbc08723addfe83420de366f6b915c9a2d4b5bc106c29b67f6829481), none),
  ((0xf7b307284ee272d7ef64224f0f83b6673ca9948dccb77a6ae5b0aed626a6b9cf, 0x48754d8a9ec9fdd8ec273b97a34f6a22c2169c9ddab2b003f58f1b71cea655ff), none),
  ((0xda70e302a962492da099b9b032a3fabf05a0ae1843d0e0e1c8ecdfaa74baca97, 0x11e01c5ae91cb3970dd6de75030805e6be44d447634862b8de7b25cd38d03798), some (0xd79a569ed8a04870c7231aaed64c22fc753fba6bfb4f1b22715405a2c96f34cb, 0xb9f4279c0bed693a6971901dc755a332bf3e827e3134088522df5949658623f2)),
  ((0x2e1a61174a22cffee9743587ec0adbb66d04ac361aa7f9245b1c013830ec1f76, 0xccce9df2cabd0afb5057318470c2301d829a702ed4a90fd5697319e8b3928ce), none),
  ((0xa28714b95e34e461475101fbdac0827c9930d4ee078e16b333f7ad16df0caf73, 0x29b6dbb8b008406d0ca121fe8cbec4be86b52c21cf8aacc2dee71671e0760d95), some (0xcef46fd8a0f2c18c21c616a94768a716c9db20c709eb9a2f888ed56e7e51eae0, 0x51dcb52fb3f3efe8dcd579d8a68092d8806107c9bb367c034d792a2d66df1c8a)),
  ((0xf935d3f05f80e60c36135ae2def14f91109e273dc9597dfa2f88bf2109468e55, 0x19185e6232fae9eac1198db935a2778452794d8e11658e6f0b8254295d69d39), none),
  ((0x82f3c132b5ae0cd96a05c2e40734c7f37665e59c0d9240b6d1e8f502aa06e3d3, 0xf713ad95b0a2235da1361367b7f1506c441cde0470d4a87b1f3d166c3c775a1e), none),
  ((0xc93242e48b7e097cd9a6a52f25f5d8889b934e99d8563f6c6aca70fc70b88255, 0x9d01a6f64ef81ba0eadd0bc6888583c470a297b88264b0bde1c263a468e2995a), some (0xc38adba16062d7e965f290d9c5e738badbe21827a4083ac63439d5deef2100c6, 0x66310ea551ad9f29ecb9fd61cdb5999a1f746389ee668bc1bf76b864436289e4)),
  ((0xa9c1a514d829840c1be0e5dc340f5d7c69fe866a17563a7cd5bf471b0b4c35ad, 0xc83d9903600a5c3504be3dbd3d9f060e447778558322fc881c17fde933c4a0cd), some (0x18ce68e7a5ae1ba50e16a370e96b32ebb0521c18e72aa107f36ef6007dfabf4b, 0x9deeb7a0018af69bb5f638fd588c26152634e2b124aa55485271320e62b74ec)),
  ((0xac6be0c81ab08af07d63c0a63d4f0fdf0e07d949319f655f143237580523960d, 0x34abb21c4a04546c1449639379a4d1a6bc39c18eb800fe5d51d66720d249b227), some (0xba7ba89509fec3da6783920f8c48546d3e1a931813ccd7b5040fee69b9f9e5be, 0x4168e0105648fdbf66b490751f04a6c9dd5877dbdd99b0f7aeb46c52bd9a8dae)),
  ((0x7a8070f6e2029b1840ecce6718bce697d1a5217cd5c53bfd30b8933139ca1e7c, 0x6a110a6cfb056436d571768eb4ffd9cef1c8de891a241b0832d1cf2f71305204), some (0x9121e3f4e4bf037b1da64132c4cecbdf8363e2375bd138f06cc69a2ae047fb11, 0x143e655765f317582f993d7e7ac792ccc7b67b2b0c9425f7542ecdd3e5a45cc2)),
  ((0xd2b27fc0f5705a67236a5743d21bfbfd6b90760ad9602fce12f7daf87cf25549, 0xf1d53453a347a82ebecef6902fde078f81fca68eb9fbd424760d4fefbca8a870), none),
  ((0x2e2239bcfefb9ecad50b450a1a16c41a0e8e89aa0c852766040d2e1874eac8d3, 0x13956e71cf62fb5d4fce7610720e2764b6284efe40393d2623eee57925f3cff4), none),
  ((0xf73d1871cc062b382573a81a3df428a0c5acf89289cd8b078e257931d03d32b8, 0x94bfb6ed53505e84b7447c12b8f999574a26437bc891a5b9c4f0a6b574bae91c), some (0x4f2aa45e0707eefc97a276f8f4490bf74c0b566afe0c58dff0fd5607d1db2434, 0xa806c99f3f5eaaec960c2545a9bbef3804649ea8d099cf64deedaf64f7bba877)),
  ((0xaf804b3d94ad9ffc75f6776108fd479dfa3da750cd095aa32d7c6bfa1e1e35e0, 0xf7fd6518787cb408856a56f75289f075d0980b601bf37a4f5f6c46994bc0462), some (0x2410527ceae78ed3cc76be54224572c6a7cbe8d175155a3895028b8d20696828, 0x5f36a3e2a35011912b27f3d29e0066601c8f1a8b782393f6f99fd2fe463e0437)),
  ((0xf98467f1d41cc69b85979aa1fd37cf2797b846e1f4262a7eaf6d330796d931c4, 0x3d2493fec6e21c5d4a41a84ae1f409a96fb19c2d4b6617c7e108150443c48346), none),
  ((0x8b6204b73789b0bceafa2414f2318a298481fcf571841639800173d00459666d, 0x2c7e9819f2fa6eea13d6868876b78eac41235f81616f9ea832e66eee42ffc1a3), some (0x78d601b0b54950c8e25ecac7f515eb4d713c64e20a25734552e3654ec40579c7, 0x734ae13e58296b9d1f58bf5f6fc663b52302e4a846a4db175c6e818d5306d1b2)),
  ((0x65a7773b8073a22eba1252f881c39a4dd3ea9e343e7cd18eb71450e5d52432af, 0xd8879a1373d602da1e980c718ebc8875b7697396daa0684b6cbc5556f436955b), some (0xd183971fde6d2ebf7fe3fe2579e128244849c67edbee6190d04dbb224e8a00a1, 0x68cbf79a0a15247dabfc0b393b5758709e840ff5bc9a0b2f67ecf12b0245b1fa)),
  ((0x6299ca301ada3d19b9ce92ee9b28374ddf8edd568fc34ff586917ba590b22a90, 0x47e27576dadf6be6b035477ec5e9001b686a6800318c006e2b971d7a085292ac), some (0x96ef8ee299b7727a69bf15114b359451b05d152ddea7e4ce189e33d585ccab5d, 0xdcb9e4a7f4d9a7ab51fb8c87766dc6dfd3c30bb0a520f6e9203a0c5d696c9b72)),
  ((0x945c786fe036b0e3fb1d277b2656f58f7f23dc78a30bfc06d68ba5d21bf70c42, 0x1717822403f7ae72793a7ef73aff0e62b28a5980dff753dc9aa9eee15b92a2a8), some (0xb8854ac11c393430eb91c110335c2a5a3bef82c8ce357a43d2dfa92ccdf6f317, 0x304985ae5d568f65ce09e4eca0d79e1b3271209dbb42cde433ec8ba8a390a70f)),
  ((0x11b638a377dd7da04ca657d37cbc1d778781b6d5ecf5153dcd2cbbab01a10e44, 0xd26ce52d84423997ce15840c7992f3072d462150bd009a5e2cb7731f652bdb1e), none),
  ((0x4c3a47ded8f668ee132dc391834f00276bd16eaabbf50d88adb13edffe91e030, 0x4de6ac5200df3405c6dee9333ac0925eeb1cbcaf340d2ff2dc621906e1dcc90c), some (0x271587f1879b6a8d1570669aa6a1414889c1ab8026e755a48ede703b0a73a242, 0x9a91905c72976b55a6fac7bdbf35b41e419172124a5e797ed27c39b1995d33a3)),
  ((0xe1a0025cda1b76bf022790049825049f3cc633d5faed1b240d1a6f62a628185b, 0xbf55f1b5b02677f40fa8a0ee06f7ca834dc21c64c8b67a2c67b4143fbd7280c6), some (0xf72555524c7cd86239507a9f98c8129b5fbae1784d9d6f995e4cb061178108c8, 0x45d031b13af03e912a7cae057877f3958bf312bc1d5946dbdbf3d998d3e3dc1b)),
  ((0xaaecea6a8a999e8e03b0c0ed948015c73ee1914624176b301ba5ecfb6d4c956f, 0x4245a5d54155184ab6929f32a0b935d4e5f324eb79e339ec7db93cd92a957c8c), none),
  ((0x2776046f21b610e0beee3337264224a4f86e0547c9214da83a393ef84007f259, 0x523a61b4439eb0e84db937b67a5663267d8a88180b8016da6889ed69b9b0ce05), some (0xee89017b884ae252b38f25e4110f11cd3e0468e9237c95cef45f80bd07ae192, 0x5cb87bf9f74a7fd70e060d9933a7421effa5269a4e9dc65376b66027aae94fa7)),
  ((0x123c0a57b0c50069d8570a702363adbe7388ab210b3247d87479901145ad6895, 0x18d29357add37dca16acc8f646114d7d14b3b06f9d9d6b7c70f347902abf08a4), some (0x803cea8f2239b55e0964c5f4364730ca0cbec209b9238e8305b3dede700029c8, 0x2113a169c3aa63de9f0fb3d320f3f7a8533211ee3b73a129ccd319cdea63516e)),
  ((0xb74f47248dc55ae6680538b4e9dc97169f2da244dc3f4b9bd6c9ab06b1074cd2, 0xb498455ac80f5af4c70c96827436ed2b4d7e54fcc21d71131f0b1ade10137b4c), some (0x58fccc358d9a946a997f370f17c195337463f6747f8d6bbf1f0a9843b2ed8248, 0xa79bbac742d5122dc3f1b4048e3054343f7ad029f26373f2511ccde2c0c63468)),
  ((0xe957e5ac1d6697decbdc9c66757f10cb69b897aae97b04de291217b61cdb2e02, 0xeb9a600687a4edec77cae942d9b41fa94ea339504904203879a2f5a0834aacda), some (0xc36616b10e11e5daccd4aa853581ebeb3e3950a751be903a08e64b1c7e4dd3e0, 0x80ea8e2d851ff045dfa1107707d229d1114d5daad18fd9870ba0f026778b9071)),
  ((0xc949f3b8ca84443e82787f2a0372b691614282485716fa902df4087e293eec6e, 0x595231484684b65be64423b4d5f2059b1a8dc653f23343e9fcbb06848aa4708c), some (0xe3912ff1fdef2abcc49415db4b7d6a51d4903261bd52694b8d75363d2cc4ca25, 0x24c705e8fe470d122bfbecae16b4e744efdbf55a00c822973c09b99dc595fc78)),
  ((0x287f687512acbb498f12dac8501bcdce46c954611769100ed553ee3974dc130f, 0xb16a49538bb584c6bca0e559a91a0ad09ab5be7250f3704b7d9e6de6aaa224b4), none),
  ((0x8536ee9afc82b6c253d1c3c7467034cde1c3865efa6116faaafe76b89e5a46af, 0x2c7938023d8518e5e59114f14ae6d7dee70eff0f0dfe95d4b11a70949f6a587e), some (0x3247f37098d43aeef3c8eb7fc34f1ccaf5377f8a91be7c1aa24f0ee3bc3fe588, 0x64ff0b0e08b0d6dd5709f8209c5b293bc0e63e97bbea477d743cd596655e4105)),
  ((0x73c683346e1793307a5c2c3280a4c0b93edc41e785b0c14d3963a0eaea85111a, 0x6d3f51c9fb3b3f8878119714bc588717b15c3def9211b082c807c43e5f6be97b), some (0x5faa5a2d3075ec6d773665f18de6235aa320a4ea2dd5acd72a2d9aaf2f0fee59, 0x602ed0d40269f25831ce4e049b4e3ca4a01e600b50a79376ac98bc5eb80250f7)),
  ((0xead9090f1adee4447c6867cd7a78e8aaa5d12808381a9f2696dce6f9d6db25a0, 0x7b37a57c88940beeeb7b867435b30f301f9c574f8849d9694c82c2e6df6ef3bb), some (0xff47b1c64634ab5b76264d786721138a58348f1cf4a703a2f66a4c9e7c87dc54, 0x9f29beb58af78b5e65281e570f62cba102ae2ca9f5677e302567d0e2af3035c9)),
  ((0xd59b1a8b022ff8b80b886de2658bd346bc1aae08b935a8bbe29829e62c889da7, 0xddc5034afcf0bdbbf66c4ba28040ef21e239f3244854816ae3e40221e9e6b1df), none),
  ((0xbf7c61647a16a27f1041fb9dc6600e644ea307313d0597ec5897ff1349d888a5, 0x39214acdaa18ff5e32d363fb7d2f8cea4ba6c38cd8d1e0dc0a87b26d583cb5), none),
  ((0xa6bb0dc1652a31d728a79e92bcad6bf329addb24a78793c8a2f3a73ac2cef741, 0xc5acbd45db9e13a952396aab0f38b53b815c7a322e551d092f30358d7d40211f), none),
  ((0x3f47a24217c47d2e4cb885bb68707d5e0481e5d35a5e913dd1aad57d504c80cb, 0xcb436fce0024377fcce966349127214741bda7888bf66860f86009030e6e8008), none),
  ((0xd53fe3ffb0ec74cb9e4b23da580e3ff009d31531bffcdcbc1f52d50f42170c71, 0x4e4c2d732c2fccb8f254fada81b982f6f15d285f7d067ecb99d3cce9ff5099db), none),
  ((0xed37a39e850eac1d66edf16536df34703bfad86016f12c9f6bd158e41399ce9b, 0x639ef56be686fd63a05f6805b7e43424e8a27cf4b2652370f60a2c856e42841), some (0x975023386906bf53f661ea87ee21063fef274dac387a707811f1d0eefee1c31e, 0xc13f91dbf8f80f9db6c194982059a8e5dd79696c2324dc647bd862a58935363f)),
  ((0x9531c9688d19cd0b816c61bac9e5d23581a8694ef8ca998a7ac1f39a6f25b7dc, 0xab3641e0811b9741ce82f82a7f2733f48d25ecd3d3f9a1ab0f4b979c5ff0ebe3), none),
  ((0x6e89b011e717fab1c5a86afee2896d527e70e46f0462f0679f71fee8b4ee355c, 0xfd07daaf21aeb1f96c6ad33260006e1c58ad72ecc85670d05af51b0cb3adc2c5), none),
  ((0x22051308c1f335891dacfa4ae1a49a5ca1fbb7c75eb3f0b5e25493ac2b07d75e, 0xdf1e409ccc846829ab4e26d0ad0a6b481f0c945d8e8c544008d212e575bcc4f8), none),
  ((0xc39688637208c318507fc92f3139e04de55e3476d08a9c1fd1e74b985e20302, 0x327deac89b43c19bcff1833b0f44196c935ae40d528b3f24b42f44f9c95eccd5), none),
  ((0xb31fdd59d00fdc694d0ae341a0c4094745e3fe75ed7b5b21ec3f94f368be8f89, 0x803b195be8027d4e47ef1ae8100388dbcd3b4b2715ae638c897465da844259e5), some (0xd66f5924a4c29aad400f9940c1281f70d57829c2408ecfe108e4ac395376baf8, 0xa27f0640ed02e575b77892473e263c0b15e2fc161f1a157fa17faf3ddf8c94c0)),
  ((0x714c0dcfe2e5cfa627a8969318b06c20d03d4c0d2db22428cdccee2a02e6ce47, 0x121b6c7ec53f2741e915089d220703a9efc2f0dc1ff96c8801f745c700c79d35), some (0x5c9f01c71fd65d85fd4899e43754f366341f436504e4141de7fa873b1069e4, 0xe09cc5b4fe64f10ae801b2408e77dd44bcb60c368f8d0def4feba5041258218b)),
  ((0x5e4e7efef49c280a1967cdbbfd31d64deb1ab7e24e7b75884b03fc254cf82b01, 0x3f77f0e33232326f1b358b03db635bc0d94810d391ecdc5af09e9295f75c03af), some (0x77a83f2a0ef3da12e5467cdcec7cec9ccffb275043645bae9bd9bbfdc1146e47, 0x9737ad2a25797d3939408e341fbf15e0020ffc2f1d248773819195fc186eb0a1)),
  ((0x856bb174683e3da26bccae0ebee5bceb59f970aee9df0b76ff5bafa1c81912d6, 0x7e28099231e2fc8d1692ca37752123be8ccbe5d7f381f30315c7df8f68a02d1d), some (0x55cf2f50aa16a745f2594b312748b80f3e8efb5be8b2434dea03eadded88ad5e, 0x33a43797539c75ce60f49ced432d93ec59f528c685bb4043530ad0f113ed33f1)),
  ((0x4947bfdd0abd63e8c0fa3a22ca15b226235c9fc65a0fdbb66f5044da445294fd, 0x849e03bd6149d817a93c56e0b4f2c8ba607b2f4f03ddca2d2ccc0781e502efc3), none),
  ((0x2829e8dd00f2f21946ee258a566fe3e0eadaceb1b317e9617aceecd6d0a85df8, 0xe8c4eac1a6fe636b92626cfed65cc0c8f5a1b8dbc04dbbfe113e657739fa28a1), none),
  ((0xa7f5f44876f66f8662947ec808e4a40b0438c9a83ad8d35c4e5f46de29edf02e, 0x3e38958bb5a81c0f64233e3412576a25982785a63f0185110984aabd76a8430e), some (0x76caa3d9cf850c407a9ef8b6c9ed26c5502559c57190457c49f3bcfe416208f, 0x129ab2b2ebcb155d6a342045a283069c736fe4ab01164b8cecb47636f14e9451)),
  ((0x90205674aea946b2a0fc23823734624c017132c18ed14ca0c52928328aa6d513, 0x2f0d8af66f2a7cce2b62f63df8205b2406338eb1be59ff7fb8e01ebc45c260d9), some (0x5cd2ec83f568fbcbaca001d35a067d519d2fb03d718bccddb449b6ed9ed3ee4b, 0xf0001db99e5abbed747b10e7843ba55017c8c1075f432f6ac83e4f5b0736b41e)),
  ((0x557d43a86ae38b79b14cf4bee248491d60dedb1d48a51c1741bd4f6809ba9236, 0x3bbc8aadfa92c50df819bdce93c78de0992e5cb1dcd5177ffec2ac98d7570549), none),
  ((0x7347bea19dd1be99fc717a3c282b2c955af0d5b1cfc806e72c6466556e0473ef, 0x79f0005718592a1fa90e861ec9544bdfdc269eb701cb491637c3d4031832f12d), none),
  ((0x311126d951d007bf48084ffd862ad7f09f1e3fcc5a33336c1877fa72c958d008, 0xca8fb608fe8a1dba4246c9fa58a079353ba5a9747958dcc21b3794ebf5686856), none),
  ((0xb57eea8a4e9d3f0f965b77e84b135a77973f94e15dba2f3c29e8537d23af7532, 0xb4af924c0cdfea2b9dcab886a87da01fe2fabe52db8ca4412f43aa7cb77e2109), some (0x757b1b813c8a282d6c62b3f8dbbec1eae8cd09249703f1ea2ae3ea8cbe972566, 0x7e4ed75b2ae2c8fb61d66f5cfacff9321270b62e816e07d05bade21b89e2c137)),
  ((0xdc7f46ad2f8c69b1647b581521340a8e35c637f5dd3611095437214c330c6bde, 0x6ebcf9b5bcb90ca462fcd6ed9a391fc06a038f89cd6cde90d05889fbd0efa6ca), some (0xc627bacf4ea36b8bb960824c2063ae6c301b5d5c1cc96b5ed7e7b35ca7170b89, 0x24203e76e546e10fb9a48eaf52943e1656c7532d2926b4e92ec3f6c06ceb2b40)),
  ((0x36ac9643f18604e9ff20cb61ec10ee3251c9b7c7a85615d9445e211bbe738ad, 0x76c53796d4362538c2ec3c46c8f69976bf59d76edf3f19534adda4c1ff9aa679), some (0x10b80c8334d58b9bf99ea4222e9f35339493a79282463abd4c2585535cb573fe, 0xdbe4ac85ccd89a103c31dcc7badf1beb53251645a3fec0116fc54c0059df852b)),
  ((0x123a812126a791db1bab86eef93e2924a8b9e6846f7629e0319054410bf4c5f5, 0xe8222e82950f574760bd1e58ec84b1845c8b413be2d11359355b8fc3fb0dd005), none),
  ((0xb8f52d70cd71b580a8d8a45816a8735fd9fb5d92e6576e98e656873e349dcd6d, 0x2a1ee9e35f50069cda5488f045ef89a55fd9b4ca6c3c6fdcd12aee08c1b49862), none),
  ((0xfb4630f66471ddb391ae55753aa71efaa9eaa0eb2970d8422b4450bc14748b1c, 0x532432081a17d25f8155a675be65bd9214f2dee1cdfbe55f7caf65acf2a7e808), none),
  ((0xf250ca03333971fa17ad5bff117697ba478b80c9219765e843bb7fba98bf7054, 0xe2e40ff856ec6c8ed650ec88ddbff42266f0324695ca9197c9e76f5229dc2e16), some (0xccbc76755367a06e8053f2e74d10d9aaa187bca82b9f4e72bd98ea8fc8401906, 0x11ac6a48533654436618eb15d5258040868cfe32c6dd0c4a11c7d9b315203df1)),
  ((0xe3b619c12c02c38eb1242a9b6ec59613fa422625a5b1e32ac6d3bb643fc107bf, 0xb56ace18cd10364c5d1c4e8101080d0ba3df089f2c8007404fa85ab34429f480), some (0x4176bac5fc65175cae911c441f15812bfb495742849a5dbf221802f5a543778d, 0x8177d284e0a59bfeb6ff5bed1365ba79c5f792a8e95f60757079320f3d1d6bbe)),
  ((0xc729e3a04d7a047594d46ef531a9673bacfde0faa9312d2024f0b3e292ff89b6, 0xcd433f51e98ca9b938f5f746611f325bb5c628d1f4edb27692ca02a3fc206303), none),
  ((0xf12c2cb90cf20c4b1b0d9eb233bed0a00e3c07b812c15ec1a2e691afe6ee89cf, 0xd67c24841c94bfe57ac96fb35d1d67c194b769e4c7c88d09e86e1db014aa8c00), some (0x997e7428960ba9068ca0065745ab302df338293d64c9a96554669539bb4afafe, 0xc9260036b8ee77588ee5989405d62bf954507d1510416d5258257dc991d7ddee)),
  ((0xe5ea22834b318aa71e79fa893b5038de6e6d0078e3297329cfce985f96614b5a, 0xe03dd301c597ed38e76ea9968b8a07312e2dc09b45d66982ae5d5f1b46a4ed57), some (0x99c66594280d378d2914749d7b8da90768db26ea55e7d151fe860c151859db24, 0xa0627c7c7476ec6bdeb53de5b9869645663f3c60663f87cc1251c8b017c3fe2c)),
  ((0xda1163aa26ddbc8955c9bc5daf49b4761ebf254ff3e1c0a5b2372f32d52ee9a9, 0x7bd873ccb8ddfdb4eddfeafa49219afd03f044c9db3a99fec6a539d4c94f84ec), some (0x64e3cc05b052c8750a69f6f455afba6b029874a0c88f93d49864c198da364018, 0xb8e623a6dba7a9b42125ba1edf809fd8b6b7d3f8f9d09b9ff872e7388ce91a4a)),
  ((0x8c53f02cda1c7b9c8983019081da6fe05fc159367616746337f8ed1b7b19662f, 0xba489483e0561e9f0a1f4b47064b4dfe26419f2055b1fe1ce7336f758ebc88b5), none),
  ((0xdeeaf2d3b10814dc1a90225c08f99375ad3754fc7b789488baebbe285d5cf239, 0xff81d06fbdfc9562c4535559dc386bfff18ecb1bc7fb9d7d59a2a0f21913b441), none),
  ((0xf949b996fa10e6c3570391871cba756ff7b2c63a0406508fd37093100b8af90c, 0x6bea2232061b4da2448a99dc481530736c1d0eb48af5a4250065b626363ab377), none),
  ((0x53afef60cb847ccab67f0eb39eb170a3fe4740d3391b5f69e1ca2670222a96e4, 0x8fbae7d4a7a95791265f3ea4ba7abcf7eb43ab33336b9cd124f966fa5953464f), some (0xaf75bb24652196f789afbf4eeb45dafaa089d1808f6b9d99656f703a549d4735, 0x69dcaece8e1ac33ba26cac6243a1f8b5b0b2ce8da4c3a837bb9c0df86bd14273)),
  ((0xad7198bd4e2ce5f67541edb76b081913c9e12fcc9bcd2cb7d3c75f02ce16948f, 0xd39afd323095bbd366b76c9d3871c38423ea91a9df9d750d0f42cdaa36cc8a83), some (0xa1ac8df3f3a01251be9984946545cd209b4a38544759e219ac564957f361deeb, 0xc090765e4d778d82e9750f32343b26b8bb70856dd9a9a2da8ddc24900256f84c)),
  ((0x19da4d35263b168326e722088e1f0d19bd76239c9d65a47dd62f170552053bb5, 0xdbf07953a224048402e10f10dd6dca3f218d8fcba2585a2a1e3d97a0aafa6da9), none),
  ((0x8c7f77d1c201ddfe94f09b0064364ff45213b67337da83f1b08a0acb9937ee60, 0xd684dbfec5ea801bef9127b51ec9675ebca246af5099e28a1416f44243e98562), some (0x2ffa241ffdbaba2e41a7f637770c1da4ca1a475fad6768b20bb7327097bb6422, 0x25e930551039a8355f1445d5b053a534a0d9b5bd98f7c933a0fa2f80609f7e4a)),
  ((0xb59a0043ed06f996098198bf1bf21606aec4f9c3665d5db069769ba6ec2f6167, 0xdc4b541dda5dd65fc40b803b7835b2d94ce20fd14a0561b34af941e11e19d1a0), some (0x4a2c45ef18744e8ec12902a41bcb86381980527b03ebf9c6a53a83093eb21256, 0x27ea447b342773ef1e8c55962340630e4262ba3718fcd412ce50472dd94f7012)),
  ((0xaa827f7e971a4bb7b7a5f19ed91b13ddef041c5af4637ddb9946013158a76e85, 0xa8a470da11d9903dab178200d4f5365ba6cb237f5970ce33a89f02aa5af7db61), some (0xf5702dd2ac1424f3569f8c03ac41e01bcdffc6afe664aaeec59d053d33014d0e, 0xd1e0dfe07134e8888753371480e7b43cf2861113c163cf8f0bd23022e9e7855)),
  ((0x5207a056a37d0abc0c66b97522840f48c2197c7c4a2cfcba63dd969315fae612, 0x96405b5a49bb243fcae09674ed9ef70f4c3f222968208d6503637a46fd5c6b87), none),
  ((0x3733aad7dbbbf1a32b84636348c32ff9caf9988da178698278c4f935fef5f096, 0x7550be4f96f20bcdb899ef90f43d64c33dd2ecc9c5039e27512b2a09eccaeb7e), some (0x978f87e2fb9f7440fb62804694420cdb98e6faa3c67aedd84d56c9b80322bb5d, 0x9ea35f5762825c6ab1c39731066dfd593aa9eeba9bbcf961d31c2c50a72af512)),
  ((0x13277ed64ec200e8786111a7108f491d80bad7d4b3cbe79b96459fd0176879d3, 0x3c9be5bc81a9ce2cc863e3a54804daef7f006d74158b8d1fbf4ed4d1c0c29533), some (0x942a425ef68578806c0f7b30ed52d18098604e8d366ae4e7cb8f834639344e88, 0xd9b28414145a93a4a85ab7e6cafe4f75e5e2579b44e89c2c6a2ead6510c4d87d)),
  ((0xcebc27e38a0e035b25da8eddf5c228699215d83646a1c5e8beb1ef543b36ba2, 0x2244ceec67143001c87f3b6a1e5eab942175654c627887a7150ab4316d440e4a), some (0x2bc4b5120c85c886f85428d2b392811fd31c24abf4c7c8a700f42f7b1bd4b18a, 0xe7090d7810c47d79b4eb896e3a9788ee13d143b73880ef2c027436882c5e03a3)),
  ((0xc869b344fd4f34d7d9843190331c589688737c6ea169e9a07e722789a954aa50, 0xa0d58100217bc5e339bdb2f332e97713853c6ee4d787f1f49cd095ad5574054f), none),
  ((0xefdb3798f4f8a2866c3c9522a2b9531688f7aa6ff675b796eea57391949c31ae, 0xc062af3d065a0b245731a524edcd6248cd4328f4cfdd742c30e730d98075f94b), none),
  ((0x85c6b85499ff6282f9f730a8a052e2934083983f9631b378243c31c0a3f2be79, 0xe7e4092ad5c4466e63e32a630486696a0c154727c10fe79294675d37b42f4e69), some (0xe917eaf903dcbe37d1de361c930d09a7a870291b3dca06f2d5c74702a9a7ca08, 0xebfe9a928ef7d6aa41cbae9beec39cf32f974fe433f766fd9f559e504279c110)),
  ((0x68d42b292b955d4b8002793fef90373310c35e86f61b23d7fde00e3c7211a91d, 0x93a54b1d60d917f6acbea4a9e68eda9cb1bb941a6b409cf06f30b475ee474ef9), none),
  ((0xd29db57eea4a08e225851e38c619b1e52df24038ddf7eb37207cd35e5530bb16, 0xcbdac8378120a6a61ea12122881e3387a9062fbce8331a57d35c245cc7d7821f), none),
  ((0xb53861875d3c2ec7ef408a5bac9764103c39e7231f476bb9076d0468be7b3bd3, 0x300ff455d92e9875ea18da6c5b93b62c0df1078d769b5c5b2ca17a962b28f6f0), none),
  ((0xeef531c6270534e4b3e6aea5203e243ee7cc5873c65042fd02e5eba42b613cd9, 0x295b10c6c74fdcbfa89ef91ee6ee25d74aea7646fb47c3a88ca5f916915945f2), none),
  ((0x13131c75fd8025fbe87e661b9080073e2dcb7e3882d6ef4f775f8552a6c3c915, 0x7d3697f2aa94911b3d93d55e96ef0ec1927e450be1cd60c17a7ff52d88d62efa), none),
  ((0x20a5fba63d168a09b91af74d7c08fbd51e0e79f6eb05be812a60234965d75f72, 0xf3b871929a14e6e98587b532ed37a0edb43deb069e3cad98b7fbd3bb31b48ba9), some (0xda5a7d2cf6f093c8b06d64f8b8c93fbe2a6603299332c8e0658daaacbd6bcf13, 0xfee598a016adca9e0212d30a603d067842d26c7a7536f3b4385dbf57f812759e)),
  ((0xf642dbd529533f496ed2a3267653585db34a51da6a77617da0bf6c395653b9ff, 0xc7b76610f322801f1de26196194abf7bcfcb28ff793746a61ad0fa8421a293d9), none),
  ((0x8cc2cef600092745bc0dae3cb1f2533f640c1a8c7e62790bb0ade71bf537562d, 0xd9300a5774bd011318b087ff331717dd06c112f8dcc1e9019b18777cddf17d42), some (0xd1d675a5922205ea01c068ba9c311fdc36c99acd711abb4efd0d34025f6ebed4, 0xb2144acccabb87dcd64073e838e7ba7e55a493958dfdf1cdd8ea1b053e5ded9c)),
  ((0x7397aa3427ff9b470d77c44bc4ac9fdbe43044917c522dc2752f9cc5a10fc6a2, 0xe5d4cfc5f3c66d8f53fbe7a15f8e7e845ab907bd3511e248b567cb1d9faf0ea5), none),
  ((0x720cd9320c24d3cb8d3942f0a2efaa2efafe207584042b5091e2f75c8cc2cebf, 0x579af5157e69cc9ab353a39039e8714cb78e8b4c36a307f6e0e71aa2d452b233), some (0xc4a2d9756b94c47e26ca7593ef54262a53accc5f25191263851f4009f825cee3, 0x15fe184ae735532f6277e3de5b4df4459fb89b04a88c57d40cd18beece2eb722)),
  ((0xe88284466f255789611af02cade342a123f4cfdf697bf26648252986589dbf03, 0x3167ae837543f9b29fa22dcc44c1768ecc05d70c08d0273b4fad972bf17012b3), some (0xa8f87f42ba8de8ab8beb475e015d8fbaaa02a41951b15504bb8150e35d7e6ef7, 0x99cb1ab2c2bb51905e0503e5b78ffa55bd83e45c3e401d63cf234b9b51f5b597)),
  ((0xca22a5b330fe1558f717044ff982fbfcce3493b0b6a5dd8aeb931f7ab70b3aea, 0xe94b8a7c8a3cc863c1cccc6d1ace1ff4c21dd474563d583590747f00369bf4b5), some (0x315cff49e105b3e6527951ed5ab55530cf2ab4206835d06a05f5957405b10a47, 0x67beea03771db3ca8fc52a35ea66e72960d7431f535b3adc667b2e2a6a645611)),
  ((0xf21736c07f39d6c5896769cd6b5e1fb02162b48464520dd60369ddeb218714c2, 0x84b74f8be9ac2b868bda5395aa31fe5810988093c1c41c18a28b4f8808ff0c02), some (0x96ef27f2a9c3529e1cd9b325797aa6951eb5c0ab413dcf10045f4882a44c5da4, 0x3c9c6ae1cfed18db7133b438e31cb5d07fd1a04dfce06c54e87f38ffad586b67)),
  ((0x3404bd6056f77f1f091ac8e6d3a1db6ce8d304b3dd0a55349937a9be5ce11992, 0xc9a068e533afd7e89bfcd7ae54438c1a1eea399d18ca9314cae70f06fd671752), some (0xfae7878902c076bbd1b3dd3f53f7600cdc32cca6b99ef1491e3df5e64aa1007f, 0x8d46e9d761437cdd4a73741579fbf8d72d2eab0f97115f22b99f0917bc4f1f02)),
  ((0x13f1e0914e170f6442f0036049403d7fae3b4a8496974e7965b88bca0ee71c34, 0xa97ca8e5f662e3930e5e83f5e3f7649c84d3f71cedf9db4dbf2a41061bb53239), none),
  ((0x3d37e5f3b7907adf83969fc45100fe23e1408976aaee250126abd65c18679655, 0xdf1528f6f6dde5dd41d579f30ca5e677c1bd9949fb7a4787e9f0ed835f534393), some (0x4c97dd04c0af43d8787e797b05c1b113a4ea37284c3ae0c56e02b2b1a1a61bd4, 0xdbc2341e3859e71e07931af5c1c885aea573dd17f5cb4acf4fc7f189c624c137)),
  ((0x23b9be8b52bc745b0368484f7f3456f61c560105adc8286fac0c39d30e494dc1, 0x6b004c7cc2eb1efc25e7edd550c174e04e826e158ecfc790e65a681c4b7fc4aa), some (0x689daf3b003f57d6ecbd54faf20105d0616995edfab841a9461c55fdcc9d12c6, 0xa97538b434a9b0e81f2a6f0ba7f31bb97f281957a32007882e10c465299703e6)),
  ((0x5ef727d4394db73d3d745500c0efa0baf519ad2b0e67a97d09ff034bec31dff0, 0x89e931f988bdbe206e80696238b40cdc5f1afcdaa16b1050254df0b12a4a3cde), none),
  ((0xcc6c7d008c67f79a5e926caf7e147c2549507c39228579dfda85e2b9fce80e7a, 0x49735bb5f6bcc89b87c98f2f015934157ac319a6920b7a2631f1322e17657777), none),
  ((0x2db74670e7619861cbc1f10e2f0c7fa8ac0eda9b7c44bb38ce3cf9bbc2762278, 0x1f7ca2b5664831bca53d9e36feb15114b3d9df45f6d110ed60e265d9a92f79d4), none),
  ((0xa4cc02fbd81343c08d89f5472a9bd12901b34cb6620d3ded291d5fa0a2a0730, 0xec3656cf764083d352ef5f4177d47d639033f13eb3d84a6ed3120134466a0e3b), some (0xd83fccfd8db5619b3bab828440f040fd1670c4f6c160fc46c8f40378aae78c30, 0x8ba4fa4ce2a3fdd8cc9ab0a8a55bba83864138ccda82f5a725c1285627219630)),
  ((0x1cd7a1fa8edf7d8dba406a156ceb3018b808ccd00a61afd6acd6787283691dc6, 0x787169162ab58a51eaa25468d3288d552cd0b28cc4cf8fa0ed8a1054220e4acb), none),
  ((0xe04fd0a907d3a4df1600c33e64bbc1a43290dfa57c2fa9f13f1a67bfb5b755b4, 0x3931455b1a299fce1b7cea8b1fa0ec488b7303a8b4869d47fe2232f1759eb5e1), none),
  ((0x38e107606f742814f6856907d931950f821aba73da0ff03806af57e9cf3290, 0x5f96f1ea8ed66e9df6cb114357cae0108f1b670e4e0675092f50127997921034), none),
  ((0x921ca56dc961178750f15fc30f910418a831bfd19e5710b742ce6c04ea06120c, 0xf94617b855225930a06f56a8bcd0eae54f6036369e5247a9e5dfe4a4b2a8cc5a), some (0xdaae71d6df47a5af63ef3ddbc064ffdbf4bfcae79f0a5f45133959fa5df12ccf, 0xcca7dabf118a503ab2ae087c27cd667310ca8f10aaabd0d37405d5bfc15ee93c)),
  ((0x806ec99bcc68f558e47d7d0a4b7362c6163f353a26cb39996da3f0ea07263789, 0x248225b86793d6910bd44f5dae1177d90a81f902b3a5b274c231742509dc54af), some (0x7a94ee412d636aa7d2d5ddfe3aab9549b4b79ad4e1180794bfbc6f71e8ac42cb, 0xce0f9e4584a6f6cd5f99faace9f4f4576791a89da9aa24d20ed7c0ea2bcb49f6)),
  ((0xdb3f72661add15fa1de2f5697487b60b448d6ccd965dc3b87aa9f4c1700b56d0, 0x67bcaf129269a467ca9ff2d4cb80c60bd3d965837595295f4ff263f3ce962bf8), some (0xb82f1a1b0bbd8512bbd1c1d7ea1094810085a811d9beeee4c6feb24d764f3d22, 0x80ecff06d5bf11f7191655f9a7ddb4220e102ab147ef933987076336b35bf53f)),
  ((0x62d432258def49180b8f39d6c12ade2765daf9afd9bdd5fc27d47b463888b779, 0x192364dd6154222d27197a29c2fa52f39b16ab0ab3d5f49361e0c1713d26560a), some (0x43dfe639d29b8c8ceafb660e380f5fbfdfdc3b4d6f70844ffa9e2933980f6b22, 0x8388defd471da215d503189dcb5b666b4ea9238e506df9ea54ff33b31d9dc3e)),
  ((0x15965b27d8baf919c6edf5f68b42d23a1c5487e131124fc16a9693ff5c438ad8, 0x81bc599485a756ef3226ab995e1ac89a54ae95d9492d602333a9574da61eecbd), none),
  ((0x2384c39ceccf471b6d14c24e1cf0b9ece9636b4f17785940e500b36508c5fcab, 0x49edbf41c318d73496c885cee3179c1b767edfd41582a3904c31c3b5858f249d), none),
  ((0xfeabb397c0d12ddc521e363be04f2a88b9de21f96e787baf1bc2be5175d473cb, 0x37e131ea92c2ba01c50487ea3cc92217cf143b411127304e894277a1d49519fb), some (0xdd5f19f9fd8eae535e4e1500b9aa13775e7b8cf7ec6162f88b941483dd726851, 0xbebdf065109085392d83d0ba6f64c385bf618c24f883c5dad8a974bf383dcc79)),
  ((0xf3f4e6e618da576addd707c7479598700346b593a2942b9e7ab494e484c4ba97, 0x8d7807dc7c36bae4818ec1b46e9823d84406a7de37f8290903a6445d0dc52e56), some (0xe4e0f2348d56e0327e0a6c677f607b56dade6eebc4b6c3aedc573190dc29898b, 0x5cdd0344f80e4bfd3c9153c633f193d00e40bc7d0fd7f1a23d37e8f3838778de)),
  ((0xf48ee9ab68701a87eaea108f45ed6a07b04f7b83448ffb9465b6200287b8dd17, 0x46292f5dadab51795a1d387371da19142cd4502b1c3047d000eda715bb0ce011), none),
  ((0x7636e8a948de1fd4ae4735cbe7b9cbee9824e6be348dc5aa44a190c2f3a7f1a5, 0x81fe732a47d211243cb17594b0d4d810ffec96f14156d7ed6ce5143b50db4566), none),
  ((0x5405f31325b54bd46fbc8357cb831760d74d27ad93328ac2d37a5a2f5ef6faf0, 0x2d8df73de9b37c27ace8d24fedf369b92a5bd6ee1eb7c1e6a73819b675fbfb6b), none),
  ((0x36829a7b66e569ef74bddfad9c5df1bd2dfbd1a6594e736359024ef54933a6fb, 0x7ffa3e3c7334655f247d875382837924a235a8c142e340f432092f847e68d37e), some (0x58519e2338492b55e026372dc56f0d1259bd868fff535910d15937f97a3b7403, 0x4f6f1801078e9d7deccfc2e2ac0cdb3af6bca29f267b1b2b93fe83bc3d04a7a1)),
  ((0xa122b4e36a2984a1247afb63361be84ee287d518c20ffe7f10203b0f3f88b661, 0x469d56a3bd5d74ce52e0a2afcc5733cd3f84b6e9026760f68344bf9396f94eea), none),
  ((0xa24c49db27c9c86882a2bd3f3b7852dd27bf40aede2cee20772bf84779f9a19, 0x69ac3b3ecd922383f81055f2e71fad71f979d73d718f38d6d9d484f5bb9b55e), none),
  ((0xab977b41832e07b636c976688e9e0f7c6a6b43025b618402be0c2a2c1e316285, 0x22471e9bfce6de5b0ad5633412eb8914c4fda72d738541d4d0c9fa900f3b8ac8), some (0xb2bcaa7645b611c5273d5f848fa3df2b0fe5aaec56c73572377ff980e28f14b5, 0x911b4e0f5481da1f0eddf236ec9809e5d5a099dd7db206faab103af89b2f236)),
  ((0xb3b8fb0b095a41ae7d1e942e08f37af763bcd6d0221927f8791c5d4460bdeac3, 0x83ff4ce2dacc0a44fa5eff69c58ee6365776bf56a609e18a46c86f4a3b9f6a52), some (0x194673e49bb679c0aa37f6dd0c59bc2b18409c771df4c4ca55e9753b3411bf0b, 0x8f4bea129b3bbb37a09a8f24a0bd76d3ec0bb46785d36e860c4c8e5e67d5e7ae)),
  ((0x3635b01e45993c897118b674856ee8668da0ec2576c6b38bda8c4b4221abec29, 0xec480736f06bdbe5f346f81b8baa89e18652eee106c12f0b7098182574a82a1d), some (0x3c0b3d9aea2003f0edf9f1152148df2aecb4f4117980c62bed61ae3fc32e8732, 0xba617fdc2f1f34c4a781c9dc004a02b03909ed79d666fd8b629da8e03994667f)),
  ((0x26e00d80c8319b95d278a40111bf9cb4daa605ed666f6104f9970abbf582059c, 0x56daacbbfbea6e12f661f00d631b651c4c1f3b08f33a40b7dee505366e20f660), some (0x684e5991c4c93344eefdb71b7c8914a62d9912f1265f5aba1744ac5ae824fda1, 0xc843b0eacda854b1b27bb098e166e77193f7dbae585d781f7ebab1ebafe5cb1f)),
  ((0x5d747a004f2ecf9f0a4427257d17218278578ac95ff53546b580805c43d8bcb, 0xaa9049973bc6687b151469ef1afe28857741206942ca8b7b55b39d44e9743c0a), some (0x25f61369005aaf06d2feb119c1853915bb1e2288019df7e594ccf7e86a85a459, 0xf76fa740389ced33744923681c813c375b328dc62ee334bc5f63456f12910197)),
  ((0x9c59a7e02bd9f17bf9c0ea40ec4634ace287e4033c724711fa60e258799593ff, 0x4191a158c5610d5e408d37ed72cce7655d0c4fd2498d524550d48b1f454da1a0), some (0xa1142c858aa8b20eceb4a28ec60ba8f40004741b585417991dec7165eaa0410a, 0xc28e49560935272ea3e64c4d24c6181f8ace5feb33a5883bb575ddb3a016fea4)),
  ((0x2bf2b1e911f50a0985b1a9179cf66e021b2f015f50045692062c0ab0da822e91, 0x35837dc56bb9d41cdcca6c8f6ce9772ec2ae31ed1b3fb57cda4d199312147c36), none),
  ((0x44923c9f74cf7c7f688d361a45cb267dc7bcde34ee11e75274fd7a7d205b48de, 0xc25213026acbc9742c1c675f38dd2d25e9c96987514dc8df79e0b233683f4386), none),
  ((0x98799389234888f4094400a375829b7ddc249bb72b041e446b075f7525c2f63c, 0xabf81a032e0544c137461e8fc56acf6b6a91016d84a54e4bc9d4fd880f5022ba), some (0xd177761fb5d9197f9930ce76db31851fc6fb19fc062e78bbe852cf1e4ea1d729, 0x60c769c4a8e6ec917908084af743b6d451b81d5c0822e0e094bb2db4b0f895fd)),
  ((0xb46c6a9f99f2e853cb3a7d0fe7ee0b08d68a94051ade2fa24da74ac957549784, 0xf3ee62652c588e8c437b10d0db67fa4d7fe265d49768d36eba8fbd4481572403), some (0x901c22df2f7daf2048736e072e0277f5595ddd4c3d6734e7d8709da7b9d617a3, 0x15278ea3384830026c72ef39d4ce5d990bb92f30946946dea6eeefdb2e034e4)),
  ((0xd8aadcfff937cbaf2f74d3bfe7cd3b904642d22fd3a04dfab71b6b6a4986348c, 0x9b372eca17217c4a9fe49a1ccf10af6bdcfb11eb4d5df15091384c4cae65d8b3), none),
  ((0x97f260a7677e76ad1d792fb9f5285a8c8b50a49976e6d439d8c0012b0e690868, 0xd2402fa666db3c0bb26407d870eedbc4ed51af325d6b8efd958d37e0a327d140), some (0x876c01e92b96a530ed4a9e3625966085778e69a9818c557d13d1cdd5551dff8, 0xb02320eea540e90976ddb1a11a8c706926c9168c9e2a41fcd5070ff66d082248)),
  ((0x93b24be31605812d604cc4cf432008c56d1cd33bc4fb9a39a5cf6b9e1deb6530, 0x3f96a3356138fb2334943502265473e239a03d771c78ad42f5c6f2e17038c5fd), none),
  ((0x750ff3b8aa98b9c5ce52a9109bfd25a481fcb4330626082a8a8eb49a8404866f, 0xd4b3844496e56c339ad2514d22969f262ef37b0522dbbfef5e552eacbfb1fe16), none),
  ((0x1d69680bebd09d9ac48d2e440bc3f8ec3715fb2f5ec9485067d4fa87b8b594f2, 0x6c5d4a91fd80ab963553dbc4d3ed6968df582b65b9b64dc7739cc2fd0f2f00d5), none),
  ((0xe0d12be280d547f6760d0cea7279f8855f8fe676b98b3d0189a64b51342a6820, 0x3546a01188461ace7cddd1759530185a1d21fe8dce6002a7c981d1b723434d1c), some (0xd9bb731f1d0069f5abbfc22826fcaaa0761ae7607d41602659cf80b16c6dc7a3, 0xb6f8297fa0251b7cd27b339232ffee22fac1820c126dff4394290b1df940ae4f)),
  ((0xf931b3a72968495a04fe7ac913c3f5489360963648dfb4d0f27c34bf4d5bf83a, 0x299e355965e8d6cd06de9d997586be475fe96f9fbb5c1d881313bd64d3dbfc23), none),
  ((0x3675db5e94ee2c78e40f8b139a35448c75f72c6e4447c63584520507d8723717, 0x6345bdc8cc6387af3aac76b25352e861b19f2f3c0fe6d5cd2f98ddb1f4569133), some (0x1182cd66c5fbbacc71f49b64585935eeebd53aa383fbf6fd80fc11f0ba430392, 0x9c06857709a27c433bad3c88b07903bf5c2a49c8c7be3351266c51236fe145f)),
  ((0x6d9fa5a8e017cecea367b8d6b17514192830520cb28d442439fe87c6f3c61888, 0x246379a7dce3a411845d36a40086f0799d15af26454c409fc4d8c95cf33e99aa), none),
  ((0xc24359e7aaf8d96c8b4447cadb314c93f41925995d0d845ea4948ad9b5dbf833, 0xdd29a6ed28f644974c2041221bc5e5248ec4a3f5503d47bd227a680da6524eb3), some (0xce5917f9d8c7a8fbae7d1bb02686c546bbe9d246a92c0f9afe1eb537dc3ad292, 0xf3de0ea76f77c986c27941340d63a0d71f4643908132bb9559ccef27556d929d)),
  ((0x59574872c248834774f5161795411e74b7b19baad1c7152a7ee1a98ce32dfc0d, 0x6091c54e9987843f98bcae1223ddc190f0906913cbe57cd88bd24d49c43c4a50), some (0x3d7542699ffa75411c3c129e1b699b20b2a987d4a3820e1ba96e0b9e5fb36e51, 0xee73a752659ba3396b86909746f20d40657b708b459f124c5972407a524fb0f)),
  ((0x512b42e7641fcdfcdd2c3df6f9389df710229c7683bed3b6515e3f6cada43d48, 0x35f79fabe306d3fb70769dc2155ba44e57bb12442bacf63361bd847c8f5388a9), some (0xb1dbe2872a54f8e0e8186372f0520f18b599f42d75eeea17a65a97144703cd27, 0x73983c94259f194013187986327f9c7a737e7765e9a66501c09f6e151ffc4d80)),
  ((0x61152ad84fb45963b04c4b306f5ffa4b3c230f4eec2b0a67216e0fdb9a7dae1c, 0xc6776aa72416aaac8cc748f8a0c6d3c0915651e438dc2d4e7feb3b06aebdb8ee), none),
  ((0x981d1b97113af708cc4e97a607adc792869962502c424e836ffe8ce3fcec7724, 0x343105872e16e804e8f5edc237a03945cceceb6c294f18f283b23582c41994c), none),
  ((0x63acc564445ff0cf74bf9a3abc4da52caa1d5597be60c0e1bd860d77d3b17eb, 0xf20a07e103dbff501bcb05a6cc421e2dc774b4d7ae66b8bab985c209f3fff7de), none),
  ((0x52db5f5c74ff304eb7873ea712ead453a5c88eeedd09f55425941c40f13c6677, 0x765548a13f7a927b27fa5a3ef84da395a06e29cafe574ecfccb027247ce6738c), none),
  ((0xaba682568437715d3cfcc3167d8b027ce53f837919c5850d999c97c73e9add3a, 0x72f632df561a7bbb2cb2024de2bca706ddc311190dc0f5b2a5b4aead78e0cb26), some (0xcd1a3c8b49751a7530286c92c2e8e247882868b845e3132ed929ee5237c750e2, 0x5c12854292fdff7a4ba04f6f0794133d6b67b2845e79ebec768e621b86935fab)),
  ((0x6394f626b430af568808c7d0cc4eb37f850a9afd63d8c892346beb0d49446a9f, 0x1752e7469cecf9813105de0a8ff42c92f58e13aac5fb37b71cddfc28d1ffdb93), some (0xa0b71cec2e67c65fc37ea92d7568713577b0184797f3c41f3b461072803afcae, 0x1fd9580e6579b044f7f7e42acb6851ce7de61e1f69614f7a450dd68035606695)),
  ((0x37d31662ca78a1f204121090e0eb980a10523e3f3b0fadd37453f23a51aaaf04, 0x2d9b44e77748df07fad110973cffac42cdf85c92861cf77d7ff9810ff6d8307f), none),
  ((0x3cf3046f7852c95f30230521c75c5c490f85e7175175b83612632d01d0a4e5c2, 0xeaf3624e389f9a75d9cbc12562c0ec118ea9e43c8e42c15796673cbf4a29547f), some (0x6fcf9c7c2a21f99e91e4056feda733ec2a237dc01639773891de6b0c56a27fc6, 0xcbaffeaa19b5596c1e0e78e708290a9c418e0041f00e89bf6e4d700f3de1e741)),
  ((0x5f2035668e1cb24c23a82812a89a70a81c745e436dca099d413c7dd4592f547f, 0x6c863347a34ce88e4e19936f6b5d6aa2570a96d0ab0372c8bd9613e9efe2f827), some (0x16c5eccd6dd88d312e73b0055aff8745ad8590a63888b5125236f4e16cd3d2da, 0xc96ee38018c5736e421a6288f983608b7826e93aafe15227bbbc089ef365e027)),
  ((0x1f88c424e7ccffad72aefecf068d425bc3fe78639b9082db487667781a97d7db, 0x6d371bcc7b12d2a2381d96b6b33305546498730623fb4895f45989b56c21a9e8), none),
  ((0x91de5df665845fc78fe5f311eee92a710cdb446f42f26ae8e787fe1a0ece12bf, 0x43c3ef4ea7140c66c8635192d71675b24b1c3085ce984ba79e6454b5658d78c7), none),
  ((0xa7d7b48d9e1187e769abba40e9a15b081e800265e226053f818c69f83d88390, 0xcce298d7ab5543d28867d906c08d28ac1adb285ddb050355d172318ae6139dd6), some (0x3d309ba38d4b4a06886ffb119667502abf5dd9b88ba2bd78ee7424b1fc92adf6, 0x41ac06f7a89eccee27ad9e83f3d5f5e0fd466b39a251b488c10ac9cba8d4c2cd)),
  ((0xc3d5dc9ec355f95ecd30d8ef2c1ffc86ab1e84393bbe710b8c4dab2dc20e2acd, 0xdd75e2930544b5d19f54974417a37237e07db2fe02a253701181948bfa023bd4), none),
  ((0x817c210df9af476e40d5d9f6761fcff937ce53b078d706b9a67ac8b21d19d48f, 0xf6fa279520eb0ea63538642e55cb1e88bd6860d2460ca8a5b8849f7960d7b662), none),
  ((0xa5a118f031b4e8cee69eb8110a2e530baea065d10a74b8cb7180ed4913f75240, 0x377c3c937413f0f5836f1aa8fa69fb60037529927a28b32447f05946f0dde154), none),
  ((0xb0bdf698dbaa27eda4f010228c99eaa0ec3957f15f9ad3c910f52bc3deeefa4, 0x788f92f9ec75253723d5db7c3337c70864f61c7bd4972d0494dff6b750fdc62), none),
  ((0x6a4485ac5c6caaf5d54db2d4554eff638e6a5198979d85399c8560daad993469, 0xe4254710c80d490e44cb09c582abe965ed49daf7ac6eb2ff614e72951a9a9f4f), none),
  ((0x1b9524b87384c3271a90e5bcfd953fa373ceb93b2f86f8c23410e0897e801b2c, 0xabebed54505088fca48ed1f696ad3feedf1dd4852507db34a6c65f2df9aff9da), some (0xb74936b9e6dee149f7aad3ebd3d5857da2243c02077970c98caf4da194378d00, 0x40cafc146e2bedb707881dfcf23c02f60a20d4750e6b7cabf648b2725a1d63f5)),
  ((0x35c9845f361a0835261c504cbbca908884c4bd1a9b311fcc3f48d04cd7d5fc53, 0x680a47d3b3011fd2f5c5e64b6ccd20811c2ba4c4b1db039599b7a205af67f157), none),
  ((0xd984018bf5348a4a1d3634cc01056f93cfffeff3242a8d1959ea5d8559d628a2, 0x6d79efb372eddca15e498e96600a12aed2b99a0045edb3ae6347fd6228faa3f8), none),
  ((0x78f0206d079d60af16a67cc0a80fc810b7306b4883f3ff1431f3ef8c0ff4ec93, 0xebf26844ee0ea7ba3ac5a534ae76a72c171d7c0a248c31535b363f1c111d7c12), none),
  ((0x5c31a1283045c4ed0676b7933bc02d674efd9626050ed2b87acba8d114e6c9c0, 0xd65dcc2da0508cab6765a1687396e69b0cee0315accff8ed7797de048b58bf50), some (0x125bf09e33a16127012e97bfc92d8f5843ebac21bdc2b007a4080368917eea03, 0xe7be60af332a41158a50ac868cacca349ddc310907a3c14eb2774c1a39b34e0e)),
  ((0xa6127d35bf3a0c8f40259a8871c7c862383a3da76f224246a21cee5077c7dc6c, 0xf3fe549cad9601bcc7f32ce393a9db629d83cfe5c42112cdc0f5a16384658410), none),
  ((0xea6d5771020d414e9a05a6393dfb793b6697f1e6686eb4269a99d29abc0efc95, 0x60f26d358a659995616a2f2b4c2d1956c9dbabddecc5e90d9e13387577ee2df1), none)]

def schnorrK : Nat := 0xd92231e38497d1347788854a79bdbee08798e371bb9057d88f313f34570d9044
def schnorrX : Nat := 0xea6d5771020d414e9a05a6393dfb793b6697f1e6686eb4269a99d29abc0efc95
def schnorrY : Nat := 0x60f26d358a659995616a2f2b4c2d1956c9dbabddecc5e90d9e13387577ee2df1
def schnorrE : Nat := 0xdf6c7cf25143faf4f825c66674282583a3bfe08f17d86f273158bbc4a4fcb788
def schnorrS : Nat := 0x64a4b0eccac29c0809d411bfa6a66a31c26fd1d5c48174ea2277c904def2744

theorem schnorr_at : At (schnorrK • G) ((schnorrX : Nat) : Fp) ((schnorrY : Nat) : Fp) := by
  have := mulCheck_sound schnorrSteps 1 (secpGx, secpGy) (schnorrX, schnorrY) (by rw [one_nsmul]; exact at_G) (by decide +kernel)
  rw [show mulScalar 1 schnorrSteps = schnorrK by decide +kernel] at this
  exact this

end UB
