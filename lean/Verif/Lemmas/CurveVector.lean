import Verif.Lemmas.CurveOrder

/-
One multiple of the base point, checked step by step (used in the examples beside the theorems about signatures): the nonce of the
well-known RFC 6979 test vector for secp256k1 with the key 1 and the text "Satoshi Nakamoto".
-/

namespace UB
open Spec

/-- One step of double-and-add: the double, and the sum with the base point if there is one. -/
abbrev MulStep := (Nat × Nat) × Option (Nat × Nat)

def mulCheck (acc : Nat × Nat) : List MulStep → Option (Nat × Nat)
  | [] => some acc
  | (d, none) :: r => if doubleCheck acc d then mulCheck d r else none
  | (d, some a) :: r => if doubleCheck acc d && addCheck d (secpGx, secpGy) a then mulCheck a r else none

def mulScalar (k : Nat) : List MulStep → Nat
  | [] => k
  | (_, none) :: r => mulScalar (2 * k) r
  | (_, some _) :: r => mulScalar (2 * k + 1) r

theorem mulCheck_sound : ∀ (steps : List MulStep) (k : Nat) (acc out : Nat × Nat), AtN (k • G) acc → mulCheck acc steps = some out →
    AtN (mulScalar k steps • G) out := by
  intro steps
  induction steps with
  | nil => intro k acc out h e; cases e; exact h
  | cons st r ih =>
    intro k acc out h e
    obtain ⟨d, o⟩ := st
    cases o with
    | none =>
      simp only [mulCheck] at e
      split at e
      · rename_i hc
        have := doubleCheck_sound h hc
        rw [← two_nsmul, ← mul_nsmul'] at this
        exact ih _ _ _ this e
      · cases e
    | some a =>
      simp only [mulCheck] at e
      split at e
      · rename_i hc
        rw [Bool.and_eq_true] at hc
        have := doubleCheck_sound h hc.1
        rw [← two_nsmul, ← mul_nsmul'] at this
        have := addCheck_sound this (show AtN G (secpGx, secpGy) from at_G) hc.2
        rw [← succ_nsmul] at this
        exact ih _ _ _ this e
      · cases e

def vectorSteps : List MulStep := [
  ((0xc6047f9441ed7d6d3045406e95c07cd85c778e4b8cef3ca7abac09b95c709ee5, 0x1ae168fea63dc339a3c58419466ceaeef7f632653266d0e1236431a950cfe52a), none),
  ((0xe493dbf1c10d80f3581e4904930b1404cc6c13900ee0758474fa94abe8c4cd13, 0x51ed993ea0d455b75642e2098ea51448d967ae33bfbdfe40cfe97bdc47739922), none),
  ((0x2f01e5e15cca351daff3843fb70f3c2f0a1bdd05e5af888a67784ef3e10a2a01, 0x5c4da8a741539949293d082a132d13b4c2e213d6ba5b7617b5da2cb76cbde904), none),
  ((0xe60fce93b59e9ec53011aabc21c23e97b2a31369b87a5ae9c44ee89e2a6dec0a, 0xf7e3507399e595929db99f34f57937101296891e44d23f0be1f32cce69616821), some (0xdefdea4cdb677750a420fee807eacf21eb9898ae79b9768766e4faa04a2d4a34, 0x4211ab0694635168e997b0ead2a93daeced1f4a04a95c0f6cfb199f69e56eb77)),
  ((0x1be68a5a028f2601d0e80d468c344ba331d611b96c358b6032e8b4da0547fc11, 0xbebc47511ade7308b3ca6265f9400779c076329c75146bc6ff1822f5d1f30e79), some (0x605bdb019981718b986d0f07e834cb0d9deb8360ffb7f61df982345ef27a7479, 0x2972d2de4f8d20681a78d93ec96fe23c26bfae84fb14db43b01e1e9056b8c49)),
  ((0xc00be8830995d1e44f1420dd3b90d3441fb66f6861c84a35f959c495a3be5440, 0xecf9665e6eba45720de652a340600c7356efe24d228bfe6ea2043e7791c51bb7), some (0x290798c2b6476830da12fe02287e9e777aa3fba1c355b17a722d362f84614fba, 0xe38da76dcd440621988d00bcf79af25d5b29c094db2a23146d003afd41943e7a)),
  ((0xef68a2c7ad33241d6adc31b4e7830036b5e571af914fe014c9f81b66ff472adb, 0x202632e371066766e8842c4bfd67c46c2abe221a176d0e2e786ef55ebe29887e), some (0xa0b1cae06b0a847a3fea6e671aaf8adfdfe58ca2f768105c8082b2e449fce252, 0xae434102edde0958ec4b19d917a6a28e6b72da1834aff0e650f049503a296cf2)),
  ((0x4b8b2d95c98777ba4663785ce387c4ac220c57cb0d48496c241dd1f60f2ce57b, 0x3cd961a34d4043d0dfd0c1bd2999fd38150334d56c3759dd4e66febd43ff0440), some (0x8c050fc34d83b279b6000816e18fca389767b7960e92677255b84a39d93a6807, 0x986314ef75b68fb2827c2965041981395d699fcd81cf23ce7019bc4135174870)),
  ((0x3373695d3221a0267b087b4d377956c3daf985e95ea9a33381668aa8ad046bf, 0x3fd2c9b429d77d978f5ca067c189221a728c697426f9da2e6249d685efe231c9), none),
  ((0x97683a9bdbe85fd63af4751912bcc33dd4781b80a731e7bb5ca6d0678426221, 0x91d3150e80eb707df6276bab5a26dc2266b576e70d1a4e3b9e1c76038ac508ef), none),
  ((0x2c331311cde91a3ccfd23b12848e595f3cb6763b2225f92bdbe49f7811ee7378, 0xfd06f2c4c4285f23937eaf469cc0cf6a7dd182536a6087eccbd4055c74ec6754), none),
  ((0xe6bcd838da1b21ac69eaa6ef8b6dc1bff7193a0eb5caf2927d14f32a754c0f72, 0xe260b0335d67112965fa01983c2af9220e7f86cdc2aa68b62c2530978f5db707), some (0xb0bbc2d2753bd89ab2bf1664e6cf212ca590d65f5664e6947ccdf9773ea8d09a, 0x9057b6c1a1078baba14190654cc67052072257411f34d47e47f09bdc8f993c23)),
  ((0x199aa60b0f13f740217c4bd41f787d945c09a92a89890902e9e09aa93d925b97, 0x96d4cfbdb1210eba73e27ae31d19dbe4015ef3265c4f5cb2b31437ad5b3ecd15), none),
  ((0xdc89faff35c071fb7ab2111a0c62960fde6c0f9d745846ad3517117f0a21e733, 0x8da3a38ede7967b9d12a8903a7d1bf91853c6128120e3b5cc9776f7deefba601), some (0x8fb13c7dadcfc8b99473ac6e13a988ffbac0f369079e3e34d4f80b87e7c4eaa7, 0xcf13ae9ce3f8e7dbad4cce8e9f91dc4868679fca456319a88e0459b175a199f2)),
  ((0xe60e1b67c134e4504ff1ee8b8e6f2c4b95ce0b352cb3edebc59f5158d63bf887, 0xbfbe7537873b9ae48dfef97572d6851447d7afa2e223cba5517f8894bcc000ab), none),
  ((0x138ce8e442aab1af14654ccdfbb3c10022071f7b29a9643d97c414111f288fc5, 0x7e29162dbf7fd630d26ee8376b13915a1ce910388fa7b4b9f29523eb7d970810), none),
  ((0x8d10e547fa81ad77d96be10306df377625f05ea1017021df8901e07d42605e9e, 0x766b0d0d50512e403b2e609010fa14ab06dffede1fae24db742dcf655feaad4), none),
  ((0x80f7b0140fdc99f1aec28dc6ed04af0909f742e7eb498c822ac799e4e19c0d5a, 0xb0cfd83a59f66e16436f95ee8fdd3d98022fee89936ee08a6e4717febaac8e49), some (0xebb5278f04b66db87ae174c7849d5e7263f6c4bb7ed23f6ac8bb49a681f266f9, 0xb2177f96dea94267459c87b5db4892a13dbb3f6fd7b60e3a2562d6c849901b3f)),
  ((0x35c1876ae901d52ef91436977a645a26cc73e927458f53ba4ed900240c927cbd, 0xa6774fe30c30c04b6ca10482dbfdcb22e212efaa63350a0b93c4bd802ceafcca), none),
  ((0x6ce8f1a8523fe26fd9b11b391a471b09bcafd4eda729acc4e67292d59aef369d, 0x6eab872f73ff94fdd427965a5f245f1c346630b5f1a2d82c7b279c24af73f6cf), none),
  ((0xd5ea80c868110d644212e65a58a018a837573264f0dbbf0e7e86ee2c00e9bb80, 0x54eb146f77e06468fae669721be36510a9d31eb58429d6f9847e9db404fa5958), some (0x650899337ee0d98e438ebcb4a6fbd95d0e04f84eac555964876bed21d74da4f1, 0x39459da87df34f7e844a066d41d168249542770e115006ab7dcf119cc9e72889)),
  ((0x424064fc63e587a8a1421b4c668ce457f91856be622f9d85c7bd53dc28364d48, 0x5f91423f9a8810b9a6eb3ae9987587f0bbd2f10e19ac0e0633289d80083be971), some (0xbc03728c74ea55623962a57ea18fc9c82cd3e7c14fbc7e25a097764ea42aec8f, 0xb928baf304e1a9729610c4ca9f94a629c75c8d0512c95ab29e139700645a9728)),
  ((0x82bd84ecbbdb40a376480046995c264586f8669aa05e7be25a4f5a8c1059b84c, 0x5046d0316da24b627d3ba0a0dfc62c5fa4c19a652098d064b6b0e0f604646dcc), some (0x7b23bd62ed9db8951703b05eb5ba9e9025b6ca2a782e117083b2ade9506462ee, 0xa421867bd15ceccc5b1223ef538f09df2a92817aae7cd0f69260e4a77bab109b)),
  ((0xf8b2011b73d568f67a8b92635bb965d34e5b10491f15412a02d8156238384a8c, 0x4d92583799ac093a64272c1fd709dcef84627ac1953a4753b760a2c16897b800), none),
  ((0x4b30fbfb9cf753a65dee8db9f1e6acfd67a7be8a3ff8566dcefde45640aefafa, 0x7081af5087c165a373c9ca8e52bfce1a67ae825aee7601b972aa00b0954c63af), some (0x196f7624ec7860b026d24568d0581dc57cff0e329b091e934db705bbaf9aff12, 0x8ea98888c56e3ec0a49d0437b6268b54cedcd63d1a564f0175c9aa38269f9f71)),
  ((0x64d0ce69797d99c867e0e592f1eb82f6adb60c986aa477a284cbd1f96e55bb57, 0x17b1af83026892e082935aa2d40746731b7983c8da619f57bb1fc6cbb6b936d5), some (0xf96be24fd5949d8943debc2652ed4ff770ff3b51c08f1fba4d6b679d3440a30a, 0x994ec342ffd56e9c50f6ce5f08f3fa3c5e5e2be3fa7ceb05a6f60325107e3683)),
  ((0x58b94dc28bd65458d0e1d1217a3b418e0b43fd4aeb8310c262a6c153d19e0a82, 0xfe6055e62a55093c1d2883a0b51435fe722db186cf17b03aa7a596ac1a620c2), none),
  ((0x484ecbe1adf9041e63cc0372ee225e2d5de42c7773f581ec40b126e6913aee80, 0xd04643e1ab48ab8c4209aab0e9979f67c751f470511fa3ae4aa5937447df7cd4), some (0x89737e15fa2736bdae00c20eee309f9d1683b530f134bac4231f414d9530a547, 0x5312a5d5ef1b0bbc7056a31e7be74f4663f3cc304dd3aac7aebc795d06d2bab7)),
  ((0xcbbf899f55351f51bf8131551128a49d54d55c2c2bace31e6ced390231d689f, 0xb76ed27905a552c18f1091352fd7c12995ac9ebda781f18ced65ba1b468e99f9), some (0x1eeda8cd67c0851706361da25144e54687e24ee7c55f6ef61464a703d187cea3, 0x2b0683688d7203c151bf5ab3bd96b597f943ce3b8caa989caf9ad1f6d83e5fe6)),
  ((0xaf55f6b3e42313a13f30566d24be3da71c747205c11d40a25284d8c64ed10a95, 0xfeeb235d1f487d33d2b14293536a27f18b2e86c77896d731273514ac1d05d0db), none),
  ((0x7b1e05ef1011c881cc85a181125c91e1f5d100dc16c11f7422d572cf1e275f1f, 0x75bbb4c18d74a776bd723934239bd0adf8c3b166f1be0e40005084295da78e53), none),
  ((0x73a51b061e8be869664d884cdfe88b3a19f9bf472fc19679fb68e954ec433e79, 0x98c13dd811cecd3c9e3293ce4cd7a3b6331053481d76490b7f7aab24d8e0f56d), none),
  ((0x40081d1d06a8316d23bcf548adb6c99feef6987eba1f7f81f543ed695ad23cf9, 0x37734af4bd1bcf74dd4513e7e81bf390969c2be593998431e55ae3e305089fdf), none),
  ((0x89cbce16b979f302bf02bd397e78c4e9f21912b99c052eeaf492898abf9db2bb, 0xaea1eb181bdea9d5b980e9e41ef89dadb1b3c3580fe29a96c691ed1a751491f5), none),
  ((0x79aa1fd320251d0f4f1589e1522f817daa4883f5f1a02b7b0098b2d2a1e43311, 0x4c7c74fb48e120eafb5b21343e49d8c873d75dfcf2d6e241008974cccb77f3ab), some (0x7342bef3df9a3166ab52f5842732563e0514c9d42c95df0c68a0411469f5c8c3, 0xb75cc3e08ee5ad6510ab4cba5e10a35296a49e222af93dca9926ced1de2c6ce3)),
  ((0xb9135558ce49e330bebbff1e69183be8a60398dfe5cf9c737df767ed44c020b, 0xa79260b3fb88fb51991963c2a0f2666836afce8f75ba660991888224b46615f0), some (0x77626b84aa3139b0eb98600af2b9aebfb0a5f562371a370e8a25b0e27ae565c1, 0x301ac8169352876b3462a71cb1f55582da038b1e3559be66915fb16fb7f8294b)),
  ((0xd4706990ede371eba46c981ce60986c3850d4256e169da7dcdb959ac78f511a, 0x54195b6be34610aefd6d355c56af147f52241ad69635728b6cd5baebf3c3fe51), none),
  ((0x214d7e5dd39b1491ff74aaa3be6b882229f75a5fe3efd48c4231b2cf361aa080, 0x9fb179e32fd8298b4d125b317337330c15440bdfd29785a371eedda4813e1272), none),
  ((0x20f6fc9b8a914981770cb898139ff7c1db3525fa129ecea09d25b07adbcf42e6, 0x764c4624b6f3ed4f4d09e0077b150790e6a4be634a56b323d421f1ea072aa8ac), some (0x3bf8788b9e213ac4f1fab829bee82783312c2cc5645b47c0085ca0f180fa213b, 0xfa395f1e9f12f1219c8ee1598f5d6852d1403138e6dacc949db0d43e7c33cecb)),
  ((0xe1b8f00bc4fc3fa228e9826e8472ebd0e8e0792633d6e9b8a6187304163b22b1, 0x8ef9612b4580d7c79313b8a1ae7abdaa210de2a673d47554fcfc5dc38c9fc9cd), some (0xd7f74046afc41447e34a7ceb0fdc502d245574b1741f4ffee8cee4a657e7e7e6, 0x970b9a4eeb4c1c6c13e2c212de9e3853a53811d452b4e0f10ec8f1970620662a)),
  ((0xce34dbbe6af3997bc22bf4619496fa17de7dbebc909fa2cb4d7cbb10bd48b311, 0x55c45b6cb7b8b1e4f6e5b7ff07aa676ba8252f7d451e7c86539037c5d8ea499), some (0xddf621f1abeaa4507e2e6e442bcf0115dc1f06f101a68f5d6e94816367811a84, 0x6b55815d55eaa0aa5e530381772c67178559aacaccb0a3e625145cbea2f924d2)),
  ((0xfcf64a0a171b11269c03f033f7625729f9e059aa24451d33d9c8317f2345b7af, 0xde9308b6f137d23ea9412b15705170dac84292bfc07f7f0feb9a48b0ef325ea0), some (0xcccedd5a83fdce3bba0a4ada1cdbff2c0ffe85e601b92ff39cdb5b80c98b699a, 0x80bcf8dc63c55a3c57b1a011d58646a45b759f8de67148dc5b4f42477b5ccfef)),
  ((0x21a0bb35fc852c57e8e923ac735b345aa7eb30f14842676f764035db2551700e, 0xa77a5e758d732a5d1d9802e1d8ff4719a7efe5b86ae70d1df27b3119f129268b), some (0x8591b346092dc4881ef06195afb58764f3c9b3024427fc77644d1b4259391cc4, 0x2f07b5d4cb5f65b82f7998574390db4723bd098df2d669135a22b6a2cc018320)),
  ((0x970af079abb37305603e31a76666994a91af5cc8f9748328f78d582f61de6f54, 0x27f5afe8e6645004a555ccfb81600950ccb1d927c6e8f92588dfbfd7229c8992), none),
  ((0xd76a1819865fda788e38020fad7abfd609bf61651b96cc7b8ab46af97eba3aa0, 0xe72e813ff25168865d73167b0e75dbcf6a7054f8862928dab3d61637c0dfada8), some (0xe1136471a81b4cb5e35be27e41f97168238a5bf073d0bcb8a2cb707d89b45a23, 0x3bce8b494dcedb9d456f9938518ec5d38e8581069bf8f87f7f440f61e2f5e90c)),
  ((0xc12e54acb5555996e9f757c5770c7816fc81386f7075f066e01dcbfb3a5390f6, 0x34d3817027d6fc174472103c92600f52c9ae1a3d42224874442be65507e7e58b), none),
  ((0x3ee9f254e55a3aaef0ca3c93e63b4e5ef6b6b1ebf7fcedb16d0beac15fbf9a4c, 0x25dc5dc2a5bd8a87e46203902febd5e1436bb9cbf270b0ea2a94efddd9522fbc), none),
  ((0xcce698c5cd75a646d66fd8b10b0dbedfe373837184a03d53bfc34cf0d3ecf247, 0x101cd345fdc16f5e273f915105e65fd39c979b3ce6ebdb37510817519f907f8b), none),
  ((0xe2b31d2c7f5340345f2075ee13a7818fdc9b02cfebf58fd2264e8e749746d756, 0x1fd450cd4c84ae8bda5cf9386fa9d240d19adebd6aa2bcf005b23e151975bf4), none),
  ((0x352fd3d6408b00acfe864800d4e509a9c7e02a11deefcfcc489815ccb894eae5, 0x12cb05d0a1d24fcc84573f4b1c6122d720c7782d028cd2d33f076661f039f1c8), none),
  ((0xf278d440880419a88bbdc1a14a20e9b3a3fceff1a943773edde2cc511f6099a5, 0xaa3b962195f59f3e8e04ddbb2a8720e26bd09fed3d7451ad0a206a14110afe3f), some (0xc35e8ae4c6669fb704b9d92fe39d848eb26549bafb8208c6bf5426edad1ec1b7, 0x702665419a9338c364e53e537b934f444b7f6dcbb900ebbf0704bc612f98f60d)),
  ((0xca608ad5e8262c996400ecef8a3ec7ec6aa52e862e78174c105246bf4601c494, 0x373226d429d0fa12e7bbd84c34f0579f70eda86943a7069faf7fe1f1b28e799a), none),
  ((0xc172a9f17ee48dfcc275252d38da9486dbec90918b9fc9bae9d753fe05d50e45, 0x782b9977021d5786ce838bcb62628ec3796b334b801ec30c556a676714c3d844), some (0x102e01a032d5faad702beee843f1d46157ea2f5fcae0b26483a69f8374bb9d45, 0xb25c6dcd6b0e8cd975f69c6e492f513281a427d0c1238af67750d24c45a85dcf)),
  ((0x2df58e4abc28792ca992e8a8809716bfb2cf2a1985f4f26ea6c8000e14897f7e, 0x4426c277b6c44036cc732bf2b04fa73524ee7d80e50e343f7d156a4bf81aabe6), none),
  ((0x3ce85ded8152c6f0daff02220d68c393bb21380899e770746344c829191e3898, 0x454c589d583daa235e48c40ad13066fffe84707cd6a3e121f287363c2eba719a), none),
  ((0xf1cc998da1167d3700e59cb5eab223837f9e8f95dbc6af2a83e6da165a0864dd, 0x58b9d2b33ffed1c8e95e5683571bac06c6886c7c35c591a7de835c97e7259a18), some (0x20890fc3421bddcfa95612d1f0614ea9459e89db91eadced2f6126d3c4c4901e, 0x98ce3f48a5f6eb520c52b2b66146c8057e458764cc9733a7b27128575b4ef6e1)),
  ((0x9ff58669a54bd0740ee3ad1ac2de6cb798422cc6fd8b47e745d2522aed1a384a, 0x1ab37e908b366651a2d3bf708ac49b475d65189ae73b609302bd4f0fff07ddf1), none),
  ((0xef608b3e40f4e0ba2c11b4a4f8d1b616af9ce9f6653e5507d80aa136381a00ac, 0x5804110616301d9f35dba295885b683c4049f3c15d2ad7e2d0fc966b6326f8e3), none),
  ((0xdc99d2f762d22a3eb8d07bc60ad0e371f94ce5acdb4ab42a288a73f099424bcf, 0xf9b370b03268ceb71ca90e021b724123f4c5778dd0f187b2fd29d2c988f79750), some (0xe98a1a9aa0123fd0cf19d3c6f68ebc94b126b04937bfbccb11a0b7221f26f1a3, 0x3ccec66f6bb8b5822844c234966e64bf95891851eb7c52417e520b271e1185d4)),
  ((0xfe7d4adbe369327e8f5e922c9b75bde988c4468906641f9921a74bb9bf1dace7, 0xcc013919fd40515e9cd2359c929120a9d022badaf1513a46be1f6a2d149c01f), none),
  ((0x7b3d9cf01b906e86dd7f15d196f40568924e77fba2c2f4370d4c902fe4c150ef, 0xbc48f4e8e8d7bdf124fb91297470d6919905448a483018126842867e234de731), some (0x31f7f53a922dcd481bfab305cc4e5fcb4e225e4f88bb80c50ae2a0a26c0472b9, 0xce6f722dacafded85ad17cdbb244846789a9791e3fc4ce724db1f5e59c863f32)),
  ((0x162ee6a21549fea285f353e43761164f9a290191f7c459c8d1ad0d203a829b01, 0xae88e816233a444a5d7c0dc5abfd857cb2148b148892c2c47fb14d0d5dd9df44), some (0x2d29cfc37cdb82c7d280dc42573d2c1fb4dbd3b0b8dc34d8014778a169f3d5d1, 0xcce3cfb25d1969c83507be0945868d4b17fa5b1e5faf43875c9f004d6fa71fc8)),
  ((0xa3b0e23e0d4f74ba4cc714f4858ca4e9068490b747d8ac0305d2ff2d732549b5, 0xd975967510306d4d2da13037766df6528e3c0fb3d93df83a72d58417b349cb71), none),
  ((0x5981a077eb174394890523f3f526a6de254d404f174b3d5b2ac2da05d9330685, 0x1793c959d99ef0e5648729392f5a4393f99035d79b85a05929892ca545a5e537), none),
  ((0xc49fd9acd8db31e8a4d9047f2d5bca3e53e5f4b3032152c6fdf09ba2d60361f5, 0x167bbf9773564ee28116baa1e123064a91121fd2656119a08b4bfa92b983089e), some (0xb0f9db59f20c06a9207c511c34fc9147cf270397ab1a90465a3dde3b30724a3b, 0x9ae48d68da996e8f2beac3dadc4884ff8a8de6f9e34b9181d82942fb9ecf69e3)),
  ((0xeb345a46ad5291b4b394acf59e48fb8871cea223847b17bec215ebfc074709c, 0x732f44f708bb11cab1c1769286f5695a9a78cc19927149220bd55378d399a70a), none),
  ((0x362909d823eae1b776e9b540e6f56884026023f8522f79fc0af24048ed9fa3b8, 0xdf100ba78d6991b1cccd32bdb79cce2ae7aa81904cfeffd100d2437d4c7646bf), some (0xfad922305c722d32118b54ad2a07e883e2ba2627919f40240a0dfb11e5946921, 0xcff96e4a812f30b283027c6ed4cdeee5ec7fd790685e2023c2ff2b6e9ec73ab7)),
  ((0xaf8a44d67690d4985a5b8caca12061efcbd33108379c8513ede208f1adea9230, 0xe1ba85e48a8130ddab6f258716c68d953b7abfbe6325d1bc89df6bcc83671502), none),
  ((0x26a6f55e2e963fc15e4e95ce9e4febe80f569e672286d977f18c2f4055268070, 0xcf537c9cfcd7859c13546eed3d453ac35aeb307653d59ae81a3715d6cf36a3ff), some (0xc364b8d4f7cfc7f7bbaa74bc7499a43e6151b4baceff5bc74a612d5c57fff1ca, 0x32224a38d4a6d8bcd8bf1600f852cfd34814ba7424005612bb36ca07dee2ed43)),
  ((0x509a43aad67ffc46ca11a670e12d0ced54216f57fddbc8d7fe70e6076e160f4, 0x1658dba601b414424664a16d027992b0e69bd99ba77c496e3cc9ad26e58f9c70), some (0x194a5d3decf759c5b817316803f137ab5bd7f4bb60ef43938883f73657b58183, 0x6e4e68aee8f7e6994bc0c6a21a782391c6b7cf605e788ca711c91639ed9d7b26)),
  ((0xe66ccfc16e627262132fa0444bb1373e170c12c4f602de2ff9e19e9fa9e76934, 0x2be7a7cbc5fc9eee0be0b2bb957a7042344107287933af66601882cf5b14f0), none),
  ((0x2c9e4ea4bd94b7de7b3e75136b293a683befddbeda103f19e77061e534801fbc, 0xe372a43fccaeab1252889038b930183e6c37f34700ef5e2c2ac61e4b3b1e25fd), some (0x42b9dcda0767c5c2637fe6205adf9183792f438d4a69a85491cf23ac4116ed73, 0x64164222bb17248a0e886d73653cd40a4342ca043ce261170e81d39d83f63581)),
  ((0x70991c2f3587fade72c240bc76ccd30d858433e8ba62761ae9cf1bb133e8c3a4, 0x243a8ebe419af89704aed872b309dfd09cc4ffb841a70a92a13b862c4b8f6e3b), none),
  ((0xe0979c1f664db93423772cb51db84b331ce5be1080a40c629c9b6a351fdd5bfb, 0x2f1e70648e9aed159a2ce3b01ca92a285daa93b8e7e7d4b72a3570831a0f965e), some (0xf715199a2b567b71add564d224bd4412a5c6874b279513adbe465fe40890e41a, 0x223fc7b66356a102667681147938474876f95f6c334508087f6af1cf30bd7e3b)),
  ((0xcc0a15cf0902b436909b9684d68e020fa17454cd46de2c2b0b319a8bb1202cda, 0xa27f8ff8c2f5fe1bf216253a89211f710f96e4720300968e29e0959aafb29f3), some (0x56dc95fb2e7f6eaac7e6d839229098a96df5de2728c775c0418ab67605de4f69, 0x6e8a88a5002177a532b06efb7ccbddbd549edde0a7c7b0931bfd8478569dfd30)),
  ((0x495886a22a51de667c547bd160eaa472071d25f5480fed542cc9dee3d3284d09, 0xb86d40453f6b32e1c768dfdc2187d9c1887829491850593c956204e7355b6232), none),
  ((0xc49fd532d55d111fe371e4f0817642e8846595742403a23d243c9a06a10db997, 0xdd045c47166f8ab7d87cc23bf0f1a434f3ccaeb20cb988ab684c838c7c1e90e1), none),
  ((0xaa55670d8523194b492518a705100c9bdf020522c6ec37e3e87a53864bef8368, 0x5a919900279851db4877c59e67ba0f8b753d56d9f2c63ca0ea35aee2ffb867e9), some (0x75350431466845895f68a3c6cfaec88d6f279eb616432e7c4642a5639b43b7c7, 0x943af80d70b7bc0dedb34bf63c15b5f44653a4df3f62a705ea7c3ded984b3b4f)),
  ((0xc064260f19c06ed50a864c382b07fb8ef1add883f22cb2f99190079b90b58b2, 0x4c0e3c497e96fa22eb28b7671987d1f5d6449bed47a3bd5f148071d1966d668e), none),
  ((0xe6cdbe2b79ff55fb5c3cb20855f6be0c41fbad7508d3bb6b6fd04536a21e47cc, 0x67340c1065e72040a87152e6aac88f2a3a2d16bad9ecac8cd90402336862e37c), some (0x80070d3b2af9e402b9854ab614ef0d53b621d91f2674ec702e2e060b33376055, 0xe702bf706a23a12f4ab149b74a609adf2b9cfffa414c14cf7b851a20a0bd06a7)),
  ((0x2b941ffbaa5bcdcd8856d2ea1ac7d5157fc2f74568eb4df27cb631ef531b8d09, 0x5a2e62cf52e53297b492dc6ee4fdac03d367c7c39abbc35719ebf5c233cbfd6b), none),
  ((0x52ed192d112ddfc13c1d80e450f102e2e934d3ee84e6471d775ff98ede9a548c, 0x9b1775176e5f94f16b8e130b7d016734280e1743cddc809dbefe62b249487cc), none),
  ((0x446a85775513fb00bc212b9e3082b96614da183b666a0be8483ba3cd1f66f9a8, 0x17ac8f3cae2a768ae3291a6c36fc088da56cb288b093bc34491ce9f44f1110cd), none),
  ((0xf856f295e7437fd527540b012b7838e9c9489cf11d00a5dc8e8e4a7a101de413, 0xec104d07f6b697c5bc1e61f4b539a870ebd6934746b9627f0c84e87b8483b183), none),
  ((0xa4622af1760e6018e8d23f35f6a475fd0ae9f390268a63333a8841f7eba48a6, 0x17270eba54b00b4fba2ed2730f52a45b5755f4875b83f3b3686139bd58b0e348), none),
  ((0x1a1e729ecffc4f167ba47caf7c298d75052ff12d831946d447ee078e2abbe1df, 0x72a16f8fc646d865b7c3ef8bdfdbc1337f143df4705f669ee1fae70c6c914a6f), none),
  ((0xa53854d6cca1399d4c7116178da3f390b136886077c0cc26381684466fb5ab, 0x98e548bde824858a6725ea2ffc74195596203dcc37423c8c5a4946e7db71fa76), none),
  ((0x58b1cca72b3271060c54e34170623aed39749ba326d0ad38f02f982dcce5f36a, 0xf468c74ffe04895957d3b1ecef7ba42b954e39f0876347b014778487e4fe3dd2), none),
  ((0x8e3f8b7189a0ca71860b3961f68e5c9333b9df9d631addc4c6a5dd65756dda99, 0x7a61bd857cdbba553f29b8c98491edc77396b1e9c6c2b2dfee7fd8110b03adea), some (0xe5e355d67968250da9e70c301d5a1fd6be1ce2ea0fc18d9a93b444eb0ff6a154, 0x57ae69888f392040699d494d93985504bd3a7a446fd5889dd02a09a6c14191b1)),
  ((0xf5586cbce78c22ccbdf4fb26c0295f0f18750953585eeeeceb9464d6f722e2d6, 0x16d7777da85fc53b1f75dd6766183ef1d39d414e58aa85b57635eefd5ddcd7d), some (0x73401b104b6b8bbf2c82b9b8ea8334ec43811103988c523a1dbc0fe2ed7e70e8, 0x179ddaf64f4e627217d8d0886153b65b37a137e055860ed3564f8d280e2032e5)),
  ((0xe7e581b44ec568647f6e74199860e250aa15907ba626adb877705d51cd10bc40, 0x1d3e7b46dff0439d26d984a07853c4a9140d232ff7ee8a2ecc049165a1306b1d), none),
  ((0xaa9b5c97070a34eea4a306b6b2546feec15e5bbfe9b72f2b7ab2a9a3e1aacb0e, 0xaa3b1ddbdb082cc53b1ea542b8b12141cc6870598e8f1da68d1f7f89629a0c58), none),
  ((0x922e4d5012298a763a09a1d1c143ab1841ebe3c84b7bbd15097b710b4a696a4b, 0x8b05980bcee62b3fde2d3f467016b248daf2b0e53b1b6e51bcc8a22b66bea84e), none),
  ((0x9c42b57a9188581c9266b9e899dff5d60a8063bf314f3f8ed89eccb5bd53b7b4, 0x4e59075a988d312f12fd7adeb8632e6bd14969ed9f2996c50ab0dc007eca637), some (0x8b46ab1d136ee4cae8b501171afa1b84ff51521bcac616c4365da494116606f4, 0x8cea41f25e7fedde91328b4d312bc5a09be99fe6696a95f718fddc08ce81eade)),
  ((0xce17ab2ccd0fe9cfe9c336f80a835ff8ca4b606c98cdaff3d30abc3875331d30, 0x4c8c9dad2cb2f300ea1d49fccc2b11468f22f38b7b85c01c06bdc3b4f5e0b9e8), none),
  ((0xca74f527b31969be1585da7b70d7846120145cee6005c2663ff0848f0674726b, 0x8d546bd39950c0a5033056bd6279f854f0a6ccfac1d17018b38fea2903487b20), none),
  ((0x68edcfdde57a4b00af196497a1e89e16d409d2d6ca1b64fb6784bd636d0aa454, 0x448ee102b8a451f3bb61e61916fae1ab92048ccaf87eed1d1dd98f7a35e26069), none),
  ((0xbed8425755557a6d8ef5a3954a8f62e694c54b437a7cfb2b94838a9e5269c2ee, 0x963eb5667e6ed71a38e6cb3caad0498e8f76deb0b84b09a233ebf8b004966985), none),
  ((0xcb37223a04d6dcda518b66496e8ba8f79d02c875b899fd88714f8f93650028f8, 0x2a4138e148d80ed402a12ec30b3e95ff89756981dffbee003b2da62d69d36002), some (0x3d9196b0944630063ba7f7d9da03bcb7dbb731d7aacfb948e4f35f72e717a1b9, 0xedf3a032292a5ebc832d35ff00f6b65964ddde1ca6ead127e7270e5748ab2824)),
  ((0xa75f6a841a194db22d172367f166d8bf03ac16c580aeccc1ed4eb90875d257eb, 0x4a03fdf753f59e15a529b6c6803ab7ce0782fb94404005753f88026ebed65e16), some (0x84eff19fce94aeff5da978b986895bfa90235329a095ed09abff24af3877f738, 0x13437e5b9c439c9e15fc71b6a66495f54b1d060e8e0a3e44a4db82a9682d820a)),
  ((0x61b17d56a83714cf64338cbe5cd349ad0f8d8746408ffb08a73ca0b501369eaa, 0x5bd4b211fe02409c62d3b74d895bcb521be50788ad97e7995a3b520a10c8688e), some (0x1cc03c7d22fda98c7835d40002cbc747fda1a61f514d7cdc202237ffe30d35c5, 0xef586fca61faaec5396ae08c80399052490ee1f59a884897949533a53a88aba7)),
  ((0xc384c753517fc5e09213e57d7a27d0260d47c2a8151d83869f4e064e670f095b, 0x328259d396072c9187d9f12c5aea5869c760268457b55990f9b64064717953f8), some (0x13e55f17e8fca6d64d9c2e8ef4ebeba82c9548f05a62c7576f1e662420614887, 0x47b5ecf3829d4e664bd64a14cc0e65d5e8364c6f635ff420470c5622e1970868)),
  ((0x5669413e59db5056023ba1726a7ea9738feec4b728fc88138145722a60157b14, 0x1b913e6eb107d02de8e9df76b14cd05a94d547e5071837dc34e8398b234875d2), none),
  ((0xdf53f4417a88b282d4f21c93fcda1f342587c781b7142f9c2ddc927066f64f2a, 0xf88e701ef6f81c0367c17573c590118d7d4cceb9ebd39b01a7310ac697a2becd), none),
  ((0x6ec4269ed623160c5aaef7a58bfa7d7242632c0f94c323c568057e7a9e5c2114, 0xf46661454a63f30f650922ce62f691abeae48fde591100c80c192d3446183196), none),
  ((0x149171d7ed60288fecc21f9271a460680d573d43e4e93a7641c37be1c56e3204, 0x44eb978723bcf4fefa2b5a0c5c2009332ada23389ee9bca63a04e7f492a1b82e), some (0x20073ccd86faef4615d9fcf3c0b947f55080f0b6b252e1047f7b0087cab0083b, 0xc6424263e3698f3350b6d3212e1e85cf7a7c400907b908bcda823cfb369487f9)),
  ((0xe7c050e236f28e28c86e101cb4520433706377c9ea8105ee9fdb3d928cdd5343, 0x56a768e3568366d6ae89681ca79326295d52620ddd9189ac1f413ca6f6a5fe82), some (0xffa16a090c6fdeeaf2326580bcf52bab7ee5e9383c2d1cb005495b60eac95e72, 0xfb0087c0b5b7aa222ea9a33075115decd8dc42c9eca4e9c48f7d46f41e226037)),
  ((0xf95d4928a3f3a2d8f7907fb2c90a59c52107c2c6899500f1c1403f7a56d67eb1, 0x8951531856a5351778ad3a1e352bf10bf8971900277c3649794c2a6cc51035d6), none),
  ((0x80ba1213026b1c7fdd3368cfc89df477217382f26fba7b83b63d27420d77dd11, 0x5ea3b9ceac86038270d8109909637d25cbf6e9be8ac4191053077bd67679c023), some (0x8d95b4c9d169f2e8281d8e1c08e628ff5b4ef58b0085f7315a940076dc75947e, 0xe1dbe9a5431bc146465a9398beaeb811f46e5ed57f0a1b80080e548e0011636f)),
  ((0x12b40bb70e0b1d9d4b6fd04723ac94f95e3e8e4c7149bb8267098a5bfcfa8072, 0x916fd2ef505b48a9cbd6d15782f62446d73c10803a3a57cfcbc592c0212e3420), none),
  ((0x67a8a7e909f7cd7001e479a46d8403dd23203d17284491b5ee43ac39e53b75b, 0xc0e402021503ccd0ea3915bc03018cdae3546395931ea95e42caf8ca804579d3), some (0x57582b6500daa3265e232b8ad805033fed412c3334186e01aa6e828b4258c12c, 0x13307e6a14b488b3c84cee4691e3f555e22f3490bd1d0ef585e5dc802d1e20ec)),
  ((0x6e186491b2bfb50f19799ec21d7c6baeef76995fbea4ff41011468be9c6982ba, 0x2f6350a1a4e94325412f862d3f986d1b66f9211decfa0cd358bd4fd3ee150e05), some (0xbf6b9c00aaf3fcdadbf3b98ed38c2af706a2958663abeff96147acb32edf1f2c, 0x6f6390826f37c9a8f1289db9402ca2285531fe852abbc9198c2d374e891a4966)),
  ((0x1b836a0d04e67e77b829a494fba33a15d64e4b71e74338039dea1e5895ec812c, 0xba9e84edd4276340714b73f5e26d925c6ed01d22e4708191aab578f70c036c72), none),
  ((0x4521034d6c9d38c81be79ecab4efc7d0ccff2b6285d25b95ee49eaac1768683b, 0xf22f1d09633d1d9d1a9fe0ed9fa7da312623e3386b5476afcfea97687a85c516), none),
  ((0x3996c9d06d805264cce475924540962a77d0c143c04ef713cb28331e7ce61b7e, 0xe62775d217eec0010ae279d77c43f851219316182344fb75bccb7b2847fc565a), none),
  ((0xf03354cbc19100cd4a55fa2e5cb19602f07a6df383865ace3734b2832dc4b9d5, 0x51e2cecf011a11bdd5a07eb89543dd2e7ee3dc581e47e3102915de17af807bda), some (0x5c46f154a216e7c3b6c81dae201919390be2235fffc6ae39191a778582acdf7e, 0x681f202c91c34b67ffa7f8ff72fa557821d948a2929893dee5e2866f3bce70ab)),
  ((0x91f41f8d4fdd115170e915605d7f8ad394a029e7370b2931852a9e4e9d14fe37, 0x6a647293da372965ac1de604d7c49a5f125cf86d554eda628a7356b39319c3be), some (0xd75bbab8f85d6498a39382dd470143acbaf41198a0789622bbb75e0ba3d70d29, 0x75dc4fd80bb05d8acda42299fef18764be833ceb54f24059d69665f37e1471df)),
  ((0xecbbeba9bd438631cda0174dfaaa29e8e9cae8d56aea4b03403d36909abd32de, 0x5f145756fdae9fb821ce7c9581814f0ad0f4d783dadfa3a8e5ae409b8f805663), none),
  ((0x69a43248af8c8129655a4b3fb6409dd9f794986f01adef3afa3514d75a757028, 0x7d14e241d18ddeaa6700f12164a9f6c9d56a49932018a5c0ad7a730b6a4042b9), none),
  ((0xa78d88e76cdb625b626a7ae3102545bc50a2ba74edbba50c0ab19e3ac03d8dc0, 0x9fe19a0d1c8f4f9794a0689978c4799ba10c603c235a935ba6371e043bbda0c4), some (0x454b96894003859cae010ba011afc513c8eb2cb18e8dd9d02e41cc3f290968a8, 0x9ec384ae25a2a2d3f29c76bcdd10f78e62f93f906bfa97c3b02d25d0c44c6be)),
  ((0x5bccaa662dc06bce595f00209aa569d1a2262ac620ea84a5fe2234938d837355, 0xcce6f7db40fe1332517789ed3f73c8405b135fb38c86ce7ce4ded7bf078695a1), some (0xdd04720732d7de3de2778721412a23119eb901d2f93b9024c67d93c5995c45c4, 0xa3b07984aafe83a2d7eebbd6c6f960f2b56329d729f4806c76f07752cb5ae3ee)),
  ((0xdcc6e33d193249770d5a740e1c78b8f4e3b83d3bc784dab94e1c26bfba5ee7d1, 0x9d983d88dd6524f19652a923daec246a9679444ecd10bc722f5cb526b6f79dcc), none),
  ((0xfe77ff3586270cccc7e03bb6ad70b8b725c70467193e852a76f4825c47b70460, 0x25415c85c8d1aa813fe2ff70b2e6efe9474e9cd574548f36ff4e3fa9f852c896), none),
  ((0x20b8542e74bf8c885b2b50fde4a5f11f2df1b91dc63c155437a24dcd1f9ec134, 0x976cf8423fd4e4b894481347345deaeb0aa162dfbd7204001d3e89780ce150e), some (0x5e42a2d6349e8bbb8a45783c766527d369523eb08993e97c778daeb09c2e83ca, 0x421413bc275107ac3a1b9b7b06e9d2673398f3d07db16672220ff4f756b9f9d0)),
  ((0x63b675e6be22971d8bb7096aea222927ac3140c45fbea44365c4297f15accb2, 0x6a0a44283d63600c5bba9ec9c170d9caf8f58a0b1fba972c206bc340fc63cc22), some (0x8f7c8490f1f2a91f41a4466fb8266b9494bc26495b21ae639ca5ca8d5e4c4c10, 0x4e7efd6c1f8654fabb99e6edd2be74d42205dbf1a7e8c1ab6d74925555c2fefa)),
  ((0xa6eb6b74489b7738336f3f362e4e7cf75e69640f71339e16e0e530a3c525a513, 0x38149c4a0c812c84193928988987472f239c1fce51af9236819e33f2b070f81f), some (0x2fc681f33b35239a43839f974b5f53d0613c8b82c96a11a0421fce343c9a817c, 0xf741bec950e5915ffd9dd10cee931f8677f1a21bcc98f3aefbb3854dc9003136)),
  ((0xaaed5e2356a171dc7540b6b9d390e80ffbbb22c4ce9b6e218f734e26a3b36330, 0xf932a2a90d51d10c92617eb62d24ec5aaf511fcc647de461cacf03df1dda8587), none),
  ((0xb8612b8dfb90cdca37a2ee4db9fac7eb78341c985b399479f52e878f86f074, 0xe03f03c417f7ced6209df64513ecb754e31c5dd40870a0c5abbd2c937e5fc822), none),
  ((0xe5bbf1a59cb78183488d6fb726f661f00393925e14062cbbc95bc8417d1773ce, 0x94e5d7ccdcbdc1b17f82bc7d64e2ec60a66d044d1bb4b296de1a52b37dce12e3), none),
  ((0x470e90ca8478f3fa9377b781161de2c9a93b059316f54d612b3a90f44fbcd3b1, 0xddbe735de6cc366153fb5f969d7c02d4cd3cae68901dfe406ebe15450fdbbbb8), some (0x42f6ec7e976a03fd279467b5146d94a0ce438860abc5059f0e5a43d099c45f6e, 0x31d021f8c97cab5fb90b9789a863074c1089111497251378e4cd81f764da1ddd)),
  ((0x2b33defe8102774bf4b3d97d9f3dd8924bf402c78ed8ed2b911713b1c9f4e80a, 0x75d1fa67c6700820008f4ebdbdc205941886485af237714cc289774701e9872f), none),
  ((0x3a7428c39864a56e9f1a88c0b297bb33e14488f8f013c4a8d7cd99e0cb89c649, 0xdf50558ef2947ce3474addaa514b0c6aae658874d1d86bc284725350b4925c89), none),
  ((0xa739801336a4ce0ae191424d8f0cc906d1ff1f8c13be07b799b510364efd6c20, 0xbd0409dc974c9650af4ba28351fba976ebff9c7e31655b2dec48d19f9726d3c8), some (0xdb65cd21f8751ab4fef2bc83b6448ab9fae141a8cedad62d0afca055b31ae3dc, 0x458112639f0d922404b9f6e232c6b808911f5719b34d5d05ba6a11ac17ab9822)),
  ((0xfcb4ad6ac669d827730b254c9d778c58a2c7c4a89627b7d626ba43ac45d42b31, 0x5df018956ba9ea64d5d66088a371bc37623c821f493291eb6ab83c9a600d462d), none),
  ((0x9e34e32435de59a84acf6b0ce591a207f42165fc2539ac0bb7acc6a70adf2501, 0x109bf4710171916a5019dbaf1f94b6e55fc3a771988868c3e895e699f47e189e), none),
  ((0x4e987d9933312f8feea4e6c0a7d5b65844bf2773bd45d06c5f368ff657747dfd, 0xb0744c8b001425cb954d08a2a032848c0857747824dfd4f52e752ecd99fc517d), some (0x2d85efdfe80fc60c368e61539dc4adbf5fbe79d37d644d30e56f5421ced424c5, 0x78aba3ed4e417e27cb092db5bb150bc7d355cf12075b8fe19053b55c97b864fc)),
  ((0xbff7d56dba6e03aa54acfd9f890d7cbac821d067c0fd20d77da8d5ee24e1689d, 0xfe293e77575dcef9d72d7e041c784d15d27a672a928a0fe09694c183626634b8), some (0x3b75d64f3e3a08c46c5a2a3831856b2095bceacc1fd68068e820ee6b8dff6ffb, 0xb9ce7467ef33b169ca708695c9c1f570094f3076f5ef4465c1190a7b9d1f5c81)),
  ((0x40d2957a4c9ab3dadf52fcd3785d1541b923e07808aa63cc6cf6e01bcc78eae5, 0x2066d59c8ca71447095143ef43ea3705a295b3f5ce67710600c5495baaa45c89), some (0x9e9cbd7dec30930ec46be334a043666fcd6e329f834ff734303d444a88f481cc, 0xc1d17c8d966937e1c1b053bfce49652c0dee37367c5aa0d84030506d1475ea02)),
  ((0x50e7970b282bdba17ae6dfea837a7e3cd2bf599123d6efcd88cfdfa7acf6e0c4, 0x1ee8791eb88cc867c5159f1aab124b960510bb6332ab8da78bf578a3cdb8d030), some (0xe0772fc79779b348d9da241cd3eda95d98edf5dd796846467cc97886e199b9ec, 0xacff9c995332495b74cf1889312d099061313c9fee6a54635d54174bbff84a1)),
  ((0x31857fd63cd2fa3902a1e8cca63f25ec666d1c5959b46e40a13f7aeb233ad0a4, 0x827b7432b554c72be8eba1354fdbe392edcae756a7df4b382bc22a09eecd5fbe), none),
  ((0x3aad08cddd21d9f4b09a671566dbb4af71d0d9c213b5071ad2e5780e9de8bd3, 0x88dda2f5fc524355f2bfef4e59ee0f08d0802f8de32cc3f3acb280f928aa1132), some (0x3f8d1cee15fbc0ae2281c838da797f607df33836af745d1bae90c0554ee886fb, 0xd046e4bc97dc8ff2b83c79982630af586271028f6d32139cf66c5655001e6e17)),
  ((0x9af8d89fe7fa22d3bdf8da785dfa7babce97a2434aeff3fb9c7639975b298d63, 0x6179d38d27d1cc73f61b818ba6313e35f85def0a2ace4f3039f3f6d3225bdd03), none),
  ((0xaec2373cbeab86611266262581cd3d39de382fdca69ba288dd2e835768ed60fa, 0xdfaaa138c851391c3d89b8e3e3a84dce6f48f0765a288295a768232004f0540c), some (0x6f8209faf872b9151cafa7961568996d6e7c3cb20197d9d316079aa0a88aaa15, 0x45304053fd66c0e52f3a74df5038a20439c687586b4f7d2b9c2d37f09e20ddae)),
  ((0xb542698e5ada3db1111440906b09cab6e2908c0a2ab5fe5231f05368219eeac9, 0x752fe1ff5aa1c03f754405164f2f6464b5233fe3c8c10e32c9a23610c93a2c59), some (0x866a94b8eb9e973860cc11f6a934b77a695efbd903ce2ed88584279f0cec334a, 0x13b616ea5c58a96a4187d5c993ad6f1f6ebeb1193cd618c09d9f9d8b153ec7f4)),
  ((0x79e456c4c75f708ba5aeac57248d57df3017bd5aad66402ac1dd7f5095a7f829, 0x951e7db8b61ee177988a93981a120cfae3ba693264a88dfe6483c6c30162e11e), some (0x32dc952d110c3b04f654343ee68cbe8e6d284b8631ec3e5f0d7b3a160ebac48e, 0xcae4ea9351e4d05c8be231cbfe1ffa03fc9cc20626068e842db0fc273b9c50c7)),
  ((0x26c1b6a7789e00866b5abd87bf5b158b26140123125f2e006a00a0a79aad7424, 0x774a6bd5a2915db4836c45b1221a4288e25d1b0b2e806d7e38351ebfaa9e4e00), some (0x6101c1e5cdb1681468d8a82268ed67fc83022f044bb6daae792578ca6c1ee7ab, 0xcf993bee70f5e2c3a9390bd0be0db07ffffa6909f09f4256ab6ea580a7e2a230)),
  ((0x63a557ceaa16155cfba45519504e6503c4988505d878bab2df65c635b816e33c, 0xc50e8327425e864ec149d489f7985e1129b953d1e9f381e5a94a322479686311), some (0x2907f0c454fe48b6ce8b7696a4fe0b4b002789575d95da9d49f2464ae325a348, 0xcf284f2a9c1d150519623e87ecd2a4f235f47c04ed2cb7cffd03832e815f4ea9)),
  ((0xf93c7eec25b39e68aff44266a8d8e3e06beab628a83e49869198edd8e72369b6, 0x690b96dc6c02254e57e1bdbefcec810d123d28029f85f93359569d51be05e8c2), none),
  ((0x53edc81ee00c4f11f57d1714e04543caebdb2495bdadf3322a55e72c90f92907, 0x22c25939529797dc07ce5913c17d8a51aba413a5283dd83d5ac397a8bee96396), some (0x54390322a9b3826e9d7442f33bb40f667a82f78edf084e9df5c391e4f741866f, 0x4ee60b57804889261a04cbacc931c86ee81f05a34a19b7594028db8ddb0d8063)),
  ((0xb86fb67e0946a182d3fabe44cfc374b2a0bc085d42cca951fbc8032f69622e04, 0x6201cf25a9ff17ca334124423b149b979a02779bcd6ef429ee79a1fe19e646d0), none),
  ((0x4dce40772eaa69cc17d7bff6312688add01981f7f64e52c9bc666c7daa5624d, 0x40982c37deb8dd8b23d350bd75e0a22035983e9542f4467e2e734f52d04f0bde), some (0xa8c02c264b69f310d846f78899d2d9df06a97d83908586833b4c791b36443af8, 0xb9757bd847e0beb2cce1fad70468fe3783b1e1996e03e76b2910b8e4195a053c)),
  ((0xf31e9f56ad4e1dda5ceecb8f20bb26bd6e6e1b5b3ca20b2131510db91b50e10d, 0x1b3f8aadeda5b7f00bbcbcd5bcd2610b4295ddaaf231e021861a66b667ebc8ff), none),
  ((0xf34d7c98c12a890fb077e1d89efe4f77a6ca64197d03e2771d98cd2758ad4f3d, 0xc035d4e21700032bdefcccccd08bed08c91bed69fa5fb5bbcfc303deefcdd8dc), none),
  ((0x13278b69b12879ae15784ecdd82b62c5827cf626ae1c81d2058fc6024d2685ba, 0xc70bcc192101eeffc22c10c337d5046d672bcf02894fefef58654f95bcf4bf78), some (0x1194b8a06cb0c0df1bf2e619cb7347d7677aec112fbff34495c415329312f3b7, 0x23ca2ac879871bdb98982bb309e25b84e5382cfe68b89aa5a31034495fdf0f3e)),
  ((0xcbef65a7a781d3266899d670f222888416e496550a5b221d2e5fea8cec21d308, 0x2dbf11212eb14f53cafcccff532bcdbff591f136e1927e78757e7f79b21e7ad1), none),
  ((0x79c7eb8947e18f282d0fdab2bb09e68885ff1d431546982756bc837a7eb72a09, 0xf829b9698ecd841e61cc24574594911f78b107e97d72ddc59e30c81ead438eb0), none),
  ((0xb751e058a8e494bcc67d5658b4e6177241b880fae52465886960f28085254bb, 0x26f6960a6b275ce955c6f5c3a08399082d923a7a90ff3c4313544fdd52726fa9), some (0x76614b1863d0930dea2dd5e1177167dd1033d8f1eeb7f0de0a3490640eaf26c6, 0xe5308ecfbad8d11154458132193f3063474861a6a2a0e7fbf1155adbede3eebf)),
  ((0xf72942b38d87463fcc1b09276fb0a5edf45fb187f6ae2fd7a44c65e681830694, 0xf794112285dcc8af9b587f4d890d6d9617c8d96c2c5d13e562a84c1a9de3f116), none),
  ((0x8c8923a698efea66e496fa10713511cc7213e95d6b1881e63234c0c5a1030a79, 0x56252da45f3c1708b2644c724ea25a907fbf5eb51e20c900778d0d630c0221fa), some (0xb2b81745c1557031273a31b1496e911b0f7bc798b66927cc89372e25cb5860e, 0xd1dffbd0dfadb9a238d1f047cac8ae4414b0f1477713f4e76bb756fe21d95f2a)),
  ((0xece5a1dba2b242f148b2ea6b7474dea1179ff0ab224827d451882cf62a2c6c9b, 0xc78d9f72a63ec33c8c8dcaaf493d2d27df088cd76e893072c2a651b5f48bb4e2), none),
  ((0x8ca89fe24437a67986e2e3b45f636ffe33d510abcb61b25d9cd03c9db728e5fb, 0x633355030b534463bd4acb10a49f0b6d4829d8f5f7d1881f023e94d4ae1ee303), some (0xd4237ba8cd32cdc9400712565ce5bc76265c5d3cb1c7c2ffaeaab76ad8fafa18, 0x4945f743a7d9f6c404dac72328017eb06d87bcb2894e24edfce018320736)),
  ((0x55065936f6d85ae3cf985ff013fe99e26ff06bc4b710c6cba4ce552fdf0c582b, 0x4e89e428555e7538c4e1db8e84c803d130ec56b9fa4de89ef9f29ec0565755f8), none),
  ((0x94f9d932340715eacce7a1cc9b6cfb50dc6037dd2aa71ddf104fa296330648ab, 0xabe038b4365cc9000a8e73908de75fef7b0371eb1aa4f6ccb9735d5a1aca6fea), none),
  ((0x8a5a79e9d00099af51d72beadaf0c2e641ffafbe9024c99dcf43809711361de5, 0xa39f8bf82d5913e866e3f7dbfc22afaa9a8fead7e83abe3ab21d93cbc3bb1696), none),
  ((0x5c30b7395a1b8dd62fdb4c59454854ea1acf76e733e9724d3ffee70f3e60cb05, 0xa9254762970c53dc659114e6fd389b9fd1e887e6599f4ec07048d0d46a65d1ba), none),
  ((0xdf5847c69fa01b21a515c7e9c596770fd9802ea876049bf8ec828a9b1b941a2d, 0x1ca2a9c65096d1e4c3e3b3d37e467bf8235221346e0741e7e2797bacb2575985), some (0x2e54a7d2410add24ba82a0d1ec2f798626d09451483ee25c90409f26a8b59de6, 0x3b78c8e099b55a3149c20f6defb2c1eba13160df5c79409367c8d38693d775c9)),
  ((0x96d53c6d2c1c60c9f82616c34b8421378fc6c159a18fc5bdadb3c91be6036274, 0xb23bb03b3eb21e5e9f9b9f082c0c748af9729db3baf2ad5de9010636014e5f9e), none),
  ((0x52697c2a58048aaff5d366684c6bccb02face7a9e76357e32f91f21aa0030493, 0xd360abb60fb3da15d8a2e58fbba4eafaa9187290ef3d923cff9aa4aea6579034), none),
  ((0xd91e218a5ed10f119f09ae92596a4a7ae1be544aa2c929c9bc3391d294ac8369, 0x322e0b57a2652fe45388bba3ae504a010f613600335faecd2f21a7961d444b5b), some (0x6d94d008fbd7e40561894199935a7560fc57279bf398dbdf929c2ca28e775b3a, 0x4266c65d240297b291a54d53a03773dbadd7422f99cf6c4c47914de3e834f613)),
  ((0xaee40ce028c2f54b387b6d709c0499c123caf7b7739ae6e475621b9f90a5c088, 0xb4b34a9431810040a05708989e3cd1f63b9a605719128623103c697037c7b435), some (0xbb6b99555188b49147052f03f7d564744865145437801f696f7e524220847866, 0xd922e356882594ff50dc52570f61d56de55c5b8de9b0516d520e42f2b3cce452)),
  ((0x9e0203b2bd8be8fd027e1d8f149872657fa5b609ed97111f77d8ce2e95b1443, 0xa60fd5f3c90e3524aee611a085c37b00d4eacf768ce0e747df909be46daa52d), some (0x12b9000876c80e58db1938f8e9e462d21ced790da4d5566e170ba51912ba469a, 0xbbdc2523e2492c7eee9db99e7d1632e069541331682ca6e90499dc75e51704a9)),
  ((0x28ed3a8be96904130417f0a757c950fe64c03023a1cb27bd08bb94849f337290, 0x64bbe8ec1c4d9fcd8c32dfcae8d82abc0b41d91b5ed83620a56ac71a46d270b4), none),
  ((0x845d2fdc2f816a07bb644cf321d03f877edebc7ad0631d3b83bc8f0a8483a41b, 0xa384319cd4d89e8e111164db47611a321be1a82bf4f9bc850de6e9818aef189b), some (0xa3aaca377b698c00e6f40981044e7abeadd1f2c654acb4387a0e664b0b9f5b17, 0x1b66c7a8397a21ab83fe2f5db17eee7df8d7659a0fdfa9c572540e674ae26c0b)),
  ((0x853d90e3843acd8bfedf5dec924e51793d5db4de61a71867de6757a29679418, 0x45192f77bfd1d8a5d1fada153d46ed8f1968153df2148be27840a7f5fb3df660), some (0xf70f4c8e8f00f74d37d883b7c0a4f0167821528413909503438d3c669a0ee9d8, 0xf23279c0d01e2149ee72be60d2abea2dfac655375203138f59519bb227525f2)),
  ((0xed3fd611a209d66ea229170f98dfb9bd9fabf43314c8e8de4f6c6719dd54d183, 0x43e0cf72edf494e0e885c8c35a25911559f47156fd8b2e5ccdf898bb8b82708d), some (0x88320525499cdc7abf113066c5c864dcb2805183e0723c2660d5b2a169f8b624, 0xe56547ef2e70ade6a26c86ab915adbb1b489d3626f13797505016daa5734503b)),
  ((0xebbb469bf1c6fa1403799daff0efa9bc10d912565d782d190988bdfe0a411311, 0xdd2850298e25e79a2075865aa9760cfefc6bfcb5f0ba4199d09d35a502de9bd3), none),
  ((0x9945ad78d5f2f626495a1901722e3c6be4e8e09f342f2751d7586e2fa897eae, 0x2e8d59dbe94f984fb7b13e6c479c68c5e6af79defbe4f4b279529c63da3702ae), none),
  ((0xc3bbe83386dba84a87031f81bcc7a8029933e27da7dfe8a99a0e7a1dae5624d6, 0x4fb25c596c5673c44bb20e6c072058daf223b002b5df152e3bdb463fd2070af4), some (0xe86a3eaf66470e244bdc1f5dda9782eec8c5004240421c18120d9557806f896, 0x2de8b226fa4767d428855a70f4d529b47ea011f1f47a97f288290c216709d3b3)),
  ((0xbad98f4bf7467c8351029e75caa253d3cd7c2642734a57ab93cfd993f58de942, 0xdfecb8f962f44f2f7ed489c29e290051a24da7ecfb19c7bf0491e2ef8400edb6), none),
  ((0xd3918aad61e93227457876405640b878b3e7261c8d8d444f5d7cb69cfa602f37, 0x8fe0154c6db595a6d48ba59b14eaedc8ec49f44e7a105b9e840c2a885d892d0b), none),
  ((0x226b17f4dfade19b668983fb29cdce13031f4e905ec3f6bd95f7adad909c8561, 0x109bac5c8fae75bd6a9d69984c914cbc9bdc120a40a3f56cba08ce1f920a510d), some (0x15f2a0952e94ee04ad61a104df2d9f50af79b4c3639c60e2355de84fe1c8044a, 0xb7d2d4a16cca15d7c42af4d4f78d0140213e1ab172b611597a8eef015eddb761)),
  ((0xd73815a50ab53fe94a27639a8e9931c8e024c5ac1e4f9341b289e1b9bdf17282, 0xdeea1ae940bdab67015cb4c91ceb7fcac36145a48e847b19206df2b80977635e), some (0x9bf487d76237964b9503f6889ece0708936f81913a765b0c34f81e347109b7ad, 0x7f9aaa63932ef86648e6247b44151b005478b98f1f550f7a9eb0ec6044973047)),
  ((0xbae1be62f2b8ef7c3986cafa2999a442e4cc0889d43311ac7c6f6c6bdea2158b, 0x218335a57e9173c30000627bbd6ed99c88eca3fb28b7c0f1422ca091a143bbc7), none),
  ((0x23c15ee9cca4efd8347b82a45c9e44456dbd3555f497b6f73fc4b4d2dd825e15, 0x1dc2e16a6ddeb8b9a2bd491647b827a01baf5797ff0893ac22737a1548511140), some (0x4f3d9bb232ca5067163f12acd4eaf316764a06db3a580fc09714934150bb641d, 0xa3813fc38fc6653063935bb2a84571fcb11c920e44a75afc1914fa4cbee54462)),
  ((0x39711b82fd52ff3983ba8e82cce7e553fcce59252044ec8a90204c28ba706675, 0xd51f7afa86e6e43fc05d8691bb2d971dd1fe00395634844b86172859d4ca3750), none),
  ((0xb4412c4577d148eaaad2c663eade44f9b5a8a89b4c3dbce8da3a39a713d86832, 0x11d6139caab95492aef7b84a7860a238665f983d8956de2ecc4d4eb816c9c532), none),
  ((0xdf7e6b8129da82181d7e1f2ab6643a60a99470d58becc173123dd361403d361c, 0x4013f4f5ce7b35055e704ffe3f5734fa7eeee47a634783eee4bef921cce0f37d), some (0xab1d7acfe916bccb2754c82976c84f431ed00ae5544d2f47cce4266d92711e67, 0xf4e23fb89c634dba0cd581f1f7b5edb42ae15dc3ef7e10e530e92628261dbae4)),
  ((0x8fb141f4f29bbe02f3cec0f8be47ecc84a3a245c1a5f48b03b6e5c66e660dd70, 0xc11022d6270063b4700e77bff43b477e1ce6631e4749a30d2b8dfa9103ffbaf5), none),
  ((0xc9aacf1919accc0d2062221d6c002406f478286b00ee57d0eb01aa5d1cff1d33, 0xa19b295c1bf67e6e70b00cdbfe60ff283efbf5c98c60b82053062459c62c1ee3), none),
  ((0xa49ffaa21dc0c9784f7c03eb7436e6777223d9644251672e13887732c1de3c3, 0x63ac40881555e4e2579b85b033f8f09aeae82e7f3a43ce51ac57cd86779e01d1), none),
  ((0x66d3e3b4ad4894ca11114d3ebf018d0d4c88f9fd41363615062e3dfe13d1d1de, 0xc3b3604e78d4fd3d4b5a0a245e9e24ae601a661aa79723ce85bb39fd9f0b968c), some (0xffe98a982240209adf26f480fb80d70e615135a608ca3ff1432779037c8b4046, 0x6fdffe00f5583cf9d4ed2397b7e114cddba30d852c2a7c08aae68436481f65ba)),
  ((0xdb4656afae811dccd5a9877261a2fe65b82d87eee860a5d571c20b376af1752a, 0xe2093c14f8dafdb15d4100e573714106ae2cf638ab1b812450e00a17a8860e80), some (0xdc0913f613cd2902e326660f0c86577a61d2109799406a55f7f945687a3fcb6, 0xf10c33761403bd273ed9c57c0b37df3887b0c3e7cac16425338049cff287dd51)),
  ((0xdec38cb462d569e269589e3d00e15deb1cb87356a5ce5b397263866c720f259f, 0x98aca0f4dd1c0992c8f231c56eeb77eae6b5e52a6c409334fc2071d062448330), some (0x39cb6337b2ff915f1320cbbc630b125b2311f8ccec01047c8632e5fca5118b73, 0x5dda3f98be3aa5c7053f6c21813d3185bbb5a18042651dd614e86c7a141743e4)),
  ((0xab07d717727cd447863ec3879f6ac1231d5fff32157f9b9702ecf5b6ae7a6258, 0xe57bedd8f9cdec26c043b2f937f804eb36311f648cf9d20a85266fd8b571060b), some (0xc4a44f8b254e8eebc8a32623d40551c157b42c9aca08e3d84bf5e137f450bacb, 0x79d8843ca60d330659e9c1578ffa2fb7283280f1de4bc94a61584a52938f64be)),
  ((0x4e888ba267d2e2dbf875e75e9d42276e7853aa293fdca59dfa5a5459c839a276, 0xe143c3ca7c6be42d9f9fd7366bbab221b65e8ad5d0455731e1287bf21fc67d6e), none),
  ((0xfb070589db63f2c1aad4a9ec8a2747210e2634b92e5326b723ca587c3327b3aa, 0xf2d4aa88d1cb57a87ff9f1cf1b816f2e4b63789723eed46b8118f05394420484), some (0x858dea0d486eab756053e215f527c206fe17c3a7ea4d172ada168c7b7302a2a1, 0xd050b725ebdbedbbac56ebd7e2523cf47752ca348764d87035ca982279237855)),
  ((0x13c5b26c857c2b08da8a4e8e04b3d3e5683d398923ea5179e3f4c8bba01ed878, 0xeed2a0700ceffa804439b022d876caa61d63e537914cee70505f2f989cfd4407), some (0x19555b2e009f06a7e22dca35f3f2f463fe12cbd04f83e495e67a777ab9cd3540, 0x591bd2ff1e3a72417df83910891c52976bfe1e63eb3a7f32ddb49ccf502aa92c)),
  ((0x4b7daad8836ff67418e16ec6703298a2d059a2cc23b60c17b52eda2b030597af, 0x5be25a3704975c9ddc7ac3366d9ecc6992dde27b9a6eaee8640cd2401f606e70), some (0xd28b4f468acf64995d2942b65285ba07bcb9c44464ae2171dc42302cb0b1ccac, 0x74ea57ed4a250cdb4a53d5b9c122ea9231dc802a4ff9263fd3639b8a8396305)),
  ((0x157b26f900cc884ac50b12b91703c0672e39585416b8deab6ab1945d1a7550de, 0xae39d844770f2dc6d3e40851e5d6eeb6c06e526965f001bf75c25158af90d6a0), none),
  ((0x9904a7dfb12f3ce5add1aea02fd175f4ae77148b0c4d6402590f414951ae033, 0x2895286fe1955a696ef4de9cbe4ca605b0aec64eb1de1d089e4fe8dc4742ef89), none),
  ((0x2d5f13b118adf52b0fec71cd7ef96638406c4b5b771203944356762b40ef92ea, 0x12215828092a8366ce05de42a485302133fa1287c369eabb0c317689d0d7bf86), some (0xca0e0562f11393225108604ea0de35a35f56c698639197f2ea0b57d2e08855bf, 0x44cf59917aeae5c63d7fc54375fc440fd5097f2f6c393bec0cbec01bfd5407b3)),
  ((0x84a5caf330c0a1954faf1c0580d24da1104bccda3febdb4796cd4e6d10b4f1e9, 0x5dc8a9c4fecdb6bf1684102e0d85a7046d80d6300a39e3a37afdb50de7442f82), some (0xd39ad3a69632b71bb707236b2a1a1123d85d68a258bc310c7e7d7c39fe011557, 0x61842060b1ef4cbb3eb019d134832020df43c560ec49348babd694ab93c9fb24)),
  ((0x583799613a54119bd8f1c19a1a4ea67b21c2f2754ba4b46ee7f36b24fb1699a4, 0xd6a87154551121430c50a23f59a039b1612eaf830478c735149bc55a6ba12d30), none),
  ((0xba4f219c74a03961ef43d6bf169d16c4b82efc999d8586d9bff991932cd50b73, 0x862372f809b02d054c765d9c7f9c911b200316b00512f7efdbb4d37ebfd6bfb9), some (0xedb695eedc641a7301753b107275bdbec4c604587c6e02bcfafa155e3ab6704a, 0xf9a93e754c270f73c2274144f008ed25b90805d7160d9e857a6a6896a2b9665c)),
  ((0x8d9710b8b1cd180ebcad9ec61fa0f45b4b94877560f1d0dabccbb0f729643ed7, 0x95a59b571fd9c7a61f75f1c8641133d676e4fc2b8c82d8ce66eceac38ac637b0), none),
  ((0xb26222401852fef9d25bb7b62ae50752594882610fd40ef4fc3cc18a9311b9f2, 0xbe2d68ad69a87c7fc8a09f4494228c430c6a219a02525a60e2ae220d47deb651), none),
  ((0x426a14c2d64c5e16a80197009e1f6268a11779c7842eb226c4cd86508d55a0c6, 0x9ac53e47e8f950baef2a9b9c5d2be791491c4818834d292516e9e02f561e6a3f), some (0x79e7addef7d74881064f37472a1603d99a6b138f93e481d0e61e3294dca30f75, 0x926e8167c7c030888d5aed1f4c3340a6afe3120dd914259506b434fca55566f2)),
  ((0xd08b14aa6635564af8dd24ae7cfcbb573b16b8f469644cb45f0c550563d51f73, 0xfc99a7847db559e154fc7175ba38351228626a2a5e8844020a4af75f59b4c3fe), none),
  ((0x64c5e0d0feec2a14fa3e7641d5c6199c163c0908a30fc6e9b417a4e47c975b73, 0xe1ac76d8f0e52bd6381819740f731283768b28f2d2009133f52bfaf19a2beca6), none),
  ((0xe77ff196680eee6b200f33d5ca8b556a3e639a4a9c98ee0c79d9c2aca4a6aa67, 0x7e18a79b049420c39956582f07d3d75af996ad72d7e82417f190221ed7f3b77b), none),
  ((0x39cca9c90e416a3cfb70280480d10a9389fbbcbefea9eeb06c59b3ac2bc4ecd5, 0xec0f8e059126257fde0a153671e60baba99b8f0aa90e3cf60feabea9e9bbe470), none),
  ((0x5b6c10e6f9ab3140330145aefcaaf6141e40f9bd532fd7e81d4050c047ff61e1, 0xad1062e1ab0b99dd8dfcea838763cd81a590ee406406981559b2a24f43b691cc), none),
  ((0x59b3b54aead9153e6d3df9577036256dafcfba97b98a986fe406f4148df4afa1, 0x42ec343b691c2b59abb75ad4be37b674c60899b9a2e7768ff54e28fd3d87c161), some (0xabeff3f95731a75cb2fb94ab6a62c18012a5134300821c6cd25ef5602993f2b4, 0x354490aef5a9a72e7fa5f631b96c4c0512ba40fc42692fb845d882428cbbe0e4)),
  ((0x5882d79c3d62fc8fecf09ee0fedfdfbe1d16a201e4d38beae105fc95d7acaeba, 0xe22307aed9522d72f2b253b7c66a5a483ca41fcc40513c3e71c3109529e76d17), some (0x572bb89e5ce64e18e3a7a70ee493a122ec70141b3609582b54a927a104e9c1c0, 0x234942a634d77496193a81ac9d1b00b1dd79331b7bb459b0e219864ef0f3590c)),
  ((0xc872cf55db86c8cf73ee9f56662ce4e4da1f45adc7aa0958d641fd91e22bedb8, 0x5d43550529ba7b88019b17ac0f734013666bcdd60e623e6f7c194045cd62be44), none),
  ((0x83e4a1a44b81f5c3cb6ee5d0b6123ddb4a69815b1e97c72ec93da5fc90cf1b94, 0xe4f5d1bf19d9c5ea3f6419e2bafc3447fc43094105ff935946ece89e22dfb515), none),
  ((0x9b2552748707659fa5a15d9866c72820bc81342216964154938a2a622556efff, 0xa7ec7651e8d5191cdb4ec725058e484f6fadf3614c1a1baf830b08ecf83d31b2), none),
  ((0x8dcac828aca6d7fcb5cbaf28c876b4603b2a9fd68e3493eceea95d845bf6bf7d, 0x9796cd257156686726492dcdbf06d32765373dad06024db64e3a4edf65a355ce), some (0xaf4f1bab3a9215f7a9899f6b1e72c4885392e263274d4aa7d204a7a882a1ab99, 0x2fe13e6eef12f693158e5ed640c2d91a263f87855c760b74630dc110d3fc588e)),
  ((0x9743cc6518cd5a8b6f0f3e58c0ab5a30452bb700b7bae7bcff1781c9c86874ac, 0xf8e810d8e2e0b2ee746ed58392fc8af1d3d119bb1feff907a731243cab9db91a), some (0xf799edf9170b27afa776e9b6e1af9efa1d21ba7bee2e78a15c68f93d3b005222, 0xe01bc4123d1ef496f340da08364fdabdb60e0f54f46578ebfa4402d4d8af49b)),
  ((0x854a80abc9eaeb4a28040c6625607f645bc5fb873a392446c05f366f7be4780d, 0x95cbf8c9a8dce0a6e6bde460771d336f8c0592de902403d6611d86fac70b9901), some (0xd3c1107a935f5ccd2803e9f5044b9af8986d3971af3b3b4d4ab97ac8af12e35e, 0xeebaf5eda619fd1909943b694e80ca32f8e223586b2b2527a0612dd5034649bc)),
  ((0xcce1296f6193cd908305c794aeba1c02adc1e3903f5371fe24afbd081e9d71b1, 0x6a6ead40b54e365f3aa6ddd7b30e440c4dc8b5d25b42cf9b54b12af81fd3307a), none),
  ((0x49e974c97fc145be0d1325575a2f80e93f024843271d847b8a0f41c644a4cbc, 0xbad2a83d329f33bee29c3dbe871413a7887e3e0bd0855c05f27c8d476da6d49c), some (0xa403f793b7a8a2ed9c2b906e5c3900a98a8fff3a936792953e0c3afe3f1ce7e6, 0x97582b4244784df68bddefee48420047078818104c896901ec424d26561bae4)),
  ((0xd0f179bcf4d7b2439ff001556aae11b7833af2871ef115f42fe86287a19b499, 0xf8c408845792e9b8a1b47cc3e37498030a56fc08f84d58b9597518fcc6708b1a), some (0xa716f7c034a385e604716085ee3acb6d0be31069444ec4ebc87c8611197f2d4a, 0x47d2bd498b4bdb1e25d9bad5c31a82149a1b2d78d649cda0d53c2b89ccc4cf17)),
  ((0xa8e7e6f3598a066fee39a14ca1ff2d50b1a424fbf5fa52d0168bb6151ceb5a7d, 0xa3b541086fd0a3c4ce393328bf5c9b5c4d9ec6cc8eb35842a0497ee64f9401d6), none),
  ((0xd4633279cb5662c1cc861ba04b372c592b7b456ac2531000f29d8fbf823867f3, 0x50b8231e7b658cba71ca2e74bb0c86f988720f63fd6cad3ec03073538dddd69a), some (0x81116396916b1f03658846ef35f22d6561290f2c81febdbaea32b44318109746, 0xc8c50cd3bc9d978ad18ca9cb94a61b9b88b4f9fdef9bb8a295598bf988b23c09)),
  ((0x45081fc8c494eba26797b418794f143ef5e8cc56b3963f06f7fb0866926ed9bf, 0x6c5a8ed458ed822b141ac9989da257698c0fa9aa78c04055c0899f5cc2a7f2ef), some (0x2474e79a4e5dc164fe094abc1692a28258fcfc695cd16294677f2e6fe5f22442, 0x5b61cef682f1aed2fbab64aa3a139933f87bc3abecf88e52a30d5749a2037de5)),
  ((0x9fd81309433be723a23d1e365e8c32f9ea0f71e3319a064aaeef6bbc16665e89, 0xbd42d89d5d0246a449dedb2283c3e0ea2e7f1cfa022b6ce27f0b2b09ce3a460a), some (0x5aef2bfcd0714114eaa553238873b9939e3cbf100cd75a66174e5a29c252e33d, 0x501e8749394ccf0f15cbb253c308f927044c4349c1118810db0ee7d74f8c24)),
  ((0xa102a784490b8ca9e111522e7dffef2a20aeec73ee1bdefe9c8894036883743a, 0x474230114a19c753339549d830eb08c79b60e626b880bc4f48b6bbaca5d25ef5), none),
  ((0x723e125bc0952553e72b5f54635e91fdf0990e6690c1eda2ad697edd9f198217, 0x3af96b904cceae17d45c9835497578aef13eab12cb789422436720a8aff6bec0), some (0xe5d820bbd311340be0737d3e63040c8bd9719f5f4c2ef467f8ef4c874f160520, 0xa97cc08f2089c845553b0654460c599995c0df4ad6f80a83695152cd8e37139c)),
  ((0xa133814f287dad154de6a53c069c9dda19195fd8dbb940aa7e9dcc986823c447, 0x805b28571b21ddb78b15b3b61e1f26714d76fc2158fbf30365045b2d5eada5ee), none),
  ((0x7ac40b246bb7ac175d704b43b2e8bfd62afe1bd6bd8e51e7cc59ab0f549c4578, 0xccd904aa87ef32bc224a9008eee4645a03511cc8b130082f1e0be122737e520d), none),
  ((0xb84250394fdd613f7b61f87943700fb9358c92dbf15cce90d0595f9111fb82a3, 0xc1895b4aa4a610b154cc7bba2af7b0e3c6f4c822816ddae3d363dd04d343e670), some (0xa12e2a74368916fadb3b276ad881d8dd57d8087cd7c4d84fef2307c7997816bf, 0x31f41693225b5379dc0f1f0c717732b173f2b2ff35416ef3217e966ecc7319f6)),
  ((0x403e93d2ba30726143ae3e7011adf300c49b774858beb10d68d0b9c9a2f61cf, 0x829698cab981b4824004e935512f20c9ffb18bea43d783a80d8639903414aea2), some (0x44470ff8219fb6186f60f12711567ba36478408c1e9a4aedaedf8426fc84786e, 0x3c89bc615b6b954f207dbe99911b7dec919322cc441e7556d5eba981793eb105)),
  ((0x9785a0e48d75ebbf4c42bb16f980de1ed49e8b24ff5f3fbbd0e30c565c6b554, 0xd1a9fd13e8c28b1a7d3a1d508fc6913459917e098b59225cfca15781eb8c8ec1), some (0xcd18b3904056f24e07ddf726669b54a5bb7fe390b34b690e680a23d55df1a501, 0x74115b8579ff9861629fc9f7a474d329d7897c1f4543f1d5d6fdacb258955900)),
  ((0xfb18ef8477858c128a66a8bc6419e56d4457bbd669f9016daed80445821f158d, 0x5cd4a3384057493fe6523df76a3d7656f2935bf807b2342cf3570c90526b44e0), some (0xbd64bf93cb962cf2476c3d4dc78f8f29f2ab02cbd8c1d4c797a1702843ff6023, 0x285366271d5a807ff1dd2b0bbd8375b51eb9a0e74511f3d4379d537828c993d0)),
  ((0xf599a0c5b44f35b9507e38a39834fc40c52b8da40ff20181b59d774204ed1e52, 0x5d5bc3e004b629515fd7f03a482fb5ac585ec5fd55b838e26467887f622ca844), none),
  ((0xb6b21a223f9129bbd44344712615e5e331d6bc9151785ed6c444be983722662e, 0xef9c38ed2872af391a8819dded1d3ac910c27933039eb190c50c84d7b749f059), none),
  ((0xb1e83e58ee57b6c2c0ee67f1f0d0cc7ba2ae72cc0bca67fa26791053c7c939a1, 0x460a1854b347700ec4183aeae691c5d1876682d9be9b67b6d61c9cc529ec692a), none),
  ((0xbb4d6f2f481eb0fb1400453ff67ec8af680cb1c69236499645152016af22fc3f, 0xf89ca87542d6ecd62b06cec501891618ffef9c697026f3f6f4d744c17bec063e), some (0x752820afff3674089dc8f9a2b7c11ef46f24a357bc21b2f5e8a585adaab44d5f, 0x7298aa3fb90147fea06cdfc370b43354aeaae4cf3fc12b77c4a9d4ae3807e47)),
  ((0x5f7814b9abaa10fb97e20cc9f3482cf5b3f2e3d96ef6aa716ce4562108682efa, 0x641c0e156303cb7ddccd89dd85f5789c65dfbaa9afd783212a8b4e697b92445c), none),
  ((0x16f1d8141984054d0c5d1d5ca84a7d9e6d7b5158b3683936da07838cf5d33ac5, 0xf5a616281241ab2d597653b467324d3a96c7422019d78bc2d9dbba67ff960c5), some (0xa02ddd9baccbb84cfb633a9fe974a40c26f9bf3149b60d5000d4f99058c57840, 0x9aa698dade1c8d5351ec3d372bf906402e38b3236421d9e186ec3a50283d9f9b)),
  ((0x9734729a428a74ad12130f2131a5df152568217463d615dd40fa27b39956b26c, 0x5e52bc8554e677efc1058ab19e065921c8f88c98e02d7ce8748ef9ce80fdd4eb), none),
  ((0x38781d08824dbb043432600748b5d4ebe76093b70faf65b29cdf3db1cba7a1b3, 0x5623564894336dd6e66efaa37e1a37fa2d374e7ee72df25e971327d30363ce34), some (0x23d3f5564f8ae3e015e0f428b3a43acf795295daf90ab32361cec1d042d87c96, 0x8f59d7a49bcb5ea4f79a81864bfb0cb0126001f8e69bf2d7d03d304d18a2c6b1)),
  ((0xed09f9dff545135cca2353deb70b9730db595adc26e700c7f72eb008dce70952, 0x6732240c004ab63e4cdfe82cb7b17b3e3cb5793a668181ac91dfff79d007db5e), some (0xec0bdc3d54b41f4705fb799695c5c6d5c692664b27d3cec60b5cc91892ef5e1c, 0xb1b05465252eb07a250529974bd9bf04a49a8acfa8cb37221d8d55fed9d6158d)),
  ((0xe59c9f725e24fc9e2b6a68befcff88981fa750cad830ec5606e42defb0490101, 0x660e452a97f86157ada9cb25ae7b702af01eb60b905bca19417838ba128e3ded), some (0x7a3a71e85ce52be7485e79cc119715938fc80d6014377b95b7e5c5e096a250a8, 0xee132da9a009713e888ff2bf68fb1d7c46b1282d7bcdf971244a189f27ccebb)),
  ((0xc68b8c44afffd7ccafb35bbb0dfd8bc7d1a84907648dfcc14134ff7482c5d4, 0xbae15f14f1847c47dbe18aa93f0fb141de569af6be1d384276bda021dc809d5f), none),
  ((0xe1c0cad9a720c2d614077cf44eb99dfe76caed685aab3fa00ab2e2a0adb9b795, 0x4f98f1063f3e064d545d4860f9c830a6e014253bb50058d4db7e7cde6c451387), some (0xcf9ded3caee4604d7ea01bebf14cc0155d1f081f8176b0d68d800d8380994e82, 0x560a29457c09423f7920bfe7af067d54ed97758c68021fded26b96b9a07a3888)),
  ((0x1c5cf53397ef26d8d99528105ecd5bc55b5ae94c3ad0c84bee42cb6c9f06c185, 0x2cd06bc0b83b6807e3e46ccba13a5716a9c27c0d9c909e1367fbc708f922e6fd), none),
  ((0xb3c62d99eaef6e8c7c1f81ee3686777d0c40de74389584cae71d898fdc343551, 0x56fb4c6a45f2ff543dfda3019abbecd39b6a6e7c5c6b3ba1465819c041ae0f4e), none),
  ((0xdd86c094951b2e96dd82d0f7320fa156af1e2265d2accc7ce65c67f937115b38, 0x97b306abe093fa15e33361719c6ad77763bd3cc81cfcb4ffee127d1940074a9a), none),
  ((0x9c4dbcaebf3b4b40ffdb9940c51ca2e40b189e06a69310003ed5940f8dedd55c, 0xc61444574086c14eb7e4ea4a1f1edd2ac0300ca44cbc20bb03d71ddb89f5428e), some (0xe2eced09558aab9e0499874cf679a2a948e2e0811c3cb13f532446d6ef5beaac, 0x88f8893af894c3419ef56b83cd3c354f583aad571eb1d9dfd5e34ecd40561555)),
  ((0xdc11b0ef7a472c320601c86fc9eb8a5742999de8246987de518b077395bee45a, 0xe10a53d2636014b7c68f5480936d96525361646438844294b6d7dea4bc73455a), none),
  ((0x451e801d7612b54bcad3daed312ad9bde60f92003df63e07fb18445c8f5ee1b2, 0x13d091cf5079d527e60d5afaaf3806890cce9617c9bcbcb38ee30760a590371c), some (0xcbd0bba2bf424b0e385ac803f7313a270b4cddf4960c07bc80865d17e289b9c, 0x78d5ec233fb630c9c04eb4db25ff7ca0f7e460c5a224cc4fd8aeb656f45f9d82)),
  ((0x34082d3e72202c906d52d51952c3ca0bd3bfb8d28eb3e290354ae995069b6090, 0x634675d78a77db1645d03f9cfda57b65ae35a125c5c99c38c3e529a2919c1300), none),
  ((0x5b8bf59c1021aa807d10f51e7d810e29509216ea47cc548ba29d5d041b162e3e, 0x62ab9f5d7ae0384dd641e0d1cee220d9387d7914e83751ceb8f6639acd97eb38), some (0x934b1ea10a4b3c1757e2b0c017d0b6143ce3c9a7e6a4a49860d7a6ab210ee3d8, 0xd2831840679da4a3dcd420fb04daa9ff5df5d05ee36a365dd6a9e3ea87f0bc0))]

def vectorK : Nat := 0x8f8a276c19f4149656b280621e358cce24f5f52542772691ee69063b74f15d15
def vectorX : Nat := 0x934b1ea10a4b3c1757e2b0c017d0b6143ce3c9a7e6a4a49860d7a6ab210ee3d8
def vectorY : Nat := 0xd2831840679da4a3dcd420fb04daa9ff5df5d05ee36a365dd6a9e3ea87f0bc0

theorem vector_scalar : mulScalar 1 vectorSteps = vectorK := by decide +kernel

theorem vector_checked : mulCheck (secpGx, secpGy) vectorSteps = some (vectorX, vectorY) := by decide +kernel

theorem vector_at : At (vectorK • G) ((vectorX : Nat) : Fp) ((vectorY : Nat) : Fp) := by
  have := mulCheck_sound vectorSteps 1 _ _ (by rw [one_nsmul]; exact at_G) vector_checked
  rw [vector_scalar] at this
  exact this

end UB
