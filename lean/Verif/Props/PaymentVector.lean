import Verif.Lemmas.Nonce
import Verif.Props.Payment
import Verif.Props.PSBTMine

/-
C109 for a payment with nothing left open: the key with the secret 1 spends one output of each kind.  Written by tools/payvector.py: the values
of the hash functions on the way to the nonces of the three signatures; all of them are checked here.
-/

namespace UB
open Spec
namespace Payment

attribute [local irreducible] Spec.sha256 Spec.hash256 secpP secpN

theorem value0 : Spec.sha256 (beBytes 33 0x0279be667ef9dcbbac55a06295ce870b07029bfcdb2dce28d959f2815b16f81798) = beBytes 32 0x0f715baf5d4c2ed329785cef29e562f73488c8a2bb9dbc5700b361d54b9b0554 :=
  sha256_of (n := 1) (t := 0x0279be667ef9dcbbac55a06295ce870b07029bfcdb2dce28d959f2815b16f8179880000000000000000000000000000000000000000000000000000000000108) (by decide +kernel) (by decide +kernel)

theorem value1 : Spec.sha256 (beBytes 22 0x0014751e76e8199196d454941c45d1b3a323f1433bd6) = beBytes 32 0x8838f796bf4970b148779c05b74b8c49515b322d04035f7faa5d9b2375df2396 :=
  sha256_of (n := 1) (t := 0x0014751e76e8199196d454941c45d1b3a323f1433bd68000000000000000000000000000000000000000000000000000000000000000000000000000000000b0) (by decide +kernel) (by decide +kernel)

theorem keyHash_one : Spec.hash160 (secOf keyOne.pubKey.compressed ((1 : Nat) • G)) = beBytes 20 0x751e76e8199196d454941c45d1b3a323f1433bd6 := by
  rw [one_nsmul, show keyOne.pubKey.compressed = true from rfl, secOf_G]
  unfold Spec.hash160
  rw [show (2 : UInt8) :: beBytes 32 secpGx = beBytes 33 0x0279be667ef9dcbbac55a06295ce870b07029bfcdb2dce28d959f2815b16f81798 by decide +kernel, value0]
  decide +kernel

theorem nestedHash_one : Spec.hash160 (p2wpkhScript (beBytes 20 0x751e76e8199196d454941c45d1b3a323f1433bd6)) = beBytes 20 0xbcfeb728b584253d5f3f70bcb780e9ef218a68f4 := by
  unfold Spec.hash160
  rw [show p2wpkhScript (beBytes 20 0x751e76e8199196d454941c45d1b3a323f1433bd6) = beBytes 22 0x0014751e76e8199196d454941c45d1b3a323f1433bd6 by decide +kernel, value1]
  decide +kernel

theorem value2 : Spec.sha256 (beBytes 44 0x01000000000188130000000000001976a914751e76e8199196d454941c45d1b3a323f1433bd688ac00000000) = beBytes 32 0xfe03fee09fd3eb8c56dd79285e3ff8821ea7a7f16eb2757fc9ae59aa9cba254e :=
  sha256_of (n := 1) (t := 0x01000000000188130000000000001976a914751e76e8199196d454941c45d1b3a323f1433bd688ac000000008000000000000000000000000000000000000160) (by decide +kernel) (by decide +kernel)

theorem value3 : Spec.sha256 (beBytes 32 0xfe03fee09fd3eb8c56dd79285e3ff8821ea7a7f16eb2757fc9ae59aa9cba254e) = beBytes 32 0x013a95ce95637766e2425792097e468936dd211a2734d018455ce26139be1825 :=
  sha256_of (n := 1) (t := 0xfe03fee09fd3eb8c56dd79285e3ff8821ea7a7f16eb2757fc9ae59aa9cba254e8000000000000000000000000000000000000000000000000000000000000100) (by decide +kernel) (by decide +kernel)

theorem input_legacy : (exFund .legacy).input = ⟨beBytes 32 0x013a95ce95637766e2425792097e468936dd211a2734d018455ce26139be1825, 0, [], 0xfffffffd, []⟩ := by
  show In.mk (Spec.hash256 (legacyBytes ⟨1, [], [⟨5000, p2pkhScript (Spec.hash160 (secOf keyOne.pubKey.compressed ((1 : Nat) • G)))⟩], 0⟩)) 0 [] 0xfffffffd [] = _
  rw [keyHash_one, hash256_of (by decide +kernel) value2 value3]

theorem value4 : Spec.sha256 (beBytes 42 0x010000000001881300000000000017a914bcfeb728b584253d5f3f70bcb780e9ef218a68f48700000000) = beBytes 32 0xe52409c94b184162a139d432e47918a6ec63be2f3fd07cf000ae861ad1a7496a :=
  sha256_of (n := 1) (t := 0x010000000001881300000000000017a914bcfeb728b584253d5f3f70bcb780e9ef218a68f4870000000080000000000000000000000000000000000000000150) (by decide +kernel) (by decide +kernel)

theorem value5 : Spec.sha256 (beBytes 32 0xe52409c94b184162a139d432e47918a6ec63be2f3fd07cf000ae861ad1a7496a) = beBytes 32 0x7852cfbab1d586cea9ca878c49a7379208331f9388df8c4908dacb1dace46a11 :=
  sha256_of (n := 1) (t := 0xe52409c94b184162a139d432e47918a6ec63be2f3fd07cf000ae861ad1a7496a8000000000000000000000000000000000000000000000000000000000000100) (by decide +kernel) (by decide +kernel)

theorem input_nested : (exFund .nested).input = ⟨beBytes 32 0x7852cfbab1d586cea9ca878c49a7379208331f9388df8c4908dacb1dace46a11, 0, [], 0xfffffffd, []⟩ := by
  show In.mk (Spec.hash256 (legacyBytes ⟨1, [], [⟨5000, p2shScript (Spec.hash160 (p2wpkhScript (Spec.hash160 (secOf keyOne.pubKey.compressed ((1 : Nat) • G)))))⟩], 0⟩)) 0 [] 0xfffffffd [] = _
  rw [keyHash_one, nestedHash_one, hash256_of (by decide +kernel) value4 value5]

theorem value6 : Spec.sha256 (beBytes 41 0x0100000000018813000000000000160014751e76e8199196d454941c45d1b3a323f1433bd600000000) = beBytes 32 0x453cf8c1669b7c06206b8a53903580b3564699dc9ebfa7d07726116d62def6f4 :=
  sha256_of (n := 1) (t := 0x0100000000018813000000000000160014751e76e8199196d454941c45d1b3a323f1433bd6000000008000000000000000000000000000000000000000000148) (by decide +kernel) (by decide +kernel)

theorem value7 : Spec.sha256 (beBytes 32 0x453cf8c1669b7c06206b8a53903580b3564699dc9ebfa7d07726116d62def6f4) = beBytes 32 0xa2abacd755b2a98462c00f5c66e48b2f66ebe467ecc0d305c717e4d01663bb09 :=
  sha256_of (n := 1) (t := 0x453cf8c1669b7c06206b8a53903580b3564699dc9ebfa7d07726116d62def6f48000000000000000000000000000000000000000000000000000000000000100) (by decide +kernel) (by decide +kernel)

theorem input_segwit : (exFund .segwit).input = ⟨beBytes 32 0xa2abacd755b2a98462c00f5c66e48b2f66ebe467ecc0d305c717e4d01663bb09, 0, [], 0xfffffffd, []⟩ := by
  show In.mk (Spec.hash256 (legacyBytes ⟨1, [], [⟨5000, p2wpkhScript (Spec.hash160 (secOf keyOne.pubKey.compressed ((1 : Nat) • G)))⟩], 0⟩)) 0 [] 0xfffffffd [] = _
  rw [keyHash_one, hash256_of (by decide +kernel) value6 value7]

/-- The outputs that are spent. -/
noncomputable def exFunds : List Fund := [exFund .legacy, exFund .nested, exFund .segwit]

/-- What is paid. -/
def exOuts : List (TxOut × Out) := [({ amount := 14000, scriptPubkey := holder [0x51] }, ⟨14000, [0x51]⟩)]

def exDraft : Transaction := ⟨2, [⟨beBytes 32 0x013a95ce95637766e2425792097e468936dd211a2734d018455ce26139be1825, 0, [], 0xfffffffd, []⟩, ⟨beBytes 32 0x7852cfbab1d586cea9ca878c49a7379208331f9388df8c4908dacb1dace46a11, 0, [], 0xfffffffd, []⟩, ⟨beBytes 32 0xa2abacd755b2a98462c00f5c66e48b2f66ebe467ecc0d305c717e4d01663bb09, 0, [], 0xfffffffd, []⟩], [⟨14000, [0x51]⟩], 0⟩

theorem draft_one : draft 2 0 exFunds (exOuts.map Prod.snd) = exDraft := by
  unfold draft exFunds exDraft
  simp only [List.map_cons, List.map_nil, input_legacy, input_nested, input_segwit]
  rfl

theorem value8 : Spec.sha256 (beBytes 172 0x0200000003013a95ce95637766e2425792097e468936dd211a2734d018455ce26139be1825000000001976a914751e76e8199196d454941c45d1b3a323f1433bd688acfdffffff7852cfbab1d586cea9ca878c49a7379208331f9388df8c4908dacb1dace46a110000000000fdffffffa2abacd755b2a98462c00f5c66e48b2f66ebe467ecc0d305c717e4d01663bb090000000000fdffffff01b03600000000000001510000000001000000) = beBytes 32 0x7ceba18429ed48ec76c8bb6dba74c8965388407ecdbc90919566037f52c8ef99 :=
  sha256_of (n := 3) (t := 0x0200000003013a95ce95637766e2425792097e468936dd211a2734d018455ce26139be1825000000001976a914751e76e8199196d454941c45d1b3a323f1433bd688acfdffffff7852cfbab1d586cea9ca878c49a7379208331f9388df8c4908dacb1dace46a110000000000fdffffffa2abacd755b2a98462c00f5c66e48b2f66ebe467ecc0d305c717e4d01663bb090000000000fdffffff01b036000000000000015100000000010000008000000000000000000000000000000000000560) (by decide +kernel) (by decide +kernel)

theorem value9 : Spec.sha256 (beBytes 32 0x7ceba18429ed48ec76c8bb6dba74c8965388407ecdbc90919566037f52c8ef99) = beBytes 32 0x7b0b92304b509672efc93fa122371e621564d4c5612941182c15a181910e410f :=
  sha256_of (n := 1) (t := 0x7ceba18429ed48ec76c8bb6dba74c8965388407ecdbc90919566037f52c8ef998000000000000000000000000000000000000000000000000000000000000100) (by decide +kernel) (by decide +kernel)

theorem digest_legacy : (exFund .legacy).digest exDraft 0 = beBytes 32 0x7b0b92304b509672efc93fa122371e621564d4c5612941182c15a181910e410f := by
  show legacySigHash exDraft 0 (p2pkhScript (Spec.hash160 (secOf keyOne.pubKey.compressed ((1 : Nat) • G)))) 1 = _
  rw [keyHash_one]
  unfold legacySigHash
  rw [if_neg (by decide +kernel), hash256_of (by decide +kernel) value8 value9]

theorem value10 : Spec.sha256 (beBytes 161 0x3636363636363636363636363636363636363636363636363636363636363636363636363636363636363636363636363636363636363636363636363636363601010101010101010101010101010101010101010101010101010101010101010000000000000000000000000000000000000000000000000000000000000000017b0b92304b509672efc93fa122371e621564d4c5612941182c15a181910e410f) = beBytes 32 0x2fbf40bbf1cacdee2c022ff93096da09565141bd4b4ea4b59f18c85e54a8d9b1 :=
  sha256_of (n := 3) (t := 0x3636363636363636363636363636363636363636363636363636363636363636363636363636363636363636363636363636363636363636363636363636363601010101010101010101010101010101010101010101010101010101010101010000000000000000000000000000000000000000000000000000000000000000017b0b92304b509672efc93fa122371e621564d4c5612941182c15a181910e410f80000000000000000000000000000000000000000000000000000000000508) (by decide +kernel) (by decide +kernel)

theorem value11 : Spec.sha256 (beBytes 96 0x5c5c5c5c5c5c5c5c5c5c5c5c5c5c5c5c5c5c5c5c5c5c5c5c5c5c5c5c5c5c5c5c5c5c5c5c5c5c5c5c5c5c5c5c5c5c5c5c5c5c5c5c5c5c5c5c5c5c5c5c5c5c5c5c2fbf40bbf1cacdee2c022ff93096da09565141bd4b4ea4b59f18c85e54a8d9b1) = beBytes 32 0x7c8ccff3a05e44affc0ae6be6e849ae0f363b52d5020ef09d8fc28d1bc2d748e :=
  sha256_of (n := 2) (t := 0x5c5c5c5c5c5c5c5c5c5c5c5c5c5c5c5c5c5c5c5c5c5c5c5c5c5c5c5c5c5c5c5c5c5c5c5c5c5c5c5c5c5c5c5c5c5c5c5c5c5c5c5c5c5c5c5c5c5c5c5c5c5c5c5c2fbf40bbf1cacdee2c022ff93096da09565141bd4b4ea4b59f18c85e54a8d9b18000000000000000000000000000000000000000000000000000000000000300) (by decide +kernel) (by decide +kernel)

theorem value12 : Spec.sha256 (beBytes 96 0x4abaf9c596687299ca3cd08858b2acd6c555831b6616d93feeca1ee78a1b42b836363636363636363636363636363636363636363636363636363636363636360101010101010101010101010101010101010101010101010101010101010101) = beBytes 32 0xe0ed867a6ff671cd88b3d7aa62214fcd5e2febe6201c8172e82d0ea98f0fcfb0 :=
  sha256_of (n := 2) (t := 0x4abaf9c596687299ca3cd08858b2acd6c555831b6616d93feeca1ee78a1b42b8363636363636363636363636363636363636363636363636363636363636363601010101010101010101010101010101010101010101010101010101010101018000000000000000000000000000000000000000000000000000000000000300) (by decide +kernel) (by decide +kernel)

theorem value13 : Spec.sha256 (beBytes 96 0x20d093affc0218f3a056bae232d8c6bcaf3fe9710c7cb35584a0748de07128d25c5c5c5c5c5c5c5c5c5c5c5c5c5c5c5c5c5c5c5c5c5c5c5c5c5c5c5c5c5c5c5ce0ed867a6ff671cd88b3d7aa62214fcd5e2febe6201c8172e82d0ea98f0fcfb0) = beBytes 32 0xa70c62014eba4b576d5990d60f0a59de1119b8e3276335464a95592073b52ba1 :=
  sha256_of (n := 2) (t := 0x20d093affc0218f3a056bae232d8c6bcaf3fe9710c7cb35584a0748de07128d25c5c5c5c5c5c5c5c5c5c5c5c5c5c5c5c5c5c5c5c5c5c5c5c5c5c5c5c5c5c5c5ce0ed867a6ff671cd88b3d7aa62214fcd5e2febe6201c8172e82d0ea98f0fcfb08000000000000000000000000000000000000000000000000000000000000300) (by decide +kernel) (by decide +kernel)

theorem value14 : Spec.sha256 (beBytes 161 0x4abaf9c596687299ca3cd08858b2acd6c555831b6616d93feeca1ee78a1b42b83636363636363636363636363636363636363636363636363636363636363636a70c62014eba4b576d5990d60f0a59de1119b8e3276335464a95592073b52ba10100000000000000000000000000000000000000000000000000000000000000017b0b92304b509672efc93fa122371e621564d4c5612941182c15a181910e410f) = beBytes 32 0x0600c38a8ad6c41d7479338c45ecf0bbbd88369fdcc7e6b55e425fa9ca59ddd7 :=
  sha256_of (n := 3) (t := 0x4abaf9c596687299ca3cd08858b2acd6c555831b6616d93feeca1ee78a1b42b83636363636363636363636363636363636363636363636363636363636363636a70c62014eba4b576d5990d60f0a59de1119b8e3276335464a95592073b52ba10100000000000000000000000000000000000000000000000000000000000000017b0b92304b509672efc93fa122371e621564d4c5612941182c15a181910e410f80000000000000000000000000000000000000000000000000000000000508) (by decide +kernel) (by decide +kernel)

theorem value15 : Spec.sha256 (beBytes 96 0x20d093affc0218f3a056bae232d8c6bcaf3fe9710c7cb35584a0748de07128d25c5c5c5c5c5c5c5c5c5c5c5c5c5c5c5c5c5c5c5c5c5c5c5c5c5c5c5c5c5c5c5c0600c38a8ad6c41d7479338c45ecf0bbbd88369fdcc7e6b55e425fa9ca59ddd7) = beBytes 32 0xa2d9ec84e9c3199ae6dc957bce63b84c24ee8add5905e346d5b95d2024bde000 :=
  sha256_of (n := 2) (t := 0x20d093affc0218f3a056bae232d8c6bcaf3fe9710c7cb35584a0748de07128d25c5c5c5c5c5c5c5c5c5c5c5c5c5c5c5c5c5c5c5c5c5c5c5c5c5c5c5c5c5c5c5c0600c38a8ad6c41d7479338c45ecf0bbbd88369fdcc7e6b55e425fa9ca59ddd78000000000000000000000000000000000000000000000000000000000000300) (by decide +kernel) (by decide +kernel)

theorem value16 : Spec.sha256 (beBytes 96 0x94efdab2dff52facd0eaa34df8558e7a12d8bceb6f33d570e38f6b16128bd6363636363636363636363636363636363636363636363636363636363636363636a70c62014eba4b576d5990d60f0a59de1119b8e3276335464a95592073b52ba1) = beBytes 32 0x9659fef6d89d64fc05ca92def96b8532ac3f5e92e3009afa6a5147abd77f91a8 :=
  sha256_of (n := 2) (t := 0x94efdab2dff52facd0eaa34df8558e7a12d8bceb6f33d570e38f6b16128bd6363636363636363636363636363636363636363636363636363636363636363636a70c62014eba4b576d5990d60f0a59de1119b8e3276335464a95592073b52ba18000000000000000000000000000000000000000000000000000000000000300) (by decide +kernel) (by decide +kernel)

theorem value17 : Spec.sha256 (beBytes 96 0xfe85b0d8b59f45c6ba80c927923fe41078b2d6810559bf1a89e5017c78e1bc5c5c5c5c5c5c5c5c5c5c5c5c5c5c5c5c5c5c5c5c5c5c5c5c5c5c5c5c5c5c5c5c5c9659fef6d89d64fc05ca92def96b8532ac3f5e92e3009afa6a5147abd77f91a8) = beBytes 32 0x023f06e313ce881a23aafcba100f2d7198df2198b2c3bc1af5cc20db2fe79a0c :=
  sha256_of (n := 2) (t := 0xfe85b0d8b59f45c6ba80c927923fe41078b2d6810559bf1a89e5017c78e1bc5c5c5c5c5c5c5c5c5c5c5c5c5c5c5c5c5c5c5c5c5c5c5c5c5c5c5c5c5c5c5c5c5c9659fef6d89d64fc05ca92def96b8532ac3f5e92e3009afa6a5147abd77f91a88000000000000000000000000000000000000000000000000000000000000300) (by decide +kernel) (by decide +kernel)

theorem value18 : Spec.sha256 (beBytes 96 0x94efdab2dff52facd0eaa34df8558e7a12d8bceb6f33d570e38f6b16128bd6363636363636363636363636363636363636363636363636363636363636363636023f06e313ce881a23aafcba100f2d7198df2198b2c3bc1af5cc20db2fe79a0c) = beBytes 32 0x05631caa75b415d639c6233b330f7178eae460bca8606caa3c089c40240ed8b5 :=
  sha256_of (n := 2) (t := 0x94efdab2dff52facd0eaa34df8558e7a12d8bceb6f33d570e38f6b16128bd6363636363636363636363636363636363636363636363636363636363636363636023f06e313ce881a23aafcba100f2d7198df2198b2c3bc1af5cc20db2fe79a0c8000000000000000000000000000000000000000000000000000000000000300) (by decide +kernel) (by decide +kernel)

theorem value19 : Spec.sha256 (beBytes 96 0xfe85b0d8b59f45c6ba80c927923fe41078b2d6810559bf1a89e5017c78e1bc5c5c5c5c5c5c5c5c5c5c5c5c5c5c5c5c5c5c5c5c5c5c5c5c5c5c5c5c5c5c5c5c5c05631caa75b415d639c6233b330f7178eae460bca8606caa3c089c40240ed8b5) = beBytes 32 0xc80c3bba746fd504e94b1327b41501eac3bc15c04717df7a41b886ddbe9d0c24 :=
  sha256_of (n := 2) (t := 0xfe85b0d8b59f45c6ba80c927923fe41078b2d6810559bf1a89e5017c78e1bc5c5c5c5c5c5c5c5c5c5c5c5c5c5c5c5c5c5c5c5c5c5c5c5c5c5c5c5c5c5c5c5c5c05631caa75b415d639c6233b330f7178eae460bca8606caa3c089c40240ed8b58000000000000000000000000000000000000000000000000000000000000300) (by decide +kernel) (by decide +kernel)

theorem value20 : Spec.sha256 (beBytes 97 0x94efdab2dff52facd0eaa34df8558e7a12d8bceb6f33d570e38f6b16128bd6363636363636363636363636363636363636363636363636363636363636363636c80c3bba746fd504e94b1327b41501eac3bc15c04717df7a41b886ddbe9d0c2400) = beBytes 32 0xb4eabfbcaa66f82318d27425fed7c884fe10036606e549ab69396e48d714e309 :=
  sha256_of (n := 2) (t := 0x94efdab2dff52facd0eaa34df8558e7a12d8bceb6f33d570e38f6b16128bd6363636363636363636363636363636363636363636363636363636363636363636c80c3bba746fd504e94b1327b41501eac3bc15c04717df7a41b886ddbe9d0c240080000000000000000000000000000000000000000000000000000000000308) (by decide +kernel) (by decide +kernel)

theorem value21 : Spec.sha256 (beBytes 96 0xfe85b0d8b59f45c6ba80c927923fe41078b2d6810559bf1a89e5017c78e1bc5c5c5c5c5c5c5c5c5c5c5c5c5c5c5c5c5c5c5c5c5c5c5c5c5c5c5c5c5c5c5c5c5cb4eabfbcaa66f82318d27425fed7c884fe10036606e549ab69396e48d714e309) = beBytes 32 0xc04b119a9ed00f6a495ed30fe7f550a131e57becf0e27bb63e33ae1961ecf802 :=
  sha256_of (n := 2) (t := 0xfe85b0d8b59f45c6ba80c927923fe41078b2d6810559bf1a89e5017c78e1bc5c5c5c5c5c5c5c5c5c5c5c5c5c5c5c5c5c5c5c5c5c5c5c5c5c5c5c5c5c5c5c5c5cb4eabfbcaa66f82318d27425fed7c884fe10036606e549ab69396e48d714e3098000000000000000000000000000000000000000000000000000000000000300) (by decide +kernel) (by decide +kernel)

theorem value22 : Spec.sha256 (beBytes 96 0xf67d27aca8e6395c7f68e539d1c3669707d34ddac6d44d800805982f57dace343636363636363636363636363636363636363636363636363636363636363636c80c3bba746fd504e94b1327b41501eac3bc15c04717df7a41b886ddbe9d0c24) = beBytes 32 0xd32e3ae95664230b1f00e6231b1be308fff46e6b6648240077e7f2ce931a5fd4 :=
  sha256_of (n := 2) (t := 0xf67d27aca8e6395c7f68e539d1c3669707d34ddac6d44d800805982f57dace343636363636363636363636363636363636363636363636363636363636363636c80c3bba746fd504e94b1327b41501eac3bc15c04717df7a41b886ddbe9d0c248000000000000000000000000000000000000000000000000000000000000300) (by decide +kernel) (by decide +kernel)

theorem value23 : Spec.sha256 (beBytes 96 0x9c174dc6c28c533615028f53bba90cfd6db927b0acbe27ea626ff2453db0a45e5c5c5c5c5c5c5c5c5c5c5c5c5c5c5c5c5c5c5c5c5c5c5c5c5c5c5c5c5c5c5c5cd32e3ae95664230b1f00e6231b1be308fff46e6b6648240077e7f2ce931a5fd4) = beBytes 32 0x604e46a76b8dac7ea233f89346c3a70109df2129c84344fc4bccb0a6e12f68e7 :=
  sha256_of (n := 2) (t := 0x9c174dc6c28c533615028f53bba90cfd6db927b0acbe27ea626ff2453db0a45e5c5c5c5c5c5c5c5c5c5c5c5c5c5c5c5c5c5c5c5c5c5c5c5c5c5c5c5c5c5c5c5cd32e3ae95664230b1f00e6231b1be308fff46e6b6648240077e7f2ce931a5fd48000000000000000000000000000000000000000000000000000000000000300) (by decide +kernel) (by decide +kernel)

theorem value24 : Spec.sha256 (beBytes 96 0xf67d27aca8e6395c7f68e539d1c3669707d34ddac6d44d800805982f57dace343636363636363636363636363636363636363636363636363636363636363636604e46a76b8dac7ea233f89346c3a70109df2129c84344fc4bccb0a6e12f68e7) = beBytes 32 0xd25755ba72203186419b263bee3771b015c6ae84ee36ff03fd1441feb542ebb8 :=
  sha256_of (n := 2) (t := 0xf67d27aca8e6395c7f68e539d1c3669707d34ddac6d44d800805982f57dace343636363636363636363636363636363636363636363636363636363636363636604e46a76b8dac7ea233f89346c3a70109df2129c84344fc4bccb0a6e12f68e78000000000000000000000000000000000000000000000000000000000000300) (by decide +kernel) (by decide +kernel)

theorem value25 : Spec.sha256 (beBytes 96 0x9c174dc6c28c533615028f53bba90cfd6db927b0acbe27ea626ff2453db0a45e5c5c5c5c5c5c5c5c5c5c5c5c5c5c5c5c5c5c5c5c5c5c5c5c5c5c5c5c5c5c5c5cd25755ba72203186419b263bee3771b015c6ae84ee36ff03fd1441feb542ebb8) = beBytes 32 0x7910dfe526db7d8f5b55fe67ff94a6d2b75ff6a67ee5e395efa04887a6744eef :=
  sha256_of (n := 2) (t := 0x9c174dc6c28c533615028f53bba90cfd6db927b0acbe27ea626ff2453db0a45e5c5c5c5c5c5c5c5c5c5c5c5c5c5c5c5c5c5c5c5c5c5c5c5c5c5c5c5c5c5c5c5cd25755ba72203186419b263bee3771b015c6ae84ee36ff03fd1441feb542ebb88000000000000000000000000000000000000000000000000000000000000300) (by decide +kernel) (by decide +kernel)

theorem candidates_legacy : drbgCandidate (beBytes 32 1) (beBytes 32 0x7b0b92304b509672efc93fa122371e621564d4c5612941182c15a181910e410f) 0 = beBytes 32 0xc80c3bba746fd504e94b1327b41501eac3bc15c04717df7a41b886ddbe9d0c24 ∧
    drbgCandidate (beBytes 32 1) (beBytes 32 0x7b0b92304b509672efc93fa122371e621564d4c5612941182c15a181910e410f) 1 = beBytes 32 0x7910dfe526db7d8f5b55fe67ff94a6d2b75ff6a67ee5e395efa04887a6744eef :=
  candidates_of (hmac_of (by decide +kernel) (by decide +kernel) value10 (by decide +kernel) value11)
    (hmac_of (by decide +kernel) (by decide +kernel) value12 (by decide +kernel) value13)
    (hmac_of (by decide +kernel) (by decide +kernel) value14 (by decide +kernel) value15)
    (hmac_of (by decide +kernel) (by decide +kernel) value16 (by decide +kernel) value17)
    (hmac_of (by decide +kernel) (by decide +kernel) value18 (by decide +kernel) value19)
    (hmac_of (by decide +kernel) (by decide +kernel) value20 (by decide +kernel) value21)
    (hmac_of (by decide +kernel) (by decide +kernel) value22 (by decide +kernel) value23)
    (hmac_of (by decide +kernel) (by decide +kernel) value24 (by decide +kernel) value25)

/-- The signature of input 0 can be made. -/
theorem nonce_legacy : ecdsaDeterministic (beBytes 32 1) ((exFund .legacy).digest exDraft 0) 10000 ≠ none := by
  rw [digest_legacy]
  exact deterministic_ne (e := 0x7b0b92304b509672efc93fa122371e621564d4c5612941182c15a181910e410f) (r := 0x84f46dcfb4af698d1036c05eddc8e19ca54a08214e1f5f2393bcbd0b3f280032) (by decide) (by unfold secpN; decide +kernel) (by decide +kernel) candidates_legacy (by unfold secpN; decide +kernel) (by unfold secpN; decide +kernel)
    (by decide +kernel) (by unfold secpN; decide +kernel) (by unfold secpN; decide +kernel) (by unfold secpN; decide +kernel) (by unfold secpP secpN; decide +kernel) (by unfold secpP; decide +kernel)

theorem value26 : Spec.sha256 (beBytes 108 0x013a95ce95637766e2425792097e468936dd211a2734d018455ce26139be1825000000007852cfbab1d586cea9ca878c49a7379208331f9388df8c4908dacb1dace46a1100000000a2abacd755b2a98462c00f5c66e48b2f66ebe467ecc0d305c717e4d01663bb0900000000) = beBytes 32 0xc0eca754084c72eb437792b92c1ef934ab2601cfd353401fd125e2eb0d30da74 :=
  sha256_of (n := 2) (t := 0x013a95ce95637766e2425792097e468936dd211a2734d018455ce26139be1825000000007852cfbab1d586cea9ca878c49a7379208331f9388df8c4908dacb1dace46a1100000000a2abacd755b2a98462c00f5c66e48b2f66ebe467ecc0d305c717e4d01663bb09000000008000000000000000000000000000000000000360) (by decide +kernel) (by decide +kernel)

theorem value27 : Spec.sha256 (beBytes 32 0xc0eca754084c72eb437792b92c1ef934ab2601cfd353401fd125e2eb0d30da74) = beBytes 32 0xa6fd35686fc338bf8728b1a620791f7f2e652a5c19e0f08a8288b9114427a603 :=
  sha256_of (n := 1) (t := 0xc0eca754084c72eb437792b92c1ef934ab2601cfd353401fd125e2eb0d30da748000000000000000000000000000000000000000000000000000000000000100) (by decide +kernel) (by decide +kernel)

theorem value28 : Spec.sha256 (beBytes 12 0xfdfffffffdfffffffdffffff) = beBytes 32 0x6457c08a37a59521f9795f6720f082d42d2a2288b2603527e20c67b84541e340 :=
  sha256_of (n := 1) (t := 0xfdfffffffdfffffffdffffff80000000000000000000000000000000000000000000000000000000000000000000000000000000000000000000000000000060) (by decide +kernel) (by decide +kernel)

theorem value29 : Spec.sha256 (beBytes 32 0x6457c08a37a59521f9795f6720f082d42d2a2288b2603527e20c67b84541e340) = beBytes 32 0x28ce0fc59233e0dcde2e7cdc5f8598042450843e608be898f19485768b8914f9 :=
  sha256_of (n := 1) (t := 0x6457c08a37a59521f9795f6720f082d42d2a2288b2603527e20c67b84541e3408000000000000000000000000000000000000000000000000000000000000100) (by decide +kernel) (by decide +kernel)

theorem value30 : Spec.sha256 (beBytes 10 0xb0360000000000000151) = beBytes 32 0xe7db671845044663930ee483322ddea55678472c01f9d179da9e943462b5b321 :=
  sha256_of (n := 1) (t := 0xb0360000000000000151800000000000000000000000000000000000000000000000000000000000000000000000000000000000000000000000000000000050) (by decide +kernel) (by decide +kernel)

theorem value31 : Spec.sha256 (beBytes 32 0xe7db671845044663930ee483322ddea55678472c01f9d179da9e943462b5b321) = beBytes 32 0x127fe5bc20963d5652ae0e690ccec43524fce23270730030935df64f16fb7304 :=
  sha256_of (n := 1) (t := 0xe7db671845044663930ee483322ddea55678472c01f9d179da9e943462b5b3218000000000000000000000000000000000000000000000000000000000000100) (by decide +kernel) (by decide +kernel)

theorem value32 : Spec.sha256 (beBytes 182 0x02000000a6fd35686fc338bf8728b1a620791f7f2e652a5c19e0f08a8288b9114427a60328ce0fc59233e0dcde2e7cdc5f8598042450843e608be898f19485768b8914f97852cfbab1d586cea9ca878c49a7379208331f9388df8c4908dacb1dace46a11000000001976a914751e76e8199196d454941c45d1b3a323f1433bd688ac8813000000000000fdffffff127fe5bc20963d5652ae0e690ccec43524fce23270730030935df64f16fb73040000000001000000) = beBytes 32 0x909600848b8d9edc99b88758192178abb174e814723dd8be7f4edc0551b94c13 :=
  sha256_of (n := 3) (t := 0x02000000a6fd35686fc338bf8728b1a620791f7f2e652a5c19e0f08a8288b9114427a60328ce0fc59233e0dcde2e7cdc5f8598042450843e608be898f19485768b8914f97852cfbab1d586cea9ca878c49a7379208331f9388df8c4908dacb1dace46a11000000001976a914751e76e8199196d454941c45d1b3a323f1433bd688ac8813000000000000fdffffff127fe5bc20963d5652ae0e690ccec43524fce23270730030935df64f16fb73040000000001000000800000000000000005b0) (by decide +kernel) (by decide +kernel)

theorem value33 : Spec.sha256 (beBytes 32 0x909600848b8d9edc99b88758192178abb174e814723dd8be7f4edc0551b94c13) = beBytes 32 0x18bce771aca80297a997a403f35c5ccd766e0e8df61a125959bf3ea726a6ca9b :=
  sha256_of (n := 1) (t := 0x909600848b8d9edc99b88758192178abb174e814723dd8be7f4edc0551b94c138000000000000000000000000000000000000000000000000000000000000100) (by decide +kernel) (by decide +kernel)

theorem digest_nested : (exFund .nested).digest exDraft 1 = beBytes 32 0x18bce771aca80297a997a403f35c5ccd766e0e8df61a125959bf3ea726a6ca9b := by
  show segwitSigHash exDraft 1 (exFund .nested).input (p2pkhScript (Spec.hash160 (secOf keyOne.pubKey.compressed ((1 : Nat) • G)))) 5000 1 = _
  rw [keyHash_one, input_nested]
  exact segwitSigHash_of (hash256_of (by decide +kernel) value26 value27) (hash256_of (by decide +kernel) value28 value29) (hash256_of (by decide +kernel) value30 value31) (by decide +kernel) value32 value33

theorem value34 : Spec.sha256 (beBytes 161 0x36363636363636363636363636363636363636363636363636363636363636363636363636363636363636363636363636363636363636363636363636363636010101010101010101010101010101010101010101010101010101010101010100000000000000000000000000000000000000000000000000000000000000000118bce771aca80297a997a403f35c5ccd766e0e8df61a125959bf3ea726a6ca9b) = beBytes 32 0x2d60dcaa8a98446bed70ad1748e1aef0fea1e1c5c1620914e1326c3947565749 :=
  sha256_of (n := 3) (t := 0x36363636363636363636363636363636363636363636363636363636363636363636363636363636363636363636363636363636363636363636363636363636010101010101010101010101010101010101010101010101010101010101010100000000000000000000000000000000000000000000000000000000000000000118bce771aca80297a997a403f35c5ccd766e0e8df61a125959bf3ea726a6ca9b80000000000000000000000000000000000000000000000000000000000508) (by decide +kernel) (by decide +kernel)

theorem value35 : Spec.sha256 (beBytes 96 0x5c5c5c5c5c5c5c5c5c5c5c5c5c5c5c5c5c5c5c5c5c5c5c5c5c5c5c5c5c5c5c5c5c5c5c5c5c5c5c5c5c5c5c5c5c5c5c5c5c5c5c5c5c5c5c5c5c5c5c5c5c5c5c5c2d60dcaa8a98446bed70ad1748e1aef0fea1e1c5c1620914e1326c3947565749) = beBytes 32 0xc527a8b2a85de61a14cfce96770f208be67f38b6b58efc8981d3023c787ca5d5 :=
  sha256_of (n := 2) (t := 0x5c5c5c5c5c5c5c5c5c5c5c5c5c5c5c5c5c5c5c5c5c5c5c5c5c5c5c5c5c5c5c5c5c5c5c5c5c5c5c5c5c5c5c5c5c5c5c5c5c5c5c5c5c5c5c5c5c5c5c5c5c5c5c5c2d60dcaa8a98446bed70ad1748e1aef0fea1e1c5c1620914e1326c39475657498000000000000000000000000000000000000000000000000000000000000300) (by decide +kernel) (by decide +kernel)

theorem value36 : Spec.sha256 (beBytes 96 0xf3119e849e6bd02c22f9f8a0413916bdd0490e8083b8cabfb7e5340a4e4a93e336363636363636363636363636363636363636363636363636363636363636360101010101010101010101010101010101010101010101010101010101010101) = beBytes 32 0x2974d1ceb9a2368f3ea91dc2b1c32d1cd71ae40b07792eec995238a4a8139cdb :=
  sha256_of (n := 2) (t := 0xf3119e849e6bd02c22f9f8a0413916bdd0490e8083b8cabfb7e5340a4e4a93e3363636363636363636363636363636363636363636363636363636363636363601010101010101010101010101010101010101010101010101010101010101018000000000000000000000000000000000000000000000000000000000000300) (by decide +kernel) (by decide +kernel)

theorem value37 : Spec.sha256 (beBytes 96 0x997bf4eef401ba46489392ca2b537cd7ba2364eae9d2a0d5dd8f5e602420f9895c5c5c5c5c5c5c5c5c5c5c5c5c5c5c5c5c5c5c5c5c5c5c5c5c5c5c5c5c5c5c5c2974d1ceb9a2368f3ea91dc2b1c32d1cd71ae40b07792eec995238a4a8139cdb) = beBytes 32 0xd611609b10ce320c745cb416fc588f5f4963524219022cca28d3b253367ce855 :=
  sha256_of (n := 2) (t := 0x997bf4eef401ba46489392ca2b537cd7ba2364eae9d2a0d5dd8f5e602420f9895c5c5c5c5c5c5c5c5c5c5c5c5c5c5c5c5c5c5c5c5c5c5c5c5c5c5c5c5c5c5c5c2974d1ceb9a2368f3ea91dc2b1c32d1cd71ae40b07792eec995238a4a8139cdb8000000000000000000000000000000000000000000000000000000000000300) (by decide +kernel) (by decide +kernel)

theorem value38 : Spec.sha256 (beBytes 161 0xf3119e849e6bd02c22f9f8a0413916bdd0490e8083b8cabfb7e5340a4e4a93e33636363636363636363636363636363636363636363636363636363636363636d611609b10ce320c745cb416fc588f5f4963524219022cca28d3b253367ce85501000000000000000000000000000000000000000000000000000000000000000118bce771aca80297a997a403f35c5ccd766e0e8df61a125959bf3ea726a6ca9b) = beBytes 32 0xd0d25d3af83591dcc4736aaa2b38f2d585c9f38ec512748264caaa69527f48db :=
  sha256_of (n := 3) (t := 0xf3119e849e6bd02c22f9f8a0413916bdd0490e8083b8cabfb7e5340a4e4a93e33636363636363636363636363636363636363636363636363636363636363636d611609b10ce320c745cb416fc588f5f4963524219022cca28d3b253367ce85501000000000000000000000000000000000000000000000000000000000000000118bce771aca80297a997a403f35c5ccd766e0e8df61a125959bf3ea726a6ca9b80000000000000000000000000000000000000000000000000000000000508) (by decide +kernel) (by decide +kernel)

theorem value39 : Spec.sha256 (beBytes 96 0x997bf4eef401ba46489392ca2b537cd7ba2364eae9d2a0d5dd8f5e602420f9895c5c5c5c5c5c5c5c5c5c5c5c5c5c5c5c5c5c5c5c5c5c5c5c5c5c5c5c5c5c5c5cd0d25d3af83591dcc4736aaa2b38f2d585c9f38ec512748264caaa69527f48db) = beBytes 32 0x3cd1c9c4b90004e751ea4c5937b41004ae9f605363bdc3019b4f7cab815b179b :=
  sha256_of (n := 2) (t := 0x997bf4eef401ba46489392ca2b537cd7ba2364eae9d2a0d5dd8f5e602420f9895c5c5c5c5c5c5c5c5c5c5c5c5c5c5c5c5c5c5c5c5c5c5c5c5c5c5c5c5c5c5c5cd0d25d3af83591dcc4736aaa2b38f2d585c9f38ec512748264caaa69527f48db8000000000000000000000000000000000000000000000000000000000000300) (by decide +kernel) (by decide +kernel)

theorem value40 : Spec.sha256 (beBytes 96 0x0ae7fff28f3632d167dc7a6f0182263298a95665558bf537ad794a9db76d21ad3636363636363636363636363636363636363636363636363636363636363636d611609b10ce320c745cb416fc588f5f4963524219022cca28d3b253367ce855) = beBytes 32 0xbd805c12356edb937097d4789b9dd77e01c8bf6ee0e4472c008e8393e365af41 :=
  sha256_of (n := 2) (t := 0x0ae7fff28f3632d167dc7a6f0182263298a95665558bf537ad794a9db76d21ad3636363636363636363636363636363636363636363636363636363636363636d611609b10ce320c745cb416fc588f5f4963524219022cca28d3b253367ce8558000000000000000000000000000000000000000000000000000000000000300) (by decide +kernel) (by decide +kernel)

theorem value41 : Spec.sha256 (beBytes 96 0x608d9598e55c58bb0db610056be84c58f2c33c0f3fe19f5dc71320f7dd074bc75c5c5c5c5c5c5c5c5c5c5c5c5c5c5c5c5c5c5c5c5c5c5c5c5c5c5c5c5c5c5c5cbd805c12356edb937097d4789b9dd77e01c8bf6ee0e4472c008e8393e365af41) = beBytes 32 0x6a89333e0c23730b82e0590aeeb86ffaea9a7fbbc21240f19a69889bb151ab3e :=
  sha256_of (n := 2) (t := 0x608d9598e55c58bb0db610056be84c58f2c33c0f3fe19f5dc71320f7dd074bc75c5c5c5c5c5c5c5c5c5c5c5c5c5c5c5c5c5c5c5c5c5c5c5c5c5c5c5c5c5c5c5cbd805c12356edb937097d4789b9dd77e01c8bf6ee0e4472c008e8393e365af418000000000000000000000000000000000000000000000000000000000000300) (by decide +kernel) (by decide +kernel)

theorem value42 : Spec.sha256 (beBytes 96 0x0ae7fff28f3632d167dc7a6f0182263298a95665558bf537ad794a9db76d21ad36363636363636363636363636363636363636363636363636363636363636366a89333e0c23730b82e0590aeeb86ffaea9a7fbbc21240f19a69889bb151ab3e) = beBytes 32 0x2bb28fa8c58dfa8e0ceeb83e3237715a64905da045496e8a2ea8482384fd89cb :=
  sha256_of (n := 2) (t := 0x0ae7fff28f3632d167dc7a6f0182263298a95665558bf537ad794a9db76d21ad36363636363636363636363636363636363636363636363636363636363636366a89333e0c23730b82e0590aeeb86ffaea9a7fbbc21240f19a69889bb151ab3e8000000000000000000000000000000000000000000000000000000000000300) (by decide +kernel) (by decide +kernel)

theorem value43 : Spec.sha256 (beBytes 96 0x608d9598e55c58bb0db610056be84c58f2c33c0f3fe19f5dc71320f7dd074bc75c5c5c5c5c5c5c5c5c5c5c5c5c5c5c5c5c5c5c5c5c5c5c5c5c5c5c5c5c5c5c5c2bb28fa8c58dfa8e0ceeb83e3237715a64905da045496e8a2ea8482384fd89cb) = beBytes 32 0x230f79f62f25836c7d841a76d83ec9f7b7417315a917e460ff9ed471fb8410fd :=
  sha256_of (n := 2) (t := 0x608d9598e55c58bb0db610056be84c58f2c33c0f3fe19f5dc71320f7dd074bc75c5c5c5c5c5c5c5c5c5c5c5c5c5c5c5c5c5c5c5c5c5c5c5c5c5c5c5c5c5c5c5c2bb28fa8c58dfa8e0ceeb83e3237715a64905da045496e8a2ea8482384fd89cb8000000000000000000000000000000000000000000000000000000000000300) (by decide +kernel) (by decide +kernel)

theorem value44 : Spec.sha256 (beBytes 97 0x0ae7fff28f3632d167dc7a6f0182263298a95665558bf537ad794a9db76d21ad3636363636363636363636363636363636363636363636363636363636363636230f79f62f25836c7d841a76d83ec9f7b7417315a917e460ff9ed471fb8410fd00) = beBytes 32 0xd747448f5e06854260bcd7445a64a85f7b43f3ff67437690d025c91d268f459e :=
  sha256_of (n := 2) (t := 0x0ae7fff28f3632d167dc7a6f0182263298a95665558bf537ad794a9db76d21ad3636363636363636363636363636363636363636363636363636363636363636230f79f62f25836c7d841a76d83ec9f7b7417315a917e460ff9ed471fb8410fd0080000000000000000000000000000000000000000000000000000000000308) (by decide +kernel) (by decide +kernel)

theorem value45 : Spec.sha256 (beBytes 96 0x608d9598e55c58bb0db610056be84c58f2c33c0f3fe19f5dc71320f7dd074bc75c5c5c5c5c5c5c5c5c5c5c5c5c5c5c5c5c5c5c5c5c5c5c5c5c5c5c5c5c5c5c5cd747448f5e06854260bcd7445a64a85f7b43f3ff67437690d025c91d268f459e) = beBytes 32 0xab504c182256e051a6d51e8b73f5d7e8d106f0f405fd13fd2ae5684895385871 :=
  sha256_of (n := 2) (t := 0x608d9598e55c58bb0db610056be84c58f2c33c0f3fe19f5dc71320f7dd074bc75c5c5c5c5c5c5c5c5c5c5c5c5c5c5c5c5c5c5c5c5c5c5c5c5c5c5c5c5c5c5c5cd747448f5e06854260bcd7445a64a85f7b43f3ff67437690d025c91d268f459e8000000000000000000000000000000000000000000000000000000000000300) (by decide +kernel) (by decide +kernel)

theorem value46 : Spec.sha256 (beBytes 96 0x9d667a2e1460d66790e328bd45c3e1dee730c6c233cb25cb1cd35e7ea30e6e473636363636363636363636363636363636363636363636363636363636363636230f79f62f25836c7d841a76d83ec9f7b7417315a917e460ff9ed471fb8410fd) = beBytes 32 0x475711b0d9ecb7b850482904b9710e1e8e3f005851614ea2c7bf667f8cc0c7a3 :=
  sha256_of (n := 2) (t := 0x9d667a2e1460d66790e328bd45c3e1dee730c6c233cb25cb1cd35e7ea30e6e473636363636363636363636363636363636363636363636363636363636363636230f79f62f25836c7d841a76d83ec9f7b7417315a917e460ff9ed471fb8410fd8000000000000000000000000000000000000000000000000000000000000300) (by decide +kernel) (by decide +kernel)

theorem value47 : Spec.sha256 (beBytes 96 0xf70c10447e0abc0dfa8942d72fa98bb48d5aaca859a14fa176b93414c964042d5c5c5c5c5c5c5c5c5c5c5c5c5c5c5c5c5c5c5c5c5c5c5c5c5c5c5c5c5c5c5c5c475711b0d9ecb7b850482904b9710e1e8e3f005851614ea2c7bf667f8cc0c7a3) = beBytes 32 0x4f60b9c8c3eca0f5877d27582cb7a5203a01fa292a8cab10b850c0e0c959748f :=
  sha256_of (n := 2) (t := 0xf70c10447e0abc0dfa8942d72fa98bb48d5aaca859a14fa176b93414c964042d5c5c5c5c5c5c5c5c5c5c5c5c5c5c5c5c5c5c5c5c5c5c5c5c5c5c5c5c5c5c5c5c475711b0d9ecb7b850482904b9710e1e8e3f005851614ea2c7bf667f8cc0c7a38000000000000000000000000000000000000000000000000000000000000300) (by decide +kernel) (by decide +kernel)

theorem value48 : Spec.sha256 (beBytes 96 0x9d667a2e1460d66790e328bd45c3e1dee730c6c233cb25cb1cd35e7ea30e6e4736363636363636363636363636363636363636363636363636363636363636364f60b9c8c3eca0f5877d27582cb7a5203a01fa292a8cab10b850c0e0c959748f) = beBytes 32 0x9b0951df6779130904fc8e6507c9122a9409409350ae7f961ad706978f2d7639 :=
  sha256_of (n := 2) (t := 0x9d667a2e1460d66790e328bd45c3e1dee730c6c233cb25cb1cd35e7ea30e6e4736363636363636363636363636363636363636363636363636363636363636364f60b9c8c3eca0f5877d27582cb7a5203a01fa292a8cab10b850c0e0c959748f8000000000000000000000000000000000000000000000000000000000000300) (by decide +kernel) (by decide +kernel)

theorem value49 : Spec.sha256 (beBytes 96 0xf70c10447e0abc0dfa8942d72fa98bb48d5aaca859a14fa176b93414c964042d5c5c5c5c5c5c5c5c5c5c5c5c5c5c5c5c5c5c5c5c5c5c5c5c5c5c5c5c5c5c5c5c9b0951df6779130904fc8e6507c9122a9409409350ae7f961ad706978f2d7639) = beBytes 32 0xa056976a8b2922796c519756f16fb306863f39700dc7b82eb87ce04e20112476 :=
  sha256_of (n := 2) (t := 0xf70c10447e0abc0dfa8942d72fa98bb48d5aaca859a14fa176b93414c964042d5c5c5c5c5c5c5c5c5c5c5c5c5c5c5c5c5c5c5c5c5c5c5c5c5c5c5c5c5c5c5c5c9b0951df6779130904fc8e6507c9122a9409409350ae7f961ad706978f2d76398000000000000000000000000000000000000000000000000000000000000300) (by decide +kernel) (by decide +kernel)

theorem candidates_nested : drbgCandidate (beBytes 32 1) (beBytes 32 0x18bce771aca80297a997a403f35c5ccd766e0e8df61a125959bf3ea726a6ca9b) 0 = beBytes 32 0x230f79f62f25836c7d841a76d83ec9f7b7417315a917e460ff9ed471fb8410fd ∧
    drbgCandidate (beBytes 32 1) (beBytes 32 0x18bce771aca80297a997a403f35c5ccd766e0e8df61a125959bf3ea726a6ca9b) 1 = beBytes 32 0xa056976a8b2922796c519756f16fb306863f39700dc7b82eb87ce04e20112476 :=
  candidates_of (hmac_of (by decide +kernel) (by decide +kernel) value34 (by decide +kernel) value35)
    (hmac_of (by decide +kernel) (by decide +kernel) value36 (by decide +kernel) value37)
    (hmac_of (by decide +kernel) (by decide +kernel) value38 (by decide +kernel) value39)
    (hmac_of (by decide +kernel) (by decide +kernel) value40 (by decide +kernel) value41)
    (hmac_of (by decide +kernel) (by decide +kernel) value42 (by decide +kernel) value43)
    (hmac_of (by decide +kernel) (by decide +kernel) value44 (by decide +kernel) value45)
    (hmac_of (by decide +kernel) (by decide +kernel) value46 (by decide +kernel) value47)
    (hmac_of (by decide +kernel) (by decide +kernel) value48 (by decide +kernel) value49)

/-- The signature of input 1 can be made. -/
theorem nonce_nested : ecdsaDeterministic (beBytes 32 1) ((exFund .nested).digest exDraft 1) 10000 ≠ none := by
  rw [digest_nested]
  exact deterministic_ne (e := 0x18bce771aca80297a997a403f35c5ccd766e0e8df61a125959bf3ea726a6ca9b) (r := 0xe743188e5357fd6856685bfc0ca3a3314440ce58b92e8de266131fe5a98f76a6) (by decide) (by unfold secpN; decide +kernel) (by decide +kernel) candidates_nested (by unfold secpN; decide +kernel) (by unfold secpN; decide +kernel)
    (by decide +kernel) (by unfold secpN; decide +kernel) (by unfold secpN; decide +kernel) (by unfold secpN; decide +kernel) (by unfold secpP secpN; decide +kernel) (by unfold secpP; decide +kernel)

theorem value50 : Spec.sha256 (beBytes 182 0x02000000a6fd35686fc338bf8728b1a620791f7f2e652a5c19e0f08a8288b9114427a60328ce0fc59233e0dcde2e7cdc5f8598042450843e608be898f19485768b8914f9a2abacd755b2a98462c00f5c66e48b2f66ebe467ecc0d305c717e4d01663bb09000000001976a914751e76e8199196d454941c45d1b3a323f1433bd688ac8813000000000000fdffffff127fe5bc20963d5652ae0e690ccec43524fce23270730030935df64f16fb73040000000001000000) = beBytes 32 0x8e230ca4bc4ca4a07cba07026a427cb3223ca0937b81494f62bf528c0328174b :=
  sha256_of (n := 3) (t := 0x02000000a6fd35686fc338bf8728b1a620791f7f2e652a5c19e0f08a8288b9114427a60328ce0fc59233e0dcde2e7cdc5f8598042450843e608be898f19485768b8914f9a2abacd755b2a98462c00f5c66e48b2f66ebe467ecc0d305c717e4d01663bb09000000001976a914751e76e8199196d454941c45d1b3a323f1433bd688ac8813000000000000fdffffff127fe5bc20963d5652ae0e690ccec43524fce23270730030935df64f16fb73040000000001000000800000000000000005b0) (by decide +kernel) (by decide +kernel)

theorem value51 : Spec.sha256 (beBytes 32 0x8e230ca4bc4ca4a07cba07026a427cb3223ca0937b81494f62bf528c0328174b) = beBytes 32 0xacfba17586e26e4058ea0a8579e37b76142333a361d7b71963d1cbbe6962ed9a :=
  sha256_of (n := 1) (t := 0x8e230ca4bc4ca4a07cba07026a427cb3223ca0937b81494f62bf528c0328174b8000000000000000000000000000000000000000000000000000000000000100) (by decide +kernel) (by decide +kernel)

theorem digest_segwit : (exFund .segwit).digest exDraft 2 = beBytes 32 0xacfba17586e26e4058ea0a8579e37b76142333a361d7b71963d1cbbe6962ed9a := by
  show segwitSigHash exDraft 2 (exFund .segwit).input (p2pkhScript (Spec.hash160 (secOf keyOne.pubKey.compressed ((1 : Nat) • G)))) 5000 1 = _
  rw [keyHash_one, input_segwit]
  exact segwitSigHash_of (hash256_of (by decide +kernel) value26 value27) (hash256_of (by decide +kernel) value28 value29) (hash256_of (by decide +kernel) value30 value31) (by decide +kernel) value50 value51

theorem value52 : Spec.sha256 (beBytes 161 0x363636363636363636363636363636363636363636363636363636363636363636363636363636363636363636363636363636363636363636363636363636360101010101010101010101010101010101010101010101010101010101010101000000000000000000000000000000000000000000000000000000000000000001acfba17586e26e4058ea0a8579e37b76142333a361d7b71963d1cbbe6962ed9a) = beBytes 32 0xcd95836e4302619778794c9ee60e28ab82860be4683c1397467b5221e162f104 :=
  sha256_of (n := 3) (t := 0x363636363636363636363636363636363636363636363636363636363636363636363636363636363636363636363636363636363636363636363636363636360101010101010101010101010101010101010101010101010101010101010101000000000000000000000000000000000000000000000000000000000000000001acfba17586e26e4058ea0a8579e37b76142333a361d7b71963d1cbbe6962ed9a80000000000000000000000000000000000000000000000000000000000508) (by decide +kernel) (by decide +kernel)

theorem value53 : Spec.sha256 (beBytes 96 0x5c5c5c5c5c5c5c5c5c5c5c5c5c5c5c5c5c5c5c5c5c5c5c5c5c5c5c5c5c5c5c5c5c5c5c5c5c5c5c5c5c5c5c5c5c5c5c5c5c5c5c5c5c5c5c5c5c5c5c5c5c5c5c5ccd95836e4302619778794c9ee60e28ab82860be4683c1397467b5221e162f104) = beBytes 32 0x36a4b2e6619216bc8feebfcda6368493513979bf16595b594b4178df2e1fef87 :=
  sha256_of (n := 2) (t := 0x5c5c5c5c5c5c5c5c5c5c5c5c5c5c5c5c5c5c5c5c5c5c5c5c5c5c5c5c5c5c5c5c5c5c5c5c5c5c5c5c5c5c5c5c5c5c5c5c5c5c5c5c5c5c5c5c5c5c5c5c5c5c5c5ccd95836e4302619778794c9ee60e28ab82860be4683c1397467b5221e162f1048000000000000000000000000000000000000000000000000000000000000300) (by decide +kernel) (by decide +kernel)

theorem value54 : Spec.sha256 (beBytes 96 0x009284d057a4208ab9d889fb9000b2a5670f4f89206f6d6f7d774ee91829d9b136363636363636363636363636363636363636363636363636363636363636360101010101010101010101010101010101010101010101010101010101010101) = beBytes 32 0xb9930b6de1a8ae72f0beb8b2ab37bb9177c9d130aa1a30825d0a1c8abcd1797b :=
  sha256_of (n := 2) (t := 0x009284d057a4208ab9d889fb9000b2a5670f4f89206f6d6f7d774ee91829d9b1363636363636363636363636363636363636363636363636363636363636363601010101010101010101010101010101010101010101010101010101010101018000000000000000000000000000000000000000000000000000000000000300) (by decide +kernel) (by decide +kernel)

theorem value55 : Spec.sha256 (beBytes 96 0x6af8eeba3dce4ae0d3b2e391fa6ad8cf0d6525e34a050705171d24837243b3db5c5c5c5c5c5c5c5c5c5c5c5c5c5c5c5c5c5c5c5c5c5c5c5c5c5c5c5c5c5c5c5cb9930b6de1a8ae72f0beb8b2ab37bb9177c9d130aa1a30825d0a1c8abcd1797b) = beBytes 32 0x5ece3a3655614e35cf848ba304c19ab54c2890d74bf610a1f4682ecf082e5fb5 :=
  sha256_of (n := 2) (t := 0x6af8eeba3dce4ae0d3b2e391fa6ad8cf0d6525e34a050705171d24837243b3db5c5c5c5c5c5c5c5c5c5c5c5c5c5c5c5c5c5c5c5c5c5c5c5c5c5c5c5c5c5c5c5cb9930b6de1a8ae72f0beb8b2ab37bb9177c9d130aa1a30825d0a1c8abcd1797b8000000000000000000000000000000000000000000000000000000000000300) (by decide +kernel) (by decide +kernel)

theorem value56 : Spec.sha256 (beBytes 161 0x009284d057a4208ab9d889fb9000b2a5670f4f89206f6d6f7d774ee91829d9b136363636363636363636363636363636363636363636363636363636363636365ece3a3655614e35cf848ba304c19ab54c2890d74bf610a1f4682ecf082e5fb5010000000000000000000000000000000000000000000000000000000000000001acfba17586e26e4058ea0a8579e37b76142333a361d7b71963d1cbbe6962ed9a) = beBytes 32 0x0993299cbfe14777db1d96bca7150629e864d1cf078943d864e739117f3dbe82 :=
  sha256_of (n := 3) (t := 0x009284d057a4208ab9d889fb9000b2a5670f4f89206f6d6f7d774ee91829d9b136363636363636363636363636363636363636363636363636363636363636365ece3a3655614e35cf848ba304c19ab54c2890d74bf610a1f4682ecf082e5fb5010000000000000000000000000000000000000000000000000000000000000001acfba17586e26e4058ea0a8579e37b76142333a361d7b71963d1cbbe6962ed9a80000000000000000000000000000000000000000000000000000000000508) (by decide +kernel) (by decide +kernel)

theorem value57 : Spec.sha256 (beBytes 96 0x6af8eeba3dce4ae0d3b2e391fa6ad8cf0d6525e34a050705171d24837243b3db5c5c5c5c5c5c5c5c5c5c5c5c5c5c5c5c5c5c5c5c5c5c5c5c5c5c5c5c5c5c5c5c0993299cbfe14777db1d96bca7150629e864d1cf078943d864e739117f3dbe82) = beBytes 32 0xe5ffc719753857cd9f9e0474682a715317c0a93de4bae1fee044ca7a6a977265 :=
  sha256_of (n := 2) (t := 0x6af8eeba3dce4ae0d3b2e391fa6ad8cf0d6525e34a050705171d24837243b3db5c5c5c5c5c5c5c5c5c5c5c5c5c5c5c5c5c5c5c5c5c5c5c5c5c5c5c5c5c5c5c5c0993299cbfe14777db1d96bca7150629e864d1cf078943d864e739117f3dbe828000000000000000000000000000000000000000000000000000000000000300) (by decide +kernel) (by decide +kernel)

theorem value58 : Spec.sha256 (beBytes 96 0xd3c9f12f430e61fba9a832425e1c476521f69f0bd28cd7c8d672fc4c5ca1445336363636363636363636363636363636363636363636363636363636363636365ece3a3655614e35cf848ba304c19ab54c2890d74bf610a1f4682ecf082e5fb5) = beBytes 32 0x0315e92ad0cb8d64c8c23ef0f662de92a09f102f308daa8f1cc6a462717c9ce3 :=
  sha256_of (n := 2) (t := 0xd3c9f12f430e61fba9a832425e1c476521f69f0bd28cd7c8d672fc4c5ca1445336363636363636363636363636363636363636363636363636363636363636365ece3a3655614e35cf848ba304c19ab54c2890d74bf610a1f4682ecf082e5fb58000000000000000000000000000000000000000000000000000000000000300) (by decide +kernel) (by decide +kernel)

theorem value59 : Spec.sha256 (beBytes 96 0xb9a39b4529640b91c3c2582834762d0f4b9cf561b8e6bda2bc18962636cb2e395c5c5c5c5c5c5c5c5c5c5c5c5c5c5c5c5c5c5c5c5c5c5c5c5c5c5c5c5c5c5c5c0315e92ad0cb8d64c8c23ef0f662de92a09f102f308daa8f1cc6a462717c9ce3) = beBytes 32 0x332f21069d11a411b5ead70fc6e66f5314e34ee3604cb3091fbe5e93f4dbd39c :=
  sha256_of (n := 2) (t := 0xb9a39b4529640b91c3c2582834762d0f4b9cf561b8e6bda2bc18962636cb2e395c5c5c5c5c5c5c5c5c5c5c5c5c5c5c5c5c5c5c5c5c5c5c5c5c5c5c5c5c5c5c5c0315e92ad0cb8d64c8c23ef0f662de92a09f102f308daa8f1cc6a462717c9ce38000000000000000000000000000000000000000000000000000000000000300) (by decide +kernel) (by decide +kernel)

theorem value60 : Spec.sha256 (beBytes 96 0xd3c9f12f430e61fba9a832425e1c476521f69f0bd28cd7c8d672fc4c5ca144533636363636363636363636363636363636363636363636363636363636363636332f21069d11a411b5ead70fc6e66f5314e34ee3604cb3091fbe5e93f4dbd39c) = beBytes 32 0xffe2fe3bbf15a8e36162fc85d14aec2f486bfca4a60320a4004950cb4e6749c1 :=
  sha256_of (n := 2) (t := 0xd3c9f12f430e61fba9a832425e1c476521f69f0bd28cd7c8d672fc4c5ca144533636363636363636363636363636363636363636363636363636363636363636332f21069d11a411b5ead70fc6e66f5314e34ee3604cb3091fbe5e93f4dbd39c8000000000000000000000000000000000000000000000000000000000000300) (by decide +kernel) (by decide +kernel)

theorem value61 : Spec.sha256 (beBytes 96 0xb9a39b4529640b91c3c2582834762d0f4b9cf561b8e6bda2bc18962636cb2e395c5c5c5c5c5c5c5c5c5c5c5c5c5c5c5c5c5c5c5c5c5c5c5c5c5c5c5c5c5c5c5cffe2fe3bbf15a8e36162fc85d14aec2f486bfca4a60320a4004950cb4e6749c1) = beBytes 32 0xaf49aa2ffecf8c8ddbf2d159fa56b07aa0b73f2aeb2883414969c9d81c875b94 :=
  sha256_of (n := 2) (t := 0xb9a39b4529640b91c3c2582834762d0f4b9cf561b8e6bda2bc18962636cb2e395c5c5c5c5c5c5c5c5c5c5c5c5c5c5c5c5c5c5c5c5c5c5c5c5c5c5c5c5c5c5c5cffe2fe3bbf15a8e36162fc85d14aec2f486bfca4a60320a4004950cb4e6749c18000000000000000000000000000000000000000000000000000000000000300) (by decide +kernel) (by decide +kernel)

theorem value62 : Spec.sha256 (beBytes 97 0xd3c9f12f430e61fba9a832425e1c476521f69f0bd28cd7c8d672fc4c5ca144533636363636363636363636363636363636363636363636363636363636363636af49aa2ffecf8c8ddbf2d159fa56b07aa0b73f2aeb2883414969c9d81c875b9400) = beBytes 32 0x8b9bc6bcc679b5c2ae78e427c2381e2ec92f314dffb85383c1d912c9dba688dd :=
  sha256_of (n := 2) (t := 0xd3c9f12f430e61fba9a832425e1c476521f69f0bd28cd7c8d672fc4c5ca144533636363636363636363636363636363636363636363636363636363636363636af49aa2ffecf8c8ddbf2d159fa56b07aa0b73f2aeb2883414969c9d81c875b940080000000000000000000000000000000000000000000000000000000000308) (by decide +kernel) (by decide +kernel)

theorem value63 : Spec.sha256 (beBytes 96 0xb9a39b4529640b91c3c2582834762d0f4b9cf561b8e6bda2bc18962636cb2e395c5c5c5c5c5c5c5c5c5c5c5c5c5c5c5c5c5c5c5c5c5c5c5c5c5c5c5c5c5c5c5c8b9bc6bcc679b5c2ae78e427c2381e2ec92f314dffb85383c1d912c9dba688dd) = beBytes 32 0x312cdebab49954c71aa7d9496464b4c648712bf61f5229b2b2b23d365011988b :=
  sha256_of (n := 2) (t := 0xb9a39b4529640b91c3c2582834762d0f4b9cf561b8e6bda2bc18962636cb2e395c5c5c5c5c5c5c5c5c5c5c5c5c5c5c5c5c5c5c5c5c5c5c5c5c5c5c5c5c5c5c5c8b9bc6bcc679b5c2ae78e427c2381e2ec92f314dffb85383c1d912c9dba688dd8000000000000000000000000000000000000000000000000000000000000300) (by decide +kernel) (by decide +kernel)

theorem value64 : Spec.sha256 (beBytes 96 0x071ae88c82af62f12c91ef7f525282f07e471dc029641f8484840b006627aebd3636363636363636363636363636363636363636363636363636363636363636af49aa2ffecf8c8ddbf2d159fa56b07aa0b73f2aeb2883414969c9d81c875b94) = beBytes 32 0x7b77d390c2c321f12c0b4afcc4389782efb52eb1896abde05633995bafc5213b :=
  sha256_of (n := 2) (t := 0x071ae88c82af62f12c91ef7f525282f07e471dc029641f8484840b006627aebd3636363636363636363636363636363636363636363636363636363636363636af49aa2ffecf8c8ddbf2d159fa56b07aa0b73f2aeb2883414969c9d81c875b948000000000000000000000000000000000000000000000000000000000000300) (by decide +kernel) (by decide +kernel)

theorem value65 : Spec.sha256 (beBytes 96 0x6d7082e6e8c5089b46fb85153838e89a142d77aa430e75eeeeee616a0c4dc4d75c5c5c5c5c5c5c5c5c5c5c5c5c5c5c5c5c5c5c5c5c5c5c5c5c5c5c5c5c5c5c5c7b77d390c2c321f12c0b4afcc4389782efb52eb1896abde05633995bafc5213b) = beBytes 32 0xefba573e52b72ad368fbcedfe38bfcce63da68d93e31893ac6ec7583f2917737 :=
  sha256_of (n := 2) (t := 0x6d7082e6e8c5089b46fb85153838e89a142d77aa430e75eeeeee616a0c4dc4d75c5c5c5c5c5c5c5c5c5c5c5c5c5c5c5c5c5c5c5c5c5c5c5c5c5c5c5c5c5c5c5c7b77d390c2c321f12c0b4afcc4389782efb52eb1896abde05633995bafc5213b8000000000000000000000000000000000000000000000000000000000000300) (by decide +kernel) (by decide +kernel)

theorem value66 : Spec.sha256 (beBytes 96 0x071ae88c82af62f12c91ef7f525282f07e471dc029641f8484840b006627aebd3636363636363636363636363636363636363636363636363636363636363636efba573e52b72ad368fbcedfe38bfcce63da68d93e31893ac6ec7583f2917737) = beBytes 32 0x76b4ef7a4945c2b854e6c9a087fcee1b45a7275479d77ae192daa37d2c0a8267 :=
  sha256_of (n := 2) (t := 0x071ae88c82af62f12c91ef7f525282f07e471dc029641f8484840b006627aebd3636363636363636363636363636363636363636363636363636363636363636efba573e52b72ad368fbcedfe38bfcce63da68d93e31893ac6ec7583f29177378000000000000000000000000000000000000000000000000000000000000300) (by decide +kernel) (by decide +kernel)

theorem value67 : Spec.sha256 (beBytes 96 0x6d7082e6e8c5089b46fb85153838e89a142d77aa430e75eeeeee616a0c4dc4d75c5c5c5c5c5c5c5c5c5c5c5c5c5c5c5c5c5c5c5c5c5c5c5c5c5c5c5c5c5c5c5c76b4ef7a4945c2b854e6c9a087fcee1b45a7275479d77ae192daa37d2c0a8267) = beBytes 32 0x025c3159291ee36b0f6103e3938eb109e1434f067936de6dd2762f2e5ac4d3c6 :=
  sha256_of (n := 2) (t := 0x6d7082e6e8c5089b46fb85153838e89a142d77aa430e75eeeeee616a0c4dc4d75c5c5c5c5c5c5c5c5c5c5c5c5c5c5c5c5c5c5c5c5c5c5c5c5c5c5c5c5c5c5c5c76b4ef7a4945c2b854e6c9a087fcee1b45a7275479d77ae192daa37d2c0a82678000000000000000000000000000000000000000000000000000000000000300) (by decide +kernel) (by decide +kernel)

theorem candidates_segwit : drbgCandidate (beBytes 32 1) (beBytes 32 0xacfba17586e26e4058ea0a8579e37b76142333a361d7b71963d1cbbe6962ed9a) 0 = beBytes 32 0xaf49aa2ffecf8c8ddbf2d159fa56b07aa0b73f2aeb2883414969c9d81c875b94 ∧
    drbgCandidate (beBytes 32 1) (beBytes 32 0xacfba17586e26e4058ea0a8579e37b76142333a361d7b71963d1cbbe6962ed9a) 1 = beBytes 32 0x025c3159291ee36b0f6103e3938eb109e1434f067936de6dd2762f2e5ac4d3c6 :=
  candidates_of (hmac_of (by decide +kernel) (by decide +kernel) value52 (by decide +kernel) value53)
    (hmac_of (by decide +kernel) (by decide +kernel) value54 (by decide +kernel) value55)
    (hmac_of (by decide +kernel) (by decide +kernel) value56 (by decide +kernel) value57)
    (hmac_of (by decide +kernel) (by decide +kernel) value58 (by decide +kernel) value59)
    (hmac_of (by decide +kernel) (by decide +kernel) value60 (by decide +kernel) value61)
    (hmac_of (by decide +kernel) (by decide +kernel) value62 (by decide +kernel) value63)
    (hmac_of (by decide +kernel) (by decide +kernel) value64 (by decide +kernel) value65)
    (hmac_of (by decide +kernel) (by decide +kernel) value66 (by decide +kernel) value67)

/-- The signature of input 2 can be made. -/
theorem nonce_segwit : ecdsaDeterministic (beBytes 32 1) ((exFund .segwit).digest exDraft 2) 10000 ≠ none := by
  rw [digest_segwit]
  exact deterministic_ne (e := 0xacfba17586e26e4058ea0a8579e37b76142333a361d7b71963d1cbbe6962ed9a) (r := 0x53045e8a791d91bfa715f57a861c8488a68ba9434d70e9225c0092ce66d353a7) (by decide) (by unfold secpN; decide +kernel) (by decide +kernel) candidates_segwit (by unfold secpN; decide +kernel) (by unfold secpN; decide +kernel)
    (by decide +kernel) (by unfold secpN; decide +kernel) (by unfold secpN; decide +kernel) (by unfold secpN; decide +kernel) (by unfold secpP secpN; decide +kernel) (by unfold secpP; decide +kernel)

def soloOuts : List (TxOut × Out) := [({ amount := 3998, scriptPubkey := holder [0x51] }, ⟨3998, [0x51]⟩)]

def soloDraft : Transaction := ⟨2, [⟨beBytes 32 0xa2abacd755b2a98462c00f5c66e48b2f66ebe467ecc0d305c717e4d01663bb09, 0, [], 0xfffffffd, []⟩], [⟨3998, [0x51]⟩], 0⟩

theorem draft_solo : draft 2 0 [exFund .segwit] (soloOuts.map Prod.snd) = soloDraft := by
  unfold draft soloDraft
  simp only [List.map_cons, List.map_nil, input_segwit]
  rfl

theorem value68 : Spec.sha256 (beBytes 36 0xa2abacd755b2a98462c00f5c66e48b2f66ebe467ecc0d305c717e4d01663bb0900000000) = beBytes 32 0x319bdbe724b3c46dd48c56239f4934545701f7356297dbc38b41413a885ff1ee :=
  sha256_of (n := 1) (t := 0xa2abacd755b2a98462c00f5c66e48b2f66ebe467ecc0d305c717e4d01663bb090000000080000000000000000000000000000000000000000000000000000120) (by decide +kernel) (by decide +kernel)

theorem value69 : Spec.sha256 (beBytes 32 0x319bdbe724b3c46dd48c56239f4934545701f7356297dbc38b41413a885ff1ee) = beBytes 32 0x63d3c0996b75964623b1fa50506832c3c60d156092fa621bae5e34bcfaae2df6 :=
  sha256_of (n := 1) (t := 0x319bdbe724b3c46dd48c56239f4934545701f7356297dbc38b41413a885ff1ee8000000000000000000000000000000000000000000000000000000000000100) (by decide +kernel) (by decide +kernel)

theorem value70 : Spec.sha256 (beBytes 4 0xfdffffff) = beBytes 32 0x23e9829bfb4e23fbd3c4848baa035af15d73bcb83e510f7f097f90a21a4280d2 :=
  sha256_of (n := 1) (t := 0xfdffffff800000000000000000000000000000000000000000000000000000000000000000000000000000000000000000000000000000000000000000000020) (by decide +kernel) (by decide +kernel)

theorem value71 : Spec.sha256 (beBytes 32 0x23e9829bfb4e23fbd3c4848baa035af15d73bcb83e510f7f097f90a21a4280d2) = beBytes 32 0xcaf35e5224de16efa3ccaf41070f6e7b9432b6f79551e629fca9d1c03b43bc52 :=
  sha256_of (n := 1) (t := 0x23e9829bfb4e23fbd3c4848baa035af15d73bcb83e510f7f097f90a21a4280d28000000000000000000000000000000000000000000000000000000000000100) (by decide +kernel) (by decide +kernel)

theorem value72 : Spec.sha256 (beBytes 10 0x9e0f0000000000000151) = beBytes 32 0x6b6c456c6388b0b3d31b50da322b8941819808d0eb576835a46f084b2f5ea586 :=
  sha256_of (n := 1) (t := 0x9e0f0000000000000151800000000000000000000000000000000000000000000000000000000000000000000000000000000000000000000000000000000050) (by decide +kernel) (by decide +kernel)

theorem value73 : Spec.sha256 (beBytes 32 0x6b6c456c6388b0b3d31b50da322b8941819808d0eb576835a46f084b2f5ea586) = beBytes 32 0x36d528d8580c5a27bb285f64eddd0403e65ed9ee81d2c100f0557052ae873c08 :=
  sha256_of (n := 1) (t := 0x6b6c456c6388b0b3d31b50da322b8941819808d0eb576835a46f084b2f5ea5868000000000000000000000000000000000000000000000000000000000000100) (by decide +kernel) (by decide +kernel)

theorem value74 : Spec.sha256 (beBytes 182 0x0200000063d3c0996b75964623b1fa50506832c3c60d156092fa621bae5e34bcfaae2df6caf35e5224de16efa3ccaf41070f6e7b9432b6f79551e629fca9d1c03b43bc52a2abacd755b2a98462c00f5c66e48b2f66ebe467ecc0d305c717e4d01663bb09000000001976a914751e76e8199196d454941c45d1b3a323f1433bd688ac8813000000000000fdffffff36d528d8580c5a27bb285f64eddd0403e65ed9ee81d2c100f0557052ae873c080000000001000000) = beBytes 32 0x3803c709af2a81bcd56db2826b9875d7d2a06a6c9e7554a55194ef2e65e8aeef :=
  sha256_of (n := 3) (t := 0x0200000063d3c0996b75964623b1fa50506832c3c60d156092fa621bae5e34bcfaae2df6caf35e5224de16efa3ccaf41070f6e7b9432b6f79551e629fca9d1c03b43bc52a2abacd755b2a98462c00f5c66e48b2f66ebe467ecc0d305c717e4d01663bb09000000001976a914751e76e8199196d454941c45d1b3a323f1433bd688ac8813000000000000fdffffff36d528d8580c5a27bb285f64eddd0403e65ed9ee81d2c100f0557052ae873c080000000001000000800000000000000005b0) (by decide +kernel) (by decide +kernel)

theorem value75 : Spec.sha256 (beBytes 32 0x3803c709af2a81bcd56db2826b9875d7d2a06a6c9e7554a55194ef2e65e8aeef) = beBytes 32 0xa9509ce0dacc8a91d66f29b3e6d82f3c567fbf347d78327536a4bf091e9fdeae :=
  sha256_of (n := 1) (t := 0x3803c709af2a81bcd56db2826b9875d7d2a06a6c9e7554a55194ef2e65e8aeef8000000000000000000000000000000000000000000000000000000000000100) (by decide +kernel) (by decide +kernel)

theorem digest_solo : (exFund .segwit).digest soloDraft 0 = beBytes 32 0xa9509ce0dacc8a91d66f29b3e6d82f3c567fbf347d78327536a4bf091e9fdeae := by
  show segwitSigHash soloDraft 0 (exFund .segwit).input (p2pkhScript (Spec.hash160 (secOf keyOne.pubKey.compressed ((1 : Nat) • G)))) 5000 1 = _
  rw [keyHash_one, input_segwit]
  exact segwitSigHash_of (hash256_of (by decide +kernel) value68 value69) (hash256_of (by decide +kernel) value70 value71) (hash256_of (by decide +kernel) value72 value73) (by decide +kernel) value74 value75

theorem value76 : Spec.sha256 (beBytes 161 0x363636363636363636363636363636363636363636363636363636363636363636363636363636363636363636363636363636363636363636363636363636360101010101010101010101010101010101010101010101010101010101010101000000000000000000000000000000000000000000000000000000000000000001a9509ce0dacc8a91d66f29b3e6d82f3c567fbf347d78327536a4bf091e9fdeae) = beBytes 32 0x5c15fbd7a29b12bcf986b8985e399e60259532a7b2c2075bccd57e90f5350839 :=
  sha256_of (n := 3) (t := 0x363636363636363636363636363636363636363636363636363636363636363636363636363636363636363636363636363636363636363636363636363636360101010101010101010101010101010101010101010101010101010101010101000000000000000000000000000000000000000000000000000000000000000001a9509ce0dacc8a91d66f29b3e6d82f3c567fbf347d78327536a4bf091e9fdeae80000000000000000000000000000000000000000000000000000000000508) (by decide +kernel) (by decide +kernel)

theorem value77 : Spec.sha256 (beBytes 96 0x5c5c5c5c5c5c5c5c5c5c5c5c5c5c5c5c5c5c5c5c5c5c5c5c5c5c5c5c5c5c5c5c5c5c5c5c5c5c5c5c5c5c5c5c5c5c5c5c5c5c5c5c5c5c5c5c5c5c5c5c5c5c5c5c5c15fbd7a29b12bcf986b8985e399e60259532a7b2c2075bccd57e90f5350839) = beBytes 32 0x24983593620f477a0039855fd8208a062927b41ee67106b09d1f045a9190d579 :=
  sha256_of (n := 2) (t := 0x5c5c5c5c5c5c5c5c5c5c5c5c5c5c5c5c5c5c5c5c5c5c5c5c5c5c5c5c5c5c5c5c5c5c5c5c5c5c5c5c5c5c5c5c5c5c5c5c5c5c5c5c5c5c5c5c5c5c5c5c5c5c5c5c5c15fbd7a29b12bcf986b8985e399e60259532a7b2c2075bccd57e90f53508398000000000000000000000000000000000000000000000000000000000000300) (by decide +kernel) (by decide +kernel)

theorem value78 : Spec.sha256 (beBytes 96 0x12ae03a55439714c360fb369ee16bc301f118228d0473086ab29326ca7a6e34f36363636363636363636363636363636363636363636363636363636363636360101010101010101010101010101010101010101010101010101010101010101) = beBytes 32 0xc731b4f6f68691349b24d95c78ef3a2dd63280ec1179455a6ca6683fb4f7dd68 :=
  sha256_of (n := 2) (t := 0x12ae03a55439714c360fb369ee16bc301f118228d0473086ab29326ca7a6e34f363636363636363636363636363636363636363636363636363636363636363601010101010101010101010101010101010101010101010101010101010101018000000000000000000000000000000000000000000000000000000000000300) (by decide +kernel) (by decide +kernel)

theorem value79 : Spec.sha256 (beBytes 96 0x78c469cf3e531b265c65d903847cd65a757be842ba2d5aecc1435806cdcc89255c5c5c5c5c5c5c5c5c5c5c5c5c5c5c5c5c5c5c5c5c5c5c5c5c5c5c5c5c5c5c5cc731b4f6f68691349b24d95c78ef3a2dd63280ec1179455a6ca6683fb4f7dd68) = beBytes 32 0xb2ffccfc86ce8f1f4a64dfe4147616681eba400149ef1ae5b996291a43adee81 :=
  sha256_of (n := 2) (t := 0x78c469cf3e531b265c65d903847cd65a757be842ba2d5aecc1435806cdcc89255c5c5c5c5c5c5c5c5c5c5c5c5c5c5c5c5c5c5c5c5c5c5c5c5c5c5c5c5c5c5c5cc731b4f6f68691349b24d95c78ef3a2dd63280ec1179455a6ca6683fb4f7dd688000000000000000000000000000000000000000000000000000000000000300) (by decide +kernel) (by decide +kernel)

theorem value80 : Spec.sha256 (beBytes 161 0x12ae03a55439714c360fb369ee16bc301f118228d0473086ab29326ca7a6e34f3636363636363636363636363636363636363636363636363636363636363636b2ffccfc86ce8f1f4a64dfe4147616681eba400149ef1ae5b996291a43adee81010000000000000000000000000000000000000000000000000000000000000001a9509ce0dacc8a91d66f29b3e6d82f3c567fbf347d78327536a4bf091e9fdeae) = beBytes 32 0xf35f3e4849de9034dd7bed0552e2f05573f8dfd64d96c8d9330aed0cedf5c593 :=
  sha256_of (n := 3) (t := 0x12ae03a55439714c360fb369ee16bc301f118228d0473086ab29326ca7a6e34f3636363636363636363636363636363636363636363636363636363636363636b2ffccfc86ce8f1f4a64dfe4147616681eba400149ef1ae5b996291a43adee81010000000000000000000000000000000000000000000000000000000000000001a9509ce0dacc8a91d66f29b3e6d82f3c567fbf347d78327536a4bf091e9fdeae80000000000000000000000000000000000000000000000000000000000508) (by decide +kernel) (by decide +kernel)

theorem value81 : Spec.sha256 (beBytes 96 0x78c469cf3e531b265c65d903847cd65a757be842ba2d5aecc1435806cdcc89255c5c5c5c5c5c5c5c5c5c5c5c5c5c5c5c5c5c5c5c5c5c5c5c5c5c5c5c5c5c5c5cf35f3e4849de9034dd7bed0552e2f05573f8dfd64d96c8d9330aed0cedf5c593) = beBytes 32 0x887cd230987e57a1cdc3acb819359e8836583f09f06de18fc58bca3576dea214 :=
  sha256_of (n := 2) (t := 0x78c469cf3e531b265c65d903847cd65a757be842ba2d5aecc1435806cdcc89255c5c5c5c5c5c5c5c5c5c5c5c5c5c5c5c5c5c5c5c5c5c5c5c5c5c5c5c5c5c5c5cf35f3e4849de9034dd7bed0552e2f05573f8dfd64d96c8d9330aed0cedf5c5938000000000000000000000000000000000000000000000000000000000000300) (by decide +kernel) (by decide +kernel)

theorem value82 : Spec.sha256 (beBytes 96 0xbe4ae406ae486197fbf59a8e2f03a8be006e093fc65bd7b9f3bdfc0340e894223636363636363636363636363636363636363636363636363636363636363636b2ffccfc86ce8f1f4a64dfe4147616681eba400149ef1ae5b996291a43adee81) = beBytes 32 0x5389e3c89f200f693f13822faa71ee194a3a0ca82be9575e15f7468bd81a1424 :=
  sha256_of (n := 2) (t := 0xbe4ae406ae486197fbf59a8e2f03a8be006e093fc65bd7b9f3bdfc0340e894223636363636363636363636363636363636363636363636363636363636363636b2ffccfc86ce8f1f4a64dfe4147616681eba400149ef1ae5b996291a43adee818000000000000000000000000000000000000000000000000000000000000300) (by decide +kernel) (by decide +kernel)

theorem value83 : Spec.sha256 (beBytes 96 0xd4208e6cc4220bfd919ff0e44569c2d46a046355ac31bdd399d796692a82fe485c5c5c5c5c5c5c5c5c5c5c5c5c5c5c5c5c5c5c5c5c5c5c5c5c5c5c5c5c5c5c5c5389e3c89f200f693f13822faa71ee194a3a0ca82be9575e15f7468bd81a1424) = beBytes 32 0x2d2e6beeeeee35d94f61cb5e08a96c56b5983ce35eea068bd28fc3e1add83329 :=
  sha256_of (n := 2) (t := 0xd4208e6cc4220bfd919ff0e44569c2d46a046355ac31bdd399d796692a82fe485c5c5c5c5c5c5c5c5c5c5c5c5c5c5c5c5c5c5c5c5c5c5c5c5c5c5c5c5c5c5c5c5389e3c89f200f693f13822faa71ee194a3a0ca82be9575e15f7468bd81a14248000000000000000000000000000000000000000000000000000000000000300) (by decide +kernel) (by decide +kernel)

theorem value84 : Spec.sha256 (beBytes 96 0xbe4ae406ae486197fbf59a8e2f03a8be006e093fc65bd7b9f3bdfc0340e8942236363636363636363636363636363636363636363636363636363636363636362d2e6beeeeee35d94f61cb5e08a96c56b5983ce35eea068bd28fc3e1add83329) = beBytes 32 0x6ab91eaf6101fe53d6548fe7b6efa80b9fec1198245cd5dacf9a39f59beffe73 :=
  sha256_of (n := 2) (t := 0xbe4ae406ae486197fbf59a8e2f03a8be006e093fc65bd7b9f3bdfc0340e8942236363636363636363636363636363636363636363636363636363636363636362d2e6beeeeee35d94f61cb5e08a96c56b5983ce35eea068bd28fc3e1add833298000000000000000000000000000000000000000000000000000000000000300) (by decide +kernel) (by decide +kernel)

theorem value85 : Spec.sha256 (beBytes 96 0xd4208e6cc4220bfd919ff0e44569c2d46a046355ac31bdd399d796692a82fe485c5c5c5c5c5c5c5c5c5c5c5c5c5c5c5c5c5c5c5c5c5c5c5c5c5c5c5c5c5c5c5c6ab91eaf6101fe53d6548fe7b6efa80b9fec1198245cd5dacf9a39f59beffe73) = beBytes 32 0x822651ce2b4b57b895c49cf4f0b5d262e0946d747becfeff3fe79793535f551b :=
  sha256_of (n := 2) (t := 0xd4208e6cc4220bfd919ff0e44569c2d46a046355ac31bdd399d796692a82fe485c5c5c5c5c5c5c5c5c5c5c5c5c5c5c5c5c5c5c5c5c5c5c5c5c5c5c5c5c5c5c5c6ab91eaf6101fe53d6548fe7b6efa80b9fec1198245cd5dacf9a39f59beffe738000000000000000000000000000000000000000000000000000000000000300) (by decide +kernel) (by decide +kernel)

theorem value86 : Spec.sha256 (beBytes 97 0xbe4ae406ae486197fbf59a8e2f03a8be006e093fc65bd7b9f3bdfc0340e894223636363636363636363636363636363636363636363636363636363636363636822651ce2b4b57b895c49cf4f0b5d262e0946d747becfeff3fe79793535f551b00) = beBytes 32 0xb5f26062fed4b435ea02473be190ed553f07335f7fd0b250280572af4e385ed8 :=
  sha256_of (n := 2) (t := 0xbe4ae406ae486197fbf59a8e2f03a8be006e093fc65bd7b9f3bdfc0340e894223636363636363636363636363636363636363636363636363636363636363636822651ce2b4b57b895c49cf4f0b5d262e0946d747becfeff3fe79793535f551b0080000000000000000000000000000000000000000000000000000000000308) (by decide +kernel) (by decide +kernel)

theorem value87 : Spec.sha256 (beBytes 96 0xd4208e6cc4220bfd919ff0e44569c2d46a046355ac31bdd399d796692a82fe485c5c5c5c5c5c5c5c5c5c5c5c5c5c5c5c5c5c5c5c5c5c5c5c5c5c5c5c5c5c5c5cb5f26062fed4b435ea02473be190ed553f07335f7fd0b250280572af4e385ed8) = beBytes 32 0xced030b1068542765059ec9f52f79520d6daa25ce6e32675b47d97bb7b9c9ef3 :=
  sha256_of (n := 2) (t := 0xd4208e6cc4220bfd919ff0e44569c2d46a046355ac31bdd399d796692a82fe485c5c5c5c5c5c5c5c5c5c5c5c5c5c5c5c5c5c5c5c5c5c5c5c5c5c5c5c5c5c5c5cb5f26062fed4b435ea02473be190ed553f07335f7fd0b250280572af4e385ed88000000000000000000000000000000000000000000000000000000000000300) (by decide +kernel) (by decide +kernel)

theorem value88 : Spec.sha256 (beBytes 96 0xf8e6068730b37440666fdaa964c1a316e0ec946ad0d51043824ba18d4daaa8c53636363636363636363636363636363636363636363636363636363636363636822651ce2b4b57b895c49cf4f0b5d262e0946d747becfeff3fe79793535f551b) = beBytes 32 0xba991c230590c463b3dc9b866307ade48933e69c3891b2b919c0a1d5c40a75a6 :=
  sha256_of (n := 2) (t := 0xf8e6068730b37440666fdaa964c1a316e0ec946ad0d51043824ba18d4daaa8c53636363636363636363636363636363636363636363636363636363636363636822651ce2b4b57b895c49cf4f0b5d262e0946d747becfeff3fe79793535f551b8000000000000000000000000000000000000000000000000000000000000300) (by decide +kernel) (by decide +kernel)

theorem value89 : Spec.sha256 (beBytes 96 0x928c6ced5ad91e2a0c05b0c30eabc97c8a86fe00babf7a29e821cbe727c0c2af5c5c5c5c5c5c5c5c5c5c5c5c5c5c5c5c5c5c5c5c5c5c5c5c5c5c5c5c5c5c5c5cba991c230590c463b3dc9b866307ade48933e69c3891b2b919c0a1d5c40a75a6) = beBytes 32 0xcfcb53462dce96eed1f042558e8fef53df82ad600424b5048d08460c1398cccf :=
  sha256_of (n := 2) (t := 0x928c6ced5ad91e2a0c05b0c30eabc97c8a86fe00babf7a29e821cbe727c0c2af5c5c5c5c5c5c5c5c5c5c5c5c5c5c5c5c5c5c5c5c5c5c5c5c5c5c5c5c5c5c5c5cba991c230590c463b3dc9b866307ade48933e69c3891b2b919c0a1d5c40a75a68000000000000000000000000000000000000000000000000000000000000300) (by decide +kernel) (by decide +kernel)

theorem value90 : Spec.sha256 (beBytes 96 0xf8e6068730b37440666fdaa964c1a316e0ec946ad0d51043824ba18d4daaa8c53636363636363636363636363636363636363636363636363636363636363636cfcb53462dce96eed1f042558e8fef53df82ad600424b5048d08460c1398cccf) = beBytes 32 0xd81e9697bedfb1661c7ff3f14115042ccc0cb95f1b639841e7b2799f54f707fd :=
  sha256_of (n := 2) (t := 0xf8e6068730b37440666fdaa964c1a316e0ec946ad0d51043824ba18d4daaa8c53636363636363636363636363636363636363636363636363636363636363636cfcb53462dce96eed1f042558e8fef53df82ad600424b5048d08460c1398cccf8000000000000000000000000000000000000000000000000000000000000300) (by decide +kernel) (by decide +kernel)

theorem value91 : Spec.sha256 (beBytes 96 0x928c6ced5ad91e2a0c05b0c30eabc97c8a86fe00babf7a29e821cbe727c0c2af5c5c5c5c5c5c5c5c5c5c5c5c5c5c5c5c5c5c5c5c5c5c5c5c5c5c5c5c5c5c5c5cd81e9697bedfb1661c7ff3f14115042ccc0cb95f1b639841e7b2799f54f707fd) = beBytes 32 0xd4b22f4dfc2336d0e9a7dca1643ba18446e13916433186d9757807a9150460b0 :=
  sha256_of (n := 2) (t := 0x928c6ced5ad91e2a0c05b0c30eabc97c8a86fe00babf7a29e821cbe727c0c2af5c5c5c5c5c5c5c5c5c5c5c5c5c5c5c5c5c5c5c5c5c5c5c5c5c5c5c5c5c5c5c5cd81e9697bedfb1661c7ff3f14115042ccc0cb95f1b639841e7b2799f54f707fd8000000000000000000000000000000000000000000000000000000000000300) (by decide +kernel) (by decide +kernel)

theorem candidates_solo : drbgCandidate (beBytes 32 1) (beBytes 32 0xa9509ce0dacc8a91d66f29b3e6d82f3c567fbf347d78327536a4bf091e9fdeae) 0 = beBytes 32 0x822651ce2b4b57b895c49cf4f0b5d262e0946d747becfeff3fe79793535f551b ∧
    drbgCandidate (beBytes 32 1) (beBytes 32 0xa9509ce0dacc8a91d66f29b3e6d82f3c567fbf347d78327536a4bf091e9fdeae) 1 = beBytes 32 0xd4b22f4dfc2336d0e9a7dca1643ba18446e13916433186d9757807a9150460b0 :=
  candidates_of (hmac_of (by decide +kernel) (by decide +kernel) value76 (by decide +kernel) value77)
    (hmac_of (by decide +kernel) (by decide +kernel) value78 (by decide +kernel) value79)
    (hmac_of (by decide +kernel) (by decide +kernel) value80 (by decide +kernel) value81)
    (hmac_of (by decide +kernel) (by decide +kernel) value82 (by decide +kernel) value83)
    (hmac_of (by decide +kernel) (by decide +kernel) value84 (by decide +kernel) value85)
    (hmac_of (by decide +kernel) (by decide +kernel) value86 (by decide +kernel) value87)
    (hmac_of (by decide +kernel) (by decide +kernel) value88 (by decide +kernel) value89)
    (hmac_of (by decide +kernel) (by decide +kernel) value90 (by decide +kernel) value91)

/-- The signature can be made. -/
theorem nonce_solo : ecdsaDeterministic (beBytes 32 1) ((exFund .segwit).digest soloDraft 0) 10000 ≠ none := by
  rw [digest_solo]
  exact deterministic_ne (e := 0xa9509ce0dacc8a91d66f29b3e6d82f3c567fbf347d78327536a4bf091e9fdeae) (r := 0x56af631f2533756e2990d64c1927d0c2642f1db231d06dc6892d9f83b1966293) (by decide) (by unfold secpN; decide +kernel) (by decide +kernel) candidates_solo (by unfold secpN; decide +kernel) (by unfold secpN; decide +kernel)
    (by decide +kernel) (by unfold secpN; decide +kernel) (by unfold secpN; decide +kernel) (by unfold secpN; decide +kernel) (by unfold secpP secpN; decide +kernel) (by unfold secpP; decide +kernel)

theorem exFunds_nonces (i : Nat) (f : Fund) (h : exFunds[i]? = some f) :
    ecdsaDeterministic (beBytes 32 f.d) (f.digest (draft 2 0 exFunds (exOuts.map Prod.snd)) i) 10000 ≠ none := by
  rw [draft_one]
  unfold exFunds at h
  match i with
  | 0 => cases h; exact nonce_legacy
  | 1 => cases h; exact nonce_nested
  | 2 => cases h; exact nonce_segwit
  | _ + 3 => simp at h

theorem exFunds_owned : ∀ f ∈ exFunds, f.Owned := by simp [exFunds, exFund_owned]

theorem exOuts_hold : ∀ p ∈ exOuts, p.1.Holds p.2 ∧ ValidOut p.2 := by
  simp only [exOuts, List.mem_cons, List.not_mem_nil, or_false, forall_eq]
  exact ⟨⟨rfl, holder_holds _⟩, ⟨by decide, by decide⟩⟩

/-- C109_payment_partial, with all hypotheses met: the three outputs of 5000 satoshi are spent, and the text of the payment is read as this payment. -/
example : ∃ t y text, pay 2 0 (exFunds.map Fund.coin) (exOuts.map Prod.fst) (fun _ _ => (BN.one, BN.one)) = .ok t ∧ t.Holds y ∧ Pays 2 0 exFunds (exOuts.map Prod.snd) y ∧
    stringOf t.toStream t.length = .ok text ∧ (({} : Tx).fromStream (hexStream text).abs).1.Holds y := by
  obtain ⟨t, y, text, h1, h2, h3, h4, h5⟩ := C109_payment_partial 2 0 exFunds_owned (by simp [exFunds]) (by simp [exFunds]) (by simp [exOuts]) exOuts_hold
    (rnd := fun _ _ => (BN.one, BN.one)) (fun _ => draws_one) exFunds_nonces
  exact ⟨t, y, text, h1, h2, h3, h4, (h5 {} rfl).2.1⟩

/-- C109_id_changes, with all hypotheses met. -/
example : ∃ t0 t y, unsigned 2 0 (exFunds.map Fund.coin) (exOuts.map Prod.fst) = .ok t0 ∧ t0.Holds exDraft ∧
    pay 2 0 (exFunds.map Fund.coin) (exOuts.map Prod.fst) (fun _ _ => (BN.one, BN.one)) = .ok t ∧ t.Holds y ∧ legacyBytes exDraft ≠ legacyBytes y := by
  obtain ⟨t0, t, y, h1, h2, h3, h4, h5, -⟩ := C109_id_changes 2 0 exFunds_owned (by simp [exFunds]) (by simp [exOuts]) exOuts_hold
    (rnd := fun _ _ => (BN.one, BN.one)) (fun _ => draws_one) exFunds_nonces ⟨exFund .legacy, by simp [exFunds], by decide⟩
  rw [draft_one] at h2 h5
  exact ⟨t0, t, y, h1, h2, h3, h4, h5⟩

/-- C109_id, with all hypotheses met: an output of the last kind is spent, and the id does not change. -/
example : ∃ t0 t y, unsigned 2 0 [(exFund .segwit).coin] (soloOuts.map Prod.fst) = .ok t0 ∧ t0.Holds soloDraft ∧
    pay 2 0 [(exFund .segwit).coin] (soloOuts.map Prod.fst) (fun _ _ => (BN.one, BN.one)) = .ok t ∧ t.Holds y ∧ t.txid = t0.txid := by
  obtain ⟨t0, t, y, h1, h2, h3, h4, h5, -⟩ := C109_id 2 0 (fs := [exFund .segwit]) (by simp [exFund_owned]) (by simp) (outs := soloOuts) (by simp [soloOuts]) (by
      simp only [soloOuts, List.mem_cons, List.not_mem_nil, or_false, forall_eq]
      exact ⟨⟨rfl, holder_holds _⟩, ⟨by decide, by decide⟩⟩)
    (rnd := fun _ _ => (BN.one, BN.one)) (fun _ => draws_one) (by
      intro i f h
      rw [draft_solo]
      match i with
      | 0 => cases h; exact nonce_solo
      | _ + 1 => simp at h) (by simp [exFund])
  rw [draft_solo] at h2
  exact ⟨t0, t, y, h1, h2, h3, h4, h5⟩

end Payment
end UB
