import Verif.Spec.Wallet
import Verif.Props.KeyAddress
import Verif.Props.HDDerive
import Verif.Props.HDPath

/-
C106: a wallet restored from a phrase shows the addresses of BIP 44, BIP 49 and BIP 84.
-/

namespace UB
open Spec

attribute [local irreducible] Spec.hash256 doubleSha hash160 Spec.hash160 checkedText Spec.sha256 Spec.mnemonicSeed hmacSha512 hmac512 secpN

/-- The chain that a network of the library stands for. -/
inductive Network.Is : Network → Chain → Prop
  | main : Network.Is mainnet mainChain
  | test : Network.Is testnet testChain
  | signet : Network.Is signet testChain
  | regtest : Network.Is regtest regtestChain

theorem Network.Is.values {n : Network} {c : Chain} (h : n.Is c) : n ∈ networks ∧ n.p2pkh = c.p2pkh ∧ n.p2sh = c.p2sh ∧ n.bech32 = c.hrp := by
  cases h <;> exact ⟨by decide, rfl, rfl, rfl⟩

theorem ckdPath_snoc (d : Nat) (c : Bytes) (is : List Nat) (i : Nat) : ckdPath d c (is ++ [i]) = (ckdPath d c is).bind fun r => ckdPriv r.1 r.2 i := by
  induction is generalizing d c with
  | nil =>
    simp only [List.nil_append, ckdPath, Option.bind_some]
    cases ckdPriv d c i <;> rfl
  | cons j is ih =>
    simp only [List.cons_append, ckdPath]
    cases ckdPriv d c j with
    | none => rfl
    | some r => simp only [Option.bind_some]; exact ih _ _

theorem Spec.TreeKey.path {seed : Bytes} {is : List Nat} {d : Nat} {c : Bytes} (h : TreeKey seed is d c) :
    ∃ d0 c0, masterKey seed = some (d0, c0) ∧ ckdPath d0 c0 is = some (d, c) := by
  induction h with
  | master h => exact ⟨_, _, h, rfl⟩
  | child _ h ih =>
    obtain ⟨d0, c0, h1, h2⟩ := ih
    exact ⟨d0, c0, h1, by rw [ckdPath_snoc, h2, Option.bind_some]; exact h⟩

/-- Derivation of at least one step from a key whose fingerprint is not looked at. -/
theorem HDPriv.derive_steps (k : HDPriv) (d : Nat) (i : UInt32) (is : List UInt32) (rnd : Nat → BN) (h : k.Sound d) (hz : ∀ n, Blind (rnd n)) (d' : Nat) (c' : Bytes)
    (hc : ckdPath d k.head.chainCode ((i :: is).map (·.toNat)) = some (d', c')) :
    ∃ r, k.derive rnd (i :: is) = .ok r ∧ r.Holds d' ∧ r.pubKey.compressed = true := by
  rw [List.map_cons, ckdPath] at hc
  match hq : ckdPriv d k.head.chainCode i.toNat with
  | none => rw [hq] at hc; simp at hc
  | some (d1, c1) =>
    rw [hq, Option.bind_some] at hc
    have hci : childIndex i false = i := by unfold childIndex; rw [if_neg (by simp)]
    obtain ⟨r, e, h1, h2, -⟩ := C40_priv_child_partial k d i false (rnd 0) h (hz 0) d1 c1 (by rw [hci]; exact hq)
    obtain ⟨q, q1, q2, -⟩ := C40_derive_partial r d1 is (fun n => rnd (n + 1)) h1 (fun n => hz _) d' c' (by rw [h2]; exact hc)
    have hcomp : ∀ (is : List UInt32) (k : HDPriv) (d : Nat) (rnd : Nat → BN) (q : HDPriv), k.Sound d → (∀ n, Blind (rnd n)) → k.pubKey.compressed = true →
        k.derive rnd is = .ok q → q.pubKey.compressed = true := by
      intro is
      induction is with
      | nil => intro k d rnd q _ _ hk hq; rw [← C.ok.inj hq]; exact hk
      | cons j js ih =>
        intro k d rnd q hk hz _ hq
        obtain ⟨s, -, e1⟩ := child_eq hk j false (hz 0)
        obtain ⟨r', s', e2, h2, -⟩ := child_sound hk j false (hz 0)
        rw [derive, e2, C.bind_ok] at hq
        exact ih r' s' _ q h2 (fun n => hz _) (by rw [e1] at e2; rw [← C.ok.inj e2]) hq
    obtain ⟨s, -, e1⟩ := child_eq h i false (hz 0)
    exact ⟨q, by rw [derive, e, C.bind_ok, q1], q2, hcomp is r d1 _ q h1.sound (fun n => hz _) (by rw [e1] at e; rw [← C.ok.inj e]) q1⟩

theorem lower_text {text : Bytes} (h : text.map toLower = text) : ∀ c ∈ text, ¬ (65 ≤ c ∧ c ≤ 90) := by
  have all : ∀ c : UInt8, toLower c = c → ¬ (65 ≤ c ∧ c ≤ 90) := by apply forall_byte; decide +kernel
  intro c hc
  refine all c ?_
  obtain ⟨i, hi, rfl⟩ := List.getElem_of_mem hc
  have := congrArg (fun l => l[i]?) h
  simpa [List.getElem?_eq_getElem hi] using this

/-- The address of a key by its type. -/
theorem HDPriv.address_kind {k : HDPriv} {d : Nat} (h : k.Holds d) (hc : k.pubKey.compressed = true) {chain : Chain} (hn : k.head.network.Is chain) :
    (k.head.type = .p2pkh → ∃ text, k.addressText = .ok text ∧ PurposeAddress chain (d • G) 44 text) ∧
    (k.head.type = .p2sh_p2wpkh → ∃ text, k.addressText = .ok text ∧ PurposeAddress chain (d • G) 49 text) ∧
    (k.head.type = .p2wpkh → ∃ text, k.addressText = .ok text ∧ PurposeAddress chain (d • G) 84 text) := by
  obtain ⟨h0, h1, h2, h3⟩ := hn.values
  refine ⟨fun ht => ?_, fun ht => ?_, fun ht => ?_⟩
  · obtain ⟨t, e, -, f⟩ := ECPoint.C70_legacy k.pubKey _ 40 k.head.network h.pub (by decide)
    refine ⟨t, by unfold addressText; rw [ht]; exact f, ?_⟩
    rw [e, checkedText]
    exact .bip44 (by rw [h1, hc])
  · obtain ⟨t, e, -, f⟩ := ECPoint.C70_nested k.pubKey _ 40 k.head.network h.pub (by decide)
    refine ⟨t, by unfold addressText; rw [ht]; exact f, ?_⟩
    rw [e, checkedText]
    exact .bip49 (by rw [h2, hc])
  · obtain ⟨t, e, e0, e1, e2, e3⟩ := ECPoint.C70_segwit_partial k.pubKey _ 76 k.head.network h.pub h0 (by decide)
    refine ⟨t, ?_, ?_⟩
    · unfold addressText
      rw [ht]
      show k.pubKey.segwitAddressText k.head.network = _
      unfold ECPoint.segwitAddressText
      rw [e, C.bind_ok]
      dsimp only
      have : k.head.network.bech32.length ≤ 4 := by
        simp only [networks, List.mem_cons, List.not_mem_nil, or_false] at h0
        rcases h0 with e | e | e | e <;> rw [e] <;> decide
      rw [stringFrom_zeros _ _ (by omega), cstr_text _ _ e0]
    · rw [h3, hc] at e2
      exact .bip84 e2 (lower_text e1)

/-- What a wallet made from a seed shows at m / purpose' / coin' / …, written in any way: the address of the standards, on the main chain for coin 0 and on the test
chain for coin 1, whatever network the wallet was made for. -/
theorem C106_any (k0 : HDPriv) (seed : Bytes) (net : Network) (z : BN) (rnd : Nat → BN) (hz : Blind z) (hr : ∀ n, Blind (rnd n)) (hl : seed.length < 2 ^ 60)
    (purpose coin : Nat) (hp : purpose = 44 ∨ purpose = 49 ∨ purpose = 84) (p0 p1 : PathPart) (ps : List PathPart) (h0 : p0.index = purpose + 2 ^ 31)
    (h1 : p1.index = coin + 2 ^ 31) (hlen : ps.length ≤ 253) (chain : Chain) (hcoin : coin = 0 ∧ chain = mainChain ∨ coin = 1 ∧ chain = testChain) (d : Nat) (c : Bytes)
    (ht : TreeKey seed ((p0 :: p1 :: ps).map (·.index)) d c) (m e : Bool) :
    ∃ r q text, k0.fromSeed seed net z = .ok r ∧ r.derivePath ((if m then [109, 47] else []) ++ joinParts (p0 :: p1 :: ps) ++ if e then [47] else []) rnd = .ok q ∧
      q.addressText = .ok text ∧ PurposeAddress chain (d • G) purpose text := by
  obtain ⟨d0, c0, hm, hpath⟩ := ht.path
  obtain ⟨r, e1, e2, -, -, e5, e6, -⟩ := HDPriv.C67_master_partial k0 seed net z hz hl d0 c0 hm
  have hidx : ∀ p : PathPart, (UInt32.ofNat p.index).toNat = p.index := by
    intro p
    rw [UInt32.toNat_ofNat', Nat.mod_eq_of_lt]
    have := p.isNumber.2.2
    unfold PathPart.index
    split <;> omega
  have hmap : ((p0 :: p1 :: ps).map fun p => UInt32.ofNat p.index).map (·.toNat) = (p0 :: p1 :: ps).map (·.index) := by
    rw [List.map_map]
    exact List.map_congr_left fun p _ => hidx p
  have hder := C38_prv_derives r _ _ rnd (C38_prv_path (p0 :: p1 :: ps) (by simp) m e)
  obtain ⟨q, f1, f2, f3⟩ := HDPriv.derive_steps r d0 (UInt32.ofNat p0.index) ((p1 :: ps).map fun p => UInt32.ofNat p.index) rnd e2 hr d c
    (by rw [e5]; have := hmap; simp only [List.map_cons] at this hpath ⊢; rw [this]; exact hpath)
  obtain ⟨q', g1, -, g3, g4⟩ := HDPriv.C39_path_partial r d0 ((p0 :: p1 :: ps).map fun p => UInt32.ofNat p.index) rnd e2 hr e6 (by simp; omega)
  have hq : q' = q := by
    rw [List.map_cons, f1] at g1
    exact (C.ok.inj g1).symm
  subst hq
  rw [hmap] at g3 g4
  have hnet : q'.head.network.Is chain := by
    have : q'.head.network = if coin = 0 then mainnet else if coin = 1 then testnet else r.head.network := by
      rw [g4]
      unfold networkAt
      simp only [List.map_cons, List.getElem?_cons_succ, List.getElem?_cons_zero, Option.some.injEq, h1, hard, Nat.zero_add]
      have e0 : (coin + 2 ^ 31 = 2 ^ 31) = (coin = 0) := by simp
      have e1 : (coin + 2 ^ 31 = 1 + 2 ^ 31) = (coin = 1) := by simp
      simp only [e0, e1]
    rw [this]
    rcases hcoin with ⟨rfl, rfl⟩ | ⟨rfl, rfl⟩
    · exact .main
    · exact .test
  have htype : q'.head.type = if purpose = 44 then .p2pkh else if purpose = 49 then .p2sh_p2wpkh else .p2wpkh := by
    rw [g3, List.map_cons, h0]
    rcases hp with rfl | rfl | rfl <;> rfl
  obtain ⟨a44, a49, a84⟩ := HDPriv.address_kind f2 f3 hnet
  rcases hp with rfl | rfl | rfl
  · obtain ⟨t, b1, b2⟩ := a44 htype
    exact ⟨r, q', t, e1, hder.trans g1, b1, b2⟩
  · obtain ⟨t, b1, b2⟩ := a49 htype
    exact ⟨r, q', t, e1, hder.trans g1, b1, b2⟩
  · obtain ⟨t, b1, b2⟩ := a84 htype
    exact ⟨r, q', t, e1, hder.trans g1, b1, b2⟩

/-- On Regtest the version bytes are those of the test chain. -/
theorem Spec.PurposeAddress.regtest {P : Pt} {purpose : Nat} {text : Bytes} (h : PurposeAddress testChain P purpose text) (hp : purpose ≠ 84) :
    PurposeAddress regtestChain P purpose text := by
  cases h with
  | bip44 h => exact .bip44 h
  | bip49 h => exact .bip49 h
  | bip84 => exact absurd rfl hp

/-- C106 for seeds: a wallet shows at m / purpose' / coin' / … the address of BIP 44, BIP 49 or BIP 84 on the chain of its network, if the coin is that of the network: 0 for the
main network, 1 for the others.  BIP 84 on Regtest is missing, where it is false (`C106_regtest`); the keys of the path have to exist. -/
theorem C106_seed_partial (k0 : HDPriv) (seed : Bytes) (net : Network) (z : BN) (rnd : Nat → BN) (hz : Blind z) (hr : ∀ n, Blind (rnd n)) (hl : seed.length < 2 ^ 60)
    (purpose coin : Nat) (hp : purpose = 44 ∨ purpose = 49 ∨ purpose = 84) (p0 p1 : PathPart) (ps : List PathPart) (h0 : p0.index = purpose + 2 ^ 31)
    (h1 : p1.index = coin + 2 ^ 31) (hlen : ps.length ≤ 253) (chain : Chain) (hnet : net.Is chain) (hcoin : coin = if chain = mainChain then 0 else 1)
    (hreg : purpose = 84 → chain ≠ regtestChain) (hkey : ∃ d c, TreeKey seed ((p0 :: p1 :: ps).map (·.index)) d c) (m e : Bool) :
    ∃ r q text, k0.fromSeed seed net z = .ok r ∧ r.derivePath ((if m then [109, 47] else []) ++ joinParts (p0 :: p1 :: ps) ++ if e then [47] else []) rnd = .ok q ∧
      q.addressText = .ok text ∧ WalletAddress chain seed purpose coin (ps.map (·.index)) text := by
  obtain ⟨d, c, ht⟩ := hkey
  have ht' : TreeKey seed ((purpose + 2 ^ 31) :: (coin + 2 ^ 31) :: ps.map (·.index)) d c := by
    rw [← h0, ← h1]
    exact ht
  have main := fun chain' hc => C106_any k0 seed net z rnd hz hr hl purpose coin hp p0 p1 ps h0 h1 hlen chain' hc d c ht m e
  have ne1 : testChain ≠ mainChain := by unfold testChain mainChain; simp
  have ne2 : regtestChain ≠ mainChain := by unfold regtestChain mainChain; simp
  cases hnet with
  | main =>
    obtain ⟨r, q, t, e1, e2, e3, e4⟩ := main mainChain (.inl ⟨by rw [hcoin, if_pos rfl], rfl⟩)
    exact ⟨r, q, t, e1, e2, e3, d, c, ht', e4⟩
  | test =>
    obtain ⟨r, q, t, e1, e2, e3, e4⟩ := main testChain (.inr ⟨by rw [hcoin, if_neg ne1], rfl⟩)
    exact ⟨r, q, t, e1, e2, e3, d, c, ht', e4⟩
  | signet =>
    obtain ⟨r, q, t, e1, e2, e3, e4⟩ := main testChain (.inr ⟨by rw [hcoin, if_neg ne1], rfl⟩)
    exact ⟨r, q, t, e1, e2, e3, d, c, ht', e4⟩
  | regtest =>
    obtain ⟨r, q, t, e1, e2, e3, e4⟩ := main testChain (.inr ⟨by rw [hcoin, if_neg ne2], rfl⟩)
    exact ⟨r, q, t, e1, e2, e3, d, c, ht', e4.regtest fun h => hreg h rfl⟩

theorem mnemonicSeed_short (mnemonic password : Bytes) : (Spec.mnemonicSeed mnemonic password).length < 2 ^ 60 := by
  have : (Spec.mnemonicSeed mnemonic password).length ≤ 64 := by
    unfold Spec.mnemonicSeed pbkdf2
    rw [List.length_take]
    omega
  omega

/-- C106 for phrases: the wallet restored from a phrase and a password with `fromMnemonic`.  As in `C106_seed_partial`, BIP 84 on Regtest is missing. -/
theorem C106_phrase_partial (k0 : HDPriv) (mnemonic password : Bytes) (net : Network) (z : BN) (rnd : Nat → BN) (hz : Blind z) (hr : ∀ n, Blind (rnd n))
    (hm : mnemonic.length < 2 ^ 32) (hpw : password.length < 2 ^ 32)
    (purpose coin : Nat) (hp : purpose = 44 ∨ purpose = 49 ∨ purpose = 84) (p0 p1 : PathPart) (ps : List PathPart) (h0 : p0.index = purpose + 2 ^ 31)
    (h1 : p1.index = coin + 2 ^ 31) (hlen : ps.length ≤ 253) (chain : Chain) (hnet : net.Is chain) (hcoin : coin = if chain = mainChain then 0 else 1)
    (hreg : purpose = 84 → chain ≠ regtestChain) (hkey : ∃ d c, TreeKey (Spec.mnemonicSeed mnemonic password) ((p0 :: p1 :: ps).map (·.index)) d c) (m e : Bool) :
    ∃ r q text, k0.fromMnemonic mnemonic password net z = .ok r ∧
      r.derivePath ((if m then [109, 47] else []) ++ joinParts (p0 :: p1 :: ps) ++ if e then [47] else []) rnd = .ok q ∧
      q.addressText = .ok text ∧ WalletAddress chain (Spec.mnemonicSeed mnemonic password) purpose coin (ps.map (·.index)) text := by
  unfold HDPriv.fromMnemonic
  rw [HDPriv.C68_seed mnemonic password hm hpw]
  exact C106_seed_partial k0.init _ net z rnd hz hr (mnemonicSeed_short _ _) purpose coin hp p0 p1 ps h0 h1 hlen chain hnet hcoin hreg hkey m e

/-- C106 is false for BIP 84 on Regtest: the address shown begins with "tb" and is not one of Regtest for any key. -/
theorem C106_regtest (k0 : HDPriv) (seed : Bytes) (z : BN) (rnd : Nat → BN) (hz : Blind z) (hr : ∀ n, Blind (rnd n)) (hl : seed.length < 2 ^ 60)
    (p0 p1 : PathPart) (ps : List PathPart) (h0 : p0.index = 84 + 2 ^ 31) (h1 : p1.index = 1 + 2 ^ 31) (hlen : ps.length ≤ 253)
    (hkey : ∃ d c, TreeKey seed ((p0 :: p1 :: ps).map (·.index)) d c) (m e : Bool) :
    ∃ r q text, k0.fromSeed seed regtest z = .ok r ∧ r.derivePath ((if m then [109, 47] else []) ++ joinParts (p0 :: p1 :: ps) ++ if e then [47] else []) rnd = .ok q ∧
      q.addressText = .ok text ∧ WalletAddress testChain seed 84 1 (ps.map (·.index)) text ∧ ∀ P, ¬ PurposeAddress regtestChain P 84 text := by
  obtain ⟨d, c, ht⟩ := hkey
  obtain ⟨r, q, t, e1, e2, e3, e4⟩ := C106_any k0 seed regtest z rnd hz hr hl 84 1 (by simp) p0 p1 ps h0 h1 hlen testChain (.inr ⟨rfl, rfl⟩) d c ht m e
  have ht' : TreeKey seed ((84 + 2 ^ 31) :: (1 + 2 ^ 31) :: ps.map (·.index)) d c := by
    rw [← h0, ← h1]
    exact ht
  refine ⟨r, q, t, e1, e2, e3, ⟨d, c, ht', e4⟩, ?_⟩
  intro P hP
  cases e4 with
  | bip84 a _ =>
    cases hP with
    | bip84 b _ =>
      obtain ⟨-, -, _, a1, -⟩ := a
      obtain ⟨-, -, _, b1, -⟩ := b
      exact absurd (bech32_unique a1 b1).1 (by decide)

/-! ### The hypotheses can be met -/

/-- 84' and 1'. -/
def part84 : PathPart := ⟨[56, 52], [39], by decide, by decide⟩
def part1 : PathPart := ⟨[49], [39], by decide, by decide⟩

theorem vector_84 : ckdPriv 0xe8f32e723decf4051aefac8e2c93c9c5b214313817cdb01a1494b917c8436b35
    (beBytes 32 0x873dff81c02f525623fd1fe5167eac3a55a049de3d314bb42ee227ffed37d508) 0x80000054 =
    some (0xd01966d5d82d526967391d868ab6173e9e8ee953c93367986d98fe5b02d5159d, beBytes 32 0xe0bf58f1ffb0fb4640a0af3c163c09dadf5cd57aad33e42c006207ecd725234c) := by
  have : childHash 0xe8f32e723decf4051aefac8e2c93c9c5b214313817cdb01a1494b917c8436b35
      (beBytes 32 0x873dff81c02f525623fd1fe5167eac3a55a049de3d314bb42ee227ffed37d508) 0x80000054 =
      hmacSha512 (beBytes 32 0x873dff81c02f525623fd1fe5167eac3a55a049de3d314bb42ee227ffed37d508)
        (0 :: beBytes 32 0xe8f32e723decf4051aefac8e2c93c9c5b214313817cdb01a1494b917c8436b35 ++ beBytes 4 0x80000054) := by
    unfold childHash
    rw [if_pos (by decide)]
  unfold ckdPriv
  rw [this]
  decide +kernel

theorem vector_84_1 : ckdPriv 0xd01966d5d82d526967391d868ab6173e9e8ee953c93367986d98fe5b02d5159d
    (beBytes 32 0xe0bf58f1ffb0fb4640a0af3c163c09dadf5cd57aad33e42c006207ecd725234c) 0x80000001 =
    some (0x220673a4162329394e296b728d907e28154532fc7e90c263da05831d0de15297, beBytes 32 0x7ff3ef3755cb2b57dfa7ad16c30495e05ee606c7febbc77596114c2bc594dfe6) := by
  have : childHash 0xd01966d5d82d526967391d868ab6173e9e8ee953c93367986d98fe5b02d5159d
      (beBytes 32 0xe0bf58f1ffb0fb4640a0af3c163c09dadf5cd57aad33e42c006207ecd725234c) 0x80000001 =
      hmacSha512 (beBytes 32 0xe0bf58f1ffb0fb4640a0af3c163c09dadf5cd57aad33e42c006207ecd725234c)
        (0 :: beBytes 32 0xd01966d5d82d526967391d868ab6173e9e8ee953c93367986d98fe5b02d5159d ++ beBytes 4 0x80000001) := by
    unfold childHash
    rw [if_pos (by decide)]
  unfold ckdPriv
  rw [this]
  decide +kernel

theorem vector_tree : TreeKey vectorSeed ([part84, part1].map (·.index)) 0x220673a4162329394e296b728d907e28154532fc7e90c263da05831d0de15297
    (beBytes 32 0x7ff3ef3755cb2b57dfa7ad16c30495e05ee606c7febbc77596114c2bc594dfe6) :=
  .child (path := [0x80000054]) (.child (path := []) (.master vector_master) vector_84) vector_84_1

/-- C106: the seed of the first test vector of BIP 32 and the path m/84'/1', for Signet. -/
example : ∃ r q text, ({} : HDPriv).fromSeed vectorSeed signet BN.one = .ok r ∧ r.derivePath [109, 47, 56, 52, 39, 47, 49, 39] (fun _ => BN.one) = .ok q ∧
    q.addressText = .ok text ∧ WalletAddress testChain vectorSeed 84 1 [] text :=
  C106_seed_partial {} vectorSeed signet BN.one (fun _ => BN.one) blind_one (fun _ => blind_one) (by decide) 84 1 (by simp) part84 part1 [] (by decide) (by decide)
    (by decide) testChain .signet (by unfold testChain mainChain; simp) (fun _ => by unfold testChain regtestChain; simp) ⟨_, _, vector_tree⟩ true false

end UB
