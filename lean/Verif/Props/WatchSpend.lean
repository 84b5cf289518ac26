import Verif.Props.WatchOnly
import Verif.Props.Receive
import Verif.Props.Payment

/-
C110: what is sent to the addresses of a watch-only wallet can be spent with the private wallet.
-/

namespace UB
open Spec

attribute [local irreducible] Spec.hash256 doubleSha hash160 Spec.hash160 checkedText Spec.sha256 legacySigHash segwitSigHash

theorem TxOut.Holds.unique {o : TxOut} {a b : Out} (ha : o.Holds a) (hb : o.Holds b) : a = b := by
  obtain ⟨a1, a2⟩ := a
  obtain ⟨b1, b2⟩ := b
  have h1 : a1 = b1 := ha.amount.symm.trans hb.amount
  have h2 : a2 = b2 := ha.script.2.symm.trans hb.script.2
  rw [h1, h2]

/-- The outputs made from the two segwit addresses of a key. -/
theorem ECPoint.segwit_outs {p : ECPoint} {P : Pt} (hp : p.Holds P) {net : Network} (hnet : net ∈ networks) (amount : UInt64) :
    (net.bech32 ≠ regtest.bech32 → ∃ text o, p.segwitAddressText net = .ok text ∧ TxOut.ofAddress amount text = .ok o ∧
      o.Holds ⟨amount.toNat, p2wpkhScript (Spec.hash160 (secOf p.compressed P))⟩) ∧
    ∃ text o, p.nestedSegwitAddressText net = .ok text ∧ TxOut.ofAddress amount text = .ok o ∧
      o.Holds ⟨amount.toNat, p2shScript (Spec.hash160 (p2wpkhScript (Spec.hash160 (secOf p.compressed P))))⟩ := by
  have hw : witnessScript 0 (Spec.hash160 (secOf p.compressed P)) = p2wpkhScript (Spec.hash160 (secOf p.compressed P)) := by
    unfold witnessScript p2wpkhScript
    rw [length_hash160]
    rfl
  obtain ⟨t1, t2, t3, -, -, e2, f2, e3, f3⟩ := C70_scripts p P net hp hnet _ _ _ (holder_holds _) (holder_holds _) (holder_holds _)
  constructor
  · intro hreg
    obtain ⟨text, o, g1, g2, g3⟩ := C102_out_witness amount (holder (p2wpkhScript (Spec.hash160 (secOf p.compressed P))))
      (Spec.hash160 (secOf p.compressed P)) (zeros 76) net hnet hreg (.inl (length_hash160 _)) (by rw [hw]; exact holder_holds _) (by rw [length_zeros]; decide)
    rw [length_zeros, f2] at g1
    obtain rfl := text_unique g1
    rw [hw] at g3
    exact ⟨t2, o, e2, g2, g3⟩
  · have hv0 : net.p2sh ≠ 0 := by
      simp only [networks, List.mem_cons, List.not_mem_nil, or_false] at hnet
      rcases hnet with rfl | rfl | rfl | rfl <;> decide
    obtain ⟨text, o, g1, g2, g3⟩ := C102_out_legacy amount (holder (p2shScript (Spec.hash160 (p2wpkhScript (Spec.hash160 (secOf p.compressed P))))))
      .p2sh net.p2sh (Spec.hash160 (p2wpkhScript (Spec.hash160 (secOf p.compressed P)))) (zeros 76) net hnet rfl hv0 (length_hash160 _)
      (holder_holds _) (by rw [length_zeros]; decide)
    rw [length_zeros, f3] at g1
    obtain rfl := text_unique g1
    exact ⟨t3, o, e3, g2, g3⟩

/-- How what is sent to the watch-only wallet is to be spent: as its type says, segwit unless the type is that of nested segwit. -/
def watchKind (t : HDType) : Payment.Kind := if t = .p2sh_p2wpkh then .nested else .segwit

/-- The type for `signSegwitInput`. -/
def watchType (t : HDType) : ScriptType := if t = .p2sh_p2wpkh then .p2sh_p2wpkh else .p2wpkh

/-- C110: the text of the public key of a wallet is exported, another wallet is made from it, and both derive along a path without hardened steps.  The output that a
sender makes from the address shown by the other wallet can be spent with the key of the private wallet, on every network and for every type of wallet; it can be one of
the outputs of a payment of C109.  (That the secret of the derived key is 0 is excluded; such a key is invalid by BIP 32.) -/
theorem HDPriv.C110_watch (k : HDPriv) (d : Nat) (k0 : HDPub) (junk : Bytes) (len : Nat) (is : List UInt32) (rnd rnd' : Nat → BN) (h : k.Holds d)
    (hc : k.pubKey.compressed = true) (hn : k.head.network ∈ networks) (hlen : 112 ≤ len) (hs : k0.key.status = .done) (hl : k0.key.point.length = 64)
    (hc0 : k0.key.compressed = true) (hw : k0.head.Wf) (hz : ∀ n, Blind (rnd n)) (hz' : ∀ n, Blind (rnd' n)) (hi : ∀ i ∈ is, i.toNat < 2 ^ 31) (amount : UInt64) :
    ∃ text w n r v s address o out, k.xpubText doubleSha (zeros len) = .ok (text.length, text ++ zeros (len - text.length)) ∧ k0.fromStr doubleSha junk text = (w, n) ∧ 0 < n ∧
      k.derive rnd is = .ok r ∧ w.derive rnd' is = .ok v ∧ r.Sound s ∧ v.addressText = .ok address ∧ TxOut.ofAddress amount address = .ok o ∧
      out.amount = amount.toNat ∧
      (s ≠ 0 → Good o out r.toPriv s (fun t idx rnd => t.signSegwitInputKey idx r.toPriv amount (watchType k.head.type) rnd)
          (fun x i inp => segwitSigHash x i inp (p2pkhScript (Spec.hash160 (secOf true (s • G)))) amount.toNat 1) ∧
        ∀ (source : Tx) (parent : Transaction) (n seq : UInt32), source.Holds parent → (segwitBytes parent).length < 2 ^ 60 → parent.outs[n.toNat]? = some out →
          Payment.Fund.Owned ⟨⟨source, n, amount, r.toPriv, watchKind k.head.type, seq⟩, parent, s⟩) := by
  have hx := xpub_holds h
  have hS : k.Sound d := ⟨h.num, h.lt, h.pub, h.wf.chainCode⟩
  obtain ⟨text, e1, e2, -⟩ := HDPub.C37_xpub_text k.xpub _ len hx hn hlen
  obtain ⟨w, n, f1, f2, f3, f4⟩ := HDPub.C37_xpub_roundtrip_partial k.xpub k0 _ junk hx hn hs hl hc0 hw
  obtain ⟨r, g1, g2⟩ := C40_agree_path k d is rnd rnd' hS hz hz' hi
  obtain ⟨r', s, g3, g4, g5⟩ := derive_keeps hS hc is rnd hz
  rw [g1] at g3
  obtain rfl := C.ok.inj g3
  obtain ⟨v, v', Q, k1, k2, k3, k4, -, k6, k7, -, -⟩ := HDPub.derive_agree f3.sound hx.sound f4.chainCode is rnd' rnd' hz' hz'
  rw [g2] at k2
  obtain rfl := C.ok.inj k2
  have hrQ : r.pubKey.Holds Q := k4.point
  have hcc : v.key.compressed = r.pubKey.compressed := k3.compressed.trans g5.symm
  have hvn : v.head.network = if k.head.network = mainnet then mainnet else testnet := k6.trans f4.network
  have hvt : v.head.type = storedType k.head.type := k7.trans f4.type
  have hnet : v.head.network ∈ networks ∧ v.head.network.bech32 ≠ regtest.bech32 := by
    rw [hvn]
    split <;> decide
  have hsame := ECPoint.same_texts k3.point hrQ hcc v.head.network
  have hpriv : s ≠ 0 → r.toPriv.Holds s := fun hs0 => ⟨g4.num, Nat.pos_of_ne_zero hs0, g4.lt, g4.pub⟩
  have hrc : r.toPriv.pubKey.compressed = true := g5
  have hkh : ∀ (source : Tx) (parent : Transaction) (n seq : UInt32) (kind : Payment.Kind),
      Payment.Fund.keyHash ⟨⟨source, n, amount, r.toPriv, kind, seq⟩, parent, s⟩ = Spec.hash160 (secOf true (s • G)) := by
    intro source parent n seq kind
    unfold Payment.Fund.keyHash
    dsimp only
    rw [hrc]
  obtain ⟨seg, t3, o3, n1, n2, n3⟩ := ECPoint.segwit_outs g4.pub hnet.1 amount
  obtain ⟨t2, o2, s1, s2, s3⟩ := seg hnet.2
  rw [g5] at n3 s3
  by_cases hp : k.head.type = .p2sh_p2wpkh
  · have hst : storedType HDType.p2sh_p2wpkh = .p2sh_p2wpkh := by decide
    refine ⟨text, w, n, r, v, s, t3, o3, ⟨amount.toNat, p2shScript (Spec.hash160 (p2wpkhScript (Spec.hash160 (secOf true (s • G)))))⟩, by rw [C37_xpub_of_private k d _ h]; exact e2, by rw [e1]; exact f1, f2, g1, k1, g4, ?_, n2, rfl, fun hs0 => ⟨?_, ?_⟩⟩
    · unfold HDPub.addressText
      rw [hvt, hp, hst]
      exact hsame.2.2.trans n1
    · obtain ⟨text', o', out', m1, m2, -, m4⟩ := C104_nested (hpriv hs0) hnet.1 amount
      have ht : text' = t3 := by
        have h' : r.pubKey.nestedSegwitAddressText v.head.network = .ok text' := m1
        rw [n1] at h'
        exact (C.ok.inj h').symm
      subst ht
      rw [n2] at m2
      obtain rfl := C.ok.inj m2
      obtain rfl := m4.1.unique n3
      rw [hrc] at m4
      unfold watchType
      rw [if_pos hp]
      exact m4
    · intro source parent n seq a1 a2 a3
      refine ⟨a1, a2, hpriv hs0, ?_⟩
      dsimp only
      rw [a3]
      unfold Payment.Fund.script
      rw [hkh]
      unfold watchKind
      rw [if_pos hp]
  · refine ⟨text, w, n, r, v, s, t2, o2, ⟨amount.toNat, p2wpkhScript (Spec.hash160 (secOf true (s • G)))⟩, by rw [C37_xpub_of_private k d _ h]; exact e2, by rw [e1]; exact f1, f2, g1, k1, g4, ?_, s2, rfl, fun hs0 => ⟨?_, ?_⟩⟩
    · have hva : v.addressText = v.key.segwitAddressText v.head.network := by
        unfold HDPub.addressText
        rw [hvt]
        generalize k.head.type = t at hp ⊢
        cases t <;> first | rfl | exact absurd rfl hp
      rw [hva]
      exact hsame.2.1.trans s1
    · obtain ⟨text', o', out', m1, m2, -, m4⟩ := C104_segwit (hpriv hs0) hnet.1 hnet.2 amount
      have ht : text' = t2 := by
        have h' : r.pubKey.segwitAddressText v.head.network = .ok text' := m1
        rw [s1] at h'
        exact (C.ok.inj h').symm
      subst ht
      rw [s2] at m2
      obtain rfl := C.ok.inj m2
      obtain rfl := m4.1.unique s3
      rw [hrc] at m4
      unfold watchType
      rw [if_neg hp]
      exact m4
    · intro source parent n seq a1 a2 a3
      refine ⟨a1, a2, hpriv hs0, ?_⟩
      dsimp only
      rw [a3]
      unfold Payment.Fund.script
      rw [hkh]
      unfold watchKind
      rw [if_neg hp]

/-- A wallet, a path of two steps, an amount; the secret of the key is not 0 where nothing is derived. -/
example : hdOne.Holds 1 ∧ hdOne.pubKey.compressed = true ∧ hdOne.head.network ∈ networks ∧ ({} : HDPub).key.status = .done ∧ ({} : HDPub).key.point.length = 64 ∧
    ({} : HDPub).key.compressed = true ∧ ({} : HDPub).head.Wf ∧ (∀ n : Nat, Blind ((fun _ => BN.one) n)) ∧ (∀ i ∈ [(0 : UInt32), 7], i.toNat < 2 ^ 31) ∧
    hdOne.derive (fun _ => BN.one) [] = .ok hdOne ∧ hdOne.Sound 1 :=
  ⟨holds_hdOne, rfl, by decide, rfl, rfl, rfl, ⟨rfl, rfl, rfl⟩, fun _ => blind_one, by decide, rfl,
    holds_hdOne.num, holds_hdOne.lt, holds_hdOne.pub, holds_hdOne.wf.chainCode⟩

end UB
