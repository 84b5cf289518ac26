import Verif.Props.KeyAddress
import Verif.Props.HDDerive
import Verif.Props.HDText
import Verif.Props.TxBuild

/-
C105: a wallet made from the public text of a key shows the addresses of the private wallet.
-/

namespace UB
open Spec

attribute [local irreducible] Spec.hash256 doubleSha hash160 Spec.hash160 checkedText Spec.sha256

/-- Texts of addresses depend on the point and on the form of the key. -/
theorem ECPoint.same_texts {p q : ECPoint} {P : Pt} (hp : p.Holds P) (hq : q.Holds P) (hc : p.compressed = q.compressed) (net : Network) :
    p.legacyAddressText net = q.legacyAddressText net ∧ p.segwitAddressText net = q.segwitAddressText net ∧
      p.nestedSegwitAddressText net = q.nestedSegwitAddressText net := by
  have hk : p.keyHash = q.keyHash := by rw [keyHash_eq hp, keyHash_eq hq, hc]
  refine ⟨?_, ?_, ?_⟩
  · unfold legacyAddressText legacyAddress; rw [hk]
  · unfold segwitAddressText segwitAddress; rw [hk]
  · unfold nestedSegwitAddressText nestedSegwitAddress; rw [hk]

/-- What the outputs made from the addresses of a key have for scripts. -/
theorem ECPoint.ofAddress_scripts {p : ECPoint} {P : Pt} (hp : p.Holds P) {net : Network} (hnet : net ∈ networks) :
    ∃ t1 t2 o1 o2 s1 s2, p.legacyAddressText net = .ok t1 ∧ p.segwitAddressText net = .ok t2 ∧ TxOut.ofAddress 0 t1 = .ok o1 ∧ TxOut.ofAddress 0 t2 = .ok o2 ∧
      o1.Holds ⟨0, s1⟩ ∧ o2.Holds ⟨0, s2⟩ ∧ (s1 = [] ∨ s1 = p2pkhScript (Spec.hash160 (secOf p.compressed P))) ∧
      s2 = if net.bech32 = regtest.bech32 then [] else witnessScript 0 (Spec.hash160 (secOf p.compressed P)) := by
  have hw : witnessScript 0 (Spec.hash160 (secOf p.compressed P)) = p2wpkhScript (Spec.hash160 (secOf p.compressed P)) := by
    unfold witnessScript p2wpkhScript
    rw [length_hash160]
    rfl
  have hs1 : ({ scriptLen := (p2pkhScript (Spec.hash160 (secOf p.compressed P))).length, arr := p2pkhScript (Spec.hash160 (secOf p.compressed P)) } : Script).Holds
    (p2pkhScript (Spec.hash160 (secOf p.compressed P))) := ⟨rfl, rfl⟩
  have hs2 : ({ scriptLen := (p2wpkhScript (Spec.hash160 (secOf p.compressed P))).length, arr := p2wpkhScript (Spec.hash160 (secOf p.compressed P)) } : Script).Holds
    (p2wpkhScript (Spec.hash160 (secOf p.compressed P))) := ⟨rfl, rfl⟩
  obtain ⟨t1, t2, t3, e1, f1, e2, f2, -⟩ := C70_scripts p P net hp hnet _ _ { scriptLen := _, arr := _ } hs1 hs2 ⟨rfl, rfl⟩
  have uniq : ∀ {a b : Bytes}, (C.ok (a ++ zeros (76 - a.length), a.length) : C (Bytes × Nat)) = C.ok (b ++ zeros (76 - b.length), b.length) → a = b := by
    intro a b h
    injection h with h
    injection h with h1 h2
    exact (List.append_inj h1 h2).1
  have leg : ∃ o1 s1, TxOut.ofAddress 0 t1 = .ok o1 ∧ o1.Holds ⟨0, s1⟩ ∧ (s1 = [] ∨ s1 = p2pkhScript (Spec.hash160 (secOf p.compressed P))) := by
    by_cases hm : net = mainnet
    · subst hm
      obtain ⟨text, g1, -, sc', g2, g3, g4⟩ := C23_p2pkh_mainnet_iff _ {} _ (zeros 76) (length_hash160 _) hs1 (by rw [length_zeros]; decide)
      rw [length_zeros, f1] at g1
      obtain rfl := uniq g1
      by_cases h33 : 33 ≤ t1.length
      · obtain ⟨o, k1, -, k2⟩ := C102_out_address (amount := 0) g2 (g3 h33)
        exact ⟨o, _, k1, k2, .inr rfl⟩
      · obtain ⟨o, k1, -, k2, -⟩ := C102_bad_address (amount := 0) g2 (by rw [g4 (by omega)]; exact ⟨rfl, rfl⟩)
        exact ⟨o, _, k1, k2, .inl rfl⟩
    · have hv0 : net.p2pkh ≠ 0 := by
        simp only [networks, List.mem_cons, List.not_mem_nil, or_false] at hnet
        rcases hnet with rfl | rfl | rfl | rfl
        · exact absurd rfl hm
        all_goals decide
      obtain ⟨text, o, g1, g2, g3⟩ := C102_out_legacy 0 _ .p2pkh net.p2pkh (Spec.hash160 (secOf p.compressed P)) (zeros 76) net hnet rfl hv0 (length_hash160 _) hs1
        (by rw [length_zeros]; decide)
      rw [length_zeros, f1] at g1
      obtain rfl := uniq g1
      exact ⟨o, _, g2, g3, .inr rfl⟩
  have seg : ∃ o2, TxOut.ofAddress 0 t2 = .ok o2 ∧
      o2.Holds ⟨0, if net.bech32 = regtest.bech32 then [] else witnessScript 0 (Spec.hash160 (secOf p.compressed P))⟩ := by
    by_cases hr : net.bech32 = regtest.bech32
    · have hr' : net = regtest := by
        simp only [networks, List.mem_cons, List.not_mem_nil, or_false] at hnet
        rcases hnet with rfl | rfl | rfl | rfl <;> first | rfl | exact absurd hr (by decide)
      subst hr'
      obtain ⟨text, o, g1, -, g2, -, g4, -⟩ := C102_regtest_anyone 0 _ (Spec.hash160 (secOf p.compressed P)) (zeros 76) (.inl (length_hash160 _)) (hw ▸ hs2)
        (by rw [length_zeros]; decide)
      rw [length_zeros, hw, f2] at g1
      obtain rfl := uniq g1
      rw [if_pos hr]
      exact ⟨o, g2, g4⟩
    · obtain ⟨text, o, g1, g2, g3⟩ := C102_out_witness 0 _ (Spec.hash160 (secOf p.compressed P)) (zeros 76) net hnet hr (.inl (length_hash160 _)) (hw ▸ hs2)
        (by rw [length_zeros]; decide)
      rw [length_zeros, hw, f2] at g1
      obtain rfl := uniq g1
      rw [if_neg hr]
      exact ⟨o, g2, g3⟩
  obtain ⟨o1, s1, a1, a2, a3⟩ := leg
  obtain ⟨o2, b1, b2⟩ := seg
  exact ⟨t1, t2, o1, o2, s1, _, e1, e2, a1, b1, a2, b2, a3, rfl⟩

/-- Children of public keys that agree but for network and type agree but for network and type. -/
theorem HDPub.derive_agree {w v : HDPub} {P : Pt} (hw : w.Sound P) (hv : v.Sound P) (hc : w.head.chainCode = v.head.chainCode) (is : List UInt32) (rnd rnd' : Nat → BN)
    (hz : ∀ n, Blind (rnd n)) (hz' : ∀ n, Blind (rnd' n)) :
    ∃ w' v' Q, w.derive rnd is = .ok w' ∧ v.derive rnd' is = .ok v' ∧ w'.Sound Q ∧ v'.Sound Q ∧ w'.head.chainCode = v'.head.chainCode ∧
      w'.head.network = w.head.network ∧ w'.head.type = w.head.type ∧ v'.head.network = v.head.network ∧ v'.head.type = v.head.type := by
  induction is generalizing w v P rnd rnd' with
  | nil => exact ⟨w, v, P, rfl, rfl, hw, hv, hc, rfl, rfl, rfl, rfl⟩
  | cons i is ih =>
    have e1 := child_eq hw i (hz 0)
    have e2 := child_eq hv i (hz' 0)
    rw [hc] at e1
    have hl : ((pubHash P v.head.chainCode i.toNat).drop 32).length = 32 := by
      rw [List.length_drop]
      have : (pubHash P v.head.chainCode i.toNat).length = 64 := length_hmacSha512 _ _
      omega
    have hcc : (w.childHead P i).chainCode = (v.childHead P i).chainCode := by unfold childHead; rw [hc]
    obtain ⟨w', v', Q, g1, g2, g3, g4, g5, g6, g7, g8, g9⟩ := ih (w := { key := { point := rawPoint _ }, head := w.childHead P i })
      (v := { key := { point := rawPoint _ }, head := v.childHead P i }) ⟨rfl, rfl, by rw [hcc]; exact hl⟩ ⟨rfl, rfl, hl⟩ hcc (fun n => rnd (n + 1))
      (fun n => rnd' (n + 1)) (fun n => hz _) (fun n => hz' _)
    refine ⟨w', v', Q, ?_, ?_, g3, g4, g5, g6, g7, g8, g9⟩
    · rw [derive, e1, C.bind_ok, g1]
    · rw [derive, e2, C.bind_ok, g2]

theorem HDPriv.derive_keeps {k : HDPriv} {d : Nat} (h : k.Sound d) (hc : k.pubKey.compressed = true) (is : List UInt32) (rnd : Nat → BN) (hz : ∀ n, Blind (rnd n)) :
    ∃ r s, k.derive rnd is = .ok r ∧ r.Sound s ∧ r.pubKey.compressed = true := by
  induction is generalizing k d rnd with
  | nil => exact ⟨k, d, rfl, h, hc⟩
  | cons i is ih =>
    obtain ⟨s, e, e1⟩ := child_eq h i false (hz 0)
    obtain ⟨r', s', e2, h2, -⟩ := child_sound h i false (hz 0)
    have : r'.pubKey.compressed = true := by rw [e1] at e2; rw [← C.ok.inj e2]
    obtain ⟨r, q, f1, f2⟩ := ih h2 this (fun n => rnd (n + 1)) fun n => hz _
    exact ⟨r, q, by rw [derive, e2, C.bind_ok, f1], f2⟩

/-- The network and the type that the text of a key keeps give the same address exactly in these cases. -/
theorem HDPub.kept_address {v w : HDPub} {Q : Pt} (hv : v.Sound Q) (hw : w.Sound Q) (hn : v.head.network ∈ networks)
    (hwn : w.head.network = if v.head.network = mainnet then mainnet else testnet) (hwt : w.head.type = storedType v.head.type) :
    ∃ a b, v.addressText = .ok a ∧ w.addressText = .ok b ∧
      (a = b ↔ v.head.type = .p2sh_p2wpkh ∨ v.head.type ≠ .p2pkh ∧ v.head.network.bech32 ≠ regtest.bech32) := by
  have hvn : ∀ h : Bytes, witnessScript 0 h ≠ [] ∧ witnessScript 0 h ≠ p2pkhScript h := fun h => ⟨by simp [witnessScript], by simp [witnessScript, p2pkhScript]⟩
  have hwn' : w.head.network ∈ networks ∧ w.head.network.bech32 ≠ regtest.bech32 ∧ w.head.network.p2sh = v.head.network.p2sh ∧
      (v.head.network.bech32 ≠ regtest.bech32 → w.head.network = v.head.network) := by
    rw [hwn]
    simp only [networks, List.mem_cons, List.not_mem_nil, or_false] at hn
    rcases hn with e | e | e | e <;> rw [e] <;> decide
  obtain ⟨w1, w2, w3, w4⟩ := hwn'
  have hcc : w.key.compressed = v.key.compressed := hw.compressed.trans hv.compressed.symm
  have differ : ∀ {a b : Bytes} {o1 o2 : TxOut} {s1 s2 : Bytes}, TxOut.ofAddress 0 a = .ok o1 → TxOut.ofAddress 0 b = .ok o2 → o1.Holds ⟨0, s1⟩ → o2.Holds ⟨0, s2⟩ →
      s1 ≠ s2 → a ≠ b := by
    intro a b o1 o2 s1 s2 h1 h2 h3 h4 h5 e
    subst e
    rw [h1] at h2
    injection h2 with h2
    subst h2
    exact h5 (h3.script.2.symm.trans h4.script.2)
  by_cases hp : v.head.type = .p2sh_p2wpkh
  · obtain ⟨a, e1, -, e2⟩ := ECPoint.C70_nested v.key Q 40 v.head.network hv.point (by decide)
    obtain ⟨b, f1, -, f2⟩ := ECPoint.C70_nested w.key Q 40 w.head.network hw.point (by decide)
    refine ⟨a, b, ?_, ?_, ⟨fun _ => .inl hp, fun _ => by rw [e1, f1, w3, hcc]⟩⟩
    · unfold addressText; rw [hp]; exact e2
    · unfold addressText; rw [hwt, hp]; exact f2
  have hwa : w.addressText = w.key.segwitAddressText w.head.network := by
    unfold addressText
    rw [hwt]
    generalize v.head.type = t at hp ⊢
    cases t <;> first | rfl | exact absurd rfl hp
  obtain ⟨t1, t2, o1, o2, s1, s2, a1, a2, a3, a4, a5, a6, a7, a8⟩ := ECPoint.ofAddress_scripts hv.point hn
  obtain ⟨-, u2, -, q2, -, r2, -, b2, -, b4, -, b6, -, b8⟩ := ECPoint.ofAddress_scripts hw.point w1
  rw [if_neg w2, hcc] at b8
  by_cases hk : v.head.type = .p2pkh
  · refine ⟨t1, u2, ?_, by rw [hwa, b2], ⟨fun e => absurd e ?_, fun h => by rcases h with h | h; exacts [absurd h hp, absurd hk h.1]⟩⟩
    · unfold addressText; rw [hk]; exact a1
    · apply differ a3 b4 a5 b6
      rw [b8]
      rcases a7 with rfl | rfl
      · exact (hvn _).1.symm
      · exact (hvn _).2.symm
  have hva : v.addressText = v.key.segwitAddressText v.head.network := by
    unfold addressText
    generalize v.head.type = t at hp hk ⊢
    cases t <;> first | rfl | exact absurd rfl hp | exact absurd rfl hk
  refine ⟨t2, u2, by rw [hva, a2], by rw [hwa, b2], ⟨fun e => .inr ⟨hk, fun hr => ?_⟩, fun h => ?_⟩⟩
  · rw [if_pos hr] at a8
    exact differ a4 b4 a6 b6 (by rw [a8, b8]; exact (hvn _).1.symm) e
  · rcases h with h | h
    · exact absurd h hp
    · have := (ECPoint.same_texts hw.point hv.point hcc v.head.network).2.1
      rw [w4 h.2, this, a2] at b2
      exact C.ok.inj b2

/-- C105: the text of the public key of a wallet is exported, another wallet is made from it, and both derive along a path without hardened steps.  Then both wallets have
the same public key there, and they show the same address exactly if the type is P2SH-P2WPKH, or the type is not P2PKH and the network is not Regtest. -/
theorem HDPriv.C105_watch (k : HDPriv) (d : Nat) (k0 : HDPub) (junk : Bytes) (len : Nat) (is : List UInt32) (rnd rnd' : Nat → BN) (h : k.Holds d)
    (hc : k.pubKey.compressed = true) (hn : k.head.network ∈ networks) (hlen : 112 ≤ len) (hs : k0.key.status = .done) (hl : k0.key.point.length = 64)
    (hc0 : k0.key.compressed = true) (hw : k0.head.Wf) (hz : ∀ n, Blind (rnd n)) (hz' : ∀ n, Blind (rnd' n)) (hi : ∀ i ∈ is, i.toNat < 2 ^ 31) :
    ∃ text w n r v Q, k.xpubText doubleSha (zeros len) = .ok (text.length, text ++ zeros (len - text.length)) ∧ k0.fromStr doubleSha junk text = (w, n) ∧ 0 < n ∧
      k.derive rnd is = .ok r ∧ w.derive rnd' is = .ok v ∧ r.pubKey.Holds Q ∧ v.key.Holds Q ∧
      ∃ a b, r.addressText = .ok a ∧ v.addressText = .ok b ∧
        (a = b ↔ k.head.type = .p2sh_p2wpkh ∨ k.head.type ≠ .p2pkh ∧ k.head.network.bech32 ≠ regtest.bech32) := by
  have hx := xpub_holds h
  have hS : k.Sound d := ⟨h.num, h.lt, h.pub, h.wf.chainCode⟩
  obtain ⟨text, e1, e2, -⟩ := HDPub.C37_xpub_text k.xpub _ len hx hn hlen
  obtain ⟨w, n, f1, f2, f3, f4⟩ := HDPub.C37_xpub_roundtrip_partial k.xpub k0 _ junk hx hn hs hl hc0 hw
  obtain ⟨r, g1, g2⟩ := C40_agree_path k d is rnd rnd' hS hz hz' hi
  obtain ⟨r', s, g3, g4, g5⟩ := derive_keeps hS hc is rnd hz
  rw [g1] at g3
  obtain rfl := C.ok.inj g3
  obtain ⟨v, v', Q, k1, k2, k3, k4, -, k6, k7, k8, k9⟩ := HDPub.derive_agree f3.sound hx.sound f4.chainCode is rnd' rnd' hz' hz'
  rw [g2] at k2
  obtain rfl := C.ok.inj k2
  obtain ⟨a, b, m1, m2, m3⟩ := HDPub.kept_address k4 k3 (by rw [k8]; exact hn) (by rw [k6, f4.network, k8]) (by rw [k7, f4.type, k9])
  rw [k8, k9] at m3
  refine ⟨text, w, n, r, v, Q, by rw [C37_xpub_of_private k d _ h]; exact e2, by rw [e1]; exact f1, f2, g1, k1, ?_, k3.point, a, b,
    by rw [(C70_agree r 0 g5).2]; exact m1, m2, m3⟩
  exact k4.point

/-- C105: a key, a fresh object for the other wallet, and a path. -/
example : hdOne.Holds 1 ∧ hdOne.pubKey.compressed = true ∧ hdOne.head.network ∈ networks ∧ ({} : HDPub).key.status = .done ∧ ({} : HDPub).key.point.length = 64 ∧
    ({} : HDPub).key.compressed = true ∧ ({} : HDPub).head.Wf ∧ (∀ n : Nat, Blind ((fun _ => BN.one) n)) ∧ ∀ i ∈ [(0 : UInt32), 7], i.toNat < 2 ^ 31 :=
  ⟨holds_hdOne, rfl, by decide, rfl, rfl, rfl, ⟨rfl, rfl, rfl⟩, fun _ => blind_one, by decide⟩

end UB
