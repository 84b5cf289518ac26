import Verif.Spec.Spend
import Verif.Props.KeyAddress
import Verif.Props.TxBuild
import Verif.Props.TxSign
import Verif.Props.Build

/-
C104: what is sent to the address of a key can be spent with the key.
-/

namespace UB
open Spec

attribute [local irreducible] Spec.hash256 doubleSha hash160 Spec.hash160 checkedText Spec.sha256 legacySigHash segwitSigHash

/-- The output `o` of the sender is good for the owner of the key `pk`: whatever transaction `s` it gets into, the input that the owner makes from `txid()` of that
transaction and the number of the output, in whatever transaction `t`, is made by `sign` into one that spends the output, and nothing else of `t` changes.
`digest` is what `sign` signs; that no nonce is found in 10000 attempts is excluded. -/
def Good (o : TxOut) (out : Out) (pk : PrivKey) (d : Nat) (sign : Tx → UInt8 → (Nat → BN × BN) → C (Tx × Sig)) (digest : Transaction → Nat → In → Bytes) : Prop :=
  o.Holds out ∧ ∀ (s : Tx) (parent : Transaction) (n : Nat) (seq : UInt32), s.Holds parent → parent.outs[n]? = some out → n < 2 ^ 32 → (segwitBytes parent).length < 2 ^ 60 →
    ∃ id i inp, s.txidString = .ok id ∧ TxIn.ofText id (UInt32.ofNat n) seq = .ok i ∧ i.Holds inp ∧
      ∀ (t : Tx) (x : Transaction) (idx : UInt8) (rnd : Nat → BN × BN), t.SignSetting x idx inp pk d rnd →
        ecdsaDeterministic (beBytes 32 d) (digest x idx.toNat inp) 10000 ≠ none →
        ∃ t' g script witness, sign t idx rnd = .ok (t', g) ∧ t'.Holds (x.setIn idx.toNat { inp with script := script, witness := witness }) ∧
          WireTx (x.setIn idx.toNat { inp with script := script, witness := witness }) ∧
          SpendsOutput (x.setIn idx.toNat { inp with script := script, witness := witness }) idx.toNat parent n

theorem Good.intro {o : TxOut} {out : Out} {pk : PrivKey} {d : Nat} {sign : Tx → UInt8 → (Nat → BN × BN) → C (Tx × Sig)} {digest : Transaction → Nat → In → Bytes}
    (ho : o.Holds out)
    (h : ∀ {t : Tx} {x : Transaction} {idx : UInt8} {inp : In} {rnd : Nat → BN × BN}, t.SignSetting x idx inp pk d rnd → inp.witness = [] → inp.script = [] →
      ecdsaDeterministic (beBytes 32 d) (digest x idx.toNat inp) 10000 ≠ none →
      ∃ t' g script witness, sign t idx rnd = .ok (t', g) ∧ t'.Holds (x.setIn idx.toNat { inp with script := script, witness := witness }) ∧
        WireTx (x.setIn idx.toNat { inp with script := script, witness := witness }) ∧
        InputOk (x.setIn idx.toNat { inp with script := script, witness := witness }) idx.toNat out.amount out.script) : Good o out pk d sign digest := by
  refine ⟨ho, fun s parent n seq hs hn hlt hl => ?_⟩
  obtain ⟨id, i, e1, e2, e3⟩ := C102_parent s parent hs hl (UInt32.ofNat n) seq
  have hidx : (UInt32.ofNat n).toNat = n := by rw [UInt32.toNat_ofNat']; exact Nat.mod_eq_of_lt hlt
  refine ⟨id, i, _, e1, e2, e3, fun t x idx rnd hS hd => ?_⟩
  obtain ⟨t', g, script, witness, f1, f2, f3, f4⟩ := h hS rfl rfl hd
  have hin := List.getElem?_set_self (a := (⟨Spec.hash256 (legacyBytes parent), (UInt32.ofNat n).toNat, script, seq.toNat, witness⟩ : In))
    (List.getElem?_eq_some_iff.mp hS.input).1
  exact ⟨t', g, script, witness, f1, f2, f3, _, _, hin, hn, rfl, hidx, f4⟩

/-- A script object with given bytes. -/
def holder (d : Bytes) : Script := { scriptLen := d.length, arr := d }

theorem holder_holds (d : Bytes) : (holder d).Holds d := ⟨rfl, rfl⟩

theorem text_unique {a b : Bytes} (h : (C.ok (a ++ zeros (76 - a.length), a.length) : C (Bytes × Nat)) = C.ok (b ++ zeros (76 - b.length), b.length)) : a = b := by
  injection h with h
  injection h with h1 h2
  exact (List.append_inj h1 h2).1

/-- C104: what is sent to the segwit address of a key can be spent with it, on all networks but Regtest. -/
theorem C104_segwit {pk : PrivKey} {d : Nat} (hk : pk.Holds d) {net : Network} (hnet : net ∈ networks) (hreg : net.bech32 ≠ regtest.bech32) (amount : UInt64) :
    ∃ text o out, pk.pubKey.segwitAddressText net = .ok text ∧ TxOut.ofAddress amount text = .ok o ∧ out.amount = amount.toNat ∧
      Good o out pk d (fun t idx rnd => t.signSegwitInputKey idx pk amount .p2wpkh rnd)
        (fun x i inp => segwitSigHash x i inp (p2pkhScript (Spec.hash160 (secOf pk.pubKey.compressed (d • G)))) amount.toNat 1) := by
  obtain ⟨t1, t2, t3, -, -, e2, f2, -, -⟩ := ECPoint.C70_scripts pk.pubKey (d • G) net hk.pub hnet _ _ _ (holder_holds _) (holder_holds _) (holder_holds _)
  obtain ⟨text, o, g1, g2, g3⟩ := C102_out_witness amount (holder (p2wpkhScript (Spec.hash160 (secOf pk.pubKey.compressed (d • G)))))
    (Spec.hash160 (secOf pk.pubKey.compressed (d • G))) (zeros 76) net hnet hreg (.inl (length_hash160 _))
    (by
      have : witnessScript 0 (Spec.hash160 (secOf pk.pubKey.compressed (d • G))) = p2wpkhScript (Spec.hash160 (secOf pk.pubKey.compressed (d • G))) := by
        unfold witnessScript p2wpkhScript
        rw [length_hash160]
        rfl
      rw [this]
      exact holder_holds _) (by rw [length_zeros]; decide)
  rw [length_zeros, f2] at g1
  obtain rfl := text_unique g1
  refine ⟨t2, o, _, e2, g2, ?_, Good.intro g3 fun {t x idx inp rnd} hS _ _ hn => ?_⟩
  · rfl
  · obtain ⟨t', g, s, w, a1, a2, a3, a4⟩ := C71_segwit_key hS amount .p2wpkh hn
    refine ⟨t', g, s, w, a1, a2, a3, ?_⟩
    have : witnessScript 0 (Spec.hash160 (secOf pk.pubKey.compressed (d • G))) = p2wpkhScript (Spec.hash160 (secOf pk.pubKey.compressed (d • G))) := by
      unfold witnessScript p2wpkhScript
      rw [length_hash160]
      rfl
    dsimp only
    rw [this]
    simpa using a4

/-- C104: what is sent to the nested segwit address of a key can be spent with it, on all networks. -/
theorem C104_nested {pk : PrivKey} {d : Nat} (hk : pk.Holds d) {net : Network} (hnet : net ∈ networks) (amount : UInt64) :
    ∃ text o out, pk.pubKey.nestedSegwitAddressText net = .ok text ∧ TxOut.ofAddress amount text = .ok o ∧ out.amount = amount.toNat ∧
      Good o out pk d (fun t idx rnd => t.signSegwitInputKey idx pk amount .p2sh_p2wpkh rnd)
        (fun x i inp => segwitSigHash x i inp (p2pkhScript (Spec.hash160 (secOf pk.pubKey.compressed (d • G)))) amount.toNat 1) := by
  obtain ⟨t1, t2, t3, -, -, -, -, e3, f3⟩ := ECPoint.C70_scripts pk.pubKey (d • G) net hk.pub hnet _ _ _ (holder_holds _) (holder_holds _) (holder_holds _)
  have hv0 : net.p2sh ≠ 0 := by
    simp only [networks, List.mem_cons, List.not_mem_nil, or_false] at hnet
    rcases hnet with rfl | rfl | rfl | rfl <;> decide
  obtain ⟨text, o, g1, g2, g3⟩ := C102_out_legacy amount (holder (p2shScript (Spec.hash160 (p2wpkhScript (Spec.hash160 (secOf pk.pubKey.compressed (d • G)))))))
    .p2sh net.p2sh (Spec.hash160 (p2wpkhScript (Spec.hash160 (secOf pk.pubKey.compressed (d • G))))) (zeros 76) net hnet rfl hv0 (length_hash160 _)
    (holder_holds _) (by rw [length_zeros]; decide)
  rw [length_zeros, f3] at g1
  obtain rfl := text_unique g1
  refine ⟨t3, o, _, e3, g2, ?_, Good.intro g3 fun {t x idx inp rnd} hS _ _ hn => ?_⟩
  · rfl
  · obtain ⟨t', g, s, w, a1, a2, a3, a4⟩ := C71_segwit_key hS amount .p2sh_p2wpkh hn
    refine ⟨t', g, s, w, a1, a2, a3, ?_⟩
    dsimp only [legacyScript]
    simpa using a4

/-- C104: what is sent to the legacy address of a key can be spent with it, on the test networks, and on the main network exactly if the text of the address has
at least 33 characters; if it has less, the sender's output has an empty script, and everybody can spend it. -/
theorem C104_legacy {pk : PrivKey} {d : Nat} (hk : pk.Holds d) {net : Network} (hnet : net ∈ networks) (amount : UInt64) :
    ∃ text o out, pk.pubKey.legacyAddressText net = .ok text ∧ TxOut.ofAddress amount text = .ok o ∧ out.amount = amount.toNat ∧ o.Holds out ∧
      (net ≠ mainnet ∨ 33 ≤ text.length → Good o out pk d (fun t idx rnd => t.signInputKey idx pk rnd)
        (fun x i _ => legacySigHash x i (p2pkhScript (Spec.hash160 (secOf pk.pubKey.compressed (d • G)))) 1)) ∧
      (net = mainnet → text.length < 33 → ∀ (x : Transaction) (i : Nat) (inp : In), x.ins[i]? = some inp → inp.script = [1, 1] → inp.witness = [] →
        InputOk x i out.amount out.script) := by
  obtain ⟨t1, t2, t3, e1, f1, -⟩ := ECPoint.C70_scripts pk.pubKey (d • G) net hk.pub hnet _ _ _ (holder_holds _) (holder_holds _) (holder_holds _)
  have good : ∀ o : TxOut, o.Holds ⟨amount.toNat, p2pkhScript (Spec.hash160 (secOf pk.pubKey.compressed (d • G)))⟩ →
      Good o ⟨amount.toNat, p2pkhScript (Spec.hash160 (secOf pk.pubKey.compressed (d • G)))⟩ pk d (fun t idx rnd => t.signInputKey idx pk rnd)
        (fun x i _ => legacySigHash x i (p2pkhScript (Spec.hash160 (secOf pk.pubKey.compressed (d • G)))) 1) := by
    intro o ho
    refine Good.intro ho fun {t x idx inp rnd} hS hw _ hn => ?_
    obtain ⟨t', g, s, a1, a2, a3, a4⟩ := C71_p2pkh hS hw amount.toNat hn
    have e : ({ inp with script := s, witness := [] } : In) = { inp with script := s } := by rw [← hw]
    exact ⟨t', g, s, [], a1, by rw [e]; exact a2, by rw [e]; exact a3, by rw [e]; exact a4⟩
  by_cases hm : net = mainnet
  · subst hm
    obtain ⟨text, g1, -, sc', g2, g3, g4⟩ := C23_p2pkh_mainnet_iff (holder (p2pkhScript (Spec.hash160 (secOf pk.pubKey.compressed (d • G))))) {} _ (zeros 76)
      (length_hash160 _) (holder_holds _) (by rw [length_zeros]; decide)
    rw [length_zeros, f1] at g1
    obtain rfl := text_unique g1
    by_cases h33 : 33 ≤ t1.length
    · obtain ⟨o, k1, -, k2⟩ := C102_out_address (amount := amount) g2 (g3 h33)
      exact ⟨t1, o, _, e1, k1, rfl, k2, fun _ => good o k2, fun _ h => by omega⟩
    · obtain ⟨o, k1, -, k2, k3⟩ := C102_bad_address (amount := amount) g2 (by rw [g4 (by omega)]; exact ⟨rfl, rfl⟩)
      exact ⟨t1, o, _, e1, k1, rfl, k2, fun h => absurd h (by simp; omega), fun _ _ => k3⟩
  · have hv0 : net.p2pkh ≠ 0 := by
      simp only [networks, List.mem_cons, List.not_mem_nil, or_false] at hnet
      rcases hnet with rfl | rfl | rfl | rfl
      · exact absurd rfl hm
      all_goals decide
    obtain ⟨text, o, g1, g2, g3⟩ := C102_out_legacy amount (holder (p2pkhScript (Spec.hash160 (secOf pk.pubKey.compressed (d • G))))) .p2pkh net.p2pkh
      (Spec.hash160 (secOf pk.pubKey.compressed (d • G))) (zeros 76) net hnet rfl hv0 (length_hash160 _) (holder_holds _) (by rw [length_zeros]; decide)
    rw [length_zeros, f1] at g1
    obtain rfl := text_unique g1
    exact ⟨t1, o, _, e1, g2, rfl, g3, fun _ => good o g3, fun h => absurd h hm⟩

/-- C104 is false for segwit addresses on the network Regtest: what is sent there can be spent by everybody. -/
theorem C104_regtest {pk : PrivKey} {d : Nat} (hk : pk.Holds d) (amount : UInt64) :
    ∃ text o out, pk.pubKey.segwitAddressText regtest = .ok text ∧ TxOut.ofAddress amount text = .ok o ∧ o.status = .done ∧ o.Holds out ∧ out.amount = amount.toNat ∧
      ∀ (x : Transaction) (i : Nat) (inp : In), x.ins[i]? = some inp → inp.script = [1, 1] → inp.witness = [] → InputOk x i out.amount out.script := by
  obtain ⟨t1, t2, t3, -, -, e2, f2, -, -⟩ := ECPoint.C70_scripts pk.pubKey (d • G) regtest hk.pub (by simp [networks]) _ _ _ (holder_holds _) (holder_holds _) (holder_holds _)
  obtain ⟨text, o, g1, -, g2, g3, g4, g5⟩ := C102_regtest_anyone amount (holder (p2wpkhScript (Spec.hash160 (secOf pk.pubKey.compressed (d • G)))))
    (Spec.hash160 (secOf pk.pubKey.compressed (d • G))) (zeros 76) (.inl (length_hash160 _))
    (by
      have : witnessScript 0 (Spec.hash160 (secOf pk.pubKey.compressed (d • G))) = p2wpkhScript (Spec.hash160 (secOf pk.pubKey.compressed (d • G))) := by
        unfold witnessScript p2wpkhScript
        rw [length_hash160]
        rfl
      rw [this]
      exact holder_holds _) (by rw [length_zeros]; decide)
  rw [length_zeros, f2] at g1
  obtain rfl := text_unique g1
  exact ⟨t2, o, _, e2, g2, g3, g4, rfl, g5⟩

theorem HDPriv.Holds.toPriv {k : HDPriv} {d : Nat} (h : k.Holds d) : k.toPriv.Holds d := ⟨h.num, h.pos, h.lt, h.pub⟩

/-- C104: what is sent to the address that a key of a wallet gives can be spent with the key as its type says: segwit unless the type is one of the other two.  The
exceptions are those of `C104_legacy` and `C104_regtest`. -/
theorem C104_wallet {k : HDPriv} {d : Nat} (h : k.Holds d) (hnet : k.head.network ∈ networks) (amount : UInt64) :
    ∃ text o out, k.addressText = .ok text ∧ TxOut.ofAddress amount text = .ok o ∧ out.amount = amount.toNat ∧ o.Holds out ∧
      (k.head.type = .p2pkh → k.head.network ≠ mainnet ∨ 33 ≤ text.length → Good o out k.toPriv d (fun t idx rnd => t.signInputKey idx k.toPriv rnd)
        (fun x i _ => legacySigHash x i (p2pkhScript (Spec.hash160 (secOf k.pubKey.compressed (d • G)))) 1)) ∧
      (k.head.type = .p2sh_p2wpkh → Good o out k.toPriv d (fun t idx rnd => t.signSegwitInputKey idx k.toPriv amount .p2sh_p2wpkh rnd)
        (fun x i inp => segwitSigHash x i inp (p2pkhScript (Spec.hash160 (secOf k.pubKey.compressed (d • G)))) amount.toNat 1)) ∧
      (k.head.type ≠ .p2pkh → k.head.type ≠ .p2sh_p2wpkh → k.head.network.bech32 ≠ regtest.bech32 →
        Good o out k.toPriv d (fun t idx rnd => t.signSegwitInputKey idx k.toPriv amount .p2wpkh rnd)
          (fun x i inp => segwitSigHash x i inp (p2pkhScript (Spec.hash160 (secOf k.pubKey.compressed (d • G)))) amount.toNat 1)) := by
  by_cases h1 : k.head.type = .p2pkh
  · obtain ⟨text, o, out, e1, e2, e3, e4, e5, -⟩ := C104_legacy h.toPriv hnet amount
    refine ⟨text, o, out, ?_, e2, e3, e4, fun _ => e5, fun h => absurd (h1.symm.trans h) (by decide), fun h => absurd h1 h⟩
    unfold HDPriv.addressText
    rw [h1]
    exact e1
  by_cases h2 : k.head.type = .p2sh_p2wpkh
  · obtain ⟨text, o, out, e1, e2, e3, e4⟩ := C104_nested h.toPriv hnet amount
    refine ⟨text, o, out, ?_, e2, e3, e4.1, fun h => absurd h h1, fun _ => e4, fun _ h => absurd h2 h⟩
    unfold HDPriv.addressText
    rw [h2]
    exact e1
  have ha : k.addressText = k.pubKey.segwitAddressText k.head.network := by
    unfold HDPriv.addressText
    generalize k.head.type = t at h1 h2 ⊢
    cases t <;> first | rfl | exact absurd rfl h1 | exact absurd rfl h2
  by_cases hr : k.head.network.bech32 = regtest.bech32
  · have hr' : k.head.network = regtest := by
      simp only [networks, List.mem_cons, List.not_mem_nil, or_false] at hnet
      rcases hnet with e | e | e | e
      · rw [e] at hr; exact absurd hr (by decide)
      · rw [e] at hr; exact absurd hr (by decide)
      · exact e
      · rw [e] at hr; exact absurd hr (by decide)
    obtain ⟨text, o, out, e1, e2, -, e4, e5, -⟩ := C104_regtest h.toPriv amount
    exact ⟨text, o, out, by rw [ha, hr']; exact e1, e2, e5, e4, fun h => absurd h h1, fun h => absurd h h2, fun _ _ h => absurd hr h⟩
  · obtain ⟨text, o, out, e1, e2, e3, e4⟩ := C104_segwit h.toPriv hnet hr amount
    exact ⟨text, o, out, ha.trans e1, e2, e3, e4.1, fun h => absurd h h1, fun h => absurd h h2, fun _ _ _ => e4⟩

/-- C104: a sender's transaction with such an output, and a transaction of the owner with the input for it, for the key with the secret 1. -/
theorem good_meets {o : TxOut} {out : Out} (ho : ValidOut out) (h : o.Holds out) :
    ∃ (s : Tx) (parent : Transaction) (id : Bytes) (i : TxIn) (inp : In) (t : Tx) (x : Transaction), s.Holds parent ∧ parent.outs[0]? = some out ∧
      s.txidString = .ok id ∧ TxIn.ofText id 0 0xffffffff = .ok i ∧ i.Holds inp ∧ t.SignSetting x 0 inp keyOne 1 (fun _ => (BN.one, BN.one)) := by
  have hp : ({ txIns := [], txOuts := [o] } : Tx).Holds ⟨1, [], [out], 0⟩ := ⟨rfl, .nil, .cons h .nil, rfl⟩
  have hl : (segwitBytes ⟨1, [], [out], 0⟩).length < 2 ^ 60 := by
    have h2 := ho.2
    have h3 : (outBytes out).length ≤ 8 + 9 + out.script.length := by
      unfold outBytes varBytes
      have : (compactSize out.script.length).length ≤ 9 := by
        unfold compactSize
        split_ifs <;> simp [leBytes]
      simp only [List.length_append, Spec.length_leBytes]
      omega
    have : segwitBytes ⟨1, [], [out], 0⟩ = leBytes 4 1 ++ [0, 1] ++ compactSize 0 ++ [] ++ compactSize 1 ++ outBytes out ++ [] ++ leBytes 4 0 := by
      simp [segwitBytes]
    rw [this]
    simp only [List.length_append, Spec.length_leBytes, List.length_nil, List.length_cons, show (compactSize 0).length = 1 from rfl, show (compactSize 1).length = 1 from rfl]
    omega
  obtain ⟨id', i', f1, f2, f3⟩ := C102_parent _ _ hp hl 0 0xffffffff
  refine ⟨_, _, id', i', _, { txIns := [i'], txOuts := [o] },
    ⟨1, [⟨Spec.hash256 (legacyBytes ⟨1, [], [out], 0⟩), (0 : UInt32).toNat, [], (0xffffffff : UInt32).toNat, []⟩], [out], 0⟩, hp, rfl, f1, f2, f3,
    ⟨⟨rfl, .cons f3 .nil, .cons h .nil, rfl⟩, ⟨(by decide : 1 < 2 ^ 32), (by decide : 0 < 2 ^ 32), ?_, ?_, ?_⟩, (by decide : 1 < 253), (by decide : 1 < 253), rfl, keyOne_holds, draws_one⟩⟩
  · intro j hj
    simp only [List.mem_cons, List.not_mem_nil, or_false] at hj
    subst hj
    exact ⟨length_hash256_spec _, (by decide : 0 < 2 ^ 32), (by decide : 0 < 2 ^ 31), (by decide : 0xffffffff < 2 ^ 32)⟩
  · intro j hj
    simp only [List.mem_cons, List.not_mem_nil, or_false] at hj
    subst hj
    exact ho
  · intro j hj
    simp only [List.mem_cons, List.not_mem_nil, or_false] at hj
    subst hj
    exact ⟨(by decide : 0 < 253), by simp⟩

/-- C104_segwit, C104_nested, C104_legacy, C104_regtest, C104_wallet: the key with the secret 1. -/
example : keyOne.Holds 1 ∧ hdOne.Holds 1 ∧ signet ∈ networks ∧ signet.bech32 ≠ regtest.bech32 := ⟨keyOne_holds, holds_hdOne, by decide, by decide⟩

end UB
