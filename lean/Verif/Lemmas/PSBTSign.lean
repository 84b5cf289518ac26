import Verif.Spec.PSBTSign
import Verif.Lemmas.PSBTComplete
import Verif.Props.HDDerive
import Verif.Props.Secret
import Verif.Props.TxHash

/-
Signing PSBTs: keys, digests and one partial signature.
-/

namespace UB
open Spec BN

attribute [local irreducible] secpP secpN BN.multiply BN.fastMod BN.mod BN.subtractmod BN.multK BN.addmod BN.inverse BN.lshift BN.subi BN.add
  BN.multHalf BN.cmov BN.isEqual BN.isZero BN.sqrt BN.subtract scalarMultiply pointMultiply CurvePoint.add readBE writeBE BN.addi doubleSha Spec.hash256
  hmac512 hmacSha512 hash160 Spec.hash160 signDigest ecdsaDeterministic

/-! ### Keys -/

theorem Spec.keyAt_append (d : Nat) (c : Bytes) (a b : List Nat) : keyAt d c (a ++ b) = keyAt (keyAt d c a).1 (keyAt d c a).2 b := by
  induction a generalizing d c with
  | nil => rfl
  | cons i a ih => rw [List.cons_append, keyAt, ih, keyAt]

/-- Where BIP32 defines the key at the end of the path, it is that key. -/
theorem Spec.keyAt_ckd {d : Nat} {c : Bytes} {path : List Nat} {r : Nat × Bytes} (h : ckdPath d c path = some r) : keyAt d c path = r := by
  induction path generalizing d c with
  | nil =>
    rw [ckdPath] at h
    rw [keyAt]
    exact Option.some.inj h
  | cons i is ih =>
    rw [ckdPath] at h
    match hq : ckdPriv d c i with
    | none => rw [hq] at h; simp at h
    | some (d1, c1) =>
      rw [hq, Option.bind_some] at h
      rw [keyAt]
      unfold ckdPriv at hq
      dsimp only at hq
      split at hq
      · simp at hq
      have e : childKey d c i = (d1, c1) := Option.some.inj hq
      rw [e]
      exact ih h

/-- An extended key with secret `d` and chain code `c` whose public key is marked as compressed. -/
structure HDPriv.IsKey (k : HDPriv) (d : Nat) (c : Bytes) : Prop where
  sound : k.Sound d
  chain : k.head.chainCode = c
  compressed : k.pubKey.compressed = true

theorem HDPriv.derive_isKey {k : HDPriv} {d : Nat} {c : Bytes} (h : k.IsKey d c) {rnd : Nat → BN} (hz : ∀ n, Blind (rnd n)) (is : List UInt32) :
    ∃ r, k.derive rnd is = .ok r ∧ r.IsKey (keyAt d c (is.map (·.toNat))).1 (keyAt d c (is.map (·.toNat))).2 := by
  induction is generalizing k d c rnd with
  | nil => exact ⟨k, rfl, h⟩
  | cons i is ih =>
    have hci : childIndex i false = i := by unfold childIndex; rw [if_neg (by simp)]
    obtain ⟨s, e1, e2⟩ := HDPriv.child_eq h.sound i false (hz 0)
    obtain ⟨r, s', g1, g2, -, g3, g4⟩ := HDPriv.child_sound h.sound i false (hz 0)
    have hss : s' = s := by rw [g3, e1]
    subst hss
    have hr : r = { num := beBytes 32 s', pubKey := { point := rawPoint (s' • G) }, head := k.childHead d (childIndex i false) } := C.ok.inj (g1.symm.trans e2)
    have hs : s' = (childKey d c i.toNat).1 := by rw [e1, hci, h.chain]; rfl
    have hc : r.head.chainCode = (childKey d c i.toNat).2 := by
      rw [g4, hci]
      show (childHash d k.head.chainCode i.toNat).drop 32 = _
      rw [h.chain]; rfl
    have hk : r.IsKey (childKey d c i.toNat).1 (childKey d c i.toNat).2 := ⟨hs ▸ g2, hc, by rw [hr]⟩
    obtain ⟨q, q1, q2⟩ := ih hk (rnd := fun n => rnd (n + 1)) (fun n => hz _)
    refine ⟨q, ?_, ?_⟩
    · rw [derive, g1, C.bind_ok, q1]
    · rw [List.map_cons, keyAt]
      exact q2

/-! ### Digests -/

theorem wire_segwit (x : Transaction) (h : WireTx x) (hi : x.ins.length < 253) (ho : x.outs.length < 253) : (segwitBytes x).length < 2 ^ 50 := by
  have hv : ∀ d : Bytes, d.length < 2 ^ 31 → (varBytes d).length ≤ 2 ^ 32 := by
    intro d hd
    have := compactSize_length d.length
    unfold varBytes
    rw [List.length_append]
    omega
  have h1 : (x.ins.flatMap inBytes).length ≤ x.ins.length * 2 ^ 33 := by
    refine flatMap_length_le _ _ _ fun i hin => ?_
    have hp := (h.ins i hin).hash
    have := hv i.script (h.ins i hin).script
    unfold inBytes
    simp only [List.length_append, Spec.length_leBytes]
    omega
  have h2 : (x.outs.flatMap outBytes).length ≤ x.outs.length * 2 ^ 33 := by
    refine flatMap_length_le _ _ _ fun o hin => ?_
    have := hv o.script (h.outs o hin).2
    unfold outBytes
    simp only [List.length_append, Spec.length_leBytes]
    omega
  have h3 : (x.ins.flatMap fun i => witnessBytes i.witness).length ≤ x.ins.length * 2 ^ 41 := by
    refine flatMap_length_le _ _ _ fun i hin => ?_
    obtain ⟨a, b⟩ := h.items i hin
    have h4 := flatMap_length_le varBytes (2 ^ 32) i.witness (fun d hd => hv d (b d hd))
    have := compactSize_length i.witness.length
    unfold witnessBytes
    rw [List.length_append]
    have : i.witness.length * 2 ^ 32 ≤ 253 * 2 ^ 32 := Nat.mul_le_mul_right _ (by omega)
    omega
  have c1 := compactSize_length x.ins.length
  have c2 := compactSize_length x.outs.length
  have : x.ins.length * 2 ^ 33 ≤ 253 * 2 ^ 33 := Nat.mul_le_mul_right _ (by omega)
  have : x.outs.length * 2 ^ 33 ≤ 253 * 2 ^ 33 := Nat.mul_le_mul_right _ (by omega)
  have : x.ins.length * 2 ^ 41 ≤ 253 * 2 ^ 41 := Nat.mul_le_mul_right _ (by omega)
  unfold segwitBytes
  simp only [List.length_append, Spec.length_leBytes, List.length_cons, List.length_nil]
  omega

theorem wire_preimage (x : Transaction) (h : WireTx x) (hi : x.ins.length < 253) (ho : x.outs.length < 253) (i : Nat) (code : Bytes) (hc : code.length < 2 ^ 31) :
    (legacySigPreimage x i code 1).length < 2 ^ 60 := by
  have hv : ∀ d : Bytes, d.length < 2 ^ 31 → (varBytes d).length ≤ 2 ^ 32 := by
    intro d hd
    have := compactSize_length d.length
    unfold varBytes
    rw [List.length_append]
    omega
  have hs1 : SignsAll 1 := ⟨rfl, rfl, rfl⟩
  have e2 : sigOuts x.outs i 1 = x.outs := by simp [sigOuts, hs1.1, hs1.2.1]
  have hlen : (allIns x.ins i code).length = x.ins.length := by simp [allIns]
  have h1 : ((allIns x.ins i code).flatMap inBytes).length ≤ (allIns x.ins i code).length * 2 ^ 33 := by
    refine flatMap_length_le _ _ _ fun j hj => ?_
    unfold allIns at hj
    obtain ⟨⟨a, k⟩, ha, hb⟩ := List.mem_map.mp hj
    have hm := h.ins a (by rw [(List.mem_zipIdx' ha).2]; exact List.getElem_mem _)
    have hp := hm.hash
    have hjs : j.prevHash.length = 32 ∧ j.script.length < 2 ^ 31 := by
      dsimp only at hb
      split at hb <;> subst hb
      · exact ⟨hp, hc⟩
      · exact ⟨hp, by simp⟩
    have := hv j.script hjs.2
    unfold inBytes
    simp only [List.length_append, Spec.length_leBytes]
    omega
  have h2 : (x.outs.flatMap outBytes).length ≤ x.outs.length * 2 ^ 33 := by
    refine flatMap_length_le _ _ _ fun o hin => ?_
    have := hv o.script (h.outs o hin).2
    unfold outBytes
    simp only [List.length_append, Spec.length_leBytes]
    omega
  rw [legacySigPreimage, sigIns_all x.ins i code 1 hs1, e2]
  have c1 := compactSize_length x.ins.length
  have c2 := compactSize_length x.outs.length
  have : x.ins.length * 2 ^ 33 ≤ 253 * 2 ^ 33 := Nat.mul_le_mul_right _ (by omega)
  have : x.outs.length * 2 ^ 33 ≤ 253 * 2 ^ 33 := Nat.mul_le_mul_right _ (by omega)
  rw [hlen] at h1
  unfold legacyBytes
  simp only [List.length_append, Spec.length_leBytes, hlen]
  omega

/-- The metadata hold what is known about the input. -/
structure InMeta.Knows (m : InMeta) (f : InputInfo) : Prop where
  spent : m.txOut.Holds f.spent
  redeem : m.redeemScript.Holds f.redeem
  witness : m.witnessScript.Holds f.witness
  spentLen : f.spent.script.length < 2 ^ 31
  redeemLen : f.redeem.length < 2 ^ 31
  witnessLen : f.witness.length < 2 ^ 31

theorem Script.length_gt_one {sc : Script} {d : Bytes} (h : sc.Holds d) (hd : d.length < 2 ^ 31) : sc.length > 1 ↔ d ≠ [] := by
  rw [Script.length_eq sc d h (by omega)]
  unfold varBytes
  rw [List.length_append]
  have := compactSize_length d.length
  constructor
  · rintro h1 rfl
    simp [compactSize] at h1
  · intro h1
    have : 0 < d.length := List.length_pos_iff.mpr h1
    omega

theorem Script.is_p2wpkh {sc : Script} {d : Bytes} (h : sc.Holds d) : sc.type = .p2wpkh ↔ IsP2wpkh d := (C22_type_exact sc d h .p2wpkh)

theorem length_segwitSigHash (x : Transaction) (i : Nat) (inp : In) (code : Bytes) (a t : Nat) : (segwitSigHash x i inp code a t).length = 32 := hash256_length _

theorem length_legacySigHash (x : Transaction) (i : Nat) (code : Bytes) (t : Nat) : (legacySigHash x i code t).length = 32 := by
  unfold legacySigHash
  split
  · rfl
  · exact hash256_length _

theorem length_inputDigest (x : Transaction) (i : Nat) (inp : In) (f : InputInfo) (P : Pt) : (inputDigest x i inp f P).length = 32 := by
  unfold inputDigest
  split_ifs <;> first | exact length_segwitSigHash .. | exact length_legacySigHash ..

theorem PSBT.digest_eq {p : PSBT} {x : Transaction} (ht : p.tx.Holds x) (hw : WireTx x) (hi : x.ins.length < 253) (ho : x.outs.length < 253) {i : Nat} {inp : In}
    (hin : x.ins[i]? = some inp) {m : InMeta} {f : InputInfo} (hm : m.Knows f) {pk : PrivKey} {P : Pt} (hP : pk.pubKey.Holds P) (hc : pk.pubKey.compressed = true) :
    p.digest i m pk = .ok (inputDigest x i inp f P) := by
  have hil : i < x.ins.length := by
    by_contra hh
    rw [List.getElem?_eq_none (by omega)] at hin
    cases hin
  have hi8 : (UInt8.ofNat i).toNat = i := by simp; omega
  have hs1 : SignsAll (1 : UInt32).toNat := ⟨rfl, rfl, rfl⟩
  have hsw : ∀ (sc : Script) (code : Bytes), sc.Holds code → code.length < 2 ^ 31 → p.tx.sigHashSegwit (UInt8.ofNat i) sc m.txOut.amount 1 =
      .ok (segwitSigHash x i inp code f.spent.amount 1) := by
    intro sc code h1 h2
    have := C20_sighash_segwit_all_partial p.tx x ht (UInt8.ofNat i) inp (by rw [hi8]; exact hin) sc code m.txOut.amount 1 h1 (by omega) hs1 (wire_segwit x hw hi ho)
    rw [this, hi8, hm.spent.amount]
    rfl
  have hlg : ∀ (sc : Script) (code : Bytes), sc.Holds code → code.length < 2 ^ 31 → p.tx.sigHash (UInt8.ofNat i) sc 1 = .ok (legacySigHash x i code 1) := by
    intro sc code h1 h2
    have := C19_sighash_all_partial p.tx x ht (UInt8.ofNat i) sc code 1 h1 hs1 (by rw [hi8]; exact hil) (by rw [hi8]; exact wire_preimage x hw hi ho i code h2)
    rw [this, hi8]
    rfl
  have h33 : pk.pubKey.length = 33 := by unfold ECPoint.length; rw [hc]; rfl
  have hl : (secOf true P).length = 33 := length_secOf _ _
  have hown : (do let (l, b) ← pk.pubKey.sec 65; return Script.ofKey (b.take l) .p2pkh : C Script) = .ok (Script.ofKey (secOf true P) .p2pkh) := by
    rw [ECPoint.C36_sec _ _ hP 65, C.bind_ok]
    dsimp only
    rw [h33, hc, List.take_of_length_le (i := 65) (by omega), List.take_left' (by omega)]
    rfl
  have hown2 : (Script.ofKey (secOf true P) .p2pkh).Holds (p2pkhScript (Spec.hash160 (secOf true P))) :=
    (C22_constructors (secOf true P) (by omega) {} [] ⟨rfl, rfl⟩ (by simp)).2.2.2.2.2.2.2.2.1
  have hown3 : (p2pkhScript (Spec.hash160 (secOf true P))).length < 2 ^ 31 := by
    unfold p2pkhScript
    simp [length_hash160]
  unfold PSBT.digest inputDigest
  dsimp only
  rw [hown, C.bind_ok]
  by_cases h1 : f.witness ≠ []
  · rw [if_pos ((Script.length_gt_one hm.witness hm.witnessLen).mpr h1), if_pos h1]
    exact hsw _ _ hm.witness hm.witnessLen
  rw [if_neg (fun hh => h1 ((Script.length_gt_one hm.witness hm.witnessLen).mp hh)), if_neg h1]
  by_cases h2 : f.redeem ≠ []
  · rw [if_pos ((Script.length_gt_one hm.redeem hm.redeemLen).mpr h2), if_pos h2]
    by_cases h3 : IsP2wpkh f.redeem
    · rw [if_pos ((Script.is_p2wpkh hm.redeem).mpr h3), if_pos h3]
      exact hsw _ _ hown2 hown3
    · rw [if_neg (fun hh => h3 ((Script.is_p2wpkh hm.redeem).mp hh)), if_neg h3]
      exact hlg _ _ hm.redeem hm.redeemLen
  rw [if_neg (fun hh => h2 ((Script.length_gt_one hm.redeem hm.redeemLen).mp hh)), if_neg h2]
  by_cases h3 : IsP2wpkh f.spent.script
  · rw [if_pos ((Script.is_p2wpkh hm.spent.script).mpr h3), if_pos h3]
    exact hsw _ _ hown2 hown3
  · rw [if_neg (fun hh => h3 ((Script.is_p2wpkh hm.spent.script).mp hh)), if_neg h3]
    exact hlg _ _ hm.spent.script hm.spentLen

/-! ### One signature -/

theorem sign_from {key : PrivKey} {priv : Bytes} (hk : key.num = priv) {digest : Bytes} {rnd : Nat → BN × BN} {o : Option (Nat × Nat × Nat)}
    (h : signDigest (fun _ _ => true) priv digest rnd = .ok (o.map fun t => (beBytes 32 t.1 ++ beBytes 32 t.2.1, UInt8.ofNat t.2.2))) :
    ∃ g, key.sign digest rnd = .ok g ∧ g.r = beBytes 32 (sigNumbers o).1 ∧ g.s = beBytes 32 (sigNumbers o).2 := by
  unfold PrivKey.sign
  rw [hk, h, C.bind_ok]
  cases o with
  | none => exact ⟨{}, rfl, rfl, rfl⟩
  | some t =>
    simp only [Option.map_some]
    rw [load_lo (Spec.length_beBytes _ _), load_hi (Spec.length_beBytes _ _) (Spec.length_beBytes _ _)]
    exact ⟨_, rfl, rfl, rfl⟩

theorem sign_eq {key : PrivKey} {d : Nat} (hk : key.num = beBytes 32 d) {digest : Bytes} (hd : digest.length = 32) {rnd : Nat → BN × BN} (hr : Draws rnd) :
    ∃ g, key.sign digest rnd = .ok g ∧ g.r = beBytes 32 (signatureOf d digest).1 ∧ g.s = beBytes 32 (signatureOf d digest).2 :=
  sign_from hk (C51_sign_exact _ digest (Spec.length_beBytes _ _) hd rnd hr)

theorem sigNumbers_lt {o : Option (Nat × Nat × Nat)} {d e : Nat} (h : ∀ t, o = some t → ∃ k, ecdsaSign d e k = some t) :
    (sigNumbers o).1 < 2 ^ 256 ∧ (sigNumbers o).2 < 2 ^ 256 := by
  have hn : secpN < 2 ^ 256 := by unfold secpN; decide
  cases o with
  | none => exact ⟨Nat.two_pow_pos _, Nat.two_pow_pos _⟩
  | some t =>
    obtain ⟨k, hk⟩ := h t rfl
    have := ecdsaSign_range hk
    show t.1 < 2 ^ 256 ∧ t.2.1 < 2 ^ 256
    omega

theorem signatureOf_lt (d : Nat) (digest : Bytes) : (signatureOf d digest).1 < 2 ^ 256 ∧ (signatureOf d digest).2 < 2 ^ 256 :=
  sigNumbers_lt (d := beNat (beBytes 32 d)) (e := beNat digest) fun t ht => by
    obtain ⟨k, -, -, hk⟩ := deterministic_some ht
    exact ⟨k, hk⟩

theorem sigNumbers_valid {o : Option (Nat × Nat × Nat)} {d e : Nat} (h : ∀ t, o = some t → ∃ k, 0 < k ∧ k < secpN ∧ ecdsaSign d e k = some t) (h0 : o ≠ none) :
    EcdsaValid (d • G) e (sigNumbers o).1 (sigNumbers o).2 := by
  cases o with
  | none => exact absurd rfl h0
  | some t =>
    obtain ⟨k, k0, k1, hk⟩ := h t rfl
    exact ecdsaSign_valid k0 k1 hk

/-- The valid signature of the digest, when there is one. -/
theorem signatureOf_valid {d : Nat} {digest : Bytes} (hd : d < secpN) (h : ecdsaDeterministic (beBytes 32 d) digest 10000 ≠ none) :
    EcdsaValid (d • G) (beNat digest) (signatureOf d digest).1 (signatureOf d digest).2 :=
  sigNumbers_valid (fun t ht => by
    obtain ⟨k, k0, k1, hk⟩ := deterministic_some ht
    rw [beNat_num hd] at hk
    exact ⟨k, k0, k1, hk⟩) h

set_option maxHeartbeats 400000 in
/-- Adding the signature `(r, s)`. -/
theorem PSBT.signOne_add {p : PSBT} {i : Nat} {m : InMeta} {ti : TxIn} (hi : i < 253) (hti : p.tx.txIns[i]? = some ti) (hpm : p.ins[i]? = some m)
    (hl : m.signatures.length ≠ 255) {pk : PrivKey} {P : Pt} (hP : pk.pubKey.Holds P) (hc : pk.pubKey.compressed = true) (h0 : P ≠ 0) {h : Bytes}
    (hdig : p.digest i m pk = .ok h) {rnd : Nat → BN × BN} {g : Sig} (hsig : pk.sign h rnd = .ok g) {r s : Nat} (hr : g.r = beBytes 32 r) (hs : g.s = beBytes 32 s)
    (l1 : r < 2 ^ 256) (l2 : s < 2 ^ 256) (junk : Bytes) :
    ∃ y der, p.signOne junk rnd i m pk = .ok { p with ins := p.ins.set i { m with signatures := m.signatures ++ [y] } } ∧ DerSig der r s ∧
      y.Holds ⟨true, P, r, s, der, 1⟩ := by
  obtain ⟨der, d1, d2⟩ := C32_toStream g (by rw [hr]; exact Spec.length_beBytes ..) (by rw [hs]; exact Spec.length_beBytes ..)
  rw [hr, hs, show beValue (beBytes 32 r) = _ from beNat_beBytes32 l1, show beValue (beBytes 32 s) = _ from beNat_beBytes32 l2] at d1
  have hok : SigEntry.Ok ⟨true, P, r, s, der, 1⟩ := ⟨h0, d1, l1, l2⟩
  have htl : i < p.tx.txIns.length := by
    by_contra hh
    rw [List.getElem?_eq_none (by omega)] at hti
    cases hti
  obtain ⟨y, y1, y2⟩ := InMeta.add_sig m ti junk _ hok hl
  refine ⟨y, der, ?_, d1, y2⟩
  have hsl : (secOf true P).length = 33 := length_secOf _ _
  have hdl : der.length ≤ 72 := by
    obtain ⟨L, hL, hder⟩ := sigBytes_of_der d1 l1 l2
    have h1 := length_derBytes _ (Spec.length_beBytes 32 r)
    have h2 := length_derBytes _ (Spec.length_beBytes 32 s)
    rw [hder]
    unfold sigBytes
    simp only [List.length_append, List.length_cons, List.length_nil]
    omega
  unfold PSBT.signOne
  rw [hdig, C.bind_ok, hsig, C.bind_ok]
  rw [serialize_eq _ _ (fun c o => by rw [ECPoint.toStream_spec _ hP.length, ECPoint.bytes_spec hP, hc]), C.bind_ok]
  unfold serialized
  simp only [List.drop_zero]
  rw [List.take_of_length_le (by omega), List.take_left' rfl, serialize_eq _ _ d2, C.bind_ok]
  unfold serialized
  simp only [List.drop_zero]
  rw [List.take_of_length_le (by omega), List.take_left' rfl]
  have hk1 : UInt8.ofNat (1 + (secOf true P).length) :: 0x02 :: secOf true P = varBytes (0x02 :: secOf true P) := by
    rw [varBytes_small (by simp; omega), List.length_cons, Nat.add_comm]
  have hv1 : UInt8.ofNat (1 + der.length) :: (der ++ [0x01]) = varBytes (der ++ [0x01]) := by
    rw [varBytes_small (by simp; omega), List.length_append, List.length_singleton, Nat.add_comm]
  rw [hk1, hv1]
  obtain ⟨k1, k2⟩ := Script.read_value {} ⟨rfl, rfl⟩ (0x02 :: secOf true P) (by simp; omega)
  obtain ⟨v1, v2⟩ := Script.read_value {} ⟨rfl, rfl⟩ (der ++ [0x01]) (by simp; omega)
  change Script.Holds (({} : Script).fromStream { bytes := varBytes (0x02 :: secOf true P) }).1 _ at k2
  change Script.Holds (({} : Script).fromStream { bytes := varBytes (der ++ [0x01]) }).1 _ at v2
  change (({} : Script).fromStream { bytes := varBytes (0x02 :: secOf true P) }).1.status = _ at k1
  change (({} : Script).fromStream { bytes := varBytes (der ++ [0x01]) }).1.status = _ at v1
  rw [k1, v1, if_neg (by decide)]
  rw [PSBT.add_eq p junk _ k2 v2 (by simp; omega) (by simp; omega)]
  have hsec : (UInt8.ofNat (i + 1)).toNat = i + 1 := by simp; omega
  rw [hsec]
  unfold PSBT.addM
  rw [if_neg (by omega)]
  rw [peek_dataPos _ (by simp; omega), show peek (0x02 :: secOf true P) (misread (0x02 :: secOf true P).length) = .ok 2 from
    keyCode_cons 0x02 _ (misread_small (by simp; omega)), C.bind_ok, if_pos (by omega), Nat.add_sub_cancel]
  dsimp only
  rw [hpm, hti]
  dsimp only
  rw [y1]
  rfl

theorem PSBT.signOne_eq {p : PSBT} {x : Transaction} (ht : p.tx.Holds x) (hw : WireTx x) (hi : x.ins.length < 253) (ho : x.outs.length < 253) {i : Nat} {inp : In}
    (hin : x.ins[i]? = some inp) {m : InMeta} {f : InputInfo} (hm : m.Knows f) (hpm : p.ins[i]? = some m) (hl : m.signatures.length ≠ 255)
    {k : HDPriv} {d : Nat} {c : Bytes} {o : KeyOrigin} (hk : k.IsKey (keyAt d c o.path).1 (keyAt d c o.path).2) (h0 : o.point ≠ 0)
    (hP : o.point = (keyAt d c o.path).1 • G) (junk : Bytes) {rnd : Nat → BN × BN} (hr : Draws rnd) :
    ∃ g e, p.signOne junk rnd i m k.toPriv = .ok { p with ins := p.ins.set i { m with signatures := m.signatures ++ [g] } } ∧ g.Holds e ∧ e.Ok ∧
      SignedBy x i inp f d c o e := by
  have hpub : k.toPriv.pubKey.Holds o.point := by rw [hP]; exact hk.sound.pub
  have hil : i < x.ins.length := by
    by_contra hh
    rw [List.getElem?_eq_none (by omega)] at hin
    cases hin
  have htl : p.tx.txIns.length = x.ins.length := ht.ins.length_eq
  obtain ⟨ti, hti⟩ : ∃ ti, p.tx.txIns[i]? = some ti := ⟨p.tx.txIns[i], List.getElem?_eq_getElem (by omega)⟩
  obtain ⟨g, e1, e2, e3⟩ := sign_eq (key := k.toPriv) hk.sound.num (length_inputDigest x i inp f o.point) hr
  have hb := signatureOf_lt (keyAt d c o.path).1 (inputDigest x i inp f o.point)
  have hdig := PSBT.digest_eq ht hw hi ho hin hm (pk := k.toPriv) hpub hk.compressed
  have hx : ∃ r s, (r, s) = signatureOf (keyAt d c o.path).1 (inputDigest x i inp f o.point) := ⟨_, _, Prod.mk.eta⟩
  obtain ⟨r, s, hz⟩ := hx
  rw [← hz] at e2 e3 hb
  obtain ⟨y, der, y1, y2, y3⟩ := PSBT.signOne_add (by omega) hti hpm hl hpub hk.compressed h0 hdig e1 e2 e3 hb.1 hb.2 junk
  exact ⟨y, _, y1, y3, ⟨h0, y2, hb.1, hb.2⟩, ⟨rfl, rfl, hz, y2, rfl⟩⟩

end UB
