import Verif.Lemmas.StringFrom
import Verif.Model.KeyAddress
import Verif.Props.HDDerive
import Verif.Props.Address
import Verif.Props.Secret

/-
C69: signatures checked with an extended public key.  C70: addresses of keys.
-/

namespace UB
open Spec BN

attribute [local irreducible] secpP secpN BN.multiply BN.fastMod BN.mod BN.subtractmod BN.multK BN.addmod BN.inverse BN.lshift BN.subi BN.add
  BN.multHalf BN.cmov BN.isEqual BN.isZero BN.sqrt BN.subtract scalarMultiply pointMultiply CurvePoint.add readBE writeBE BN.addi doubleSha Spec.hash256
  hmac512 hmacSha512 hash160 Spec.hash160 segwitAddrEncode

namespace ECPoint

theorem keyHash_eq {p : ECPoint} {P : Pt} (h : p.Holds P) : p.keyHash = .ok (Spec.hash160 (secOf p.compressed P)) := by
  unfold keyHash
  rw [C36_sec _ _ h 65, C.bind_ok]
  dsimp only
  have hl := length_secOf p.compressed P
  have hp : p.length = (secOf p.compressed P).length := by rw [hl]; unfold length; cases p.compressed <;> rfl
  have h65 : (secOf p.compressed P).length ≤ 65 := by rw [hl]; cases p.compressed <;> decide
  rw [hp, List.take_of_length_le (i := 65) h65, List.take_left' (by omega), hash160_eq _ (by omega)]
  rfl

theorem cstr_checked (d : Bytes) (n : Nat) : cstr (checkedText d ++ zeros n) = checkedText d :=
  cstr_text _ _ fun c hc => ((b58_idx c).1 (b58_text_chars _ c hc)).1

theorem checkedText_short (d : Bytes) (hd : d.length = 21) : (checkedText d).length ≤ 35 := by
  have h1 := checked_fits d hd
  have h2 := C04_toBase58Length_enough (d ++ (Spec.hash256 d).take 4)
  unfold checkedText
  omega

theorem base58_out (v : UInt8) (h : Bytes) (hh : h.length = 20) (len : Nat) (hl : 35 ≤ len) :
    toBase58Check doubleSha (v :: h) (zeros len) =
      ((checkedText (v :: h)).length, checkedText (v :: h) ++ zeros (len - (checkedText (v :: h)).length)) := by
  unfold toBase58Check
  rw [doubleSha_at_once _ (by simp [hh])]
  have hfit := checked_fits (v :: h) (by simp [hh])
  rw [C04_toBase58_text _ (zeros len) (by rw [length_zeros]; omega), length_zeros]
  rfl

/-- C70: the legacy address is Base58Check of the version byte and hash160 of the serialized key. -/
theorem C70_legacy (p : ECPoint) (P : Pt) (len : Nat) (net : Network) (h : p.Holds P) (hl : 35 ≤ len) :
    ∃ text, text = checkedText (net.p2pkh :: Spec.hash160 (secOf p.compressed P)) ∧
      p.legacyAddress len net = .ok (text.length, text ++ zeros (len - text.length)) ∧ p.legacyAddressText net = .ok text := by
  refine ⟨_, rfl, ?_⟩
  have key : ∀ len, 35 ≤ len → p.legacyAddress len net = .ok ((checkedText (net.p2pkh :: Spec.hash160 (secOf p.compressed P))).length,
      checkedText (net.p2pkh :: Spec.hash160 (secOf p.compressed P)) ++ zeros (len - (checkedText (net.p2pkh :: Spec.hash160 (secOf p.compressed P))).length)) := by
    intro len hl
    unfold legacyAddress
    rw [keyHash_eq h, C.bind_ok, C.pure_eq, base58_out _ _ (length_hash160 _) _ hl]
  refine ⟨key len hl, ?_⟩
  unfold legacyAddressText
  rw [key 40 (by decide), C.bind_ok]
  dsimp only
  rw [stringFrom_zeros _ _ (by have := checkedText_short (net.p2pkh :: Spec.hash160 (secOf p.compressed P)) (by simp [length_hash160]); omega), cstr_checked]

/-- C70: the nested address is Base58Check of the version byte and hash160 of the witness program of the key. -/
theorem C70_nested (p : ECPoint) (P : Pt) (len : Nat) (net : Network) (h : p.Holds P) (hl : 35 ≤ len) :
    ∃ text, text = checkedText (net.p2sh :: Spec.hash160 (p2wpkhScript (Spec.hash160 (secOf p.compressed P)))) ∧
      p.nestedSegwitAddress len net = .ok (text.length, text ++ zeros (len - text.length)) ∧ p.nestedSegwitAddressText net = .ok text := by
  refine ⟨_, rfl, ?_⟩
  have e : hash160 ([0x00, 0x14] ++ Spec.hash160 (secOf p.compressed P)) = Spec.hash160 (p2wpkhScript (Spec.hash160 (secOf p.compressed P))) := by
    rw [hash160_eq _ (by rw [List.length_append, length_hash160]; decide)]
    rfl
  have key : ∀ len, 35 ≤ len → p.nestedSegwitAddress len net =
      .ok ((checkedText (net.p2sh :: Spec.hash160 (p2wpkhScript (Spec.hash160 (secOf p.compressed P))))).length,
      checkedText (net.p2sh :: Spec.hash160 (p2wpkhScript (Spec.hash160 (secOf p.compressed P)))) ++
        zeros (len - (checkedText (net.p2sh :: Spec.hash160 (p2wpkhScript (Spec.hash160 (secOf p.compressed P))))).length)) := by
    intro len hl
    unfold nestedSegwitAddress
    rw [keyHash_eq h, C.bind_ok, C.pure_eq, e, base58_out _ _ (length_hash160 _) _ hl]
  refine ⟨key len hl, ?_⟩
  unfold nestedSegwitAddressText
  rw [key 40 (by decide), C.bind_ok]
  dsimp only
  rw [stringFrom_zeros _ _ (by have := checkedText_short (net.p2sh :: Spec.hash160 (p2wpkhScript (Spec.hash160 (secOf p.compressed P)))) (by simp [length_hash160]); omega), cstr_checked]

theorem encode20 (len : Nat) (net : Network) (hnet : net ∈ networks) (prog : Bytes) (hp : prog.length = 20) (hl : 76 ≤ len) :
    ∃ text, segwitAddrEncode (zeros len) net.bech32 0 prog = .ok (true, text ++ zeros (len - text.length)) ∧ SegwitAddress text net.bech32 0 prog ∧
      text.length = net.bech32.length + 40 ∧ (∀ c ∈ text, c ≠ 0) ∧ text.map toLower = text := by
  have hhrp : net.bech32 ≠ [] ∧ GoodHrp net.bech32 ∧ net.bech32.length ≤ 4 := by
    simp only [networks, List.mem_cons, List.not_mem_nil, or_false] at hnet
    rcases hnet with rfl | rfl | rfl | rfl <;> decide
  obtain ⟨h0, h1, h2⟩ := hhrp
  obtain ⟨text, g1, g2, g3, -, g5⟩ := segwitEncode_form (zeros len) net.bech32 0 prog h0 h1 (by omega) ⟨by omega, by omega, fun _ => .inl hp⟩ (by omega)
    (by rw [length_zeros]; omega)
  have hno : ∀ c ∈ text, c ≠ 0 := by
    obtain ⟨h, d, hB⟩ := segwit_bech32 g2
    exact bech32_no_nul hB
  refine ⟨text, ?_, g2, by omega, hno, g5⟩
  have : zeros (len - text.length) = 0 :: (zeros len).drop (text.length + 1) := by
    rw [show len - text.length = (len - (text.length + 1)) + 1 by omega]
    unfold zeros
    rw [List.drop_replicate, List.replicate_succ]
  rw [this]
  exact g1

/-- C70: the native segwit address encodes witness version 0 and hash160 of the serialized key; the return value is 76, not the length of the
text. -/
theorem C70_segwit_partial (p : ECPoint) (P : Pt) (len : Nat) (net : Network) (h : p.Holds P) (hnet : net ∈ networks) (hl : 76 ≤ len) :
    ∃ text, p.segwitAddress len net = .ok (76, text ++ zeros (len - text.length)) ∧ (∀ c ∈ text, c ≠ 0) ∧ text.map toLower = text ∧
      SegwitAddress text net.bech32 0 (Spec.hash160 (secOf p.compressed P)) ∧ text.length = net.bech32.length + 40 := by
  obtain ⟨text, g1, g2, g3, g4, g5⟩ := encode20 len net hnet (Spec.hash160 (secOf p.compressed P)) (length_hash160 _) hl
  refine ⟨text, ?_, g4, g5, g2, g3⟩
  unfold segwitAddress
  rw [if_neg (by omega), keyHash_eq h, C.bind_ok, g1]
  rfl

/-- C70: buffers shorter than 76 bytes are only erased. -/
theorem C70_segwit_short (p : ECPoint) (len : Nat) (net : Network) (hl : len < 76) : p.segwitAddress len net = .ok (0, zeros len) := by
  unfold segwitAddress
  rw [if_pos hl]
  rfl

/-- C70: the addresses of a key are those of its scripts. -/
theorem C70_scripts (p : ECPoint) (P : Pt) (net : Network) (h : p.Holds P) (hnet : net ∈ networks) (sc1 sc2 sc3 : Script)
    (h1 : sc1.Holds (p2pkhScript (Spec.hash160 (secOf p.compressed P)))) (h2 : sc2.Holds (p2wpkhScript (Spec.hash160 (secOf p.compressed P))))
    (h3 : sc3.Holds (p2shScript (Spec.hash160 (p2wpkhScript (Spec.hash160 (secOf p.compressed P)))))) :
    ∃ t1 t2 t3, p.legacyAddressText net = .ok t1 ∧ sc1.address (zeros 76) net = .ok (t1 ++ zeros (76 - t1.length), t1.length) ∧
      p.segwitAddressText net = .ok t2 ∧ sc2.address (zeros 76) net = .ok (t2 ++ zeros (76 - t2.length), t2.length) ∧
      p.nestedSegwitAddressText net = .ok t3 ∧ sc3.address (zeros 76) net = .ok (t3 ++ zeros (76 - t3.length), t3.length) := by
  obtain ⟨t1, e1, -, f1⟩ := C70_legacy p P 40 net h (by decide)
  obtain ⟨t3, e3, -, f3⟩ := C70_nested p P 40 net h (by decide)
  obtain ⟨t2, g1, g2, g3, g4, -⟩ := encode20 76 net hnet (Spec.hash160 (secOf p.compressed P)) (length_hash160 _) (by decide)
  refine ⟨t1, t2, t3, f1, ?_, ?_, ?_, f3, ?_⟩
  · have := address_legacy sc1 .p2pkh net.p2pkh _ (zeros 76) net (length_hash160 _) rfl h1 (by rw [length_zeros]; decide)
    rw [length_zeros, ← e1] at this
    exact this
  · unfold segwitAddressText segwitAddress
    rw [if_neg (by decide), keyHash_eq h, C.bind_ok, g1, C.bind_ok]
    dsimp only
    rw [C.pure_eq, C.bind_ok]
    dsimp only
    have : net.bech32.length ≤ 4 := by
      simp only [networks, List.mem_cons, List.not_mem_nil, or_false] at hnet
      rcases hnet with rfl | rfl | rfl | rfl <;> decide
    rw [stringFrom_zeros _ _ (by omega), cstr_text _ _ g4]
  · have hty : sc2.type = .p2wpkh := (C22_type_exact sc2 _ h2 .p2wpkh).2 ⟨_, length_hash160 _, rfl⟩
    have hld : load sc2.arr 2 (sc2.arr.getD 1 0).toNat = .ok (Spec.hash160 (secOf p.compressed P)) := by
      rw [h2.2]
      have := load_hash [0x00, 20] (Spec.hash160 (secOf p.compressed P)) [] 2 rfl (length_hash160 _)
      rw [List.append_nil] at this
      exact this
    have hz0 : (sc2.arr.getD 0 0).toNat = 0 := by rw [h2.2]; rfl
    unfold Script.address
    rw [hty, if_neg (by decide), if_neg (by decide), if_pos (.inl rfl), hld, C.bind_ok, hz0]
    have g1' : segwitAddrEncode (zeros 76) net.bech32 ((0 : Nat) : Int) (Spec.hash160 (secOf p.compressed P)) = .ok (true, t2 ++ zeros (76 - t2.length)) := g1
    have hlen : t2.length ≤ 76 := by
      have : net.bech32.length ≤ 4 := by
        simp only [networks, List.mem_cons, List.not_mem_nil, or_false] at hnet
        rcases hnet with rfl | rfl | rfl | rfl <;> decide
      omega
    rw [g1', C.bind_ok]
    dsimp only
    rw [cstr_text _ _ g4, length_zeros, length_zeros, if_neg (by omega), store_zero _ _ (by rw [length_zeros]; exact hlen), C.bind_ok]
    show C.ok _ = C.ok _
    rw [show (zeros 76).drop t2.length = zeros (76 - t2.length) from List.drop_replicate]
  · have := address_legacy sc3 .p2sh net.p2sh _ (zeros 76) net (length_hash160 _) rfl h3 (by rw [length_zeros]; decide)
    rw [length_zeros, ← e3] at this
    exact this

end ECPoint

/-- C70: the address of an extended private key is that of its public key. -/
theorem HDPriv.C70_agree (k : HDPriv) (len : Nat) (hc : k.pubKey.compressed = true) : k.address len = k.xpub.address len ∧ k.addressText = k.xpub.addressText := by
  have hx : k.xpub.key.sec 65 = k.pubKey.sec 65 := by
    unfold ECPoint.sec ECPoint.toStream
    have : k.xpub.key.compressed = k.pubKey.compressed := hc.symm
    unfold ECPoint.length
    rw [this]
    rfl
  have hk : k.xpub.key.keyHash = k.pubKey.keyHash := by unfold ECPoint.keyHash; rw [hx]
  have ht : k.xpub.head.type = k.head.type := rfl
  have hn : k.xpub.head.network = k.head.network := rfl
  have e1 : k.xpub.key.segwitAddress = k.pubKey.segwitAddress := by funext len net; unfold ECPoint.segwitAddress; rw [hk]
  have e2 : k.xpub.key.nestedSegwitAddress = k.pubKey.nestedSegwitAddress := by funext len net; unfold ECPoint.nestedSegwitAddress; rw [hk]
  have e3 : k.xpub.key.legacyAddress = k.pubKey.legacyAddress := by funext len net; unfold ECPoint.legacyAddress; rw [hk]
  constructor
  · unfold address HDPub.address
    rw [ht, hn, e1, e2, e3]
    cases k.head.type <;> rfl
  · unfold addressText HDPub.addressText ECPoint.segwitAddressText ECPoint.nestedSegwitAddressText ECPoint.legacyAddressText
    rw [ht, hn, e1, e2, e3]

/-- C70: which address an extended public key gives.  (All types but P2SH-P2WPKH and P2PKH give the native segwit address of the single key, also the
types for multiple signatures.) -/
theorem HDPub.C70_kind (k : HDPub) (len : Nat) :
    k.address len = (if k.head.type = .p2pkh then k.key.legacyAddress len k.head.network
      else if k.head.type = .p2sh_p2wpkh then k.key.nestedSegwitAddress len k.head.network else k.key.segwitAddress len k.head.network) := by
  unfold address
  cases k.head.type <;> rfl

example : ∃ text, ECPoint.generator.segwitAddress 76 mainnet = .ok (76, text ++ zeros (76 - text.length)) ∧ text.length = 42 := by
  obtain ⟨t, h, -, -, -, h2⟩ := ECPoint.C70_segwit_partial ECPoint.generator G 76 mainnet ECPoint.holds_generator (by decide) (by decide)
  exact ⟨t, h, h2⟩


/-! ### C69 -/

namespace HDPub

theorem verify_eq (k : HDPub) (P : Pt) (g : Sig) (digest : Bytes) (z1 z2 : BN) (h : k.Holds P) (hn : k.head.network ∈ networks) (hr : g.r.length = 32)
    (hs : g.s.length = 32) :
    k.verify g digest z1 z2 = (verifyDigest ((k.whole P).take 65) (g.r ++ g.s) digest z1 z2).bind fun v => .ok (v == 0) := by
  unfold verify
  have hb : g.bin (zeros 64) = .ok (g.r ++ g.s) := by
    rw [C34_bin g (zeros 64) hr hs, length_zeros, List.take_left' (by simp [hr, hs])]
    simp [zeros]
  have hw := whole_length h hn
  have hser : serialize k.toStream 65 0 .raw = .ok (65, (k.whole P).take 65) := by
    rw [serialize_eq _ (k.whole P) (C37_pub_toStream k P h hn)]
    simp [serialized, hw, zeros]
  rw [hb, C.bind_ok, hser, C.bind_ok]
  rfl

/-- C69 (finding): `verify` on an extended public key does not use the key: every signature is rejected if the first bytes of the
serialized extended key (version, depth, fingerprint, …) are not, by accident, the encoding of a curve point … -/
theorem C69_rejects_partial (k : HDPub) (P : Pt) (g : Sig) (digest : Bytes) (z1 z2 : BN) (h : k.Holds P) (hn : k.head.network ∈ networks) (hr : g.r.length = 32)
    (hs : g.s.length = 32) (hbad : ∀ c Q, ¬ IsSec ((k.whole P).take (if c then 33 else 65)) c Q) : k.verify g digest z1 z2 = .ok false := by
  rw [verify_eq k P g digest z1 z2 h hn hr hs, C51_bad_key_rejected _ _ _ (by rw [List.length_take, whole_length h hn]; rfl)]
  · rfl
  · intro c Q
    rw [List.take_take]
    cases c
    · exact hbad false Q
    · exact hbad true Q

/-- C69 (finding): … and if they are, signatures are checked against that other point. -/
theorem C69_other_key_partial (k : HDPub) (P Q : Pt) (c : Bool) (g : Sig) (digest : Bytes) (z1 z2 : BN) (h : k.Holds P) (hn : k.head.network ∈ networks)
    (hr : g.r.length = 32) (hs : g.s.length = 32) (hd : digest.length = 32) (h1 : Blind z1) (h2 : Blind z2)
    (hQ : IsSec ((k.whole P).take (if c then 33 else 65)) c Q) :
    ∃ b, k.verify g digest z1 z2 = .ok b ∧ (b = true ↔ EcdsaValid Q (beNat digest) (beNat g.r) (beNat g.s) ∧ ¬ secpN ∣ beNat digest) := by
  obtain ⟨v, e, hv⟩ := verify_spec hQ (((k.whole P).take 65).drop (if c then 33 else 65)) hr hs hd h1 h2
  have : (k.whole P).take (if c then 33 else 65) ++ ((k.whole P).take 65).drop (if c then 33 else 65) = (k.whole P).take 65 := by
    have : (k.whole P).take (if c then 33 else 65) = ((k.whole P).take 65).take (if c then 33 else 65) := by
      rw [List.take_take]; cases c <;> rfl
    rw [this, List.take_append_drop]
  rw [this] at e
  rw [verify_eq k P g digest z1 z2 h hn hr hs, e]
  exact ⟨_, rfl, by rw [beq_iff_eq]; exact hv⟩

theorem whole_hdOne : (hdOne.xpub.whole G).take 65 = ([0x04, 0x5f, 0x1c, 0xf6, 3, 0, 0, 0, 0, 0, 0, 0, 7] ++ zeros 20) ++ (zeros 12 ++ 0x02 :: (beBytes 32 secpGx).take 19) := by
  have e : secOf true G = secBytes true secpGx secpGy := (isSec_iff.mp (isSec_G true)).2.symm
  unfold whole
  rw [e]
  decide +kernel

theorem bad_hdOne (c : Bool) (Q : Pt) : ¬ IsSec ((hdOne.xpub.whole G).take (if c then 33 else 65)) c Q := by
  rintro ⟨x, y, hat, h⟩
  cases c
  · have h' : (hdOne.xpub.whole G).take 65 = 0x04 :: (beBytes 32 x.val ++ beBytes 32 y.val) := h
    rw [whole_hdOne] at h'
    have hx : beNat (beBytes 32 x.val) = x.val := by
      rw [beNat_beBytes, Nat.mod_eq_of_lt (lt_of_lt_of_eq ((ZMod.val_lt x).trans secpP_lt) (by norm_num))]
    have hy : beNat (beBytes 32 y.val) = y.val := by
      rw [beNat_beBytes, Nat.mod_eq_of_lt (lt_of_lt_of_eq ((ZMod.val_lt y).trans secpP_lt) (by norm_num))]
    have e1 := congrArg (fun l => (l.drop 1).take 32) h'
    have e2 := congrArg (fun l => l.drop 33) h'
    rw [List.drop_succ_cons, List.drop_zero, List.take_left' (Spec.length_beBytes _ _)] at e1
    rw [List.drop_succ_cons, List.drop_left' (Spec.length_beBytes _ _)] at e2
    rw [← e1] at hx
    rw [← e2] at hy
    have hq := hat.eqn
    rw [← ZMod.natCast_zmod_val x, ← ZMod.natCast_zmod_val y, ← hx, ← hy] at hq
    have hq' : ((beNat ((([0x04, 0x5f, 0x1c, 0xf6, 3, 0, 0, 0, 0, 0, 0, 0, 7] ++ zeros 20) ++ (zeros 12 ++ 0x02 :: (beBytes 32 secpGx).take 19) : Bytes).drop 33) ^ 2 : Nat) : Fp) =
      ((beNat (((([0x04, 0x5f, 0x1c, 0xf6, 3, 0, 0, 0, 0, 0, 0, 0, 7] ++ zeros 20) ++ (zeros 12 ++ 0x02 :: (beBytes 32 secpGx).take 19) : Bytes).drop 1).take 32) ^ 3 + 7 : Nat) : Fp) := by
      push_cast
      exact hq
    rw [ZMod.natCast_eq_natCast_iff'] at hq'
    revert hq'
    unfold secpP
    decide +kernel
  · have h' : (hdOne.xpub.whole G).take 33 = secBytes true x.val y.val := h
    have h0 : (hdOne.xpub.whole G).take 33 = ((hdOne.xpub.whole G).take 65).take 33 := by rw [List.take_take]; rfl
    rw [h0, whole_hdOne] at h'
    have := congrArg List.head? h'
    simp only [secBytes, if_true] at this
    split at this <;> simp at this

/-- C69 (finding): a correct signature that `verify` accepts for the public key and rejects for the extended public key with the same point. -/
theorem C69_correct_rejected (z1 z2 : BN) (h1 : Blind z1) (h2 : Blind z2) :
    ∃ (k : HDPub) (g : Sig) (digest : Bytes), k.Holds G ∧ k.key.verify g digest z1 z2 = .ok true ∧ k.verify g digest z1 z2 = .ok false := by
  have hk : hdOne.xpub.Holds G := by
    have := HDPriv.xpub_holds holds_hdOne
    rw [one_nsmul] at this
    exact this
  refine ⟨hdOne.xpub, vectorSig, vectorDigest, hk, ?_, C69_rejects_partial _ G _ _ _ _ hk (by decide) (Spec.length_beBytes _ _) (Spec.length_beBytes _ _) bad_hdOne⟩
  have hs : keyOne.sign vectorDigest (fun _ => (BN.one, BN.one)) = .ok vectorSig := by
    unfold PrivKey.sign
    rw [show keyOne.num = beBytes 32 1 from rfl, vector_signature _ draws_one, C.bind_ok]
    dsimp only
    rw [load_lo (Spec.length_beBytes _ _), load_hi (Spec.length_beBytes _ _) (Spec.length_beBytes _ _)]
    rfl
  refine C66_roundtrip keyOne 1 hdOne.xpub.key vectorDigest vectorSig _ z1 z2 keyOne_holds (by rw [one_nsmul]; exact hk.point) (Spec.length_beBytes _ _) ?_ draws_one h1 h2 hs ?_
  · rw [vector_digest]; unfold secpN; decide +kernel
  · decide +kernel

end HDPub

end UB
