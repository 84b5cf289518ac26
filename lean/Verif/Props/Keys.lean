import Verif.Props.Schnorr
import Verif.Props.Address

/-
C35 WIF, C54 ECDH, C65 private keys from streams, C66 signing and verifying with key objects.
-/

namespace UB
open Spec BN

attribute [local irreducible] secpP secpN BN.multiply BN.fastMod BN.mod BN.subtractmod BN.multK BN.addmod BN.inverse BN.lshift BN.subi BN.add
  BN.multHalf BN.cmov BN.isEqual BN.isZero BN.sqrt BN.subtract scalarMultiply pointMultiply CurvePoint.add readBE writeBE BN.addi
  Spec.sha256 doubleSha sha256 Spec.hash256

/-! ### C54 -/

/-- C54: the shared secret is SHA-256 of the two coordinates of d·Q, or its abscissa. -/
theorem C54_ecdh_exact (key : PrivKey) (d : Nat) (pub : ECPoint) (Q : Pt) (useHash : Bool) (z : BN) (h : key.Holds d) (hq : pub.Holds Q) (h0 : Q ≠ 0)
    (hz : Blind z) :
    key.ecdh pub useHash z = .ok (if useHash then Spec.sha256 (rawPoint (d • Q)) else beBytes 32 (xNat (d • Q))) := by
  obtain ⟨r, r1, r2, -⟩ := ECPoint.mul_holds h.length (by rw [h.val]; exact h.lt) hq h0 hz
  rw [h.val] at r2
  unfold PrivKey.ecdh
  rw [r1, C.bind_ok]
  have hh : ({ r with compressed := false } : ECPoint).Holds (d • Q) := r2
  rw [ECPoint.sec65 _ hh.length, ECPoint.bytes_spec hh]
  have hl : ({ r with compressed := false } : ECPoint).length = 65 := rfl
  rw [hl]
  have e : secOf false (d • Q) ++ zeros (65 - 65) = [0x04] ++ rawPoint (d • Q) ++ [] := by
    simp [secOf, secBytes, rawPoint, zeros]
  rw [C.bind_ok]
  dsimp only
  have l1 : load ([0x04] ++ rawPoint (d • Q) ++ []) 1 64 = .ok (rawPoint (d • Q)) := by
    have := load_mid [0x04] (rawPoint (d • Q)) []
    rw [length_rawPoint] at this
    exact this
  have l2 : load ([0x04] ++ rawPoint (d • Q) ++ []) 1 32 = .ok (beBytes 32 (xNat (d • Q))) := by
    have := load_mid [0x04] (beBytes 32 (xNat (d • Q))) (beBytes 32 (yNat (d • Q)))
    rw [Spec.length_beBytes] at this
    rw [List.append_nil, rawPoint, ← List.append_assoc]
    exact this
  rw [e, l1, l2, C.bind_ok]
  cases useHash
  · rfl
  · rw [if_pos rfl, if_pos rfl, C.pure_eq, sha256_eq _ (by rw [length_rawPoint]; decide)]

/-- C54: both parties get the same secret. -/
theorem C54_symmetric (a b : PrivKey) (d e : Nat) (pa pb : ECPoint) (useHash : Bool) (z z' : BN) (ha : a.Holds d) (hb : b.Holds e)
    (hpa : pa.Holds (d • G)) (hpb : pb.Holds (e • G)) (hz : Blind z) (hz' : Blind z') :
    ∃ s, a.ecdh pb useHash z = .ok s ∧ b.ecdh pa useHash z' = .ok s ∧ s.length = 32 := by
  refine ⟨_, C54_ecdh_exact a d pb (e • G) useHash z ha hpb hb.ne hz, ?_, ?_⟩
  · rw [C54_ecdh_exact b e pa (d • G) useHash z' hb hpa ha.ne hz', ← mul_nsmul', ← mul_nsmul', Nat.mul_comm]
  · split_ifs
    · exact length_sha256 _
    · exact Spec.length_beBytes _ _

/-- The private key 2. -/
def keyTwo : PrivKey := { num := beBytes 32 2, pubKey := { point := rawPoint ((2 : Nat) • G), compressed := false } }

theorem keyTwo_holds : keyTwo.Holds 2 := ⟨rfl, by decide, by unfold secpN; decide +kernel, rfl⟩

example : ∃ (a b : PrivKey) (d e : Nat) (z : BN), a.Holds d ∧ b.Holds e ∧ d ≠ e ∧ Blind z := ⟨_, _, 1, 2, _, keyOne_holds, keyTwo_holds, by decide, blind_one⟩

/-! ### C35 -/

theorem length_doubleSha (m : Bytes) (h : m.length < 2 ^ 60) : (doubleSha m).length = 32 := by
  rw [doubleSha_at_once m h, hash256_length]

/-- The bytes of the WIF text. -/
def Spec.wifPayload (prefixByte : UInt8) (d : Nat) (compressed : Bool) : Bytes := prefixByte :: (beBytes 32 d ++ if compressed then [0x01] else [])

theorem wifPayload_length (v : UInt8) (d : Nat) (c : Bool) : (wifPayload v d c).length = if c then 34 else 33 := by
  cases c <;> simp [wifPayload, Spec.length_beBytes]

/-- C35: the text is Base58Check of the version byte, the secret and a byte 1 for compressed keys. -/
theorem C35_wif_text (key : PrivKey) (d : Nat) (len : Nat) (hn : key.num = beBytes 32 d) (hlen : 52 ≤ len) :
    key.wif doubleSha len = ((checkedText (wifPayload key.network.wif d key.pubKey.compressed)).length,
      checkedText (wifPayload key.network.wif d key.pubKey.compressed) ++
        zeros (len - (checkedText (wifPayload key.network.wif d key.pubKey.compressed)).length)) := by
  unfold PrivKey.wif
  rw [hn, show key.network.wif :: (beBytes 32 d ++ if key.pubKey.compressed = true then [0x01] else []) = wifPayload key.network.wif d key.pubKey.compressed from rfl]
  have hl := wifPayload_length key.network.wif d key.pubKey.compressed
  generalize wifPayload key.network.wif d key.pubKey.compressed = p at *
  have hfit : toBaseLength base58 (p ++ (Spec.hash256 p).take 4) ≤ 52 := by
    have h1 := countZeros_le (p ++ (Spec.hash256 p).take 4)
    have h2 := checked_length p
    have h3 : p.length ≤ 34 := by rw [hl]; split_ifs <;> omega
    unfold toBaseLength
    have e : base58.encNum = 183 := rfl
    have e' : base58.encDen = 134 := rfl
    rw [e, e']
    omega
  unfold toBase58Check
  rw [doubleSha_at_once _ (by rw [hl]; split_ifs <;> decide), C04_toBase58_text _ _ (by rw [length_zeros]; omega), length_zeros]
  rfl

/-- Decoding the text of a payload whose first byte is not zero. -/
theorem checked_decode (v : UInt8) (t : Bytes) (n : Nat) (hv : v ≠ 0) (hl : t.length < 1000) (hn : t.length + 1 ≤ n) :
    fromBase58Check doubleSha (checkedText (v :: t)) (zeros n) = (t.length + 1, (v :: t) ++ zeros (n - (t.length + 1))) := by
  have hd := doubleSha_at_once (v :: t) (by simp; omega)
  have h1 := countZeros_le ((v :: t) ++ (Spec.hash256 (v :: t)).take 4)
  have h2 := checked_length (v :: t)
  have hfit : toBaseLength base58 ((v :: t) ++ (Spec.hash256 (v :: t)).take 4) ≤ 4000 := by
    unfold toBaseLength
    have e : base58.encNum = 183 := rfl
    have e' : base58.encDen = 134 := rfl
    rw [e, e']
    simp only [List.length_cons] at h2
    omega
  have := C06_roundtrip_nonzero_partial doubleSha (v :: t) (zeros 4000) (zeros n) (by rw [hd, hash256_length]) (by simp; omega) (by simp)
    (by simpa using hv) (by rw [hd, length_zeros]; exact hfit) (by simpa using hn)
  unfold toBase58Check at this
  rw [hd, C04_toBase58_text _ _ (by rw [length_zeros]; exact hfit)] at this
  simp only [List.take_left] at this
  rw [show checkedText (v :: t) = base58Text (v :: t ++ (Spec.hash256 (v :: t)).take 4) from rfl, this, List.length_cons]
  simp [zeros]

/-- What `fromWIF` makes of a text with a correct checksum, a known version byte, 32 bytes and at most one more. -/
theorem fromWIF_payload (k : PrivKey) (net : Network) (v : UInt8) (s t : Bytes) (z : BN) (hs : s.length = 32) (ht : t.length ≤ 1) (hv : v ≠ 0)
    (hf : networks.find? (fun n => v == n.wif) = some net) :
    k.fromWIF doubleSha (checkedText (v :: (s ++ t))) z =
      (do let pub ← pubOf s z
          return ({ k with network := net, num := s, pubKey := { pub with compressed := t ≠ [] ∧ t ≠ [0] } }, 1)) := by
  unfold PrivKey.fromWIF
  have hl : (s ++ t).length = 32 + t.length := by rw [List.length_append, hs]
  rw [checked_decode v (s ++ t) 40 hv (by omega) (by omega), hl]
  dsimp only
  rw [if_neg (by omega)]
  simp only [List.cons_append, List.headD_cons, hf, List.drop_succ_cons, List.drop_zero, List.append_assoc]
  rw [List.take_left' hs]
  congr 1
  funext pub
  rw [C.pure_eq, C.pure_eq]
  have : (if 32 + t.length + 1 = 34 then decide ((v :: (s ++ (t ++ zeros (40 - (32 + t.length + 1))))).getD 33 0 > 0) else false) = decide (t ≠ [] ∧ t ≠ [0]) := by
    match t, ht with
    | [], _ => rfl
    | [b], _ =>
      rw [if_pos (by simp)]
      have e : (v :: (s ++ ([b] ++ zeros (40 - (32 + [b].length + 1))))).getD 33 0 = b := by
        rw [List.getD_cons_succ, List.getD_eq_getElem?_getD, List.getElem?_append_right (by omega), hs]
        rfl
      rw [e]
      have : ∀ b : UInt8, decide (b > 0) = decide ([b] ≠ [] ∧ [b] ≠ [0]) := by apply forall_byte; decide +kernel
      exact this b
  rw [this]

theorem networks_wif (net : Network) (h : net ∈ networks) : ∃ n, networks.find? (fun m => net.wif == m.wif) = some n ∧ n ∈ networks ∧ n.wif = net.wif ∧ net.wif ≠ 0 := by
  simp only [networks, List.mem_cons, List.not_mem_nil, or_false] at h
  rcases h with rfl | rfl | rfl | rfl
  · exact ⟨mainnet, rfl, by simp [networks], rfl, by decide⟩
  · exact ⟨testnet, rfl, by simp [networks], rfl, by decide⟩
  · exact ⟨testnet, rfl, by simp [networks], rfl, by decide⟩
  · exact ⟨testnet, rfl, by simp [networks], rfl, by decide⟩

/-- C35: what `wif` writes, `fromWIF` reads: the same secret, compression flag and a network with the same version byte, and the public key
that belongs to the secret. -/
theorem C35_roundtrip (key k : PrivKey) (d len : Nat) (z : BN) (hn : key.num = beBytes 32 d) (hd : d < secpN) (hnet : key.network ∈ networks)
    (hlen : 52 ≤ len) (hz : Blind z) :
    ∃ k', k.fromWIF doubleSha ((key.wif doubleSha len).2.take (key.wif doubleSha len).1) z = .ok (k', 1) ∧ k'.num = key.num ∧
      k'.pubKey.Holds (d • G) ∧ k'.pubKey.compressed = key.pubKey.compressed ∧ k'.network.wif = key.network.wif ∧ k'.network ∈ networks := by
  rw [C35_wif_text key d len hn hlen]
  simp only [List.take_left]
  obtain ⟨net, hf, hm, hw, h0⟩ := networks_wif key.network hnet
  unfold wifPayload
  rw [fromWIF_payload k net _ _ _ z (Spec.length_beBytes 32 d) (by split_ifs <;> simp) h0 hf,
    pubOf_spec (Spec.length_beBytes 32 d) (by rw [beNat_num hd]; exact hd) hz, C.bind_ok, C.pure_eq]
  refine ⟨_, rfl, hn.symm, ?_, ?_, hw, hm⟩
  · show rawPoint _ = _
    rw [beNat_num hd]
  · show decide _ = _
    cases key.pubKey.compressed <;> decide

/-- C35: what is accepted has a correct checksum, the version byte of a network, and 33 or 34 bytes, from which the key is taken. -/
theorem C35_accepts_only_wif (k k' : PrivKey) (text : Bytes) (ret : Nat) (z : BN) (h : k.fromWIF doubleSha text z = .ok (k', ret)) (hr : ret ≠ 0) :
    ∃ net ∈ networks, ∃ s t : Bytes, s.length = 32 ∧ t.length ≤ 1 ∧
      fromBase58 text (zeros 44) = (33 + t.length + 4, (net.wif :: (s ++ t)) ++ (doubleSha (net.wif :: (s ++ t))).take 4 ++ zeros (7 - t.length)) ∧
      k'.network = net ∧ k'.num = s := by
  unfold PrivKey.fromWIF at h
  dsimp only at h
  by_cases hl : (fromBase58Check doubleSha text (zeros 40)).1 < 33 ∨ (fromBase58Check doubleSha text (zeros 40)).1 > 34
  · rw [if_pos hl, C.ok.injEq, Prod.mk.injEq] at h
    exact absurd h.2.symm hr
  rw [if_neg hl] at h
  obtain ⟨p, h1, h2, h3⟩ := C06_accept_sound doubleSha text (zeros 40) (by omega)
  rw [h3] at h hl
  simp only [length_zeros] at h h1 h2 hl
  match p, hl, h, h1, h2 with
  | [], hl, _, _, _ => simp at hl
  | v :: q, hl, h, h1, h2 =>
    simp only [List.length_cons] at hl h1
    simp only [List.cons_append, List.headD_cons] at h
    cases hf : networks.find? (fun n => v == n.wif) with
    | none =>
      rw [hf] at h
      rw [C.ok.injEq, Prod.mk.injEq] at h
      exact absurd h.2.symm hr
    | some net =>
      rw [hf] at h
      have hv : v = net.wif := by simpa using List.find?_some hf
      dsimp only at h
      have hq : q = q.take 32 ++ q.drop 32 := (List.take_append_drop 32 q).symm
      refine ⟨net, List.mem_of_find?_eq_some hf, q.take 32, q.drop 32, by simp; omega, by simp; omega, ?_, ?_⟩
      · rw [← hq, ← hv]
        rw [h1]
        simp only [List.length_drop]
        congr 1
        · omega
        · congr 2; omega
      · cases hp : pubOf (((v :: (q ++ (zeros 40).drop (v :: q).length)).drop 1).take 32) z with
        | ub => rw [hp, C.bind_ub] at h; cases h
        | ok pub =>
          rw [hp, C.bind_ok, C.pure_eq, C.ok.injEq, Prod.mk.injEq] at h
          rw [← h.1]
          refine ⟨rfl, ?_⟩
          show ((v :: (q ++ _)).drop 1).take 32 = _
          rw [List.drop_succ_cons, List.drop_zero, List.take_append_of_le_length (by omega)]

/-- C35: a text with a wrong checksum or a wrong length (in the sense of `C06_accept_sound`) is rejected and erases the secret. -/
theorem C35_rejected (k : PrivKey) (text : Bytes) (z : BN)
    (h : (fromBase58Check doubleSha text (zeros 40)).1 < 33 ∨ (fromBase58Check doubleSha text (zeros 40)).1 > 34) :
    k.fromWIF doubleSha text z = .ok ({ k with num := zeros 32 }, 0) := by
  unfold PrivKey.fromWIF
  dsimp only
  rw [if_pos h]

/-- C35, code and claim disagree: a text with an unknown version byte is rejected, but the object keeps the secret it had, with the main
network. -/
theorem C35_unknown_version_keeps_key (k : PrivKey) (v : UInt8) (s t : Bytes) (z : BN) (hs : s.length = 32) (ht : t.length ≤ 1) (hv : v ≠ 0)
    (hf : v ≠ 0x80) (hf' : v ≠ 0xEF) :
    k.fromWIF doubleSha (checkedText (v :: (s ++ t))) z = .ok ({ k with network := mainnet }, 0) := by
  unfold PrivKey.fromWIF
  have hl : (s ++ t).length = 32 + t.length := by rw [List.length_append, hs]
  rw [checked_decode v (s ++ t) 40 hv (by omega) (by omega), hl]
  dsimp only
  rw [if_neg (by omega)]
  have : networks.find? (fun n => v == n.wif) = none := by
    rw [List.find?_eq_none]
    intro n hn
    simp only [networks, List.mem_cons, List.not_mem_nil, or_false] at hn
    rcases hn with rfl | rfl | rfl | rfl <;> simpa [mainnet, testnet, regtest, signet] using by first | exact hf | exact hf'
  simp only [List.cons_append, List.headD_cons, this]

/-- C35, code and claim disagree: a WIF text whose secret is not below the group order is not rejected but fails an assertion. -/
theorem C35_large_undefined (k : PrivKey) (v : UInt8) (s t : Bytes) (z : BN) (hs : s.length = 32) (ht : t.length ≤ 1) (hv : v = 0x80 ∨ v = 0xEF)
    (hge : secpN ≤ beNat s) : k.fromWIF doubleSha (checkedText (v :: (s ++ t))) z = .ub := by
  rcases hv with rfl | rfl
  · rw [fromWIF_payload k mainnet _ s t z hs ht (by decide) rfl, pubOf_large hs hge, C.bind_ub]
  · rw [fromWIF_payload k testnet _ s t z hs ht (by decide) rfl, pubOf_large hs hge, C.bind_ub]

/-- C35, code and claim disagree: the byte after the secret may be anything; zero means an uncompressed key, everything else a compressed one. -/
theorem C35_marker_ignored (k : PrivKey) (d : Nat) (b : UInt8) (z : BN) (hd : d < secpN) (hz : Blind z) :
    ∃ k', k.fromWIF doubleSha (checkedText (0x80 :: (beBytes 32 d ++ [b]))) z = .ok (k', 1) ∧ k'.num = beBytes 32 d ∧ k'.pubKey.compressed = (b != 0) := by
  rw [fromWIF_payload k mainnet _ _ [b] z (Spec.length_beBytes 32 d) (by simp) (by decide) rfl,
    pubOf_spec (Spec.length_beBytes 32 d) (by rw [beNat_num hd]; exact hd) hz, C.bind_ok, C.pure_eq]
  refine ⟨_, rfl, rfl, ?_⟩
  show decide _ = _
  have : ∀ b : UInt8, decide ([b] ≠ [] ∧ [b] ≠ [0]) = (b != 0) := by apply forall_byte; decide +kernel
  exact this b

example : ∃ (key : PrivKey) (z : BN), key.num = beBytes 32 2 ∧ (2 : Nat) < secpN ∧ key.network ∈ networks ∧ Blind z ∧ key.pubKey.compressed = false :=
  ⟨{ keyTwo with network := regtest }, _, rfl, by unfold secpN; decide +kernel, by simp [networks], blind_one, rfl⟩

end UB
