import Verif.Model.Strings
import Verif.Props.Text
import Verif.Props.Bin
import Verif.Props.KeyAddress
import Verif.Props.HDText
import Verif.Props.TxHash

/-
C83: functions which return a `String`.
-/

namespace UB
open Spec BN

attribute [local irreducible] secpP secpN BN.multiply BN.fastMod BN.mod BN.subtractmod BN.multK BN.addmod BN.inverse BN.lshift BN.subi BN.add
  BN.multHalf BN.cmov BN.isEqual BN.isZero BN.sqrt BN.subtract scalarMultiply pointMultiply CurvePoint.add readBE writeBE BN.addi doubleSha Spec.hash256
  hmac512 hmacSha512 hash160 Spec.hash160 segwitAddrEncode

theorem stringFrom_full (t : Bytes) (h : ∀ c ∈ t, c ≠ 0) : stringFrom t = .ub := by
  unfold stringFrom
  rw [if_neg fun h0 => h 0 h0 rfl]

theorem base58Text_no_nul (a : Bytes) : ∀ c ∈ base58Text a, c ≠ 0 := fun c hc => ((b58_idx c).1 (b58_text_chars a c hc)).1

theorem base43Text_no_nul (a : Bytes) : ∀ c ∈ base43Text a, c ≠ 0 := by
  obtain ⟨ds, d1, d2, -⟩ := radixText_digits base43 good43 a
  rw [← radixText43, d1]
  intro c hc
  obtain ⟨d, hd, rfl⟩ := List.mem_map.mp hc
  have : ∀ d < 43, base43.chars.getD d 0 ≠ 0 := by decide +kernel
  exact this d (d2 d hd)

/-- C83: the `String` overload of `toBin` gives the binary digits. -/
theorem C83_toBin (a : Bytes) : toBinString a = .ok (bitText (a.flatMap bits8)) := by
  unfold toBinString
  rw [C03_toBin_text a _ (by rw [length_zeros]; omega), length_zeros]
  dsimp only
  refine stringFrom_text _ _ ?_ (by omega)
  intro c hc
  unfold bitText at hc
  obtain ⟨b, -, rfl⟩ := List.mem_map.mp hc
  cases b <;> decide

/-- C83: the `String` overload of `toBase58` gives the base-58 text, whatever was in the memory it allocates. -/
theorem C83_toBase58 (a junk : Bytes) (hj : toBaseLength base58 a < junk.length) : toBase58String a junk = .ok (base58Text a) := by
  unfold toBase58String
  have hl : (junk.take (toBaseLength base58 a + 1)).length = toBaseLength base58 a + 1 := by rw [List.length_take]; omega
  have h := C04_toBase58Length_enough a
  rw [C04_toBase58_text a _ (by omega), hl]
  exact stringFrom_text _ _ (base58Text_no_nul a) (by omega)

/-- C83: the `String` overload of `toBase43` gives the base-43 text. -/
theorem C83_toBase43 (a : Bytes) : toBase43String a = .ok (base43Text a) := by
  unfold toBase43String
  have h := C07_toBase43Length_enough a
  rw [C07_toBase43_text a _ (by rw [length_zeros]), length_zeros]
  dsimp only
  rw [List.append_assoc, show zeros (toBaseLength base43 a - (base43Text a).length) ++ [0] = zeros (toBaseLength base43 a - (base43Text a).length + 1) by
    unfold zeros; rw [List.replicate_succ']]
  exact stringFrom_text _ _ (base43Text_no_nul a) (by omega)

example : toBinString [0, 255] = .ok (str "0000000011111111") := by decide +kernel
example : toBase43String [1, 2, 3] = .ok (base43Text [1, 2, 3]) := C83_toBase43 _

theorem countZeros_eq_length (a : Bytes) : countZeros a = a.length ↔ ∀ b ∈ a, b = 0 := by
  induction a with
  | nil => simp [countZeros]
  | cons b a ih =>
    rw [countZeros, List.length_cons]
    by_cases h : b = 0
    · rw [if_pos (by simpa using h)]
      simp only [List.mem_cons, forall_eq_or_imp]
      rw [← ih]
      constructor
      · intro h2; exact ⟨h, by omega⟩
      · rintro ⟨-, h2⟩; omega
    · rw [if_neg (by simpa using h)]
      constructor
      · intro h2; omega
      · intro h2; exact absurd (h2 b (by simp)) h

theorem countZeros_append_lt (a b : Bytes) (h : countZeros a ≠ a.length) : countZeros (a ++ b) = countZeros a := by
  induction a with
  | nil => simp [countZeros] at h
  | cons x a ih =>
    rw [List.cons_append, countZeros, countZeros]
    by_cases hx : (x == 0) = true
    · rw [if_pos hx, if_pos hx, ih]
      intro h2
      apply h
      rw [countZeros, if_pos hx, h2, List.length_cons]
    · rw [if_neg hx, if_neg hx]

/-- C83: the `String` overload of `toBase58Check` gives the Base58Check text of every payload which is not made of zero bytes only. -/
theorem C83_toBase58Check_partial (H : Bytes → Bytes) (a junk : Bytes) (hH : (H a).length = 32) (h : ∃ b ∈ a, b ≠ 0) (hj : 2 * a.length + 10 ≤ junk.length) :
    toBase58CheckString H a junk = .ok (base58Text (a ++ (H a).take 4)) := by
  have hz : countZeros a ≠ a.length := by
    rw [Ne, countZeros_eq_length]
    obtain ⟨b, h1, h2⟩ := h
    exact fun h3 => h2 (h3 b h1)
  have hc := countZeros_append_lt a ((H a).take 4) hz
  have hlen : (a ++ (H a).take 4).length = a.length + 4 := by rw [List.length_append, List.length_take, hH]; rfl
  have ht : toBaseLength base58 (a ++ (H a).take 4) = (a.length + 4 - countZeros a) * 183 / 134 + 1 + countZeros a := by
    unfold toBaseLength
    rw [hc, hlen]
    rfl
  have hle := countZeros_le a
  unfold toBase58CheckString countZerosOf
  rw [if_neg (by omega), C.bind_ok]
  dsimp only
  unfold toBase58Check
  have hl : (junk.take ((a.length + 4 - countZeros a) * 183 / 134 + 1 + countZeros a + 1)).length =
      (a.length + 4 - countZeros a) * 183 / 134 + 1 + countZeros a + 1 := by
    rw [List.length_take]
    omega
  have he := C04_toBase58Length_enough (a ++ (H a).take 4)
  rw [C04_toBase58_text _ _ (by omega), hl]
  exact stringFrom_text _ _ (base58Text_no_nul _) (by omega)

/-- C83, code and claim disagree: for a payload of zero bytes only (and for an empty one) the `String` overload of `toBase58Check` reads past the end
of the payload, looking for its first byte that is not zero. -/
theorem C83_toBase58Check_overread (H : Bytes → Bytes) (a junk : Bytes) (h : ∀ b ∈ a, b = 0) : toBase58CheckString H a junk = .ub := by
  unfold toBase58CheckString countZerosOf
  rw [if_pos ⟨(countZeros_eq_length a).mpr h, by omega⟩]
  rfl

example : (∃ b ∈ ([0, 7] : Bytes), b ≠ 0) ∧ 2 * ([0, 7] : Bytes).length + 10 ≤ (List.replicate 20 (9 : UInt8)).length :=
  ⟨⟨7, by simp, by decide⟩, by decide⟩
example : ∀ b ∈ zeros 21, b = (0 : UInt8) := by decide

/-- C83: `wif()` gives the text of `C35_wif_text`. -/
theorem C83_wif (k : PrivKey) (d : Nat) (hn : k.num = beBytes 32 d) :
    k.wifString doubleSha = .ok (checkedText (wifPayload k.network.wif d k.pubKey.compressed)) := by
  unfold PrivKey.wifString
  rw [C35_wif_text k d 53 hn (by omega)]
  refine stringFrom_text _ _ (base58Text_no_nul _) ?_
  have hl := wifPayload_length k.network.wif d k.pubKey.compressed
  generalize wifPayload k.network.wif d k.pubKey.compressed = p at *
  have h0 := C04_toBase58Length_enough (p ++ (Spec.hash256 p).take 4)
  have hfit : toBaseLength base58 (p ++ (Spec.hash256 p).take 4) ≤ 52 := by
    have h1 := countZeros_le (p ++ (Spec.hash256 p).take 4)
    have h2 := checked_length p
    have h3 : p.length ≤ 34 := by rw [hl]; split_ifs <;> omega
    unfold toBaseLength
    have e : base58.encNum = 183 := rfl
    have e' : base58.encDen = 134 := rfl
    rw [e, e']
    omega
  have : (checkedText p).length ≤ 52 := by unfold checkedText; omega
  omega

/-- C83: `xprv()` of keys on the networks of the library gives the text of `C37_xprv_text`. -/
theorem HDPriv.C83_xprv_partial (k : HDPriv) (d : Nat) (h : k.Holds d) (hn : k.head.network ∈ networks) :
    k.xprvString doubleSha = .ok (checkedText (extended (prvPrefix k.head.network k.head.type) k.head.depth.toNat k.head.fingerprint
      k.head.childNumber.toNat k.head.chainCode (0 :: beBytes 32 d))) := by
  obtain ⟨text, e1, e2, e3⟩ := HDPriv.C37_xprv_text k d 112 h hn (by omega)
  unfold HDPriv.xprvString
  rw [e2, ← e1]
  refine stringFrom_text _ _ ?_ (by omega)
  rw [e1]
  exact base58Text_no_nul _

/-- C83, code and claim disagree for other networks: with version bytes from 0x04b5e586 on, the text has 112 characters, for which `xprv()` has no room
left for the terminating NUL: it reads past its buffer. -/
theorem HDPriv.C83_xprv_overread (k : HDPriv) (d : Nat) (h : k.Holds d) (hl : (prvPrefix k.head.network k.head.type).length = 4)
    (hv : 0x04b5e586 ≤ beValue (prvPrefix k.head.network k.head.type)) : k.xprvString doubleSha = .ub := by
  have hb := HDPriv.bytes_eq k d h
  have hsplit : ∃ t, k.bytes = prvPrefix k.head.network k.head.type ++ t := by
    rw [hb]
    unfold extended
    simp only [List.append_assoc]
    exact ⟨_, rfl⟩
  have hlen : k.bytes.length = 78 := by
    unfold HDPriv.bytes
    rw [List.length_append, List.length_append, headBytes_length h.wf hl, h.num, Spec.length_beBytes]
    rfl
  obtain ⟨t, et⟩ := hsplit
  generalize prvPrefix k.head.network k.head.type = V at *
  have hc := checked_length k.bytes
  have htext := text78 k.bytes hlen 112 (by omega)
  have hfit : (checkedText k.bytes).length ≤ 112 := by
    have h0 := C04_toBase58Length_enough (k.bytes ++ (Spec.hash256 k.bytes).take 4)
    have h1 := countZeros_le (k.bytes ++ (Spec.hash256 k.bytes).take 4)
    have : toBaseLength base58 (k.bytes ++ (Spec.hash256 k.bytes).take 4) ≤ 112 := by
      unfold toBaseLength
      have e : base58.encNum = 183 := rfl
      have e' : base58.encDen = 134 := rfl
      rw [e, e']
      omega
    unfold checkedText
    omega
  have hge : 112 ≤ (checkedText k.bytes).length := by
    rw [show checkedText k.bytes = base58Text (k.bytes ++ (Spec.hash256 k.bytes).take 4) from rfl]
    have hw : k.bytes ++ (Spec.hash256 k.bytes).take 4 = V ++ (t ++ (Spec.hash256 k.bytes).take 4) := by
      rw [← List.append_assoc, ← et]
    rw [hw] at hc ⊢
    generalize t ++ (Spec.hash256 k.bytes).take 4 = w at *
    rw [List.length_append, hl, hlen] at hc
    unfold base58Text numeralText
    rw [List.length_append, List.length_replicate, List.length_map, List.length_reverse,
      show (str "123456789ABCDEFGHJKLMNPQRSTUVWXYZabcdefghijkmnopqrstuvwxyz").length = 58 by decide +kernel]
    have : 111 < (Nat.digits 58 (beValue (V ++ w))).length := by
      rw [Nat.lt_digits_length_iff (by norm_num), beValue_append, show w.length = 78 by omega]
      have h2 : 58 ^ 111 ≤ 0x04b5e586 * 256 ^ 78 := by decide +kernel
      generalize 256 ^ 78 = X at *
      generalize 58 ^ 111 = Y at *
      have : 0x04b5e586 * X ≤ beValue V * X := Nat.mul_le_mul_right _ hv
      omega
    omega
  unfold HDPriv.xprvString HDPriv.xprv
  rw [htext, show 112 - (checkedText k.bytes).length = 0 by omega]
  show stringFrom (checkedText k.bytes ++ []) = .ub
  rw [List.append_nil]
  exact stringFrom_full _ (base58Text_no_nul _)

/-- A network with other version bytes. -/
def exNetwork : Network := { testnet with xprv := [0xff, 0, 0, 1], zprv := [0xff, 0, 0, 1] }

theorem holds_other : ({ hdOne with head := { hdOne.head with network := exNetwork } } : HDPriv).Holds 1 :=
  ⟨holds_hdOne.status, holds_hdOne.num, holds_hdOne.pos, holds_hdOne.lt, holds_hdOne.pub, holds_hdOne.wf.1, holds_hdOne.wf.2, holds_hdOne.wf.3⟩

example : hdOne.head.network ∈ networks ∧ ∃ t, hdOne.xprvString doubleSha = .ok t := ⟨by decide, _, HDPriv.C83_xprv_partial _ 1 holds_hdOne (by decide)⟩
example : ({ hdOne with head := { hdOne.head with network := exNetwork } } : HDPriv).xprvString doubleSha = .ub :=
  HDPriv.C83_xprv_overread _ 1 holds_other rfl (by decide)
example : PrivKey.num { num := beBytes 32 5 } = beBytes 32 5 := rfl

/-- C83: `xpub()` of keys on the networks of the library gives the text of `C37_xpub_text`. -/
theorem HDPub.C83_xpub_partial (k : HDPub) (P : Pt) (h : k.Holds P) (hn : k.head.network ∈ networks) :
    k.xpubString doubleSha = .ok (checkedText (extended (pubPrefix k.head.network k.head.type) k.head.depth.toNat k.head.fingerprint
      k.head.childNumber.toNat k.head.chainCode (secOf true P))) := by
  obtain ⟨text, e1, e2, e3⟩ := HDPub.C37_xpub_text k P 114 h hn (by omega)
  unfold HDPub.xpubString
  rw [e2, C.bind_ok, ← e1]
  refine stringFrom_text _ _ ?_ (by omega)
  rw [e1]
  exact base58Text_no_nul _

/-- C83: `fingerprint()` gives the eight hex digits of the fingerprint. -/
theorem HDPriv.C83_fingerprint (k : HDPriv) (d : Nat) (h : k.Sound d) :
    k.fingerprintString = .ok (hexText (fingerprintOf (d • G))) ∧ k.xpub.fingerprintString = .ok (hexText (fingerprintOf (d • G))) := by
  obtain ⟨h1, h2⟩ := HDPriv.C39_fingerprint k d h
  unfold HDPriv.fingerprintString HDPub.fingerprintString
  rw [h1, h2, C.bind_ok, toHexString_eq]
  exact ⟨rfl, rfl⟩

/-- C83: `txid()` and `wtxid()` give the hex text of the reversed hashes. -/
theorem Tx.C83_txid (t : Tx) (x : Transaction) (h : t.Holds x) (hl : (segwitBytes x).length < 2 ^ 60) :
    t.txidString = .ok (hexText (Spec.hash256 (legacyBytes x)).reverse) ∧ t.wtxidString = .ok (hexText (Spec.hash256 (segwitBytes x)).reverse) := by
  unfold Tx.txidString Tx.wtxidString
  rw [C18_txid t x h hl, C18_wtxid t x h hl, C.bind_ok, C.bind_ok, toHexString_eq, toHexString_eq]
  exact ⟨rfl, rfl⟩

theorem hexChars_eq_hexText (a : Bytes) : hexChars a = hexText a := by
  have h := C01_toHex_text a (zeros (2 * a.length)) (by rw [length_zeros])
  unfold toHex at h
  rw [if_neg (by rw [length_zeros]; omega)] at h
  simpa [zeros] using congrArg Prod.snd h

/-- C83: `sec()` gives the hex text of the SEC 1 encoding, compressed or not. -/
theorem ECPoint.C83_sec (p : ECPoint) (P : Pt) (h : p.Holds P) : p.secString = .ok (hexText (secOf p.compressed P)) := by
  have hl := length_secOf p.compressed P
  unfold ECPoint.secString serialize
  dsimp only
  rw [ECPoint.C36_toStream p P h, C.bind_ok, C.pure_eq, C.bind_ok]
  have hw : window (some (131 / 2)) 0 (secOf p.compressed P) = secOf p.compressed P := by
    unfold window
    rw [List.drop_zero]
    exact List.take_of_length_le (by rw [hl]; split_ifs <;> decide)
  rw [hw]
  dsimp only
  rw [hexChars_eq_hexText]
  cases hc : p.compressed with
  | true =>
    rw [hc] at hl
    simp only [if_true] at hl ⊢
    rw [hl]
    have hs : (hexText (secOf true P) ++ zeros (131 - 2 * 33)).set 67 0 = hexText (secOf true P) ++ zeros 65 := by
      rw [List.set_append_right _ _ (by rw [length_hexText, hl]; decide), length_hexText, hl]
      congr 1
    rw [hs]
    exact stringFrom_text _ _ (hexText_no_nul _) (by decide)
  | false =>
    rw [hc] at hl
    simp only [Bool.false_eq_true, if_false] at hl ⊢
    rw [hl]
    exact stringFrom_text _ _ (hexText_no_nul _) (by decide)

/-- C83: `x()` gives the hex text of the first coordinate. -/
theorem ECPoint.C83_x (p : ECPoint) (P : Pt) (h : p.Holds P) : p.xString = .ok (hexText ((rawPoint P).take 32)) := by
  unfold ECPoint.xString
  have hp : p.point = rawPoint P := h
  have hl := h.length
  unfold load
  rw [if_pos (by omega), C.bind_ok, toHexString_eq, List.drop_zero, hp]

/-- C83: when the buffer version of `Script::address` writes a text, so does the `String` version. -/
theorem Script.C83_address (sc : Script) (net : Network) (text : Bytes) (h0 : text ≠ []) (hn : ∀ c ∈ text, c ≠ 0) (hl : text.length < 100)
    (h : sc.address (zeros 100) net = .ok (text ++ zeros (100 - text.length), text.length)) : sc.addressString net = .ok text := by
  unfold Script.addressString
  rw [h, C.bind_ok]
  dsimp only
  rw [if_neg (by simpa using h0)]
  exact stringFrom_text _ _ hn (by omega)

example : hdOne.xpub.head.network ∈ networks ∧ ∃ t, hdOne.xpub.xpubString doubleSha = .ok t :=
  ⟨by decide, _, HDPub.C83_xpub_partial _ _ (HDPriv.xpub_holds holds_hdOne) (by decide)⟩
example : hdOne.fingerprintString = .ok (hexText (fingerprintOf ((1 : Nat) • G))) := (HDPriv.C83_fingerprint hdOne 1 holds_hdOne.sound).1
example : exTx.txidString = .ok (hexText (Spec.hash256 (legacyBytes exTxSpec)).reverse) := (Tx.C83_txid _ _ exTx_holds (by decide)).1
example : ECPoint.generator.secString = .ok (hexText (secOf true G)) := ECPoint.C83_sec _ _ ECPoint.holds_generator
example : ECPoint.generator.xString = .ok (hexText ((rawPoint G).take 32)) := ECPoint.C83_x _ _ ECPoint.holds_generator
example (sc : Script) (hs : sc.Holds (legacyScript .p2sh (zeros 20))) : ∃ t, sc.addressString mainnet = .ok t := by
  obtain ⟨text, e1, e2, -⟩ := C23_legacy_roundtrip sc {} .p2sh 5 (zeros 20) (zeros 100) mainnet (by decide) rfl (by decide) rfl hs (by decide)
  have hl := checkedText_le (5 :: zeros 20) rfl
  have hp := checked_pos 5 (zeros 20) (by decide)
  refine ⟨text, Script.C83_address sc mainnet text ?_ ?_ ?_ e1⟩
  · rw [e2]
    exact List.ne_nil_of_length_pos hp
  · rw [e2]
    exact base58Text_no_nul _
  · rw [e2]
    omega

end UB
