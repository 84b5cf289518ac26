import Verif.Props.HDSer

/-
C37 extended public keys and the texts of extended keys.
-/

namespace UB
open Spec BN

attribute [local irreducible] secpP secpN BN.multiply BN.fastMod BN.mod BN.subtractmod BN.multK BN.addmod BN.inverse BN.lshift BN.subi BN.add
  BN.multHalf BN.cmov BN.isEqual BN.isZero BN.sqrt BN.subtract scalarMultiply pointMultiply CurvePoint.add readBE writeBE BN.addi doubleSha Spec.hash256

namespace HDPub

theorem head_len {k : HDPub} {P : Pt} (h : k.Holds P) (hn : k.head.network ∈ networks) :
    (k.head.bytes (pubPrefix k.head.network k.head.type)).length = 45 := HDPriv.headBytes_length h.wf (prefix_len _ hn _).2.1

/-- The 78 bytes of a public key. -/
def whole (k : HDPub) (P : Pt) : Bytes :=
  extended (pubPrefix k.head.network k.head.type) k.head.depth.toNat k.head.fingerprint k.head.childNumber.toNat k.head.chainCode (secOf true P)

theorem whole_eq (k : HDPub) (P : Pt) : k.whole P = k.head.bytes (pubPrefix k.head.network k.head.type) ++ secOf true P := by
  rw [headBytes]; rfl

theorem whole_length {k : HDPub} {P : Pt} (h : k.Holds P) (hn : k.head.network ∈ networks) : (k.whole P).length = 78 := by
  rw [whole_eq, List.length_append, head_len h hn, length_secOf]; rfl

/-- C37: the serialized public key is that of BIP32, to a stream of any capacity and from any offset. -/
theorem C37_pub_toStream (k : HDPub) (P : Pt) (h : k.Holds P) (hn : k.head.network ∈ networks) (cap : Option Nat) (off : Nat) :
    k.toStream cap off = .ok (window cap off (extended (pubPrefix k.head.network k.head.type) k.head.depth.toNat k.head.fingerprint
      k.head.childNumber.toNat k.head.chainCode (secOf true P))) := by
  have hl := whole_length h hn
  unfold toStream
  rw [bytes_eq k P h, ← whole_eq]
  have := Ser.emit_after' cap off [] (k.whole P) 78 (by omega) 0 78 rfl rfl
  rw [List.nil_append, List.take_of_length_le (by omega)] at this
  rw [← Ser.after_nil cap off]
  dsimp only
  rw [C.bind_ok, this]
  rfl

theorem has_point {junk : Bytes} {k : HDPub} {m : Bytes} {P : Pt} (h : Has junk k m) (h0 : P ≠ 0) (hm : m.drop 45 = secOf true P) :
    k.key.status = .done ∧ k.key.Holds P ∧ k.key.compressed = true ∧ k.head.At pubPrefixes m := by
  obtain ⟨k0, q, g, ret, bp, st, rest, c1, c2, c3, c4, rfl⟩ := h
  unfold last
  rw [finish_point (p := { k0.key with point := q }) junk h0 c3 c1 (by rw [← hm]; exact c4)]
  exact ⟨rfl, rfl, c1, c2⟩

theorem has_same {junk : Bytes} {k r : HDPub} {P : Pt} (h : k.Holds P) (hn : k.head.network ∈ networks) (hr : Has junk r (k.whole P)) :
    r.Holds P ∧ r.head.Same k.head := by
  have hd : (k.whole P).drop 45 = secOf true P := by rw [whole_eq, List.drop_left' (head_len h hn)]
  obtain ⟨h1, h2, h3, h4⟩ := has_point hr h.ne hd
  rw [whole_eq] at h4
  obtain ⟨s1, s2⟩ := HDHead.At.same h4 h.wf (prefix_len _ hn _).2.1 (findPrefix_written _ hn _).2
  exact ⟨⟨h1, h2, h3, h.ne, s2⟩, s1⟩

theorem whole_take {k : HDPub} {P : Pt} (hn : k.head.network ∈ networks) :
    ∃ net ∈ networks, ∃ t, (k.whole P).take 4 = pubPrefix net t := by
  refine ⟨_, hn, k.head.type, ?_⟩
  rw [whole, extended]
  simp only [List.append_assoc]
  rw [List.take_left' (prefix_len _ hn _).2.1]

/-- C37: what a public key writes, read in any pieces, gives back the point, the chain code, depth, fingerprint of the parent and child
number, the type as far as it has version bytes, and a network with the same version bytes. -/
theorem C37_pub_roundtrip_partial (k k0 : HDPub) (P : Pt) (junk : Bytes) (cs : List Bytes) (h : k.Holds P) (hn : k.head.network ∈ networks)
    (hs : k0.key.status = .done) (hl : k0.key.point.length = 64) (hc : k0.key.compressed = true) (hw : k0.head.Wf) (hne : ∀ c ∈ cs, c ≠ [])
    (hcs : cs.flatten = k.whole P) : (feed junk k0 cs).Holds P ∧ (feed junk k0 cs).head.Same k.head :=
  has_same h hn ((feed_has junk k0 _ cs hs hl hc hw hne hcs (whole_length h hn)).1 (whole_take hn))

theorem finish_accepts {p r : ECPoint} {junk : Bytes} (hl : p.point.length = 64) (hc : p.compressed = true) (hj : ECPoint.NoPoint ((junk.drop 1).take 32))
    (h : finish junk p = .ok r) (hr : r.status = .done) : ∃ P, P ≠ 0 ∧ p.point.take 33 = secOf true P := by
  match hpt : p.point with
  | [] => rw [hpt] at hl; simp at hl
  | fb :: t =>
    rw [hpt] at hl
    simp only [List.length_cons, Nat.add_right_cancel_iff] at hl
    have htk : (t ++ [0]).take 32 = t.take 32 := List.take_append_of_le_length (by omega)
    rw [finish_eq junk p fb t hc (by omega) hpt] at h
    by_cases h23 : fb = 0x02 ∨ fb = 0x03
    · obtain ⟨P, h0, e⟩ := ECPoint.finish_sound (p := { p with point := t ++ [0] }) (by simp; omega) (by tauto)
        (by rw [hc]; rcases h23 with rfl | rfl <;> decide) hj h hr
      refine ⟨P, h0, ?_⟩
      rw [ECPoint.length, hc] at e
      simp only [if_true] at e
      rw [e, htk]; rfl
    · exfalso
      unfold ECPoint.finish at h
      have hx : load (t ++ [0]) 0 32 = .ok (t.take 32) := by unfold load; rw [if_pos (by simp; omega), List.drop_zero, htk]
      simp only [hc, if_true, hx, C.bind_ok] at h
      unfold uncompressPubkey readPubkey at h
      have he : entry (fb :: t.take 32) 0 = .ok fb := rfl
      rw [he, C.bind_ok] at h
      by_cases h4 : fb = 0x04
      · have l1 : load (fb :: t.take 32) 1 32 = .ok (t.take 32) := by
          unfold load
          rw [if_pos (by simp; omega)]
          simp
        have l2 : load (fb :: t.take 32) 33 32 = .ub := by
          unfold load
          rw [if_neg (by simp)]
        rw [if_pos h4, l1, C.bind_ok, l2] at h
        simp at h
      · rw [if_neg h4, if_neg h23, C.pure_eq, C.bind_ok] at h
        simp only [Bool.false_eq_true, if_false, C.pure_eq, C.bind_ok] at h
        unfold load at h
        split_ifs at h with hlen
        swap
        · simp at h
        simp only [C.bind_ok] at h
        match hv : ECPoint.isValid { p with point := List.take 64 (List.drop 1 junk), status := .done } with
        | .ub => rw [hc] at hv; rw [hv] at h; simp at h
        | .ok false =>
          rw [hc] at hv; rw [hv] at h
          simp only [C.bind_ok, Bool.false_eq_true, if_false, C.ok.injEq] at h
          subst h
          simp at hr
        | .ok true =>
          obtain ⟨P, h0, e⟩ := ECPoint.isValid_sound _ (by simp; omega) rfl hv
          simp only [ECPoint.bytes, hc, ECPoint.length, if_true, secOf, secBytes] at e
          have e2 := (List.cons.inj e).2
          rw [List.take_take] at e2
          exact hj P h0 e2.symm

/-- C37: 78 bytes arriving in any pieces are accepted as a public key exactly if they start with the version bytes of a public key and end
with the compressed encoding of a point; the members then are what the bytes say.  Missing for the full claim: the condition on
`junk`, the uninitialised array in `from_stream`, which cannot be dropped (`C37_invalid_accepted`). -/
theorem C37_pub_pieces_partial (k : HDPub) (cs : List Bytes) (m junk : Bytes) (hs : k.key.status = .done) (hl : k.key.point.length = 64)
    (hc : k.key.compressed = true) (hw : k.head.Wf) (hne : ∀ c ∈ cs, c ≠ []) (hcs : cs.flatten = m) (hm : m.length = 78)
    (hj : ECPoint.NoPoint ((junk.drop 1).take 32)) :
    ((feed junk k cs).key.status = .done ↔ (∃ net ∈ networks, ∃ t, m.take 4 = pubPrefix net t) ∧ ∃ P, P ≠ 0 ∧ m.drop 45 = secOf true P) ∧
    ((feed junk k cs).key.status = .done → (feed junk k cs).head.network ∈ networks ∧
      (feed junk k cs).head.bytes (pubPrefix (feed junk k cs).head.network (feed junk k cs).head.type) = m.take 45 ∧
      (feed junk k cs).head.Wf ∧ ∃ P, P ≠ 0 ∧ m.drop 45 = secOf true P ∧ (feed junk k cs).key.Holds P) := by
  obtain ⟨f1, f2⟩ := feed_has junk k m cs hs hl hc hw hne hcs hm
  generalize feed junk k cs = r at *
  by_cases hv : ∃ net ∈ networks, ∃ t, m.take 4 = pubPrefix net t
  swap
  · have := f2 hv
    rw [this]
    exact ⟨⟨fun h => by simp at h, fun h => absurd h.1 hv⟩, fun h => by simp at h⟩
  have hH := f1 hv
  have key : r.key.status = .done → ∃ P, P ≠ 0 ∧ m.drop 45 = secOf true P := by
    obtain ⟨k0, q, g, ret, bp, st, rest, c1, c2, c3, c4, rfl⟩ := hH
    unfold last
    intro hd
    match hfin : finish junk { k0.key with point := q } with
    | .ub => rw [hfin] at hd; simp at hd
    | .ok kk =>
      rw [hfin] at hd
      rw [← c4]
      exact finish_accepts (p := { k0.key with point := q }) c3 c1 hj hfin hd
  refine ⟨⟨fun h => ⟨hv, key h⟩, fun ⟨_, P, h0, e⟩ => (has_point hH h0 e).1⟩, fun h => ?_⟩
  obtain ⟨P, h0, e⟩ := key h
  obtain ⟨-, p2, -, p4⟩ := has_point hH h0 e
  obtain ⟨r1, r2⟩ := p4.read (by omega)
  obtain ⟨n1, n2, -⟩ := findPrefix_pub r1
  exact ⟨n1, by rw [n2, r2]; rfl, ⟨p4.fpLen, p4.ccLen, p4.preLen⟩, P, h0, e, p2⟩

/-- What `from_stream` does with 78 bytes whose version is known. -/
theorem from_all (junk : Bytes) (k : HDPub) (m rest : Bytes) (hs : k.key.status = .done) (hl : k.key.point.length = 64) (hc : k.key.compressed = true)
    (hw : k.head.Wf) (hm : m.length = 78) (hv : ∃ net ∈ networks, ∃ t, m.take 4 = pubPrefix net t) :
    ∃ g q, HDHead.At pubPrefixes g m ∧ q.length = 64 ∧ q.take 33 = m.drop 45 ∧
      k.fromStream junk { bytes := m ++ rest } =
        last junk { k with key := { k.key with status := .incomplete, bytesParsed := 0 } } g q 78 0 { bytes := m ++ rest } { bytes := rest } := by
  rw [start junk k _ hs]
  have hf : Fine ([] ++ (m ++ rest)) := by
    intro _
    rw [List.nil_append, List.take_append_of_le_length (by omega)]
    obtain ⟨net, hn, t, e⟩ := hv
    rw [e, (findPrefix_written net hn t).2]
    rfl
  obtain ⟨g, q, q1, q2, q3, q4⟩ := (step junk (m ++ rest) (got_start k hl hc hw) (by simp)).2.1 hf (by simp; omega)
  rw [List.nil_append, List.take_left' hm] at q1 q3
  rw [List.length_nil, Nat.sub_zero, List.drop_left' hm] at q4
  exact ⟨g, q, q1, q2, q3, q4⟩

/-- C37, code and claim disagree: if the abscissa belongs to no point and the uninitialised array in `from_stream` happens to hold an encoded
point, the extended key is accepted, with that other point. -/
theorem C37_invalid_accepted (k : HDPub) (Q : Pt) (a x : Bytes) (b : UInt8) (net : Network) (t : HDType) (hs : k.key.status = .done)
    (hl : k.key.point.length = 64) (hc : k.key.compressed = true) (hw : k.head.Wf) (hQ : Q ≠ 0) (hn : net ∈ networks) (ha : a.length = 41)
    (hx : x.length = 32) (hno : ECPoint.NoPoint x) (hb : b = 0x02 ∨ b = 0x03) :
    (k.fromStream (secOf false Q) { bytes := pubPrefix net t ++ a ++ b :: x }).1.key.status = .done ∧
    (k.fromStream (secOf false Q) { bytes := pubPrefix net t ++ a ++ b :: x }).1.key.Holds Q := by
  have hp := (prefix_len net hn t).2.1
  obtain ⟨g, q, q1, q2, q3, q4⟩ := from_all (secOf false Q) k (pubPrefix net t ++ a ++ b :: x) [] hs hl hc hw (by simp; omega)
    ⟨net, hn, t, by rw [List.append_assoc, List.take_left' hp]⟩
  rw [List.append_nil] at q4
  rw [q4]
  rw [List.drop_left' (by simp; omega)] at q3
  match q with
  | [] => simp at q2
  | c :: u =>
    simp only [List.take_succ_cons, List.cons.injEq] at q3
    obtain ⟨rfl, q3⟩ := q3
    unfold last
    dsimp only
    rw [finish_eq (secOf false Q) ⟨.incomplete, 0, c :: u, k.key.compressed⟩ c u hc (by simpa using q2) rfl]
    have hfin : ECPoint.finish (secOf false Q) c { k.key with status := .incomplete, bytesParsed := 0, point := u ++ [0] } =
        .ok { k.key with bytesParsed := 0, point := rawPoint Q, status := .done } := by
      unfold ECPoint.finish
      have hxx : load (u ++ [0]) 0 32 = .ok x := by
        unfold load
        have : u.length = 63 := by simpa using q2
        rw [if_pos (by simp; omega), List.drop_zero, List.take_append_of_le_length (by omega), q3]
      simp only [hc, if_true, hxx, C.bind_ok]
      rw [ECPoint.uncompress_invalid hx hno hb, C.bind_ok]
      have hload : load (secOf false Q) 1 64 = .ok (rawPoint Q) := by
        have := load_mid [0x04] (rawPoint Q) []
        rw [length_rawPoint, List.append_nil] at this
        exact this
      simp only [C.bind_ok, C.pure_eq, hload]
      have hv : ECPoint.isValid { k.key with status := .done, bytesParsed := 0, compressed := true, point := rawPoint Q } = .ok true :=
        ECPoint.isValid_holds (P := Q) rfl hQ rfl
      rw [hv]
      rfl
    dsimp only
    rw [hfin]
    exact ⟨rfl, rfl⟩

/-- C37, code and claim disagree: an extended public key whose key part starts with the byte 4 makes `from_stream` read behind an array of
33 bytes. -/
theorem C37_pub_overread (k : HDPub) (junk a x : Bytes) (net : Network) (t : HDType) (hs : k.key.status = .done) (hl : k.key.point.length = 64)
    (hc : k.key.compressed = true) (hw : k.head.Wf) (hn : net ∈ networks) (ha : a.length = 41) (hx : x.length = 32) :
    (k.fromStream junk { bytes := pubPrefix net t ++ a ++ 0x04 :: x }).1.key.status = .ub := by
  have hp := (prefix_len net hn t).2.1
  obtain ⟨g, q, q1, q2, q3, q4⟩ := from_all junk k (pubPrefix net t ++ a ++ 0x04 :: x) [] hs hl hc hw (by simp; omega)
    ⟨net, hn, t, by rw [List.append_assoc, List.take_left' hp]⟩
  rw [List.append_nil] at q4
  rw [q4]
  rw [List.drop_left' (by simp; omega)] at q3
  unfold last finish
  have l0 : load q 0 33 = .ok (0x04 :: x) := by unfold load; rw [if_pos (by omega), List.drop_zero, q3]
  have hu : uncompressPubkey (0x04 :: x) junk = .ub := by
    unfold uncompressPubkey readPubkey
    have he : entry (0x04 :: x) 0 = .ok 0x04 := rfl
    have l1 : load (0x04 :: x) 1 32 = .ok x := by unfold load; rw [if_pos (by simp; omega)]; simp [← hx]
    have l2 : load (0x04 :: x) 33 32 = .ub := by unfold load; rw [if_neg (by simp; omega)]
    rw [he, C.bind_ok, if_pos rfl, l1, C.bind_ok, l2]
    rfl
  dsimp only
  rw [l0, C.bind_ok, hu]
  rfl

end HDPub

/-! ### Texts -/

theorem text78 (p : Bytes) (hl : p.length = 78) (len : Nat) (hlen : 112 ≤ len) :
    toBase58Check doubleSha p (zeros len) = ((checkedText p).length, checkedText p ++ zeros (len - (checkedText p).length)) := by
  have hfit : toBaseLength base58 (p ++ (Spec.hash256 p).take 4) ≤ 112 := by
    have h1 := countZeros_le (p ++ (Spec.hash256 p).take 4)
    have h2 := checked_length p
    unfold toBaseLength
    have e : base58.encNum = 183 := rfl
    have e' : base58.encDen = 134 := rfl
    rw [e, e']
    omega
  unfold toBase58Check
  rw [doubleSha_at_once _ (by rw [hl]; decide), C04_toBase58_text _ _ (by rw [length_zeros]; omega), length_zeros]
  rfl

/-- The text of an extended key has at most 111 characters. -/
theorem text78_length (p V t : Bytes) (hp : p = V ++ t) (hV : V.length = 4) (hl : t.length = 74) (h0 : V.head? ≠ some 0) (h4 : beValue V ≤ 0x04b24746) :
    (checkedText p).length ≤ 111 := by
  have hc := checked_length p
  rw [show checkedText p = base58Text (p ++ (Spec.hash256 p).take 4) from rfl]
  have hw : p ++ (Spec.hash256 p).take 4 = V ++ (t ++ (Spec.hash256 p).take 4) := by rw [hp, List.append_assoc]
  rw [hw] at hc ⊢
  generalize t ++ (Spec.hash256 p).take 4 = w at *
  rw [hp, List.length_append, List.length_append, hV, hl] at hc
  unfold base58Text numeralText
  rw [List.length_append, List.length_replicate, List.length_map, List.length_reverse]
  have z : leadingZeros (V ++ w) = 0 := by
    match V with
    | [] => simp at hV
    | v :: V =>
      unfold leadingZeros
      rw [List.cons_append, List.takeWhile_cons_of_neg (by simpa using h0)]
      rfl
  rw [z, Nat.zero_add, show (str "123456789ABCDEFGHJKLMNPQRSTUVWXYZabcdefghijkmnopqrstuvwxyz").length = 58 by decide +kernel,
    Nat.digits_length_le_iff (by norm_num), beValue_append]
  have h1 := beValue_lt w
  rw [show w.length = 78 by omega] at h1 ⊢
  have h2 : (0x04b24746 + 1) * 256 ^ 78 ≤ 58 ^ 111 := by decide +kernel
  generalize 256 ^ 78 = X at *
  generalize 58 ^ 111 = Y at *
  have : beValue V * X ≤ 0x04b24746 * X := Nat.mul_le_mul_right _ h4
  omega

theorem checked_pos (v : UInt8) (t : Bytes) (hv : v ≠ 0) : 0 < (checkedText (v :: t)).length := by
  have hpos : beValue (v :: t ++ (Spec.hash256 (v :: t)).take 4) ≠ 0 := by
    rw [List.cons_append, beValue_cons]
    have : 0 < v.toNat := Nat.pos_of_ne_zero fun h => hv (UInt8.toNat_inj.mp h)
    have := Nat.mul_pos this (Nat.pow_pos (n := (t ++ (Spec.hash256 (v :: t)).take 4).length) (show 0 < 256 by norm_num))
    omega
  rw [show checkedText (v :: t) = base58Text (v :: t ++ (Spec.hash256 (v :: t)).take 4) from rfl]
  unfold base58Text numeralText
  rw [List.length_append, List.length_map, List.length_reverse]
  have := List.length_pos_of_ne_nil (Nat.digits_ne_nil_iff_ne_zero (b := (str "123456789ABCDEFGHJKLMNPQRSTUVWXYZabcdefghijkmnopqrstuvwxyz").length).mpr hpos)
  omega

/-- Reading a text with a correct checksum: the payload is filled up with zeros to 85 bytes. -/
theorem HDPriv.fromStr_payload (k : HDPriv) (v : UInt8) (t : Bytes) (z : BN) (hv : v ≠ 0) (hl : t.length + 1 ≤ 85) :
    k.fromStr doubleSha (checkedText (v :: t)) z =
      ((k.init.fromStream z { bytes := (v :: t) ++ zeros (85 - (t.length + 1)) }).1, (checkedText (v :: t)).length) := by
  unfold fromStr
  rw [checked_decode v t 85 hv (by omega) hl]
  dsimp only
  rw [if_neg (by omega)]

theorem HDPub.fromStr_payload (k : HDPub) (junk : Bytes) (v : UInt8) (t : Bytes) (hv : v ≠ 0) (hl : t.length + 1 ≤ 85) :
    k.fromStr doubleSha junk (checkedText (v :: t)) =
      ((k.fromStream junk { bytes := (v :: t) ++ zeros (85 - (t.length + 1)) }).1, (checkedText (v :: t)).length) := by
  unfold fromStr
  rw [checked_decode v t 85 hv (by omega) hl]
  dsimp only
  rw [if_neg (by omega)]

namespace HDPriv

/-- What reading 78 bytes at once gives. -/
theorem from_all (k : HDPriv) (m rest : Bytes) {z : BN} (hz : Blind z) (hs : k.status = .done) (hn : k.num.length = 32) (hw : k.head.Wf)
    (hm : m.length = 78) (hf : Fine m) : ∃ k', k.fromStream z { bytes := m ++ rest } = (k', 78, { bytes := rest }) ∧ k'.Has m := by
  rw [start z k _ hs]
  have hf' : Fine ([] ++ (m ++ rest)) := by
    refine ⟨fun _ => ?_, fun _ => ?_⟩
    · rw [List.nil_append, List.take_append_of_le_length (by omega)]
      exact hf.1 (by omega)
    · rw [List.nil_append, List.getElem?_append_left (by omega)]
      exact hf.2 (by omega)
  obtain ⟨k', e, -, h⟩ := (step (m ++ rest) hz (got_start k hn hw) (by simp)).1 hf'
  rw [List.length_nil, Nat.sub_zero, List.take_left' hm, List.drop_left' hm, hm] at e
  rw [List.nil_append, List.take_left' hm] at h
  exact ⟨k', e, h (by simp; omega)⟩

theorem init_ok (k : HDPriv) (hw : k.head.Wf) : k.init.status = .done ∧ k.init.num.length = 32 ∧ k.init.head.Wf :=
  ⟨rfl, rfl, rfl, rfl, hw.pre⟩

theorem bytes_fine (k : HDPriv) (d : Nat) (h : k.Holds d) (hn : k.head.network ∈ networks) : Fine k.bytes := by
  rw [fine_iff (bytes_length k d h hn)]
  have hv := (prefix_len _ hn k.head.type).1
  refine ⟨⟨_, hn, k.head.type, ?_⟩, ?_⟩
  · unfold bytes HDHead.bytes
    simp only [List.append_assoc]
    rw [List.take_left' hv]
  · unfold bytes
    rw [List.append_assoc, List.getElem?_append_right (by rw [headBytes_length h.wf hv]), headBytes_length h.wf hv]
    rfl

theorem bytes_split (k : HDPriv) (d : Nat) (h : k.Holds d) (hn : k.head.network ∈ networks) :
    (∃ t, k.bytes = prvPrefix k.head.network k.head.type ++ t ∧ t.length = 74) ∧ ∃ v t, k.bytes = v :: t ∧ t.length = 77 ∧ v ≠ 0 := by
  have hl := bytes_length k d h hn
  obtain ⟨h1, -, h2, -⟩ := prefix_len k.head.network hn k.head.type
  have e : ∃ t, k.bytes = prvPrefix k.head.network k.head.type ++ t ∧ t.length = 74 := by
    have : ∃ t, k.bytes = prvPrefix k.head.network k.head.type ++ t := by
      unfold bytes HDHead.bytes
      simp only [List.append_assoc]
      exact ⟨_, rfl⟩
    obtain ⟨t, e⟩ := this
    rw [e, List.length_append] at hl
    exact ⟨t, e, by omega⟩
  refine ⟨e, ?_⟩
  obtain ⟨t, e, -⟩ := e
  match hV : prvPrefix k.head.network k.head.type with
  | [] => rw [hV] at h1; simp at h1
  | v :: V =>
    rw [hV] at e h2
    exact ⟨v, V ++ t, e, by rw [e] at hl; simpa using hl, by simpa using h2⟩

/-- C37: the text of a private key is Base58Check of the BIP32 serialization, of at most 111 characters. -/
theorem C37_xprv_text (k : HDPriv) (d len : Nat) (h : k.Holds d) (hn : k.head.network ∈ networks) (hlen : 112 ≤ len) :
    ∃ text, text = checkedText (extended (prvPrefix k.head.network k.head.type) k.head.depth.toNat k.head.fingerprint k.head.childNumber.toNat
        k.head.chainCode (0 :: beBytes 32 d)) ∧
      k.xprv doubleSha (zeros len) = (text.length, text ++ zeros (len - text.length)) ∧ text.length ≤ 111 := by
  obtain ⟨⟨t, e, e1⟩, -⟩ := bytes_split k d h hn
  obtain ⟨h1, -, h2, -, h3, -⟩ := prefix_len k.head.network hn k.head.type
  refine ⟨_, rfl, ?_, ?_⟩
  · rw [← bytes_eq k d h]
    exact text78 _ (bytes_length k d h hn) len hlen
  · rw [← bytes_eq k d h]
    exact text78_length _ _ t e h1 e1 h2 h3

/-- C37: parsing the text of a private key gives back the key. -/
theorem C37_xprv_roundtrip_partial (k k0 : HDPriv) (d len : Nat) (z : BN) (h : k.Holds d) (hn : k.head.network ∈ networks) (hlen : 112 ≤ len) (hz : Blind z)
    (hw : k0.head.Wf) :
    ∃ k' n, k0.fromStr doubleSha ((k.xprv doubleSha (zeros len)).2.take (k.xprv doubleSha (zeros len)).1) z = (k', n) ∧ 0 < n ∧ k'.Holds d ∧
      k'.head.Same k.head := by
  obtain ⟨-, v, t, e, e1, e2⟩ := bytes_split k d h hn
  obtain ⟨i1, i2, i3⟩ := init_ok k0 hw
  obtain ⟨k', s1, s2⟩ := from_all k0.init k.bytes (zeros 7) hz i1 i2 i3 (bytes_length k d h hn) (bytes_fine k d h hn)
  obtain ⟨s3, s4⟩ := has_roundtrip k k' d h hn s2
  unfold xprv
  rw [text78 _ (bytes_length k d h hn) len hlen]
  dsimp only
  rw [List.take_left, e, fromStr_payload k0 v t z e2 (by omega), e1, ← e, s1]
  exact ⟨k', _, rfl, e ▸ checked_pos v t e2, s3, s4⟩

/-- C37, code and claim disagree: the types P2PKH, P2SH and MULTISIG (and DIRECT_SCRIPT) are not kept; the text is that of a key of unknown
type. -/
theorem C37_type_lost (k k0 : HDPriv) (d len : Nat) (z : BN) (h : k.Holds d) (hn : k.head.network ∈ networks) (hlen : 112 ≤ len) (hz : Blind z)
    (hw : k0.head.Wf) (ht : k.head.type = .p2pkh ∨ k.head.type = .p2sh ∨ k.head.type = .multisig ∨ k.head.type = .directScript) :
    (k0.fromStr doubleSha ((k.xprv doubleSha (zeros len)).2.take (k.xprv doubleSha (zeros len)).1) z).1.head.type = .unknown := by
  obtain ⟨k', n, e, -, -, hs⟩ := C37_xprv_roundtrip_partial k k0 d len z h hn hlen hz hw
  rw [e]
  show k'.head.type = .unknown
  rw [hs.type]
  rcases ht with ht | ht | ht | ht <;> rw [ht] <;> rfl

/-- C37: a text that is accepted has a correct checksum. -/
theorem C37_xprv_checksum (k : HDPriv) (text : Bytes) (z : BN) (h : (k.fromStr doubleSha text z).2 ≠ 0) :
    ∃ p : Bytes, p.length ≤ 85 ∧ fromBase58 text (zeros 89) = (p.length + 4, p ++ (doubleSha p).take 4 ++ zeros (85 - p.length)) ∧
      (k.fromStr doubleSha text z).1 = (k.init.fromStream z { bytes := p ++ zeros (85 - p.length) }).1 := by
  unfold fromStr at h ⊢
  by_cases h0 : (fromBase58Check doubleSha text (zeros 85)).1 = 0
  · dsimp only at h
    rw [if_pos h0] at h
    exact absurd rfl h
  obtain ⟨p, h1, h2, h3⟩ := C06_accept_sound doubleSha text (zeros 85) h0
  refine ⟨p, by simpa using h2, by simpa using h1, ?_⟩
  dsimp only
  rw [if_neg h0, h3, show (zeros 85).drop p.length = zeros (85 - p.length) from List.drop_replicate]

/-- C37: a text without a correct checksum gives return value 0 and an object with the secret zero (its status is PARSING_DONE). -/
theorem C37_xprv_refused (k : HDPriv) (text : Bytes) (z : BN) (h : (fromBase58Check doubleSha text (zeros 85)).1 = 0) :
    k.fromStr doubleSha text z = (k.init, 0) ∧ k.init.num = zeros 32 ∧ k.init.status = .done := by
  unfold fromStr
  dsimp only
  rw [if_pos h]
  exact ⟨rfl, rfl, rfl⟩

/-- C37, code and claim disagree: the length of the payload is not looked at.  A text with a correct checksum and 47 to 85 bytes is
accepted: missing bytes of the secret are zeros, bytes after the 78th are ignored. -/
theorem C37_length_ignored (k : HDPriv) (net : Network) (t : HDType) (a s : Bytes) (z : BN) (hz : Blind z) (hw : k.head.Wf) (hn : net ∈ networks)
    (ha : a.length = 41) (hs : s.length ≤ 39) (h0 : (s ++ zeros (39 - s.length)).take 32 ≠ zeros 32) :
    (k.fromStr doubleSha (checkedText (prvPrefix net t ++ a ++ 0 :: s)) z).2 ≠ 0 ∧
    (k.fromStr doubleSha (checkedText (prvPrefix net t ++ a ++ 0 :: s)) z).1.status = .done ∧
    (k.fromStr doubleSha (checkedText (prvPrefix net t ++ a ++ 0 :: s)) z).1.num = beBytes 32 (beNat ((s ++ zeros (39 - s.length)).take 32) % secpN) := by
  obtain ⟨h1, -, h2, -⟩ := prefix_len net hn t
  obtain ⟨i1, i2, i3⟩ := init_ok k hw
  match hV : prvPrefix net t with
  | [] => rw [hV] at h1; simp at h1
  | v :: V =>
    rw [hV] at h1 h2
    have hv : v ≠ 0 := by simpa using h2
    have hV3 : V.length = 3 := by simpa using h1
    rw [List.cons_append, List.cons_append, fromStr_payload k v _ z hv (by simp; omega)]
    have hsl : (s ++ zeros (39 - s.length)).length = 39 := by simp; omega
    obtain ⟨m, rest, em, ev, ed, el⟩ : ∃ m rest, v :: (V ++ a ++ 0 :: s) ++ zeros (85 - ((V ++ a ++ 0 :: s).length + 1)) = m ++ rest ∧
        m = (v :: V) ++ a ++ 0 :: (s ++ zeros (39 - s.length)).take 32 ∧ m.drop 46 = (s ++ zeros (39 - s.length)).take 32 ∧ m.length = 78 := by
      refine ⟨(v :: V) ++ a ++ 0 :: (s ++ zeros (39 - s.length)).take 32, (s ++ zeros (39 - s.length)).drop 32, ?_, rfl, ?_, ?_⟩
      · rw [show 85 - ((V ++ a ++ 0 :: s).length + 1) = 39 - s.length by simp; omega]
        simp only [List.cons_append, List.append_assoc, List.take_append_drop]
      · rw [show (v :: V) ++ a ++ 0 :: (s ++ zeros (39 - s.length)).take 32 = ((v :: V) ++ a ++ [0]) ++ (s ++ zeros (39 - s.length)).take 32 by simp,
          List.drop_left' (by simp; omega)]
      · simp; omega
    have hf : Fine m := by
      rw [fine_iff el]
      refine ⟨⟨net, hn, t, ?_⟩, ?_⟩
      · rw [ev, List.append_assoc, List.take_left' (by simpa using hV3), hV]
      · rw [ev, List.getElem?_append_right (by simp; omega), show 45 - (v :: V ++ a).length = 0 by simp; omega]
        rfl
    obtain ⟨k', s1, s2⟩ := from_all k.init m rest hz i1 i2 i3 el hf
    rw [em, s1]
    refine ⟨Nat.pos_iff_ne_zero.mp (checked_pos v _ hv), ?_, ?_⟩
    · show k'.status = _
      rw [s2.status, ed, if_neg h0]
    · show k'.num = _
      rw [s2.num, ed]

end HDPriv

namespace HDPub

theorem whole_split {k : HDPub} {P : Pt} (h : k.Holds P) (hn : k.head.network ∈ networks) :
    (∃ t, k.whole P = pubPrefix k.head.network k.head.type ++ t ∧ t.length = 74) ∧ ∃ v t, k.whole P = v :: t ∧ t.length = 77 ∧ v ≠ 0 := by
  have hl := whole_length h hn
  obtain ⟨-, h1, -, h2, -⟩ := prefix_len k.head.network hn k.head.type
  have e : ∃ t, k.whole P = pubPrefix k.head.network k.head.type ++ t ∧ t.length = 74 := by
    have : ∃ t, k.whole P = pubPrefix k.head.network k.head.type ++ t := by
      unfold whole extended
      simp only [List.append_assoc]
      exact ⟨_, rfl⟩
    obtain ⟨t, e⟩ := this
    rw [e, List.length_append] at hl
    exact ⟨t, e, by omega⟩
  refine ⟨e, ?_⟩
  obtain ⟨t, e, -⟩ := e
  match hV : pubPrefix k.head.network k.head.type with
  | [] => rw [hV] at h1; simp at h1
  | v :: V =>
    rw [hV] at e h2
    exact ⟨v, V ++ t, e, by rw [e] at hl; simpa using hl, by simpa using h2⟩

/-- C37: the text of a public key is Base58Check of the BIP32 serialization, of at most 111 characters. -/
theorem C37_xpub_text (k : HDPub) (P : Pt) (len : Nat) (h : k.Holds P) (hn : k.head.network ∈ networks) (hlen : 112 ≤ len) :
    ∃ text, text = checkedText (extended (pubPrefix k.head.network k.head.type) k.head.depth.toNat k.head.fingerprint k.head.childNumber.toNat
        k.head.chainCode (secOf true P)) ∧
      k.xpub doubleSha (zeros len) = .ok (text.length, text ++ zeros (len - text.length)) ∧ text.length ≤ 111 := by
  obtain ⟨⟨t, e, e1⟩, -⟩ := whole_split h hn
  obtain ⟨-, h1, -, h2, -, h3⟩ := prefix_len k.head.network hn k.head.type
  refine ⟨checkedText (k.whole P), rfl, ?_, ?_⟩
  · unfold xpub
    rw [bytes_eq k P h, ← whole_eq, C.bind_ok, C.pure_eq, text78 _ (whole_length h hn) len hlen]
  · exact text78_length _ _ t e h1 e1 h2 h3

/-- C37: parsing the text of a public key gives back the key. -/
theorem C37_xpub_roundtrip_partial (k k0 : HDPub) (P : Pt) (junk : Bytes) (h : k.Holds P) (hn : k.head.network ∈ networks)
    (hs : k0.key.status = .done) (hl : k0.key.point.length = 64) (hc : k0.key.compressed = true) (hw : k0.head.Wf) :
    ∃ k' n, k0.fromStr doubleSha junk (checkedText (k.whole P)) = (k', n) ∧ 0 < n ∧ k'.Holds P ∧ k'.head.Same k.head := by
  obtain ⟨-, v, t, e, e1, e2⟩ := whole_split h hn
  obtain ⟨g, q, q1, q2, q3, q4⟩ := from_all junk k0 (k.whole P) (zeros 7) hs hl hc hw (whole_length h hn) (whole_take hn)
  have hh : Has junk (k0.fromStream junk { bytes := k.whole P ++ zeros 7 }).1 (k.whole P) := 
    ⟨{ k0 with key := { k0.key with status := .incomplete, bytesParsed := 0 } }, q, g, 78, 0, _, _, hc, q1, q2, q3, by rw [q4]⟩
  obtain ⟨s1, s2⟩ := has_same h hn hh
  rw [e, fromStr_payload k0 junk v t e2 (by omega), e1, ← e]
  exact ⟨_, _, rfl, e ▸ checked_pos v t e2, s1, s2⟩

/-- C37: a text that is accepted has a correct checksum. -/
theorem C37_xpub_checksum (k : HDPub) (junk text : Bytes) (h : (k.fromStr doubleSha junk text).2 ≠ 0) :
    ∃ p : Bytes, p.length ≤ 85 ∧ fromBase58 text (zeros 89) = (p.length + 4, p ++ (doubleSha p).take 4 ++ zeros (85 - p.length)) ∧
      (k.fromStr doubleSha junk text).1 = (k.fromStream junk { bytes := p ++ zeros (85 - p.length) }).1 := by
  unfold fromStr at h ⊢
  by_cases h0 : (fromBase58Check doubleSha text (zeros 85)).1 = 0
  · dsimp only at h
    rw [if_pos h0] at h
    exact absurd rfl h
  obtain ⟨p, h1, h2, h3⟩ := C06_accept_sound doubleSha text (zeros 85) h0
  refine ⟨p, by simpa using h2, by simpa using h1, ?_⟩
  dsimp only
  rw [if_neg h0, h3, show (zeros 85).drop p.length = zeros (85 - p.length) from List.drop_replicate]

/-- C37: a text without a correct checksum gives return value 0 and leaves the object as it was. -/
theorem C37_xpub_refused (k : HDPub) (junk text : Bytes) (h : (fromBase58Check doubleSha text (zeros 85)).1 = 0) :
    k.fromStr doubleSha junk text = (k, 0) := by
  unfold fromStr
  dsimp only
  rw [if_pos h]

end HDPub

/-! ### The public part of a private key -/

theorem HDPriv.publicKey_holds {k : HDPriv} {d : Nat} (h : k.Holds d) : k.publicKey.Holds (d • G) ∧ k.publicKey.compressed = true := ⟨h.pub, rfl⟩

theorem HDPriv.xpub_holds {k : HDPriv} {d : Nat} (h : k.Holds d) : k.xpub.Holds (d • G) :=
  ⟨rfl, h.pub, rfl, smul_ne_zero_of (cast_ne h.pos h.lt) G_ne_zero, h.wf.fingerprint, h.wf.chainCode, rfl⟩

/-- C37: `xpub()` and `xpub(arr, len)` of a private key give the same text, that of the public key with the same members. -/
theorem HDPriv.C37_xpub_of_private (k : HDPriv) (d : Nat) (arr : Bytes) (h : k.Holds d) : k.xpubText doubleSha arr = k.xpub.xpub doubleSha arr := by
  unfold xpubText HDPub.xpub
  rw [ECPoint.C36_sec _ _ (publicKey_holds h).1 65, C.bind_ok]
  dsimp only
  rw [HDPub.bytes_eq k.xpub _ (xpub_holds h), C.bind_ok]
  have h33 : k.publicKey.length = 33 := rfl
  have hs : secOf k.publicKey.compressed (d • G) = secOf true (d • G) := rfl
  rw [h33, hs, List.take_of_length_le (i := 65) (by rw [length_secOf]; decide), List.take_left' (by rw [length_secOf]; rfl)]
  rfl

/-- The hypotheses of the theorems on extended keys are met by this key with the secret 1. -/
def hdOne : HDPriv := { num := beBytes 32 1, pubKey := ECPoint.generator, head := { depth := 3, childNumber := 7, network := testnet, type := .p2wpkh } }

theorem holds_hdOne : hdOne.Holds 1 :=
  ⟨rfl, rfl, by decide, by unfold secpN; decide +kernel, by rw [one_nsmul]; exact ECPoint.holds_generator, ⟨rfl, rfl, rfl⟩⟩

example : ∃ text, hdOne.xprv doubleSha (zeros 112) = (text.length, text ++ zeros (112 - text.length)) ∧ text.length ≤ 111 := by
  obtain ⟨t, -, h, h'⟩ := HDPriv.C37_xprv_text hdOne 1 112 holds_hdOne (by decide) (by decide)
  exact ⟨t, h, h'⟩

example : ∃ k n, ({} : HDPriv).fromStr doubleSha ((hdOne.xprv doubleSha (zeros 112)).2.take (hdOne.xprv doubleSha (zeros 112)).1) BN.one = (k, n) ∧ 0 < n ∧
    k.Holds 1 ∧ k.head.type = .p2wpkh ∧ k.head.network = testnet := by
  obtain ⟨k, n, e, h1, h2, h3⟩ := HDPriv.C37_xprv_roundtrip_partial hdOne {} 1 112 _ holds_hdOne (by decide) (by decide) blind_one ⟨rfl, rfl, rfl⟩
  exact ⟨k, n, e, h1, h2, h3.type, h3.network⟩

example : ∃ k n, ({} : HDPub).fromStr doubleSha [] (checkedText (hdOne.xpub.whole ((1 : Nat) • G))) = (k, n) ∧ 0 < n ∧ k.Holds ((1 : Nat) • G) := by
  obtain ⟨k, n, e, h1, h2, -⟩ := HDPub.C37_xpub_roundtrip_partial hdOne.xpub {} _ [] (HDPriv.xpub_holds holds_hdOne) (by decide) rfl rfl rfl ⟨rfl, rfl, rfl⟩
  exact ⟨k, n, e, h1, h2⟩

end UB
