import Verif.Props.Keys

/-
C65 secrets read from streams, C66 signing and verifying with key objects.
-/

namespace UB
open Spec BN

attribute [local irreducible] secpP secpN BN.multiply BN.fastMod BN.mod BN.subtractmod BN.multK BN.addmod BN.inverse BN.lshift BN.subi BN.add
  BN.multHalf BN.cmov BN.isEqual BN.isZero BN.sqrt BN.subtract scalarMultiply pointMultiply CurvePoint.add readBE writeBE BN.addi

/-! ### C65 -/

theorem put_num (num m c : Bytes) (h : num.length = 32) (hm : num.take m.length = m) (hc : m.length + c.length ≤ 32) :
    ∃ q, (if c = [] then C.ok num else store num m.length c) = .ok q ∧ q.length = 32 ∧ q.take (m ++ c).length = m ++ c := by
  by_cases h0 : c = []
  · subst h0
    exact ⟨num, by simp, h, by simpa using hm⟩
  · rw [if_neg h0]
    unfold store
    rw [if_pos (by omega), hm]
    refine ⟨_, rfl, by simp; omega, ?_⟩
    rw [List.take_left]

namespace ECScalar

/-- The object after the bytes `m` have arrived. -/
structure Got (g : ECScalar) (m : Bytes) : Prop where
  status : g.status = .incomplete
  length : g.num.length = 32
  parsed : g.bytesParsed = m.length
  bytes : g.num.take m.length = m

/-- What an object is after 32 bytes: their value modulo the group order; failed if all are zero. -/
def Read (g : ECScalar) (m : Bytes) : Prop :=
  g.status = (if m = zeros 32 then .failed else .done) ∧ g.num = beBytes 32 (beNat m % secpN)

theorem read_part {g : ECScalar} {m : Bytes} (c : Bytes) (h : g.Got m) (hc : m.length + c.length < 32) :
    ∃ g', g.fromStream { bytes := c } = (g', c.length, { bytes := [] }) ∧ g'.Got (m ++ c) := by
  obtain ⟨h1, h2, h3, h4⟩ := h
  obtain ⟨q, q1, q2, q3⟩ := put_num g.num m c h2 h4 (by omega)
  unfold fromStream
  rw [if_neg (by rw [h1]; simp)]
  simp only [h1, reduceCtorEq, if_false]
  unfold PStream.readN
  simp only [Bool.false_eq_true, if_false, List.append_nil, h3]
  rw [List.take_of_length_le (by omega), List.drop_of_length_le (by omega), q1]
  simp only
  rw [if_neg (by omega)]
  exact ⟨_, rfl, rfl, q2, (List.length_append).symm, q3⟩

theorem read_last {g : ECScalar} {m : Bytes} (c rest : Bytes) (h : g.Got m) (hc : m.length + c.length = 32) :
    ∃ g', g.fromStream { bytes := c ++ rest } = (g', c.length, { bytes := rest }) ∧ g'.Read (m ++ c) := by
  obtain ⟨h1, h2, h3, h4⟩ := h
  obtain ⟨q, q1, q2, q3⟩ := put_num g.num m c h2 h4 (by omega)
  have hq : q = m ++ c := by
    rw [List.length_append, hc, List.take_of_length_le (by omega)] at q3
    exact q3
  unfold fromStream
  rw [if_neg (by rw [h1]; simp)]
  simp only [h1, reduceCtorEq, if_false]
  unfold PStream.readN
  simp only [Bool.false_eq_true, if_false, List.append_nil, h3]
  rw [List.take_left' (by omega), List.drop_left' (by omega), q1]
  simp only
  rw [if_pos hc, Scalar.finish_spec q2, hq]
  refine ⟨_, rfl, ?_, rfl⟩
  by_cases he : m ++ c = zeros 32
  · rw [he]; rfl
  · rw [if_neg he]
    dsimp only
    rw [if_pos (by simpa using he)]

/-- Handing the pieces of a byte string to `from_stream` one after the other. -/
def feed : ECScalar → List Bytes → ECScalar
  | g, [] => g
  | g, c :: cs => feed (g.fromStream { bytes := c }).1 cs

theorem start (g : ECScalar) (bs : Bytes) (h : g.status = .done) :
    g.fromStream { bytes := bs } = ({ g with status := .incomplete, bytesParsed := 0 } : ECScalar).fromStream { bytes := bs } := by
  unfold fromStream
  simp [h]

theorem feed_got (g : ECScalar) (m : Bytes) (cs : List Bytes) (h : g.Got m) (hc : ∀ c ∈ cs, c ≠ []) (hm : m.length < 32)
    (hl : m.length + cs.flatten.length = 32) : (feed g cs).Read (m ++ cs.flatten) := by
  induction cs generalizing g m with
  | nil => simp at hl; omega
  | cons c cs ih =>
    simp only [List.flatten_cons, List.length_append] at hl
    unfold feed
    by_cases hcs : cs = []
    · subst hcs
      obtain ⟨g', e, hg⟩ := read_last c [] h (by simpa using hl)
      rw [List.append_nil] at e
      rw [e]
      simpa [feed] using hg
    · have hpos : 0 < cs.flatten.length := by
        obtain ⟨d, ds, rfl⟩ := List.exists_cons_of_ne_nil hcs
        have : 0 < d.length := List.length_pos_iff.mpr (hc d (by simp))
        simp; omega
      obtain ⟨g', e, hg⟩ := read_part c h (by omega)
      rw [e]
      have := ih g' (m ++ c) hg (fun x hx => hc x (by simp [hx])) (by rw [List.length_append]; omega) (by rw [List.length_append]; omega)
      simpa using this

/-- C65: 32 bytes arriving in any pieces give their value modulo the group order; 32 zero bytes are refused. -/
theorem C65_scalar_pieces (g : ECScalar) (m : Bytes) (cs : List Bytes) (hs : g.status = .done) (hn : g.num.length = 32) (hm : m.length = 32)
    (hc : ∀ c ∈ cs, c ≠ []) (hcs : cs.flatten = m) :
    (feed g cs).status = (if m = zeros 32 then .failed else .done) ∧ (feed g cs).num = beBytes 32 (beNat m % secpN) := by
  have h0 : ({ g with status := .incomplete, bytesParsed := 0 } : ECScalar).Got [] := ⟨rfl, hn, rfl, rfl⟩
  have e : feed g cs = feed { g with status := .incomplete, bytesParsed := 0 } cs := by
    cases cs with
    | nil => rw [← hcs] at hm; simp at hm
    | cons c cs => unfold feed; rw [start g _ hs]
  have := feed_got _ [] cs h0 hc (by simp) (by rw [hcs]; simpa using hm)
  rw [← e, List.nil_append, hcs] at this
  exact this

/-- C65: bytes after the 32 stay in the stream. -/
theorem C65_scalar_rest (g : ECScalar) (m rest : Bytes) (hs : g.status = .done) (hn : g.num.length = 32) (hm : m.length = 32) :
    ∃ g', g.fromStream { bytes := m ++ rest } = (g', 32, { bytes := rest }) ∧
      g'.status = (if m = zeros 32 then .failed else .done) ∧ g'.num = beBytes 32 (beNat m % secpN) := by
  have h0 : ({ g with status := .incomplete, bytesParsed := 0 } : ECScalar).Got [] := ⟨rfl, hn, rfl, rfl⟩
  obtain ⟨g', e, hg⟩ := read_last m rest h0 (by simpa using hm)
  rw [start g _ hs, e, hm]
  exact ⟨g', rfl, hg⟩

/-- C65: writing gives the 32 bytes, to a stream of any capacity and from any offset. -/
theorem C65_scalar_toStream (g : ECScalar) (hn : g.num.length = 32) (cap : Option Nat) (off : Nat) : g.toStream cap off = .ok (window cap off g.num) := by
  unfold toStream
  have := Ser.emit_after' cap off [] g.num 32 (by omega) 0 32 rfl rfl
  rw [List.nil_append, List.take_of_length_le (by omega)] at this
  rw [← Ser.after_nil cap off]
  dsimp only
  rw [this]
  rfl

/-- C65, code and claim disagree: the bytes of the group order (a multiple of it that is not zero) are accepted, as the secret zero. -/
theorem C65_order_accepted (g : ECScalar) (hs : g.status = .done) (hn : g.num.length = 32) :
    ∃ g', g.fromStream { bytes := beBytes 32 secpN } = (g', 32, { bytes := [] }) ∧ g'.status = .done ∧ g'.num = zeros 32 := by
  obtain ⟨g', e, h1, h2⟩ := C65_scalar_rest g (beBytes 32 secpN) [] hs hn (Spec.length_beBytes _ _)
  rw [List.append_nil] at e
  refine ⟨g', e, ?_, ?_⟩
  · rw [h1, if_neg]
    unfold secpN; decide +kernel
  · rw [h2, beNat_beBytes32 secpN_lt, Nat.mod_self]
    decide +kernel

example : ∃ (g : ECScalar) (m : Bytes) (cs : List Bytes), g.status = .done ∧ g.num.length = 32 ∧ m.length = 32 ∧ secpN < beNat m ∧
    (∀ c ∈ cs, c ≠ []) ∧ cs.flatten = m ∧ cs.length = 3 := by
  refine ⟨{}, List.replicate 32 0xFF, [List.replicate 5 0xFF, [0xFF], List.replicate 26 0xFF], rfl, by decide, by decide, ?_, by decide, by decide +kernel, rfl⟩
  unfold secpN; decide +kernel

end ECScalar

namespace PrivKey

/-- The object after the bytes `m` have arrived. -/
structure Got (k : PrivKey) (m : Bytes) : Prop where
  status : k.status = .incomplete
  length : k.num.length = 32
  parsed : k.bytesParsed = m.length
  bytes : k.num.take m.length = m

/-- What an object is after 32 bytes: their value modulo the group order with the public key; failed if all are zero. -/
structure Read (k : PrivKey) (m : Bytes) : Prop where
  status : k.status = if m = zeros 32 then .failed else .done
  num : k.num = beBytes 32 (beNat m % secpN)
  pub : k.pubKey.Holds ((beNat m % secpN) • G)

theorem read_part {k : PrivKey} {m : Bytes} (z : BN) (c : Bytes) (h : k.Got m) (hc : m.length + c.length < 32) :
    ∃ k', k.fromStream z { bytes := c } = (k', c.length, { bytes := [] }) ∧ k'.Got (m ++ c) := by
  obtain ⟨h1, h2, h3, h4⟩ := h
  obtain ⟨q, q1, q2, q3⟩ := put_num k.num m c h2 h4 (by omega)
  unfold fromStream
  rw [if_neg (by rw [h1]; simp)]
  simp only [h1, reduceCtorEq, if_false]
  unfold PStream.readN
  simp only [Bool.false_eq_true, if_false, List.append_nil, h3]
  rw [List.take_of_length_le (by omega), List.drop_of_length_le (by omega), q1]
  simp only
  rw [if_neg (by omega)]
  exact ⟨_, rfl, rfl, q2, (List.length_append).symm, q3⟩

theorem read_last {k : PrivKey} {m : Bytes} {z : BN} (c rest : Bytes) (h : k.Got m) (hc : m.length + c.length = 32) (hz : Blind z) :
    ∃ k', k.fromStream z { bytes := c ++ rest } = (k', c.length, { bytes := rest }) ∧ k'.Read (m ++ c) := by
  obtain ⟨h1, h2, h3, h4⟩ := h
  obtain ⟨q, q1, q2, q3⟩ := put_num k.num m c h2 h4 (by omega)
  have hq : q = m ++ c := by
    rw [List.length_append, hc, List.take_of_length_le (by omega)] at q3
    exact q3
  have hlt : beNat (m ++ c) % secpN < secpN := Nat.mod_lt _ pm_order.pr.pos
  have hpub := pubOf_spec (Spec.length_beBytes 32 (beNat (m ++ c) % secpN)) (by rw [beNat_num hlt]; exact hlt) hz
  rw [beNat_num hlt] at hpub
  unfold fromStream
  rw [if_neg (by rw [h1]; simp)]
  simp only [h1, reduceCtorEq, if_false]
  unfold PStream.readN
  simp only [Bool.false_eq_true, if_false, List.append_nil, h3]
  rw [List.take_left' (by omega), List.drop_left' (by omega), q1]
  simp only
  rw [if_pos hc, Scalar.finish_spec q2, hq]
  simp only [hpub]
  refine ⟨_, rfl, ?_, rfl, rfl⟩
  by_cases he : m ++ c = zeros 32
  · rw [he]; rfl
  · rw [if_neg he, if_pos (by simpa using he)]

/-- Handing the pieces of a byte string to `from_stream` one after the other, with the numbers drawn in each call. -/
def feed : PrivKey → List (Bytes × BN) → PrivKey
  | k, [] => k
  | k, c :: cs => feed (k.fromStream c.2 { bytes := c.1 }).1 cs

theorem start (k : PrivKey) (z : BN) (bs : Bytes) (h : k.status = .done) :
    k.fromStream z { bytes := bs } = ({ k with status := .incomplete, bytesParsed := 0 } : PrivKey).fromStream z { bytes := bs } := by
  unfold fromStream
  simp [h]

theorem feed_got (k : PrivKey) (m : Bytes) (cs : List (Bytes × BN)) (h : k.Got m) (hc : ∀ c ∈ cs, c.1 ≠ [] ∧ Blind c.2) (hm : m.length < 32)
    (hl : m.length + (cs.map Prod.fst).flatten.length = 32) : (feed k cs).Read (m ++ (cs.map Prod.fst).flatten) := by
  induction cs generalizing k m with
  | nil => simp at hl; omega
  | cons c cs ih =>
    simp only [List.map_cons, List.flatten_cons, List.length_append] at hl
    unfold feed
    by_cases hcs : cs = []
    · subst hcs
      obtain ⟨k', e, hg⟩ := read_last c.1 [] h (by simpa using hl) (hc c (by simp)).2
      rw [List.append_nil] at e
      rw [e]
      simpa [feed] using hg
    · have hpos : 0 < (cs.map Prod.fst).flatten.length := by
        obtain ⟨d, ds, rfl⟩ := List.exists_cons_of_ne_nil hcs
        have : 0 < d.1.length := List.length_pos_iff.mpr (hc d (by simp)).1
        simp only [List.map_cons, List.flatten_cons, List.length_append]; omega
      obtain ⟨k', e, hg⟩ := read_part c.2 c.1 h (by omega)
      rw [e]
      have := ih k' (m ++ c.1) hg (fun x hx => hc x (by simp [hx])) (by rw [List.length_append]; omega) (by rw [List.length_append]; omega)
      simpa using this

/-- C65: the same for private keys, whose public key then belongs to the secret. -/
theorem C65_key_pieces (k : PrivKey) (m : Bytes) (cs : List (Bytes × BN)) (hs : k.status = .done) (hn : k.num.length = 32) (hm : m.length = 32)
    (hc : ∀ c ∈ cs, c.1 ≠ [] ∧ Blind c.2) (hcs : (cs.map Prod.fst).flatten = m) :
    (feed k cs).status = (if m = zeros 32 then .failed else .done) ∧ (feed k cs).num = beBytes 32 (beNat m % secpN) ∧
      (feed k cs).pubKey.Holds ((beNat m % secpN) • G) := by
  have h0 : ({ k with status := .incomplete, bytesParsed := 0 } : PrivKey).Got [] := ⟨rfl, hn, rfl, rfl⟩
  have e : feed k cs = feed { k with status := .incomplete, bytesParsed := 0 } cs := by
    cases cs with
    | nil => rw [← hcs] at hm; simp at hm
    | cons c cs => unfold feed; rw [start k _ _ hs]
  have := feed_got _ [] cs h0 hc (by simp) (by rw [hcs]; simpa using hm)
  rw [← e, List.nil_append, hcs] at this
  exact ⟨this.status, this.num, this.pub⟩

theorem C65_key_rest (k : PrivKey) (m rest : Bytes) (z : BN) (hs : k.status = .done) (hn : k.num.length = 32) (hm : m.length = 32) (hz : Blind z) :
    ∃ k', k.fromStream z { bytes := m ++ rest } = (k', 32, { bytes := rest }) ∧
      k'.status = (if m = zeros 32 then .failed else .done) ∧ k'.num = beBytes 32 (beNat m % secpN) ∧ k'.pubKey.Holds ((beNat m % secpN) • G) := by
  have h0 : ({ k with status := .incomplete, bytesParsed := 0 } : PrivKey).Got [] := ⟨rfl, hn, rfl, rfl⟩
  obtain ⟨k', e, hg⟩ := read_last m rest h0 (by simpa using hm) hz
  rw [start k _ _ hs, e, hm]
  exact ⟨k', rfl, hg.status, hg.num, hg.pub⟩

/-- C65: the constructor from 32 bytes below the group order … -/
theorem C65_constructor (d : Nat) (z : BN) (c : Bool) (net : Network) (h0 : 0 < d) (hd : d < secpN) (hz : Blind z) :
    ∃ k, ofSecret (beBytes 32 d) z c net = .ok k ∧ k.Holds d ∧ k.pubKey.compressed = c ∧ k.network = net := by
  refine ⟨_, ofSecret_spec (Spec.length_beBytes _ _) (by rw [beNat_num hd]; exact hd) hz c net, ⟨rfl, h0, hd, ?_⟩, rfl, rfl⟩
  show rawPoint _ = _
  rw [beNat_num hd]

/-- … and, code and claim disagree, at or above it: unlike the stream the constructor does not reduce, and fails an assertion. -/
theorem C65_constructor_undefined (secret : Bytes) (z : BN) (c : Bool) (net : Network) (hl : secret.length = 32) (hge : secpN ≤ beNat secret) :
    ofSecret secret z c net = .ub := ofSecret_large hl hge z c net

/-- `setSecret` as well. -/
theorem C65_setSecret (k : PrivKey) (d : Nat) (z : BN) (h0 : 0 < d) (hd : d < secpN) (hz : Blind z) :
    ∃ k', k.setSecret (beBytes 32 d) z = .ok k' ∧ k'.Holds d ∧ k'.network = k.network := by
  unfold setSecret
  rw [pubOf_spec (Spec.length_beBytes _ _) (by rw [beNat_num hd]; exact hd) hz, C.bind_ok, C.pure_eq]
  refine ⟨_, rfl, ⟨rfl, h0, hd, ?_⟩, rfl⟩
  show rawPoint _ = _
  rw [beNat_num hd]

end PrivKey

/-! ### C66 -/

/-- C66: `sign` returns the deterministic low-s ECDSA signature (RFC 6979) … -/
theorem C66_sign_exact (key : PrivKey) (d : Nat) (digest : Bytes) (rnd : Nat → BN × BN) (h : key.Holds d) (hd : digest.length = 32) (hr : Draws rnd) :
    key.sign digest rnd = .ok (match ecdsaDeterministic (beBytes 32 d) digest 10000 with
      | none => {}
      | some t => { r := beBytes 32 t.1, s := beBytes 32 t.2.1, index := UInt8.ofNat t.2.2 }) := by
  unfold PrivKey.sign
  rw [h.num, C51_sign_exact _ digest (Spec.length_beBytes _ _) hd rnd hr, C.bind_ok]
  cases ecdsaDeterministic (beBytes 32 d) digest 10000 with
  | none => rfl
  | some t =>
    simp only [Option.map_some]
    rw [load_lo (Spec.length_beBytes _ _), load_hi (Spec.length_beBytes _ _) (Spec.length_beBytes _ _)]
    rfl

/-- C66: `verify` with a key object accepts exactly the ECDSA signatures (for digests that are not a multiple of the group order). -/
theorem C66_verify_exact (p : ECPoint) (P : Pt) (g : Sig) (digest : Bytes) (z1 z2 : BN) (hp : p.Holds P) (h0 : P ≠ 0) (hr : g.r.length = 32)
    (hs : g.s.length = 32) (hd : digest.length = 32) (h1 : Blind z1) (h2 : Blind z2) :
    ∃ b, p.verify g digest z1 z2 = .ok b ∧ (b = true ↔ EcdsaValid P (beNat digest) (beNat g.r) (beNat g.s) ∧ ¬ secpN ∣ beNat digest) := by
  obtain ⟨v, e, hv⟩ := verify_spec (isSec_secOf (c := p.compressed) h0) (zeros (65 - p.length)) hr hs hd h1 h2
  unfold ECPoint.verify
  have hb : g.bin (zeros 64) = .ok (g.r ++ g.s) := by
    rw [C34_bin g (zeros 64) hr hs, length_zeros, List.take_left' (by simp [hr, hs])]
    simp [zeros]
  have hsec : serialize p.toStream 65 0 .raw = .ok (p.length, secOf p.compressed P ++ zeros (65 - p.length)) := by
    have := ECPoint.sec65 p hp.length
    unfold ECPoint.sec at this
    rw [this, ECPoint.bytes_spec hp]
  rw [hb, C.bind_ok, hsec, C.bind_ok]
  dsimp only
  rw [e, C.bind_ok, C.pure_eq]
  exact ⟨_, rfl, by rw [beq_iff_eq]; exact hv⟩

/-- C66: a signature made by `sign` verifies with the public key in either form, compressed or not. -/
theorem C66_roundtrip (key : PrivKey) (d : Nat) (pub : ECPoint) (digest : Bytes) (g : Sig) (rnd : Nat → BN × BN) (z1 z2 : BN) (h : key.Holds d)
    (hpub : pub.Holds (d • G)) (hd : digest.length = 32) (hnz : ¬ secpN ∣ beNat digest) (hr : Draws rnd) (h1 : Blind z1) (h2 : Blind z2)
    (hs : key.sign digest rnd = .ok g) (hg : g.r ≠ zeros 32) : pub.verify g digest z1 z2 = .ok true := by
  rw [C66_sign_exact key d digest rnd h hd hr] at hs
  cases ht : ecdsaDeterministic (beBytes 32 d) digest 10000 with
  | none =>
    rw [ht] at hs
    cases hs
    exact absurd rfl hg
  | some t =>
    rw [ht] at hs
    cases hs
    obtain ⟨k, k0, k1, k2⟩ := deterministic_some ht
    rw [beNat_num h.lt] at k2
    obtain ⟨a, b, c, e⟩ := ecdsaSign_range k2
    obtain ⟨v, e1, e2⟩ := C66_verify_exact pub (d • G) { r := beBytes 32 t.1, s := beBytes 32 t.2.1, index := UInt8.ofNat t.2.2 } digest z1 z2 hpub h.ne
      (Spec.length_beBytes _ _) (Spec.length_beBytes _ _) hd h1 h2
    dsimp only at e2
    rw [beNat_num b, beNat_num (show t.2.1 < secpN by omega)] at e2
    show ECPoint.verify _ _ _ _ _ = _
    rw [e1, e2.mpr ⟨ecdsaSign_valid k0 k1 k2, hnz⟩]

def vectorSig : Sig where
  r := beBytes 32 0x934b1ea10a4b3c1757e2b0c017d0b6143ce3c9a7e6a4a49860d7a6ab210ee3d8
  s := beBytes 32 0x2442ce9d2b916064108014783e923ec36b49743e2ffa1c4496f01a512aafd9e5
  index := 1

example : ∃ (key : PrivKey) (d : Nat) (pub : ECPoint) (rnd : Nat → BN × BN) (g : Sig), key.Holds d ∧ pub.Holds (d • G) ∧ Draws rnd ∧
    ¬ secpN ∣ beNat vectorDigest ∧ key.sign vectorDigest rnd = .ok g ∧ g.r ≠ zeros 32 := by
  refine ⟨keyOne, 1, ECPoint.generator, _, vectorSig, keyOne_holds, keyOne_holds.pub, draws_one, ?_, ?_, ?_⟩
  · rw [vector_digest]; unfold secpN; decide +kernel
  · unfold PrivKey.sign
    rw [show keyOne.num = beBytes 32 1 from rfl, vector_signature _ draws_one, C.bind_ok]
    dsimp only
    rw [load_lo (Spec.length_beBytes _ _), load_hi (Spec.length_beBytes _ _) (Spec.length_beBytes _ _)]
    rfl
  · decide +kernel

end UB
