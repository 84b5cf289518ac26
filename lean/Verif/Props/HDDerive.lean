import Verif.Props.HDText
import Verif.Props.HDPath
import Verif.Props.Script

/-
C39 and C40: child keys.  C67 and C68: master keys.
-/

namespace UB
open Spec BN

attribute [local irreducible] secpP secpN BN.multiply BN.fastMod BN.mod BN.subtractmod BN.multK BN.addmod BN.inverse BN.lshift BN.subi BN.add
  BN.multHalf BN.cmov BN.isEqual BN.isZero BN.sqrt BN.subtract scalarMultiply pointMultiply CurvePoint.add readBE writeBE BN.addi doubleSha Spec.hash256
  hmac512 hmacSha512 hash160 Spec.hash160

/-- Like `HDPriv.Holds`, but the secret can be zero. -/
structure HDPriv.Sound (k : HDPriv) (d : Nat) : Prop where
  num : k.num = beBytes 32 d
  lt : d < secpN
  pub : k.pubKey.Holds (d • G)
  chainCode : k.head.chainCode.length = 32

theorem HDPriv.Holds.sound {k : HDPriv} {d : Nat} (h : k.Holds d) : k.Sound d := ⟨h.num, h.lt, h.pub, h.wf.chainCode⟩

/-- The index of the child: `hardened` adds 2^31 if it is smaller. -/
def childIndex (index : UInt32) (hardened : Bool) : UInt32 :=
  if hardened = true ∧ index.toNat < 2 ^ 31 then UInt32.ofNat (index.toNat + 2 ^ 31) else index

theorem lt_hardened (i : UInt32) : (i < hardenedIndex ↔ i.toNat < 2 ^ 31) ∧ (hardenedIndex ≤ i ↔ 2 ^ 31 ≤ i.toNat) := ⟨Iff.rfl, Iff.rfl⟩

theorem childIndex_eq (index : UInt32) (hardened : Bool) :
    (if (hardened || decide (hardenedIndex ≤ index)) && decide (index < hardenedIndex) then index + hardenedIndex else index) = childIndex index hardened := by
  unfold childIndex
  obtain ⟨h1, h2⟩ := lt_hardened index
  by_cases h : index.toNat < 2 ^ 31
  · have e1 : decide (index < hardenedIndex) = true := decide_eq_true (h1.mpr h)
    have e2 : decide (hardenedIndex ≤ index) = false := decide_eq_false fun hh => by have := h2.mp hh; omega
    rw [e1, e2, Bool.or_false, Bool.and_true]
    cases hardened
    · simp
    · rw [if_pos rfl, if_pos ⟨rfl, h⟩, UInt32.ofNat_add, UInt32.ofNat_toNat]
      rfl
  · have e1 : decide (index < hardenedIndex) = false := decide_eq_false fun hh => h (h1.mp hh)
    rw [e1, Bool.and_false, if_neg (by decide), if_neg fun hh => h hh.2]

theorem hardened_eq (index : UInt32) (hardened : Bool) :
    (hardened || decide (hardenedIndex ≤ index)) = decide (2 ^ 31 ≤ (childIndex index hardened).toNat) := by
  unfold childIndex
  obtain ⟨h1, h2⟩ := lt_hardened index
  have := index.toNat_lt
  by_cases h : index.toNat < 2 ^ 31
  · have e2 : decide (hardenedIndex ≤ index) = false := decide_eq_false fun hh => by have := h2.mp hh; omega
    rw [e2, Bool.or_false]
    cases hardened
    · simp; omega
    · rw [if_pos ⟨rfl, h⟩, UInt32.toNat_ofNat', Nat.mod_eq_of_lt (by omega)]
      simp
  · rw [if_neg fun hh => h hh.2]
    have e2 : decide (hardenedIndex ≤ index) = true := decide_eq_true (h2.mpr (by omega))
    rw [e2, Bool.or_true]
    exact (decide_eq_true (by omega)).symm

theorem load_eq {b : Bytes} {o n : Nat} (h : o + n ≤ b.length) : load b o n = .ok ((b.drop o).take n) := by
  unfold load
  rw [if_pos h]

theorem scalar_parse {m : Bytes} (h : m.length = 32) : (({} : ECScalar).fromStream { bytes := m }).1.num = beBytes 32 (beNat m % secpN) := by
  obtain ⟨g, e, -, h2⟩ := ECScalar.C65_scalar_rest {} m [] rfl rfl h
  rw [List.append_nil] at e
  rw [e]
  exact h2

theorem sum_mod (a d : Nat) : ((((a % secpN : Nat) : Fn)) + (d : Fn)).val = (a + d) % secpN := by
  rw [ZMod.natCast_mod, ← Nat.cast_add, ZMod.val_natCast]

/-- The members of the child of a private key. -/
def HDPriv.childHead (k : HDPriv) (d : Nat) (i : UInt32) : HDHead where
  network := if 2 ^ 31 ≤ i.toNat then childNetwork k.head.network k.head.depth i else k.head.network
  type := if 2 ^ 31 ≤ i.toNat then childType k.head.type k.head.depth i else k.head.type
  depth := k.head.depth + 1
  fingerprint := fingerprintOf (d • G)
  childNumber := i
  chainCode := (childHash d k.head.chainCode i.toNat).drop 32

theorem length_childHash (d : Nat) (c : Bytes) (i : Nat) : (childHash d c i).length = 64 := length_hmacSha512 _ _

/-- What `child` gives. -/
theorem HDPriv.child_eq {k : HDPriv} {d : Nat} (h : k.Sound d) (index : UInt32) (hardened : Bool) {z : BN} (hz : Blind z) :
    ∃ s, s = (beNat ((childHash d k.head.chainCode (childIndex index hardened).toNat).take 32) + d) % secpN ∧
      k.child index hardened z = .ok { num := beBytes 32 s, pubKey := { point := rawPoint (s • G) }, head := k.childHead d (childIndex index hardened) } := by
  refine ⟨_, rfl, ?_⟩
  unfold child
  have hp : k.publicKey.Holds (d • G) := h.pub
  rw [ECPoint.C36_sec _ _ hp 65, C.bind_ok]
  dsimp only
  have h33 : k.publicKey.length = 33 := rfl
  have hs : secOf k.publicKey.compressed (d • G) = secOf true (d • G) := rfl
  have hl : (secOf true (d • G)).length = 33 := length_secOf _ _
  rw [h33, hs, List.take_of_length_le (i := 65) (by omega), List.take_left' (by omega), List.take_left' (by omega), childIndex_eq, hardened_eq]
  generalize hi : childIndex index hardened = i
  have hdata : (if decide (2 ^ 31 ≤ i.toNat) = true then 0 :: k.num else secOf true (d • G)) ++ be32 i =
      (if 2 ^ 31 ≤ i.toNat then 0 :: beBytes 32 d ++ beBytes 4 i.toNat else secOf true (d • G) ++ beBytes 4 i.toNat) := by
    rw [h.num, be32_spec]
    by_cases hh : 2 ^ 31 ≤ i.toNat
    · rw [if_pos hh, if_pos (decide_eq_true hh)]
    · rw [if_neg hh, if_neg (by simpa using hh)]
  have hc := h.chainCode
  rw [hdata, hmac512_spec _ _ (by omega) (by
    simp only [List.flatten_cons, List.flatten_nil, List.append_nil]
    split <;> simp [Spec.length_beBytes, hl])]
  rw [List.flatten_cons, List.flatten_nil, List.append_nil]
  have hI : hmacSha512 k.head.chainCode (if 2 ^ 31 ≤ i.toNat then 0 :: beBytes 32 d ++ beBytes 4 i.toNat else secOf true (d • G) ++ beBytes 4 i.toNat) =
      childHash d k.head.chainCode i.toNat := rfl
  rw [hI]
  have hl64 := length_childHash d k.head.chainCode i.toNat
  have hf : (hash160 (secOf true (d • G))).take 4 = fingerprintOf (d • G) := by
    rw [hash160_eq _ (by omega)]; rfl
  rw [hf, load_eq (by omega), C.bind_ok, load_eq (by omega), C.bind_ok, List.drop_zero]
  generalize hII : childHash d k.head.chainCode i.toNat = I at *
  have hI32 : (I.take 32).length = 32 := by rw [List.length_take]; omega
  rw [scalar_parse hI32, h.num, Scalar.add_spec (Spec.length_beBytes _ _) (Spec.length_beBytes _ _), beNat_num (Nat.mod_lt _ secpN_pos'), beNat_num h.lt,
    sum_mod]
  have hlt : (beNat (I.take 32) + d) % secpN < secpN := Nat.mod_lt _ secpN_pos'
  rw [pubOf_spec (Spec.length_beBytes _ _) (by rw [beNat_num hlt]; exact hlt) hz, beNat_num hlt, C.bind_ok, C.pure_eq]
  rw [List.take_of_length_le (i := 32) (l := I.drop 32) (by rw [List.length_drop]; omega)]
  unfold childHead
  rw [hII]
  by_cases hh : 2 ^ 31 ≤ i.toNat
  · rw [if_pos (decide_eq_true hh), if_pos (decide_eq_true hh), if_pos hh, if_pos hh]
  · rw [if_neg (by simpa using hh), if_neg (by simpa using hh), if_neg hh, if_neg hh]

theorem HDPriv.child_sound {k : HDPriv} {d : Nat} (h : k.Sound d) (index : UInt32) (hardened : Bool) {z : BN} (hz : Blind z) :
    ∃ r s, k.child index hardened z = .ok r ∧ r.Sound s ∧ r.status = .done ∧
      s = (beNat ((childHash d k.head.chainCode (childIndex index hardened).toNat).take 32) + d) % secpN ∧ r.head = k.childHead d (childIndex index hardened) := by
  obtain ⟨s, e, h1⟩ := child_eq h index hardened hz
  refine ⟨_, s, h1, ⟨rfl, ?_, rfl, ?_⟩, rfl, e, rfl⟩
  · rw [e]; exact Nat.mod_lt _ secpN_pos'
  · show ((childHash d k.head.chainCode (childIndex index hardened).toNat).drop 32).length = 32
    rw [List.length_drop, length_childHash]

theorem length_fingerprintOf (P : Pt) : (fingerprintOf P).length = 4 := by
  unfold fingerprintOf
  rw [List.length_take, length_hash160]; rfl

/-- C40: when BIP32 defines a child, `child` gives it: its secret, its chain code and the matching public key. -/
theorem HDPriv.C40_priv_child_partial (k : HDPriv) (d : Nat) (index : UInt32) (hardened : Bool) (z : BN) (h : k.Sound d) (hz : Blind z) (d' : Nat) (c' : Bytes)
    (hc : ckdPriv d k.head.chainCode (childIndex index hardened).toNat = some (d', c')) :
    ∃ r, k.child index hardened z = .ok r ∧ r.Holds d' ∧ r.head.chainCode = c' ∧ r.head = k.childHead d (childIndex index hardened) := by
  obtain ⟨r, s, e, h1, h2, h3, h4⟩ := child_sound h index hardened hz
  unfold ckdPriv at hc
  dsimp only at hc
  split at hc
  · exact absurd hc (by simp)
  rename_i hn
  rw [← h3] at hc hn
  simp only [Option.some.injEq, Prod.mk.injEq] at hc
  obtain ⟨rfl, hc⟩ := hc
  refine ⟨r, e, ⟨h2, h1.num, Nat.pos_of_ne_zero fun h0 => hn (Or.inr h0), h1.lt, h1.pub, ?_⟩, by rw [h4]; exact hc, h4⟩
  rw [h4]
  exact ⟨length_fingerprintOf _, by rw [← h4]; exact h1.chainCode, rfl⟩

/-- C40, code and claim disagree: there is no index for which `child` refuses.  When BIP32 says that the key is invalid (left half not below
the order), the left half modulo the order is taken. -/
theorem HDPriv.C40_never_refused (k : HDPriv) (d : Nat) (index : UInt32) (hardened : Bool) (z : BN) (h : k.Sound d) (hz : Blind z) :
    ∃ r s, k.child index hardened z = .ok r ∧ r.Sound s := by
  obtain ⟨r, s, e, h1, -⟩ := child_sound h index hardened hz
  exact ⟨r, s, e, h1⟩

/-! ### Public keys -/

/-- The extended public key with point `P`, which can be the point at infinity. -/
structure HDPub.Sound (k : HDPub) (P : Pt) : Prop where
  point : k.key.Holds P
  compressed : k.key.compressed = true
  chainCode : k.head.chainCode.length = 32

theorem HDPub.Holds.sound {k : HDPub} {P : Pt} (h : k.Holds P) : k.Sound P := ⟨h.point, h.compressed, h.wf.chainCode⟩

/-- The 64 bytes for child `i` of a public key. -/
noncomputable def pubHash (P : Pt) (c : Bytes) (i : Nat) : Bytes := hmacSha512 c (secOf true P ++ beBytes 4 i)

noncomputable def HDPub.childHead (k : HDPub) (P : Pt) (i : UInt32) : HDHead where
  network := k.head.network
  type := k.head.type
  depth := k.head.depth + 1
  fingerprint := fingerprintOf P
  childNumber := i
  chainCode := (pubHash P k.head.chainCode i.toNat).drop 32

theorem mod_smul_G (a : Nat) : (a % secpN) • G = a • G := by
  have := mod_addOrderOf_nsmul G a
  rwa [order_G] at this

/-- What `child` gives. -/
theorem HDPub.child_eq {k : HDPub} {P : Pt} (h : k.Sound P) (i : UInt32) {z : BN} (hz : Blind z) :
    k.child i z = .ok { key := { point := rawPoint (beNat ((pubHash P k.head.chainCode i.toNat).take 32) • G + P) }, head := k.childHead P i } := by
  unfold child
  rw [ECPoint.C36_sec _ _ h.point 65, C.bind_ok]
  dsimp only
  have h33 : k.key.length = 33 := by unfold ECPoint.length; rw [h.compressed]; rfl
  have hl : (secOf true P).length = 33 := length_secOf _ _
  rw [h33, h.compressed, List.take_of_length_le (i := 65) (by omega), List.take_left' (by omega), List.take_left' (by omega)]
  have hc := h.chainCode
  rw [be32_spec, hmac512_spec _ _ (by omega) (by simp [Spec.length_beBytes, hl])]
  rw [List.flatten_cons, List.flatten_nil, List.append_nil]
  have hI : hmacSha512 k.head.chainCode (secOf true P ++ beBytes 4 i.toNat) = pubHash P k.head.chainCode i.toNat := rfl
  rw [hI]
  have hl64 : (pubHash P k.head.chainCode i.toNat).length = 64 := length_hmacSha512 _ _
  have hf : (hash160 (secOf true P)).take 4 = fingerprintOf P := by
    rw [hash160_eq _ (by omega)]; rfl
  rw [hf, load_eq (by omega), C.bind_ok, load_eq (by omega), C.bind_ok, List.drop_zero]
  have hI32 : ((pubHash P k.head.chainCode i.toNat).take 32).length = 32 := by rw [List.length_take]; omega
  have hlt : beNat ((pubHash P k.head.chainCode i.toNat).take 32) % secpN < secpN := Nat.mod_lt _ secpN_pos'
  rw [scalar_parse hI32]
  obtain ⟨p1, e1, q1, -⟩ := ECPoint.mul_holds (num := beBytes 32 (beNat ((pubHash P k.head.chainCode i.toNat).take 32) % secpN)) (Spec.length_beBytes _ _)
    (by rw [beNat_num hlt]; exact hlt) ECPoint.holds_generator G_ne_zero hz
  rw [e1, C.bind_ok]
  rw [beNat_num hlt, mod_smul_G] at q1
  obtain ⟨p2, e2, q2, -⟩ := ECPoint.add_holds q1 h.point
  rw [e2, C.bind_ok, C.pure_eq]
  have q3 : p2.point = _ := q2
  rw [q3, List.take_of_length_le (i := 32) (l := (pubHash P k.head.chainCode i.toNat).drop 32) (by rw [List.length_drop]; omega)]
  rfl

theorem HDPub.child_sound {k : HDPub} {P : Pt} (h : k.Sound P) (i : UInt32) {z : BN} (hz : Blind z) :
    ∃ r, k.child i z = .ok r ∧ r.Sound (beNat ((pubHash P k.head.chainCode i.toNat).take 32) • G + P) ∧ r.head = k.childHead P i := by
  refine ⟨_, child_eq h i hz, ⟨rfl, rfl, ?_⟩, rfl⟩
  show ((pubHash P k.head.chainCode i.toNat).drop 32).length = 32
  rw [List.length_drop]
  have : (pubHash P k.head.chainCode i.toNat).length = 64 := length_hmacSha512 _ _
  omega

/-- C40: when BIP32 defines the child of a public key, `child` gives it. -/
theorem HDPub.C40_pub_child_partial (k : HDPub) (P : Pt) (i : UInt32) (z : BN) (h : k.Sound P) (hz : Blind z) (P' : Pt) (c' : Bytes)
    (hc : ckdPub P k.head.chainCode i.toNat = some (P', c')) :
    ∃ r, k.child i z = .ok r ∧ r.Holds P' ∧ r.head.chainCode = c' ∧ r.head = k.childHead P i := by
  unfold ckdPub at hc
  split at hc
  · exact absurd hc (by simp)
  dsimp only at hc
  split at hc
  · exact absurd hc (by simp)
  rename_i hn
  simp only [Option.some.injEq, Prod.mk.injEq] at hc
  obtain ⟨rfl, rfl⟩ := hc
  refine ⟨_, child_eq h i hz, ⟨rfl, rfl, rfl, fun h0 => hn (Or.inr h0), length_fingerprintOf _, ?_, rfl⟩, rfl, rfl⟩
  show ((pubHash P k.head.chainCode i.toNat).drop 32).length = 32
  rw [List.length_drop]
  have : (pubHash P k.head.chainCode i.toNat).length = 64 := length_hmacSha512 _ _
  omega

/-- C40, code and claim disagree: `child` of a public key does not refuse hardened indexes: it gives the key that a non-hardened derivation
with that index would give. -/
theorem HDPub.C40_hardened_not_refused (k : HDPub) (P : Pt) (i : UInt32) (z : BN) (h : k.Sound P) (hz : Blind z) (hi : 2 ^ 31 ≤ i.toNat) :
    ckdPub P k.head.chainCode i.toNat = none ∧
    ∃ r, k.child i z = .ok r ∧ r.Sound (beNat ((pubHash P k.head.chainCode i.toNat).take 32) • G + P) := by
  refine ⟨by unfold ckdPub; rw [if_pos hi], ?_⟩
  obtain ⟨r, e, h1, -⟩ := child_sound h i hz
  exact ⟨r, e, h1⟩

/-! ### Agreement -/

theorem HDPriv.xpub_sound {k : HDPriv} {d : Nat} (h : k.Sound d) : k.xpub.Sound (d • G) := ⟨h.pub, rfl, h.chainCode⟩

/-- C40: for an index below 2^31, the child of the public extended key is the public extended key of the child. -/
theorem HDPriv.C40_agree (k : HDPriv) (d : Nat) (i : UInt32) (z z' : BN) (h : k.Sound d) (hz : Blind z) (hz' : Blind z') (hi : i.toNat < 2 ^ 31) :
    ∃ r, k.child i false z = .ok r ∧ k.xpub.child i z' = .ok r.xpub := by
  obtain ⟨s, hs, e⟩ := child_eq h i false hz
  have hci : childIndex i false = i := by unfold childIndex; rw [if_neg (by simp)]
  rw [hci] at hs e
  refine ⟨_, e, ?_⟩
  rw [HDPub.child_eq (xpub_sound h) i hz']
  have hh : ¬ 2 ^ 31 ≤ i.toNat := by omega
  have hI : childHash d k.head.chainCode i.toNat = pubHash (d • G) k.head.chainCode i.toNat := by
    unfold childHash pubHash
    rw [if_neg hh]
  rw [hI] at hs
  have hp : beNat ((pubHash (d • G) k.head.chainCode i.toNat).take 32) • G + d • G = s • G := by
    rw [← add_nsmul, hs, mod_smul_G]
  have hx : k.xpub.head.chainCode = k.head.chainCode := rfl
  rw [hx, hp]
  unfold xpub HDPub.childHead HDPriv.childHead
  dsimp only
  rw [if_neg hh, if_neg hh, hI]
  rfl

/-- C40: the same for every sequence of indexes below 2^31. -/
theorem HDPriv.C40_agree_path (k : HDPriv) (d : Nat) (is : List UInt32) (rnd rnd' : Nat → BN) (h : k.Sound d) (hz : ∀ n, Blind (rnd n)) (hz' : ∀ n, Blind (rnd' n))
    (hi : ∀ i ∈ is, i.toNat < 2 ^ 31) : ∃ r, k.derive rnd is = .ok r ∧ k.xpub.derive rnd' is = .ok r.xpub := by
  induction is generalizing k d rnd rnd' with
  | nil => exact ⟨k, rfl, rfl⟩
  | cons i is ih =>
    obtain ⟨r, e1, e2⟩ := C40_agree k d i (rnd 0) (rnd' 0) h (hz 0) (hz' 0) (hi i (by simp))
    obtain ⟨r', s, e3, h3, -⟩ := child_sound h i false (hz 0)
    have : r' = r := by rw [e1] at e3; exact (C.ok.inj e3).symm
    subst this
    obtain ⟨q, q1, q2⟩ := ih r' s (fun n => rnd (n + 1)) (fun n => rnd' (n + 1)) h3 (fun n => hz _) (fun n => hz' _) fun j hj => hi j (by simp [hj])
    refine ⟨q, ?_, ?_⟩
    · rw [derive, e1, C.bind_ok, q1]
    · rw [HDPub.derive, e2, C.bind_ok, q2]

/-- C40: the path of a public key is the public key of the path, for every path that public keys accept. -/
theorem HDPriv.C40_agree_text (k : HDPriv) (d : Nat) (path : Bytes) (rnd rnd' : Nat → BN) (h : k.Sound d) (hz : ∀ n, Blind (rnd n)) (hz' : ∀ n, Blind (rnd' n))
    (hp : PathLike path) (is : List Nat) (hi : pubPathIndexes path = some is) :
    ∃ r, k.derivePath path rnd = .ok r ∧ k.xpub.derivePath path rnd' = .ok r.xpub := by
  have h1 := C38_pub_partial path hp
  rw [hi] at h1
  have h2 : pathIndexes path = some is ∧ ∀ i ∈ is, i < 2 ^ 31 := by
    unfold pubPathIndexes at hi
    match hq : pathIndexes path with
    | none => rw [hq] at hi; simp at hi
    | some js =>
      rw [hq, Option.bind_some] at hi
      split at hi
      · rename_i ha
        simp only [Option.some.injEq] at hi
        subst hi
        exact ⟨rfl, fun i hi => of_decide_eq_true (List.all_eq_true.mp ha i hi)⟩
      · exact absurd hi (by simp)
  have h3 := C38_prv_partial path hp
  rw [h2.1] at h3
  rw [C38_prv_derives k path _ rnd h3, C38_pub_derives k.xpub path _ rnd' h1]
  apply C40_agree_path k d _ rnd rnd' h hz hz'
  intro i hi
  obtain ⟨j, hj, rfl⟩ := List.mem_map.mp hi
  have := h2.2 j hj
  rw [UInt32.toNat_ofNat', Nat.mod_eq_of_lt (by omega)]
  exact this

example : ∃ r, hdOne.derive (fun _ => BN.one) [0, 7] = .ok r ∧ hdOne.xpub.derive (fun _ => BN.one) [0, 7] = .ok r.xpub :=
  HDPriv.C40_agree_path hdOne 1 _ _ _ holds_hdOne.sound (fun _ => blind_one) (fun _ => blind_one) (by decide)

/-! ### Whole paths -/

/-- CKDpriv along a path. -/
def ckdPath (d : Nat) (c : Bytes) : List Nat → Option (Nat × Bytes)
  | [] => some (d, c)
  | i :: is => (ckdPriv d c i).bind fun r => ckdPath r.1 r.2 is

/-- C40: the key at the end of a path is the one BIP32 defines. -/
theorem HDPriv.C40_derive_partial (k : HDPriv) (d : Nat) (is : List UInt32) (rnd : Nat → BN) (h : k.Holds d) (hz : ∀ n, Blind (rnd n)) (d' : Nat) (c' : Bytes)
    (hc : ckdPath d k.head.chainCode (is.map (·.toNat)) = some (d', c')) :
    ∃ r, k.derive rnd is = .ok r ∧ r.Holds d' ∧ r.head.chainCode = c' := by
  induction is generalizing k d rnd with
  | nil =>
    simp only [List.map_nil, ckdPath, Option.some.injEq, Prod.mk.injEq] at hc
    obtain ⟨rfl, rfl⟩ := hc
    exact ⟨k, rfl, h, rfl⟩
  | cons i is ih =>
    rw [List.map_cons, ckdPath] at hc
    match hq : ckdPriv d k.head.chainCode i.toNat with
    | none => rw [hq] at hc; simp at hc
    | some (d1, c1) =>
      rw [hq, Option.bind_some] at hc
      have hci : childIndex i false = i := by unfold childIndex; rw [if_neg (by simp)]
      obtain ⟨r, e, h1, h2, -⟩ := C40_priv_child_partial k d i false (rnd 0) h.sound (hz 0) d1 c1 (by rw [hci]; exact hq)
      obtain ⟨q, q1, q2⟩ := ih r d1 (fun n => rnd (n + 1)) h1 (fun n => hz _) (by rw [h2]; exact hc)
      exact ⟨q, by rw [derive, e, C.bind_ok, q1], q2⟩

/-! ### Bookkeeping -/

/-- C39: child of a private key: depth, child number, fingerprint of the parent.  (The depth is a byte: after 255 comes 0.) -/
theorem HDPriv.C39_priv_partial (k : HDPriv) (d : Nat) (index : UInt32) (hardened : Bool) (z : BN) (h : k.Sound d) (hz : Blind z) :
    ∃ r, k.child index hardened z = .ok r ∧ (k.head.depth.toNat < 255 → r.head.depth.toNat = k.head.depth.toNat + 1) ∧
      r.head.childNumber.toNat = (if hardened = true ∧ index.toNat < 2 ^ 31 then index.toNat + 2 ^ 31 else index.toNat) ∧
      r.head.fingerprint = fingerprintOf (d • G) := by
  obtain ⟨r, s, e, -, -, -, h4⟩ := child_sound h index hardened hz
  refine ⟨r, e, fun hd => ?_, ?_, ?_⟩
  · rw [h4]
    show (k.head.depth + 1).toNat = _
    rw [UInt8.toNat_add]
    simp; omega
  · rw [h4]
    show (childIndex index hardened).toNat = _
    unfold childIndex
    split
    · rename_i hh
      rw [UInt32.toNat_ofNat', Nat.mod_eq_of_lt (by omega)]
    · rfl
  · rw [h4]; rfl

/-- C39: child of a public key. -/
theorem HDPub.C39_pub_partial (k : HDPub) (P : Pt) (i : UInt32) (z : BN) (h : k.Sound P) (hz : Blind z) :
    ∃ r, k.child i z = .ok r ∧ (k.head.depth.toNat < 255 → r.head.depth.toNat = k.head.depth.toNat + 1) ∧ r.head.childNumber = i ∧
      r.head.fingerprint = fingerprintOf P ∧ r.head.network = k.head.network ∧ r.head.type = k.head.type := by
  obtain ⟨r, e, -, h4⟩ := child_sound h i hz
  refine ⟨r, e, fun hd => ?_, ?_, ?_, ?_, ?_⟩ <;> rw [h4]
  · show (k.head.depth + 1).toNat = _
    rw [UInt8.toNat_add]
    simp; omega
  all_goals rfl

/-- C39: `fingerprint` of private and public keys. -/
theorem HDPriv.C39_fingerprint (k : HDPriv) (d : Nat) (h : k.Sound d) : k.fingerprint = .ok (fingerprintOf (d • G)) ∧
    k.xpub.fingerprint = .ok (fingerprintOf (d • G)) := by
  have hl : (secOf true (d • G)).length = 33 := length_secOf _ _
  have key : ∀ p : ECPoint, p.Holds (d • G) → p.compressed = true →
      (do let (l, sec) ← p.sec 65; return (hash160 (sec.take l)).take 4 : C Bytes) = .ok (fingerprintOf (d • G)) := by
    intro p hp hc
    rw [ECPoint.C36_sec _ _ hp 65, C.bind_ok]
    dsimp only
    have h33 : p.length = 33 := by unfold ECPoint.length; rw [hc]; rfl
    rw [h33, hc, List.take_of_length_le (i := 65) (by omega), List.take_left' (by omega), hash160_eq _ (by omega)]
    rfl
  exact ⟨key _ h.pub rfl, key _ h.pub rfl⟩

/-- C39, code and claim disagree: the depth of a key at depth 255 wraps to that of a master key. -/
theorem HDPriv.C39_depth_wraps (k : HDPriv) (d : Nat) (index : UInt32) (hardened : Bool) (z : BN) (h : k.Sound d) (hz : Blind z) (hd : k.head.depth = 255) :
    ∃ r, k.child index hardened z = .ok r ∧ r.head.depth = 0 := by
  obtain ⟨r, s, e, -, -, -, h4⟩ := child_sound h index hardened hz
  refine ⟨r, e, ?_⟩
  rw [h4]
  show k.head.depth + 1 = 0
  rw [hd]; rfl

/-- Index with the mark for hardened. -/
def hard (n : Nat) : Nat := n + 2 ^ 31

/-- Type of the keys below a purpose: BIP44 (44h), BIP49 (49h), BIP84 (84h), BIP48 (48h), BIP45 (45h). -/
def purposeType (t : HDType) (purpose : Nat) : HDType :=
  if purpose = hard 44 then .p2pkh else if purpose = hard 49 then .p2sh_p2wpkh else if purpose = hard 84 then .p2wpkh
  else if purpose = hard 48 then .multisig else if purpose = hard 45 then .p2sh else t

/-- Type of the key at the end of a path from a master key of type `t`: that of the purpose; in BIP48, the script type 1h or 2h at the fourth
place. -/
def typeAt (t : HDType) : List Nat → HDType
  | [] => t
  | purpose :: rest =>
    if purposeType t purpose = .multisig then
      if rest[2]? = some (hard 1) then .p2sh_p2wsh else if rest[2]? = some (hard 2) then .p2wsh else .multisig
    else purposeType t purpose

/-- Network of the key at the end of a path from a master key on `n`: the coin type at the second place. -/
def networkAt (n : Network) (path : List Nat) : Network :=
  if path[1]? = some (hard 0) then mainnet else if path[1]? = some (hard 1) then testnet else n

theorem toNat_hard {i : UInt32} {n : Nat} (hn : n < 2 ^ 31) : i = hardenedIndex + UInt32.ofNat n ↔ i.toNat = hard n := by
  rw [← UInt32.toNat_inj, UInt32.toNat_add, UInt32.toNat_ofNat', show hardenedIndex.toNat = 2 ^ 31 from rfl]
  unfold hard
  omega

theorem typeAt_snoc (t : HDType) (path : List Nat) (i : Nat) : typeAt t (path ++ [i]) =
    (if path.length = 0 then purposeType t i
    else if path.length = 3 ∧ typeAt t path = .multisig then
      (if i = hard 1 then .p2sh_p2wsh else if i = hard 2 then .p2wsh else .multisig)
    else typeAt t path) := by
  match path with
  | [] =>
    simp only [List.nil_append, typeAt, List.length_nil, if_true]
    split
    · rename_i h; rw [h]; simp
    · rfl
  | p :: rest =>
    have ht : ∀ l, typeAt t (p :: l) = if purposeType t p = .multisig then
        if l[2]? = some (hard 1) then .p2sh_p2wsh else if l[2]? = some (hard 2) then .p2wsh else .multisig
      else purposeType t p := fun _ => rfl
    rw [if_neg (by simp), List.cons_append]
    by_cases hm : purposeType t p = .multisig
    · simp only [hm, if_true] at ht
      by_cases h3 : rest.length = 2
      · have e1 : (rest ++ [i])[2]? = some i := by rw [List.getElem?_append_right (by omega), h3]; rfl
        have e2 : rest[2]? = none := by rw [List.getElem?_eq_none_iff]; omega
        rw [if_pos ⟨by simp [h3], by rw [ht, e2]; simp⟩, ht, e1]
        simp
      · have e1 : (rest ++ [i])[2]? = rest[2]? := by
          by_cases h2 : rest.length < 2
          · rw [List.getElem?_eq_none_iff.mpr (by rw [List.length_append, List.length_singleton]; omega), List.getElem?_eq_none_iff.mpr (by omega)]
          · rw [List.getElem?_append_left (by omega)]
        rw [if_neg (by simp [h3]), ht, ht, e1]
    · simp only [hm, if_false] at ht
      rw [if_neg fun h => hm (by rw [← ht rest]; exact h.2), ht, ht]

theorem networkAt_snoc (n : Network) (path : List Nat) (i : Nat) : networkAt n (path ++ [i]) =
    (if path.length = 1 then (if i = hard 0 then mainnet else if i = hard 1 then testnet else n) else networkAt n path) := by
  unfold networkAt
  by_cases h : path.length = 1
  · have e1 : (path ++ [i])[1]? = some i := by rw [List.getElem?_append_right (by omega), h]; rfl
    rw [e1, if_pos h]
    simp
  · have e1 : (path ++ [i])[1]? = path[1]? := by
      by_cases h2 : path.length < 1
      · rw [List.getElem?_eq_none_iff.mpr (by rw [List.length_append, List.length_singleton]; omega), List.getElem?_eq_none_iff.mpr (by omega)]
      · rw [List.getElem?_append_left (by omega)]
    rw [e1, if_neg h]

theorem childType_eq (t : HDType) (path : List Nat) (dep : UInt8) (i : UInt32) (hd : dep.toNat = path.length) :
    (if 2 ^ 31 ≤ i.toNat then HDPriv.childType (typeAt t path) dep i else typeAt t path) = typeAt t (path ++ [i.toNat]) := by
  have d0 : dep = 0 ↔ path.length = 0 := by rw [← hd, ← UInt8.toNat_inj]; rfl
  have d3 : dep = 3 ↔ path.length = 3 := by rw [← hd, ← UInt8.toNat_inj]; rfl
  have e : ∀ n < 2 ^ 31, (i = hardenedIndex + UInt32.ofNat n ↔ i.toNat = hard n) := fun n hn => toNat_hard hn
  have e44 : i = hardenedIndex + 44 ↔ i.toNat = hard 44 := e 44 (by decide)
  have e49 : i = hardenedIndex + 49 ↔ i.toNat = hard 49 := e 49 (by decide)
  have e84 : i = hardenedIndex + 84 ↔ i.toNat = hard 84 := e 84 (by decide)
  have e48 : i = hardenedIndex + 48 ↔ i.toNat = hard 48 := e 48 (by decide)
  have e45 : i = hardenedIndex + 45 ↔ i.toNat = hard 45 := e 45 (by decide)
  have e1 : i = hardenedIndex + 1 ↔ i.toNat = hard 1 := e 1 (by decide)
  have e2 : i = hardenedIndex + 2 ↔ i.toNat = hard 2 := e 2 (by decide)
  rw [typeAt_snoc]
  unfold HDPriv.childType purposeType
  simp only [d0, d3, e44, e49, e84, e48, e45, e1, e2]
  by_cases hh : 2 ^ 31 ≤ i.toNat
  · rw [if_pos hh]
    by_cases h0 : path.length = 0
    · rw [if_pos h0, if_pos h0]
      have : path = [] := List.length_eq_zero_iff.mp h0
      subst this
      rfl
    · rw [if_neg h0, if_neg h0]
      by_cases h3 : path.length = 3 ∧ typeAt t path = .multisig
      · rw [if_pos h3, if_pos h3, h3.2]
      · rw [if_neg h3, if_neg h3]
  · rw [if_neg hh]
    have ne : ∀ n, i.toNat ≠ hard n := fun n hn => hh (by unfold hard at hn; omega)
    simp only [ne, if_false]
    split
    · rename_i h0
      have : path = [] := List.length_eq_zero_iff.mp h0
      subst this
      rfl
    · split
      · rename_i h; exact h.2
      · rfl

theorem childNetwork_eq (n : Network) (path : List Nat) (dep : UInt8) (i : UInt32) (hd : dep.toNat = path.length) :
    (if 2 ^ 31 ≤ i.toNat then HDPriv.childNetwork (networkAt n path) dep i else networkAt n path) = networkAt n (path ++ [i.toNat]) := by
  have d1 : dep = 1 ↔ path.length = 1 := by rw [← hd, ← UInt8.toNat_inj]; rfl
  have e1 : i = hardenedIndex + 1 ↔ i.toNat = hard 1 := toNat_hard (by decide)
  have e0 : i = hardenedIndex ↔ i.toNat = hard 0 := toNat_hard (n := 0) (by decide)
  have hn : path.length = 1 → networkAt n path = n := by
    intro h
    unfold networkAt
    rw [List.getElem?_eq_none_iff.mpr (by omega)]
    simp
  rw [networkAt_snoc]
  unfold HDPriv.childNetwork
  simp only [d1, e0, e1]
  by_cases h1 : path.length = 1
  · rw [if_pos h1, if_pos h1, hn h1]
    by_cases hh : 2 ^ 31 ≤ i.toNat
    · rw [if_pos hh]
      by_cases a : i.toNat = hard 1
      · rw [if_pos a, if_neg (by rw [a]; decide), if_pos a]
      · rw [if_neg a, if_neg a]
    · rw [if_neg hh, if_neg (fun h => hh (by unfold hard at h; omega)), if_neg (fun h => hh (by unfold hard at h; omega))]
  · rw [if_neg h1, if_neg h1]
    split <;> rfl

theorem HDPriv.derive_bookkeeping (k : HDPriv) (d : Nat) (is : List UInt32) (rnd : Nat → BN) (t : HDType) (n : Network) (path : List Nat) (h : k.Sound d)
    (hz : ∀ n, Blind (rnd n)) (hd : k.head.depth.toNat = path.length) (ht : k.head.type = typeAt t path) (hn : k.head.network = networkAt n path)
    (hl : path.length + is.length ≤ 255) :
    ∃ r, k.derive rnd is = .ok r ∧ r.head.depth.toNat = path.length + is.length ∧ r.head.type = typeAt t (path ++ is.map (·.toNat)) ∧
      r.head.network = networkAt n (path ++ is.map (·.toNat)) := by
  induction is generalizing k d rnd path with
  | nil => exact ⟨k, rfl, hd, by simpa using ht, by simpa using hn⟩
  | cons i is ih =>
    obtain ⟨r, s, e, h1, -, -, h4⟩ := child_sound h i false (hz 0)
    have hci : childIndex i false = i := by unfold childIndex; rw [if_neg (by simp)]
    rw [hci] at h4
    simp only [List.length_cons] at hl
    obtain ⟨q, q1, q2, q3, q4⟩ := ih r s (fun n => rnd (n + 1)) (path ++ [i.toNat]) h1 (fun n => hz _)
      (by
        rw [h4]
        show (k.head.depth + 1).toNat = _
        rw [UInt8.toNat_add, List.length_append]
        simp; omega)
      (by rw [h4]; show (if _ then _ else _) = _; rw [ht]; exact childType_eq t path _ i hd)
      (by rw [h4]; show (if _ then _ else _) = _; rw [hn]; exact childNetwork_eq n path _ i hd)
      (by simp; omega)
    refine ⟨q, by rw [derive, e, C.bind_ok, q1], ?_, ?_, ?_⟩
    · rw [q2]; simp; omega
    · rw [q3]; simp
    · rw [q4]; simp

/-- C39: script type, network and depth of the key at the end of a path of at most 255 indexes from a master key. -/
theorem HDPriv.C39_path_partial (k : HDPriv) (d : Nat) (is : List UInt32) (rnd : Nat → BN) (h : k.Sound d) (hz : ∀ n, Blind (rnd n)) (hd : k.head.depth = 0)
    (hl : is.length ≤ 255) :
    ∃ r, k.derive rnd is = .ok r ∧ r.head.depth.toNat = is.length ∧ r.head.type = typeAt k.head.type (is.map (·.toNat)) ∧
      r.head.network = networkAt k.head.network (is.map (·.toNat)) := by
  obtain ⟨r, e, h1, h2, h3⟩ := derive_bookkeeping k d is rnd k.head.type k.head.network [] h hz (by rw [hd]; rfl) rfl rfl (by simpa using hl)
  exact ⟨r, e, by simpa using h1, by simpa using h2, by simpa using h3⟩

/-- m/84h/1h/0h/0/5 is a P2WPKH key on the test network. -/
example : ∃ r, ({ hdOne with head := {} } : HDPriv).derive (fun _ => BN.one) [0x80000054, 0x80000001, 0x80000000, 0, 5] = .ok r ∧ r.head.depth.toNat = 5 ∧
    r.head.type = .p2wpkh ∧ r.head.network = testnet := by
  obtain ⟨r, h1, h2, h3, h4⟩ := HDPriv.C39_path_partial { hdOne with head := {} } 1 [0x80000054, 0x80000001, 0x80000000, 0, 5] (fun _ => BN.one)
    ⟨rfl, by unfold secpN; decide +kernel, by rw [one_nsmul]; exact ECPoint.holds_generator, rfl⟩ (fun _ => blind_one) rfl (by decide)
  refine ⟨r, h1, h2, ?_, ?_⟩
  · rw [h3]; decide
  · rw [h4]; rfl

/-! ### Master keys -/

/-- C67: what `fromSeed` does with every seed.  If the left half of the HMAC is below the group order, it becomes the secret of a key with
the right half as chain code (even if it is zero); otherwise the code does not refuse the seed but runs into an assertion. -/
theorem HDPriv.C67_exact (k : HDPriv) (seed I : Bytes) (net : Network) (z : BN) (hz : Blind z) (hl : seed.length < 2 ^ 60)
    (hI : hmacSha512 [66, 105, 116, 99, 111, 105, 110, 32, 115, 101, 101, 100] seed = I) :
    (secpN ≤ beNat (I.take 32) ∧ k.fromSeed seed net z = .ub) ∨
    (beNat (I.take 32) < secpN ∧ ∃ r, k.fromSeed seed net z = .ok r ∧ r.Sound (beNat (I.take 32)) ∧ r.status = .done ∧ r.head.chainCode = I.drop 32 ∧
      r.head.depth = 0 ∧ r.head.childNumber = 0 ∧ r.head.fingerprint = zeros 4 ∧ r.head.network = net ∧ r.head.type = .unknown) := by
  unfold fromSeed
  rw [hmac512_spec _ _ (by decide) (by simpa using hl)]
  rw [List.flatten_cons, List.flatten_nil, List.append_nil, hI]
  have hl64 : I.length = 64 := by rw [← hI]; exact length_hmacSha512 _ _
  dsimp only
  rw [load_eq (by omega), C.bind_ok, load_eq (by omega), C.bind_ok, List.drop_zero]
  have hI32 : (I.take 32).length = 32 := by rw [List.length_take]; omega
  rcases Nat.lt_or_ge (beNat (I.take 32)) secpN with hlt | hge
  · refine .inr ⟨hlt, ?_⟩
    rw [pubOf_spec hI32 hlt hz, C.bind_ok, C.pure_eq, List.take_of_length_le (i := 32) (l := I.drop 32) (by rw [List.length_drop]; omega)]
    refine ⟨_, rfl, ⟨(beBytes_num hI32).symm, hlt, rfl, ?_⟩, rfl, rfl, rfl, rfl, rfl, rfl, rfl⟩
    show (I.drop 32).length = 32
    rw [List.length_drop]; omega
  · refine .inl ⟨hge, ?_⟩
    rw [pubOf_large hI32 hge, C.bind_ub]

/-- C67: the key from a seed is the master key of BIP32, when there is one. -/
theorem HDPriv.C67_master_partial (k : HDPriv) (seed : Bytes) (net : Network) (z : BN) (hz : Blind z) (hl : seed.length < 2 ^ 60) (d : Nat) (c : Bytes)
    (hm : masterKey seed = some (d, c)) :
    ∃ r, k.fromSeed seed net z = .ok r ∧ r.Sound d ∧ 0 < d ∧ r.status = .done ∧ r.head.chainCode = c ∧ r.head.depth = 0 ∧ r.head.childNumber = 0 ∧
      r.head.fingerprint = zeros 4 ∧ r.head.network = net ∧ r.head.type = .unknown := by
  unfold masterKey at hm
  dsimp only at hm
  split at hm
  · exact absurd hm (by simp)
  rename_i hn
  simp only [Option.some.injEq, Prod.mk.injEq] at hm
  obtain ⟨rfl, rfl⟩ := hm
  rcases C67_exact k seed _ net z hz hl rfl with ⟨h, -⟩ | ⟨-, r, h1, h2, h3⟩
  · exact absurd (Or.inr h) hn
  · exact ⟨r, h1, h2, Nat.pos_of_ne_zero fun h0 => hn (Or.inl h0), h3⟩

/-- The seed 000102…0f of the first test vector of BIP32. -/
def vectorSeed : Bytes := [0, 1, 2, 3, 4, 5, 6, 7, 8, 9, 10, 11, 12, 13, 14, 15]

theorem vector_master : masterKey vectorSeed = some (0xe8f32e723decf4051aefac8e2c93c9c5b214313817cdb01a1494b917c8436b35,
    beBytes 32 0x873dff81c02f525623fd1fe5167eac3a55a049de3d314bb42ee227ffed37d508) := by
  decide +kernel

theorem vector_child : ckdPriv 0xe8f32e723decf4051aefac8e2c93c9c5b214313817cdb01a1494b917c8436b35
    (beBytes 32 0x873dff81c02f525623fd1fe5167eac3a55a049de3d314bb42ee227ffed37d508) 0x80000000 =
    some (0xedb2e14f9ee77d26dd93b4ecede8d16ed408ce149b6cd80b0715a2d911a0afea, beBytes 32 0x47fdacbd0f1097043b78c63c20c34ef4ed9a111d980047ad16282c7ae6236141) := by
  have : childHash 0xe8f32e723decf4051aefac8e2c93c9c5b214313817cdb01a1494b917c8436b35
      (beBytes 32 0x873dff81c02f525623fd1fe5167eac3a55a049de3d314bb42ee227ffed37d508) 0x80000000 =
      hmacSha512 (beBytes 32 0x873dff81c02f525623fd1fe5167eac3a55a049de3d314bb42ee227ffed37d508)
        (0 :: beBytes 32 0xe8f32e723decf4051aefac8e2c93c9c5b214313817cdb01a1494b917c8436b35 ++ beBytes 4 0x80000000) := by
    unfold childHash
    rw [if_pos (by decide)]
  unfold ckdPriv
  rw [this]
  decide +kernel

/-- The first test vector of BIP32: the master key and the child m/0'. -/
example : ∃ m r, ({} : HDPriv).fromSeed vectorSeed mainnet BN.one = .ok m ∧ m.child 0 true BN.one = .ok r ∧
    m.Sound 0xe8f32e723decf4051aefac8e2c93c9c5b214313817cdb01a1494b917c8436b35 ∧
    r.Holds 0xedb2e14f9ee77d26dd93b4ecede8d16ed408ce149b6cd80b0715a2d911a0afea := by
  obtain ⟨m, h1, h2, -, -, h3, -⟩ := HDPriv.C67_master_partial {} vectorSeed mainnet BN.one blind_one (by decide) _ _ vector_master
  obtain ⟨r, h4, h5, -⟩ := HDPriv.C40_priv_child_partial m _ 0 true BN.one h2 blind_one _ _ (by rw [h3]; exact vector_child)
  exact ⟨m, r, h1, h4, h2, h5⟩

/-! ### Mnemonics -/

theorem seedRounds (mnemonic password : Bytes) (hm : mnemonic.length < 2 ^ 32) (n : Nat) :
    (List.range n).foldl (fun s _ => HDPriv.seedRound mnemonic s)
      (pbkdf2F hmacSha512 mnemonic password 1 0, pbkdf2U hmacSha512 mnemonic password 1 0) =
    (pbkdf2F hmacSha512 mnemonic password 1 n, pbkdf2U hmacSha512 mnemonic password 1 n) := by
  induction n with
  | zero => rfl
  | succ n ih =>
    rw [List.range_succ, List.foldl_append, ih, List.foldl_cons, List.foldl_nil]
    unfold HDPriv.seedRound
    dsimp only
    have hu : (pbkdf2U hmacSha512 mnemonic password 1 n).length = 64 := by
      cases n <;> exact length_hmacSha512 _ _
    rw [hmac512_spec _ _ hm (by rw [List.flatten_cons, List.flatten_nil, List.append_nil, hu]; decide), List.flatten_cons, List.flatten_nil, List.append_nil]
    rfl

/-- C68: the seed computed from a mnemonic and a password is that of BIP39. -/
theorem HDPriv.C68_seed (mnemonic password : Bytes) (hm : mnemonic.length < 2 ^ 32) (hp : password.length < 2 ^ 32) :
    HDPriv.mnemonicSeed mnemonic password = Spec.mnemonicSeed mnemonic password := by
  unfold HDPriv.mnemonicSeed Spec.mnemonicSeed
  have h0 : hmac512 mnemonic [[109, 110, 101, 109, 111, 110, 105, 99], password, [0, 0, 0, 1]] =
      pbkdf2U hmacSha512 mnemonic ([109, 110, 101, 109, 111, 110, 105, 99] ++ password) 1 0 := by
    rw [hmac512_spec _ _ hm (by simp; omega)]
    rw [List.flatten_cons, List.flatten_cons, List.flatten_cons, List.flatten_nil, List.append_nil, ← List.append_assoc]
    rfl
  dsimp only
  rw [h0]
  have := seedRounds mnemonic ([109, 110, 101, 109, 111, 110, 105, 99] ++ password) hm 2047
  rw [show pbkdf2F hmacSha512 mnemonic ([109, 110, 101, 109, 111, 110, 105, 99] ++ password) 1 0 =
    pbkdf2U hmacSha512 mnemonic ([109, 110, 101, 109, 111, 110, 105, 99] ++ password) 1 0 from rfl] at this
  rw [this]
  have hl : ∀ n, (pbkdf2F hmacSha512 mnemonic ([109, 110, 101, 109, 111, 110, 105, 99] ++ password) 1 n).length = 64 := by
    intro n
    induction n with
    | zero => exact length_hmacSha512 _ _
    | succ n ih =>
      rw [pbkdf2F, xorBytes, List.length_zipWith, ih, pbkdf2U, length_hmacSha512]
      rfl
  unfold pbkdf2
  rw [show (64 + 64 - 1) / 64 = 1 from rfl, List.range_one, List.flatMap_singleton, List.take_of_length_le (by rw [hl])]

/-- C68: the key from a mnemonic is the BIP32 master key of the BIP39 seed. -/
theorem HDPriv.C68_mnemonic_partial (k : HDPriv) (mnemonic password : Bytes) (net : Network) (z : BN) (hz : Blind z) (hm : mnemonic.length < 2 ^ 32)
    (hp : password.length < 2 ^ 32) (d : Nat) (c : Bytes) (hk : masterKey (Spec.mnemonicSeed mnemonic password) = some (d, c)) :
    ∃ r, k.fromMnemonic mnemonic password net z = .ok r ∧ r.Sound d ∧ 0 < d ∧ r.status = .done ∧ r.head.chainCode = c ∧ r.head.depth = 0 ∧
      r.head.network = net := by
  unfold fromMnemonic
  rw [C68_seed mnemonic password hm hp]
  have hl : (Spec.mnemonicSeed mnemonic password).length ≤ 64 := by
    unfold Spec.mnemonicSeed pbkdf2
    rw [List.length_take]
    omega
  obtain ⟨r, h1, h2, h3, h4, h5, h6, -, -, h7, -⟩ := C67_master_partial k.init _ net z hz (by omega) d c hk
  exact ⟨r, h1, h2, h3, h4, h5, h6, h7⟩

/-- C68: what `fromMnemonic` does with every phrase and password.  If the left half of the HMAC of the BIP39 seed is below the
group order, it becomes the secret (even if it is zero); otherwise the code runs into an assertion. -/
theorem HDPriv.C68_exact (k : HDPriv) (mnemonic password I : Bytes) (net : Network) (z : BN) (hz : Blind z) (hm : mnemonic.length < 2 ^ 32)
    (hp : password.length < 2 ^ 32) (hI : hmacSha512 [66, 105, 116, 99, 111, 105, 110, 32, 115, 101, 101, 100] (Spec.mnemonicSeed mnemonic password) = I) :
    (secpN ≤ beNat (I.take 32) ∧ k.fromMnemonic mnemonic password net z = .ub) ∨
    (beNat (I.take 32) < secpN ∧ ∃ r, k.fromMnemonic mnemonic password net z = .ok r ∧ r.Sound (beNat (I.take 32)) ∧ r.status = .done ∧
      r.head.chainCode = I.drop 32 ∧ r.head.depth = 0 ∧ r.head.childNumber = 0 ∧ r.head.fingerprint = zeros 4 ∧ r.head.network = net ∧
      r.head.type = .unknown) := by
  unfold fromMnemonic
  rw [C68_seed mnemonic password hm hp]
  have hl : (Spec.mnemonicSeed mnemonic password).length ≤ 64 := by
    unfold Spec.mnemonicSeed pbkdf2
    rw [List.length_take]
    omega
  exact C67_exact k.init _ I net z hz (by omega) hI

/-- C68: every phrase meets the hypotheses, for instance that of the smallest entropy with a password. -/
example : ∃ m p : Bytes, m.length < 2 ^ 32 ∧ p.length < 2 ^ 32 ∧ p ≠ [] ∧ m ≠ [] := ⟨[0x61, 0x62], [0x54], by decide⟩

end UB
