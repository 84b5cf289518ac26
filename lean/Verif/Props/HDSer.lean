import Verif.Lemmas.HDWallet

/-
C37 serialization of extended keys.
-/

namespace UB
open Spec BN

attribute [local irreducible] secpP secpN BN.multiply BN.fastMod BN.mod BN.subtractmod BN.multK BN.addmod BN.inverse BN.lshift BN.subi BN.add
  BN.multHalf BN.cmov BN.isEqual BN.isZero BN.sqrt BN.subtract scalarMultiply pointMultiply CurvePoint.add readBE writeBE BN.addi

/-! ### Version bytes -/

/-- The version bytes a type has. -/
def scriptOf : HDType → VersionKind
  | .p2wpkh => .p2wpkh
  | .p2sh_p2wpkh => .p2shP2wpkh
  | .p2wsh => .p2wsh
  | .p2sh_p2wsh => .p2shP2wsh
  | _ => .plain

/-- The type as far as it can be written: the types without version bytes of their own become UNKNOWN_TYPE. -/
def storedType (t : HDType) : HDType := if scriptOf t = .plain then .unknown else t

/-- C37: the version bytes are those of BIP32 and SLIP-132 for every network, and a type with no version bytes of its own gets those of BIP32. -/
theorem C37_versions (net : Network) (h : net ∈ networks) :
    ∃ main : Bool, (main = true ↔ net = mainnet) ∧
      ∀ t, prvPrefix net t = slip132 main false (scriptOf t) ∧ pubPrefix net t = slip132 main true (scriptOf t) := by
  simp only [networks, List.mem_cons, List.not_mem_nil, or_false] at h
  rcases h with rfl | rfl | rfl | rfl
  · exact ⟨true, by simp, fun t => by cases t <;> exact ⟨rfl, rfl⟩⟩
  all_goals exact ⟨false, by simp; decide, fun t => by cases t <;> exact ⟨rfl, rfl⟩⟩

theorem findPrefix_some {prefixes : Network → List (Bytes × HDType)} {p : Bytes} {ns : List Network} {n : Network} {t : HDType}
    (h : findPrefix prefixes p ns = some (n, t)) : n ∈ ns ∧ (p, t) ∈ prefixes n := by
  induction ns with
  | nil => simp [findPrefix] at h
  | cons a ns ih =>
    unfold findPrefix at h
    cases hf : (prefixes a).find? fun e => e.1 == p with
    | none =>
      rw [hf] at h
      obtain ⟨h1, h2⟩ := ih h
      exact ⟨List.mem_cons_of_mem _ h1, h2⟩
    | some e =>
      rw [hf] at h
      simp only [Option.some.injEq, Prod.mk.injEq] at h
      obtain ⟨rfl, rfl⟩ := h
      have h1 := List.mem_of_find?_eq_some hf
      have h2 := List.find?_some hf
      simp only [beq_iff_eq] at h2
      obtain ⟨x, y⟩ := e
      simp only at h2
      subst h2
      exact ⟨List.mem_cons_self, h1⟩

theorem findPrefix_none {prefixes : Network → List (Bytes × HDType)} {p : Bytes} {ns : List Network}
    (h : findPrefix prefixes p ns = none) : ∀ n ∈ ns, ∀ t, (p, t) ∉ prefixes n := by
  induction ns with
  | nil => simp
  | cons a ns ih =>
    unfold findPrefix at h
    cases hf : (prefixes a).find? fun e => e.1 == p with
    | some e => rw [hf] at h; simp at h
    | none =>
      rw [hf] at h
      intro n hn t ht
      rcases List.mem_cons.mp hn with rfl | hn
      · rw [List.find?_eq_none] at hf
        exact hf _ ht (by simp)
      · exact ih h n hn t ht

/-- The versions that are recognized are the versions that are written. -/
theorem findPrefix_prv {p : Bytes} {n : Network} {t : HDType} (h : findPrefix prvPrefixes p networks = some (n, t)) :
    n ∈ networks ∧ prvPrefix n t = p ∧ t = storedType t := by
  obtain ⟨h1, h2⟩ := findPrefix_some h
  simp only [prvPrefixes, List.mem_cons, Prod.mk.injEq, List.not_mem_nil, or_false] at h2
  rcases h2 with ⟨rfl, rfl⟩ | ⟨rfl, rfl⟩ | ⟨rfl, rfl⟩ | ⟨rfl, rfl⟩ | ⟨rfl, rfl⟩ <;> exact ⟨h1, rfl, rfl⟩

theorem findPrefix_pub {p : Bytes} {n : Network} {t : HDType} (h : findPrefix pubPrefixes p networks = some (n, t)) :
    n ∈ networks ∧ pubPrefix n t = p ∧ t = storedType t := by
  obtain ⟨h1, h2⟩ := findPrefix_some h
  simp only [pubPrefixes, List.mem_cons, Prod.mk.injEq, List.not_mem_nil, or_false] at h2
  rcases h2 with ⟨rfl, rfl⟩ | ⟨rfl, rfl⟩ | ⟨rfl, rfl⟩ | ⟨rfl, rfl⟩ | ⟨rfl, rfl⟩ <;> exact ⟨h1, rfl, rfl⟩

/-- Writing and recognizing the version bytes. -/
theorem findPrefix_written (net : Network) (h : net ∈ networks) (t : HDType) :
    findPrefix prvPrefixes (prvPrefix net t) networks = some (if net = mainnet then mainnet else testnet, storedType t) ∧
    findPrefix pubPrefixes (pubPrefix net t) networks = some (if net = mainnet then mainnet else testnet, storedType t) := by
  simp only [networks, List.mem_cons, List.not_mem_nil, or_false] at h
  rcases h with rfl | rfl | rfl | rfl <;> cases t <;> decide +kernel

theorem prefix_len (net : Network) (h : net ∈ networks) (t : HDType) :
    (prvPrefix net t).length = 4 ∧ (pubPrefix net t).length = 4 ∧ (prvPrefix net t).head? ≠ some 0 ∧ (pubPrefix net t).head? ≠ some 0 ∧
    beValue (prvPrefix net t) ≤ 0x04b24746 ∧ beValue (pubPrefix net t) ≤ 0x04b24746 := by
  simp only [networks, List.mem_cons, List.not_mem_nil, or_false] at h
  rcases h with rfl | rfl | rfl | rfl <;> cases t <;> decide +kernel

/-! ### Well-formed keys -/

/-- The arrays of an object have their lengths. -/
structure HDHead.Wf (h : HDHead) : Prop where
  fingerprint : h.fingerprint.length = 4
  chainCode : h.chainCode.length = 32
  pre : h.pre.length = 4

/-- The extended private key with secret `d`. -/
structure HDPriv.Holds (k : HDPriv) (d : Nat) : Prop where
  status : k.status = .done
  num : k.num = beBytes 32 d
  pos : 0 < d
  lt : d < secpN
  pub : k.pubKey.Holds (d • G)
  wf : k.head.Wf

/-- The extended public key with point `P`. -/
structure HDPub.Holds (k : HDPub) (P : Pt) : Prop where
  status : k.key.status = .done
  point : k.key.Holds P
  compressed : k.key.compressed = true
  ne : P ≠ 0
  wf : k.head.Wf

theorem headBytes (h : HDHead) (v : Bytes) : h.bytes v = v ++ beBytes 1 h.depth.toNat ++ h.fingerprint ++ beBytes 4 h.childNumber.toNat ++ h.chainCode := by
  unfold HDHead.bytes
  rw [be32_spec]
  have : ∀ b : UInt8, [b] = beBytes 1 b.toNat := by apply forall_byte; decide +kernel
  rw [this]

/-- The fields of two heads that survive writing and reading. -/
structure HDHead.Same (g h : HDHead) : Prop where
  network : g.network = if h.network = mainnet then mainnet else testnet
  type : g.type = storedType h.type
  depth : g.depth = h.depth
  fingerprint : g.fingerprint = h.fingerprint
  childNumber : g.childNumber = h.childNumber
  chainCode : g.chainCode = h.chainCode

/-- A byte string of at least 45 bytes determines the members. -/
theorem HDHead.At.read {prefixes : Network → List (Bytes × HDType)} {h : HDHead} {m : Bytes} (ha : At prefixes h m) (hm : 45 ≤ m.length) :
    findPrefix prefixes (m.take 4) networks = some (h.network, h.type) ∧ m.take 45 = m.take 4 ++ [h.depth] ++ h.fingerprint ++ be32 h.childNumber ++ h.chainCode := by
  refine ⟨ha.known (by omega), ?_⟩
  have e1 : (m.drop 4).take 1 = [h.depth] := by
    have := ha.depth (by omega)
    cases hd : m.drop 4 with
    | nil => rw [hd] at this; simp at this
    | cons a t => rw [hd] at this; simp at this; simp [this]
  have e2 := ha.fp.full (by omega)
  rw [List.take_of_length_le (by rw [ha.fpLen])] at e2
  have e4 := ha.cc.full (by omega)
  rw [List.take_of_length_le (by rw [ha.ccLen])] at e4
  have e3 : be32 h.childNumber = (m.drop 9).take 4 := by
    obtain ⟨c0, e⟩ := ha.number
    have hl : ((m.drop 9).take 4).length = 4 := by simp; omega
    rw [read32_spec c0 _ hl] at e
    have hb := beBytes_beNat ((m.drop 9).take 4)
    rw [hl] at hb
    rw [be32_spec, e, UInt32.toNat_ofNat', Nat.mod_eq_of_lt, hb]
    have := memNat_lt ((m.drop 9).take 4).reverse
    rw [← beNat_eq, List.length_reverse, hl] at this
    exact this
  rw [← e1, e2, e3, e4]
  have s1 : m.take 45 = m.take 13 ++ (m.drop 13).take 32 := by rw [← List.take_add]
  have s2 : m.take 13 = m.take 9 ++ (m.drop 9).take 4 := by rw [← List.take_add]
  have s3 : m.take 9 = m.take 5 ++ (m.drop 5).take 4 := by rw [← List.take_add]
  have s4 : m.take 5 = m.take 4 ++ (m.drop 4).take 1 := by rw [← List.take_add]
  rw [s1, s2, s3, s4]

theorem HDHead.At.same {prefixes : Network → List (Bytes × HDType)} {g h : HDHead} {v m : Bytes} (ha : At prefixes g (h.bytes v ++ m)) (hw : h.Wf)
    (hv : v.length = 4) (hf : findPrefix prefixes v networks = some (if h.network = mainnet then mainnet else testnet, storedType h.type)) :
    g.Same h ∧ g.Wf := by
  have hb : (h.bytes v).length = 45 := by
    unfold HDHead.bytes be32
    simp [hv, hw.fingerprint, hw.chainCode]
  obtain ⟨h1, h2⟩ := ha.read (by simp; omega)
  rw [List.take_left' hb] at h2
  have hv' : (h.bytes v ++ m).take 4 = v := by
    unfold HDHead.bytes
    simp only [List.append_assoc]
    rw [List.take_left' hv]
  rw [hv'] at h1 h2
  rw [hf] at h1
  simp only [Option.some.injEq, Prod.mk.injEq] at h1
  unfold HDHead.bytes at h2
  simp only [List.append_assoc, List.append_cancel_left_eq, List.cons_append, List.nil_append, List.cons.injEq] at h2
  obtain ⟨h3, h4⟩ := h2
  obtain ⟨h5, h6⟩ := List.append_inj h4 (by rw [hw.fingerprint, ha.fpLen])
  obtain ⟨h7, h8⟩ := List.append_inj h6 rfl
  refine ⟨⟨h1.1.symm, h1.2.symm, h3.symm, h5.symm, ?_, h8.symm⟩, ha.fpLen, ha.ccLen, ha.preLen⟩
  rw [be32_spec, be32_spec] at h7
  exact UInt32.toNat_inj.mp (beBytes_inj (lt_of_lt_of_eq (UInt32.toNat_lt _) (by norm_num)) (lt_of_lt_of_eq (UInt32.toNat_lt _) (by norm_num)) h7).symm

theorem secpN_pos' : 0 < secpN := by unfold secpN; decide +kernel

/-! ### Reading private keys -/

namespace HDPriv

/-- The object after the bytes `m` have arrived (fewer than 78). -/
structure Got (k : HDPriv) (m : Bytes) : Prop where
  status : k.status = .incomplete
  parsed : k.bytesParsed = m.length
  head : k.head.At prvPrefixes m
  length : k.num.length = 32
  num : Sec 46 78 m k.num
  marker : 46 ≤ m.length → m[45]? = some 0

/-- The object after 78 bytes. -/
structure Has (k : HDPriv) (m : Bytes) : Prop where
  status : k.status = if m.drop 46 = zeros 32 then .failed else .done
  head : k.head.At prvPrefixes m
  num : k.num = beBytes 32 (beNat (m.drop 46) % secpN)
  pub : k.pubKey = { point := rawPoint ((beNat (m.drop 46) % secpN) • G), compressed := true }

/-- The first bytes are as they must be. -/
def Fine (m : Bytes) : Prop := (4 ≤ m.length → (findPrefix prvPrefixes (m.take 4) networks).isSome) ∧ (46 ≤ m.length → m[45]? = some 0)

theorem step {k : HDPriv} {m : Bytes} (c : Bytes) {z : BN} (hz : Blind z) (hk : k.Got m) (hm : m.length < 78) :
    (Fine (m ++ c) → ∃ k', k.fromStream z { bytes := c } = (k', (c.take (78 - m.length)).length, { bytes := c.drop (78 - m.length) }) ∧
      ((m ++ c).length < 78 → k'.Got (m ++ c)) ∧ (78 ≤ (m ++ c).length → k'.Has ((m ++ c).take 78))) ∧
    (¬ Fine (m ++ c) → (k.fromStream z { bytes := c }).1.status = .failed) := by
  obtain ⟨h1, h2, h3, h4, h5, h6⟩ := hk
  have hk : ({ k with status := .incomplete, bytesParsed := m.length } : HDPriv) = k := by rw [← h1, ← h2]
  unfold fromStream
  rw [if_neg (by rw [h1]; simp), h1]
  simp only [reduceCtorEq, if_false]
  rw [h2, hk]
  unfold body
  rw [h2]
  by_cases hp : 4 ≤ (m ++ c).length → (findPrefix prvPrefixes ((m ++ c).take 4) networks).isSome
  swap
  · refine ⟨fun h => absurd h.1 hp, fun _ => ?_⟩
    push Not at hp
    obtain ⟨hp4, hp⟩ := hp
    simp only [Bool.not_eq_true, Option.isSome_eq_false_iff, Option.isNone_iff_eq_none] at hp
    have hm4 : m.length < 4 := by
      by_contra hge
      rw [List.take_append_of_le_length (by omega), h3.known (by omega)] at hp
      simp at hp
    obtain ⟨h', n, st, e⟩ := HDHead.readPrefix_unknown c h3 hm4 hp4 hp
    rw [e, C.bind_ok]
    rfl
  obtain ⟨g1, e1, a1⟩ := HDHead.readPrefix_at c h3 hp
  obtain ⟨t1, t2, t3⟩ := take_chain m c (lo := 4) (hi := 45) (by omega)
  obtain ⟨g2, e2, a2⟩ := HDHead.readRest_at (c.drop (4 - m.length)) a1 t3
  rw [t1, t2] at e2
  rw [t1] at a2
  obtain ⟨⟨b1, b2⟩, b3⟩ := HDHead.marker_byte m c
  obtain ⟨u1, u2, u3⟩ := take_chain m c (lo := 45) (hi := 46) (by omega)
  obtain ⟨v1, v2, v3⟩ := take_chain m c (lo := 46) (hi := 78) (by omega)
  rw [e1, C.bind_ok]
  dsimp only
  rw [Bool.not_true, if_neg (by simp), e2, C.bind_ok]
  dsimp only
  rw [readN_plain, b1, b2]
  dsimp only
  rw [← List.length_append, u1, u2]
  by_cases hmk : 46 ≤ (m ++ c).length ∧ m.length < 46 ∧ (m ++ c)[45]? ≠ some 0
  · rw [if_pos (b3.mpr hmk)]
    exact ⟨fun h => absurd (h.2 hmk.1) hmk.2.2, fun _ => rfl⟩
  rw [if_neg (fun h => hmk (b3.mp h)), readN_plain]
  have hmk' : 46 ≤ (m ++ c).length → (m ++ c)[45]? = some 0 := by
    intro hl
    by_cases h46 : m.length < 46
    · by_contra hne
      exact hmk ⟨hl, h46, hne⟩
    · rw [List.getElem?_append_left (by omega)]
      exact h6 (by omega)
  refine ⟨fun _ => ?_, fun h => absurd ⟨hp, hmk'⟩ h⟩
  have h5' : Sec 46 78 (m ++ c.take (46 - m.length)) k.num := h5.other _ (by simp; omega)
  obtain ⟨num, e3, e4, e5⟩ := fill_sec (c.drop (46 - m.length)) h5' (by rw [h4]) (by omega) v3
  rw [v1] at e5
  dsimp only
  rw [e3, C.bind_ok, ← List.length_append, v1, v2]
  have hat : HDHead.At prvPrefixes g2 (m ++ c.take (78 - m.length)) := by
    have := a2.keep ((c.drop (45 - m.length)).take (78 - (m ++ c.take (45 - m.length)).length)) (by simp; omega)
    rwa [(take_chain m c (lo := 45) (hi := 78) (by omega)).1] at this
  have hM : (m ++ c).take 78 = m ++ c.take (78 - m.length) := by
    rw [List.take_append, List.take_of_length_le (by omega)]
  have hr : (m ++ c.take (78 - m.length)).length - m.length = (c.take (78 - m.length)).length := by rw [List.length_append]; omega
  by_cases hl : (m ++ c.take (78 - m.length)).length = 78
  · have hnum : num = (m ++ c.take (78 - m.length)).drop 46 := by
      have := e5.full (by omega)
      rwa [List.take_of_length_le (by omega), List.take_of_length_le (by rw [List.length_drop, hl])] at this
    have hd : ((m ++ c.take (78 - m.length)).drop 46).length = 32 := by rw [List.length_drop, hl]
    rw [if_pos hl, Scalar.finish_spec (by rw [e4, h4]), hnum]
    dsimp only
    rw [pubOf_spec (Spec.length_beBytes _ _) (by rw [beNat_num (Nat.mod_lt _ secpN_pos')]; exact Nat.mod_lt _ secpN_pos') hz, C.bind_ok]
    dsimp only
    rw [C.pure_eq]
    dsimp only
    rw [hr]
    refine ⟨_, rfl, fun h => absurd h (by simp at hl ⊢; omega), fun _ => ?_⟩
    · rw [hM]
      refine ⟨?_, hat, rfl, ?_⟩
      · by_cases h0 : (m ++ c.take (78 - m.length)).drop 46 = zeros 32
        · rw [h0]; rfl
        · rw [if_neg h0]
          dsimp only
          rw [if_pos (by simpa using h0)]
      · rw [beNat_num (Nat.mod_lt _ secpN_pos')]
  · rw [if_neg hl, C.pure_eq]
    have hlt : (m ++ c).length < 78 := by simp at hl ⊢; omega
    have hc : c.take (78 - m.length) = c := List.take_of_length_le (by simp at hlt; omega)
    dsimp only
    rw [hr]
    refine ⟨_, rfl, fun _ => ?_, fun h => absurd h (by omega)⟩
    · rw [hc] at hat e5 ⊢
      exact ⟨h1, rfl, hat, by rw [e4, h4], e5, hmk'⟩

/-- Handing the pieces of a byte string to `from_stream` one after the other (only the last call draws a number). -/
def feed (z : BN) : HDPriv → List Bytes → HDPriv
  | k, [] => k
  | k, c :: cs => feed z (k.fromStream z { bytes := c }).1 cs

theorem feed_failed (z : BN) (k : HDPriv) (cs : List Bytes) (h : k.status = .failed) : feed z k cs = k := by
  induction cs with
  | nil => rfl
  | cons c cs ih =>
    unfold feed
    have : k.fromStream z { bytes := c } = (k, 0, { bytes := c }) := by
      unfold fromStream
      rw [if_pos (Or.inl h)]
    rw [this]
    exact ih

theorem Fine.prefix {m c : Bytes} (h : Fine (m ++ c)) : Fine m := by
  refine ⟨fun hl => ?_, fun hl => ?_⟩
  · have := h.1 (by simp; omega)
    rwa [List.take_append_of_le_length hl] at this
  · have := h.2 (by simp; omega)
    rwa [List.getElem?_append_left (by omega)] at this

theorem feed_got {z : BN} (hz : Blind z) (k : HDPriv) (m : Bytes) (cs : List Bytes) (h : k.Got m) (hc : ∀ c ∈ cs, c ≠ []) (hm : m.length < 78)
    (hl : m.length + cs.flatten.length = 78) :
    (Fine (m ++ cs.flatten) → (feed z k cs).Has (m ++ cs.flatten)) ∧ (¬ Fine (m ++ cs.flatten) → (feed z k cs).status = .failed) := by
  induction cs generalizing k m with
  | nil => simp at hl; omega
  | cons c cs ih =>
    simp only [List.flatten_cons, List.length_append] at hl
    unfold feed
    obtain ⟨s1, s2⟩ := step c hz h hm
    rw [List.flatten_cons, ← List.append_assoc]
    by_cases hf : Fine (m ++ c)
    · obtain ⟨k', e, s3, s4⟩ := s1 hf
      rw [e]
      by_cases hcs : cs = []
      · subst hcs
        simp only [List.flatten_nil, List.append_nil, List.length_nil, Nat.add_zero] at hl ⊢
        have := s4 (by rw [List.length_append]; omega)
        rw [List.take_of_length_le (by rw [List.length_append]; omega)] at this
        exact ⟨fun _ => this, fun h => absurd hf h⟩
      · have hpos : 0 < cs.flatten.length := by
          obtain ⟨d, ds, rfl⟩ := List.exists_cons_of_ne_nil hcs
          have : 0 < d.length := List.length_pos_iff.mpr (hc d (by simp))
          simp; omega
        exact ih k' (m ++ c) (s3 (by rw [List.length_append]; omega)) (fun x hx => hc x (by simp [hx])) (by rw [List.length_append]; omega)
          (by rw [List.length_append]; omega)
    · have hs := s2 hf
      rw [feed_failed z _ cs hs]
      exact ⟨fun h => absurd h.prefix hf, fun _ => hs⟩

theorem start (z : BN) (k : HDPriv) (bs : Bytes) (h : k.status = .done) :
    k.fromStream z { bytes := bs } = ({ k with status := .incomplete, bytesParsed := 0 } : HDPriv).fromStream z { bytes := bs } := by
  unfold fromStream
  simp [h]

theorem got_start (k : HDPriv) (hn : k.num.length = 32) (hw : k.head.Wf) : ({ k with status := .incomplete, bytesParsed := 0 } : HDPriv).Got [] :=
  ⟨rfl, rfl, HDHead.At.empty hw.pre hw.fingerprint hw.chainCode, hn, by simp [Sec], by simp⟩

theorem fine_iff {m : Bytes} (hm : m.length = 78) : Fine m ↔ (∃ net ∈ networks, ∃ t, m.take 4 = prvPrefix net t) ∧ m[45]? = some 0 := by
  unfold Fine
  rw [hm]
  simp only [show 4 ≤ 78 by omega, show 46 ≤ 78 by omega, true_imp_iff]
  refine and_congr_left fun _ => ⟨fun h => ?_, fun ⟨net, hn, t, e⟩ => ?_⟩
  · obtain ⟨⟨n, t⟩, e⟩ := Option.isSome_iff_exists.mp h
    obtain ⟨h1, h2, -⟩ := findPrefix_prv e
    exact ⟨n, h1, t, h2.symm⟩
  · rw [e, (findPrefix_written net hn t).1]
    rfl

/-- C37: 78 bytes arriving in any pieces are accepted exactly if they start with the version bytes of a private key, have a zero byte
before the secret and a secret that is not all zeros; the members then are what the bytes say. -/
theorem C37_priv_pieces (k : HDPriv) (cs : List Bytes) (m : Bytes) (z : BN) (hz : Blind z) (hs : k.status = .done) (hn : k.num.length = 32)
    (hw : k.head.Wf) (hc : ∀ c ∈ cs, c ≠ []) (hcs : cs.flatten = m) (hm : m.length = 78) :
    ((feed z k cs).status = .done ↔ (∃ net ∈ networks, ∃ t, m.take 4 = prvPrefix net t) ∧ m[45]? = some 0 ∧ m.drop 46 ≠ zeros 32) ∧
    ((feed z k cs).status ≠ .done → (feed z k cs).status = .failed) ∧
    ((feed z k cs).status = .done → (feed z k cs).head.network ∈ networks ∧
      (feed z k cs).head.bytes (prvPrefix (feed z k cs).head.network (feed z k cs).head.type) = m.take 45 ∧
      (feed z k cs).num = beBytes 32 (beNat (m.drop 46) % secpN) ∧ (feed z k cs).pubKey.Holds ((beNat (m.drop 46) % secpN) • G) ∧
      (feed z k cs).head.Wf) := by
  have e : feed z k cs = feed z { k with status := .incomplete, bytesParsed := 0 } cs := by
    cases cs with
    | nil => rw [← hcs] at hm; simp at hm
    | cons c cs => unfold feed; rw [start z k _ hs]
  have h := feed_got hz _ [] cs (got_start k hn hw) hc (by simp) (by rw [hcs]; simpa using hm)
  rw [← e, List.nil_append, hcs] at h
  generalize feed z k cs = r at *
  rw [fine_iff hm] at h
  by_cases hf : (∃ net ∈ networks, ∃ t, m.take 4 = prvPrefix net t) ∧ m[45]? = some 0
  · obtain ⟨h1, h2, h3, h4⟩ := h.1 hf
    obtain ⟨r1, r2⟩ := h2.read (by omega)
    obtain ⟨n1, n2, -⟩ := findPrefix_prv r1
    refine ⟨?_, ?_, fun _ => ⟨n1, ?_, h3, ?_, h2.fpLen, h2.ccLen, h2.preLen⟩⟩
    · rw [h1]
      by_cases h0 : m.drop 46 = zeros 32
      · simp [h0]
      · simp only [h0, if_false, true_iff]
        exact ⟨hf.1, hf.2, h0⟩
    · intro hne
      rw [h1] at hne ⊢
      by_cases h0 : m.drop 46 = zeros 32
      · rw [if_pos h0]
      · rw [if_neg h0] at hne
        exact absurd rfl hne
    · rw [n2, r2]; rfl
    · rw [h4]; rfl
  · have h1 := h.2 hf
    refine ⟨?_, fun _ => h1, ?_⟩
    · rw [h1]
      exact ⟨fun h => by simp at h, fun h => absurd ⟨h.1, h.2.1⟩ hf⟩
    · rw [h1]; intro h; simp at h

theorem bytes_eq (k : HDPriv) (d : Nat) (h : k.Holds d) :
    k.bytes = extended (prvPrefix k.head.network k.head.type) k.head.depth.toNat k.head.fingerprint k.head.childNumber.toNat k.head.chainCode (0 :: beBytes 32 d) := by
  unfold bytes extended
  rw [headBytes, h.num]
  simp

theorem headBytes_length {h : HDHead} {v : Bytes} (hw : h.Wf) (hv : v.length = 4) : (h.bytes v).length = 45 := by
  unfold HDHead.bytes be32
  simp [hv, hw.fingerprint, hw.chainCode]

theorem bytes_length (k : HDPriv) (d : Nat) (h : k.Holds d) (hn : k.head.network ∈ networks) : k.bytes.length = 78 := by
  unfold bytes
  rw [List.length_append, List.length_append, headBytes_length h.wf (prefix_len _ hn _).1, h.num, Spec.length_beBytes]
  rfl

/-- C37: the serialized private key is that of BIP32, to a stream of any capacity and from any offset. -/
theorem C37_priv_toStream (k : HDPriv) (d : Nat) (h : k.Holds d) (hn : k.head.network ∈ networks) (cap : Option Nat) (off : Nat) :
    k.toStream cap off = .ok (window cap off (extended (prvPrefix k.head.network k.head.type) k.head.depth.toNat k.head.fingerprint
      k.head.childNumber.toNat k.head.chainCode (0 :: beBytes 32 d))) := by
  have hl := bytes_length k d h hn
  rw [← bytes_eq k d h]
  unfold toStream
  have := Ser.emit_after' cap off [] k.bytes 78 (by omega) 0 78 rfl rfl
  rw [List.nil_append, List.take_of_length_le (by omega)] at this
  rw [← Ser.after_nil cap off]
  dsimp only
  rw [this]
  rfl

theorem has_roundtrip (k r : HDPriv) (d : Nat) (h : k.Holds d) (hn : k.head.network ∈ networks) (hr : r.Has k.bytes) : r.Holds d ∧ r.head.Same k.head := by
  obtain ⟨h1, h2, h3, h4⟩ := hr
  have hv := (prefix_len _ hn k.head.type).1
  have hd : k.bytes.drop 46 = beBytes 32 d := by
    unfold bytes
    rw [List.drop_left' (by rw [List.length_append, headBytes_length h.wf hv]; rfl), h.num]
  have hm : beNat (k.bytes.drop 46) % secpN = d := by rw [hd, beNat_num h.lt, Nat.mod_eq_of_lt h.lt]
  rw [hm] at h3 h4
  have hs := HDHead.At.same (g := r.head) (h := k.head) (v := prvPrefix k.head.network k.head.type) (m := [0x00] ++ k.num)
    (by unfold bytes at h2; rwa [List.append_assoc] at h2) h.wf hv (findPrefix_written _ hn _).1
  refine ⟨⟨?_, h3, h.pos, h.lt, by rw [h4]; rfl, hs.2⟩, hs.1⟩
  rw [h1, if_neg]
  rw [hd]
  intro e
  have := beNat_num h.lt
  rw [e] at this
  have h0 : beNat (zeros 32) = 0 := by decide +kernel
  have := h.pos
  omega

/-- C37: what a private key writes, read in any pieces, gives back the secret, the public key, the chain code, depth, fingerprint of the
parent and child number, the type as far as it has version bytes, and a network with the same version bytes. -/
theorem C37_priv_roundtrip_partial (k k0 : HDPriv) (d : Nat) (cs : List Bytes) (z : BN) (h : k.Holds d) (hn : k.head.network ∈ networks) (hz : Blind z)
    (hs : k0.status = .done) (hn0 : k0.num.length = 32) (hw : k0.head.Wf) (hc : ∀ c ∈ cs, c ≠ []) (hcs : cs.flatten = k.bytes) :
    (feed z k0 cs).Holds d ∧ (feed z k0 cs).head.Same k.head := by
  have hl := bytes_length k d h hn
  have e : feed z k0 cs = feed z { k0 with status := .incomplete, bytesParsed := 0 } cs := by
    cases cs with
    | nil => rw [← hcs] at hl; simp at hl
    | cons c cs => unfold feed; rw [start z k0 _ hs]
  have hf := feed_got hz _ [] cs (got_start k0 hn0 hw) hc (by simp) (by rw [hcs]; simpa using hl)
  rw [← e, List.nil_append, hcs] at hf
  refine has_roundtrip k _ d h hn (hf.1 ?_)
  rw [fine_iff hl]
  have hv := (prefix_len _ hn k.head.type).1
  refine ⟨⟨_, hn, k.head.type, ?_⟩, ?_⟩
  · unfold bytes HDHead.bytes
    simp only [List.append_assoc]
    rw [List.take_left' hv]
  · unfold bytes
    rw [List.append_assoc, List.getElem?_append_right (by rw [headBytes_length h.wf hv]), headBytes_length h.wf hv]
    rfl

end HDPriv

/-! ### Reading public keys -/

namespace HDPub

/-- The object after the bytes `m` have arrived (fewer than 78). -/
structure Got (k : HDPub) (m : Bytes) : Prop where
  status : k.key.status = .incomplete
  parsed : k.key.bytesParsed = m.length
  head : k.head.At pubPrefixes m
  length : k.key.point.length = 64
  point : Sec 45 78 m k.key.point
  compressed : k.key.compressed = true

/-- The first bytes are as they must be. -/
def Fine (m : Bytes) : Prop := 4 ≤ m.length → (findPrefix pubPrefixes (m.take 4) networks).isSome

/-- What happens when the last byte has arrived. -/
def last (junk : Bytes) (k : HDPub) (g : HDHead) (q : Bytes) (ret bp : Nat) (st rest : PStream) : HDPub × Nat × PStream :=
  match finish junk { k.key with point := q } with
  | .ub => ({ k with key := { k.key with status := .ub, bytesParsed := bp } }, 0, st)
  | .ok key => ({ head := g, key := { key with bytesParsed := 78 } }, ret, rest)

theorem step (junk : Bytes) {k : HDPub} {m : Bytes} (c : Bytes) (hk : k.Got m) (hm : m.length < 78) :
    (Fine (m ++ c) → (m ++ c).length < 78 → ∃ k', k.fromStream junk { bytes := c } = (k', c.length, { bytes := [] }) ∧ k'.Got (m ++ c)) ∧
    (Fine (m ++ c) → 78 ≤ (m ++ c).length → ∃ g q, HDHead.At pubPrefixes g ((m ++ c).take 78) ∧ q.length = 64 ∧ q.take 33 = ((m ++ c).take 78).drop 45 ∧
      k.fromStream junk { bytes := c } = last junk k g q (78 - m.length) m.length { bytes := c } { bytes := c.drop (78 - m.length) }) ∧
    (¬ Fine (m ++ c) → (k.fromStream junk { bytes := c }).1.key.status = .failed) := by
  obtain ⟨h1, h2, h3, h4, h5, h6⟩ := hk
  have hk : ({ k.key with status := .incomplete, bytesParsed := m.length } : ECPoint) = k.key := by rw [← h1, ← h2]
  unfold fromStream
  rw [if_neg (by rw [h1]; simp), h1]
  simp only [reduceCtorEq, if_false]
  rw [h2, hk]
  unfold body
  rw [h2]
  by_cases hp : Fine (m ++ c)
  swap
  · refine ⟨fun h => absurd h hp, fun h => absurd h hp, fun _ => ?_⟩
    unfold Fine at hp
    push Not at hp
    obtain ⟨hp4, hp⟩ := hp
    simp only [Bool.not_eq_true, Option.isSome_eq_false_iff, Option.isNone_iff_eq_none] at hp
    have hm4 : m.length < 4 := by
      by_contra hge
      rw [List.take_append_of_le_length (by omega), h3.known (by omega)] at hp
      simp at hp
    obtain ⟨h', n, st, e⟩ := HDHead.readPrefix_unknown c h3 hm4 hp4 hp
    rw [e, C.bind_ok]
    rfl
  obtain ⟨g1, e1, a1⟩ := HDHead.readPrefix_at c h3 hp
  obtain ⟨t1, t2, t3⟩ := take_chain m c (lo := 4) (hi := 45) (by omega)
  obtain ⟨g2, e2, a2⟩ := HDHead.readRest_at (c.drop (4 - m.length)) a1 t3
  rw [t1, t2] at e2
  rw [t1] at a2
  obtain ⟨v1, v2, v3⟩ := take_chain m c (lo := 45) (hi := 78) (by omega)
  have hat : HDHead.At pubPrefixes g2 (m ++ c.take (78 - m.length)) := by
    have := a2.keep ((c.drop (45 - m.length)).take (78 - (m ++ c.take (45 - m.length)).length)) (by simp; omega)
    rwa [v1] at this
  have h5' : Sec 45 78 (m ++ c.take (45 - m.length)) k.key.point := h5.other _ (by simp; omega)
  obtain ⟨q, e3, e4, e5⟩ := fill_sec (c.drop (45 - m.length)) h5' (by rw [h4]; omega) (by omega) v3
  rw [v1] at e5
  rw [e1, C.bind_ok]
  dsimp only
  rw [Bool.not_true, if_neg (by simp), e2, C.bind_ok]
  dsimp only
  rw [readN_plain]
  dsimp only
  rw [e3, C.bind_ok, ← List.length_append, v1, v2]
  have hM : (m ++ c).take 78 = m ++ c.take (78 - m.length) := by
    rw [List.take_append, List.take_of_length_le (by omega)]
  refine ⟨fun _ hlt => ?_, fun _ hge => ?_, fun h => absurd hp h⟩
  · have hc : c.take (78 - m.length) = c := List.take_of_length_le (by simp at hlt; omega)
    have hr : (m ++ c).length - m.length = c.length := by rw [List.length_append]; omega
    rw [hc, if_neg (by omega), C.pure_eq]
    dsimp only
    rw [hr, List.drop_eq_nil_of_le (by simp at hlt; omega)]
    rw [hc] at hat e5
    exact ⟨_, rfl, h1, rfl, hat, by rw [e4, h4], e5, h6⟩
  · have hl : (m ++ c.take (78 - m.length)).length = 78 := by simp at hge ⊢; omega
    refine ⟨g2, q, by rw [hM]; exact hat, by rw [e4, h4], ?_, ?_⟩
    · have := e5.full (by omega)
      rw [hM, this, List.take_of_length_le (by rw [List.length_drop, hl])]
    · rw [if_pos hl]
      unfold last
      match finish junk { k.key with point := q } with
      | .ub => rfl
      | .ok key => rw [C.bind_ok, C.pure_eq, hl]

/-- The last step is the one for compressed points. -/
theorem finish_eq (junk : Bytes) (p : ECPoint) (fb : UInt8) (t : Bytes) (hc : p.compressed = true) (ht : t.length = 63) (hp : p.point = fb :: t) :
    finish junk p = ECPoint.finish junk fb { p with point := t ++ [0] } := by
  unfold finish ECPoint.finish
  have l1 : load p.point 0 33 = .ok (fb :: t.take 32) := by unfold load; rw [if_pos (by rw [hp]; simp; omega), hp]; rfl
  have l2 : load (t ++ [0]) 0 32 = .ok (t.take 32) := by
    unfold load
    rw [if_pos (by simp; omega), List.drop_zero, List.take_append_of_le_length (by omega)]
  rw [l1, C.bind_ok]
  simp only [hc, if_true, l2, C.bind_ok]
  match uncompressPubkey (fb :: t.take 32) junk with
  | .ub => rfl
  | .ok (b, buf) =>
    simp only [C.bind_ok]
    match load buf 1 64 with
    | .ub => rfl
    | .ok q => rfl

theorem finish_point (junk : Bytes) {p : ECPoint} {P : Pt} (h0 : P ≠ 0) (hl : p.point.length = 64) (hc : p.compressed = true)
    (hp : p.point.take 33 = secOf true P) : finish junk p = .ok { p with point := rawPoint P, status := .done } := by
  match hpt : p.point with
  | [] => rw [hpt] at hl; simp at hl
  | fb :: t =>
    rw [hpt] at hl hp
    rw [finish_eq junk p fb t hc (by simpa using hl) hpt]
    have := ECPoint.finish_holds (p := { p with point := t ++ [0] }) junk h0 (by simp; simpa using hl) fb (t.take 32) (by rw [hc, ← hp]; rfl)
      (by rw [ECPoint.length, hc]; simp only [if_true]; rw [List.take_append_of_le_length (by simp at hl; omega)])
    rw [this]

/-- Handing the pieces of a byte string to `from_stream` one after the other. -/
def feed (junk : Bytes) : HDPub → List Bytes → HDPub
  | k, [] => k
  | k, c :: cs => feed junk (k.fromStream junk { bytes := c }).1 cs

theorem feed_failed (junk : Bytes) (k : HDPub) (cs : List Bytes) (h : k.key.status = .failed) : feed junk k cs = k := by
  induction cs with
  | nil => rfl
  | cons c cs ih =>
    unfold feed
    have : k.fromStream junk { bytes := c } = (k, 0, { bytes := c }) := by
      unfold fromStream
      rw [if_pos (Or.inl h)]
    rw [this]
    exact ih

theorem Fine.prefix {m c : Bytes} (h : Fine (m ++ c)) : Fine m := by
  intro hl
  have := h (by simp; omega)
  rwa [List.take_append_of_le_length hl] at this

/-- What an object is after 78 bytes. -/
def Has (junk : Bytes) (k : HDPub) (m : Bytes) : Prop :=
  ∃ (k0 : HDPub) (q : Bytes) (g : HDHead) (ret bp : Nat) (st rest : PStream), k0.key.compressed = true ∧ g.At pubPrefixes m ∧ q.length = 64 ∧
    q.take 33 = m.drop 45 ∧ k = (last junk k0 g q ret bp st rest).1

theorem feed_got (junk : Bytes) (k : HDPub) (m : Bytes) (cs : List Bytes) (h : k.Got m) (hc : ∀ c ∈ cs, c ≠ []) (hm : m.length < 78)
    (hl : m.length + cs.flatten.length = 78) :
    (Fine (m ++ cs.flatten) → Has junk (feed junk k cs) (m ++ cs.flatten)) ∧ (¬ Fine (m ++ cs.flatten) → (feed junk k cs).key.status = .failed) := by
  induction cs generalizing k m with
  | nil => simp at hl; omega
  | cons c cs ih =>
    simp only [List.flatten_cons, List.length_append] at hl
    unfold feed
    obtain ⟨s1, s2, s3⟩ := step junk c h hm
    rw [List.flatten_cons, ← List.append_assoc]
    by_cases hf : Fine (m ++ c)
    · by_cases hcs : cs = []
      · subst hcs
        simp only [List.flatten_nil, List.append_nil, List.length_nil, Nat.add_zero] at hl ⊢
        obtain ⟨g, q, q1, q2, q3, q4⟩ := s2 hf (by rw [List.length_append]; omega)
        rw [List.take_of_length_le (i := 78) (by rw [List.length_append]; omega)] at q1 q3
        exact ⟨fun _ => ⟨k, q, g, _, _, _, _, h.compressed, q1, q2, q3, by rw [q4]; rfl⟩, fun h => absurd hf h⟩
      · have hpos : 0 < cs.flatten.length := by
          obtain ⟨d, ds, rfl⟩ := List.exists_cons_of_ne_nil hcs
          have : 0 < d.length := List.length_pos_iff.mpr (hc d (by simp))
          simp; omega
        obtain ⟨k', e, s4⟩ := s1 hf (by rw [List.length_append]; omega)
        rw [e]
        exact ih k' (m ++ c) s4 (fun x hx => hc x (by simp [hx])) (by rw [List.length_append]; omega) (by rw [List.length_append]; omega)
    · have hs := s3 hf
      rw [feed_failed junk _ cs hs]
      exact ⟨fun h => absurd h.prefix hf, fun _ => hs⟩

theorem start (junk : Bytes) (k : HDPub) (bs : Bytes) (h : k.key.status = .done) :
    k.fromStream junk { bytes := bs } = ({ k with key := { k.key with status := .incomplete, bytesParsed := 0 } } : HDPub).fromStream junk { bytes := bs } := by
  unfold fromStream
  simp [h]

theorem got_start (k : HDPub) (hn : k.key.point.length = 64) (hc : k.key.compressed = true) (hw : k.head.Wf) :
    ({ k with key := { k.key with status := .incomplete, bytesParsed := 0 } } : HDPub).Got [] :=
  ⟨rfl, rfl, HDHead.At.empty hw.pre hw.fingerprint hw.chainCode, hn, by simp [Sec], hc⟩

theorem feed_has (junk : Bytes) (k : HDPub) (m : Bytes) (cs : List Bytes) (hs : k.key.status = .done) (hn : k.key.point.length = 64)
    (hc : k.key.compressed = true) (hw : k.head.Wf) (hne : ∀ c ∈ cs, c ≠ []) (hcs : cs.flatten = m) (hm : m.length = 78) :
    ((∃ net ∈ networks, ∃ t, m.take 4 = pubPrefix net t) → Has junk (feed junk k cs) m) ∧
    (¬ (∃ net ∈ networks, ∃ t, m.take 4 = pubPrefix net t) → (feed junk k cs).key.status = .failed) := by
  have e : feed junk k cs = feed junk { k with key := { k.key with status := .incomplete, bytesParsed := 0 } } cs := by
    cases cs with
    | nil => rw [← hcs] at hm; simp at hm
    | cons c cs => unfold feed; rw [start junk k _ hs]
  have h := feed_got junk _ [] cs (got_start k hn hc hw) hne (by simp) (by rw [hcs]; simpa using hm)
  rw [← e, List.nil_append, hcs] at h
  have : Fine m ↔ ∃ net ∈ networks, ∃ t, m.take 4 = pubPrefix net t := by
    unfold Fine
    rw [hm]
    simp only [show 4 ≤ 78 by omega, true_imp_iff]
    refine ⟨fun h => ?_, fun ⟨net, hn, t, e⟩ => ?_⟩
    · obtain ⟨⟨n, t⟩, e⟩ := Option.isSome_iff_exists.mp h
      obtain ⟨h1, h2, -⟩ := findPrefix_pub e
      exact ⟨n, h1, t, h2.symm⟩
    · rw [e, (findPrefix_written net hn t).2]
      rfl
  rwa [this] at h

theorem bytes_eq (k : HDPub) (P : Pt) (h : k.Holds P) :
    k.bytes = .ok (k.head.bytes (pubPrefix k.head.network k.head.type) ++ secOf true P) := by
  unfold bytes
  have hp : k.key.point = rawPoint P := h.point
  have hl : k.key.point.length = 64 := h.point.length
  have l1 : load k.key.point 0 32 = .ok (k.key.point.take 32) := by unfold load; rw [if_pos (by omega), List.drop_zero]
  have l2 : entry k.key.point 63 = .ok (k.key.point.getD 63 0) := by
    unfold entry
    rw [List.getD_eq_getElem?_getD, List.getElem?_eq_getElem (by omega)]
    rfl
  have hb := ECPoint.bytes_spec h.point
  rw [ECPoint.bytes, h.compressed] at hb
  rw [l1, C.bind_ok, l2, C.bind_ok, C.pure_eq, ← hb, ECPoint.length, h.compressed]
  simp

end HDPub

end UB
