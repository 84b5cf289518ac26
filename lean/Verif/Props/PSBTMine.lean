import Verif.Props.PSBTSign

/-
C73: which outputs of a PSBT count as belonging to a key.
-/

namespace UB
open Spec BN

attribute [local irreducible] secpP secpN BN.multiply BN.fastMod BN.mod BN.subtractmod BN.multK BN.addmod BN.inverse BN.lshift BN.subi BN.add
  BN.multHalf BN.cmov BN.isEqual BN.isZero BN.sqrt BN.subtract scalarMultiply pointMultiply CurvePoint.add readBE writeBE BN.addi doubleSha Spec.hash256
  hmac512 hmacSha512 hash160 Spec.hash160 signDigest ecdsaDeterministic signatureOf fingerprintOf keyAt

namespace Spec

/-- The key entries of an output. -/
def keysOfOut (fs : List OutField) : List KeyOrigin := fs.filterMap OutField.key

/-- Point and chain code at the end of a path, starting from a public key: the rule of BIP32 for indexes below 2^31, used for all indexes. -/
noncomputable def pointAt (P : Pt) (c : Bytes) : List Nat → Pt × Bytes
  | [] => (P, c)
  | i :: is => pointAt (beNat ((pubHash P c i).take 32) • G + P) ((pubHash P c i).drop 32) is

/-- The paths on which BIP32 defines public derivation everywhere. -/
def pubPathAt (P : Pt) (c : Bytes) : List Nat → Option Pt → Prop
  | [], r => r = some P
  | i :: is, r => match ckdPub P c i with
    | none => r = none
    | some (P', c') => pubPathAt P' c' is r

end Spec

attribute [local irreducible] pubHash

theorem HDPub.derive_sound {k : HDPub} {P : Pt} (h : k.Sound P) {rnd : Nat → BN} (hz : ∀ n, Blind (rnd n)) (is : List UInt32) :
    ∃ r, k.derive rnd is = .ok r ∧ r.Sound (pointAt P k.head.chainCode (is.map (·.toNat))).1 := by
  induction is generalizing k P rnd with
  | nil => exact ⟨k, rfl, h⟩
  | cons i is ih =>
    obtain ⟨r, e, hr, hh⟩ := HDPub.child_sound h i (hz 0)
    obtain ⟨q, q1, q2⟩ := ih hr (rnd := fun n => rnd (n + 1)) (fun n => hz _)
    refine ⟨q, ?_, ?_⟩
    · rw [derive, e, C.bind_ok, q1]
    · rw [List.map_cons, pointAt]
      rw [hh] at q2
      exact q2

/-- Where BIP32 defines the derivation, the point at the end of the path is the one of BIP32. -/
theorem Spec.pointAt_of_pubPath {P : Pt} {c : Bytes} {path : List Nat} {Q : Pt} (h : pubPathAt P c path (some Q)) : (pointAt P c path).1 = Q := by
  induction path generalizing P c with
  | nil =>
    unfold pubPathAt at h
    rw [pointAt]
    exact (Option.some.inj h).symm
  | cons i is ih =>
    unfold pubPathAt at h
    rw [pointAt]
    cases hc : ckdPub P c i with
    | none => rw [hc] at h; cases h
    | some v =>
      obtain ⟨P', c'⟩ := v
      rw [hc] at h
      unfold ckdPub at hc
      split at hc
      · exact absurd hc (by simp)
      dsimp only at hc
      split at hc
      · exact absurd hc (by simp)
      simp only [Option.some.injEq, Prod.mk.injEq] at hc
      obtain ⟨rfl, rfl⟩ := hc
      have := ih h
      unfold pubHash
      exact this

namespace PSBT

/-- A loop that looks at the entries one by one. -/
theorem mine_loop {f : Bool → Derivation × Nat → C Bool} {own : KeyOrigin → Prop} [DecidablePred own]
    (hf : ∀ (b : Bool) (D : Derivation) (n : Nat) (o : KeyOrigin), D.Holds o → f b (D, n) = .ok (b || decide (own o)))
    {Ds : List Derivation} {os : List KeyOrigin} (h : List.Forall₂ Derivation.Holds Ds os) (b : Bool) (n : Nat) :
    (Ds.zipIdx n).foldlM f b = .ok (b || decide (∃ o ∈ os, own o)) := by
  induction h generalizing b n with
  | nil => simp
  | @cons D o Ds os hD _ ih =>
    rw [List.zipIdx_cons, List.foldlM_cons, hf b D n o hD, C.bind_ok, ih]
    simp only [List.exists_mem_cons_iff, Bool.decide_or, Bool.or_assoc]

end PSBT

theorem PSBT.Holds.out {p : PSBT} {doc : PsbtDoc} (h : p.Holds doc) {n : Nat} {fs : List OutField} (hfs : doc.outs[n]? = some fs) :
    ∃ m, p.outs[n]? = some m ∧ m.Holds fs := by
  have ho := h.outs
  generalize p.outs = ms at ho ⊢
  generalize doc.outs = fss at ho hfs
  induction ho generalizing n with
  | nil => simp at hfs
  | @cons a b as bs hab _ ih =>
    cases n with
    | zero =>
      simp only [List.getElem?_cons_zero, Option.some.injEq] at hfs ⊢
      subst hfs
      exact ⟨b, rfl, hab⟩
    | succ n =>
      simp only [List.getElem?_cons_succ] at hfs ⊢
      exact ih hfs

open Classical in
/-- C73: with a private key the output counts as the key's exactly if for one of its entries the key at the end of the path is the
recorded key. -/
theorem C73_private {p : PSBT} {doc : PsbtDoc} (h : p.Holds doc) (key : HDPriv) (d : Nat) (c : Bytes) (hk : key.IsKey d c) (rnd : Nat → Nat → BN)
    (hz : ∀ j n, Blind (rnd j n)) (n : UInt8) (fs : List OutField) (hfs : doc.outs[n.toNat]? = some fs) :
    p.isMinePriv n key rnd = .ok (decide (∃ o ∈ keysOfOut fs, o.point = (keyAt d c o.path).1 • G)) := by
  obtain ⟨m, hm, hh⟩ := h.out hfs
  unfold PSBT.isMinePriv
  rw [hm]
  dsimp only
  rw [PSBT.mine_loop (own := fun o => o.point = (keyAt d c o.path).1 • G) _ hh.keys]
  · rw [Bool.false_or]; rfl
  · intro b D j o hD
    dsimp only
    rw [hD.ready]
    obtain ⟨r, e, hr⟩ := HDPriv.derive_isKey hk (rnd := rnd j) (hz j) D.path
    rw [hD.path] at hr
    rw [if_neg (by simp), e, C.bind_ok, C.pure_eq]
    have h1 : r.xpub.key.point = rawPoint ((keyAt d c o.path).1 • G) := hr.sound.pub
    have h2 : D.pubkey.point = rawPoint o.point := hD.pubkey.point
    rw [h1, h2]
    congr 2
    rw [Bool.eq_iff_iff, beq_iff_eq, decide_eq_true_iff]
    exact ⟨fun h => (rawPoint_inj h).symm, fun h => by rw [h]⟩

open Classical in
/-- C73: with a public key the output counts as the key's exactly if for one of its entries the point at the end of the path is the
recorded key; every index of the path, hardened or not, is used in the rule for indexes below 2^31. -/
theorem C73_public {p : PSBT} {doc : PsbtDoc} (h : p.Holds doc) (key : HDPub) (P : Pt) (hk : key.Sound P) (rnd : Nat → Nat → BN)
    (hz : ∀ j n, Blind (rnd j n)) (n : UInt8) (fs : List OutField) (hfs : doc.outs[n.toNat]? = some fs) :
    p.isMinePub n key rnd = .ok (decide (∃ o ∈ keysOfOut fs, o.point = (pointAt P key.head.chainCode o.path).1)) := by
  obtain ⟨m, hm, hh⟩ := h.out hfs
  unfold PSBT.isMinePub
  rw [hm]
  dsimp only
  rw [PSBT.mine_loop (own := fun o => o.point = (pointAt P key.head.chainCode o.path).1) _ hh.keys]
  · rw [Bool.false_or]; rfl
  · intro b D j o hD
    dsimp only
    rw [hD.ready]
    obtain ⟨r, e, hr⟩ := HDPub.derive_sound hk (rnd := rnd j) (hz j) D.path
    rw [hD.path] at hr
    rw [if_neg (by simp), e, C.bind_ok, C.pure_eq]
    have h1 : r.key.point = rawPoint _ := hr.point
    have h2 : D.pubkey.point = rawPoint o.point := hD.pubkey.point
    rw [h1, h2]
    congr 2
    rw [Bool.eq_iff_iff, beq_iff_eq, decide_eq_true_iff]
    exact ⟨fun h => (rawPoint_inj h).symm, fun h => by rw [h]⟩

/-- C73: an output with an entry of the wallet counts as the wallet's. -/
theorem C73_own {p : PSBT} {doc : PsbtDoc} (h : p.Holds doc) (key : HDPriv) (d : Nat) (c : Bytes) (hk : key.IsKey d c) (rnd : Nat → Nat → BN)
    (hz : ∀ j n, Blind (rnd j n)) (n : UInt8) (fs : List OutField) (hfs : doc.outs[n.toNat]? = some fs) (o : KeyOrigin) (ho : o ∈ keysOfOut fs) (hw : Owns d c o) :
    p.isMinePriv n key rnd = .ok true := by
  rw [C73_private h key d c hk rnd hz n fs hfs]
  congr 1
  rw [decide_eq_true_iff]
  exact ⟨o, ho, hw.2⟩

/-- C73: an output without entries belongs to nobody. -/
theorem C73_no_entries {p : PSBT} {doc : PsbtDoc} (h : p.Holds doc) (key : HDPriv) (d : Nat) (c : Bytes) (hk : key.IsKey d c) (rnd : Nat → Nat → BN)
    (hz : ∀ j n, Blind (rnd j n)) (n : UInt8) (fs : List OutField) (hfs : doc.outs[n.toNat]? = some fs) (ho : keysOfOut fs = []) :
    p.isMinePriv n key rnd = .ok false ∧ ∀ (xpub : HDPub) (P : Pt), xpub.Sound P → p.isMinePub n xpub rnd = .ok false := by
  constructor
  · rw [C73_private h key d c hk rnd hz n fs hfs, ho]
    simp
  · intro xpub P hP
    rw [C73_public h xpub P hP rnd hz n fs hfs, ho]
    simp

/-- C73: with a public key, on the paths on which BIP32 defines public derivation, the entry has to be the key BIP32 gives. -/
theorem C73_public_own {p : PSBT} {doc : PsbtDoc} (h : p.Holds doc) (key : HDPub) (P : Pt) (hk : key.Sound P) (rnd : Nat → Nat → BN)
    (hz : ∀ j n, Blind (rnd j n)) (n : UInt8) (fs : List OutField) (hfs : doc.outs[n.toNat]? = some fs) (Q : KeyOrigin → Pt)
    (hQ : ∀ o ∈ keysOfOut fs, pubPathAt P key.head.chainCode o.path (some (Q o))) :
    ∃ b, p.isMinePub n key rnd = .ok b ∧ (b = true ↔ ∃ o ∈ keysOfOut fs, o.point = Q o) := by
  refine ⟨_, C73_public h key P hk rnd hz n fs hfs, ?_⟩
  rw [decide_eq_true_iff]
  constructor
  · rintro ⟨o, ho, e⟩
    exact ⟨o, ho, by rw [e, pointAt_of_pubPath (hQ o ho)]⟩
  · rintro ⟨o, ho, e⟩
    exact ⟨o, ho, by rw [e, pointAt_of_pubPath (hQ o ho)]⟩

/-- On indexes below 2^31 public and private derivation give the same key. -/
theorem Spec.pointAt_eq {d : Nat} {c : Bytes} {path : List Nat} (h : ∀ i ∈ path, i < 2 ^ 31) : (pointAt (d • G) c path).1 = (keyAt d c path).1 • G := by
  induction path generalizing d c with
  | nil =>
    rw [pointAt]
    unfold keyAt
    rfl
  | cons i is ih =>
    have hi := h i (by simp)
    have hc : childHash d c i = pubHash (d • G) c i := by
      unfold childHash pubHash
      rw [if_neg (by omega)]
    have hp : beNat ((pubHash (d • G) c i).take 32) • G + d • G = (childKey d c i).1 • G := by
      unfold childKey
      rw [hc, ← add_nsmul]
      exact (mod_smul_G _).symm
    rw [pointAt, hp]
    have e : (keyAt d c (i :: is)).1 = (keyAt (childKey d c i).1 (childKey d c i).2 is).1 := by
      conv_lhs => unfold keyAt
    rw [e, ← ih (fun j hj => h j (by simp [hj]))]
    unfold childKey
    rw [hc]

/-- C73: if no entry has a hardened index, the public key and the private key give the same answer. -/
theorem C73_agree {p : PSBT} {doc : PsbtDoc} (h : p.Holds doc) (key : HDPriv) (d : Nat) (c : Bytes) (hk : key.IsKey d c) (rnd rnd' : Nat → Nat → BN)
    (hz : ∀ j n, Blind (rnd j n)) (hz' : ∀ j n, Blind (rnd' j n)) (n : UInt8) (fs : List OutField) (hfs : doc.outs[n.toNat]? = some fs)
    (hp : ∀ o ∈ keysOfOut fs, ∀ i ∈ o.path, i < 2 ^ 31) : p.isMinePub n key.xpub rnd' = p.isMinePriv n key rnd := by
  rw [C73_private h key d c hk rnd hz n fs hfs, C73_public h key.xpub (d • G) (HDPriv.xpub_sound hk.sound) rnd' hz' n fs hfs]
  congr 1
  rw [Bool.eq_iff_iff, decide_eq_true_iff, decide_eq_true_iff]
  have hcc : key.xpub.head.chainCode = c := hk.chain
  rw [hcc]
  constructor
  · rintro ⟨o, ho, e⟩
    exact ⟨o, ho, by rw [e, pointAt_eq (hp o ho)]⟩
  · rintro ⟨o, ho, e⟩
    exact ⟨o, ho, by rw [e, pointAt_eq (hp o ho)]⟩

/-- C73, code and claim disagree: the answer depends on the entries of the output only, not on the script the output pays to. -/
theorem C73_script_unchecked {p q : PSBT} {doc doc' : PsbtDoc} (h : p.Holds doc) (h' : q.Holds doc') (he : doc'.outs = doc.outs) (key : HDPriv) (d : Nat) (c : Bytes)
    (hk : key.IsKey d c) (rnd rnd' : Nat → Nat → BN) (hz : ∀ j n, Blind (rnd j n)) (hz' : ∀ j n, Blind (rnd' j n)) (n : UInt8) (hn : n.toNat < doc.outs.length) :
    q.isMinePriv n key rnd' = p.isMinePriv n key rnd := by
  have hf := List.getElem?_eq_getElem hn
  rw [C73_private h key d c hk rnd hz n _ hf, C73_private h' key d c hk rnd' hz' n _ (by rw [he]; exact hf)]

/-- C73, code and claim disagree: an output number past the last output is not refused; memory after the array is read. -/
theorem C73_number_undefined {p : PSBT} {doc : PsbtDoc} (h : p.Holds doc) (n : UInt8) (hn : doc.outs.length ≤ n.toNat) (key : HDPriv) (xpub : HDPub) (rnd : Nat → Nat → BN) :
    p.isMinePriv n key rnd = .ub ∧ p.isMinePub n xpub rnd = .ub := by
  have : p.outs[n.toNat]? = none := List.getElem?_eq_none (by rw [← h.outs.length_eq]; exact hn)
  constructor
  · unfold PSBT.isMinePriv; rw [this]
  · unfold PSBT.isMinePub; rw [this]

/-! ### Cases -/

theorem secOf_G : secOf true G = 2 :: beBytes 32 secpGx := by
  have hx : xNat G = secpGx := by rw [xNat_at at_G, ZMod.val_natCast_of_lt (by unfold secpP; decide +kernel)]
  have hy : yNat G = secpGy := by rw [yNat_at at_G, ZMod.val_natCast_of_lt (by unfold secpP; decide +kernel)]
  unfold secOf secBytes
  rw [hx, hy, if_pos rfl, if_neg (by decide)]

theorem fingerprint_one : fingerprintOf ((1 : Nat) • G) = [0x75, 0x1e, 0x76, 0xe8] := by
  unfold fingerprintOf
  rw [one_nsmul, secOf_G]
  decide +kernel

/-- An entry for the key 1 with the fingerprint of some other wallet. -/
def exStranger : KeyOrigin := ⟨true, G, [1, 2, 3, 4], []⟩

/-- The first hardened child of the key 1. -/
def exChildKey : Nat := (keyAt 1 (zeros 32) [0x80000000]).1

noncomputable def exChildOrigin : KeyOrigin := ⟨true, exChildKey • G, fingerprintOf ((1 : Nat) • G), [0x80000000]⟩

theorem exChildKey_eq : exChildKey = 17841991979671315104981493072769488648152133468113274127977847786347668983796 := by
  have e : beNat ((hmacSha512 (zeros 32) (0 :: beBytes 32 1 ++ beBytes 4 0x80000000)).take 32) =
      17841991979671315104981493072769488648152133468113274127977847786347668983795 := by decide +kernel
  unfold exChildKey keyAt keyAt childKey childHash
  rw [if_pos (by norm_num), e]
  unfold secpN
  decide +kernel

theorem exChildKey_ne : exChildKey • G ≠ 0 := by
  intro h
  have := addOrderOf_dvd_of_nsmul_eq_zero h
  rw [order_G, exChildKey_eq] at this
  unfold secpN at this
  revert this
  decide +kernel

theorem exFields_ok {o : KeyOrigin} (ho : o.Ok) : ∀ fs ∈ [[OutField.origin o]], (∀ f ∈ fs, f.Ok) ∧ (fs.filterMap OutField.key).length ≤ 255 := by
  intro fs hfs
  rw [List.mem_singleton] at hfs
  subst hfs
  refine ⟨?_, by simp [OutField.key]⟩
  intro f hf
  simp only [List.mem_cons, List.not_mem_nil, or_false] at hf
  subst hf
  exact ho

/-- The document of C58 with another entry for its output. -/
noncomputable def exMineDoc (o : KeyOrigin) : PsbtDoc := { exSignDoc with outs := [[.origin o]] }

theorem exMineDoc_ok {o : KeyOrigin} (ho : o.Ok) : (exMineDoc o).Ok :=
  { exSignDoc_ok with
    outs := rfl
    fields := exFields_ok ho }

theorem exStranger_ok : exStranger.Ok := ⟨G_ne_zero, rfl, by simp [exStranger], by simp [exStranger], by decide⟩

theorem exChildOrigin_ok : exChildOrigin.Ok := ⟨exChildKey_ne, length_fingerprintOf _, by simp [exChildOrigin], by simp [exChildOrigin], by simp [exChildOrigin]⟩

theorem hdOne_isKey' : hdOne.IsKey 1 (zeros 32) := ⟨holds_hdOne.sound, rfl, rfl⟩

/-- C73, code and claim disagree: the document, as it was parsed, has one output, with the script OP_1 that anyone can spend, and one entry
for it with the fingerprint of some other master key; the output counts as belonging to the key. -/
theorem C73_document (junk : Nat → Bytes) (rest : Bytes) : exPsbtTx.outs = [⟨4999990000, [0x51]⟩] ∧ ¬ Owns 1 (zeros 32) exStranger ∧
    (PSBT.fromStream junk {} (.of ((exMineDoc exStranger).bytes ++ rest))).1.isMinePriv 0 hdOne (fun _ _ => BN.one) = .ok true := by
  refine ⟨rfl, ?_, ?_⟩
  · rintro ⟨h, -⟩
    have hf : fingerprintOf ((1 : Nat) • G) = [0x75, 0x1e, 0x76, 0xe8] := fingerprint_one
    rw [hf] at h
    exact absurd h (by decide)
  · rw [C73_private (C57_parse_partial junk PSBT.clean_fresh (exMineDoc exStranger) (exMineDoc_ok exStranger_ok) rest).2.1 hdOne 1 (zeros 32) hdOne_isKey'
      (fun _ _ => BN.one) (fun _ _ => blind_one) 0 [.origin exStranger] rfl]
    congr 1
    rw [decide_eq_true_iff]
    refine ⟨exStranger, by simp [keysOfOut, OutField.key], ?_⟩
    have hk : (keyAt 1 (zeros 32) []).1 = 1 := by unfold keyAt; rfl
    rw [show exStranger.path = [] from rfl, hk, one_nsmul]
    rfl

theorem exPoint_ne : (pointAt G (zeros 32) [0x80000000]).1 ≠ exChildKey • G := by
  have e : beNat ((hmacSha512 (zeros 32) ((2 :: beBytes 32 secpGx) ++ beBytes 4 0x80000000)).take 32) =
      14388060465468621143038194406290664644267829140567079986557080163184937589676 := by decide +kernel
  rw [pointAt, pointAt]
  unfold pubHash
  rw [secOf_G, e, exChildKey_eq, ← succ_nsmul]
  intro h
  rw [nsmul_eq_nsmul_iff_modEq, order_G] at h
  unfold secpN Nat.ModEq at h
  revert h
  decide +kernel

/-- C73, code and claim disagree: on a document whose entry has a hardened index, as the entries of the usual wallets have, the private key
finds its output and its public key does not. -/
theorem C73_hardened (junk : Nat → Bytes) (rest : Bytes) : Owns 1 (zeros 32) exChildOrigin ∧
    (PSBT.fromStream junk {} (.of ((exMineDoc exChildOrigin).bytes ++ rest))).1.isMinePriv 0 hdOne (fun _ _ => BN.one) = .ok true ∧
    (PSBT.fromStream junk {} (.of ((exMineDoc exChildOrigin).bytes ++ rest))).1.isMinePub 0 hdOne.xpub (fun _ _ => BN.one) = .ok false := by
  have hh := (C57_parse_partial junk PSBT.clean_fresh (exMineDoc exChildOrigin) (exMineDoc_ok exChildOrigin_ok) rest).2.1
  have ho : Owns 1 (zeros 32) exChildOrigin := ⟨rfl, rfl⟩
  refine ⟨ho, C73_own hh hdOne 1 (zeros 32) hdOne_isKey' (fun _ _ => BN.one) (fun _ _ => blind_one) 0 [.origin exChildOrigin] rfl exChildOrigin
    (by simp [keysOfOut, OutField.key]) ho, ?_⟩
  rw [C73_public hh hdOne.xpub ((1 : Nat) • G) (HDPriv.xpub_sound holds_hdOne.sound) (fun _ _ => BN.one) (fun _ _ => blind_one) 0 [.origin exChildOrigin] rfl]
  congr 1
  rw [decide_eq_false_iff_not]
  rintro ⟨o, hm, h⟩
  have : o = exChildOrigin := by simpa [keysOfOut, OutField.key] using hm
  subst this
  rw [one_nsmul, show hdOne.xpub.head.chainCode = zeros 32 from rfl] at h
  exact exPoint_ne h.symm

/-- The other theorems on these documents. -/
example (junk : Nat → Bytes) (rest : Bytes) (xpub : HDPub) :
    (PSBT.fromStream junk {} (.of ((exMineDoc exStranger).bytes ++ rest))).1.isMinePub 0 hdOne.xpub (fun _ _ => BN.one) = .ok true ∧
    (PSBT.fromStream junk {} (.of ((exMineDoc exStranger).bytes ++ rest))).1.isMinePub 1 xpub (fun _ _ => BN.one) = .ub := by
  have hh := (C57_parse_partial junk PSBT.clean_fresh (exMineDoc exStranger) (exMineDoc_ok exStranger_ok) rest).2.1
  constructor
  · rw [C73_agree hh hdOne 1 (zeros 32) hdOne_isKey' (fun _ _ => BN.one) (fun _ _ => BN.one) (fun _ _ => blind_one) (fun _ _ => blind_one) 0 [.origin exStranger] rfl
      (by simp [keysOfOut, OutField.key, exStranger])]
    exact (C73_document junk rest).2.2
  · exact (C73_number_undefined hh 1 (by decide) hdOne xpub _).2

example (junk : Nat → Bytes) (rest : Bytes) : ∃ b,
    (PSBT.fromStream junk {} (.of ((exMineDoc exStranger).bytes ++ rest))).1.isMinePub 0 hdOne.xpub (fun _ _ => BN.one) = .ok b ∧
    (b = true ↔ ∃ o ∈ keysOfOut [.origin exStranger], o.point = (1 : Nat) • G) :=
  C73_public_own (C57_parse_partial junk PSBT.clean_fresh (exMineDoc exStranger) (exMineDoc_ok exStranger_ok) rest).2.1 hdOne.xpub ((1 : Nat) • G)
    (HDPriv.xpub_sound holds_hdOne.sound) (fun _ _ => BN.one) (fun _ _ => blind_one) 0 [.origin exStranger] rfl (fun _ => (1 : Nat) • G)
    (by simp [keysOfOut, OutField.key, exStranger, pubPathAt])

end UB
