import Verif.Lemmas.PSBTFields
import Verif.Props.Signature
import Verif.Lemmas.ECScalar

/-
Well-formed fields are accepted, and the object holds them.
-/

namespace UB
open Spec

instance : LawfulMonad C := LawfulMonad.mk' C (id_map := fun x => by cases x <;> rfl) (pure_bind := fun _ _ => rfl) (bind_assoc := fun x _ _ => by cases x <;> rfl)

theorem mapM_ok {α β : Type} (f : α → C β) (g : α → β) : ∀ l : List α, (∀ a ∈ l, f a = .ok (g a)) → l.mapM f = .ok (l.map g)
  | [], _ => by simp
  | a :: l, h => by
    rw [List.mapM_cons, h a (List.mem_cons_self ..), C.bind_ok, mapM_ok f g l (fun b hb => h b (List.mem_cons_of_mem _ hb)), C.bind_ok]
    rfl

theorem length_path (path : List Nat) : (path.flatMap (leBytes 4)).length = 4 * path.length := by
  induction path with
  | nil => rfl
  | cons k path ih => rw [List.flatMap_cons, List.length_append, ih, Spec.length_leBytes, List.length_cons]; omega

theorem drop_path (path : List Nat) (i : Nat) (h : i < path.length) : ((path.flatMap (leBytes 4)).drop (4 * i)).take 4 = leBytes 4 path[i] := by
  induction path generalizing i with
  | nil => simp at h
  | cons k path ih =>
    rw [List.flatMap_cons]
    cases i with
    | zero => rw [Nat.mul_zero, List.drop_zero, List.take_left' (Spec.length_leBytes 4 k)]; rfl
    | succ i =>
      rw [show 4 * (i + 1) = (leBytes 4 k).length + 4 * i by rw [Spec.length_leBytes]; omega, List.drop_append, List.drop_of_length_le (by omega), List.nil_append,
        show (leBytes 4 k).length + 4 * i - (leBytes 4 k).length = 4 * i by omega]
      exact ih i (by simpa using h)

/-- A fingerprint and a path behind a length prefix. -/
theorem Derivation.load_eq (d : Derivation) (pre fp : Bytes) (path : List Nat) (hf : fp.length = 4) (hp : path.length < 256) (hk : ∀ k ∈ path, k < 2 ^ 32)
    (hd : dataPos (pre ++ (fp ++ path.flatMap (leBytes 4))) = pre.length) :
    d.load (pre ++ (fp ++ path.flatMap (leBytes 4))) = .ok { d with ready := true, fingerprint := fp, path := path.map Nat.toUInt32 } := by
  have hl := length_path path
  unfold Derivation.load
  dsimp only
  rw [hd, show UB.load (pre ++ (fp ++ path.flatMap (leBytes 4))) pre.length 4 = .ok fp by
    unfold UB.load
    rw [if_pos (by simp; omega), List.drop_left, List.take_left' hf]]
  rw [C.bind_ok, mapM_ok _ (fun i => (path.getD i 0).toUInt32)]
  · rw [C.bind_ok]
    have e : ((pre ++ (fp ++ path.flatMap (leBytes 4))).length - pre.length - 4) / 4 % 256 = path.length := by
      rw [List.length_append, List.length_append, hl, hf]; omega
    rw [e]
    have e2 : (List.range path.length).map (fun i => (path.getD i 0).toUInt32) = path.map Nat.toUInt32 := by
      apply List.ext_getElem (by simp)
      intro i h1 h2
      simp at h1
      simp [h1]
    rw [e2]
    rfl
  · intro i hi
    rw [List.mem_range] at hi
    have e : ((pre ++ (fp ++ path.flatMap (leBytes 4))).length - pre.length - 4) / 4 % 256 = path.length := by
      rw [List.length_append, List.length_append, hl, hf]; omega
    rw [e] at hi
    unfold UB.load
    rw [if_pos (by simp; omega)]
    rw [C.bind_ok]
    have e3 : ((pre ++ (fp ++ path.flatMap (leBytes 4))).drop (pre.length + 4 * (i + 1))).take 4 = leBytes 4 path[i] := by
      rw [List.drop_append, List.drop_of_length_le (by omega), List.nil_append, show pre.length + 4 * (i + 1) - pre.length = fp.length + 4 * i by omega,
        List.drop_append, List.drop_of_length_le (by omega), List.nil_append, show fp.length + 4 * i - fp.length = 4 * i by omega, drop_path path i hi]
    rw [e3, C.pure_eq]
    congr 1
    apply UInt32.toNat_inj.mp
    have := hk path[i] (List.getElem_mem hi)
    rw [UInt64.toNat_toUInt32, littleEndianToInt_eq, leValue_leBytes]
    simp [hi]

/-! ### Well-formed fields -/

namespace Spec

/-- An entry `(fingerprint, path)` the library can read.  A value of 252 bytes, that is a path with 62 components, is read at the wrong position. -/
structure KeyOrigin.Ok (o : KeyOrigin) : Prop where
  point : o.point ≠ 0
  fingerprint : o.fingerprint.length = 4
  path : ∀ k ∈ o.path, k < 2 ^ 32
  short : o.path.length < 256
  size : o.path.length ≠ 62

structure SigEntry.Ok (g : SigEntry) : Prop where
  point : g.point ≠ 0
  der : DerSig g.der g.r g.s
  r : g.r < 2 ^ 256
  s : g.s < 2 ^ 256

/-- A pair whose key does not start with one of the bytes `codes`. -/
structure OtherOk (codes : List UInt8) (p : Pair) : Prop where
  key : ∃ c r, p.1 = c :: r ∧ c ∉ codes
  size : misread p.1.length = 0
  klen : p.1.length < 2 ^ 31
  vlen : p.2.length < 2 ^ 31

/-- A field of the input that spends output `n` of the transaction `id`. -/
def InField.Ok (id : Bytes) (n : Nat) : InField → Prop
  | .prevTx t => WireTx t ∧ t.ins ≠ [] ∧ t.ins.length < 253 ∧ t.outs.length < 253 ∧ hash256 (legacyBytes t) = id ∧ n < t.outs.length ∧
      (txBytes t).length < 2 ^ 31 ∧ misread (txBytes t).length = 0
  | .utxo o => ValidOut o ∧ (outBytes o).length < 2 ^ 31 ∧ misread (outBytes o).length = 0
  | .partialSig g => g.Ok
  | .redeemScript s => s.length < 2 ^ 31
  | .witnessScript s => s.length < 2 ^ 31
  | .origin o => o.Ok
  | .other p => OtherOk [0, 1, 2, 4, 5, 6] p

def OutField.Ok : OutField → Prop
  | .redeemScript s => s.length < 2 ^ 31
  | .witnessScript s => s.length < 2 ^ 31
  | .origin o => o.Ok
  | .other p => OtherOk [0, 1, 2] p

end Spec

/-- The object holds the signature. -/
structure PartialSig.Holds (g : PartialSig) (e : SigEntry) : Prop where
  pubkey : g.pubkey.Has e.compressed e.point
  r : g.signature.r = beBytes 32 e.r
  s : g.signature.s = beBytes 32 e.s

/-- The object holds the fingerprint and path. -/
structure Derivation.Holds (d : Derivation) (o : KeyOrigin) : Prop where
  ready : d.ready = true
  pubkey : d.pubkey.Has o.compressed o.point
  fingerprint : d.fingerprint = o.fingerprint
  path : d.path.map UInt32.toNat = o.path

/-- The metadata of an input that spends output number `n` of some transaction: for what can be there once, the last field counts. -/
structure InMeta.Holds (m : InMeta) (n : Nat) (fs : List InField) : Prop where
  spent : match lastOf (·.spent n) fs with
    | some o => m.txOut.Holds o
    | none => m.txOut = {}
  redeem : m.redeemScript.Holds ((lastOf InField.redeem fs).getD [])
  witness : m.witnessScript.Holds ((lastOf InField.witness fs).getD [])
  sigs : List.Forall₂ PartialSig.Holds m.signatures (fs.filterMap InField.sig)
  keys : List.Forall₂ Derivation.Holds m.derivations (fs.filterMap InField.key)

structure OutMeta.Holds (m : OutMeta) (fs : List OutField) : Prop where
  redeem : m.redeemScript.Holds ((lastOf OutField.redeem fs).getD [])
  witness : m.witnessScript.Holds ((lastOf OutField.witness fs).getD [])
  keys : List.Forall₂ Derivation.Holds m.derivations (fs.filterMap OutField.key)

theorem lastOf_snoc {α β : Type} (f : α → Option β) (fs : List α) (x : α) : lastOf f (fs ++ [x]) = (f x).or (lastOf f fs) := by
  unfold lastOf
  rw [List.filterMap_append, List.filterMap_cons, List.filterMap_nil]
  cases f x with
  | none => simp
  | some b => simp

theorem length_varBytes_small {d : Bytes} (h : d.length < 253) : (varBytes d).length = d.length + 1 := by
  unfold varBytes compactSize
  rw [if_pos (by omega)]
  simp

theorem varBytes_small {d : Bytes} (h : d.length < 253) : varBytes d = UInt8.ofNat d.length :: d := by
  unfold varBytes compactSize
  rw [if_pos (by omega)]
  rfl

/-- A derivation entry. -/
theorem addDerivation_ok (junk : Bytes) (ds : List Derivation) (o : KeyOrigin) (c : UInt8) (ho : o.Ok) (hl : ds.length ≠ 255) :
    ∃ d, addDerivation junk ds (varBytes (c :: secOf o.compressed o.point)) (varBytes (originValue o)) = .ok (1, ds ++ [d]) ∧ d.Holds o := by
  have hk := length_secOf o.compressed o.point
  have hk2 : (varBytes (c :: secOf o.compressed o.point)).length = (secOf o.compressed o.point).length + 2 := by
    rw [length_varBytes_small (by rw [List.length_cons, hk]; split <;> omega), List.length_cons]
  obtain ⟨p', hp, hh⟩ := ECPoint.fromSec_secOf (p := {}) junk o.compressed (P := o.point) [] rfl rfl ho.point
  rw [List.append_nil] at hp
  have hdrop : (varBytes (c :: secOf o.compressed o.point)).drop 2 = secOf o.compressed o.point := by
    rw [varBytes_small (by rw [List.length_cons, hk]; split <;> omega)]
    rfl
  have hvl : (originValue o).length = 4 + 4 * o.path.length := by
    unfold originValue
    rw [List.length_append, length_path, ho.fingerprint]
  have hpos : dataPos (varBytes (originValue o)) = (compactSize (originValue o).length).length := by
    rw [dataPos_eq _ (by have := ho.short; omega)]
    unfold misread
    rw [if_neg (by have := ho.size; have := ho.short; omega)]
    rfl
  have hload := Derivation.load_eq { pubkey := p' } (compactSize (originValue o).length) o.fingerprint o.path ho.fingerprint ho.short ho.path hpos
  refine ⟨{ pubkey := p', ready := true, fingerprint := o.fingerprint, path := o.path.map Nat.toUInt32 }, ?_, ⟨rfl, hh, rfl, ?_⟩⟩
  · unfold addDerivation
    rw [if_neg (by rw [hk2, hk]; split <;> omega), if_neg hl, hdrop, hp]
    dsimp only
    rw [if_neg (by rw [hh.status]; decide), if_neg (by rw [hh.status]; decide)]
    change ({ pubkey := p' } : Derivation).load (compactSize (originValue o).length ++ (o.fingerprint ++ o.path.flatMap (leBytes 4))) >>= _ = _
    rw [hload, C.bind_ok]
    rfl
  · dsimp only
    rw [List.map_map]
    conv_rhs => rw [← List.map_id o.path]
    apply List.map_congr_left
    intro k hk'
    have := ho.path k hk'
    simp
    omega

/-- Scripts read from a whole value. -/
theorem Script.read_value (sc : Script) (h : sc.Ready) (d : Bytes) (hd : d.length < 2 ^ 31) :
    (sc.fromStream (.of (varBytes d))).1.status = .done ∧ (sc.fromStream (.of (varBytes d))).1.Holds d := by
  have hb : varBytes d ≠ [] := by
    unfold varBytes
    have := compactSize_length d.length
    intro e
    have h2 := congrArg List.length e
    rw [List.length_append, List.length_nil] at h2
    omega
  have h1 := Script.feed sc [] (varBytes d) (Or.inl ⟨h, rfl, hb⟩)
  unfold Script.Outcome at h1
  have h2 := readVar_varBytes d [] hd
  rw [List.append_nil] at h2
  rw [List.nil_append, h2] at h1
  exact ⟨h1.1, h1.2.1⟩

theorem Script.Holds.ready {sc : Script} {d : Bytes} (h : sc.Holds d) (hs : sc.status = .done) : sc.Ready := ⟨hs, by rw [h.1, h.2]⟩

theorem keyCode_cons (c : UInt8) (r : Bytes) (h : misread (c :: r).length = 0) : keyCode (c :: r) = .ok c := by
  unfold keyCode peek
  rw [h]
  rfl

/-- Readiness of the sub-objects. -/
structure InMeta.Inv (m : InMeta) (n : Nat) (fs : List InField) : Prop where
  holds : m.Holds n fs
  txOut : m.txOut.Ready
  redeem : m.redeemScript.Ready
  witness : m.witnessScript.Ready

theorem InMeta.inv_fresh (n : Nat) : ({} : InMeta).Inv n [] :=
  ⟨⟨rfl, ⟨rfl, rfl⟩, ⟨rfl, rfl⟩, .nil, .nil⟩, ⟨rfl, rfl⟩, ⟨rfl, rfl⟩, ⟨rfl, rfl⟩⟩

theorem forall₂_snoc {α β : Type} {R : α → β → Prop} {xs : List α} {ys : List β} {a : α} {b : β} (h : List.Forall₂ R xs ys) (hab : R a b) :
    List.Forall₂ R (xs ++ [a]) (ys ++ [b]) := List.rel_append (R := R) h (.cons hab .nil)

theorem filterMap_snoc_none {α β : Type} {f : α → Option β} {l : List α} {x : α} (h : f x = none) : (l ++ [x]).filterMap f = l.filterMap f := by
  rw [List.filterMap_append, List.filterMap_cons, h]
  simp

theorem misread_small {n : Nat} (h : n < 252) : misread n = 0 := by unfold misread; rw [if_neg (by omega)]

theorem sigBytes_of_der {der : Bytes} {r s : Nat} (h : DerSig der r s) (hr : r < 2 ^ 256) (hs : s < 2 ^ 256) :
    ∃ L : UInt8, L ≤ 70 ∧ der = sigBytes L (beBytes 32 r) (beBytes 32 s) := by
  have lr : (beBytes 32 r).length = 32 := Spec.length_beBytes ..
  have ls : (beBytes 32 s).length = 32 := Spec.length_beBytes ..
  refine ⟨UInt8.ofNat (intLen (beBytes 32 r) + intLen (beBytes 32 s) + 4), ?_, derSig_unique h ?_⟩
  · have h1 := length_derBytes _ lr
    have h2 := length_derBytes _ ls
    rw [UInt8.le_iff_toNat_le]
    simp
    omega
  · have := sigBytes_der (beBytes 32 r) (beBytes 32 s) lr ls
    rw [show beValue (beBytes 32 r) = r from beNat_beBytes32 hr, show beValue (beBytes 32 s) = s from beNat_beBytes32 hs] at this
    exact this

theorem der_length {der : Bytes} {r s : Nat} (h : DerSig der r s) : der.length < 130 := by
  obtain ⟨cr, cs, -, -, hl, rfl⟩ := h
  simp
  omega

/-- A partial signature. -/
theorem InMeta.add_sig (m : InMeta) (ti : TxIn) (junk : Bytes) (g : SigEntry) (hf : g.Ok) (hl : m.signatures.length ≠ 255) :
    ∃ x, m.add junk ti 2 (varBytes (2 :: secOf g.compressed g.point)) (varBytes (g.der ++ [g.type])) = .ok (1, { m with signatures := m.signatures ++ [x] }) ∧ x.Holds g := by
  have hkl := length_secOf g.compressed g.point
  have hkb : (2 :: secOf g.compressed g.point).length < 253 := by rw [List.length_cons, hkl]; split <;> omega
  obtain ⟨L, hL, hder⟩ := sigBytes_of_der hf.der hf.r hf.s
  have hdl := der_length hf.der
  obtain ⟨p', hp, hh⟩ := ECPoint.fromSec_secOf (p := {}) junk g.compressed (P := g.point) [] rfl rfl hf.point
  rw [List.append_nil] at hp
  have hsig := Sig.fromStream_full {} L (beBytes 32 g.r) (beBytes 32 g.s) [g.type] rfl hL (Spec.length_beBytes ..) (Spec.length_beBytes ..)
  rw [← hder] at hsig
  refine ⟨⟨p', { ({} : Sig) with bytesParsed := g.der.length, tot0 := L, tot1 := UInt8.ofNat (intLen (beBytes 32 g.r)), tot2 := UInt8.ofNat (intLen (beBytes 32 g.s)), r := beBytes 32 g.r, s := beBytes 32 g.s }⟩, ?_, ⟨hh, rfl, rfl⟩⟩
  · unfold InMeta.add
    rw [if_neg (by decide), if_neg (by decide), if_pos rfl, if_neg (by rw [length_varBytes_small hkb, List.length_cons, hkl]; split <;> omega),
      varBytes_small hkb, varBytes_small (by rw [List.length_append, List.length_singleton]; omega)]
    rw [show List.drop 2 (UInt8.ofNat (2 :: secOf g.compressed g.point).length :: 2 :: secOf g.compressed g.point) = secOf g.compressed g.point from rfl,
      show List.drop 1 (UInt8.ofNat (g.der ++ [g.type]).length :: (g.der ++ [g.type])) = g.der ++ [g.type] from rfl]
    rw [hp, hsig]
    dsimp only
    rw [if_neg (by rw [hh.status]; decide), if_neg (by rw [hh.status]; decide), if_neg (by decide), if_neg (by decide), if_neg hl]

theorem InMeta.step {m : InMeta} {pre : List InField} {ti : TxIn} {f : InField} (hi : m.Inv ti.outputIndex.toNat pre) (hf : f.Ok ti.hash ti.outputIndex.toNat)
    (hs : ((pre ++ [f]).filterMap InField.sig).length ≤ 255) (hk : ((pre ++ [f]).filterMap InField.key).length ≤ 255) :
    PSBT.GoodPair f.pair ∧ ∃ code, keyCode f.pair.1 = .ok code ∧ ∀ junk, ∃ r m', m.add junk ti code (varBytes f.pair.1) (varBytes f.pair.2) = .ok (r, m') ∧ 0 ≤ r ∧
      m'.Inv ti.outputIndex.toNat (pre ++ [f]) := by
  obtain ⟨⟨h1, h2, h3, h4, h5⟩, h6, h7, h8⟩ := hi
  have hsl := h4.length_eq
  have hdl := h5.length_eq
  cases f with
  | prevTx t =>
    obtain ⟨hw, hne, hli, hlo, hid, hn, hsz, hmis⟩ := hf
    refine ⟨⟨by simp [InField.pair], by simp [InField.pair], hsz⟩, 0, keyCode_cons _ _ rfl, fun junk => ?_⟩
    dsimp only [InField.pair]
    have hfe := Tx.feed {} [] (txBytes t) (Or.inl ⟨rfl, rfl⟩)
    have hrd := readTx_complete t hw hne hli hlo []
    rw [List.append_nil] at hrd
    unfold Tx.Out at hfe
    rw [List.nil_append, hrd] at hfe
    obtain ⟨g1, g2, -⟩ := hfe
    have hh := Tx.hash_eq _ t g2 (sizes_wire t hw (by omega) (by omega))
    obtain ⟨o, e1, e2⟩ : ∃ o, (({} : Tx).fromStream (.of (txBytes t))).1.txOuts[ti.outputIndex.toNat]? = some o ∧ o.Holds t.outs[ti.outputIndex.toNat] := by
      have h3 := List.forall₂_iff_get.mp g2.outs
      have hlt : ti.outputIndex.toNat < (({} : Tx).fromStream (.of (txBytes t))).1.txOuts.length := by rw [h3.1]; exact hn
      exact ⟨_, List.getElem?_eq_getElem hlt, h3.2 _ hlt hn⟩
    have hst := Tx.fromStream_outs_done g1 (List.mem_of_getElem? e1)
    refine ⟨1, { m with txOut := m.txOut.assign o }, ?_, by decide, ⟨⟨?_, ?_, ?_, ?_, ?_⟩, TxOut.assign_ready h6 e2 hst, h7, h8⟩⟩
    · unfold InMeta.add
      rw [if_pos rfl, if_neg (by simp [length_varBytes_small]), drop_dataPos _ hsz, hmis, List.drop_zero]
      change (({} : Tx).fromStream { bytes := txBytes t }).1.status = _ at g1
      change (({} : Tx).fromStream { bytes := txBytes t }).1.hash = _ at hh
      change (({} : Tx).fromStream { bytes := txBytes t }).1.txOuts[_]? = _ at e1
      dsimp only
      rw [if_neg (by rw [g1]; decide), if_neg (by rw [g1]; decide), hh, C.bind_ok, if_neg (by rw [hid]; exact fun h => h rfl), e1]
      rfl
    · rw [lastOf_snoc]
      have : InField.spent ti.outputIndex.toNat (.prevTx t) = some t.outs[ti.outputIndex.toNat] := List.getElem?_eq_getElem hn
      rw [this]
      exact TxOut.assign_holds h6.2 e2
    · rw [lastOf_snoc]; exact h2
    · rw [lastOf_snoc]; exact h3
    · rw [filterMap_snoc_none (by rfl)]; exact h4
    · rw [filterMap_snoc_none (by rfl)]; exact h5
  | utxo o =>
    obtain ⟨hv, hsz, hmis⟩ := hf
    refine ⟨⟨by simp [InField.pair], by simp [InField.pair], hsz⟩, 1, keyCode_cons _ _ rfl, fun junk => ?_⟩
    dsimp only [InField.pair]
    have hfe := TxOut.feed m.txOut [] (outBytes o) (Or.inl ⟨h6, rfl⟩)
    have hrd := codecOut.complete o [] hv
    rw [List.append_nil] at hrd
    unfold Fed at hfe
    rw [List.nil_append, hrd] at hfe
    obtain ⟨g1, g2, -⟩ := hfe
    refine ⟨1, { m with txOut := (m.txOut.fromStream (.of (outBytes o))).1 }, ?_, by decide, ⟨⟨?_, ?_, ?_, ?_, ?_⟩, ⟨g1, by rw [g2.script.1, g2.script.2]⟩, h7, h8⟩⟩
    · unfold InMeta.add
      rw [if_neg (by decide), if_pos rfl, if_neg (by simp [length_varBytes_small]), drop_dataPos _ hsz, hmis, List.drop_zero]
      change (m.txOut.fromStream { bytes := outBytes o }).1.status = _ at g1
      dsimp only
      rw [if_neg (by rw [g1]; decide), if_neg (by rw [g1]; decide)]
    · rw [lastOf_snoc]; exact g2
    · rw [lastOf_snoc]; exact h2
    · rw [lastOf_snoc]; exact h3
    · rw [filterMap_snoc_none (by rfl)]; exact h4
    · rw [filterMap_snoc_none (by rfl)]; exact h5
  | partialSig g =>
    have hkl := length_secOf g.compressed g.point
    have hdl := der_length hf.der
    have hkb : (secOf g.compressed g.point).length ≤ 65 := by rw [hkl]; split <;> omega
    refine ⟨⟨by simp [InField.pair], by simp [InField.pair]; omega, by simp [InField.pair]; omega⟩, 2, keyCode_cons _ _ (misread_small (by rw [List.length_cons]; omega)), fun junk => ?_⟩
    have hl : m.signatures.length ≠ 255 := by
      rw [List.filterMap_append] at hs
      simp [InField.sig] at hs
      omega
    obtain ⟨x, e1, e2⟩ := InMeta.add_sig m ti junk g hf hl
    refine ⟨1, _, e1, by decide, ⟨⟨?_, ?_, ?_, ?_, ?_⟩, h6, h7, h8⟩⟩
    · rw [lastOf_snoc]; exact h1
    · rw [lastOf_snoc]; exact h2
    · rw [lastOf_snoc]; exact h3
    · rw [List.filterMap_append]; exact forall₂_snoc h4 e2
    · rw [filterMap_snoc_none (by rfl)]; exact h5
  | redeemScript d =>
    refine ⟨⟨by simp [InField.pair], by simp [InField.pair], hf⟩, 4, keyCode_cons _ _ rfl, fun junk => ?_⟩
    dsimp only [InField.pair]
    obtain ⟨e1, e2⟩ := Script.read_value m.redeemScript h7 d hf
    refine ⟨1, { m with redeemScript := (m.redeemScript.fromStream (.of (varBytes d))).1 }, ?_, by decide, ⟨⟨?_, ?_, ?_, ?_, ?_⟩, h6, e2.ready e1, h8⟩⟩
    · unfold InMeta.add
      rw [if_neg (by decide), if_neg (by decide), if_neg (by decide), if_pos rfl, if_neg (by simp [length_varBytes_small])]
      change (m.redeemScript.fromStream { bytes := varBytes d }).1.status = _ at e1
      dsimp only
      rw [if_neg (by rw [e1]; decide)]
    · rw [lastOf_snoc]; exact h1
    · rw [lastOf_snoc]; exact e2
    · rw [lastOf_snoc]; exact h3
    · rw [filterMap_snoc_none (by rfl)]; exact h4
    · rw [filterMap_snoc_none (by rfl)]; exact h5
  | witnessScript d =>
    refine ⟨⟨by simp [InField.pair], by simp [InField.pair], hf⟩, 5, keyCode_cons _ _ rfl, fun junk => ?_⟩
    dsimp only [InField.pair]
    obtain ⟨e1, e2⟩ := Script.read_value m.witnessScript h8 d hf
    refine ⟨1, { m with witnessScript := (m.witnessScript.fromStream (.of (varBytes d))).1 }, ?_, by decide, ⟨⟨?_, ?_, ?_, ?_, ?_⟩, h6, h7, e2.ready e1⟩⟩
    · unfold InMeta.add
      rw [if_neg (by decide), if_neg (by decide), if_neg (by decide), if_neg (by decide), if_pos rfl, if_neg (by simp [length_varBytes_small])]
      change (m.witnessScript.fromStream { bytes := varBytes d }).1.status = _ at e1
      dsimp only
      rw [if_neg (by rw [e1]; decide)]
    · rw [lastOf_snoc]; exact h1
    · rw [lastOf_snoc]; exact h2
    · rw [lastOf_snoc]; exact e2
    · rw [filterMap_snoc_none (by rfl)]; exact h4
    · rw [filterMap_snoc_none (by rfl)]; exact h5
  | origin o =>
    have hkl := length_secOf o.compressed o.point
    have hkb : (secOf o.compressed o.point).length ≤ 65 := by rw [hkl]; split <;> omega
    have hvl : (originValue o).length = 4 + 4 * o.path.length := by
      unfold originValue
      rw [List.length_append, length_path, hf.fingerprint]
    have := hf.short
    refine ⟨⟨by simp [InField.pair], by simp [InField.pair]; omega, by simp only [InField.pair]; omega⟩, 6, keyCode_cons _ _ (misread_small (by rw [List.length_cons]; omega)), fun junk => ?_⟩
    have hl : m.derivations.length ≠ 255 := by
      rw [List.filterMap_append] at hk
      simp [InField.key] at hk
      omega
    obtain ⟨d, e1, e2⟩ := addDerivation_ok junk m.derivations o 6 hf hl
    refine ⟨1, { m with derivations := m.derivations ++ [d] }, ?_, by decide, ⟨⟨?_, ?_, ?_, ?_, ?_⟩, h6, h7, h8⟩⟩
    · unfold InMeta.add
      rw [if_neg (by decide), if_neg (by decide), if_neg (by decide), if_neg (by decide), if_neg (by decide), if_pos rfl]
      change (addDerivation junk m.derivations (varBytes (6 :: secOf o.compressed o.point)) (varBytes (originValue o)) >>= _) = _
      rw [e1, C.bind_ok]
      rfl
    · rw [lastOf_snoc]; exact h1
    · rw [lastOf_snoc]; exact h2
    · rw [lastOf_snoc]; exact h3
    · rw [filterMap_snoc_none (by rfl)]; exact h4
    · rw [List.filterMap_append]; exact forall₂_snoc h5 e2
  | other p =>
    obtain ⟨⟨c, r, hc, hn⟩, hm, hkl, hvl⟩ := hf
    refine ⟨⟨by simp [InField.pair, hc], hkl, hvl⟩, c, ?_, fun junk => ⟨0, m, ?_, by decide, ⟨⟨?_, ?_, ?_, ?_, ?_⟩, h6, h7, h8⟩⟩⟩
    · simp only [InField.pair]
      rw [hc] at hm ⊢
      exact keyCode_cons _ _ hm
    · unfold InMeta.add
      simp only [List.mem_cons, List.not_mem_nil, or_false, not_or] at hn
      rw [if_neg hn.1, if_neg hn.2.1, if_neg hn.2.2.1, if_neg hn.2.2.2.1, if_neg hn.2.2.2.2.1, if_neg hn.2.2.2.2.2]
    · rw [lastOf_snoc]; exact h1
    · rw [lastOf_snoc]; exact h2
    · rw [lastOf_snoc]; exact h3
    · rw [filterMap_snoc_none (by rfl)]; exact h4
    · rw [filterMap_snoc_none (by rfl)]; exact h5

/-- A list of well-formed fields is accepted. -/
theorem InMeta.safe (ti : TxIn) : ∀ (fs pre : List InField) (m : InMeta), m.Inv ti.outputIndex.toNat pre → (∀ f ∈ fs, f.Ok ti.hash ti.outputIndex.toNat) →
    ((pre ++ fs).filterMap InField.sig).length ≤ 255 → ((pre ++ fs).filterMap InField.key).length ≤ 255 →
    (∀ q ∈ fs.map InField.pair, PSBT.GoodPair q) ∧ InSafe ti (fun m' => m'.Inv ti.outputIndex.toNat (pre ++ fs)) m (fs.map InField.pair)
  | [], pre, m, hi, _, _, _ => ⟨by simp, by rw [List.append_nil]; exact hi⟩
  | f :: fs, pre, m, hi, hf, hs, hk => by
    have e : pre ++ f :: fs = (pre ++ [f]) ++ fs := by simp
    rw [e] at hs hk ⊢
    have hs' : ((pre ++ [f]).filterMap InField.sig).length ≤ 255 := by
      rw [List.filterMap_append, List.length_append] at hs; omega
    have hk' : ((pre ++ [f]).filterMap InField.key).length ≤ 255 := by
      rw [List.filterMap_append, List.length_append] at hk; omega
    obtain ⟨g, code, hc, hstep⟩ := InMeta.step hi (hf f (List.mem_cons_self ..)) hs' hk'
    have hrec := fun m' h' => InMeta.safe ti fs (pre ++ [f]) m' h' (fun x hx => hf x (List.mem_cons_of_mem _ hx)) hs hk
    refine ⟨?_, ⟨code, hc, fun junk => ?_⟩⟩
    · intro q hq
      rw [List.map_cons] at hq
      rcases List.mem_cons.mp hq with rfl | hq
      · exact g
      · obtain ⟨r, m', -, -, h'⟩ := hstep []
        exact (hrec m' h').1 q hq
    · obtain ⟨r, m', h1, h2, h3⟩ := hstep junk
      exact ⟨r, m', h1, h2, (hrec m' h3).2⟩

/-! ### Output maps -/

structure OutMeta.Inv (m : OutMeta) (fs : List OutField) : Prop where
  holds : m.Holds fs
  redeem : m.redeemScript.Ready
  witness : m.witnessScript.Ready

theorem OutMeta.inv_fresh : ({} : OutMeta).Inv [] := ⟨⟨⟨rfl, rfl⟩, ⟨rfl, rfl⟩, .nil⟩, ⟨rfl, rfl⟩, ⟨rfl, rfl⟩⟩

theorem OutMeta.step {m : OutMeta} {pre : List OutField} {f : OutField} (hi : m.Inv pre) (hf : f.Ok) (hk : ((pre ++ [f]).filterMap OutField.key).length ≤ 255) :
    PSBT.GoodPair f.pair ∧ ∃ code, keyCode f.pair.1 = .ok code ∧ ∀ junk, ∃ r m', m.add junk code (varBytes f.pair.1) (varBytes f.pair.2) = .ok (r, m') ∧ 0 ≤ r ∧ m'.Inv (pre ++ [f]) := by
  obtain ⟨⟨h2, h3, h5⟩, h7, h8⟩ := hi
  have hdl := h5.length_eq
  cases f with
  | redeemScript d =>
    refine ⟨⟨by simp [OutField.pair], by simp [OutField.pair], hf⟩, 0, keyCode_cons _ _ rfl, fun junk => ?_⟩
    dsimp only [OutField.pair]
    obtain ⟨e1, e2⟩ := Script.read_value m.redeemScript h7 d hf
    refine ⟨1, { m with redeemScript := (m.redeemScript.fromStream (.of (varBytes d))).1 }, ?_, by decide, ⟨⟨?_, ?_, ?_⟩, e2.ready e1, h8⟩⟩
    · unfold OutMeta.add
      rw [if_pos rfl, if_neg (by simp [length_varBytes_small])]
      change (m.redeemScript.fromStream { bytes := varBytes d }).1.status = _ at e1
      dsimp only
      rw [if_neg (by rw [e1]; decide)]
    · rw [lastOf_snoc]; exact e2
    · rw [lastOf_snoc]; exact h3
    · rw [filterMap_snoc_none (by rfl)]; exact h5
  | witnessScript d =>
    refine ⟨⟨by simp [OutField.pair], by simp [OutField.pair], hf⟩, 1, keyCode_cons _ _ rfl, fun junk => ?_⟩
    dsimp only [OutField.pair]
    obtain ⟨e1, e2⟩ := Script.read_value m.witnessScript h8 d hf
    refine ⟨1, { m with witnessScript := (m.witnessScript.fromStream (.of (varBytes d))).1 }, ?_, by decide, ⟨⟨?_, ?_, ?_⟩, h7, e2.ready e1⟩⟩
    · unfold OutMeta.add
      rw [if_neg (by decide), if_pos rfl, if_neg (by simp [length_varBytes_small])]
      change (m.witnessScript.fromStream { bytes := varBytes d }).1.status = _ at e1
      dsimp only
      rw [if_neg (by rw [e1]; decide)]
    · rw [lastOf_snoc]; exact h2
    · rw [lastOf_snoc]; exact e2
    · rw [filterMap_snoc_none (by rfl)]; exact h5
  | origin o =>
    have hkl := length_secOf o.compressed o.point
    have hkb : (secOf o.compressed o.point).length ≤ 65 := by rw [hkl]; split <;> omega
    have hvl : (originValue o).length = 4 + 4 * o.path.length := by
      unfold originValue
      rw [List.length_append, length_path, hf.fingerprint]
    have := hf.short
    refine ⟨⟨by simp [OutField.pair], by simp [OutField.pair]; omega, by simp only [OutField.pair]; omega⟩, 2, keyCode_cons _ _ (misread_small (by rw [List.length_cons]; omega)), fun junk => ?_⟩
    have hl : m.derivations.length ≠ 255 := by
      rw [List.filterMap_append] at hk
      simp [OutField.key] at hk
      omega
    obtain ⟨d, e1, e2⟩ := addDerivation_ok junk m.derivations o 2 hf hl
    refine ⟨1, { m with derivations := m.derivations ++ [d] }, ?_, by decide, ⟨⟨?_, ?_, ?_⟩, h7, h8⟩⟩
    · unfold OutMeta.add
      rw [if_neg (by decide), if_neg (by decide), if_pos rfl]
      change (addDerivation junk m.derivations (varBytes (2 :: secOf o.compressed o.point)) (varBytes (originValue o)) >>= _) = _
      rw [e1, C.bind_ok]
      rfl
    · rw [lastOf_snoc]; exact h2
    · rw [lastOf_snoc]; exact h3
    · rw [List.filterMap_append]; exact forall₂_snoc h5 e2
  | other p =>
    obtain ⟨⟨c, r, hc, hn⟩, hm, hkl, hvl⟩ := hf
    refine ⟨⟨by simp [OutField.pair, hc], hkl, hvl⟩, c, ?_, fun junk => ⟨0, m, ?_, by decide, ⟨⟨?_, ?_, ?_⟩, h7, h8⟩⟩⟩
    · simp only [OutField.pair]
      rw [hc] at hm ⊢
      exact keyCode_cons _ _ hm
    · unfold OutMeta.add
      simp only [List.mem_cons, List.not_mem_nil, or_false, not_or] at hn
      rw [if_neg hn.1, if_neg hn.2.1, if_neg hn.2.2]
    · rw [lastOf_snoc]; exact h2
    · rw [lastOf_snoc]; exact h3
    · rw [filterMap_snoc_none (by rfl)]; exact h5

theorem OutMeta.safe : ∀ (fs pre : List OutField) (m : OutMeta), m.Inv pre → (∀ f ∈ fs, f.Ok) → ((pre ++ fs).filterMap OutField.key).length ≤ 255 →
    (∀ q ∈ fs.map OutField.pair, PSBT.GoodPair q) ∧ OutSafe (fun m' => m'.Inv (pre ++ fs)) m (fs.map OutField.pair)
  | [], pre, m, hi, _, _ => ⟨by simp, by rw [List.append_nil]; exact hi⟩
  | f :: fs, pre, m, hi, hf, hk => by
    have e : pre ++ f :: fs = (pre ++ [f]) ++ fs := by simp
    rw [e] at hk ⊢
    have hk' : ((pre ++ [f]).filterMap OutField.key).length ≤ 255 := by
      rw [List.filterMap_append, List.length_append] at hk; omega
    obtain ⟨g, code, hc, hstep⟩ := OutMeta.step hi (hf f (List.mem_cons_self ..)) hk'
    have hrec := fun m' h' => OutMeta.safe fs (pre ++ [f]) m' h' (fun x hx => hf x (List.mem_cons_of_mem _ hx)) hk
    refine ⟨?_, ⟨code, hc, fun junk => ?_⟩⟩
    · intro q hq
      rw [List.map_cons] at hq
      rcases List.mem_cons.mp hq with rfl | hq
      · exact g
      · obtain ⟨r, m', -, -, h'⟩ := hstep []
        exact (hrec m' h').1 q hq
    · obtain ⟨r, m', h1, h2, h3⟩ := hstep junk
      exact ⟨r, m', h1, h2, (hrec m' h3).2⟩

end UB
