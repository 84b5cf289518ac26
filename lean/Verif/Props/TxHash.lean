import Verif.Lemmas.TxHash
import Verif.Lemmas.Codec
import Verif.Props.Serialize

/-
C18 transaction ids, C19 legacy signature hash, C20 segwit signature hash.
-/

namespace UB
open Spec

theorem le_flatMap {α : Type} (f : α → Bytes) (l : List α) : ∀ y ∈ l, (f y).length ≤ (l.flatMap f).length := by
  induction l with
  | nil => intro y hy; simp at hy
  | cons x l ih =>
    intro y hy
    rw [List.flatMap_cons, List.length_append]
    rcases List.mem_cons.mp hy with rfl | hy
    · omega
    · have := ih y hy; omega

theorem length_le_flatMap {α : Type} (f : α → Bytes) (l : List α) (h : ∀ y, 1 ≤ (f y).length) :
    l.length ≤ (l.flatMap f).length := by
  induction l with
  | nil => simp
  | cons x l ih =>
    rw [List.flatMap_cons, List.length_append, List.length_cons]
    have := h x
    omega

theorem length_inBytes (i : In) : i.script.length + 8 ≤ (inBytes i).length := by
  simp only [inBytes, varBytes, List.length_append, Spec.length_leBytes]; omega

theorem length_outBytes (o : Out) : o.script.length + 8 ≤ (outBytes o).length := by
  simp only [outBytes, varBytes, List.length_append, Spec.length_leBytes]; omega

/-- Every size that matters is bounded by the length of the full serialization. -/
theorem sizes_of (x : Transaction) (h : (segwitBytes x).length < 2 ^ 60) : Sizes x := by
  have hl : (segwitBytes x).length = (legacyBytes x).length + 2
      + (x.ins.flatMap fun i => witnessBytes i.witness).length := by
    simp only [segwitBytes, legacyBytes, List.length_append, List.length_cons, List.length_nil]; omega
  have hl2 : (x.ins.flatMap inBytes).length + (x.outs.flatMap outBytes).length ≤ (legacyBytes x).length := by
    simp only [legacyBytes, List.length_append]; omega
  have h1 := length_le_flatMap inBytes x.ins (fun y => by have := length_inBytes y; omega)
  have h2 := length_le_flatMap outBytes x.outs (fun y => by have := length_outBytes y; omega)
  refine ⟨by omega, by omega, ?_, ?_, ?_, by omega, by omega⟩
  · intro i hi
    have := le_flatMap inBytes x.ins i hi
    have := length_inBytes i
    omega
  · intro o ho
    have := le_flatMap outBytes x.outs o ho
    have := length_outBytes o
    omega
  · intro i hi
    have h3 := le_flatMap (fun i => witnessBytes i.witness) x.ins i hi
    have h4 : i.witness.length ≤ (witnessBytes i.witness).length := by
      have := length_le_flatMap varBytes i.witness (fun y => by
        have := compactSize_length y.length
        simp only [varBytes, List.length_append]; omega)
      simp only [witnessBytes, List.length_append]; omega
    omega

/-! ### C18 -/

/-- `txid` is the reversed double SHA-256 of the encoding without witnesses. -/
theorem C18_txid (t : Tx) (x : Transaction) (h : t.Holds x) (hl : (segwitBytes x).length < 2 ^ 60) :
    t.txid = .ok (hash256 (legacyBytes x)).reverse := by
  simp only [Tx.txid, Tx.hash_eq t x h (sizes_of x hl), C.bind_ok, C.pure_eq]

/-- `wtxid` is the reversed double SHA-256 of the encoding with marker, flag and witnesses. -/
theorem C18_wtxid (t : Tx) (x : Transaction) (h : t.Holds x) (hl : (segwitBytes x).length < 2 ^ 60) :
    t.wtxid = .ok (hash256 (segwitBytes x)).reverse := by
  simp only [Tx.wtxid, Tx.whash_eq t x h (sizes_of x hl), C.bind_ok, C.pure_eq]

example : exTx.txid = .ok (hash256 (legacyBytes exTxSpec)).reverse :=
  C18_txid _ _ exTx_holds (by decide)

example : exTx.wtxid = .ok (hash256 (segwitBytes exTxSpec)).reverse :=
  C18_wtxid _ _ exTx_holds (by decide)

/-- The txid does not depend on witnesses. -/
theorem C18_txid_ignores_witness (t t' : Tx) (x x' : Transaction) (h : t.Holds x) (h' : t'.Holds x')
    (hl : (segwitBytes x).length < 2 ^ 60) (hl' : (segwitBytes x').length < 2 ^ 60) (hs : strip x = strip x') :
    t.txid = t'.txid := by
  rw [C18_txid t x h hl, C18_txid t' x' h' hl']
  have e : ∀ y : Transaction, legacyBytes (strip y) = legacyBytes y := by
    intro y
    simp only [legacyBytes, strip, flatMap_inBytes_strip, List.length_map]
  rw [← e x, ← e x', hs]

example : strip exTxSpec = strip { exTxSpec with ins := exTxSpec.ins.map fun i => { i with witness := [[1]] } } := rfl

/-- The preimage of the txid determines everything but the witnesses. -/
theorem C18_txid_preimage_injective (x y : Transaction) (hx : GoodTx x) (hy : GoodTx y)
    (h : legacyBytes x = legacyBytes y) : strip x = strip y := by
  exact (legacyBytes_inj x y hx hy [] [] (by rw [h])).1

/-- The preimage of the wtxid determines the whole transaction. -/
theorem C18_wtxid_preimage_injective (x y : Transaction) (hx : GoodTx x) (hy : GoodTx y)
    (h : segwitBytes x = segwitBytes y) : x = y := by
  exact (segwitBytes_inj x y hx hy [] [] (by rw [h])).1

theorem exTxSpec_good : GoodTx exTxSpec := by
  refine ⟨by decide, by decide, by decide, by decide, ?_, ?_⟩
  · intro i hi
    simp only [exTxSpec, List.mem_singleton] at hi
    subst hi
    exact ⟨by decide, by decide, by decide, by decide, by decide, by decide⟩
  · intro o ho
    have : o = exOut := by simpa [exTxSpec] using ho
    subst this
    exact ⟨by decide, by decide⟩

/-- For transactions with a witness `wtxid` is the BIP 141 witness id. -/
theorem C18_wtxid_bip141 (t : Tx) (x : Transaction) (h : t.Holds x) (hl : (segwitBytes x).length < 2 ^ 60)
    (hw : hasWitness x) : t.wtxid = .ok (Spec.wtxid x) := by
  rw [C18_wtxid t x h hl, Spec.wtxid, txBytes, if_pos hw]

/-- Without any witness BIP 141 makes the witness id equal to the txid; the code still hashes marker
and flag and returns something else. -/
theorem C18_wtxid_without_witness :
    ∃ (t : Tx) (x : Transaction), t.Holds x ∧ GoodTx x ∧ ¬ hasWitness x ∧ t.wtxid ≠ .ok (Spec.wtxid x) := by
  have hh : ({ exTx with txIns := [{ exTxIn with witness := {} }] } : Tx).Holds
      { exTxSpec with ins := [stripIn exIn] } :=
    ⟨rfl, .cons ⟨⟨rfl, rfl, rfl, ⟨rfl, rfl⟩, rfl⟩, ⟨rfl, rfl⟩⟩ .nil, exTx_holds.outs, rfl⟩
  refine ⟨_, _, hh, ?_, by decide, ?_⟩
  · refine ⟨by decide, by decide, by decide, by decide, ?_, exTxSpec_good.goodOuts⟩
    intro i hi
    simp only [List.mem_singleton] at hi
    subst hi
    exact ⟨by decide, by decide, by decide, by decide, by decide, by decide⟩
  · rw [C18_wtxid _ _ hh (by decide)]
    decide +kernel

/-! ### C19 -/

/-- Hash types that sign all inputs and outputs. -/
def SignsAll (ty : Nat) : Prop := isNone ty = false ∧ isSingle ty = false ∧ anyoneCanPay ty = false

theorem sigIns_all (ins : List In) (idx : Nat) (code : Bytes) (ty : Nat) (h : SignsAll ty) :
    sigIns ins idx code ty = allIns ins idx code := by
  simp only [sigIns, allIns, h.1, h.2.1, h.2.2]
  simp

/-- With a hash type signing everything (SIGHASH_ALL in particular) the result is Bitcoin's original
signature hash.  Missing: the other hash types, for which the code is wrong (`C19_none_wrong`,
`C19_single_wrong`), and indices without an input (`C19_index_out_of_range`). -/
theorem C19_sighash_all_partial (t : Tx) (x : Transaction) (h : t.Holds x) (idx : UInt8) (script : Script)
    (code : Bytes) (ty : UInt32) (hsc : script.Holds code) (hty : SignsAll ty.toNat)
    (hidx : idx.toNat < x.ins.length)
    (hl : (legacySigPreimage x idx.toNat code ty.toNat).length < 2 ^ 60) :
    t.sigHash idx script ty = .ok (legacySigHash x idx.toNat code ty.toNat) := by
  have e1 := sigIns_all x.ins idx.toNat code ty.toNat hty
  have e2 : sigOuts x.outs idx.toNat ty.toNat = x.outs := by simp [sigOuts, hty.1, hty.2.1]
  rw [legacySigHash, if_neg (by simp [hty.2.1]; omega)]
  rw [legacySigPreimage, e1, e2] at hl ⊢
  rw [List.length_append, Spec.length_leBytes] at hl
  have hlen : (allIns x.ins idx.toNat code).length = x.ins.length := by simp [allIns]
  have hl2 : ((allIns x.ins idx.toNat code).flatMap inBytes).length + (x.outs.flatMap outBytes).length
      ≤ (legacyBytes { x with ins := allIns x.ins idx.toNat code }).length := by
    simp only [legacyBytes, List.length_append]; omega
  have h1 := length_le_flatMap inBytes (allIns x.ins idx.toNat code) (fun y => by have := length_inBytes y; omega)
  have h2 := length_le_flatMap outBytes x.outs (fun y => by have := length_outBytes y; omega)
  have h3 : ∀ o ∈ x.outs, o.script.length < 2 ^ 64 := by
    intro o ho
    have := le_flatMap outBytes x.outs o ho
    have := length_outBytes o
    omega
  have h4 : code.length < 2 ^ 64 := by
    have hm : { x.ins[idx.toNat] with script := code } ∈ allIns x.ins idx.toNat code := by
      unfold allIns
      apply List.mem_map.mpr
      exact ⟨(x.ins[idx.toNat], idx.toNat), by rw [List.mem_zipIdx_iff_getElem?]; exact List.getElem?_eq_getElem hidx, by simp⟩
    have := le_flatMap inBytes _ _ hm
    have := length_inBytes { x.ins[idx.toNat] with script := code }
    have e : code.length + 8 ≤ (inBytes { x.ins[idx.toNat] with script := code }).length := this
    omega
  exact Tx.sigHash_eq t x h idx script code ty hsc (by omega) (by omega) h4 h3 (by omega)

theorem signsAll_1 : SignsAll 1 := ⟨rfl, rfl, rfl⟩

example : exTx.sigHash 0 { scriptLen := 1, arr := [0xac] } 1 = .ok (legacySigHash exTxSpec 0 [0xac] 1) :=
  C19_sighash_all_partial exTx exTxSpec exTx_holds 0 _ [0xac] 1 ⟨rfl, rfl⟩ signsAll_1 (by decide) (by decide)

/-- What the code hashes for every hash type and every index: all inputs and all outputs. -/
theorem C19_sighash_any (t : Tx) (x : Transaction) (h : t.Holds x) (idx : UInt8) (script : Script)
    (code : Bytes) (ty : UInt32) (hsc : script.Holds code) (hi : x.ins.length < 2 ^ 64) (ho : x.outs.length < 2 ^ 64)
    (hcl : code.length < 2 ^ 64) (hos : ∀ o ∈ x.outs, o.script.length < 2 ^ 64)
    (hl : (legacyBytes { x with ins := allIns x.ins idx.toNat code }).length < 2 ^ 60) :
    t.sigHash idx script ty
      = .ok (hash256 (legacyBytes { x with ins := allIns x.ins idx.toNat code } ++ leBytes 4 ty.toNat)) :=
  Tx.sigHash_eq t x h idx script code ty hsc hi ho hcl hos hl

/-- SIGHASH_NONE is accepted but commits to the outputs. -/
theorem C19_none_wrong : exTx.sigHash 0 { scriptLen := 1, arr := [0xac] } 2
    ≠ .ok (legacySigHash exTxSpec 0 [0xac] 2) := by
  rw [C19_sighash_any exTx exTxSpec exTx_holds 0 _ [0xac] 2 ⟨rfl, rfl⟩ (by decide) (by decide) (by decide)
    (by decide) (by decide)]
  decide +kernel

/-- SIGHASH_SINGLE is accepted but commits to all outputs. -/
theorem C19_single_wrong : exTx.sigHash 0 { scriptLen := 1, arr := [0xac] } 3
    ≠ .ok (legacySigHash exTxSpec 0 [0xac] 3) := by
  rw [C19_sighash_any exTx exTxSpec exTx_holds 0 _ [0xac] 3 ⟨rfl, rfl⟩ (by decide) (by decide) (by decide)
    (by decide) (by decide)]
  decide +kernel

/-- An index past the inputs hashes the transaction with all scripts empty; nothing is refused, and
Bitcoin would sign the number one. -/
theorem C19_index_out_of_range : exTx.sigHash 1 { scriptLen := 1, arr := [0xac] } 1
    ≠ .ok (legacySigHash exTxSpec 1 [0xac] 1) := by
  rw [C19_sighash_any exTx exTxSpec exTx_holds 1 _ [0xac] 1 ⟨rfl, rfl⟩ (by decide) (by decide) (by decide)
    (by decide) (by decide)]
  decide +kernel

/-- The preimage determines what is signed. -/
theorem C19_preimage_injective (x y : Transaction) (idx idx' : Nat) (code code' : Bytes) (ty ty' : Nat)
    (hx : GoodTx { x with ins := allIns x.ins idx code }) (hy : GoodTx { y with ins := allIns y.ins idx' code' })
    (ht : ty < 2 ^ 32) (ht' : ty' < 2 ^ 32)
    (h : legacyBytes { x with ins := allIns x.ins idx code } ++ leBytes 4 ty
      = legacyBytes { y with ins := allIns y.ins idx' code' } ++ leBytes 4 ty') :
    x.version = y.version ∧ (allIns x.ins idx code).map stripIn = (allIns y.ins idx' code').map stripIn
      ∧ x.outs = y.outs ∧ x.locktime = y.locktime ∧ ty = ty' := by
  obtain ⟨h1, h2⟩ := legacyBytes_inj _ _ hx hy _ _ h
  simp only [strip, Transaction.mk.injEq] at h1
  exact ⟨h1.1, h1.2.1, h1.2.2.1, h1.2.2.2, leBytes_inj ht ht' h2⟩

/-! ### C20 -/

/-- With a hash type signing everything (SIGHASH_ALL in particular) the result is the BIP 143 hash.
Missing: other hash types (`C20_none_wrong`) and an index past the inputs (`C20_index_undefined`). -/
theorem C20_sighash_segwit_all_partial (t : Tx) (x : Transaction) (h : t.Holds x) (idx : UInt8) (i : In)
    (hidx : x.ins[idx.toNat]? = some i) (script : Script) (code : Bytes) (amount : UInt64) (ty : UInt32)
    (hsc : script.Holds code) (hcl : code.length < 2 ^ 60) (hty : SignsAll ty.toNat)
    (hl : (segwitBytes x).length < 2 ^ 50) :
    t.sigHashSegwit idx script amount ty = .ok (segwitSigHash x idx.toNat i code amount.toNat ty.toNat) := by
  have hs := sizes_of x (by omega)
  have hl2 : (x.ins.flatMap inBytes).length + (x.outs.flatMap outBytes).length ≤ (segwitBytes x).length := by
    simp only [segwitBytes, List.length_append]; omega
  have h1 := length_le_flatMap inBytes x.ins (fun y => by have := length_inBytes y; omega)
  rw [Tx.sigHashSegwit_eq t x h idx i hidx script code amount ty hsc hcl (by omega) hs.outScripts
    (by unfold outputsBytes; omega)]
  simp only [segwitSigHash, segwitSigPreimage, hty.1, hty.2.1, hty.2.2]
  simp

example : exTx.sigHashSegwit 0 { scriptLen := 1, arr := [0xac] } 5000 1
    = .ok (segwitSigHash exTxSpec 0 exTxSpec.ins[0] [0xac] 5000 1) :=
  C20_sighash_segwit_all_partial exTx exTxSpec exTx_holds 0 _ rfl _ [0xac] 5000 1 ⟨rfl, rfl⟩ (by decide)
    signsAll_1 (by decide)

/-- What the code hashes for every hash type. -/
theorem C20_sighash_segwit_any (t : Tx) (x : Transaction) (h : t.Holds x) (idx : UInt8) (i : In)
    (hidx : x.ins[idx.toNat]? = some i) (script : Script) (code : Bytes) (amount : UInt64) (ty : UInt32)
    (hsc : script.Holds code) (hcl : code.length < 2 ^ 60)
    (hi : x.ins.length < 2 ^ 50) (hos : ∀ o ∈ x.outs, o.script.length < 2 ^ 64)
    (hl : (outputsBytes x).length < 2 ^ 61) :
    t.sigHashSegwit idx script amount ty =
      .ok (hash256 (leBytes 4 x.version ++ hash256 (prevoutsBytes x) ++ hash256 (sequencesBytes x) ++
        outpoint i ++ varBytes code ++ leBytes 8 amount.toNat ++ leBytes 4 i.sequence ++
        hash256 (outputsBytes x) ++ leBytes 4 x.locktime ++ leBytes 4 ty.toNat)) :=
  Tx.sigHashSegwit_eq t x h idx i hidx script code amount ty hsc hcl hi hos hl

/-- SIGHASH_NONE is accepted but commits to the outputs. -/
theorem C20_none_wrong : exTx.sigHashSegwit 0 { scriptLen := 1, arr := [0xac] } 5000 2
    ≠ .ok (segwitSigHash exTxSpec 0 exTxSpec.ins[0] [0xac] 5000 2) := by
  rw [C20_sighash_segwit_any exTx exTxSpec exTx_holds 0 exTxSpec.ins[0] rfl _ [0xac] 5000 2 ⟨rfl, rfl⟩ (by decide)
    (by decide) (by decide) (by decide)]
  decide +kernel

/-- An index past the inputs reads outside the array of inputs. -/
theorem C20_index_undefined (t : Tx) (idx : UInt8) (h : t.txIns.length ≤ idx.toNat) (script : Script)
    (amount : UInt64) (ty : UInt32) : t.sigHashSegwit idx script amount ty = .ub := by
  unfold Tx.sigHashSegwit
  rw [List.getElem?_eq_none h]
  obtain ⟨s1, e1, -⟩ := fed_int fed_new t.version.toUInt64 4 (by omega)
  simp only [e1, C.bind_ok]
  cases t.hashPrevouts with
  | ub => rfl
  | ok a =>
    cases t.hashSequence with
    | ub => rfl
    | ok b => rfl

/-- The preimage determines every field it contains (the three inner hashes as hashes). -/
theorem C20_preimage_injective (v v' : Nat) (p p' q q' o o' : Bytes) (i i' : In) (code code' : Bytes)
    (a a' lk lk' ty ty' : Nat) (hv : v < 2 ^ 32) (hv' : v' < 2 ^ 32) (hp : p.length = 32) (hp' : p'.length = 32)
    (hq : q.length = 32) (hq' : q'.length = 32) (ho : o.length = 32) (ho' : o'.length = 32)
    (hi : GoodIn i) (hi' : GoodIn i') (hc : code.length < 2 ^ 64) (hc' : code'.length < 2 ^ 64)
    (ha : a < 2 ^ 64) (ha' : a' < 2 ^ 64) (hlk : lk < 2 ^ 32) (hlk' : lk' < 2 ^ 32) (ht : ty < 2 ^ 32) (ht' : ty' < 2 ^ 32)
    (h : leBytes 4 v ++ p ++ q ++ outpoint i ++ varBytes code ++ leBytes 8 a ++ leBytes 4 i.sequence ++ o ++ leBytes 4 lk ++ leBytes 4 ty
      = leBytes 4 v' ++ p' ++ q' ++ outpoint i' ++ varBytes code' ++ leBytes 8 a' ++ leBytes 4 i'.sequence ++ o' ++ leBytes 4 lk' ++ leBytes 4 ty') :
    v = v' ∧ p = p' ∧ q = q' ∧ i.prevHash = i'.prevHash ∧ i.prevIndex = i'.prevIndex ∧ code = code' ∧ a = a'
      ∧ i.sequence = i'.sequence ∧ o = o' ∧ lk = lk' ∧ ty = ty' := by
  unfold outpoint at h
  simp only [List.append_assoc] at h
  obtain ⟨h1, h⟩ := prefix_le 4 _ _ _ _ hv hv' h
  obtain ⟨h2, h⟩ := prefix_fixed 32 _ _ _ _ hp hp' h
  obtain ⟨h3, h⟩ := prefix_fixed 32 _ _ _ _ hq hq' h
  obtain ⟨h4, h⟩ := prefix_fixed 32 _ _ _ _ hi.hash hi'.hash h
  obtain ⟨h5, h⟩ := prefix_le 4 _ _ _ _ hi.index hi'.index h
  obtain ⟨h6, h⟩ := prefix_varBytes _ _ _ _ hc hc' h
  obtain ⟨h7, h⟩ := prefix_le 8 _ _ _ _ ha ha' h
  obtain ⟨h8, h⟩ := prefix_le 4 _ _ _ _ hi.sequence hi'.sequence h
  obtain ⟨h9, h⟩ := prefix_fixed 32 _ _ _ _ ho ho' h
  obtain ⟨h10, h⟩ := prefix_le 4 _ _ _ _ hlk hlk' h
  exact ⟨h1, h2, h3, h4, h5, h6, h7, h8, h9, h10, leBytes_inj ht ht' h⟩

end UB
