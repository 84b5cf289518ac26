import Verif.Props.TxSign
import Verif.Model.Electrum
import Verif.Lemmas.HeapPsbt
import Mathlib.Data.List.Perm.Basic

/-
C101: what signing leaves alone, and in which order inputs are signed.
-/

namespace UB
open Spec BN

attribute [local irreducible] secpP secpN BN.multiply BN.fastMod BN.mod BN.subtractmod BN.multK BN.addmod BN.inverse BN.lshift BN.subi BN.add
  BN.multHalf BN.cmov BN.isEqual BN.isZero BN.sqrt BN.subtract scalarMultiply pointMultiply CurvePoint.add readBE writeBE BN.addi doubleSha Spec.hash256
  hmac512 hmacSha512 hash160 Spec.hash160 signDigest ecdsaDeterministic signatureOf PrivKey.sign

/-! ### Specification -/

/-- What is signed for: which outputs are spent with which sequence numbers, what is paid to whom, version and locktime.  Not the scripts and witnesses of
the inputs. -/
structure Terms where
  version : UInt32
  locktime : UInt32
  spends : List (Bytes × UInt32 × UInt32)
  pays : List TxOut

def TxIn.spends (i : TxIn) : Bytes × UInt32 × UInt32 := (i.hash, i.outputIndex, i.sequence)

def Tx.terms (t : Tx) : Terms := ⟨t.version, t.locktime, t.txIns.map TxIn.spends, t.txOuts⟩

/-- A call of one of the signing functions of a transaction. -/
inductive SignCall where
  | legacy (index : UInt8) (key : PrivKey) (redeem : Script) (sighash : UInt32) (rnd : Nat → BN × BN)
  | segwit (index : UInt8) (key : PrivKey) (redeem : Script) (amount : UInt64) (type : ScriptType) (sighash : UInt32) (rnd : Nat → BN × BN)

namespace SignCall

def index : SignCall → UInt8
  | legacy i .. => i
  | segwit i .. => i

def run (t : Tx) : SignCall → C (Tx × Sig)
  | legacy i k r h rnd => t.signInput i k r h rnd
  | segwit i k r a ty h rnd => t.signSegwitInput i k r a ty h rnd

/-- Several calls one after the other: the transaction and the signatures returned. -/
def runAll (t : Tx) : List SignCall → C (Tx × List Sig)
  | [] => .ok (t, [])
  | c :: cs => do
    let (t, g) ← c.run t
    let (t, gs) ← runAll t cs
    return (t, g :: gs)

/-- A call that makes the script of the input empty. -/
def Native : SignCall → Prop
  | legacy .. => False
  | segwit _ _ _ _ ty _ _ => ty ≠ .p2sh_p2wpkh ∧ ty ≠ .p2sh_p2wsh

end SignCall

/-! ### The digests depend on the terms only -/

namespace Tx

/-- The input that is hashed in `sigHash`, made from the terms. -/
def hashedIn (script : Script) (idx : UInt8) (p : (Bytes × UInt32 × UInt32) × Nat) : TxIn :=
  { hash := p.1.1, outputIndex := p.1.2.1, sequence := p.1.2.2, scriptSig := if p.2 = idx.toNat then ({} : Script).assign script else {} }

theorem toStream_congr {a b : TxIn} (h1 : a.spends = b.spends) (h2 : a.scriptSig.scriptLen = b.scriptSig.scriptLen) (h3 : a.scriptSig.arr = b.scriptSig.arr) :
    a.toStream = b.toStream := by
  simp only [TxIn.spends, Prod.mk.injEq] at h1
  have h4 : a.scriptSig.toStream = b.scriptSig.toStream := by
    funext cap off
    unfold Script.toStream
    rw [h2, h3]
  have h5 : a.scriptSig.length = b.scriptSig.length := by
    unfold Script.length
    rw [h2]
  funext cap off
  unfold TxIn.toStream
  rw [h1.1, h1.2.1, h1.2.2, h4, h5]

theorem sigIn_toStream (script : Script) (idx : UInt8) (i : TxIn) (n : Nat) :
    (sigIn script idx (i, n)).toStream = (hashedIn script idx (i.spends, n)).toStream := by
  have hc : ∀ sc : Script, (i.copy.scriptSig.assign sc) = ({} : Script).assign sc := by
    intro sc
    unfold TxIn.copy Script.copy Script.assign Script.clear
    dsimp only
    by_cases h : i.scriptSig.scriptLen > 0
    · simp [h]
    · simp [h]
  unfold sigIn hashedIn
  dsimp only
  split
  · exact toStream_congr rfl (by simp only [hc]) (by simp only [hc])
  · exact toStream_congr rfl (by simp only [hc]; rfl) (by simp only [hc]; rfl)

theorem hashed_ins (script : Script) (idx : UInt8) (is : List TxIn) :
    (is.zipIdx.map (sigIn script idx)).map TxIn.toStream = ((is.map TxIn.spends).zipIdx.map (hashedIn script idx)).map TxIn.toStream := by
  rw [List.zipIdx_map, List.map_map, List.map_map, List.map_map]
  refine List.map_congr_left fun p _ => ?_
  exact sigIn_toStream script idx p.1 p.2

theorem sigHash_terms {t u : Tx} (h : t.terms = u.terms) (idx : UInt8) (script : Script) (ty : UInt32) : t.sigHash idx script ty = u.sigHash idx script ty := by
  simp only [terms, Terms.mk.injEq] at h
  obtain ⟨h1, h2, h3, h4⟩ := h
  have h5 : t.txIns.length = u.txIns.length := by simpa using congrArg List.length h3
  unfold sigHash
  dsimp only
  rw [hashed_ins, hashed_ins, h1, h2, h3, h4, h5]

theorem feedPrevouts_congr : ∀ (is js : List TxIn) (s : HashObj), is.map TxIn.spends = js.map TxIn.spends → feedPrevouts s is = feedPrevouts s js
  | [], [], _, _ => rfl
  | [], _ :: _, _, h => by simp at h
  | _ :: _, [], _, h => by simp at h
  | i :: is, j :: js, s, h => by
    simp only [List.map_cons, List.cons.injEq, TxIn.spends, Prod.mk.injEq] at h
    obtain ⟨⟨h1, h2, -⟩, h3⟩ := h
    unfold feedPrevouts
    rw [h1, h2]
    congr 1
    funext s
    exact feedPrevouts_congr is js s h3

theorem feedSequences_congr : ∀ (is js : List TxIn) (s : HashObj), is.map TxIn.spends = js.map TxIn.spends → feedSequences s is = feedSequences s js
  | [], [], _, _ => rfl
  | [], _ :: _, _, h => by simp at h
  | _ :: _, [], _, h => by simp at h
  | i :: is, j :: js, s, h => by
    simp only [List.map_cons, List.cons.injEq, TxIn.spends, Prod.mk.injEq] at h
    obtain ⟨⟨-, -, h1⟩, h3⟩ := h
    unfold feedSequences
    rw [h1]
    congr 1
    funext s
    exact feedSequences_congr is js s h3

theorem sigHashSegwit_terms {t u : Tx} (h : t.terms = u.terms) (idx : UInt8) (script : Script) (amount : UInt64) (ty : UInt32) :
    t.sigHashSegwit idx script amount ty = u.sigHashSegwit idx script amount ty := by
  simp only [terms, Terms.mk.injEq] at h
  obtain ⟨h1, h2, h3, h4⟩ := h
  have hp : t.hashPrevouts = u.hashPrevouts := by unfold hashPrevouts; rw [feedPrevouts_congr _ _ _ h3]
  have hs : t.hashSequence = u.hashSequence := by unfold hashSequence; rw [feedSequences_congr _ _ _ h3]
  have ho : t.hashOutputs = u.hashOutputs := by unfold hashOutputs; rw [h4]
  have hi := congrArg (fun l => l[idx.toNat]?) h3
  simp only [List.getElem?_map] at hi
  unfold sigHashSegwit
  dsimp only
  rw [hp, hs, ho, h1, h2]
  cases ht : t.txIns[idx.toNat]? with
  | none =>
    rw [ht] at hi
    cases hu : u.txIns[idx.toNat]? with
    | none => rfl
    | some j => rw [hu] at hi; cases hi
  | some i =>
    rw [ht] at hi
    cases hu : u.txIns[idx.toNat]? with
    | none => rw [hu] at hi; cases hi
    | some j =>
      rw [hu] at hi
      simp only [Option.map_some, Option.some.injEq, TxIn.spends, Prod.mk.injEq] at hi
      obtain ⟨e1, e2, e3⟩ := hi
      dsimp only
      rw [e1, e2, e3]

end Tx

/-! ### What a call does -/

namespace SignCall

/-- Signature, script and witness. -/
def plan (t : Tx) : SignCall → C (Sig × Script × Option Witness)
  | legacy i k r h rnd => do
    let d ← t.sigHash i r.copy h
    let g ← k.sign d rnd
    let sc ← Tx.inputScript k g r.copy
    return (g, sc, none)
  | segwit i k r a ty h rnd => do
    let d ← t.segwitDigest i k r.copy a h
    let g ← k.sign d rnd
    let sc ← Tx.segwitScript r.copy ty
    let w ← Tx.segwitWitness k g r.copy
    return (g, sc, some w)

/-- The new input. -/
def edit (sc : Script) (w : Option Witness) (i : TxIn) : TxIn :=
  { i with scriptSig := i.scriptSig.assign sc, witness := match w with | none => i.witness | some w => i.witness.assign w }

/-- The new transaction. -/
def apply (t : Tx) (n : Nat) (p : Sig × Script × Option Witness) : C (Tx × Sig) :=
  match t.txIns[n]? with
  | none => .ub
  | some i => .ok ({ t with txIns := t.txIns.set n (edit p.2.1 p.2.2 i) }, p.1)

theorem plan_terms {t u : Tx} (h : t.terms = u.terms) (c : SignCall) : c.plan t = c.plan u := by
  cases c with
  | legacy i k r ty rnd =>
    unfold plan
    dsimp only
    rw [Tx.sigHash_terms h]
  | segwit i k r a s ty rnd =>
    have : t.segwitDigest i k r.copy a ty = u.segwitDigest i k r.copy a ty := by
      unfold Tx.segwitDigest
      simp only [Tx.sigHashSegwit_terms h]
    unfold plan
    dsimp only
    rw [this]

theorem run_eq (t : Tx) (c : SignCall) : c.run t = (c.plan t >>= fun p => apply t c.index.toNat p) := by
  cases c with
  | legacy i k r ty rnd =>
    unfold run plan Tx.signInput
    dsimp only [index]
    cases t.sigHash i r.copy ty with
    | ub => rfl
    | ok d =>
      rw [C.bind_ok, C.bind_ok]
      cases k.sign d rnd with
      | ub => rfl
      | ok g =>
        rw [C.bind_ok, C.bind_ok]
        cases Tx.inputScript k g r.copy with
        | ub => rfl
        | ok sc =>
          rw [C.bind_ok, C.bind_ok]
          unfold Tx.setScript apply edit
          simp only [C.pure_eq, C.bind_ok]
          cases t.txIns[i.toNat]? <;> rfl
  | segwit i k r a s ty rnd =>
    unfold run plan Tx.signSegwitInput
    dsimp only [index]
    cases t.segwitDigest i k r.copy a ty with
    | ub => rfl
    | ok d =>
      rw [C.bind_ok, C.bind_ok]
      cases k.sign d rnd with
      | ub => rfl
      | ok g =>
        rw [C.bind_ok, C.bind_ok]
        cases Tx.segwitScript r.copy s with
        | ub => rfl
        | ok sc =>
          rw [C.bind_ok, C.bind_ok]
          unfold Tx.setScript apply edit
          cases hi : t.txIns[i.toNat]? with
          | none =>
            simp only [C.bind_ub]
            cases Tx.segwitWitness k g r.copy <;> rfl
          | some ti =>
            simp only [C.bind_ok]
            cases Tx.segwitWitness k g r.copy with
            | ub => rfl
            | ok w =>
              simp only [C.bind_ok, C.pure_eq]
              have hlt : i.toNat < t.txIns.length := (List.getElem?_eq_some_iff.mp hi).1
              unfold Tx.setWitness
              simp [hlt]

theorem apply_terms {t t' : Tx} {n : Nat} {p : Sig × Script × Option Witness} {g : Sig} (h : apply t n p = .ok (t', g)) : t'.terms = t.terms := by
  unfold apply at h
  split at h
  · cases h
  · next i hi =>
    cases h
    simp only [Tx.terms, Terms.mk.injEq, true_and, and_true, List.map_set]
    refine List.ext_getElem? fun j => ?_
    by_cases hj : n = j
    · subst hj
      have hlt : n < t.txIns.length := (List.getElem?_eq_some_iff.mp hi).1
      rw [List.getElem?_set_self (by simpa using hlt), List.getElem?_map, hi]
      rfl
    · rw [List.getElem?_set_ne hj]

end SignCall

/-! ### The claims -/

/-- C101: a call changes nothing of what is signed for: which outputs are spent with which sequence numbers, what is paid, version, locktime - for every
transaction, key, script, hash type. -/
theorem C101_terms {t t' : Tx} {c : SignCall} {g : Sig} (h : c.run t = .ok (t', g)) : t'.terms = t.terms := by
  rw [SignCall.run_eq] at h
  obtain ⟨p, -, h⟩ := C.ok_inv h
  exact SignCall.apply_terms h

/-- C101: every other input stays as it is, with its script and its witness. -/
theorem C101_others {t t' : Tx} {c : SignCall} {g : Sig} (h : c.run t = .ok (t', g)) {j : Nat} (hj : j ≠ c.index.toNat) : t'.txIns[j]? = t.txIns[j]? := by
  rw [SignCall.run_eq] at h
  obtain ⟨p, -, h⟩ := C.ok_inv h
  unfold SignCall.apply at h
  split at h
  · cases h
  · cases h
    exact List.getElem?_set_ne (Ne.symm hj)

/-- Whether a call is defined, and the signature it returns, depend on the terms only. -/
theorem SignCall.run_sig {t u : Tx} (h : t.terms = u.terms) (c : SignCall) :
    (c.run t >>= fun r => C.ok r.2) = (c.run u >>= fun r => C.ok r.2) := by
  rw [run_eq, run_eq, plan_terms h]
  cases c.plan u with
  | ub => rfl
  | ok p =>
    rw [C.bind_ok, C.bind_ok]
    have hl : t.txIns.length = u.txIns.length := by simpa [Tx.terms] using congrArg (fun x => x.spends.length) h
    unfold apply
    by_cases hi : c.index.toNat < t.txIns.length
    · rw [List.getElem?_eq_getElem hi, List.getElem?_eq_getElem (hl ▸ hi)]
      rfl
    · rw [List.getElem?_eq_none (by omega), List.getElem?_eq_none (by omega)]

/-- C101: the signature does not depend on scripts and witnesses which are there already - of this input or of others. -/
theorem C101_signature {t u t' : Tx} (h : t.terms = u.terms) {c : SignCall} {g : Sig} (hr : c.run t = .ok (t', g)) : ∃ u', c.run u = .ok (u', g) := by
  have := SignCall.run_sig h c
  rw [hr, C.bind_ok] at this
  obtain ⟨⟨u', g'⟩, e1, e2⟩ := C.ok_inv this.symm
  cases e2
  exact ⟨u', e1⟩

/-- C101: two calls for different inputs may be made in either order: the same transaction, the same signatures, and the same question whether they are
defined. -/
theorem C101_commute (t : Tx) {a b : SignCall} (h : a.index ≠ b.index) :
    (do let (t1, g1) ← a.run t; let (t2, g2) ← b.run t1; return (t2, g1, g2)) =
    (do let (t1, g2) ← b.run t; let (t2, g1) ← a.run t1; return (t2, g1, g2)) := by
  have hn : a.index.toNat ≠ b.index.toNat := fun e => h (UInt8.toNat_inj.mp e)
  have key : ∀ {a b : SignCall}, a.index.toNat ≠ b.index.toNat → (do let (t1, g1) ← a.run t; let (t2, g2) ← b.run t1; return (t2, g1, g2)) =
      (do
        let p ← a.plan t
        let q ← b.plan t
        match t.txIns[a.index.toNat]?, t.txIns[b.index.toNat]? with
        | some i, some j => C.ok ({ t with txIns := (t.txIns.set a.index.toNat (SignCall.edit p.2.1 p.2.2 i)).set b.index.toNat (SignCall.edit q.2.1 q.2.2 j) }, p.1, q.1)
        | _, _ => .ub) := by
    intro a b hn
    rw [SignCall.run_eq]
    cases a.plan t with
    | ub => rfl
    | ok p =>
      rw [C.bind_ok, C.bind_ok]
      cases hi : t.txIns[a.index.toNat]? with
      | none =>
        have : SignCall.apply t a.index.toNat p = .ub := by unfold SignCall.apply; rw [hi]
        rw [this, C.bind_ub]
        cases b.plan t <;> rfl
      | some i =>
        have : SignCall.apply t a.index.toNat p = .ok ({ t with txIns := t.txIns.set a.index.toNat (SignCall.edit p.2.1 p.2.2 i) }, p.1) := by
          unfold SignCall.apply; rw [hi]
        have ht := SignCall.apply_terms this
        rw [this, C.bind_ok]
        dsimp only
        rw [SignCall.run_eq, SignCall.plan_terms ht]
        cases b.plan t with
        | ub => rfl
        | ok q =>
          rw [C.bind_ok, C.bind_ok]
          unfold SignCall.apply
          dsimp only
          rw [List.getElem?_set_ne hn]
          cases t.txIns[b.index.toNat]? <;> rfl
  rw [key hn]
  have := key (a := b) (b := a) (Ne.symm hn)
  have h2 : (do let (t1, g2) ← b.run t; let (t2, g1) ← a.run t1; return (t2, g1, g2) : C (Tx × Sig × Sig)) =
      ((do let (t1, g1) ← b.run t; let (t2, g2) ← a.run t1; return (t2, g1, g2) : C (Tx × Sig × Sig)) >>= fun r => C.ok (r.1, r.2.2, r.2.1)) := by
    cases b.run t with
    | ub => rfl
    | ok r =>
      obtain ⟨t1, g1⟩ := r
      simp only [C.bind_ok]
      cases a.run t1 <;> rfl
  rw [h2, this]
  cases a.plan t with
  | ub => cases b.plan t <;> rfl
  | ok p =>
    rw [C.bind_ok]
    cases b.plan t with
    | ub => rfl
    | ok q =>
      simp only [C.bind_ok]
      cases t.txIns[a.index.toNat]? <;> cases t.txIns[b.index.toNat]? <;> simp only [C.bind_ok, C.bind_ub]
      rw [List.set_comm _ _ (Ne.symm hn)]

namespace SignCall

theorem runAll_terms : ∀ {cs : List SignCall} {t t' : Tx} {gs : List Sig}, runAll t cs = .ok (t', gs) → t'.terms = t.terms
  | [], t, t', gs, h => by cases h; rfl
  | c :: cs, t, t', gs, h => by
    unfold runAll at h
    obtain ⟨⟨t1, g⟩, h1, h⟩ := C.ok_inv h
    obtain ⟨⟨t2, gs'⟩, h2, h⟩ := C.ok_inv h
    cases h
    exact (runAll_terms h2).trans (C101_terms h1)

/-- The transaction after several calls. -/
def after (t : Tx) (cs : List SignCall) : C Tx := runAll t cs >>= fun r => C.ok r.1

theorem after_cons (t : Tx) (c : SignCall) (cs : List SignCall) : after t (c :: cs) = (c.run t >>= fun r => after r.1 cs) := by
  unfold after
  rw [runAll]
  cases c.run t with
  | ub => rfl
  | ok r =>
    simp only [C.bind_ok]
    cases runAll r.1 cs <;> rfl

theorem after_swap (t : Tx) (a b : SignCall) (cs : List SignCall) (h : a.index ≠ b.index) : after t (a :: b :: cs) = after t (b :: a :: cs) := by
  have key : ∀ a b : SignCall, after t (a :: b :: cs) = ((do let (t1, g1) ← a.run t; let (t2, g2) ← b.run t1; return (t2, g1, g2)) >>= fun (r : Tx × Sig × Sig) => after r.1 cs) := by
    intro a b
    rw [after_cons]
    cases a.run t with
    | ub => rfl
    | ok r =>
      simp only [C.bind_ok]
      rw [after_cons]
      cases b.run r.1 <;> rfl
  rw [key, key, C101_commute t h]
  cases b.run t with
  | ub => rfl
  | ok r =>
    simp only [C.bind_ok]
    cases a.run r.1 <;> rfl

end SignCall

/-- C101: the inputs may be signed in any order. -/
theorem C101_any_order {cs ds : List SignCall} (hp : cs.Perm ds) : ∀ (t : Tx), cs.Pairwise (fun a b => a.index ≠ b.index) →
    (SignCall.runAll t cs >>= fun r => C.ok r.1) = (SignCall.runAll t ds >>= fun r => C.ok r.1) := by
  show ∀ (t : Tx), cs.Pairwise (fun a b => a.index ≠ b.index) → SignCall.after t cs = SignCall.after t ds
  induction hp with
  | nil => intro t _; rfl
  | cons c _ ih =>
    intro t hd
    rw [SignCall.after_cons, SignCall.after_cons]
    congr 1
    funext r
    exact ih r.1 (List.pairwise_cons.mp hd).2
  | swap a b l =>
    intro t hd
    exact SignCall.after_swap t b a l ((List.pairwise_cons.mp hd).1 a (by simp))
  | trans h1 _ ih1 ih2 =>
    intro t hd
    exact (ih1 t hd).trans (ih2 t ((List.Perm.pairwise_iff (fun h => Ne.symm h) h1).mp hd))

/-- C101: in a series of calls each returns the signature it would return for the transaction as it was at the start. -/
theorem C101_series {t t' : Tx} : ∀ {cs : List SignCall} {gs : List Sig}, SignCall.runAll t cs = .ok (t', gs) →
    List.Forall₂ (fun c g => ∃ u, SignCall.run t c = .ok (u, g)) cs gs := by
  have key : ∀ (cs : List SignCall) (gs : List Sig) (u : Tx), u.terms = t.terms → SignCall.runAll u cs = .ok (t', gs) →
      List.Forall₂ (fun c g => ∃ u, SignCall.run t c = .ok (u, g)) cs gs := by
    intro cs
    induction cs with
    | nil => intro gs u _ h; cases h; exact .nil
    | cons c cs ih =>
      intro gs u hu h
      unfold SignCall.runAll at h
      obtain ⟨⟨t1, g⟩, h1, h⟩ := C.ok_inv h
      obtain ⟨⟨t2, gs'⟩, h2, h⟩ := C.ok_inv h
      cases h
      exact .cons (C101_signature hu h1) (ih _ _ ((C101_terms h1).trans hu) h2)
  intro cs gs h
  exact key cs gs t rfl h

/-- Inputs for which no call is made keep script and witness. -/
theorem C101_series_others : ∀ {cs : List SignCall} {t t' : Tx} {gs : List Sig}, SignCall.runAll t cs = .ok (t', gs) → ∀ {j : Nat},
    (∀ c ∈ cs, j ≠ c.index.toNat) → t'.txIns[j]? = t.txIns[j]? := by
  intro cs
  induction cs with
  | nil => intro t t' gs h j _; cases h; rfl
  | cons c cs ih =>
    intro t t' gs h j hj
    unfold SignCall.runAll at h
    obtain ⟨⟨t1, g⟩, h1, h⟩ := C.ok_inv h
    obtain ⟨⟨t2, gs'⟩, h2, h⟩ := C.ok_inv h
    cases h
    exact (ih h2 fun c hc => hj c (List.mem_cons_of_mem _ hc)).trans (C101_others h1 (hj c (by simp)))

/-! ### Signing again -/

/-- What can be seen of an input. -/
def TxIn.view (i : TxIn) : (Bytes × UInt32 × UInt32) × (Nat × Bytes) × (Nat × Bytes) :=
  (i.spends, (i.scriptSig.scriptLen, i.scriptSig.arr), (i.witness.numElements, i.witness.arr))

theorem map_view {β : Type} {f : TxIn → β} (hf : ∀ a b : TxIn, a.view = b.view → f a = f b) :
    ∀ {l m : List TxIn}, l.map TxIn.view = m.map TxIn.view → l.map f = m.map f
  | [], [], _ => rfl
  | [], _ :: _, h => by simp at h
  | _ :: _, [], h => by simp at h
  | a :: l, b :: m, h => by
    simp only [List.map_cons, List.cons.injEq] at h ⊢
    exact ⟨hf a b h.1, map_view hf h.2⟩

theorem TxIn.view_toStream {a b : TxIn} (h : a.view = b.view) : a.toStream = b.toStream := by
  simp only [TxIn.view, Prod.mk.injEq] at h
  exact Tx.toStream_congr h.1 h.2.1.1 h.2.1.2

theorem TxIn.view_witness {a b : TxIn} (h : a.view = b.view) : a.witness.toStream = b.witness.toStream := by
  simp only [TxIn.view, Prod.mk.injEq] at h
  funext cap off
  unfold Witness.toStream
  rw [h.2.2.1, h.2.2.2]

theorem TxIn.view_length {a b : TxIn} (h : a.view = b.view) : a.length = b.length := by
  simp only [TxIn.view, Prod.mk.injEq] at h
  unfold TxIn.length Script.length
  rw [h.2.1.1]

theorem TxIn.view_witness_length {a b : TxIn} (h : a.view = b.view) : a.witness.length = b.witness.length := by
  simp only [TxIn.view, Prod.mk.injEq] at h
  unfold Witness.length
  rw [h.2.2.1, h.2.2.2]

theorem Tx.any_segwit (l : List TxIn) : l.any (·.isSegwit) = (l.map (·.isSegwit)).any id := by
  rw [List.any_map]; rfl

/-- Transactions that differ in the parsing state of scripts and witnesses only are written and hashed in the same way. -/
theorem Tx.view_same {t u : Tx} (h : t.terms = u.terms) (hv : t.txIns.map TxIn.view = u.txIns.map TxIn.view) :
    t.toStream = u.toStream ∧ t.length = u.length ∧ t.txid = u.txid ∧ t.wtxid = u.wtxid := by
  simp only [terms, Terms.mk.injEq] at h
  obtain ⟨h1, h2, -, h4⟩ := h
  have hl : t.txIns.length = u.txIns.length := by simpa using congrArg List.length hv
  have hs : t.isSegwit = u.isSegwit := by
    unfold Tx.isSegwit
    rw [any_segwit, any_segwit, map_view (f := (·.isSegwit)) (fun a b h => ?_) hv]
    simp only [TxIn.view, Prod.mk.injEq] at h
    simp only [TxIn.isSegwit, h.2.2.1]
  have e1 := map_view (f := TxIn.toStream) (fun a b h => TxIn.view_toStream h) hv
  have e2 := map_view (f := fun i => (i.toStream, i.length)) (fun a b h => by rw [TxIn.view_toStream h, TxIn.view_length h]) hv
  have e3 := map_view (f := fun i => (i.witness.toStream, i.witness.length)) (fun a b h => by rw [TxIn.view_witness h, TxIn.view_witness_length h]) hv
  have e4 := map_view (f := fun i => i.witness.toStream) (fun a b h => TxIn.view_witness h) hv
  have e5 := map_view (f := fun i => i.length + (if u.isSegwit then i.witness.length else 0)) (fun a b h => by rw [TxIn.view_length h, TxIn.view_witness_length h]) hv
  refine ⟨?_, ?_, ?_, ?_⟩
  · funext cap off
    unfold Tx.toStream
    simp only [hs, h1, h2, h4, hl, e2, e3]
  · unfold Tx.length
    rw [hs, hl, h4, e5]
  · unfold Tx.txid Tx.hash
    rw [h1, h2, h4, hl, e1]
  · unfold Tx.wtxid Tx.whash
    rw [h1, h2, h4, hl, e1, e4]

theorem SignCall.edit_edit (sc : Script) (w : Option Witness) (i : TxIn) : (edit sc w (edit sc w i)).view = (edit sc w i).view := by
  have ha : ∀ s : Script, ((s.assign sc).assign sc).scriptLen = (s.assign sc).scriptLen ∧ ((s.assign sc).assign sc).arr = (s.assign sc).arr := by
    intro s
    unfold Script.assign Script.clear
    dsimp only
    by_cases h : sc.scriptLen > 0 <;> by_cases h2 : s.scriptLen > 0 <;> simp [h, h2]
  unfold TxIn.view edit
  dsimp only
  rw [(ha i.scriptSig).1, (ha i.scriptSig).2]
  cases w <;> rfl

/-- C101: the same call once more returns the same signature and leaves a transaction that is written and identified as before. -/
theorem C101_again {t t1 : Tx} {c : SignCall} {g : Sig} (h : c.run t = .ok (t1, g)) :
    ∃ t2, c.run t1 = .ok (t2, g) ∧ t2.toStream = t1.toStream ∧ t2.length = t1.length ∧ t2.txid = t1.txid ∧ t2.wtxid = t1.wtxid := by
  have ht := C101_terms h
  rw [SignCall.run_eq] at h
  obtain ⟨p, hp, h⟩ := C.ok_inv h
  rw [SignCall.run_eq, SignCall.plan_terms ht, hp, C.bind_ok]
  unfold SignCall.apply at h
  split at h
  · cases h
  · next i hi =>
    cases h
    have hlt : c.index.toNat < t.txIns.length := (List.getElem?_eq_some_iff.mp hi).1
    have h2 : SignCall.apply { t with txIns := t.txIns.set c.index.toNat (SignCall.edit p.2.1 p.2.2 i) } c.index.toNat p = .ok
        ({ t with txIns := (t.txIns.set c.index.toNat (SignCall.edit p.2.1 p.2.2 i)).set c.index.toNat (SignCall.edit p.2.1 p.2.2 (SignCall.edit p.2.1 p.2.2 i)) }, p.1) := by
      unfold SignCall.apply
      dsimp only
      rw [List.getElem?_set_self hlt]
    refine ⟨_, h2, Tx.view_same (SignCall.apply_terms h2) ?_⟩
    dsimp only
    rw [List.set_set, List.map_set, List.map_set, SignCall.edit_edit]

/-! ### Transaction ids -/

theorem SignCall.plan_native {t : Tx} {c : SignCall} {p : Sig × Script × Option Witness} (hn : c.Native) (h : c.plan t = .ok p) : p.2.1 = {} := by
  cases c with
  | legacy => exact hn.elim
  | segwit i k r a ty sh rnd =>
    unfold plan at h
    obtain ⟨d, -, h⟩ := C.ok_inv h
    obtain ⟨g, -, h⟩ := C.ok_inv h
    obtain ⟨sc, hsc, h⟩ := C.ok_inv h
    obtain ⟨w, -, h⟩ := C.ok_inv h
    cases h
    have hn : ty ≠ .p2sh_p2wpkh ∧ ty ≠ .p2sh_p2wsh := hn
    unfold Tx.segwitScript at hsc
    rw [if_neg (by rintro (e | e); exacts [hn.1 e, hn.2 e])] at hsc
    cases hsc
    rfl

/-- C101: signing a native segwit input with an empty script does not change the transaction id, so that transactions that spend this one can be made
before it is signed. -/
theorem C101_txid {t t' : Tx} {c : SignCall} {g : Sig} (hc : c.Native) (h : c.run t = .ok (t', g))
    (he : ∀ i, t.txIns[c.index.toNat]? = some i → i.scriptSig.Holds []) :
    t'.txid = t.txid ∧ ∀ (j : Nat) (i : TxIn), t'.txIns[j]? = some i → (∀ i, t.txIns[j]? = some i → i.scriptSig.Holds []) → i.scriptSig.Holds [] := by
  rw [SignCall.run_eq] at h
  obtain ⟨p, hp, h⟩ := C.ok_inv h
  have hsc := SignCall.plan_native hc hp
  have ht := SignCall.apply_terms h
  unfold SignCall.apply at h
  split at h
  · cases h
  · next i hi =>
    cases h
    have hlt : c.index.toNat < t.txIns.length := (List.getElem?_eq_some_iff.mp hi).1
    have hh := he i hi
    have hl0 : i.scriptSig.scriptLen = 0 := hh.1
    have e : (SignCall.edit p.2.1 p.2.2 i).scriptSig.scriptLen = i.scriptSig.scriptLen ∧ (SignCall.edit p.2.1 p.2.2 i).scriptSig.arr = i.scriptSig.arr := by
      unfold SignCall.edit
      dsimp only
      rw [hsc]
      unfold Script.assign Script.clear
      dsimp only
      rw [hl0]
      simp
    refine ⟨?_, ?_⟩
    · have hins : (t.txIns.set c.index.toNat (SignCall.edit p.2.1 p.2.2 i)).map TxIn.toStream = t.txIns.map TxIn.toStream := by
        refine List.ext_getElem? fun j => ?_
        rw [List.map_set]
        by_cases hj : c.index.toNat = j
        · subst hj
          rw [List.getElem?_set_self (by simpa using hlt), List.getElem?_map, hi, Option.map_some, Tx.toStream_congr (a := SignCall.edit p.2.1 p.2.2 i) (b := i) rfl e.1 e.2]
        · rw [List.getElem?_set_ne hj]
      unfold Tx.txid Tx.hash
      dsimp only
      rw [hins, List.length_set]
    · intro j k hk hold
      by_cases hj : c.index.toNat = j
      · subst hj
        dsimp only at hk
        rw [List.getElem?_set_self hlt] at hk
        cases hk
        exact ⟨e.1.trans hh.1, e.2.trans hh.2⟩
      · dsimp only at hk
        rw [List.getElem?_set_ne hj] at hk
        exact hold k hk

/-- C101: the same for a series of calls. -/
theorem C101_txid_series : ∀ {cs : List SignCall} {t t' : Tx} {gs : List Sig}, (∀ c ∈ cs, c.Native) → SignCall.runAll t cs = .ok (t', gs) →
    (∀ c ∈ cs, ∀ i, t.txIns[c.index.toNat]? = some i → i.scriptSig.Holds []) → t'.txid = t.txid := by
  intro cs
  induction cs with
  | nil => intro t t' gs _ h _; cases h; rfl
  | cons c cs ih =>
    intro t t' gs hn h he
    unfold SignCall.runAll at h
    obtain ⟨⟨t1, g⟩, h1, h⟩ := C.ok_inv h
    obtain ⟨⟨t2, gs'⟩, h2, h⟩ := C.ok_inv h
    cases h
    obtain ⟨e1, e2⟩ := C101_txid (hn c (by simp)) h1 (he c (by simp))
    rw [ih (fun c hc => hn c (List.mem_cons_of_mem _ hc)) h2 (fun c hc i hi => e2 _ i hi (he c (List.mem_cons_of_mem _ hc))), e1]

/-! ### Electrum and PSBT -/

theorem signInputKey_run {t t' : Tx} {i : UInt8} {k : PrivKey} {rnd : Nat → BN × BN} {g : Sig} (h : t.signInputKey i k rnd = .ok (t', g)) :
    ∃ c : SignCall, c.index = i ∧ c.run t = .ok (t', g) := by
  unfold Tx.signInputKey at h
  obtain ⟨sec, -, h⟩ := C.ok_inv h
  exact ⟨.legacy i k (Script.ofKey sec .p2pkh) 1 rnd, rfl, h⟩

theorem signSegwitInputKey_run {t t' : Tx} {i : UInt8} {k : PrivKey} {a : UInt64} {ty : ScriptType} {rnd : Nat → BN × BN} {g : Sig}
    (h : t.signSegwitInputKey i k a ty rnd = .ok (t', g)) : ∃ c : SignCall, c.index = i ∧ c.run t = .ok (t', g) := by
  unfold Tx.signSegwitInputKey at h
  obtain ⟨sec, -, h⟩ := C.ok_inv h
  exact ⟨.segwit i k (Script.ofKey sec .p2wpkh) a ty 1 rnd, rfl, h⟩

theorem ElectrumTx.signStep_run {account : HDPriv} {env : ElectrumTx.SignEnv} {i : Nat} {m : ElectrumMeta} {t t' : Tx} {r r' : UInt8}
    (h : ElectrumTx.signStep account env i m t r = .ok (t', r')) :
    (t' = t ∧ r' = r) ∨ (account.xpub.key.eq m.hd.key = true ∧ r' = r + 1 ∧ ∃ (c : SignCall) (g : Sig), c.index = UInt8.ofNat i ∧ c.run t = .ok (t', g)) := by
  unfold ElectrumTx.signStep at h
  dsimp only at h
  split at h
  · next he =>
    split at h
    · cases h
    · obtain ⟨c, -, h⟩ := C.ok_inv h
      obtain ⟨pk, -, h⟩ := C.ok_inv h
      split at h
      · obtain ⟨⟨t1, g⟩, h1, h⟩ := C.ok_inv h
        cases h
        obtain ⟨c, e1, e2⟩ := signInputKey_run h1
        exact .inr ⟨he, rfl, c, g, e1, e2⟩
      · split at h
        · cases h
        · obtain ⟨⟨t1, g⟩, h1, h⟩ := C.ok_inv h
          cases h
          obtain ⟨c, e1, e2⟩ := signSegwitInputKey_run h1
          exact .inr ⟨he, rfl, c, g, e1, e2⟩
  · cases h
    exact .inl ⟨rfl, rfl⟩

theorem ElectrumTx.signLoop_run {account : HDPriv} {env : ElectrumTx.SignEnv} {ms : List ElectrumMeta} :
    ∀ (n i : Nat) (t t' : Tx) (r r' : UInt8), ElectrumTx.signLoop account env ms n i t r = .ok (t', r') →
      ∃ (cs : List SignCall) (gs : List Sig), SignCall.runAll t cs = .ok (t', gs) ∧ r' = r + UInt8.ofNat cs.length ∧
        ∀ c ∈ cs, ∃ j m, i ≤ j ∧ j < i + n ∧ c.index = UInt8.ofNat j ∧ ms[j]? = some m ∧ account.xpub.key.eq m.hd.key = true
  | 0, i, t, t', r, r', h => by
    cases h
    exact ⟨[], [], rfl, by simp, by simp⟩
  | n + 1, i, t, t', r, r', h => by
    unfold ElectrumTx.signLoop at h
    split at h
    · cases h
    · next m hm =>
      obtain ⟨⟨t1, r1⟩, h1, h2⟩ := C.ok_inv h
      obtain ⟨cs, gs, e1, e2, e3⟩ := ElectrumTx.signLoop_run n (i + 1) t1 t' r1 r' h2
      rcases ElectrumTx.signStep_run h1 with ⟨rfl, rfl⟩ | ⟨he, rfl, c, g, c1, c2⟩
      · refine ⟨cs, gs, e1, e2, fun c hc => ?_⟩
        obtain ⟨j, m, a1, a2, a3⟩ := e3 c hc
        exact ⟨j, m, by omega, by omega, a3⟩
      · refine ⟨c :: cs, g :: gs, ?_, ?_, fun d hd => ?_⟩
        · unfold SignCall.runAll
          rw [c2, C.bind_ok]
          dsimp only
          rw [e1, C.bind_ok]
          rfl
        · rw [e2, List.length_cons, UInt8.ofNat_add, UInt8.add_assoc]
          congr 1
          exact UInt8.add_comm ..
        · rcases List.mem_cons.mp hd with rfl | hd
          · exact ⟨i, m, by omega, by omega, c1, hm, he⟩
          · obtain ⟨j, m, a1, a2, a3⟩ := e3 d hd
            exact ⟨j, m, by omega, by omega, a3⟩

/-- C101: signing an Electrum transaction does not change what is signed for, nor the metadata; with up to 256 inputs, those of other accounts keep script
and witness. -/
theorem C101_electrum {e e' : ElectrumTx} {account : HDPriv} {env : ElectrumTx.SignEnv} {n : UInt8} (h : e.sign account env = .ok (e', n)) :
    e'.tx.terms = e.tx.terms ∧ e'.metas = e.metas ∧
      (e.tx.txIns.length ≤ 256 → ∀ (i : Nat) (m : ElectrumMeta), e.metas[i]? = some m → account.xpub.key.eq m.hd.key = false → e'.tx.txIns[i]? = e.tx.txIns[i]?) := by
  unfold ElectrumTx.sign at h
  obtain ⟨⟨t, r⟩, h1, h⟩ := C.ok_inv h
  cases h
  obtain ⟨cs, gs, e1, -, e3⟩ := ElectrumTx.signLoop_run _ _ _ _ _ _ h1
  refine ⟨SignCall.runAll_terms e1, rfl, fun hl i m hm hk => C101_series_others e1 fun c hc => ?_⟩
  obtain ⟨j, m', -, a2, a3, a4, a5⟩ := e3 c hc
  rintro rfl
  rw [a3, UInt8.toNat_ofNat', Nat.mod_eq_of_lt (by omega), a4] at hm
  cases hm
  rw [hk] at a5
  cases a5

/-- What signing leaves of a PSBT. -/
structure PSBT.SameForSigning (p q : PSBT) : Prop where
  tx : q.tx = p.tx
  outs : q.outs = p.outs
  ins : q.ins.length = p.ins.length

theorem PSBT.add_input_section {p q : PSBT} {junk : Bytes} {sec : UInt8} {k v : Script} {r : Int} (h : p.add junk sec k v = .ok (r, q))
    (hs : sec.toNat < 1 + p.tx.txIns.length) : p.SameForSigning q := by
  obtain ⟨h1, h2, -⟩ := PSBT.add_shape h
  refine ⟨by rw [h1], ?_, h2⟩
  unfold PSBT.add at h
  split at h
  · cases h; rfl
  · obtain ⟨ka, -, h⟩ := C.ok_inv h
    obtain ⟨va, -, h⟩ := C.ok_inv h
    obtain ⟨code, -, h⟩ := C.ok_inv h
    split at h
    · obtain ⟨⟨r', m⟩, -, h⟩ := C.ok_inv h
      cases h
      rfl
    · cases h

theorem PSBT.signOne_same {p q : PSBT} {junk : Bytes} {rnd : Nat → BN × BN} {i : Nat} {m : InMeta} {pk : PrivKey} (h : p.signOne junk rnd i m pk = .ok q)
    (hi : i < p.tx.txIns.length) : p.SameForSigning q := by
  unfold PSBT.signOne at h
  obtain ⟨d, -, h⟩ := C.ok_inv h
  obtain ⟨g, -, h⟩ := C.ok_inv h
  obtain ⟨⟨kl, kb⟩, -, h⟩ := C.ok_inv h
  obtain ⟨⟨vl, vb⟩, -, h⟩ := C.ok_inv h
  dsimp only at h
  split at h
  · cases h
  · obtain ⟨⟨r, q'⟩, h1, h⟩ := C.ok_inv h
    cases h
    refine PSBT.add_input_section h1 ?_
    rw [UInt8.toNat_ofNat']
    have := Nat.mod_le (i + 1) (2 ^ 8)
    omega

theorem PSBT.SameForSigning.trans {p q r : PSBT} (h1 : p.SameForSigning q) (h2 : q.SameForSigning r) : p.SameForSigning r :=
  ⟨h2.tx.trans h1.tx, h2.outs.trans h1.outs, h2.ins.trans h1.ins⟩

theorem PSBT.signInputLoop_same {root : HDPriv} {fp : Bytes} {env : PSBT.SignEnv} {i : Nat} :
    ∀ (ds : List Derivation) (j : Nat) (st st' : PSBT.SignState), PSBT.signInputLoop root fp env i ds j st = .ok st' → i < st.p.tx.txIns.length →
      st.p.SameForSigning st'.p
  | [], j, st, st', h, _ => by cases h; exact ⟨rfl, rfl, rfl⟩
  | d :: ds, j, st, st', h, hi => by
    unfold PSBT.signInputLoop at h
    obtain ⟨st1, h1, h2⟩ := C.ok_inv h
    have a : st.p.SameForSigning st1.p := by
      unfold PSBT.signStep at h1
      split at h1
      · cases h1
      · split at h1
        · cases h1; exact ⟨rfl, rfl, rfl⟩
        · obtain ⟨⟨pk, cache⟩, -, h1⟩ := C.ok_inv h1
          dsimp only at h1
          split at h1
          · split at h1
            · cases h1
            · obtain ⟨q, h3, h1⟩ := C.ok_inv h1
              cases h1
              exact PSBT.signOne_same h3 hi
          · cases h1; exact ⟨rfl, rfl, rfl⟩
    exact a.trans (PSBT.signInputLoop_same ds (j + 1) st1 st' h2 (by rw [a.tx]; exact hi))

theorem PSBT.signLoop_same {root : HDPriv} {fp : Bytes} {env : PSBT.SignEnv} :
    ∀ (n i : Nat) (st st' : PSBT.SignState), PSBT.signLoop root fp env n i st = .ok st' → i + n ≤ st.p.tx.txIns.length → st.p.SameForSigning st'.p
  | 0, i, st, st', h, _ => by cases h; exact ⟨rfl, rfl, rfl⟩
  | n + 1, i, st, st', h, hi => by
    unfold PSBT.signLoop at h
    split at h
    · cases h
    · obtain ⟨st1, h1, h2⟩ := C.ok_inv h
      have a := PSBT.signInputLoop_same _ _ _ _ h1 (by omega)
      exact a.trans (PSBT.signLoop_same n (i + 1) st1 st' h2 (by rw [a.tx]; omega))

/-- C101: signing a PSBT does not change its transaction at all, nor what it says about the outputs - for every PSBT, root key and number of inputs. -/
theorem C101_psbt {p q : PSBT} {root : HDPriv} {env : PSBT.SignEnv} {n : UInt8} (h : p.sign root env = .ok (q, n)) :
    q.tx = p.tx ∧ q.outs = p.outs ∧ q.ins.length = p.ins.length := by
  unfold PSBT.sign at h
  obtain ⟨fp, -, h⟩ := C.ok_inv h
  obtain ⟨st, h1, h⟩ := C.ok_inv h
  cases h
  have a := PSBT.signLoop_same _ _ _ _ h1 (by simp)
  exact ⟨a.tx, a.outs, a.ins⟩

/-! ### Where code and claim disagree -/

/-- C101: the functions take the number of the input in 8 bits: with more than 256 inputs, whoever asks for input 256 + `k` gets input `k` signed (again), and
the input asked for stays unsigned. -/
theorem C101_index_wraps {t t' : Tx} {c : SignCall} {g : Sig} {n : Nat} (hc : c.index = UInt8.ofNat n) (hn : 256 ≤ n) (h : c.run t = .ok (t', g)) :
    t'.txIns[n]? = t.txIns[n]? ∧ ∀ j, j ≠ n % 256 → t'.txIns[j]? = t.txIns[j]? := by
  have key : ∀ j, j ≠ n % 256 → t'.txIns[j]? = t.txIns[j]? := by
    intro j hj
    refine C101_others h ?_
    rw [hc, UInt8.toNat_ofNat']
    exact hj
  exact ⟨key n (by have := Nat.mod_lt n (show 256 > 0 by decide); omega), key⟩

/-- C101: `signInput` keeps the witness of the input, so that an input which has one - because it was signed as segwit before - can not spend an output to the
hash of the key though it has just been signed for. -/
theorem C101_witness_kept {t : Tx} {x : Transaction} {idx : UInt8} {inp : In} {pk : PrivKey} {d : Nat} {rnd : Nat → BN × BN} (hS : t.SignSetting x idx inp pk d rnd)
    (hw : inp.witness ≠ []) (amount : Nat) :
    ∃ t' g s, t.signInputKey idx pk rnd = .ok (t', g) ∧ t'.Holds (x.setIn idx.toNat { inp with script := s }) ∧
      ¬ InputOk (x.setIn idx.toNat { inp with script := s }) idx.toNat amount (p2pkhScript (Spec.hash160 (secOf pk.pubKey.compressed (d • G)))) := by
  have hk : (secOf pk.pubKey.compressed (d • G)).length ≤ 65 := by rw [length_secOf]; split <;> omega
  have hc := (C22_constructors (secOf pk.pubKey.compressed (d • G)) (by omega) {} [] ⟨rfl, rfl⟩ (by simp)).2.2.2.2.2.2.2.2.1
  obtain ⟨t', g, der, h1, h2, h3, h4⟩ := C71_legacy_exact hS hc (by rw [length_p2pkhScript (length_hash160 _)]; decide)
  refine ⟨t', g, _, ?_, h4, fun hok => ?_⟩
  · unfold Tx.signInputKey
    rw [ECPoint.secBytes_eq hS.key.pub, C.bind_ok, h1]
  · have hin := setIn_get hS.input ({ inp with script := inputPushes der (secOf pk.pubKey.compressed (d • G)) (p2pkhScript (Spec.hash160 (secOf pk.pubKey.compressed (d • G)))) } : In)
    generalize hspk : p2pkhScript (Spec.hash160 (secOf pk.pubKey.compressed (d • G))) = spk at hok
    rw [hspk] at hin
    cases hok with
    | bare _ inp' ds hi hp hw' g1 g2 hs =>
      rw [hin, Option.some.injEq] at hi
      subst hi
      exact hw hw'
    | native _ inp' hi h0 hs =>
      cases hs with
      | key h' => simp [p2pkhScript, p2wpkhScript] at hspk
      | script => simp [p2pkhScript, p2wshScript] at hspk
    | p2sh r inp' ds hi hp hw' g1 hs => simp [p2pkhScript, p2shScript] at hspk
    | nested r inp' hi h0 hs => simp [p2pkhScript, p2shScript] at hspk

/-! ### Examples -/

/-- A transaction with two inputs, the second of which has a witness. -/
def exTwo : Transaction := ⟨2, [⟨zeros 32, 0, [], 0xfffffffe, []⟩, ⟨zeros 32, 7, [], 0xfffffffd, [[1, 2]]⟩], [⟨5000, [0x51]⟩], 100⟩

def exTwoTx : Tx :=
  { version := 2, locktime := 100,
    txIns := [{ hash := zeros 32, outputIndex := 0, sequence := 0xfffffffe }, { hash := zeros 32, outputIndex := 7, sequence := 0xfffffffd, witness := { numElements := 1, arr := [2, 1, 2] } }],
    txOuts := [{ amount := 5000, scriptPubkey := { scriptLen := 1, arr := [0x51] } }] }

theorem exTwo_holds : exTwoTx.Holds exTwo :=
  ⟨rfl, .cons ⟨⟨rfl, rfl, rfl, ⟨rfl, rfl⟩, rfl⟩, ⟨rfl, rfl⟩⟩ (.cons ⟨⟨rfl, rfl, rfl, ⟨rfl, rfl⟩, rfl⟩, ⟨rfl, rfl⟩⟩ .nil), .cons ⟨rfl, ⟨rfl, rfl⟩⟩ .nil, rfl⟩

theorem exTwo_wire : WireTx exTwo where
  version := by decide
  locktime := by decide
  ins := by
    intro i hi
    simp only [exTwo, List.mem_cons, List.not_mem_nil, or_false] at hi
    rcases hi with rfl | rfl <;> exact ⟨rfl, by decide, by decide, by decide⟩
  outs := by
    intro o ho
    simp only [exTwo, List.mem_cons, List.not_mem_nil, or_false] at ho
    subst ho
    exact ⟨by decide, by decide⟩
  items := by
    intro i hi
    simp only [exTwo, List.mem_cons, List.not_mem_nil, or_false] at hi
    rcases hi with rfl | rfl
    · simp
    · simp

theorem exTwo_setting0 : exTwoTx.SignSetting exTwo 0 ⟨zeros 32, 0, [], 0xfffffffe, []⟩ keyOne 1 (fun _ => (BN.one, BN.one)) :=
  ⟨exTwo_holds, exTwo_wire, by decide, by decide, rfl, keyOne_holds, draws_one⟩

theorem exTwo_setting1 : exTwoTx.SignSetting exTwo 1 ⟨zeros 32, 7, [], 0xfffffffd, [[1, 2]]⟩ keyOne 1 (fun _ => (BN.one, BN.one)) :=
  ⟨exTwo_holds, exTwo_wire, by decide, by decide, rfl, keyOne_holds, draws_one⟩

def exCall0 : SignCall := .segwit 0 keyOne { scriptLen := 1, arr := [0x51] } 5000 .p2wsh 1 (fun _ => (BN.one, BN.one))
def exCall1 : SignCall := .legacy 1 keyOne { scriptLen := 1, arr := [0x51] } 1 (fun _ => (BN.one, BN.one))

/-- C101: two calls for different inputs that are defined, one of them native; the whole series is defined, too. -/
theorem exCalls : exCall0.index ≠ exCall1.index ∧ exCall0.Native ∧ (∀ i, exTwoTx.txIns[exCall0.index.toNat]? = some i → i.scriptSig.Holds []) ∧
    (∃ t g, exCall0.run exTwoTx = .ok (t, g)) ∧ (∃ t gs, SignCall.runAll exTwoTx [exCall0, exCall1] = .ok (t, gs)) := by
  have hc : ({ scriptLen := 1, arr := [0x51] } : Script).Holds [0x51] := ⟨rfl, rfl⟩
  obtain ⟨t, g, der, h1, -⟩ := C71_segwit_exact exTwo_setting0 hc (by decide) 5000 .p2wsh
  have h0 : exCall0.run exTwoTx = .ok (t, g) := h1
  obtain ⟨t1, g1, der1, h2, -⟩ := C71_legacy_exact exTwo_setting1 hc (by decide)
  obtain ⟨u, hu⟩ := C101_signature (C101_terms h0).symm (c := exCall1) h2
  refine ⟨by decide, ⟨by decide, by decide⟩, ?_, ⟨t, g, h0⟩, u, [g, g1], ?_⟩
  · intro i hi
    cases hi
    exact ⟨rfl, rfl⟩
  · unfold SignCall.runAll
    rw [h0, C.bind_ok]
    dsimp only
    unfold SignCall.runAll
    rw [hu, C.bind_ok]
    rfl

/-- C101_txid: signing the first input keeps the id. -/
example : ∃ t g, exCall0.run exTwoTx = .ok (t, g) ∧ t.txid = exTwoTx.txid := by
  obtain ⟨-, h1, h2, ⟨t, g, h3⟩, -⟩ := exCalls
  exact ⟨t, g, h3, (C101_txid h1 h3 h2).1⟩

/-- C101_witness_kept: the second input has a witness. -/
example (amount : Nat) : ∃ t' g s, exTwoTx.signInputKey 1 keyOne (fun _ => (BN.one, BN.one)) = .ok (t', g) ∧
    t'.Holds (exTwo.setIn 1 ⟨zeros 32, 7, s, 0xfffffffd, [[1, 2]]⟩) ∧
    ¬ InputOk (exTwo.setIn 1 ⟨zeros 32, 7, s, 0xfffffffd, [[1, 2]]⟩) 1 amount (p2pkhScript (Spec.hash160 (secOf keyOne.pubKey.compressed (1 • G)))) :=
  C101_witness_kept exTwo_setting1 (by simp) amount

/-- C101_index_wraps: the call of the program for input 256 is the one for input 0. -/
example : exCall0.index = UInt8.ofNat 256 ∧ ∃ t g, exCall0.run exTwoTx = .ok (t, g) := ⟨rfl, exCalls.2.2.2.1⟩

end UB
