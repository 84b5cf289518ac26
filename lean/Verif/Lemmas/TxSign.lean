import Verif.Model.TxSign
import Verif.Spec.Interp
import Verif.Lemmas.PSBTSign

/-
Lemmas about signing transaction inputs: what is pushed, which digest is signed, and that scripts of inputs do not enter the digests.
-/

namespace UB
open Spec BN

attribute [local irreducible] secpP secpN BN.multiply BN.fastMod BN.mod BN.subtractmod BN.multK BN.addmod BN.inverse BN.lshift BN.subi BN.add
  BN.multHalf BN.cmov BN.isEqual BN.isZero BN.sqrt BN.subtract scalarMultiply pointMultiply CurvePoint.add readBE writeBE BN.addi doubleSha Spec.hash256
  hmac512 hmacSha512 hash160 Spec.hash160 signDigest ecdsaDeterministic signatureOf

/-- One byte of length and the data. -/
def Spec.push1 (d : Bytes) : Bytes := UInt8.ofNat d.length :: d

/-- A transaction with one input replaced. -/
def Spec.Transaction.setIn (x : Transaction) (i : Nat) (inp : In) : Transaction := { x with ins := x.ins.set i inp }

theorem ECPoint.secBytes_eq {p : ECPoint} {P : Pt} (h : p.Holds P) : p.secBytes = .ok (secOf p.compressed P) := by
  have hl : (secOf p.compressed P).length = p.length := by rw [length_secOf]; rfl
  have h65 : p.length ≤ 65 := by unfold ECPoint.length; split <;> omega
  unfold ECPoint.secBytes
  rw [ECPoint.C36_sec _ _ h 65, C.bind_ok]
  dsimp only
  rw [List.take_of_length_le (i := 65) (by omega), List.take_left' (by omega)]
  rfl

theorem Sig.derBytes75_eq (g : Sig) (hr : g.r.length = 32) (hs : g.s.length = 32) :
    ∃ der, g.derBytes75 = .ok der ∧ DerSig der (beValue g.r) (beValue g.s) ∧ der.length ≤ 72 := by
  have h1 := length_derBytes g.r hr
  have h2 := length_derBytes g.s hs
  obtain ⟨d, e1, e2, e3, e4⟩ := C32_der g (zeros 75) hr hs (by simp [Sig.length]; omega)
  refine ⟨d, ?_, e2, e4⟩
  unfold Sig.derBytes75
  rw [e1, C.bind_ok]
  dsimp only
  rw [List.take_left' rfl]
  rfl

theorem Script.pushKey_holds {sc : Script} {d key : Bytes} (h : sc.Holds d) (hl : d.length + 1 + key.length ≤ 10000) :
    (sc.pushKey key).1.Holds (d ++ push1 key) := by
  unfold Script.pushKey
  have h1 := C25_push_byte sc d (UInt8.ofNat key.length) h
  rw [if_pos (by omega)] at h1
  have h2 := C25_push_data _ _ key h1.1
  rw [if_pos (by simp; omega)] at h2
  dsimp only
  rw [show d ++ push1 key = d ++ [UInt8.ofNat key.length] ++ key by simp [push1]]
  exact h2.1

theorem Script.pushSig_holds {sc : Script} {d der : Bytes} {ty : UInt8} (h : sc.Holds d) (hl : d.length + 2 + der.length ≤ 10000) :
    (sc.pushSig der ty).1.Holds (d ++ push1 (der ++ [ty])) := by
  unfold Script.pushSig
  have h1 := C25_push_byte sc d (UInt8.ofNat (der.length + 1)) h
  rw [if_pos (by omega)] at h1
  have h2 := C25_push_data _ _ der h1.1
  rw [if_pos (by simp; omega)] at h2
  have h3 := C25_push_byte _ _ ty h2.1
  rw [if_pos (by simp; omega)] at h3
  dsimp only
  rw [show d ++ push1 (der ++ [ty]) = d ++ [UInt8.ofNat (der.length + 1)] ++ der ++ [ty] by simp [push1]]
  exact h3.1

/-- The pattern of a key hash script. -/
def Spec.IsP2pkh (s : Bytes) : Prop := ∃ h : Bytes, h.length = 20 ∧ s = p2pkhScript h

theorem Script.is_p2pkh {sc : Script} {d : Bytes} (h : sc.Holds d) : sc.type = .p2pkh ↔ IsP2pkh d := C22_type_exact sc d h .p2pkh

open Classical in
/-- What an input script of `signInput` consists of. -/
noncomputable def Spec.inputPushes (der key code : Bytes) : Bytes :=
  push1 (der ++ [1]) ++ push1 key ++ if IsP2pkh code then [] else varBytes code

theorem inputScript_eq {pk : PrivKey} {P : Pt} (hP : pk.pubKey.Holds P) {g : Sig} (hr : g.r.length = 32) (hs : g.s.length = 32) {redeem : Script} {code : Bytes}
    (hc : redeem.Holds code) (hl : code.length ≤ 9800) :
    ∃ der sc, Tx.inputScript pk g redeem = .ok sc ∧ DerSig der (beValue g.r) (beValue g.s) ∧ der.length ≤ 72 ∧
      sc.Holds (inputPushes der (secOf pk.pubKey.compressed P) code) := by
  classical
  obtain ⟨der, e1, e2, e3⟩ := Sig.derBytes75_eq g hr hs
  have hk : (secOf pk.pubKey.compressed P).length ≤ 65 := by rw [length_secOf]; split <;> omega
  have h1 := Script.pushSig_holds (sc := {}) (d := []) (der := der) (ty := 1) ⟨rfl, rfl⟩ (by simp; omega)
  rw [List.nil_append] at h1
  have h2 := Script.pushKey_holds (key := secOf pk.pubKey.compressed P) h1 (by simp [push1]; omega)
  have hv : (varBytes code).length ≤ 3 + code.length := by
    simp only [varBytes, List.length_append, compactSize]
    split_ifs <;> simp <;> omega
  unfold Tx.inputScript inputPushes
  rw [e1, C.bind_ok]
  dsimp only
  rw [ECPoint.secBytes_eq hP, C.bind_ok]
  by_cases hp : IsP2pkh code
  · rw [if_neg (by rw [not_not]; exact (Script.is_p2pkh hc).mpr hp), if_pos hp]
    exact ⟨der, _, rfl, e2, e3, by rw [List.append_nil]; exact h2⟩
  · obtain ⟨sc', p1, p2⟩ := pushScript_holds _ redeem _ code h2 hc (by simp [push1]; omega)
    rw [if_pos (fun hh => hp ((Script.is_p2pkh hc).mp hh)), if_neg hp, p1, C.bind_ok]
    exact ⟨der, sc', rfl, e2, e3, p2⟩

theorem Tx.Holds.setAt {t : Tx} {x : Transaction} (h : t.Holds x) {i : Nat} {ti : TxIn} {inp : In} (hi : ti.Holds inp) :
    ({ t with txIns := t.txIns.set i ti } : Tx).Holds (x.setIn i inp) := by
  refine ⟨h.version, ?_, h.outs, h.locktime⟩
  have hins := h.ins
  rw [List.forall₂_iff_get] at hins ⊢
  obtain ⟨h1, h2⟩ := hins
  refine ⟨by simpa [Transaction.setIn] using h1, fun k k1 k2 => ?_⟩
  simp only [Transaction.setIn, List.get_eq_getElem, List.getElem_set]
  split
  · exact hi
  · have := h2 k (by simpa using k1) (by simpa [Transaction.setIn] using k2)
    simpa using this

theorem Tx.Holds.inAt {t : Tx} {x : Transaction} (h : t.Holds x) {i : Nat} {inp : In} (hi : x.ins[i]? = some inp) : ∃ ti, t.txIns[i]? = some ti ∧ ti.Holds inp := by
  obtain ⟨hl, rfl⟩ := List.getElem?_eq_some_iff.mp hi
  have hlen := h.ins.length_eq
  refine ⟨t.txIns[i]'(by omega), List.getElem?_eq_getElem (by omega), ?_⟩
  exact (List.forall₂_iff_get.mp h.ins).2 i (by omega) hl

theorem Tx.setScript_eq {t : Tx} {x : Transaction} (h : t.Holds x) {i : Nat} {inp : In} (hi : x.ins[i]? = some inp) {sc : Script} {s : Bytes} (hs : sc.Holds s) :
    ∃ t', t.setScript i sc = .ok t' ∧ t'.Holds (x.setIn i { inp with script := s }) := by
  obtain ⟨ti, e1, e2⟩ := h.inAt hi
  refine ⟨{ t with txIns := t.txIns.set i { ti with scriptSig := ti.scriptSig.assign sc } }, by unfold Tx.setScript; rw [e1], h.setAt ?_⟩
  exact ⟨⟨e2.body.hash, e2.body.hash_len, e2.body.index, Script.assign_holds (by rw [e2.body.script.1, e2.body.script.2]) hs, e2.body.sequence⟩, e2.witness⟩

theorem Tx.setWitness_eq {t : Tx} {x : Transaction} (h : t.Holds x) {i : Nat} {inp : In} (hi : x.ins[i]? = some inp) {w : Witness} {l : List Bytes} (hs : w.Holds l) :
    ∃ t', t.setWitness i w = .ok t' ∧ t'.Holds (x.setIn i { inp with witness := l }) := by
  obtain ⟨ti, e1, e2⟩ := h.inAt hi
  refine ⟨{ t with txIns := t.txIns.set i { ti with witness := ti.witness.assign w } }, by unfold Tx.setWitness; rw [e1], h.setAt ?_⟩
  exact ⟨⟨e2.body.hash, e2.body.hash_len, e2.body.index, e2.body.script, e2.body.sequence⟩, hs⟩

/-! ### Scripts and witnesses of inputs do not enter the digests -/

/-- Two transactions that differ in the scripts and witnesses of their inputs only. -/
structure Spec.SameButScripts (x y : Transaction) : Prop where
  version : x.version = y.version
  outs : x.outs = y.outs
  locktime : x.locktime = y.locktime
  ins : List.Forall₂ (fun a b => a.prevHash = b.prevHash ∧ a.prevIndex = b.prevIndex ∧ a.sequence = b.sequence) x.ins y.ins

theorem SameButScripts.symm {x y : Transaction} (h : SameButScripts x y) : SameButScripts y x :=
  ⟨h.version.symm, h.outs.symm, h.locktime.symm, h.ins.flip.imp fun _ _ ⟨a, b, c⟩ => ⟨a.symm, b.symm, c.symm⟩⟩

theorem sameButScripts_setIn (x : Transaction) {i : Nat} {inp : In} (hi : x.ins[i]? = some inp) (s : Bytes) (w : List Bytes) :
    SameButScripts x (x.setIn i { inp with script := s, witness := w }) := by
  refine ⟨rfl, rfl, rfl, ?_⟩
  rw [List.forall₂_iff_get]
  refine ⟨by simp [Transaction.setIn], fun k k1 k2 => ?_⟩
  simp only [Transaction.setIn, List.get_eq_getElem, List.getElem_set]
  split
  · subst_vars
    rw [List.getElem?_eq_getElem k1, Option.some.injEq] at hi
    rw [hi]
    exact ⟨rfl, rfl, rfl⟩
  · exact ⟨rfl, rfl, rfl⟩

theorem legacySigHash_same {x y : Transaction} (h : SameButScripts x y) (i : Nat) (code : Bytes) (ty : Nat) : legacySigHash x i code ty = legacySigHash y i code ty := by
  have hb : ∀ a b : In, a.prevHash = b.prevHash → a.prevIndex = b.prevIndex → a.sequence = b.sequence → a.script = b.script → inBytes a = inBytes b := by
    intro a b h1 h2 h3 h4
    unfold inBytes
    rw [h1, h2, h3, h4]
  have hall : ∀ (l l' : List In) (n : Nat), List.Forall₂ (fun a b => a.prevHash = b.prevHash ∧ a.prevIndex = b.prevIndex ∧ a.sequence = b.sequence) l l' →
      List.Forall₂ (fun a b => inBytes a = inBytes b)
        ((l.zipIdx n).map fun (j, k) => if k = i then { j with script := code } else { j with script := [], sequence := if isNone ty ∨ isSingle ty then 0 else j.sequence })
        ((l'.zipIdx n).map fun (j, k) => if k = i then { j with script := code } else { j with script := [], sequence := if isNone ty ∨ isSingle ty then 0 else j.sequence }) := by
    intro l l' n hh
    induction hh generalizing n with
    | nil => exact .nil
    | @cons a b l l' hab _ ih =>
      rw [List.zipIdx_cons, List.zipIdx_cons, List.map_cons, List.map_cons]
      refine .cons ?_ (ih (n + 1))
      obtain ⟨e1, e2, e3⟩ := hab
      dsimp only
      split
      · exact hb _ _ e1 e2 e3 rfl
      · exact hb _ _ e1 e2 (by dsimp only; rw [e3]) rfl
  have hsig : List.Forall₂ (fun a b => inBytes a = inBytes b) (sigIns x.ins i code ty) (sigIns y.ins i code ty) := by
    unfold sigIns
    dsimp only
    have := hall x.ins y.ins 0 h.ins
    split
    · exact List.forall₂_take 1 (List.forall₂_drop i this)
    · exact this
  have hcat : ∀ l l' : List In, List.Forall₂ (fun a b => inBytes a = inBytes b) l l' → l.flatMap inBytes = l'.flatMap inBytes := by
    intro l l' hh
    induction hh with
    | nil => rfl
    | cons e _ ih => rw [List.flatMap_cons, List.flatMap_cons, e, ih]
  have hp : legacySigPreimage x i code ty = legacySigPreimage y i code ty := by
    unfold legacySigPreimage legacyBytes
    dsimp only
    rw [h.version, h.outs, h.locktime, hcat _ _ hsig, hsig.length_eq]
  unfold legacySigHash
  rw [h.ins.length_eq, h.outs, hp]

theorem segwitSigHash_same {x y : Transaction} (h : SameButScripts x y) (i : Nat) {a b : In} (ha : a.prevHash = b.prevHash) (hb : a.prevIndex = b.prevIndex)
    (hc : a.sequence = b.sequence) (code : Bytes) (amount ty : Nat) : segwitSigHash x i a code amount ty = segwitSigHash y i b code amount ty := by
  have h1 : prevoutsBytes x = prevoutsBytes y := by
    unfold prevoutsBytes
    have := h.ins
    generalize x.ins = l at this
    generalize y.ins = l' at this
    induction this with
    | nil => rfl
    | cons e _ ih => rw [List.flatMap_cons, List.flatMap_cons, ih]; unfold outpoint; rw [e.1, e.2.1]
  have h2 : sequencesBytes x = sequencesBytes y := by
    unfold sequencesBytes
    have := h.ins
    generalize x.ins = l at this
    generalize y.ins = l' at this
    induction this with
    | nil => rfl
    | cons e _ ih => rw [List.flatMap_cons, List.flatMap_cons, ih, e.2.2]
  unfold segwitSigHash segwitSigPreimage outputsBytes outpoint
  rw [h1, h2, h.version, h.outs, h.locktime, ha, hb, hc]

/-! ### The interpreter -/

theorem exec_cons (chk : Bytes → Bytes → Bool) {n : Nat} {s rest : Bytes} {op : Op} {st st' : List Bytes} (h : getOp s = some (op, rest))
    (he : execOp chk op st = some st') : exec chk (n + 1) s st = exec chk n rest st' := by
  cases s with
  | nil => cases h
  | cons b s =>
    conv_lhs => unfold exec
    rw [h]
    dsimp only
    rw [he]

theorem exec_p2pkh (chk : Bytes → Bytes → Bool) {h key sig : Bytes} {st : List Bytes} (hl : h.length = 20) (hk : Spec.hash160 key = h) (hc : chk sig key = true) (n : Nat) :
    exec chk (n + 5) (p2pkhScript h) (key :: sig :: st) = some ([1] :: st) := by
  have e1 : getOp (p2pkhScript h) = some (.code 0x76, 0xa9 :: UInt8.ofNat h.length :: (h ++ [0x88, 0xac])) := by rw [hl]; rfl
  have e3 : getOp (UInt8.ofNat h.length :: (h ++ [0x88, 0xac])) = some (.push h, [0x88, 0xac]) := getOp_push h _ (by omega)
  rw [exec_cons chk e1 (st' := key :: key :: sig :: st) rfl, exec_cons chk (op := .code 0xa9) rfl (st' := h :: key :: sig :: st) (by rw [← hk]; rfl),
    exec_cons chk e3 (st' := h :: h :: key :: sig :: st) rfl]
  rw [exec_cons chk (op := .code 0x88) (rest := [0xac]) rfl (st' := key :: sig :: st) (by simp [execOp])]
  rw [exec_cons chk (op := .code 0xac) (rest := []) rfl (st' := [1] :: st) (by simp [execOp, hc])]
  cases n <;> rfl

theorem length_p2pkhScript {h : Bytes} (hl : h.length = 20) : (p2pkhScript h).length = 25 := by simp [p2pkhScript, hl]

theorem run_p2pkh (chk : Bytes → Bytes → Bool) {h key sig : Bytes} {st : List Bytes} (hl : h.length = 20) (hk : Spec.hash160 key = h) (hc : chk sig key = true) :
    run chk (p2pkhScript h) (key :: sig :: st) = some ([1] :: st) := by
  unfold run
  rw [length_p2pkhScript hl]
  exact exec_p2pkh chk hl hk hc 20

theorem pushes_push1 {d rest : Bytes} {ds : List Bytes} (hd : d.length ≤ 75) (h : Pushes rest ds) : Pushes (push1 d ++ rest) (d :: ds) :=
  .cons (by rw [push1, List.cons_append]; exact getOp_push d rest hd) h

end UB
