import Verif.Lemmas.TxSign
import Verif.Props.PSBTSign

/-
C71: signing transaction inputs.
-/

namespace UB
open Spec BN

attribute [local irreducible] secpP secpN BN.multiply BN.fastMod BN.mod BN.subtractmod BN.multK BN.addmod BN.inverse BN.lshift BN.subi BN.add
  BN.multHalf BN.cmov BN.isEqual BN.isZero BN.sqrt BN.subtract scalarMultiply pointMultiply CurvePoint.add readBE writeBE BN.addi doubleSha Spec.hash256
  hmac512 hmacSha512 hash160 Spec.hash160 signDigest ecdsaDeterministic signatureOf

/-- A transaction, one of its inputs, a key, and random numbers. -/
structure Tx.SignSetting (t : Tx) (x : Transaction) (idx : UInt8) (inp : In) (pk : PrivKey) (d : Nat) (rnd : Nat → BN × BN) : Prop where
  holds : t.Holds x
  wire : WireTx x
  nIns : x.ins.length < 253
  nOuts : x.outs.length < 253
  input : x.ins[idx.toNat]? = some inp
  key : pk.Holds d
  draws : Draws rnd

/-- The signature `g` with encoding `der` is the deterministic one of the digest. -/
structure Sig.Made (g : Sig) (d : Nat) (digest der : Bytes) : Prop where
  r : g.r = beBytes 32 (signatureOf d digest).1
  s : g.s = beBytes 32 (signatureOf d digest).2
  der : DerSig der (signatureOf d digest).1 (signatureOf d digest).2

theorem made_of {g : Sig} {d : Nat} {digest der : Bytes} (hr : g.r = beBytes 32 (signatureOf d digest).1) (hs : g.s = beBytes 32 (signatureOf d digest).2)
    (h : DerSig der (beValue g.r) (beValue g.s)) : g.Made d digest der := by
  refine ⟨hr, hs, ?_⟩
  have hb := signatureOf_lt d digest
  rw [hr, hs, show beValue (beBytes 32 (signatureOf d digest).1) = _ from beNat_beBytes32 hb.1,
    show beValue (beBytes 32 (signatureOf d digest).2) = _ from beNat_beBytes32 hb.2] at h
  exact h

/-- `signInput` for whatever digest `sigHash` returns. -/
theorem Tx.signInput_from {t : Tx} {x : Transaction} {idx : UInt8} {inp : In} {pk : PrivKey} {d : Nat} {rnd : Nat → BN × BN} (hS : t.SignSetting x idx inp pk d rnd)
    {redeem : Script} {code : Bytes} (hc : redeem.Holds code) (hl : code.length ≤ 9800) {ty : UInt32} {digest : Bytes} (hd : t.sigHash idx redeem.copy ty = .ok digest)
    (hdl : digest.length = 32) :
    ∃ t' g der, t.signInput idx pk redeem ty rnd = .ok (t', g) ∧ g.Made d digest der ∧ der.length ≤ 72 ∧
      t'.Holds (x.setIn idx.toNat { inp with script := inputPushes der (secOf pk.pubKey.compressed (d • G)) code }) := by
  obtain ⟨g, e1, e2, e3⟩ := sign_eq hS.key.num hdl hS.draws
  obtain ⟨der, sc, s1, s2, s3, s4⟩ := inputScript_eq hS.key.pub (g := g) (by rw [e2]; exact Spec.length_beBytes ..) (by rw [e3]; exact Spec.length_beBytes ..)
    (Script.copy_holds hc) hl
  obtain ⟨t', t1, t2⟩ := Tx.setScript_eq hS.holds hS.input s4
  refine ⟨t', g, der, ?_, made_of e2 e3 s2, s3, t2⟩
  unfold Tx.signInput
  dsimp only
  rw [hd, C.bind_ok, e1, C.bind_ok, s1, C.bind_ok, t1, C.bind_ok]
  rfl

/-- C71: `signInput` with hash type ALL signs the digest of Bitcoin's original algorithm for the script, and sets the script of the input to
signature, key and - unless it is a key hash script - the script; nothing else changes. -/
theorem C71_legacy_exact {t : Tx} {x : Transaction} {idx : UInt8} {inp : In} {pk : PrivKey} {d : Nat} {rnd : Nat → BN × BN} (hS : t.SignSetting x idx inp pk d rnd)
    {redeem : Script} {code : Bytes} (hc : redeem.Holds code) (hl : code.length ≤ 9800) :
    ∃ t' g der, t.signInput idx pk redeem 1 rnd = .ok (t', g) ∧ g.Made d (legacySigHash x idx.toNat code 1) der ∧ der.length ≤ 72 ∧
      t'.Holds (x.setIn idx.toNat { inp with script := inputPushes der (secOf pk.pubKey.compressed (d • G)) code }) := by
  have hil : idx.toNat < x.ins.length := (List.getElem?_eq_some_iff.mp hS.input).1
  exact Tx.signInput_from hS hc hl (C19_sighash_all_partial t x hS.holds idx _ code 1 (Script.copy_holds hc) ⟨rfl, rfl, rfl⟩ hil
    (wire_preimage x hS.wire hS.nIns hS.nOuts idx.toNat code (by omega))) (length_legacySigHash ..)

open Classical in
/-- What `signSegwitInput` puts into the input, besides the signature. -/
noncomputable def Spec.segwitInput (inp : In) (type : ScriptType) (der key code : Bytes) : In :=
  { inp with
    script := if type = .p2sh_p2wpkh ∨ type = .p2sh_p2wsh then push1 (if IsP2wpkh code then code else p2wshScript (Spec.sha256 code)) else []
    witness := [der ++ [1], key] ++ if IsP2wpkh code then [] else [code] }

/-- The script code of BIP 143 for the script: the key hash script of the key for a key hash program. -/
noncomputable def Spec.segwitCode (key code : Bytes) : Bytes := if IsP2wpkh code then p2pkhScript (Spec.hash160 key) else code

theorem witness_pushes {pk : PrivKey} {P : Pt} (hP : pk.pubKey.Holds P) {g : Sig} (hr : g.r.length = 32) (hs : g.s.length = 32) {redeem : Script} {code : Bytes}
    (hc : redeem.Holds code) (hl : code.length ≤ 9800) :
    ∃ der w, Tx.segwitWitness pk g redeem = .ok w ∧ DerSig der (beValue g.r) (beValue g.s) ∧ der.length ≤ 72 ∧
      w.Holds ([der ++ [1], secOf pk.pubKey.compressed P] ++ if IsP2wpkh code then [] else [code]) := by
  obtain ⟨der, e1, e2, e3⟩ := Sig.derBytes75_eq g hr hs
  have hk : (secOf pk.pubKey.compressed P).length ≤ 65 := by rw [length_secOf]; split <;> omega
  have hv : ∀ d : Bytes, d.length ≤ 9800 → (varBytes d).length ≤ 3 + d.length := by
    intro d hd
    simp only [varBytes, List.length_append, compactSize]
    split_ifs <;> simp <;> omega
  have v1 := hv (der ++ [1]) (by simp; omega)
  have v2 := hv (secOf pk.pubKey.compressed P) (by omega)
  have v3 := hv code hl
  rw [List.length_append, List.length_singleton] at v1
  obtain ⟨w1, n1, p1, q1⟩ := C28_push {} [] (der ++ [1]) ⟨rfl, rfl⟩
  rw [if_pos (by simp; omega)] at q1
  obtain ⟨w2, n2, p2, q2⟩ := C28_push w1 _ (secOf pk.pubKey.compressed P) q1.1
  rw [if_pos (by simp; omega)] at q2
  unfold Tx.segwitWitness Witness.pushSig Witness.pushKey
  rw [e1, C.bind_ok, p1, C.bind_ok]
  dsimp only
  rw [C.pure_eq, C.bind_ok, ECPoint.secBytes_eq hP, C.bind_ok, p2, C.bind_ok]
  dsimp only
  rw [C.pure_eq, C.bind_ok]
  by_cases hp : IsP2wpkh code
  · rw [if_neg (by rw [not_not]; exact (Script.is_p2wpkh hc).mpr hp), if_pos hp]
    exact ⟨der, w2, rfl, e2, e3, q2.1⟩
  · obtain ⟨w3, n3, p3, q3, -⟩ := C28_push_script w2 _ redeem code q2.1 hc (by simp; omega)
    rw [if_pos (fun hh => hp ((Script.is_p2wpkh hc).mp hh)), if_neg hp, p3, C.bind_ok]
    exact ⟨der, w3, rfl, e2, e3, q3⟩

theorem segwitScript_eq {redeem : Script} {code : Bytes} (hc : redeem.Holds code) (hl : code.length ≤ 9800) (type : ScriptType) :
    ∃ sc, Tx.segwitScript redeem type = .ok sc ∧
      sc.Holds (if type = .p2sh_p2wpkh ∨ type = .p2sh_p2wsh then push1 (if IsP2wpkh code then code else p2wshScript (Spec.sha256 code)) else []) := by
  unfold Tx.segwitScript
  by_cases ht : type = .p2sh_p2wpkh ∨ type = .p2sh_p2wsh
  · rw [if_pos ht, if_pos ht]
    have hp : (if redeem.type = .p2wpkh then redeem else Script.ofScript redeem .p2wsh).Holds (if IsP2wpkh code then code else p2wshScript (Spec.sha256 code)) := by
      by_cases hp : IsP2wpkh code
      · rw [if_pos ((Script.is_p2wpkh hc).mpr hp), if_pos hp]; exact hc
      · rw [if_neg (fun hh => hp ((Script.is_p2wpkh hc).mp hh)), if_neg hp]
        exact (C22_constructors [] (by simp) redeem code hc (by omega)).2.2.2.2.2.2.2.2.2.2.2
    have hlen : (if IsP2wpkh code then code else p2wshScript (Spec.sha256 code)).length ≤ 75 := by
      split
      · rename_i hh
        obtain ⟨w, w1, w2⟩ := hh
        rw [w2]; simp [p2wpkhScript, w1]
      · simp [p2wshScript, length_sha256]
    generalize (if IsP2wpkh code then code else p2wshScript (Spec.sha256 code)) = c at hp hlen ⊢
    have hv : varBytes c = push1 c := varBytes_small (by omega)
    obtain ⟨sc', p1, p2⟩ := pushScript_holds {} _ [] c ⟨rfl, rfl⟩ hp (by rw [hv]; simp [push1]; omega)
    rw [p1, C.bind_ok]
    rw [hv, List.nil_append] at p2
    exact ⟨sc', rfl, p2⟩
  · rw [if_neg ht, if_neg ht]
    exact ⟨{}, rfl, rfl, rfl⟩

theorem setIn_setIn (x : Transaction) (i : Nat) (a b : In) : (x.setIn i a).setIn i b = x.setIn i b := by
  unfold Transaction.setIn
  dsimp only
  rw [List.set_set]

theorem setIn_get {x : Transaction} {i : Nat} {inp : In} (h : x.ins[i]? = some inp) (a : In) : (x.setIn i a).ins[i]? = some a := by
  unfold Transaction.setIn
  have := (List.getElem?_eq_some_iff.mp h).1
  simp [this]

/-- C71: `signSegwitInput` with hash type ALL signs the BIP 143 digest for the script code and the amount, sets the witness to signature, key and - unless
it is a key hash program - the script, and the script of the input to the push of the program (nested types) or to nothing; nothing else changes. -/
theorem C71_segwit_exact {t : Tx} {x : Transaction} {idx : UInt8} {inp : In} {pk : PrivKey} {d : Nat} {rnd : Nat → BN × BN} (hS : t.SignSetting x idx inp pk d rnd)
    {redeem : Script} {code : Bytes} (hc : redeem.Holds code) (hl : code.length ≤ 9800) (amount : UInt64) (type : ScriptType) :
    ∃ t' g der, t.signSegwitInput idx pk redeem amount type 1 rnd = .ok (t', g) ∧
      g.Made d (segwitSigHash x idx.toNat inp (segwitCode (secOf pk.pubKey.compressed (d • G)) code) amount.toNat 1) der ∧ der.length ≤ 72 ∧
      t'.Holds (x.setIn idx.toNat (segwitInput inp type der (secOf pk.pubKey.compressed (d • G)) code)) := by
  have hcc := Script.copy_holds hc
  have hk : (secOf pk.pubKey.compressed (d • G)).length ≤ 65 := by rw [length_secOf]; split <;> omega
  have hsw : ∀ (sc : Script) (code : Bytes), sc.Holds code → code.length < 2 ^ 31 → t.sigHashSegwit idx sc amount 1 =
      .ok (segwitSigHash x idx.toNat inp code amount.toNat 1) := by
    intro sc code h1 h2
    exact C20_sighash_segwit_all_partial t x hS.holds idx inp hS.input sc code amount 1 h1 (by omega) ⟨rfl, rfl, rfl⟩ (wire_segwit x hS.wire hS.nIns hS.nOuts)
  have hd : t.segwitDigest idx pk redeem.copy amount 1 =
      .ok (segwitSigHash x idx.toNat inp (segwitCode (secOf pk.pubKey.compressed (d • G)) code) amount.toNat 1) := by
    unfold Tx.segwitDigest segwitCode
    by_cases hp : IsP2wpkh code
    · rw [if_pos ((Script.is_p2wpkh hcc).mpr hp), if_pos hp, ECPoint.secBytes_eq hS.key.pub, C.bind_ok]
      exact hsw _ _ (C22_constructors _ (by omega) {} [] ⟨rfl, rfl⟩ (by simp)).2.2.2.2.2.2.2.2.1 (by rw [length_p2pkhScript (length_hash160 _)]; decide)
    · rw [if_neg (fun hh => hp ((Script.is_p2wpkh hcc).mp hh)), if_neg hp]
      exact hsw _ _ hcc (by omega)
  obtain ⟨g, e1, e2, e3⟩ := sign_eq hS.key.num (length_segwitSigHash x idx.toNat inp (segwitCode (secOf pk.pubKey.compressed (d • G)) code) amount.toNat 1) hS.draws
  obtain ⟨sc, s1, s2⟩ := segwitScript_eq hcc hl type
  obtain ⟨t1, t2, t3⟩ := Tx.setScript_eq hS.holds hS.input s2
  obtain ⟨der, w, w1, w2, w3, w4⟩ := witness_pushes hS.key.pub (g := g) (by rw [e2]; exact Spec.length_beBytes ..) (by rw [e3]; exact Spec.length_beBytes ..) hcc hl
  obtain ⟨t4, t5, t6⟩ := Tx.setWitness_eq t3 (setIn_get hS.input _) w4
  refine ⟨t4, g, der, ?_, made_of e2 e3 w2, w3, ?_⟩
  · unfold Tx.signSegwitInput
    dsimp only
    rw [hd, C.bind_ok, e1, C.bind_ok, s1, C.bind_ok, t2, C.bind_ok, w1, C.bind_ok, t5, C.bind_ok]
    rfl
  · rw [setIn_setIn] at t6
    exact t6

/-! ### The inputs pass verification -/

theorem SigOk_made {g : Sig} {d : Nat} {digest : Nat → Bytes} {der : Bytes} {c : Bool} (h : g.Made d (digest 1) der) (h0 : 0 < d) (hd : d < secpN)
    (hn : ecdsaDeterministic (beBytes 32 d) (digest 1) 10000 ≠ none) : SigOk digest (der ++ [1]) (secOf c (d • G)) := by
  have hv := signatureOf_valid hd hn
  refine ⟨der, 1, _, _, c, d • G, rfl, h.der, rfl, ?_, hv⟩
  intro e
  have := addOrderOf_dvd_iff_nsmul_eq_zero.mpr e
  rw [order_G] at this
  exact absurd (Nat.le_of_dvd h0 this) (by omega)

theorem legacyCheck_iff {x : Transaction} {i : Nat} {code sig key : Bytes} : legacyCheck x i code sig key = true ↔ SigOk (legacySigHash x i code) sig key := by
  classical
  unfold legacyCheck
  simp only [decide_eq_true_eq]

theorem segwitCheck_iff {x : Transaction} {i : Nat} {inp : In} {code : Bytes} {amount : Nat} {sig key : Bytes} :
    segwitCheck x i inp code amount sig key = true ↔ SigOk (segwitSigHash x i inp code amount) sig key := by
  classical
  unfold segwitCheck
  simp only [decide_eq_true_eq]

theorem not_program_p2pkh {h : Bytes} : ¬ IsWitnessProgram (p2pkhScript h) := by
  rintro ⟨v, p, e, -, -, hv⟩
  simp only [p2pkhScript, List.cons_append, List.cons.injEq] at e
  obtain ⟨rfl, -⟩ := e
  revert hv
  decide

theorem not_p2sh_p2pkh {h : Bytes} : ¬ IsP2sh (p2pkhScript h) := by
  rintro ⟨w, -, e⟩
  simp [p2pkhScript, p2shScript] at e

/-- Replacing scripts and witness keeps a transaction serializable. -/
theorem wire_setIn {x : Transaction} (h : WireTx x) {i : Nat} {inp : In} (hi : x.ins[i]? = some inp) {s : Bytes} {w : List Bytes} (hs : s.length < 2 ^ 31)
    (hw : w.length < 253 ∧ ∀ d ∈ w, d.length < 2 ^ 31) : WireTx (x.setIn i { inp with script := s, witness := w }) := by
  have hv := h.ins inp (List.mem_of_getElem? hi)
  refine ⟨h.version, h.locktime, ?_, h.outs, ?_⟩
  · intro j hj
    rcases List.mem_or_eq_of_mem_set hj with hj | rfl
    · exact h.ins j hj
    · exact ⟨hv.hash, hv.index, hs, hv.sequence⟩
  · intro j hj
    rcases List.mem_or_eq_of_mem_set hj with hj | rfl
    · exact h.items j hj
    · exact hw

/-- C71: after `signInput(i, key)` the input may spend an output to the hash of the key; the transaction stays serializable. -/
theorem C71_p2pkh {t : Tx} {x : Transaction} {idx : UInt8} {inp : In} {pk : PrivKey} {d : Nat} {rnd : Nat → BN × BN} (hS : t.SignSetting x idx inp pk d rnd)
    (hw : inp.witness = []) (amount : Nat)
    (hn : ecdsaDeterministic (beBytes 32 d) (legacySigHash x idx.toNat (p2pkhScript (Spec.hash160 (secOf pk.pubKey.compressed (d • G)))) 1) 10000 ≠ none) :
    ∃ t' g s, t.signInputKey idx pk rnd = .ok (t', g) ∧ t'.Holds (x.setIn idx.toNat { inp with script := s }) ∧
      WireTx (x.setIn idx.toNat { inp with script := s }) ∧
      InputOk (x.setIn idx.toNat { inp with script := s }) idx.toNat amount (p2pkhScript (Spec.hash160 (secOf pk.pubKey.compressed (d • G)))) := by
  have hk : (secOf pk.pubKey.compressed (d • G)).length ≤ 65 := by rw [length_secOf]; split <;> omega
  have hc := (C22_constructors (secOf pk.pubKey.compressed (d • G)) (by omega) {} [] ⟨rfl, rfl⟩ (by simp)).2.2.2.2.2.2.2.2.1
  obtain ⟨t', g, der, h1, h2, h3, h4⟩ := C71_legacy_exact hS hc (by rw [length_p2pkhScript (length_hash160 _)]; decide)
  have hsame := sameButScripts_setIn x hS.input (inputPushes der (secOf pk.pubKey.compressed (d • G)) (p2pkhScript (Spec.hash160 (secOf pk.pubKey.compressed (d • G))))) inp.witness
  have hip : inputPushes der (secOf pk.pubKey.compressed (d • G)) (p2pkhScript (Spec.hash160 (secOf pk.pubKey.compressed (d • G)))) =
      push1 (der ++ [1]) ++ (push1 (secOf pk.pubKey.compressed (d • G)) ++ []) := by
    unfold inputPushes
    rw [if_pos ⟨_, length_hash160 _, rfl⟩, List.append_assoc]
  have hwire := wire_setIn hS.wire hS.input (s := inputPushes der (secOf pk.pubKey.compressed (d • G)) (p2pkhScript (Spec.hash160 (secOf pk.pubKey.compressed (d • G)))))
    (w := inp.witness) (by rw [hip]; simp only [push1, List.length_append, List.length_cons, List.length_nil]; omega) (by rw [hw]; simp)
  refine ⟨t', g, _, ?_, h4, hwire, .bare _ _ [der ++ [1], secOf pk.pubKey.compressed (d • G)] (setIn_get hS.input _) ?_ hw not_program_p2pkh not_p2sh_p2pkh ?_⟩
  · unfold Tx.signInputKey
    rw [ECPoint.secBytes_eq hS.key.pub, C.bind_ok, h1]
  · dsimp only
    rw [hip]
    exact pushes_push1 (by simp; omega) (pushes_push1 (by omega) .nil)
  · refine ⟨[1], [], ?_, rfl⟩
    refine run_p2pkh _ (length_hash160 _) rfl ?_
    rw [legacyCheck_iff, show legacySigHash (x.setIn idx.toNat _) idx.toNat _ = _ from funext fun ty => (legacySigHash_same hsame _ _ ty).symm]
    exact SigOk_made (digest := legacySigHash x idx.toNat (p2pkhScript (Spec.hash160 (secOf pk.pubKey.compressed (d • G))))) (c := pk.pubKey.compressed) h2 hS.key.pos hS.key.lt hn

/-- A script that accepts a signature and a key for which the check succeeds. -/
def Spec.OneKey (code key : Bytes) : Prop := ∀ (chk : Bytes → Bytes → Bool) (sig : Bytes), chk sig key = true → SucceedsClean chk code [key, sig]

/-- C71: after `signInput(i, key, script)` with a script of at most 75 bytes for one key, other than a key hash script, the input may spend an output
to the hash of the script.  (Longer scripts are not pushed as one element, see `C26_long_script_wrong`; a key hash script is not pushed at all, see
`C71_p2sh_p2pkh`.) -/
theorem C71_p2sh_partial {t : Tx} {x : Transaction} {idx : UInt8} {inp : In} {pk : PrivKey} {d : Nat} {rnd : Nat → BN × BN} (hS : t.SignSetting x idx inp pk d rnd)
    (hw : inp.witness = []) (amount : Nat) {redeem : Script} {code : Bytes} (hc : redeem.Holds code) (hl : code.length ≤ 75) (hp : ¬ IsP2pkh code)
    (hnw : ¬ IsWitnessProgram code) (ho : OneKey code (secOf pk.pubKey.compressed (d • G)))
    (hn : ecdsaDeterministic (beBytes 32 d) (legacySigHash x idx.toNat code 1) 10000 ≠ none) :
    ∃ t' g s, t.signInput idx pk redeem 1 rnd = .ok (t', g) ∧ t'.Holds (x.setIn idx.toNat { inp with script := s }) ∧
      InputOk (x.setIn idx.toNat { inp with script := s }) idx.toNat amount (p2shScript (Spec.hash160 code)) := by
  have hk : (secOf pk.pubKey.compressed (d • G)).length ≤ 65 := by rw [length_secOf]; split <;> omega
  obtain ⟨t', g, der, h1, h2, h3, h4⟩ := C71_legacy_exact hS hc (by omega)
  have hsame := sameButScripts_setIn x hS.input (inputPushes der (secOf pk.pubKey.compressed (d • G)) code) inp.witness
  have hip : inputPushes der (secOf pk.pubKey.compressed (d • G)) code =
      push1 (der ++ [1]) ++ (push1 (secOf pk.pubKey.compressed (d • G)) ++ (push1 code ++ [])) := by
    unfold inputPushes
    rw [if_neg hp, varBytes_small (by omega), List.append_assoc, List.append_nil]
    rfl
  refine ⟨t', g, _, h1, h4, .p2sh code _ [der ++ [1], secOf pk.pubKey.compressed (d • G)] (setIn_get hS.input _) ?_ hw hnw ?_⟩
  · dsimp only
    rw [hip]
    exact pushes_push1 (by simp; omega) (pushes_push1 (by omega) (pushes_push1 hl .nil))
  · obtain ⟨v, v1, v2⟩ := ho (legacyCheck (x.setIn idx.toNat { inp with script := inputPushes der (secOf pk.pubKey.compressed (d • G)) code }) idx.toNat code) (der ++ [1]) (by
      rw [legacyCheck_iff, show legacySigHash (x.setIn idx.toNat _) idx.toNat _ = _ from funext fun ty => (legacySigHash_same hsame _ _ ty).symm]
      exact SigOk_made (digest := legacySigHash x idx.toNat code) (c := pk.pubKey.compressed) h2 hS.key.pos hS.key.lt hn)
    exact ⟨v, [], v1, v2⟩

/-- What `signSegwitInput` makes is accepted as a witness for the program. -/
theorem segwit_ok {x : Transaction} {i : Nat} {inp : In} (hin : x.ins[i]? = some inp) {pk : PrivKey} {d : Nat} (hk : pk.Holds d) {code der : Bytes} {g : Sig}
    {amount : Nat} (h2 : g.Made d (segwitSigHash x i inp (segwitCode (secOf pk.pubKey.compressed (d • G)) code) amount 1) der)
    (hn : ecdsaDeterministic (beBytes 32 d) (segwitSigHash x i inp (segwitCode (secOf pk.pubKey.compressed (d • G)) code) amount 1) 10000 ≠ none) (type : ScriptType)
    (h : code = p2wpkhScript (Spec.hash160 (secOf pk.pubKey.compressed (d • G))) ∨ (¬ IsP2wpkh code ∧ OneKey code (secOf pk.pubKey.compressed (d • G)))) :
    WitnessOk (x.setIn i (segwitInput inp type der (secOf pk.pubKey.compressed (d • G)) code)) i (segwitInput inp type der (secOf pk.pubKey.compressed (d • G)) code) amount
      (if IsP2wpkh code then code else p2wshScript (Spec.sha256 code)) := by
  have hsame : SameButScripts x (x.setIn i (segwitInput inp type der (secOf pk.pubKey.compressed (d • G)) code)) := sameButScripts_setIn x hin _ _
  have hok := SigOk_made (digest := segwitSigHash x i inp (segwitCode (secOf pk.pubKey.compressed (d • G)) code) amount) (c := pk.pubKey.compressed) h2 hk.pos hk.lt hn
  have hchk : segwitCheck (x.setIn i (segwitInput inp type der (secOf pk.pubKey.compressed (d • G)) code)) i (segwitInput inp type der (secOf pk.pubKey.compressed (d • G)) code)
      (segwitCode (secOf pk.pubKey.compressed (d • G)) code) amount (der ++ [1]) (secOf pk.pubKey.compressed (d • G)) = true := by
    rw [segwitCheck_iff, show segwitSigHash (x.setIn i _) i _ _ _ = _ from
      funext fun ty => (segwitSigHash_same hsame i (a := inp) (b := segwitInput inp type der (secOf pk.pubKey.compressed (d • G)) code) rfl rfl rfl _ _ ty).symm]
    exact hok
  rcases h with rfl | ⟨h1, h2⟩
  · have hp : IsP2wpkh (p2wpkhScript (Spec.hash160 (secOf pk.pubKey.compressed (d • G)))) := ⟨_, length_hash160 _, rfl⟩
    rw [if_pos hp]
    rw [segwitCode, if_pos hp] at hchk
    refine .key _ (der ++ [1]) (secOf pk.pubKey.compressed (d • G)) (length_hash160 _) ?_ ⟨[1], run_p2pkh _ (length_hash160 _) rfl hchk, rfl⟩
    unfold segwitInput
    dsimp only
    rw [if_pos hp, List.append_nil]
  · rw [if_neg h1]
    rw [segwitCode, if_neg h1] at hchk
    refine .script [der ++ [1], secOf pk.pubKey.compressed (d • G)] code ?_ (h2 _ _ hchk)
    unfold segwitInput
    dsimp only
    rw [if_neg h1]

/-- C71: after `signSegwitInput` with the key hash program of the key, or with a script for one key, the input may spend an output to the program (key hash
or script hash), or for the nested types an output to the hash of the program. -/
theorem C71_segwit {t : Tx} {x : Transaction} {idx : UInt8} {inp : In} {pk : PrivKey} {d : Nat} {rnd : Nat → BN × BN} (hS : t.SignSetting x idx inp pk d rnd)
    {redeem : Script} {code : Bytes} (hc : redeem.Holds code) (hl : code.length ≤ 9800) (amount : UInt64) (type : ScriptType)
    (h : code = p2wpkhScript (Spec.hash160 (secOf pk.pubKey.compressed (d • G))) ∨ (¬ IsP2wpkh code ∧ OneKey code (secOf pk.pubKey.compressed (d • G))))
    (hn : ecdsaDeterministic (beBytes 32 d) (segwitSigHash x idx.toNat inp (segwitCode (secOf pk.pubKey.compressed (d • G)) code) amount.toNat 1) 10000 ≠ none) :
    ∃ t' g s w, t.signSegwitInput idx pk redeem amount type 1 rnd = .ok (t', g) ∧ t'.Holds (x.setIn idx.toNat { inp with script := s, witness := w }) ∧
      WireTx (x.setIn idx.toNat { inp with script := s, witness := w }) ∧
      InputOk (x.setIn idx.toNat { inp with script := s, witness := w }) idx.toNat amount.toNat
        (if type = .p2sh_p2wpkh ∨ type = .p2sh_p2wsh then p2shScript (Spec.hash160 (if IsP2wpkh code then code else p2wshScript (Spec.sha256 code)))
         else if IsP2wpkh code then code else p2wshScript (Spec.sha256 code)) := by
  obtain ⟨t', g, der, h1, h2, h3, h4⟩ := C71_segwit_exact hS hc hl amount type
  have hok := segwit_ok hS.input hS.key h2 hn type h
  refine ⟨t', g, (segwitInput inp type der (secOf pk.pubKey.compressed (d • G)) code).script, (segwitInput inp type der (secOf pk.pubKey.compressed (d • G)) code).witness, h1, h4, ?_, ?_⟩
  · have hk : (secOf pk.pubKey.compressed (d • G)).length ≤ 65 := by rw [length_secOf]; split <;> omega
    refine wire_setIn hS.wire hS.input ?_ ⟨?_, ?_⟩
    · unfold segwitInput
      dsimp only
      split
      · split
        · simp only [push1, List.length_cons]; omega
        · simp only [push1, p2wshScript, length_sha256, List.length_append, List.length_cons, List.length_nil]; omega
      · simp
    · unfold segwitInput
      dsimp only
      split <;> simp
    · intro a ha
      unfold segwitInput at ha
      dsimp only at ha
      rcases List.mem_append.mp ha with ha | ha
      · simp only [List.mem_cons, List.not_mem_nil, or_false] at ha
        rcases ha with rfl | rfl
        · simp only [List.length_append, List.length_cons, List.length_nil]; omega
        · omega
      · split at ha
        · simp at ha
        · simp only [List.mem_singleton] at ha
          subst ha
          omega
  change InputOk (x.setIn idx.toNat (segwitInput inp type der (secOf pk.pubKey.compressed (d • G)) code)) _ _ _
  by_cases ht : type = .p2sh_p2wpkh ∨ type = .p2sh_p2wsh
  · rw [if_pos ht]
    refine .nested _ _ (setIn_get hS.input _) ?_ hok
    unfold segwitInput
    dsimp only
    rw [if_pos ht]
    rfl
  · rw [if_neg ht]
    refine .native _ _ (setIn_get hS.input _) ?_ hok
    unfold segwitInput
    dsimp only
    rw [if_neg ht]

/-- C71: `signSegwitInput(i, key, amount, type)`. -/
theorem C71_segwit_key {t : Tx} {x : Transaction} {idx : UInt8} {inp : In} {pk : PrivKey} {d : Nat} {rnd : Nat → BN × BN} (hS : t.SignSetting x idx inp pk d rnd)
    (amount : UInt64) (type : ScriptType)
    (hn : ecdsaDeterministic (beBytes 32 d) (segwitSigHash x idx.toNat inp (p2pkhScript (Spec.hash160 (secOf pk.pubKey.compressed (d • G)))) amount.toNat 1) 10000 ≠ none) :
    ∃ t' g s w, t.signSegwitInputKey idx pk amount type rnd = .ok (t', g) ∧ t'.Holds (x.setIn idx.toNat { inp with script := s, witness := w }) ∧
      WireTx (x.setIn idx.toNat { inp with script := s, witness := w }) ∧
      InputOk (x.setIn idx.toNat { inp with script := s, witness := w }) idx.toNat amount.toNat
        (if type = .p2sh_p2wpkh ∨ type = .p2sh_p2wsh then p2shScript (Spec.hash160 (p2wpkhScript (Spec.hash160 (secOf pk.pubKey.compressed (d • G)))))
         else p2wpkhScript (Spec.hash160 (secOf pk.pubKey.compressed (d • G)))) := by
  have hk : (secOf pk.pubKey.compressed (d • G)).length ≤ 65 := by rw [length_secOf]; split <;> omega
  have hc := (C22_constructors (secOf pk.pubKey.compressed (d • G)) (by omega) {} [] ⟨rfl, rfl⟩ (by simp)).2.2.2.2.2.2.2.2.2.1
  have hp : IsP2wpkh (p2wpkhScript (Spec.hash160 (secOf pk.pubKey.compressed (d • G)))) := ⟨_, length_hash160 _, rfl⟩
  obtain ⟨t', g, s, w, h1, h2, hwire, h3⟩ := C71_segwit hS hc (by simp [p2wpkhScript, length_hash160]) amount type (Or.inl rfl) (by rw [segwitCode, if_pos hp]; exact hn)
  rw [if_pos hp] at h3
  refine ⟨t', g, s, w, ?_, h2, hwire, h3⟩
  unfold Tx.signSegwitInputKey
  rw [ECPoint.secBytes_eq hS.key.pub, C.bind_ok, h1]

/-! ### Other inputs -/

theorem WitnessOk_same {x y : Transaction} (h : SameButScripts x y) {j : Nat} {inp : In} {amount : Nat} {spk : Bytes} (hw : WitnessOk x j inp amount spk) :
    WitnessOk y j inp amount spk := by
  have hc : ∀ code, segwitCheck x j inp code amount = segwitCheck y j inp code amount := by
    intro code
    funext sig key
    unfold segwitCheck
    have : segwitSigHash x j inp code amount = segwitSigHash y j inp code amount := funext fun ty => segwitSigHash_same h j rfl rfl rfl code amount ty
    rw [this]
  cases hw with
  | key h sig key hl hw hs => exact .key h sig key hl hw (by rw [← hc]; exact hs)
  | script items script hw hs => exact .script items script hw (by rw [← hc]; exact hs)

/-- C71: whether an input may spend an output does not depend on the scripts and witnesses of the other inputs, so that the inputs can be signed in any
order. -/
theorem C71_others {x y : Transaction} (h : SameButScripts x y) {j : Nat} (hj : x.ins[j]? = y.ins[j]?) (amount : Nat) (spk : Bytes) :
    InputOk x j amount spk ↔ InputOk y j amount spk := by
  have key : ∀ {x y : Transaction}, SameButScripts x y → x.ins[j]? = y.ins[j]? → InputOk x j amount spk → InputOk y j amount spk := by
    intro x y h hj hx
    have hc : ∀ code, legacyCheck x j code = legacyCheck y j code := by
      intro code
      funext sig key
      unfold legacyCheck
      have : legacySigHash x j code = legacySigHash y j code := funext fun ty => legacySigHash_same h j code ty
      rw [this]
    cases hx with
    | bare _ inp ds hi hp hw h1 h2 hs => exact .bare _ inp ds (hj ▸ hi) hp hw h1 h2 (by rw [← hc]; exact hs)
    | native _ inp hi h0 hs => exact .native _ inp (hj ▸ hi) h0 (WitnessOk_same h hs)
    | p2sh r inp ds hi hp hw h1 hs => exact .p2sh r inp ds (hj ▸ hi) hp hw h1 (by rw [← hc]; exact hs)
    | nested r inp hi h0 hs => exact .nested r inp (hj ▸ hi) h0 (WitnessOk_same h hs)
  exact ⟨key h hj, key (SameButScripts.symm h) hj.symm⟩

/-- C71: signing input `i` keeps every other input valid. -/
theorem C71_order {x : Transaction} {i j : Nat} {inp : In} (hi : x.ins[i]? = some inp) (hij : i ≠ j) (s : Bytes) (w : List Bytes) (amount : Nat) (spk : Bytes) :
    InputOk x j amount spk ↔ InputOk (x.setIn i { inp with script := s, witness := w }) j amount spk :=
  C71_others (sameButScripts_setIn x hi s w) (by simp [Transaction.setIn, hij]) amount spk

/-! ### Where code and claim disagree -/

/-- C71: an index past the inputs is undefined behaviour. -/
theorem C71_index_undefined (t : Tx) (idx : UInt8) (pk : PrivKey) (redeem : Script) (ty : UInt32) (rnd : Nat → BN × BN) (h : t.txIns.length ≤ idx.toNat) :
    t.signInput idx pk redeem ty rnd = .ub := by
  unfold Tx.signInput
  dsimp only
  cases t.sigHash idx redeem.copy ty with
  | ub => rfl
  | ok dg =>
    rw [C.bind_ok]
    cases pk.sign dg rnd with
    | ub => rfl
    | ok g =>
      rw [C.bind_ok]
      cases Tx.inputScript pk g redeem.copy with
      | ub => rfl
      | ok sc =>
        rw [C.bind_ok]
        unfold Tx.setScript
        rw [List.getElem?_eq_none h]
        rfl

/-- C71: whatever hash type is asked for, the signature is marked with type ALL: the byte behind the signature is 1, though the digest that is signed is
the one for the type asked for. -/
theorem C71_type_not_recorded {t : Tx} {x : Transaction} {idx : UInt8} {inp : In} {pk : PrivKey} {d : Nat} {rnd : Nat → BN × BN} (hS : t.SignSetting x idx inp pk d rnd)
    {redeem : Script} {code : Bytes} (hc : redeem.Holds code) (hl : code.length ≤ 9800) {ty : UInt32} {digest : Bytes} (hd : t.sigHash idx redeem.copy ty = .ok digest)
    (hdl : digest.length = 32) :
    ∃ t' g der rest, t.signInput idx pk redeem ty rnd = .ok (t', g) ∧ g.Made d digest der ∧
      t'.Holds (x.setIn idx.toNat { inp with script := push1 (der ++ [1]) ++ rest }) := by
  obtain ⟨t', g, der, h1, h2, -, h4⟩ := Tx.signInput_from hS hc hl hd hdl
  unfold inputPushes at h4
  rw [List.append_assoc] at h4
  exact ⟨t', g, der, _, h1, h2, h4⟩

theorem pushes_unique {s : Bytes} {ds : List Bytes} (h : Pushes s ds) : ∀ {ds'}, Pushes s ds' → ds = ds' := by
  induction h with
  | nil => intro ds' h'; cases h' with | nil => rfl | cons e => cases e
  | cons e t ih =>
    intro ds' h'
    cases h' with
    | nil => cases e
    | cons e' t' =>
      rw [e, Option.some.injEq, Prod.mk.injEq, Op.push.injEq] at e'
      obtain ⟨rfl, rfl⟩ := e'
      rw [ih t']

/-- C71: a key hash script wrapped in a script hash cannot be signed for: the script is not pushed, and the input may spend the output only if the hash of
the key happens to be the hash of the script. -/
theorem C71_p2sh_p2pkh {t : Tx} {x : Transaction} {idx : UInt8} {inp : In} {pk : PrivKey} {d : Nat} {rnd : Nat → BN × BN} (hS : t.SignSetting x idx inp pk d rnd)
    {redeem : Script} {h : Bytes} (hl : h.length = 20) (hc : redeem.Holds (p2pkhScript h)) (amount : Nat) :
    ∃ t' g s, t.signInput idx pk redeem 1 rnd = .ok (t', g) ∧ t'.Holds (x.setIn idx.toNat { inp with script := s }) ∧
      (InputOk (x.setIn idx.toNat { inp with script := s }) idx.toNat amount (p2shScript (Spec.hash160 (p2pkhScript h))) →
        Spec.hash160 (secOf pk.pubKey.compressed (d • G)) = Spec.hash160 (p2pkhScript h)) := by
  have hk : (secOf pk.pubKey.compressed (d • G)).length ≤ 65 := by rw [length_secOf]; split <;> omega
  obtain ⟨t', g, der, h1, h2, h3, h4⟩ := C71_legacy_exact hS hc (by rw [length_p2pkhScript hl]; decide)
  refine ⟨t', g, _, h1, h4, fun hok => ?_⟩
  have hip : inputPushes der (secOf pk.pubKey.compressed (d • G)) (p2pkhScript h) = push1 (der ++ [1]) ++ (push1 (secOf pk.pubKey.compressed (d • G)) ++ []) := by
    unfold inputPushes
    rw [if_pos ⟨h, hl, rfl⟩, List.append_assoc]
  have hpu : Pushes (inputPushes der (secOf pk.pubKey.compressed (d • G)) (p2pkhScript h)) [der ++ [1], secOf pk.pubKey.compressed (d • G)] := by
    rw [hip]
    exact pushes_push1 (by simp; omega) (pushes_push1 (by omega) .nil)
  have hin := setIn_get hS.input ({ inp with script := inputPushes der (secOf pk.pubKey.compressed (d • G)) (p2pkhScript h) } : In)
  have hinj : ∀ a b : Bytes, a.length = 20 → b.length = 20 → p2shScript a = p2shScript b → a = b := by
    intro a b ha hb e
    unfold p2shScript at e
    simp only [List.cons_append, List.nil_append, List.cons.injEq, true_and] at e
    exact (List.append_inj e (by omega)).1
  generalize hspk : p2shScript (Spec.hash160 (p2pkhScript h)) = spk at hok
  cases hok with
  | bare _ inp' ds hi hp hw g1 g2 hs => exact absurd ⟨_, length_hash160 _, hspk.symm⟩ g2
  | native _ inp' hi h0 hs =>
    cases hs with
    | key h' => simp [p2shScript, p2wpkhScript] at hspk
    | script => simp [p2shScript, p2wshScript] at hspk
  | p2sh r inp' ds hi hp hw g1 hs =>
    rw [hin, Option.some.injEq] at hi
    subst hi
    have := pushes_unique hpu hp
    have hr : r = secOf pk.pubKey.compressed (d • G) := by
      have h5 := congrArg List.getLast? this
      simp at h5
      exact h5.symm
    rw [← hr]
    exact (hinj _ _ (length_hash160 _) (length_hash160 _) hspk).symm
  | nested r inp' hi h0 hs =>
    rw [hin, Option.some.injEq] at hi
    subst hi
    dsimp only at h0
    have hrl : r.length ≤ 75 := by
      cases hs with
      | key h' _ _ hl' => simp [p2wpkhScript, hl']
      | script => simp [p2wshScript, length_sha256]
    have h6 : Pushes (UInt8.ofNat r.length :: r) [r] := by
      have := pushes_push1 hrl .nil
      rw [List.append_nil] at this
      exact this
    rw [h0] at hpu
    have := pushes_unique hpu h6
    simp at this

/-! ### Examples -/

/-- Scripts for one key: the key hash script, and one with a number before it. -/
theorem oneKey_p2pkh (key : Bytes) : OneKey (p2pkhScript (Spec.hash160 key)) key := fun chk _ h => ⟨[1], run_p2pkh chk (length_hash160 _) rfl h, rfl⟩

theorem oneKey_drop (key : Bytes) : OneKey ([0x51, 0x75] ++ p2pkhScript (Spec.hash160 key)) key := by
  intro chk sig h
  refine ⟨[1], ?_, rfl⟩
  have hl := length_p2pkhScript (length_hash160 key)
  unfold run
  rw [List.length_append, hl]
  rw [exec_cons chk (op := .code 0x51) (rest := 0x75 :: p2pkhScript (Spec.hash160 key)) rfl (st' := [1] :: [key, sig]) rfl,
    exec_cons chk (op := .code 0x75) (rest := p2pkhScript (Spec.hash160 key)) rfl (st' := [key, sig]) rfl]
  exact exec_p2pkh chk (length_hash160 _) rfl h 20

theorem exPsbtTx_setting : ∃ (t : Tx) (inp : In), t.SignSetting exPsbtTx 0 inp keyOne 1 (fun _ => (BN.one, BN.one)) ∧ inp.witness = [] := by
  have h := (C57_parse_partial (fun _ => []) PSBT.clean_fresh exDoc exDoc_ok [1]).2.1.tx
  exact ⟨_, _, ⟨h, exPsbtTx_wire, exDoc_ok.nIns, exDoc_ok.nOuts, rfl, keyOne_holds, draws_one⟩, rfl⟩

/-- C71_p2sh_partial, C71_segwit: a script that meets the conditions, with a transaction and a key. -/
example (key : Bytes) : ([0x51, 0x75] ++ p2pkhScript (Spec.hash160 key)).length ≤ 75 ∧ ¬ IsP2pkh ([0x51, 0x75] ++ p2pkhScript (Spec.hash160 key)) ∧
    ¬ IsWitnessProgram ([0x51, 0x75] ++ p2pkhScript (Spec.hash160 key)) ∧ ¬ IsP2wpkh ([0x51, 0x75] ++ p2pkhScript (Spec.hash160 key)) ∧
    OneKey ([0x51, 0x75] ++ p2pkhScript (Spec.hash160 key)) key ∧
    ∃ (t : Tx) (inp : In), t.SignSetting exPsbtTx 0 inp keyOne 1 (fun _ => (BN.one, BN.one)) ∧ inp.witness = [] := by
  have hl := length_p2pkhScript (length_hash160 key)
  refine ⟨by rw [List.length_append, hl]; decide, ?_, ?_, ?_, oneKey_drop key, exPsbtTx_setting⟩
  · rintro ⟨w, -, e⟩
    simp [p2pkhScript] at e
  · rintro ⟨v, p, e, -, hp, -⟩
    simp only [List.cons_append, List.nil_append, List.cons.injEq] at e
    obtain ⟨-, e2, e3⟩ := e
    have hpl : p.length = 25 := by rw [← e3, hl]
    rw [hpl] at e2
    exact absurd e2 (by decide)
  · rintro ⟨w, -, e⟩
    simp [p2wpkhScript] at e

end UB
