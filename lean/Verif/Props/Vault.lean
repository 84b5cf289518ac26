import Verif.Model.Multisig
import Verif.Props.Cosign
import Verif.Props.Receive
import Verif.Props.Strings

/-
C108: what is sent to the address of a multisignature script can be spent by as many owners of keys as the script asks for.
-/

namespace UB
open Spec BN

attribute [local irreducible] secpP secpN BN.multiply BN.fastMod BN.mod BN.subtractmod BN.multK BN.addmod BN.inverse BN.lshift BN.subi BN.add
  BN.multHalf BN.cmov BN.isEqual BN.isZero BN.sqrt BN.subtract scalarMultiply pointMultiply CurvePoint.add readBE writeBE BN.addi doubleSha Spec.hash256
  hmac512 hmacSha512 hash160 Spec.hash160 signDigest ecdsaDeterministic signatureOf Spec.sha256 legacySigHash segwitSigHash checkedText

/-! ### Specification -/

/-- An owner of a key: their copy of the transaction, the key, its number and the random numbers used to blind. -/
structure Owner where
  tx : Tx
  key : PrivKey
  secret : Nat
  rnd : Nat → BN × BN

/-- The serialized public key of an owner. -/
noncomputable def Owner.sec (o : Owner) : Bytes := secOf o.key.pubKey.compressed (o.secret • G)

/-- The output `o` of the sender is good for any `m` of the owners of the keys `secs`: whatever transaction `s` it gets into, for the input made from `txid()` of
that transaction and the number of the output, in whatever transaction, the signatures that `m` owners get from `sign`, each from their own copy and in the order of the
keys, are made by `finish` into an input that spends the output, and nothing else of the transaction changes. -/
def SharedGood (o : TxOut) (out : Out) (m : Nat) (secs : List Bytes) (sign : Owner → UInt8 → C (Tx × Sig)) (digest : Transaction → Nat → In → Bytes)
    (finish : Tx → Nat → List Sig → C Tx) : Prop :=
  o.Holds out ∧ ∀ (s : Tx) (parent : Transaction) (n : Nat) (seq : UInt32), s.Holds parent → parent.outs[n]? = some out → n < 2 ^ 32 → (segwitBytes parent).length < 2 ^ 60 →
    ∃ id i inp, s.txidString = .ok id ∧ TxIn.ofText id (UInt32.ofNat n) seq = .ok i ∧ i.Holds inp ∧
      ∀ (t : Tx) (x : Transaction) (idx : UInt8) (owners : List Owner), t.Holds x →
        (∀ w ∈ owners, w.tx.SignSetting x idx inp w.key w.secret w.rnd ∧ ecdsaDeterministic (beBytes 32 w.secret) (digest x idx.toNat inp) 10000 ≠ none) →
        owners.length = m → (owners.map Owner.sec).Sublist secs →
        ∃ gs t' script witness, List.Forall₂ (fun w g => ∃ t1, sign w idx = .ok (t1, g)) owners gs ∧ finish t idx.toNat gs = .ok t' ∧
          t'.Holds (x.setIn idx.toNat { inp with script := script, witness := witness }) ∧
          WireTx (x.setIn idx.toNat { inp with script := script, witness := witness }) ∧
          SpendsOutput (x.setIn idx.toNat { inp with script := script, witness := witness }) idx.toNat parent n

/-! ### Scripts -/

theorem secsOf_eq : ∀ {keys : List ECPoint} {points : List Pt}, List.Forall₂ (fun k P => ECPoint.Holds k P) keys points →
    secsOf keys = .ok (List.zipWith (fun (k : ECPoint) P => secOf k.compressed P) keys points)
  | [], [], .nil => rfl
  | k :: ks, P :: Ps, .cons h t => by
    unfold secsOf
    rw [ECPoint.secBytes_eq h, C.bind_ok, secsOf_eq t, C.bind_ok]
    rfl

/-- Lengths of serialized keys. -/
def KeyLengths (secs : List Bytes) : Prop := ∀ k ∈ secs, k.length = 33 ∨ k.length = 65

theorem zip_lengths {keys : List ECPoint} {points : List Pt} (h : List.Forall₂ (fun k P => ECPoint.Holds k P) keys points) :
    KeyLengths (List.zipWith (fun (k : ECPoint) P => secOf k.compressed P) keys points) := by
  induction h with
  | nil => intro k hk; cases hk
  | @cons a P _ _ _ _ ih =>
    intro k hk
    rcases List.mem_cons.mp hk with rfl | hk
    · rw [length_secOf]; split <;> simp
    · exact ih k hk

theorem length_multisig {secs : List Bytes} (hk : KeyLengths secs) (m : Nat) :
    ∃ a b, a + b = secs.length ∧ (multisigScript m secs).length = 34 * a + 66 * b + 3 := by
  have : ∃ a b, a + b = secs.length ∧ (secs.flatMap fun k => UInt8.ofNat k.length :: k).length = 34 * a + 66 * b := by
    induction secs with
    | nil => exact ⟨0, 0, rfl, rfl⟩
    | cons k ks ih =>
      obtain ⟨a, b, e1, e2⟩ := ih fun j hj => hk j (by simp [hj])
      rcases hk k (by simp) with h | h
      · exact ⟨a + 1, b, by simp; omega, by rw [List.flatMap_cons, List.length_append, e2, List.length_cons, h]; omega⟩
      · exact ⟨a, b + 1, by simp; omega, by rw [List.flatMap_cons, List.length_append, e2, List.length_cons, h]; omega⟩
  obtain ⟨a, b, e1, e2⟩ := this
  exact ⟨a, b, e1, by unfold multisigScript; simp only [List.length_append, e2, List.length_cons, List.length_nil]; omega⟩

theorem multisig_plain {secs : List Bytes} (hk : KeyLengths secs) {m : Nat} (hm : 1 ≤ m) (hm' : m ≤ 16) (hne : secs ≠ []) :
    ¬ IsWitnessProgram (multisigScript m secs) ∧ ¬ IsP2sh (multisigScript m secs) ∧ ¬ IsP2wpkh (multisigScript m secs) := by
  obtain ⟨k, ks, rfl⟩ := List.exists_cons_of_ne_nil hne
  have hb : (UInt8.ofNat (80 + m)).toNat = 80 + m := by rw [UInt8.toNat_ofNat']; omega
  have hl := hk k (by simp)
  have hS : multisigScript m (k :: ks) = UInt8.ofNat (80 + m) :: UInt8.ofNat k.length :: (k ++ ((ks.flatMap fun k => UInt8.ofNat k.length :: k) ++
      [UInt8.ofNat (80 + (k :: ks).length), 0xae])) := by
    simp [multisigScript]
  rw [hS]
  refine ⟨?_, ?_, ?_⟩
  · rintro ⟨v, p, e, h2, h40, -⟩
    simp only [List.cons.injEq] at e
    obtain ⟨-, e2, e3⟩ := e
    have hpl : p.length = k.length := by
      have := congrArg UInt8.toNat e2
      rw [UInt8.toNat_ofNat', UInt8.toNat_ofNat'] at this
      omega
    have := congrArg List.length e3
    simp only [List.length_append, List.length_cons, List.length_nil] at this
    omega
  · rintro ⟨h, -, e⟩
    simp only [p2shScript, List.cons_append, List.nil_append, List.cons.injEq] at e
    have := congrArg UInt8.toNat e.1
    rw [hb] at this
    have h9 : (0xa9 : UInt8).toNat = 169 := rfl
    omega
  · rintro ⟨h, -, e⟩
    simp only [p2wpkhScript, List.cons_append, List.nil_append, List.cons.injEq] at e
    have := congrArg UInt8.toNat e.1
    rw [hb] at this
    have h9 : (0 : UInt8).toNat = 0 := rfl
    omega

/-! ### Signatures put together -/

/-- `der` is the encoding of the signature `g`, valid for the key. -/
structure OwnerSig (digest : Nat → Bytes) (key : Bytes) (g : Sig) (der : Bytes) : Prop where
  enc : g.derBytes75 = .ok der
  short : der.length ≤ 72
  ok : SigOk digest (der ++ [1]) key

theorem OwnerSig.of_made {g : Sig} {w : Owner} {digest : Nat → Bytes} {der0 : Bytes} (h : g.Made w.secret (digest 1) der0) (hk : w.key.Holds w.secret)
    (hn : ecdsaDeterministic (beBytes 32 w.secret) (digest 1) 10000 ≠ none) : ∃ der, OwnerSig digest w.sec g der := by
  obtain ⟨der, e1, e2, e3⟩ := Sig.derBytes75_eq g (by rw [h.r]; exact Spec.length_beBytes ..) (by rw [h.s]; exact Spec.length_beBytes ..)
  exact ⟨der, e1, e3, SigOk_made (made_of h.r h.s e2) hk.pos hk.lt hn⟩

theorem owners_sign {sign : Owner → UInt8 → C (Tx × Sig)} {idx : UInt8} {digest : Nat → Bytes} : ∀ (owners : List Owner),
    (∀ w ∈ owners, ∃ t1 g der, sign w idx = .ok (t1, g) ∧ OwnerSig digest w.sec g der) →
    ∃ gs ders, List.Forall₂ (fun w g => ∃ t1, sign w idx = .ok (t1, g)) owners gs ∧ List.Forall₂ (fun (g : Sig) (der : Bytes) => g.derBytes75 = .ok der ∧ der.length ≤ 72) gs ders ∧
      List.Forall₂ (fun s k => SigOk digest s k) (ders.map (· ++ [1])) (owners.map Owner.sec)
  | [], _ => ⟨[], [], .nil, .nil, .nil⟩
  | w :: ws, h => by
    obtain ⟨t1, g, der, e1, e2⟩ := h w (by simp)
    obtain ⟨gs, ders, h1, h2, h3⟩ := owners_sign ws fun a ha => h a (by simp [ha])
    exact ⟨g :: gs, der :: ders, .cons ⟨t1, e1⟩ h1, .cons ⟨e2.enc, e2.short⟩ h2, .cons e2.ok h3⟩

theorem varBytes_item {d : Bytes} (h : d.length ≤ 74) : (varBytes d).length ≤ 75 := by
  rw [varBytes_small (by omega), List.length_cons]
  omega

theorem Vault.pushSigs_eq : ∀ {gs : List Sig} {ders : List Bytes}, List.Forall₂ (fun (g : Sig) (der : Bytes) => g.derBytes75 = .ok der ∧ der.length ≤ 72) gs ders →
    ∀ {w : Witness} {items : List Bytes}, w.Holds items → (items.flatMap varBytes).length + 75 * gs.length ≤ 10000 →
    ∃ w', Vault.pushSigs w gs = .ok w' ∧ w'.Holds (items ++ ders.map (· ++ [1])) ∧ ((items ++ ders.map (· ++ [1])).flatMap varBytes).length ≤ (items.flatMap varBytes).length + 75 * gs.length
  | [], [], .nil, w, items, h, _ => ⟨w, rfl, by simpa using h, by simp⟩
  | g :: gs, der :: ders, .cons h t, w, items, hw, hl => by
    have hv := varBytes_item (d := der ++ [1]) (by simp; omega)
    rw [List.length_cons] at hl
    obtain ⟨w1, n, p, q⟩ := C28_push w items (der ++ [1]) hw
    rw [if_pos (by omega)] at q
    have e : ((items ++ [der ++ [1]]).flatMap varBytes).length = (items.flatMap varBytes).length + (varBytes (der ++ [1])).length := by simp
    obtain ⟨w2, e1, e2, e3⟩ := Vault.pushSigs_eq t q.1 (by rw [e]; omega)
    refine ⟨w2, ?_, ?_, ?_⟩
    · unfold Vault.pushSigs Witness.pushSig
      rw [h.1, C.bind_ok, p, C.bind_ok]
      exact e1
    · simpa using e2
    · rw [e] at e3
      rw [List.append_assoc] at e3
      rw [List.map_cons, List.length_cons]
      exact e3.trans (by omega)

theorem Vault.witness_eq {gs : List Sig} {ders : List Bytes} (h : List.Forall₂ (fun (g : Sig) (der : Bytes) => g.derBytes75 = .ok der ∧ der.length ≤ 72) gs ders)
    (hn : gs.length ≤ 16) {sc : Script} {code : Bytes} (hc : sc.Holds code) (hl : code.length ≤ 1100) :
    ∃ w, Vault.witness gs sc = .ok w ∧ w.Holds ([] :: ders.map (· ++ [1]) ++ [code]) := by
  obtain ⟨w1, n1, p1, q1⟩ := C28_push {} [] [] ⟨rfl, rfl⟩
  have e0 : (varBytes []).length = 1 := by rw [varBytes_small (by simp)]; rfl
  rw [if_pos (by rw [e0]; simp)] at q1
  have e1 : (([] ++ [[]] : List Bytes).flatMap varBytes).length = 1 := by simpa using e0
  obtain ⟨w2, p2, q2, r2⟩ := Vault.pushSigs_eq h q1.1 (by rw [e1]; omega)
  have hv : (varBytes code).length ≤ 3 + code.length := by
    simp only [varBytes, List.length_append, compactSize]
    split_ifs <;> simp <;> omega
  obtain ⟨w3, n3, p3, q3, -⟩ := C28_push_script w2 _ sc code q2 hc (by rw [e1] at r2; omega)
  refine ⟨w3, ?_, by simpa using q3⟩
  unfold Vault.witness
  rw [p1, C.bind_ok]
  dsimp only
  rw [p2, C.bind_ok, p3, C.bind_ok]
  rfl

theorem Vault.scriptSigs_eq : ∀ {gs : List Sig} {ders : List Bytes}, List.Forall₂ (fun (g : Sig) (der : Bytes) => g.derBytes75 = .ok der ∧ der.length ≤ 72) gs ders →
    ∀ {s : Script} {d : Bytes}, s.Holds d → d.length + 74 * gs.length ≤ 10000 →
    ∃ s', Vault.scriptSigs s gs = .ok s' ∧ s'.Holds (d ++ (ders.map fun der => push1 (der ++ [1])).flatten) ∧ (d ++ (ders.map fun der => push1 (der ++ [1])).flatten).length ≤ d.length + 74 * gs.length
  | [], [], .nil, s, d, h, _ => ⟨s, rfl, by simpa using h, by simp⟩
  | g :: gs, der :: ders, .cons h t, s, d, hs, hl => by
    rw [List.length_cons] at hl
    have h1 := Script.pushSig_holds (ty := 1) hs (der := der) (by omega)
    have hp : (push1 (der ++ [1])).length ≤ 74 := by simp [push1]; omega
    obtain ⟨s', e1, e2, e3⟩ := Vault.scriptSigs_eq t h1 (by rw [List.length_append]; omega)
    refine ⟨s', ?_, ?_, ?_⟩
    · unfold Vault.scriptSigs
      rw [h.1, C.bind_ok]
      exact e1
    · simpa using e2
    · rw [List.length_append (as := d) (bs := push1 (der ++ [1]))] at e3
      rw [List.append_assoc] at e3
      rw [List.map_cons, List.flatten_cons, List.length_cons]
      omega

theorem pushes_sigs {code : Bytes} (hcode : code.length ≤ 75) : ∀ {ders : List Bytes}, (∀ der ∈ ders, der.length ≤ 72) →
    Pushes ((ders.map fun der => push1 (der ++ [1])).flatten ++ push1 code) (ders.map (· ++ [1]) ++ [code])
  | [], _ => .cons (s := push1 code) (by have := getOp_push code [] hcode; rwa [List.append_nil] at this) .nil
  | der :: ders, h => by
    have := pushes_sigs hcode (ders := ders) fun a ha => h a (by simp [ha])
    refine .cons ?_ this
    have hd := h der (by simp)
    have := getOp_push (der ++ [1]) ((ders.map fun der => push1 (der ++ [1])).flatten ++ push1 code) (by simp; omega)
    simpa [push1] using this

theorem SharedGood.intro {o : TxOut} {out : Out} {m : Nat} {secs : List Bytes} {sign : Owner → UInt8 → C (Tx × Sig)} {digest : Transaction → Nat → In → Bytes}
    {finish : Tx → Nat → List Sig → C Tx} (ho : o.Holds out)
    (h : ∀ {t : Tx} {x : Transaction} {idx : UInt8} {inp : In} {owners : List Owner}, t.Holds x → x.ins[idx.toNat]? = some inp → WireTx x → inp.script = [] → inp.witness = [] →
      (∀ w ∈ owners, w.tx.SignSetting x idx inp w.key w.secret w.rnd ∧ ecdsaDeterministic (beBytes 32 w.secret) (digest x idx.toNat inp) 10000 ≠ none) →
      owners.length = m → (owners.map Owner.sec).Sublist secs →
      ∃ gs t' script witness, List.Forall₂ (fun w g => ∃ t1, sign w idx = .ok (t1, g)) owners gs ∧ finish t idx.toNat gs = .ok t' ∧
        t'.Holds (x.setIn idx.toNat { inp with script := script, witness := witness }) ∧ WireTx (x.setIn idx.toNat { inp with script := script, witness := witness }) ∧
        InputOk (x.setIn idx.toNat { inp with script := script, witness := witness }) idx.toNat out.amount out.script) (hm : 1 ≤ m) :
    SharedGood o out m secs sign digest finish := by
  refine ⟨ho, fun s parent n seq hs hn hlt hl => ?_⟩
  obtain ⟨id, i, e1, e2, e3⟩ := C102_parent s parent hs hl (UInt32.ofNat n) seq
  have hidx : (UInt32.ofNat n).toNat = n := by rw [UInt32.toNat_ofNat']; exact Nat.mod_eq_of_lt hlt
  refine ⟨id, i, _, e1, e2, e3, fun t x idx owners ht hw hlen hsub => ?_⟩
  obtain ⟨w, hmem⟩ : ∃ w, w ∈ owners := by
    cases owners with
    | nil => simp at hlen; omega
    | cons w _ => exact ⟨w, by simp⟩
  have hS := (hw w hmem).1
  obtain ⟨gs, t', script, witness, f1, f2, f3, f4, f5⟩ := h ht hS.input hS.wire rfl rfl hw hlen hsub
  have hin := List.getElem?_set_self (a := (⟨Spec.hash256 (legacyBytes parent), (UInt32.ofNat n).toNat, script, seq.toNat, witness⟩ : In))
    (List.getElem?_eq_some_iff.mp hS.input).1
  exact ⟨gs, t', script, witness, f1, f2, f3, f4, _, _, hin, hn, rfl, hidx, f5⟩

/-- The owners sign a multisignature script for segwit. -/
theorem owners_segwit {m : Nat} {secs : List Bytes} (hk : KeyLengths secs) (hm : 1 ≤ m) (hn : m ≤ secs.length) (h16 : secs.length ≤ 16) {sc : Script}
    (hsc : sc.Holds (multisigScript m secs)) (amount : UInt64) (type : ScriptType) {x : Transaction} {idx : UInt8} {inp : In} {owners : List Owner}
    (hw : ∀ w ∈ owners, w.tx.SignSetting x idx inp w.key w.secret w.rnd ∧
      ecdsaDeterministic (beBytes 32 w.secret) (segwitSigHash x idx.toNat inp (multisigScript m secs) amount.toNat 1) 10000 ≠ none) :
    ∃ gs ders, List.Forall₂ (fun w g => ∃ t1, w.tx.signSegwitInput idx w.key sc amount type 1 w.rnd = .ok (t1, g)) owners gs ∧
      List.Forall₂ (fun (g : Sig) (der : Bytes) => g.derBytes75 = .ok der ∧ der.length ≤ 72) gs ders ∧
      List.Forall₂ (fun s k => SigOk (segwitSigHash x idx.toNat inp (multisigScript m secs) amount.toNat) s k) (ders.map (· ++ [1])) (owners.map Owner.sec) := by
  have hne : secs ≠ [] := by rintro rfl; simp at hn; omega
  obtain ⟨a, b, l1, l2⟩ := length_multisig hk m
  refine owners_sign (sign := fun w idx => w.tx.signSegwitInput idx w.key sc amount type 1 w.rnd) owners fun w hmem => ?_
  obtain ⟨hS, hno⟩ := hw w hmem
  obtain ⟨t1, g, der, e1, e2, -, -⟩ := C71_segwit_exact hS hsc (by omega) amount type
  unfold segwitCode at e2
  rw [if_neg (multisig_plain hk hm (by omega) hne).2.2] at e2
  obtain ⟨der', h⟩ := OwnerSig.of_made (digest := segwitSigHash x idx.toNat inp (multisigScript m secs) amount.toNat) e2 hS.key hno
  exact ⟨t1, g, der', e1, h⟩

/-- The witness with the signatures satisfies the program. -/
theorem owners_witness {m : Nat} {secs : List Bytes} (hk : KeyLengths secs) (hm : 1 ≤ m) (hn : m ≤ secs.length) (h16 : secs.length ≤ 16) {x : Transaction} {i : Nat} {inp : In}
    (hi : x.ins[i]? = some inp) {amount : Nat} {items keys : List Bytes} (hl : items.length = m) (hsub : keys.Sublist secs)
    (h : List.Forall₂ (fun s k => SigOk (segwitSigHash x i inp (multisigScript m secs) amount) s k) items keys) (s : Bytes) :
    WitnessOk (x.setIn i { inp with script := s, witness := [] :: items ++ [multisigScript m secs] }) i
      { inp with script := s, witness := [] :: items ++ [multisigScript m secs] } amount (p2wshScript (Spec.sha256 (multisigScript m secs))) := by
  refine .script ([] :: items) _ rfl ⟨[1], ?_, by decide +kernel⟩
  refine run_multisig _ hm hn h16 (fun k hj => by rcases hk k hj with h | h <;> omega) hl hsub ?_
  refine h.imp fun a b hab => segwitCheck_iff.mpr ?_
  obtain ⟨der, ty, r, s', c, P, q1, q2, q3, q4, q5⟩ := hab
  refine ⟨der, ty, r, s', c, P, q1, q2, q3, q4, ?_⟩
  rw [← segwitSigHash_same (sameButScripts_setIn x hi s _) i (a := inp) (by rfl) (by rfl) (by rfl)]
  exact q5

theorem forall₂_lengths {gs : List Sig} {ders : List Bytes} (h : List.Forall₂ (fun (g : Sig) (der : Bytes) => g.derBytes75 = .ok der ∧ der.length ≤ 72) gs ders) :
    ∀ d ∈ ders, d.length ≤ 72 := by
  induction h with
  | nil => intro d hd; cases hd
  | cons h _ ih =>
    intro d hd
    rcases List.mem_cons.mp hd with rfl | hd
    · exact h.2
    · exact ih d hd

theorem multi_holds {m : UInt8} {secs : List Bytes} (hk : KeyLengths secs) (hm : 1 ≤ m.toNat) (hn : m.toNat ≤ secs.length) (h16 : secs.length ≤ 16) :
    (multi m secs).Holds (multisigScript m.toNat secs) := by
  have := C27_multi m secs fun k hj => by rcases hk k hj with h | h <;> omega
  rwa [if_pos ⟨hm, hn, h16⟩] at this

/-- The keys in the script. -/
noncomputable abbrev secsAt (keys : List ECPoint) (points : List Pt) : List Bytes := List.zipWith (fun (k : ECPoint) P => secOf k.compressed P) keys points

theorem witness_wire {x : Transaction} (hw : WireTx x) {i : Nat} {inp : In} (hi : x.ins[i]? = some inp) {s : Bytes} (hs : s.length < 2 ^ 31) {ders : List Bytes} {code : Bytes}
    (hd : ∀ d ∈ ders, d.length ≤ 72) (hn : ders.length ≤ 16) (hc : code.length ≤ 1100) :
    WireTx (x.setIn i { inp with script := s, witness := [] :: ders.map (· ++ [1]) ++ [code] }) := by
  refine wire_setIn hw hi hs ⟨by simp; omega, fun d hd' => ?_⟩
  rcases List.mem_append.mp hd' with hd' | hd'
  · rcases List.mem_cons.mp hd' with rfl | hd'
    · simp
    · obtain ⟨a, ha, rfl⟩ := List.mem_map.mp hd'
      have := hd a ha
      simp
      omega
  · rw [List.mem_singleton] at hd'
    subst hd'
    omega

/-- C108: what is sent to the segwit address of an `m`-of-`n` script of keys can be spent by `m` owners, on all networks but Regtest. -/
theorem C108_native {m : UInt8} {keys : List ECPoint} {points : List Pt} (hkeys : List.Forall₂ (fun k P => ECPoint.Holds k P) keys points) (hm : 1 ≤ m.toNat)
    (hn : m.toNat ≤ keys.length) (h16 : keys.length ≤ 16) {net : Network} (hnet : net ∈ networks) (hreg : net.bech32 ≠ regtest.bech32) (amount : UInt64) (buffer : Bytes)
    (hb : 64 ≤ buffer.length) :
    ∃ sc text o out, multiOf m keys = .ok sc ∧ (wsh sc).address buffer net = .ok (text ++ zeros (buffer.length - text.length), text.length) ∧
      TxOut.ofAddress amount text = .ok o ∧ out.amount = amount.toNat ∧
      SharedGood o out m.toNat (secsAt keys points) (fun w idx => w.tx.signSegwitInput idx w.key sc amount .p2wsh 1 w.rnd)
        (fun x i inp => segwitSigHash x i inp (multisigScript m.toNat (secsAt keys points)) amount.toNat 1) (Vault.finishNative sc) := by
  have hk : KeyLengths (secsAt keys points) := zip_lengths hkeys
  have hl : (secsAt keys points).length = keys.length := by rw [List.length_zipWith, ← hkeys.length_eq, Nat.min_self]
  have hsc := multi_holds (m := m) hk hm (by omega) (by omega)
  have hne : secsAt keys points ≠ [] := by intro h; rw [h] at hl; simp at hl; omega
  obtain ⟨a, b, l1, l2⟩ := length_multisig hk m.toNat
  have hws := (C22_constructors [] (by simp) _ _ hsc (by omega)).2.2.2.2.2.2.1
  have e32 : p2wshScript (Spec.sha256 (multisigScript m.toNat (secsAt keys points))) = witnessScript 0 (Spec.sha256 (multisigScript m.toNat (secsAt keys points))) := by
    unfold witnessScript p2wshScript
    rw [length_sha256]
    rfl
  rw [e32] at hws
  obtain ⟨text, o, g1, g2, g3⟩ := C102_out_witness amount _ _ buffer net hnet hreg (.inr (length_sha256 _)) hws hb
  refine ⟨_, text, o, _, ?_, g1, g2, ?_, SharedGood.intro g3 (fun {t x idx inp owners} ht hi hwire hs0 hw0 hw hlen hsub => ?_) hm⟩
  · unfold multiOf
    rw [secsOf_eq hkeys, C.bind_ok]
    rfl
  · rfl
  · obtain ⟨gs, ders, p1, p2, p3⟩ := owners_segwit hk hm (by omega) (by omega) hsc amount .p2wsh hw
    have hgl : gs.length = m.toNat := by rw [← p1.length_eq, hlen]
    have hdl : ders.length = m.toNat := by rw [← p2.length_eq, hgl]
    obtain ⟨w, q1, q2⟩ := Vault.witness_eq p2 (by omega) hsc (by omega)
    obtain ⟨t', r1, r2⟩ := Tx.setWitness_eq ht hi q2
    have e : ({ inp with script := [], witness := [] :: ders.map (· ++ [1]) ++ [multisigScript m.toNat (secsAt keys points)] } : In) =
        { inp with witness := [] :: ders.map (· ++ [1]) ++ [multisigScript m.toNat (secsAt keys points)] } := by rw [← hs0]
    refine ⟨gs, t', [], _, p1, ?_, by rw [e]; exact r2, witness_wire hwire hi (by simp) (forall₂_lengths p2) (by omega) (by omega), ?_⟩
    · unfold Vault.finishNative
      rw [q1, C.bind_ok]
      exact r1
    · rw [← e32]
      exact .native _ _ (setIn_get hi _) rfl (owners_witness hk hm (by omega) (by omega) hi (by rw [List.length_map]; exact hdl) hsub p3 [])

/-- C108: the same for the address of the nested program, on all networks. -/
theorem C108_nested {m : UInt8} {keys : List ECPoint} {points : List Pt} (hkeys : List.Forall₂ (fun k P => ECPoint.Holds k P) keys points) (hm : 1 ≤ m.toNat)
    (hn : m.toNat ≤ keys.length) (h16 : keys.length ≤ 16) {net : Network} (hnet : net ∈ networks) (amount : UInt64) (buffer : Bytes) (hb : 35 ≤ buffer.length) :
    ∃ sc text o out, multiOf m keys = .ok sc ∧ (sh (wsh sc)).address buffer net = .ok (text ++ zeros (buffer.length - text.length), text.length) ∧
      TxOut.ofAddress amount text = .ok o ∧ out.amount = amount.toNat ∧
      SharedGood o out m.toNat (secsAt keys points) (fun w idx => w.tx.signSegwitInput idx w.key sc amount .p2sh_p2wsh 1 w.rnd)
        (fun x i inp => segwitSigHash x i inp (multisigScript m.toNat (secsAt keys points)) amount.toNat 1) (Vault.finishNested sc) := by
  have hk : KeyLengths (secsAt keys points) := zip_lengths hkeys
  have hl : (secsAt keys points).length = keys.length := by rw [List.length_zipWith, ← hkeys.length_eq, Nat.min_self]
  have hsc := multi_holds (m := m) hk hm (by omega) (by omega)
  have hne : secsAt keys points ≠ [] := by intro h; rw [h] at hl; simp at hl; omega
  obtain ⟨a, b, l1, l2⟩ := length_multisig hk m.toNat
  have hws := (C22_constructors [] (by simp) _ _ hsc (by omega)).2.2.2.2.2.2.1
  have hpl : (p2wshScript (Spec.sha256 (multisigScript m.toNat (secsAt keys points)))).length = 34 := by simp [p2wshScript, length_sha256]
  have hsh := (C22_constructors [] (by simp) _ _ hws (by omega)).2.2.2.2.1
  have hv0 : net.p2sh ≠ 0 := by
    simp only [networks, List.mem_cons, List.not_mem_nil, or_false] at hnet
    rcases hnet with rfl | rfl | rfl | rfl <;> decide
  obtain ⟨text, o, g1, g2, g3⟩ := C102_out_legacy amount _ .p2sh net.p2sh _ buffer net hnet rfl hv0 (length_hash160 _) hsh hb
  refine ⟨_, text, o, _, ?_, g1, g2, ?_, SharedGood.intro g3 (fun {t x idx inp owners} ht hi hwire hs0 hw0 hw hlen hsub => ?_) hm⟩
  · unfold multiOf
    rw [secsOf_eq hkeys, C.bind_ok]
    rfl
  · rfl
  · obtain ⟨gs, ders, p1, p2, p3⟩ := owners_segwit hk hm (by omega) (by omega) hsc amount .p2sh_p2wsh hw
    have hgl : gs.length = m.toNat := by rw [← p1.length_eq, hlen]
    have hdl : ders.length = m.toNat := by rw [← p2.length_eq, hgl]
    obtain ⟨w, q1, q2⟩ := Vault.witness_eq p2 (by omega) hsc (by omega)
    have hv : varBytes (p2wshScript (Spec.sha256 (multisigScript m.toNat (secsAt keys points)))) = push1 (p2wshScript (Spec.sha256 (multisigScript m.toNat (secsAt keys points)))) :=
      varBytes_small (by omega)
    obtain ⟨s', u1, u2⟩ := pushScript_holds {} _ [] _ ⟨rfl, rfl⟩ hws (by rw [hv]; simp [push1]; omega)
    rw [hv, List.nil_append] at u2
    obtain ⟨t1, r1, r2⟩ := Tx.setScript_eq ht hi u2
    obtain ⟨t', r3, r4⟩ := Tx.setWitness_eq r2 (setIn_get hi _) q2
    rw [setIn_setIn] at r4
    refine ⟨gs, t', _, _, p1, ?_, r4, witness_wire hwire hi (by simp [push1]; omega) (forall₂_lengths p2) (by omega) (by omega), ?_⟩
    · unfold Vault.finishNested
      rw [q1, C.bind_ok, u1, C.bind_ok]
      dsimp only
      rw [r1, C.bind_ok]
      exact r3
    · exact .nested _ _ (setIn_get hi _) rfl (owners_witness hk hm (by omega) (by omega) hi (by rw [List.length_map]; exact hdl) hsub p3 _)

/-- The input script that `Vault.finishLegacy` makes. -/
theorem Vault.finishLegacy_eq {gs : List Sig} {ders : List Bytes} (h : List.Forall₂ (fun (g : Sig) (der : Bytes) => g.derBytes75 = .ok der ∧ der.length ≤ 72) gs ders)
    (hn : gs.length ≤ 16) {sc : Script} {code : Bytes} (hc : sc.Holds code) (hl : code.length ≤ 1100) {t : Tx} {x : Transaction} (ht : t.Holds x) {i : Nat} {inp : In}
    (hi : x.ins[i]? = some inp) : ∃ t', Vault.finishLegacy sc t i gs = .ok t' ∧
      t'.Holds (x.setIn i { inp with script := 0 :: ((ders.map fun der => push1 (der ++ [1])).flatten ++ varBytes code) }) := by
  have h0 := C25_push_byte ({} : Script) [] 0 ⟨rfl, rfl⟩
  rw [if_pos (by decide)] at h0
  obtain ⟨s1, e1, e2, e3⟩ := Vault.scriptSigs_eq h h0.1 (by simp; omega)
  have hv : (varBytes code).length ≤ 3 + code.length := by
    simp only [varBytes, List.length_append, compactSize]
    split_ifs <;> simp <;> omega
  have h1 : ([] ++ [0] : Bytes).length = 1 := rfl
  obtain ⟨s2, u1, u2⟩ := pushScript_holds s1 sc _ code e2 hc (by omega)
  obtain ⟨t', r1, r2⟩ := Tx.setScript_eq ht hi u2
  refine ⟨t', ?_, by simpa using r2⟩
  unfold Vault.finishLegacy
  rw [e1, C.bind_ok, u1, C.bind_ok]
  exact r1

theorem owners_legacy {m : Nat} {secs : List Bytes} (hk : KeyLengths secs) (h16 : secs.length ≤ 16) {sc : Script} (hsc : sc.Holds (multisigScript m secs)) {x : Transaction}
    {idx : UInt8} {inp : In} {owners : List Owner}
    (hw : ∀ w ∈ owners, w.tx.SignSetting x idx inp w.key w.secret w.rnd ∧
      ecdsaDeterministic (beBytes 32 w.secret) (legacySigHash x idx.toNat (multisigScript m secs) 1) 10000 ≠ none) :
    ∃ gs ders, List.Forall₂ (fun w g => ∃ t1, w.tx.signInput idx w.key sc 1 w.rnd = .ok (t1, g)) owners gs ∧
      List.Forall₂ (fun (g : Sig) (der : Bytes) => g.derBytes75 = .ok der ∧ der.length ≤ 72) gs ders ∧
      List.Forall₂ (fun s k => SigOk (legacySigHash x idx.toNat (multisigScript m secs)) s k) (ders.map (· ++ [1])) (owners.map Owner.sec) := by
  obtain ⟨a, b, l1, l2⟩ := length_multisig hk m
  refine owners_sign (sign := fun w idx => w.tx.signInput idx w.key sc 1 w.rnd) owners fun w hmem => ?_
  obtain ⟨hS, hno⟩ := hw w hmem
  obtain ⟨t1, g, der, e1, e2, -, -⟩ := C71_legacy_exact hS hsc (by omega)
  obtain ⟨der', h⟩ := OwnerSig.of_made (digest := legacySigHash x idx.toNat (multisigScript m secs)) e2 hS.key hno
  exact ⟨t1, g, der', e1, h⟩

/-- C108: what is sent to the script hash address (without segwit) of an `m`-of-`n` script of at most 75 bytes can be spent by `m` owners, on all networks. -/
theorem C108_legacy_partial {m : UInt8} {keys : List ECPoint} {points : List Pt} (hkeys : List.Forall₂ (fun k P => ECPoint.Holds k P) keys points) (hm : 1 ≤ m.toNat)
    (hn : m.toNat ≤ keys.length) (h16 : keys.length ≤ 16) (h75 : (multisigScript m.toNat (secsAt keys points)).length ≤ 75) {net : Network} (hnet : net ∈ networks)
    (amount : UInt64) (buffer : Bytes) (hb : 35 ≤ buffer.length) :
    ∃ sc text o out, multiOf m keys = .ok sc ∧ (sh sc).address buffer net = .ok (text ++ zeros (buffer.length - text.length), text.length) ∧
      TxOut.ofAddress amount text = .ok o ∧ out.amount = amount.toNat ∧
      SharedGood o out m.toNat (secsAt keys points) (fun w idx => w.tx.signInput idx w.key sc 1 w.rnd)
        (fun x i _ => legacySigHash x i (multisigScript m.toNat (secsAt keys points)) 1) (Vault.finishLegacy sc) := by
  have hk : KeyLengths (secsAt keys points) := zip_lengths hkeys
  have hl : (secsAt keys points).length = keys.length := by rw [List.length_zipWith, ← hkeys.length_eq, Nat.min_self]
  have hsc := multi_holds (m := m) hk hm (by omega) (by omega)
  have hne : secsAt keys points ≠ [] := by intro h; rw [h] at hl; simp at hl; omega
  have hsh := (C22_constructors [] (by simp) _ _ hsc (by omega)).2.2.2.2.1
  have hv0 : net.p2sh ≠ 0 := by
    simp only [networks, List.mem_cons, List.not_mem_nil, or_false] at hnet
    rcases hnet with rfl | rfl | rfl | rfl <;> decide
  obtain ⟨text, o, g1, g2, g3⟩ := C102_out_legacy amount _ .p2sh net.p2sh _ buffer net hnet rfl hv0 (length_hash160 _) hsh hb
  refine ⟨_, text, o, _, ?_, g1, g2, ?_, SharedGood.intro g3 (fun {t x idx inp owners} ht hi hwire hs0 hw0 hw hlen hsub => ?_) hm⟩
  · unfold multiOf
    rw [secsOf_eq hkeys, C.bind_ok]
    rfl
  · rfl
  · obtain ⟨gs, ders, p1, p2, p3⟩ := owners_legacy hk (by omega) hsc hw
    have hgl : gs.length = m.toNat := by rw [← p1.length_eq, hlen]
    have hdl : ders.length = m.toNat := by rw [← p2.length_eq, hgl]
    obtain ⟨t', r1, r2⟩ := Vault.finishLegacy_eq p2 (by omega) hsc (by omega) ht hi
    rw [varBytes_small (by omega)] at r2
    generalize hs : (0 :: ((ders.map fun der => push1 (der ++ [1])).flatten ++ UInt8.ofNat (multisigScript m.toNat (secsAt keys points)).length :: multisigScript m.toNat (secsAt keys points)) : Bytes) = s at r2
    have hp : Pushes s ([] :: ders.map (· ++ [1]) ++ [multisigScript m.toNat (secsAt keys points)]) := by
      rw [← hs]
      exact .cons (by rfl) (pushes_sigs h75 (forall₂_lengths p2))
    have hslen : s.length ≤ 2000 := by
      rw [← hs]
      have := forall₂_lengths p2
      have hf : ∀ l : List Bytes, (∀ d ∈ l, d.length ≤ 72) → ((l.map fun der => push1 (der ++ [1])).flatten).length ≤ 74 * l.length := by
        intro l
        induction l with
        | nil => simp
        | cons d l ih =>
          intro h
          have h1 := ih fun a ha => h a (by simp [ha])
          have h2 := h d (by simp)
          simp only [List.map_cons, List.flatten_cons, List.length_append, List.length_cons, push1, List.length_nil] at h1 ⊢
          omega
      have := hf ders this
      simp only [List.length_cons, List.length_append]
      omega
    have e : ({ inp with script := s, witness := [] } : In) = { inp with script := s } := by rw [← hw0]
    refine ⟨gs, t', s, [], p1, r1, by rw [e]; exact r2, wire_setIn hwire hi (by omega) ⟨by simp, by simp⟩, ?_⟩
    refine .p2sh _ _ _ (setIn_get hi _) hp rfl (multisig_plain hk hm (by omega) hne).1 ⟨[1], [], ?_, by decide +kernel⟩
    refine run_multisig _ hm (by omega) (by omega) (fun k hj => by rcases hk k hj with h | h <;> omega) (by rw [List.length_map]; exact hdl) hsub ?_
    refine p3.imp fun a b hab => legacyCheck_iff.mpr ?_
    obtain ⟨der, ty, r, s', c, P, q1, q2, q3, q4, q5⟩ := hab
    refine ⟨der, ty, r, s', c, P, q1, q2, q3, q4, ?_⟩
    rw [← legacySigHash_same (sameButScripts_setIn x hi s _) idx.toNat]
    exact q5

/-! ### Where code and claim disagree -/

theorem not_pushes_long {code : Bytes} (h1 : 79 ≤ code.length) (h2 : code.length ≤ 1100) : ∀ {ders : List Bytes} {ds : List Bytes}, (∀ der ∈ ders, der.length ≤ 72) →
    ¬ Pushes ((ders.map fun der => push1 (der ++ [1])).flatten ++ varBytes code) ds
  | [], ds, _ => by
    intro h
    have hop : ∃ c rest, getOp (varBytes code) = some (.code c, rest) := by
      by_cases hs : code.length < 253
      · rw [varBytes_small hs]
        have hb : (UInt8.ofNat code.length).toNat = code.length := by rw [UInt8.toNat_ofNat']; omega
        refine ⟨UInt8.ofNat code.length, code, ?_⟩
        unfold getOp
        dsimp only
        rw [if_neg (by rw [UInt8.le_iff_toNat_le, hb]; simp; omega), if_neg (by rw [← UInt8.toNat_inj, hb]; simp; omega), if_neg (by rw [← UInt8.toNat_inj, hb]; simp; omega),
          if_neg (by rw [← UInt8.toNat_inj, hb]; simp; omega)]
      · refine ⟨0xfd, UInt8.ofNat (code.length % 256) :: UInt8.ofNat (code.length / 256) :: code, ?_⟩
        have : varBytes code = 0xfd :: (UInt8.ofNat (code.length % 256) :: UInt8.ofNat (code.length / 256) :: code) := by
          unfold varBytes compactSize
          rw [if_neg (by omega), if_pos (by omega)]
          have : code.length / 256 % 256 = code.length / 256 := by omega
          simp [leBytes, this]
        rw [this]
        rfl
    obtain ⟨c, rest, e⟩ := hop
    rw [List.map_nil, List.flatten_nil, List.nil_append] at h
    generalize varBytes code = v at h e
    cases h with
    | nil => cases e
    | cons h t => rw [e] at h; simp at h
  | der :: ders, ds, hd => by
    intro h
    have hg := getOp_push (der ++ [1]) ((ders.map fun der => push1 (der ++ [1])).flatten ++ varBytes code) (by have := hd der (by simp); simp; omega)
    have e : ((der :: ders).map fun der => push1 (der ++ [1])).flatten ++ varBytes code =
        UInt8.ofNat (der ++ [1]).length :: (der ++ [1] ++ ((ders.map fun der => push1 (der ++ [1])).flatten ++ varBytes code)) := by simp [push1]
    rw [e] at h
    generalize hs : UInt8.ofNat (der ++ [1]).length :: (der ++ [1] ++ ((ders.map fun der => push1 (der ++ [1])).flatten ++ varBytes code)) = s at h hg
    cases h with
    | nil => cases hs
    | cons h t =>
      rw [hg, Option.some.injEq, Prod.mk.injEq] at h
      rw [← h.2] at t
      exact not_pushes_long h1 h2 (fun a ha => hd a (by simp [ha])) t

/-- C108 is false of script hash outputs without segwit if the script is longer than 75 bytes (from three compressed keys on): the input that the pushes make spends nothing. -/
theorem C108_legacy_long {gs : List Sig} (hg : ∀ g ∈ gs, g.r.length = 32 ∧ g.s.length = 32) (hn : gs.length ≤ 16) {m : Nat} {secs : List Bytes} (hk : KeyLengths secs)
    (h16 : secs.length ≤ 16) (hlong : 76 ≤ (multisigScript m secs).length) {sc : Script} (hc : sc.Holds (multisigScript m secs)) {t : Tx} {x : Transaction} (ht : t.Holds x)
    {i : Nat} {inp : In} (hi : x.ins[i]? = some inp) : ∃ t' s, Vault.finishLegacy sc t i gs = .ok t' ∧ t'.Holds (x.setIn i { inp with script := s }) ∧
      ∀ amount, ¬ InputOk (x.setIn i { inp with script := s }) i amount (p2shScript (Spec.hash160 (multisigScript m secs))) := by
  obtain ⟨a, b, l1, l2⟩ := length_multisig hk m
  have hd : ∃ ders, List.Forall₂ (fun (g : Sig) (der : Bytes) => g.derBytes75 = .ok der ∧ der.length ≤ 72) gs ders := by
    clear hn
    induction gs with
    | nil => exact ⟨[], .nil⟩
    | cons g gs ih =>
      obtain ⟨ders, h⟩ := ih fun a ha => hg a (by simp [ha])
      have := hg g (by simp)
      obtain ⟨der, e1, -, e3⟩ := Sig.derBytes75_eq g this.1 this.2
      exact ⟨der :: ders, .cons ⟨e1, e3⟩ h⟩
  obtain ⟨ders, hd⟩ := hd
  obtain ⟨t', r1, r2⟩ := Vault.finishLegacy_eq hd hn hc (by omega) ht hi
  refine ⟨t', _, r1, r2, fun amount h => ?_⟩
  have hno : ∀ ds, ¬ Pushes (0 :: ((ders.map fun der => push1 (der ++ [1])).flatten ++ varBytes (multisigScript m secs))) ds := by
    intro ds hp
    generalize hs : (0 :: ((ders.map fun der => push1 (der ++ [1])).flatten ++ varBytes (multisigScript m secs)) : Bytes) = s at hp
    cases hp with
    | nil => cases hs
    | cons h t =>
      rw [← hs] at h
      have e : getOp (0 :: ((ders.map fun der => push1 (der ++ [1])).flatten ++ varBytes (multisigScript m secs))) = some (.push [], _) := rfl
      rw [e, Option.some.injEq, Prod.mk.injEq] at h
      rw [← h.2] at t
      exact not_pushes_long (by omega) (by omega) (forall₂_lengths hd) t
  have hin := setIn_get hi ({ inp with script := 0 :: ((ders.map fun der => push1 (der ++ [1])).flatten ++ varBytes (multisigScript m secs)) } : In)
  generalize hspk : p2shScript (Spec.hash160 (multisigScript m secs)) = spk at h
  cases h with
  | bare _ inp' ds hi' hp _ _ h2 _ => exact h2 ⟨_, length_hash160 _, hspk.symm⟩
  | native _ inp' hi' h0 _ =>
    rw [hin, Option.some.injEq] at hi'
    rw [← hi'] at h0
    cases h0
  | p2sh r inp' ds hi' hp _ _ _ =>
    rw [hin, Option.some.injEq] at hi'
    rw [← hi'] at hp
    exact hno _ hp
  | nested r inp' hi' h0 hw =>
    rw [hin, Option.some.injEq] at hi'
    rw [← hi'] at h0
    have hz : UInt8.ofNat r.length = 0 := (List.cons.inj h0).1.symm
    have := congrArg UInt8.toNat hz
    rw [UInt8.toNat_ofNat'] at this
    cases hw with
    | key h _ _ hl _ _ => simp [p2wpkhScript, hl] at this
    | script _ _ _ _ => simp [p2wshScript, length_sha256] at this

/-- C108 is false on the network Regtest for segwit addresses: the output of the sender has an empty script, and everybody can spend it. -/
theorem C108_regtest {m : UInt8} {keys : List ECPoint} {points : List Pt} (hkeys : List.Forall₂ (fun k P => ECPoint.Holds k P) keys points) (hm : 1 ≤ m.toNat)
    (hn : m.toNat ≤ keys.length) (h16 : keys.length ≤ 16) (amount : UInt64) (buffer : Bytes) (hb : 64 ≤ buffer.length) :
    ∃ sc text o out, multiOf m keys = .ok sc ∧ (wsh sc).address buffer regtest = .ok (text ++ zeros (buffer.length - text.length), text.length) ∧
      TxOut.ofAddress amount text = .ok o ∧ o.Holds out ∧
      ∀ (x : Transaction) (i : Nat) (inp : In), x.ins[i]? = some inp → inp.script = [1, 1] → inp.witness = [] → InputOk x i out.amount out.script := by
  have hk : KeyLengths (secsAt keys points) := zip_lengths hkeys
  have hl : (secsAt keys points).length = keys.length := by rw [List.length_zipWith, ← hkeys.length_eq, Nat.min_self]
  have hsc := multi_holds (m := m) hk hm (by omega) (by omega)
  obtain ⟨a, b, l1, l2⟩ := length_multisig hk m.toNat
  have hws := (C22_constructors [] (by simp) _ _ hsc (by omega)).2.2.2.2.2.2.1
  have e32 : p2wshScript (Spec.sha256 (multisigScript m.toNat (secsAt keys points))) = witnessScript 0 (Spec.sha256 (multisigScript m.toNat (secsAt keys points))) := by
    unfold witnessScript p2wshScript
    rw [length_sha256]
    rfl
  rw [e32] at hws
  obtain ⟨text, o, g1, -, g2, g3, g4, g5⟩ := C102_regtest_anyone amount _ _ buffer (.inr (length_sha256 _)) hws hb
  refine ⟨_, text, o, _, ?_, g1, g2, g4, g5⟩
  unfold multiOf
  rw [secsOf_eq hkeys, C.bind_ok]
  rfl

/-! ### Examples -/

/-- The owner of the key with the secret 1. -/
def ownerOne (t : Tx) : Owner := ⟨t, keyOne, 1, fun _ => (BN.one, BN.one)⟩

theorem keysOne_hold : List.Forall₂ (fun k P => ECPoint.Holds k P) [keyOne.pubKey, ECPoint.generator] [(1 : Nat) • G, G] := .cons keyOne_holds.pub (.cons ECPoint.holds_generator .nil)

/-- C108_native, C108_nested, C108_regtest, C108_legacy_partial: one of two keys, or both. -/
example : List.Forall₂ (fun k P => ECPoint.Holds k P) [keyOne.pubKey, ECPoint.generator] [(1 : Nat) • G, G] ∧ 1 ≤ (2 : UInt8).toNat ∧
    (2 : UInt8).toNat ≤ [keyOne.pubKey, ECPoint.generator].length ∧ (multisigScript 2 (secsAt [keyOne.pubKey, ECPoint.generator] [(1 : Nat) • G, G])).length ≤ 75 := by
  refine ⟨keysOne_hold, by decide, by decide, ?_⟩
  have h1 : (secOf keyOne.pubKey.compressed ((1 : Nat) • G)).length = 33 := by rw [length_secOf]; rfl
  have h2 : (secOf ECPoint.generator.compressed G).length = 33 := by rw [length_secOf]; rfl
  simp only [multisigScript, List.zipWith_cons_cons, List.zipWith_nil_right, List.flatMap_cons, List.flatMap_nil, List.length_append, List.length_cons, List.length_nil, h1, h2]
  decide

/-- What the owners are asked for can be met: a transaction with the output, and one with the input for it, which the owner of the first key signs. -/
example {o : TxOut} {out : Out} (ho : ValidOut out) (h : o.Holds out) : ∃ (s : Tx) (parent : Transaction) (id : Bytes) (i : TxIn) (inp : In) (t : Tx) (x : Transaction),
    s.Holds parent ∧ parent.outs[0]? = some out ∧ s.txidString = .ok id ∧ TxIn.ofText id 0 0xffffffff = .ok i ∧ i.Holds inp ∧ t.Holds x ∧
    (ownerOne t).tx.SignSetting x 0 inp (ownerOne t).key (ownerOne t).secret (ownerOne t).rnd ∧ ([ownerOne t].map Owner.sec).Sublist (secsAt [keyOne.pubKey, ECPoint.generator] [(1 : Nat) • G, G]) := by
  obtain ⟨s, parent, id, i, inp, t, x, e1, e2, e3, e4, e5, e6⟩ := good_meets ho h
  exact ⟨s, parent, id, i, inp, t, x, e1, e2, e3, e4, e5, e6.holds, e6, by unfold secsAt; simp [Owner.sec, ownerOne]⟩

/-- C108_legacy_long: three compressed keys. -/
example (a b c : Bytes) (ha : a.length = 33) (hb : b.length = 33) (hc : c.length = 33) : KeyLengths [a, b, c] ∧ 76 ≤ (multisigScript 2 [a, b, c]).length := by
  refine ⟨?_, ?_⟩
  · intro k hk
    simp only [List.mem_cons, List.not_mem_nil, or_false] at hk
    rcases hk with rfl | rfl | rfl <;> omega
  · simp only [multisigScript, List.flatMap_cons, List.flatMap_nil, List.length_append, List.length_cons, List.length_nil, ha, hb, hc]
    omega

end UB
