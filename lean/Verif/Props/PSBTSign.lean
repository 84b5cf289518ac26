import Verif.Lemmas.PSBTSignLoop
import Verif.Props.PSBTWrite

/-
C58: signing PSBTs.
-/

namespace UB
open Spec BN

attribute [local irreducible] secpP secpN BN.multiply BN.fastMod BN.mod BN.subtractmod BN.multK BN.addmod BN.inverse BN.lshift BN.subi BN.add
  BN.multHalf BN.cmov BN.isEqual BN.isZero BN.sqrt BN.subtract scalarMultiply pointMultiply CurvePoint.add readBE writeBE BN.addi doubleSha Spec.hash256
  hmac512 hmacSha512 hash160 Spec.hash160 signDigest ecdsaDeterministic signatureOf fingerprintOf keyAt

namespace Spec

/-- The key entries of an input. -/
def keysOf (fs : List InField) : List KeyOrigin := fs.filterMap InField.key

/-- The first entry of the document, in the order of the inputs, with the fingerprint of the master key. -/
def PsbtDoc.firstEntry (doc : PsbtDoc) (fp : Bytes) : Option KeyOrigin := (doc.ins.flatMap keysOf).find? fun o => decide (o.fingerprint = fp)

/-- No path under the master key is shorter than the hardened part of the first one. -/
def PsbtDoc.PathsOk (doc : PsbtDoc) (fp : Bytes) : Prop :=
  ∀ o1, doc.firstEntry fp = some o1 → ∀ fs ∈ doc.ins, ∀ o ∈ keysOf fs, o.fingerprint = fp → (hardenedPrefix o1.path).length ≤ o.path.length

/-- There is room for the signatures. -/
def PsbtDoc.Room (doc : PsbtDoc) (d : Nat) (c : Bytes) : Prop :=
  ∀ fs ∈ doc.ins, (fs.filterMap InField.sig).length + (owned d c (keysOf fs)).length ≤ 255

/-- `doc'` is `doc` with the signatures of the master key `(d, c)`: each input gets one for each of its entries that belong to the master key,
and nothing else changes. -/
structure PsbtDoc.SignedTo (doc : PsbtDoc) (d : Nat) (c : Bytes) (doc' : PsbtDoc) : Prop where
  tx : doc'.tx = doc.tx
  globals : doc'.globals = doc.globals
  outs : doc'.outs = doc.outs
  count : doc'.ins.length = doc.ins.length
  ins : ∀ i inp fs, doc.tx.ins[i]? = some inp → doc.ins[i]? = some fs →
    ∃ gs, doc'.ins[i]? = some (fs ++ gs.map InField.partialSig) ∧ List.Forall₂ (SignedBy doc.tx i inp (infoOf inp.prevIndex fs) d c) (owned d c (keysOf fs)) gs

end Spec

theorem lastOf_mem {α β : Type} {f : α → Option β} {l : List α} {b : β} (h : lastOf f l = some b) : ∃ a ∈ l, f a = some b := by
  unfold lastOf at h
  exact List.mem_filterMap.mp (List.mem_of_getLast? h)

theorem InMeta.Holds.knows {m : InMeta} {id : Bytes} {n : Nat} {fs : List InField} (h : m.Holds n fs) (hok : ∀ f ∈ fs, f.Ok id n) : m.Knows (infoOf n fs) := by
  have hsp := h.spent
  refine ⟨?_, h.redeem, h.witness, ?_, ?_, ?_⟩
  · unfold infoOf
    cases hl : lastOf (·.spent n) fs with
    | none =>
      rw [hl] at hsp
      dsimp only at hsp ⊢
      rw [hsp]
      exact ⟨rfl, ⟨rfl, rfl⟩⟩
    | some o => rw [hl] at hsp; exact hsp
  · unfold infoOf
    cases hl : lastOf (·.spent n) fs with
    | none => simp
    | some o =>
      obtain ⟨f, hf, e⟩ := lastOf_mem hl
      have := hok f hf
      cases f with
      | prevTx t => exact (this.1.outs o (List.mem_of_getElem? e)).script
      | utxo o' => cases e; exact this.1.script
      | _ => cases e
  · unfold infoOf
    cases hl : lastOf InField.redeem fs with
    | none => simp
    | some s =>
      obtain ⟨f, hf, e⟩ := lastOf_mem hl
      have := hok f hf
      cases f with
      | redeemScript s' => cases e; exact this
      | _ => cases e
  · unfold infoOf
    cases hl : lastOf InField.witness fs with
    | none => simp
    | some s =>
      obtain ⟨f, hf, e⟩ := lastOf_mem hl
      have := hok f hf
      cases f with
      | witnessScript s' => cases e; exact this
      | _ => cases e

theorem PSBT.AllSigned.lengths {x : Transaction} {d : Nat} {c : Bytes} {i : Nat} {fs ms ms' gss} (h : AllSigned x d c i fs ms ms' gss) :
    ms.length = fs.length ∧ ms'.length = fs.length ∧ gss.length = fs.length := by
  induction h with
  | nil => simp
  | cons _ _ _ _ _ ih => simp [ih]

theorem PSBT.AllSigned.get {x : Transaction} {d : Nat} {c : Bytes} {i : Nat} {fs ms ms' gss} (h : AllSigned x d c i fs ms ms' gss) :
    ∀ (k : Nat) (f : InputInfo × List KeyOrigin) (m m' : InMeta) (gs : List SigEntry), fs[k]? = some f → ms[k]? = some m → ms'[k]? = some m' → gss[k]? = some gs →
      ∃ inp new, x.ins[i + k]? = some inp ∧ m' = { m with signatures := m.signatures ++ new } ∧ List.Forall₂ PartialSig.Holds new gs ∧ (∀ g ∈ gs, g.Ok) ∧
        List.Forall₂ (SignedBy x (i + k) inp f.1 d c) (owned d c f.2) gs := by
  induction h with
  | nil => intro k f m m' gs hf; simp at hf
  | @cons i inp f os m new gs fs ms ms' gss hin h1 h2 h3 t ih =>
    intro k f' m1 m1' gs' e1 e2 e3 e4
    cases k with
    | zero =>
      simp only [List.getElem?_cons_zero, Option.some.injEq] at e1 e2 e3 e4
      subst e1 e2 e3 e4
      exact ⟨inp, new, hin, rfl, h1, h2, h3⟩
    | succ k =>
      simp only [List.getElem?_cons_succ] at e1 e2 e3 e4
      obtain ⟨inp', new', g1, g2⟩ := ih k f' m1 m1' gs' e1 e2 e3 e4
      rw [show i + 1 + k = i + (k + 1) by omega] at g1 g2
      exact ⟨inp', new', g1, g2⟩

theorem PSBT.AllSigned.counts {x : Transaction} {d : Nat} {c : Bytes} {i : Nat} {fs ms ms' gss} (h : AllSigned x d c i fs ms ms' gss) :
    gss.map List.length = fs.map fun f => (owned d c f.2).length := by
  induction h with
  | nil => rfl
  | cons _ _ _ h3 _ ih => rw [List.map_cons, List.map_cons, ih, h3.length_eq]

theorem sigs_only (gs : List SigEntry) : (gs.map InField.partialSig).filterMap InField.sig = gs ∧ (gs.map InField.partialSig).filterMap InField.key = [] ∧
    (gs.map InField.partialSig).filterMap InField.redeem = [] ∧ (gs.map InField.partialSig).filterMap InField.witness = [] ∧
    ∀ n, (gs.map InField.partialSig).filterMap (·.spent n) = [] := by
  induction gs with
  | nil => simp
  | cons g gs ih =>
    obtain ⟨a, b, c, d, e⟩ := ih
    refine ⟨?_, ?_, ?_, ?_, fun n => ?_⟩ <;> rw [List.map_cons, List.filterMap_cons]
    · show g :: _ = _; rw [a]
    · show List.filterMap _ _ = _; rw [b]
    · show List.filterMap _ _ = _; rw [c]
    · show List.filterMap _ _ = _; rw [d]
    · show List.filterMap _ _ = _; rw [e]

theorem InMeta.Holds.signed {m : InMeta} {n : Nat} {fs : List InField} (h : m.Holds n fs) {new : List PartialSig} {gs : List SigEntry}
    (hn : List.Forall₂ PartialSig.Holds new gs) : ({ m with signatures := m.signatures ++ new } : InMeta).Holds n (fs ++ gs.map InField.partialSig) := by
  obtain ⟨s1, s2, s3, s4, s5⟩ := sigs_only gs
  refine ⟨?_, ?_, ?_, ?_, ?_⟩
  · have := h.spent
    unfold lastOf at this ⊢
    rw [List.filterMap_append, s5, List.append_nil]
    exact this
  · have := h.redeem
    unfold lastOf at this ⊢
    rw [List.filterMap_append, s3, List.append_nil]
    exact this
  · have := h.witness
    unfold lastOf at this ⊢
    rw [List.filterMap_append, s4, List.append_nil]
    exact this
  · rw [List.filterMap_append, s1]
    exact List.rel_append h.sigs hn
  · rw [List.filterMap_append, s2, List.append_nil]
    exact h.keys

/-- C58: `sign` adds to each input one signature for each of its entries that belong to the master key - the fingerprint is that of the master key
and the recorded key is the one at the end of the path -, namely the deterministic signature of the digest of the input; nothing else changes.
It returns the number of these signatures (modulo 256).  Missing: documents that do not fulfil `PathsOk`, for which `sign` is undefined
(`C58_short_path_undefined`), and more than 255 signatures for an input. -/
theorem C58_sign_partial {p : PSBT} {doc : PsbtDoc} (h : p.Holds doc) (hd : doc.Ok) (root : HDPriv) (d : Nat) (hr : root.Sound d)
    (hc : root.pubKey.compressed = true) (env : PSBT.SignEnv) (he : env.Good) (hp : doc.PathsOk (fingerprintOf (d • G))) (hroom : doc.Room d root.head.chainCode) :
    ∃ q n doc', p.sign root env = .ok (q, n) ∧ doc.SignedTo d root.head.chainCode doc' ∧ doc'.Ok ∧ q.Holds doc' ∧ q = { p with ins := q.ins } ∧
      List.Forall₂ (fun m m' => ∃ new, m' = { m with signatures := m.signatures ++ new }) p.ins q.ins ∧
      n.toNat = ((doc.ins.map fun fs => (owned d root.head.chainCode (keysOf fs)).length).sum) % 256 := by
  have hil := hd.ins.length_eq
  have hS : PSBT.Setting p.tx doc.tx root d root.head.chainCode env := ⟨h.tx, hd.wire, hd.nIns, hd.nOuts, ⟨hr, rfl, hc⟩, he⟩
  have hzl : (doc.tx.ins.zip doc.ins).length = doc.tx.ins.length := by rw [List.length_zip]; omega
  have hpl : p.ins.length = doc.tx.ins.length := by rw [← h.ins.length_eq, hzl]
  have hzip : ∀ k (hk : k < doc.tx.ins.length), (doc.tx.ins.zip doc.ins)[k]? = some (doc.tx.ins[k], doc.ins[k]'(by omega)) := by
    intro k hk
    rw [List.getElem?_eq_getElem (by omega), List.getElem_zip]
  have hflat : ((doc.tx.ins.zip doc.ins).map fun x => (infoOf x.1.prevIndex x.2, keysOf x.2)).flatMap (·.2) = doc.ins.flatMap keysOf := by
    rw [List.flatMap_map]
    have : ∀ (a : List In) (b : List (List InField)), a.length = b.length → (a.zip b).flatMap (fun x => keysOf x.2) = b.flatMap keysOf := by
      intro a
      induction a with
      | nil => intro b hb; cases b <;> simp_all
      | cons i a ih =>
        intro b hb
        cases b with
        | nil => simp at hb
        | cons y b => simp [ih b (by simpa using hb)]
    exact this _ _ hil
  generalize hpre : (match doc.firstEntry (fingerprintOf (d • G)) with | some o => hardenedPrefix o.path | none => []) = pre
  have hpre1 : ∀ o, doc.firstEntry (fingerprintOf (d • G)) = some o → hardenedPrefix o.path = pre := by
    intro o ho
    rw [ho] at hpre
    exact hpre
  have hin : List.Forall₂ (fun (f : InputInfo × List KeyOrigin) m => PSBT.InputOk d root.head.chainCode pre f.1 f.2 m)
      ((doc.tx.ins.zip doc.ins).map fun x => (infoOf x.1.prevIndex x.2, keysOf x.2)) p.ins := by
    rw [List.forall₂_map_left_iff, List.forall₂_iff_get]
    refine ⟨by omega, fun k h1 h2 => ?_⟩
    have hk : k < doc.tx.ins.length := by omega
    have hm := (List.forall₂_iff_get.mp h.ins).2 k h1 h2
    have hf := (List.forall₂_iff_get.mp hd.ins).2 k hk (by omega)
    simp only [List.get_eq_getElem, List.getElem_zip] at hm hf ⊢
    have hmem : doc.ins[k]'(by omega) ∈ doc.ins := List.getElem_mem _
    have hsl := hm.sigs.length_eq
    refine ⟨hm.knows hf.1, hm.keys, ?_, ?_, by rw [hsl]; exact hroom _ hmem⟩
    · intro o ho
      obtain ⟨f, f1, f2⟩ := List.mem_filterMap.mp ho
      have := hf.1 f f1
      cases f with
      | origin o' => cases f2; exact this.point
      | _ => cases f2
    · intro o ho hfp
      cases hq : doc.firstEntry (fingerprintOf (d • G)) with
      | none =>
        unfold PsbtDoc.firstEntry at hq
        rw [List.find?_eq_none] at hq
        exact absurd (by simpa using hfp) (hq o (List.mem_flatMap.mpr ⟨_, hmem, ho⟩))
      | some o1 =>
        rw [← hpre1 o1 hq]
        exact hp o1 hq _ hmem o ho hfp
  obtain ⟨ms', gss, n, s1, s2, s3⟩ := PSBT.sign_spec hS _ (by rw [List.length_map, hzl]) hin (by rw [hflat]; exact hpre1)
  obtain ⟨l1, l2, l3⟩ := s2.lengths
  rw [List.length_map, hzl] at l1 l2 l3
  have hget : ∀ k (hk : k < doc.tx.ins.length), ∃ new, ms'[k]'(by omega) = { p.ins[k]'(by omega) with signatures := (p.ins[k]'(by omega)).signatures ++ new } ∧
      List.Forall₂ PartialSig.Holds new (gss[k]'(by omega)) ∧ (∀ g ∈ gss[k]'(by omega), g.Ok) ∧
      List.Forall₂ (SignedBy doc.tx k doc.tx.ins[k] (infoOf doc.tx.ins[k].prevIndex (doc.ins[k]'(by omega))) d root.head.chainCode)
        (owned d root.head.chainCode (keysOf (doc.ins[k]'(by omega)))) (gss[k]'(by omega)) := by
    intro k hk
    obtain ⟨inp, new, g1, g2, g3, g4, g5⟩ := s2.get k (infoOf doc.tx.ins[k].prevIndex (doc.ins[k]'(by omega)), keysOf (doc.ins[k]'(by omega))) _ _ _
      (by rw [List.getElem?_map, hzip k hk]; rfl) (List.getElem?_eq_getElem (by omega)) (List.getElem?_eq_getElem (by omega)) (List.getElem?_eq_getElem (by omega))
    rw [Nat.zero_add] at g1 g5
    rw [List.getElem?_eq_getElem hk, Option.some.injEq] at g1
    subst g1
    exact ⟨new, g2, g3, g4, g5⟩
  have hdl : (List.zipWith (fun fs gs => fs ++ gs.map InField.partialSig) doc.ins gss).length = doc.ins.length := by rw [List.length_zipWith]; omega
  refine ⟨{ p with ins := ms' }, n, { doc with ins := List.zipWith (fun fs gs => fs ++ gs.map InField.partialSig) doc.ins gss }, s1, ⟨rfl, rfl, rfl, hdl, ?_⟩,
    ?_, ⟨h.tx, ?_, h.outs⟩, rfl, ?_, ?_⟩
  · intro i inp fs e1 e2
    obtain ⟨hi, rfl⟩ := List.getElem?_eq_some_iff.mp e1
    obtain ⟨hi2, rfl⟩ := List.getElem?_eq_some_iff.mp e2
    obtain ⟨new, -, -, -, g5⟩ := hget i hi
    refine ⟨gss[i]'(by omega), ?_, g5⟩
    show (List.zipWith _ _ _)[i]? = _
    rw [List.getElem?_eq_getElem (by omega), List.getElem_zipWith]
  · refine ⟨hd.wire, hd.nonempty, hd.nIns, hd.nOuts, hd.count, hd.size, hd.exact, hd.globals, ?_, hd.outs, hd.fields⟩
    rw [List.forall₂_iff_get]
    refine ⟨hil.trans hdl.symm, fun k (h1 : k < doc.tx.ins.length) h2 => ?_⟩
    simp only [List.get_eq_getElem, List.getElem_zipWith]
    have hf := (List.forall₂_iff_get.mp hd.ins).2 k h1 (by omega)
    simp only [List.get_eq_getElem] at hf
    obtain ⟨new, -, -, g4, g5⟩ := hget k h1
    obtain ⟨t1, t2, -⟩ := sigs_only (gss[k]'(by omega))
    refine ⟨?_, ?_, ?_⟩
    · intro f hfm
      rcases List.mem_append.mp hfm with hfm | hfm
      · exact hf.1 f hfm
      · obtain ⟨g, hg, rfl⟩ := List.mem_map.mp hfm
        exact g4 g hg
    · rw [List.filterMap_append, t1, List.length_append, ← g5.length_eq]
      exact hroom _ (List.getElem_mem _)
    · rw [List.filterMap_append, t2, List.append_nil]
      exact hf.2.2
  · rw [List.forall₂_iff_get]
    have hzz : (doc.tx.ins.zip (List.zipWith (fun fs gs => fs ++ gs.map InField.partialSig) doc.ins gss)).length = ms'.length := by
      rw [List.length_zip]; omega
    refine ⟨hzz, fun k h1 h2 => ?_⟩
    have hk : k < doc.tx.ins.length := by change k < ms'.length at h2; omega
    simp only [List.get_eq_getElem, List.getElem_zip, List.getElem_zipWith]
    obtain ⟨new, g2, g3, -, -⟩ := hget k hk
    have hm := (List.forall₂_iff_get.mp h.ins).2 k (by omega) (by omega)
    simp only [List.get_eq_getElem, List.getElem_zip] at hm
    rw [g2]
    exact hm.signed g3
  · rw [List.forall₂_iff_get]
    refine ⟨by show _ = ms'.length; omega, fun k h1 h2 => ?_⟩
    obtain ⟨new, g2, -⟩ := hget k (by omega)
    exact ⟨new, g2⟩
  · rw [s3, s2.counts, List.map_map, UInt8.toNat_ofNat']
    congr 2
    have hsnd := List.map_snd_zip (l₁ := doc.tx.ins) (l₂ := doc.ins) (by omega)
    conv_rhs => rw [← hsnd, List.map_map]
    rfl

/-! ### The signatures -/

theorem Spec.keyAt_lt {d : Nat} {c : Bytes} (h : d < secpN) (path : List Nat) : (keyAt d c path).1 < secpN := by
  induction path generalizing d c with
  | nil => unfold keyAt; exact h
  | cons i is ih =>
    unfold keyAt
    exact ih (Nat.mod_lt _ secpN_pos')

/-- C58: the signatures are valid for the recorded key (unless 10000 nonces in sequence are refused, for which no example is known). -/
theorem C58_valid {x : Transaction} {i : Nat} {inp : In} {f : InputInfo} {d : Nat} {c : Bytes} {o : KeyOrigin} {g : SigEntry} (hd : d < secpN) (ho : Owns d c o)
    (h : SignedBy x i inp f d c o g) (hn : ecdsaDeterministic (beBytes 32 (keyAt d c o.path).1) (inputDigest x i inp f o.point) 10000 ≠ none) :
    EcdsaValid o.point (beNat (inputDigest x i inp f o.point)) g.r g.s := by
  have hv := signatureOf_valid (keyAt_lt hd o.path) hn
  rw [← h.sig, ← ho.2] at hv
  exact hv

/-- The digests of consensus (hash type ALL) for an output with script `spk` and amount `amount`, spent with redeem script `r` and witness script `w`
(empty: there is none). -/
inductive Spec.Consensus (x : Transaction) (i : Nat) (inp : In) (amount : Nat) : (spk r w : Bytes) → Bytes → Prop
  | bare (spk : Bytes) (h1 : ¬ IsP2wpkh spk) (h2 : ∀ h, spk = p2wshScript h → h.length ≠ 32) (h3 : ∀ h, spk = p2shScript h → h.length ≠ 20) :
      Consensus x i inp amount spk [] [] (legacySigHash x i spk 1)
  | p2wpkh (h : Bytes) (hl : h.length = 20) : Consensus x i inp amount (p2wpkhScript h) [] [] (segwitSigHash x i inp (p2pkhScript h) amount 1)
  | p2wsh (w : Bytes) : Consensus x i inp amount (p2wshScript (Spec.sha256 w)) [] w (segwitSigHash x i inp w amount 1)
  | p2sh (r : Bytes) (h1 : ¬ IsP2wpkh r) (h2 : ∀ h, r = p2wshScript h → h.length ≠ 32) :
      Consensus x i inp amount (p2shScript (Spec.hash160 r)) r [] (legacySigHash x i r 1)
  | p2sh_p2wpkh (h : Bytes) (hl : h.length = 20) :
      Consensus x i inp amount (p2shScript (Spec.hash160 (p2wpkhScript h))) (p2wpkhScript h) [] (segwitSigHash x i inp (p2pkhScript h) amount 1)
  | p2sh_p2wsh (w : Bytes) :
      Consensus x i inp amount (p2shScript (Spec.hash160 (p2wshScript (Spec.sha256 w)))) (p2wshScript (Spec.sha256 w)) w (segwitSigHash x i inp w amount 1)

/-- C58: if the scripts fit the output that is spent, and for key hash programs the hash is that of the key, the digest is that of consensus.
(Scripts must not be empty: an empty redeem or witness script counts as none.) -/
theorem C58_digest {x : Transaction} {i : Nat} {inp : In} {f : InputInfo} {P : Pt} {dg : Bytes} (h : Consensus x i inp f.spent.amount f.spent.script f.redeem f.witness dg)
    (hw : (∃ w, f.spent.script = p2wshScript w ∨ f.redeem = p2wshScript w) → f.witness ≠ [])
    (hr : (∃ w, f.spent.script = p2shScript w ∧ w.length = 20) → f.redeem ≠ [])
    (hk : ∀ w, (f.spent.script = p2wpkhScript w ∨ f.redeem = p2wpkhScript w) → w = Spec.hash160 (secOf true P)) : inputDigest x i inp f P = dg := by
  obtain ⟨⟨a, spk⟩, r, w⟩ := f
  dsimp only at *
  unfold inputDigest
  dsimp only
  cases h with
  | bare _ h1 h2 h3 => rw [if_neg (by simp), if_neg (by simp), if_neg h1]
  | p2wpkh h hl => rw [if_neg (by simp), if_neg (by simp), if_pos ⟨h, hl, rfl⟩, hk h (Or.inl rfl)]
  | p2wsh => rw [if_pos (hw ⟨_, Or.inl rfl⟩)]
  | p2sh _ h1 h2 => rw [if_neg (by simp), if_pos (hr ⟨_, rfl, length_hash160 _⟩), if_neg h1]
  | p2sh_p2wpkh h hl => rw [if_neg (by simp), if_pos (by simp [p2wpkhScript]), if_pos ⟨h, hl, rfl⟩, hk h (Or.inr rfl)]
  | p2sh_p2wsh => rw [if_pos (hw ⟨_, Or.inr rfl⟩)]

/-! ### Where code and claim disagree -/

/-- C58: a witness script in the PSBT is signed for whatever the script of the output is; it is not compared with it.  The same holds for a redeem
script. -/
theorem C58_scripts_unchecked (x : Transaction) (i : Nat) (inp : In) (f : InputInfo) (P : Pt) (spk : Bytes) (h : f.witness ≠ [] ∨ f.redeem ≠ []) :
    inputDigest x i inp { f with spent := { f.spent with script := spk } } P = inputDigest x i inp f P := by
  unfold inputDigest
  dsimp only
  by_cases h1 : f.witness ≠ []
  · rw [if_pos h1, if_pos h1]
  · rw [if_neg h1, if_neg h1]
    have h2 : f.redeem ≠ [] := h.resolve_left h1
    rw [if_pos h2, if_pos h2]

/-- C58: an output with a script hash program (P2WSH) whose witness script is not given is signed as if it were an output from before segwit,
over its own script; consensus knows no such digest. -/
theorem C58_p2wsh_without_script (x : Transaction) (i : Nat) (inp : In) (amount : Nat) (P : Pt) (w : Bytes) (hw : w.length = 32) :
    inputDigest x i inp ⟨⟨amount, p2wshScript w⟩, [], []⟩ P = legacySigHash x i (p2wshScript w) 1 ∧
    ∀ r v dg, Consensus x i inp amount (p2wshScript w) r v dg → ∃ v', dg = segwitSigHash x i inp v' amount 1 := by
  have hn : ¬ IsP2wpkh (p2wshScript w) := by
    rintro ⟨h, -, e⟩
    simp [p2wshScript, p2wpkhScript] at e
  constructor
  · unfold inputDigest
    rw [if_neg (by simp), if_neg (by simp), if_neg hn]
  · intro r v dg h
    generalize hs : p2wshScript w = spk at h
    cases h with
    | bare _ h1 h2 _ => exact absurd hw (h2 w hs.symm)
    | p2wpkh h hl => exact ⟨_, rfl⟩
    | p2wsh => exact ⟨_, rfl⟩
    | p2sh r => simp [p2wshScript, p2shScript] at hs
    | p2sh_p2wpkh h hl => exact ⟨_, rfl⟩
    | p2sh_p2wsh => exact ⟨_, rfl⟩

/-- C58: for an entry with an uncompressed key the signature is recorded under another key, the compressed one. -/
theorem C58_uncompressed {x : Transaction} {i : Nat} {inp : In} {f : InputInfo} {d : Nat} {c : Bytes} {o : KeyOrigin} {g : SigEntry}
    (h : SignedBy x i inp f d c o g) (ho : o.compressed = false) : secOf g.compressed g.point ≠ secOf o.compressed o.point := by
  intro e
  have := congrArg List.length e
  rw [length_secOf, length_secOf, h.compressed, ho] at this
  simp at this

/-- C58: when a path under the master key is shorter than the hardened part of the first one, `sign` compares behind its end. -/
theorem C58_short_path_undefined {p : PSBT} {x : Transaction} {root : HDPriv} {d : Nat} {env : PSBT.SignEnv} (ht : p.tx.Holds x) (hw : WireTx x)
    (hni : x.ins.length < 253) (hno : x.outs.length < 253) (hne : x.ins ≠ []) (hr : root.Sound d) (hc : root.pubKey.compressed = true) (he : env.Good)
    {m : InMeta} {ms : List InMeta} (hm : p.ins = m :: ms) {f : InputInfo} (hk : m.Knows f) {D1 D2 : Derivation} {Ds : List Derivation} {o1 o2 : KeyOrigin}
    (hD : m.derivations = D1 :: D2 :: Ds) (h1 : D1.Holds o1) (h2 : D2.Holds o2) (hp : o1.point ≠ 0) (hs : m.signatures.length < 255)
    (f1 : o1.fingerprint = fingerprintOf (d • G)) (f2 : o2.fingerprint = fingerprintOf (d • G)) (hlt : o2.path.length < (hardenedPrefix o1.path).length) :
    p.sign root env = .ub := by
  obtain ⟨inp, ins, hins⟩ := List.exists_cons_of_ne_nil hne
  have hS : PSBT.Setting p.tx x root d root.head.chainCode env := ⟨ht, hw, hni, hno, ⟨hr, rfl, hc⟩, he⟩
  have hown : (owned d root.head.chainCode [o1]).length ≤ 1 := by
    unfold owned
    exact List.length_filter_le _ _
  obtain ⟨st1, new, gs, a1, a2, -, -, -, a6, -⟩ := PSBT.signStep_eq hS (i := 0) (inp := inp) (by rw [hins]; rfl) (f := f) (pre := hardenedPrefix o1.path) 0
    (st := { p := p }) (m := m) (D := D1) (o := o1) (todo := [o2]) rfl (by rw [hm]; rfl) hk h1 hp (fun _ => List.IsPrefix.length_le (List.takeWhile_prefix _))
    (by omega) (by
      intro o ho
      rw [List.find?_cons_of_pos (by simpa using f1), Option.some.injEq] at ho
      rw [ho])
  have hlen : p.tx.txIns.length = ins.length + 1 := by rw [ht.ins.length_eq, hins]; rfl
  have hk2 : PSBT.signKey root env 0 1 D2.path st1.cache = .ub := by
    unfold PSBT.signKey
    have hl2 : D2.path.length = o2.path.length := by rw [← h2.path, List.length_map]
    cases hcc : st1.cache with
    | none =>
      -- the cache is there after the first round
      exfalso
      rw [hcc] at a6
      have := a6 o2 (by rw [List.find?_cons_of_pos (by simpa using f2)])
      have h3 : (hardenedPrefix o2.path).length ≤ o2.path.length := List.IsPrefix.length_le (List.takeWhile_prefix _)
      rw [this] at h3
      omega
    | some v =>
      obtain ⟨pre', acc⟩ := v
      rw [hcc] at a6
      have hpl : pre'.length = (hardenedPrefix o1.path).length := by rw [← a6.1, List.length_map]
      unfold PSBT.accountKey
      dsimp only
      rw [C.bind_ok]
      dsimp only
      unfold PSBT.pathKey
      rw [if_pos (by omega), C.bind_ub]
  have hstep2 : PSBT.signStep root (fingerprintOf (d • G)) env 0 1 st1 D2 = .ub := by
    unfold PSBT.signStep
    rw [h2.ready, if_neg (by simp), h2.fingerprint, if_neg (by simpa using f2.symm), hk2, C.bind_ub]
  unfold PSBT.sign
  rw [(HDPriv.C39_fingerprint root d hr).1, C.bind_ok, hlen]
  unfold PSBT.signLoop
  dsimp only
  rw [hm]
  dsimp only [List.getElem?_cons_zero]
  rw [hD]
  unfold PSBT.signInputLoop
  rw [a1, C.bind_ok]
  unfold PSBT.signInputLoop
  rw [hstep2, C.bind_ub, C.bind_ub, C.bind_ub]

/-- C58: an input without the output it spends is signed too, over the digest for an empty script. -/
theorem C58_without_output (x : Transaction) (i : Nat) (inp : In) (n : Nat) (P : Pt) (fs : List InField) (h : ∀ f ∈ fs, f.spent n = none ∧ f.redeem = none ∧ f.witness = none) :
    inputDigest x i inp (infoOf n fs) P = legacySigHash x i [] 1 := by
  have e : ∀ {β : Type} (g : InField → Option β), (∀ f ∈ fs, g f = none) → lastOf g fs = none := by
    intro β g hg
    unfold lastOf
    rw [List.filterMap_eq_nil_iff.mpr hg]
    rfl
  unfold infoOf
  rw [e _ fun f hf => (h f hf).1, e _ fun f hf => (h f hf).2.1, e _ fun f hf => (h f hf).2.2]
  unfold inputDigest
  dsimp only [Option.getD_none]
  rw [if_neg (by simp), if_neg (by simp), if_neg]
  rintro ⟨w, -, hw⟩
  simp [p2wpkhScript] at hw

/-! ### Examples -/

theorem G_ne_neg : -G ≠ G := by
  intro e
  have h2 : (2 : Nat) • G = 0 := by
    rw [two_nsmul]
    nth_rw 1 [← e]
    exact neg_add_cancel _
  have := addOrderOf_dvd_iff_nsmul_eq_zero.mpr h2
  rw [order_G] at this
  exact absurd (Nat.le_of_dvd (by decide) this) (by unfold secpN; decide)

/-- The entry of the key 1 itself, and one with the same fingerprint and another key. -/
noncomputable def exOwn : KeyOrigin := ⟨true, G, fingerprintOf ((1 : Nat) • G), []⟩

noncomputable def exForeign : KeyOrigin := ⟨true, -G, fingerprintOf ((1 : Nat) • G), []⟩

noncomputable def exSignDoc : PsbtDoc := ⟨exPsbtTx, [([0xfc, 1], [5])], [[.prevTx exTxSpec, .origin exForeign, .origin exOwn, .partialSig exSigEntry]], [[.origin exOrigin]]⟩

theorem exSignDoc_ok : exSignDoc.Ok where
  wire := exPsbtTx_wire
  nonempty := exDoc_ok.nonempty
  nIns := exDoc_ok.nIns
  nOuts := exDoc_ok.nOuts
  count := exDoc_ok.count
  size := exDoc_ok.size
  exact := exDoc_ok.exact
  globals := exDoc_ok.globals
  ins := by
    refine .cons ⟨?_, by decide, by decide⟩ .nil
    intro f hf
    simp only [List.mem_cons, List.not_mem_nil, or_false] at hf
    rcases hf with rfl | rfl | rfl | rfl
    · exact ⟨exTxSpec_wire, by decide, by decide, by decide, rfl, by decide, by decide, by decide⟩
    · exact ⟨neg_ne_zero.mpr G_ne_zero, length_fingerprintOf _, by simp [exForeign], by simp [exForeign], by decide⟩
    · exact ⟨G_ne_zero, length_fingerprintOf _, by simp [exOwn], by simp [exOwn], by decide⟩
    · exact exSigEntry_ok
  outs := rfl
  fields := by
    intro fs hfs
    simp only [exSignDoc, List.mem_singleton] at hfs
    subst hfs
    refine ⟨?_, by decide⟩
    intro f hf
    simp only [List.mem_cons, List.not_mem_nil, or_false] at hf
    subst hf
    exact exOrigin_ok

theorem exSignDoc_owned (c : Bytes) : owned 1 c (keysOf [.prevTx exTxSpec, .origin exForeign, .origin exOwn, .partialSig exSigEntry]) = [exOwn] := by
  have e : keysOf [.prevTx exTxSpec, .origin exForeign, .origin exOwn, .partialSig exSigEntry] = [exForeign, exOwn] := rfl
  have hk : ∀ c, (keyAt 1 c []).1 = 1 := by intro c; unfold keyAt; rfl
  rw [e, owned_cons_neg, owned_cons_pos]
  · rfl
  · refine ⟨rfl, ?_⟩
    rw [show exOwn.path = [] from rfl, hk, one_nsmul]
    rfl
  · rintro ⟨-, h⟩
    rw [show exForeign.path = [] from rfl, hk, one_nsmul] at h
    exact G_ne_neg h

def exEnv : PSBT.SignEnv := ⟨fun _ => BN.one, fun _ _ _ => BN.one, fun _ _ _ => (BN.one, BN.one), fun _ _ => []⟩

theorem exEnv_good : exEnv.Good := ⟨fun _ => blind_one, fun _ _ _ => blind_one, fun _ _ => draws_one⟩

/-- C58 on the document as it was parsed: one of the two entries is signed for. -/
example (junk : Nat → Bytes) (rest : Bytes) : ∃ q n doc', (PSBT.fromStream junk {} (.of (exSignDoc.bytes ++ rest))).1.sign hdOne exEnv = .ok (q, n) ∧
    exSignDoc.SignedTo 1 (zeros 32) doc' ∧ q.Holds doc' ∧ n = 1 := by
  have hroom : exSignDoc.Room 1 hdOne.head.chainCode := by
    intro fs hfs
    simp only [exSignDoc, List.mem_singleton] at hfs
    subst hfs
    rw [exSignDoc_owned]
    decide
  have hpaths : exSignDoc.PathsOk (fingerprintOf ((1 : Nat) • G)) := by
    intro o1 h1 fs hfs o ho hfp
    have : exSignDoc.firstEntry (fingerprintOf ((1 : Nat) • G)) = some exForeign := by
      unfold PsbtDoc.firstEntry
      show List.find? _ [exForeign, exOwn] = _
      rw [List.find?_cons_of_pos (by simp [exForeign])]
    rw [this, Option.some.injEq] at h1
    subst h1
    exact Nat.zero_le _
  obtain ⟨q, n, doc', h1, h2, -, h4, -, -, h7⟩ := C58_sign_partial (C57_parse_partial junk PSBT.clean_fresh exSignDoc exSignDoc_ok rest).2.1 exSignDoc_ok hdOne 1
    holds_hdOne.sound rfl exEnv exEnv_good hpaths hroom
  refine ⟨q, n, doc', h1, h2, h4, ?_⟩
  rw [show exSignDoc.ins = [[.prevTx exTxSpec, .origin exForeign, .origin exOwn, .partialSig exSigEntry]] from rfl, List.map_cons, exSignDoc_owned] at h7
  exact UInt8.toNat_inj.mp h7

/-- The undefined case: an entry m/0' before an entry m. -/
noncomputable def exHard : KeyOrigin := ⟨true, G, fingerprintOf ((1 : Nat) • G), [0x80000000]⟩

noncomputable def exShortDoc : PsbtDoc := { exSignDoc with ins := [[.prevTx exTxSpec, .origin exHard, .origin exOwn]] }

theorem exShortDoc_ok : exShortDoc.Ok where
  wire := exPsbtTx_wire
  nonempty := exDoc_ok.nonempty
  nIns := exDoc_ok.nIns
  nOuts := exDoc_ok.nOuts
  count := exDoc_ok.count
  size := exDoc_ok.size
  exact := exDoc_ok.exact
  globals := exDoc_ok.globals
  ins := by
    refine .cons ⟨?_, by decide, by decide⟩ .nil
    intro f hf
    simp only [List.mem_cons, List.not_mem_nil, or_false] at hf
    rcases hf with rfl | rfl | rfl
    · exact ⟨exTxSpec_wire, by decide, by decide, by decide, rfl, by decide, by decide, by decide⟩
    · exact ⟨G_ne_zero, length_fingerprintOf _, by simp [exHard], by simp [exHard], by decide⟩
    · exact ⟨G_ne_zero, length_fingerprintOf _, by simp [exOwn], by simp [exOwn], by decide⟩
  outs := rfl
  fields := exSignDoc_ok.fields

/-- C58: a document the parser accepts and on which `sign` is undefined. -/
theorem C58_undefined_document (junk : Nat → Bytes) (rest : Bytes) : (PSBT.fromStream junk {} (.of (exShortDoc.bytes ++ rest))).1.sign hdOne exEnv = .ub := by
  have h := (C57_parse_partial junk PSBT.clean_fresh exShortDoc exShortDoc_ok rest).2.1
  generalize (PSBT.fromStream junk {} (.of (exShortDoc.bytes ++ rest))).1 = p at h ⊢
  have hi := h.ins
  rw [show exShortDoc.tx.ins.zip exShortDoc.ins = [(⟨hash256 (legacyBytes exTxSpec), 0, [], 0xfffffffe, []⟩, [.prevTx exTxSpec, .origin exHard, .origin exOwn])] from rfl] at hi
  generalize hpi : p.ins = pis at hi
  cases hi with
  | @cons _ m _ ms hm t =>
    have hk := hm.keys
    rw [show List.filterMap InField.key [.prevTx exTxSpec, .origin exHard, .origin exOwn] = [exHard, exOwn] from rfl] at hk
    generalize hmd : m.derivations = Ds at hk
    cases hk with
    | @cons D1 _ Ds1 _ k1 hk =>
      cases hk with
      | @cons D2 _ Ds2 _ k2 hk =>
        refine C58_short_path_undefined h.tx exPsbtTx_wire exDoc_ok.nIns exDoc_ok.nOuts exDoc_ok.nonempty holds_hdOne.sound rfl exEnv_good hpi
          (hm.knows (id := hash256 (legacyBytes exTxSpec)) ?_) hmd k1 k2 G_ne_zero ?_ rfl rfl (by decide)
        · cases exShortDoc_ok.ins with
          | cons a _ => exact a.1
        · rw [hm.sigs.length_eq]
          decide

/-- C58_digest: scripts that fit. -/
example (x : Transaction) (i : Nat) (inp : In) (w : Bytes) (hw : w ≠ []) (P : Pt) :
    inputDigest x i inp ⟨⟨7, p2shScript (Spec.hash160 (p2wshScript (Spec.sha256 w)))⟩, p2wshScript (Spec.sha256 w), w⟩ P = segwitSigHash x i inp w 7 1 :=
  C58_digest (.p2sh_p2wsh w) (fun _ => hw) (fun _ => by simp [p2wshScript]) (by
    rintro h (e | e)
    · simp [p2shScript, p2wpkhScript] at e
    · simp [p2wshScript, p2wpkhScript] at e)

end UB
