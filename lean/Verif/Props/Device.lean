import Verif.Props.Cosign
import Verif.Props.Text
import Verif.Props.Wallet

/-
C107: a signing device.  A wallet made from a phrase or a seed gets the Base64 text of a PSBT, signs it and answers with Base64 text.
-/

namespace UB
open Spec BN

attribute [local irreducible] secpP secpN BN.multiply BN.fastMod BN.mod BN.subtractmod BN.multK BN.addmod BN.inverse BN.lshift BN.subi BN.add
  BN.multHalf BN.cmov BN.isEqual BN.isZero BN.sqrt BN.subtract scalarMultiply pointMultiply CurvePoint.add readBE writeBE BN.addi doubleSha Spec.hash256
  hmac512 hmacSha512 hash160 Spec.hash160 signDigest ecdsaDeterministic signatureOf fingerprintOf keyAt Spec.sha256 Spec.mnemonicSeed

/-! ### Specification -/

namespace Spec

/-- `out` is the answer of the owner of the master key `(d, c)` to `doc`: the transaction, the signatures that were there (with type 1) and, behind them, one
signature for each entry that belongs to the master key; no global fields, and nothing about the outputs. -/
structure PsbtDoc.Answer (doc : PsbtDoc) (d : Nat) (c : Bytes) (out : PsbtDoc) : Prop where
  tx : out.tx = doc.tx
  globals : out.globals = []
  outs : out.outs = doc.outs.map fun _ => []
  count : out.ins.length = doc.ins.length
  ins : ∀ i inp fs, doc.tx.ins[i]? = some inp → doc.ins[i]? = some fs →
    ∃ gs, out.ins[i]? = some (((fs.filterMap InField.sig).map (fun g : SigEntry => { g with type := 1 }) ++ gs).map InField.partialSig) ∧
      List.Forall₂ (SignedBy doc.tx i inp (infoOf inp.prevIndex fs) d c) (owned d c (keysOf fs)) gs

end Spec

/-! ### Answers -/

theorem signedBy_type {x : Transaction} {i : Nat} {inp : In} {f : InputInfo} {d : Nat} {c : Bytes} {os : List KeyOrigin} {gs : List SigEntry}
    (h : List.Forall₂ (SignedBy x i inp f d c) os gs) : gs.map (fun g => { g with type := 1 }) = gs := by
  induction h with
  | nil => rfl
  | @cons _ g _ _ h1 _ ih =>
    rw [List.map_cons, ih]
    congr 1
    have := h1.type
    cases g
    dsimp only at this ⊢
    rw [this]

/-- What is kept of a signed document is the answer. -/
theorem Spec.PsbtDoc.SignedTo.answer {doc doc' : PsbtDoc} {d : Nat} {c : Bytes} (h : doc.SignedTo d c doc') : doc.Answer d c doc'.kept where
  tx := h.tx
  globals := rfl
  outs := by
    show doc'.outs.map _ = _
    rw [h.outs]
  count := by
    show (doc'.ins.map _).length = _
    rw [List.length_map, h.count]
  ins := by
    intro i inp fs e1 e2
    obtain ⟨gs, g1, g2⟩ := h.ins i inp fs e1 e2
    refine ⟨gs, ?_, g2⟩
    show (doc'.ins.map _)[i]? = _
    rw [List.getElem?_map, g1, Option.map_some, List.filterMap_append, (sigs_only gs).1, List.map_append, List.map_append]
    congr 2
    · rw [List.map_map]
      rfl
    · nth_rw 2 [← signedBy_type g2]
      rw [List.map_map]
      rfl

/-- An object that has parsed `doc`, signed and written as Base64. -/
theorem PSBT.answers (junk : Nat → Bytes) {p : PSBT} (hp : p.Clean) {doc : PsbtDoc} (hd : doc.Ok) (rest : Bytes) (root : HDPriv) (d : Nat) (hr : root.Sound d)
    (hc : root.pubKey.compressed = true) (env : PSBT.SignEnv) (he : env.Good) (hpaths : doc.PathsOk (fingerprintOf (d • G))) (hroom : doc.Room d root.head.chainCode) :
    ∃ (p' q : PSBT) (n : UInt8) (out : PsbtDoc), p.parseBase64 junk (base64Text true false (doc.bytes ++ rest)) = .ok (p', doc.bytes.length + rest.length) ∧ p'.sign root env = .ok (q, n) ∧
      q.toBase64 = .ok (base64Text true false out.bytes) ∧ doc.Answer d root.head.chainCode out ∧ out.Ok ∧
      n.toNat = ((doc.ins.map fun fs => (owned d root.head.chainCode (keysOf fs)).length).sum) % 256 := by
  obtain ⟨p', h1, -, h3⟩ := C79_psbt_parse_partial junk hp doc hd rest
  obtain ⟨q, n, doc', s1, s2, s3, s4, -, -, s7⟩ := C58_sign_partial h3 hd root d hr hc env he hpaths hroom
  exact ⟨p', q, n, doc'.kept, h1, s1, (C79_psbt_written_partial s3 s4).2, s2.answer, doc'.kept_ok s3, s7⟩

theorem HDPriv.fromSeed_compressed {k r : HDPriv} {seed : Bytes} {net : Network} {z : BN} (h : k.fromSeed seed net z = .ok r) : r.pubKey.compressed = true := by
  unfold fromSeed at h
  dsimp only at h
  cases h1 : load (hmac512 [66, 105, 116, 99, 111, 105, 110, 32, 115, 101, 101, 100] [seed]) 0 32 with
  | ub => rw [h1, C.bind_ub] at h; cases h
  | ok num =>
    rw [h1, C.bind_ok] at h
    cases h2 : load (hmac512 [66, 105, 116, 99, 111, 105, 110, 32, 115, 101, 101, 100] [seed]) 32 32 with
    | ub => rw [h2, C.bind_ub] at h; cases h
    | ok cc =>
      rw [h2, C.bind_ok] at h
      cases h3 : pubOf num z with
      | ub => rw [h3, C.bind_ub] at h; cases h
      | ok pub =>
        rw [h3, C.bind_ok] at h
        rw [← C.ok.inj h]

/-- C107 for seeds: the answer of the device is the Base64 text of the transaction, the signatures that were there and those of its keys. -/
theorem C107_seed_partial (k0 : HDPriv) (seed : Bytes) (net : Network) (z : BN) (hz : Blind z) (hl : seed.length < 2 ^ 60) (d : Nat) (c : Bytes)
    (hm : masterKey seed = some (d, c)) (junk : Nat → Bytes) {p : PSBT} (hp : p.Clean) {doc : PsbtDoc} (hd : doc.Ok) (rest : Bytes) (env : PSBT.SignEnv) (he : env.Good)
    (hpaths : doc.PathsOk (fingerprintOf (d • G))) (hroom : doc.Room d c) :
    ∃ (root : HDPriv) (p' q : PSBT) (n : UInt8) (out : PsbtDoc), k0.fromSeed seed net z = .ok root ∧
      p.parseBase64 junk (base64Text true false (doc.bytes ++ rest)) = .ok (p', doc.bytes.length + rest.length) ∧ p'.sign root env = .ok (q, n) ∧
      q.toBase64 = .ok (base64Text true false out.bytes) ∧ doc.Answer d c out ∧ out.Ok ∧
      n.toNat = ((doc.ins.map fun fs => (owned d c (keysOf fs)).length).sum) % 256 := by
  obtain ⟨r, e1, e2, -, -, e5, -⟩ := HDPriv.C67_master_partial k0 seed net z hz hl d c hm
  subst e5
  obtain ⟨p', q, n, out, h⟩ := PSBT.answers junk hp hd rest r d e2 (HDPriv.fromSeed_compressed e1) env he hpaths hroom
  exact ⟨r, p', q, n, out, e1, h⟩

/-- C107 for phrases. -/
theorem C107_phrase_partial (k0 : HDPriv) (mnemonic password : Bytes) (net : Network) (z : BN) (hz : Blind z) (hml : mnemonic.length < 2 ^ 32) (hpw : password.length < 2 ^ 32)
    (d : Nat) (c : Bytes) (hm : masterKey (Spec.mnemonicSeed mnemonic password) = some (d, c)) (junk : Nat → Bytes) {p : PSBT} (hp : p.Clean) {doc : PsbtDoc} (hd : doc.Ok)
    (rest : Bytes) (env : PSBT.SignEnv) (he : env.Good) (hpaths : doc.PathsOk (fingerprintOf (d • G))) (hroom : doc.Room d c) :
    ∃ (root : HDPriv) (p' q : PSBT) (n : UInt8) (out : PsbtDoc), k0.fromMnemonic mnemonic password net z = .ok root ∧
      p.parseBase64 junk (base64Text true false (doc.bytes ++ rest)) = .ok (p', doc.bytes.length + rest.length) ∧ p'.sign root env = .ok (q, n) ∧
      q.toBase64 = .ok (base64Text true false out.bytes) ∧ doc.Answer d c out ∧ out.Ok ∧
      n.toNat = ((doc.ins.map fun fs => (owned d c (keysOf fs)).length).sum) % 256 := by
  unfold HDPriv.fromMnemonic
  rw [HDPriv.C68_seed mnemonic password hml hpw]
  exact C107_seed_partial k0.init _ net z hz (mnemonicSeed_short _ _) d c hm junk hp hd rest env he hpaths hroom

/-- C107: an answer has a signature with which the owner of the seed can spend the output of an input that is locked to the hash of a key of the tree of the seed, if the
input has an entry with the path of that key. -/
theorem C107_spends {doc out : PsbtDoc} (hd : doc.Ok) {seed : Bytes} {d : Nat} {c : Bytes} (hm : masterKey seed = some (d, c)) (ha : doc.Answer d c out) {i : Nat} {inp : In}
    {fs : List InField} (hi : doc.tx.ins[i]? = some inp) (hf : doc.ins[i]? = some fs) {k : Nat} {c' : Bytes} {path : List Nat} (ht : TreeKey seed path k c') (compressed : Bool)
    (ho : .origin ⟨compressed, k • G, fingerprintOf (d • G), path⟩ ∈ fs) (hw : (infoOf inp.prevIndex fs).witness = [])
    (hn : ecdsaDeterministic (beBytes 32 k) (inputDigest doc.tx i inp (infoOf inp.prevIndex fs) (k • G)) 10000 ≠ none) :
    ∃ fs' g, out.ins[i]? = some fs' ∧ .partialSig g ∈ fs' ∧ g.point = k • G ∧ g.compressed = true ∧
      ((infoOf inp.prevIndex fs).spent.script = p2wpkhScript (Spec.hash160 (secOf true (k • G))) → (infoOf inp.prevIndex fs).redeem = [] →
        InputOk (doc.tx.setIn i { inp with script := [], witness := [g.item, secOf true (k • G)] }) i (infoOf inp.prevIndex fs).spent.amount
          (infoOf inp.prevIndex fs).spent.script) ∧
      ((infoOf inp.prevIndex fs).redeem = p2wpkhScript (Spec.hash160 (secOf true (k • G))) →
        (infoOf inp.prevIndex fs).spent.script = p2shScript (Spec.hash160 (infoOf inp.prevIndex fs).redeem) →
        InputOk (doc.tx.setIn i { inp with script := push1 (infoOf inp.prevIndex fs).redeem, witness := [g.item, secOf true (k • G)] }) i
          (infoOf inp.prevIndex fs).spent.amount (infoOf inp.prevIndex fs).spent.script) ∧
      ((infoOf inp.prevIndex fs).spent.script = p2pkhScript (Spec.hash160 (secOf true (k • G))) → (infoOf inp.prevIndex fs).redeem = [] →
        ∀ sc, Pushes sc [g.item, secOf true (k • G)] →
        InputOk (doc.tx.setIn i { inp with script := sc, witness := [] }) i (infoOf inp.prevIndex fs).spent.amount (infoOf inp.prevIndex fs).spent.script) := by
  classical
  obtain ⟨d0, c0, e0, hpath⟩ := ht.path
  rw [hm] at e0
  cases e0
  have hkey := keyAt_ckd hpath
  have hown : Owns d c ⟨compressed, k • G, fingerprintOf (d • G), path⟩ := ⟨rfl, by show _ = (keyAt d c path).1 • G; rw [hkey]⟩
  have hmem : (⟨compressed, k • G, fingerprintOf (d • G), path⟩ : KeyOrigin) ∈ keysOf fs := List.mem_filterMap.mpr ⟨_, ho, rfl⟩
  obtain ⟨gs, g1, g2⟩ := ha.ins i inp fs hi hf
  obtain ⟨g, hg, hs⟩ := forall₂_mem g2 (a := ⟨compressed, k • G, fingerprintOf (d • G), path⟩) (by unfold owned; rw [List.mem_filter]; exact ⟨hmem, decide_eq_true hown⟩)
  have hlt : d < secpN := by
    unfold masterKey at hm
    dsimp only at hm
    split at hm
    · exact absurd hm (by simp)
    · rename_i hb
      cases hm
      exact Nat.lt_of_not_le fun h => hb (.inr h)
  have hmade : MadeSig doc.tx i inp (infoOf inp.prevIndex fs) g := by
    refine ⟨d, c, _, hlt, hown, ?_, hs, ?_⟩
    · obtain ⟨l1, rfl⟩ := List.getElem?_eq_some_iff.mp hi
      obtain ⟨l2, rfl⟩ := List.getElem?_eq_some_iff.mp hf
      exact InField.key_point ((List.forall₂_iff_get.mp hd.ins).2 i l1 l2).1 hmem
    · show ecdsaDeterministic (beBytes 32 (keyAt d c path).1) _ 10000 ≠ none
      rw [hkey]
      exact hn
  have e : g.point = k • G := hs.point
  have h3 := C103_p2wpkh hi hmade hw
  have h4 := @C103_p2pkh _ _ _ _ hi _ hmade hw
  rw [e] at h3 h4
  exact ⟨_, g, g1, List.mem_map.mpr ⟨g, List.mem_append_right _ hg, rfl⟩, e, hs.compressed, h3.1, h3.2, fun hp hr sc hsc => h4 hr hp hsc⟩

/-- An answer has no entries any more. -/
theorem Spec.PsbtDoc.Answer.bare {doc out : PsbtDoc} {d : Nat} {c : Bytes} (ha : doc.Answer d c out) (hl : doc.tx.ins.length = doc.ins.length) :
    ∀ fs ∈ out.ins, keysOf fs = [] ∧ (fs.filterMap InField.sig).map (fun g => .partialSig { g with type := 1 }) = fs := by
  intro fs hfs
  obtain ⟨i, hi, rfl⟩ := List.getElem_of_mem hfs
  have hi' : i < doc.ins.length := by rw [← ha.count]; exact hi
  obtain ⟨gs, g1, g2⟩ := ha.ins i doc.tx.ins[i] doc.ins[i] (List.getElem?_eq_getElem (by omega)) (List.getElem?_eq_getElem hi')
  rw [List.getElem?_eq_getElem hi, Option.some.injEq] at g1
  rw [g1, (sigs_only _).1]
  constructor
  · unfold keysOf
    rw [List.filterMap_eq_nil_iff]
    intro f hf
    obtain ⟨g, -, rfl⟩ := List.mem_map.mp hf
    rfl
  · rw [List.map_append, List.map_append, List.map_map]
    congr 1
    · rw [List.map_map]
      rfl
    · nth_rw 2 [← signedBy_type g2]
      rw [List.map_map]
      rfl

/-- The answer to an answer is the same document. -/
theorem Spec.PsbtDoc.Answer.again {doc out out' : PsbtDoc} {d d' : Nat} {c c' : Bytes} (ha : doc.Answer d c out) (hl : doc.tx.ins.length = doc.ins.length)
    (hb : out.Answer d' c' out') : out' = out := by
  classical
  have hbare := ha.bare hl
  have h1 := hb.tx
  have h2 := hb.globals.trans ha.globals.symm
  have h3 : out'.outs = out.outs := by rw [hb.outs, ha.outs, List.map_map]; rfl
  have h4 : out'.ins = out.ins := by
    apply List.ext_getElem hb.count
    intro i l1 l2
    have l3 : i < out.tx.ins.length := by rw [ha.tx, hl, ← ha.count]; exact l2
    obtain ⟨gs, g1, g2⟩ := hb.ins i out.tx.ins[i] out.ins[i] (List.getElem?_eq_getElem l3) (List.getElem?_eq_getElem l2)
    obtain ⟨b1, b2⟩ := hbare _ (List.getElem_mem l2)
    rw [b1] at g2
    have e : gs = [] := by
      have := g2.length_eq
      exact List.length_eq_zero_iff.mp this.symm
    rw [List.getElem?_eq_getElem l1, Option.some.injEq, e, List.append_nil, List.map_map] at g1
    rw [g1]
    exact b2
  cases out
  cases out'
  cases h1
  cases h2
  cases h3
  cases h4
  rfl

/-- C107: a device that gets an answer, its own or that of another one, adds nothing: it answers with the same text, and the count is zero, since the entries are
gone.  Signers have to sign the document itself, or someone has to put their signatures into it. -/
theorem C107_again {doc out : PsbtDoc} (hd : doc.Ok) {d : Nat} {c : Bytes} (ha : doc.Answer d c out) (ho : out.Ok) (junk : Nat → Bytes) {p : PSBT} (hp : p.Clean)
    (root : HDPriv) (d' : Nat) (hr : root.Sound d') (hc : root.pubKey.compressed = true) (env : PSBT.SignEnv) (he : env.Good) :
    ∃ (p' q : PSBT), p.parseBase64 junk (base64Text true false out.bytes) = .ok (p', out.bytes.length) ∧ p'.sign root env = .ok (q, 0) ∧
      q.toBase64 = .ok (base64Text true false out.bytes) := by
  classical
  have hl := hd.ins.length_eq
  have hbare := ha.bare hl
  have hown : ∀ fs ∈ out.ins, owned d' root.head.chainCode (keysOf fs) = [] := by
    intro fs hfs
    rw [(hbare fs hfs).1]
    rfl
  obtain ⟨p', q, n, out', h1, h2, h3, h4, -, h6⟩ := PSBT.answers junk hp ho [] root d' hr hc env he (by
      intro o1 _ fs hfs o hmem
      rw [(hbare fs hfs).1] at hmem
      cases hmem) (by
      intro fs hfs
      rw [hown fs hfs]
      obtain ⟨i, hi, rfl⟩ := List.getElem_of_mem hfs
      have hlen := ho.ins.length_eq
      exact ((List.forall₂_iff_get.mp ho.ins).2 i (by omega) hi).2.1)
  rw [ha.again hl h4] at h3
  have hz : (out.ins.map fun fs => (owned d' root.head.chainCode (keysOf fs)).length).sum = 0 := by
    apply List.sum_eq_zero
    intro k hk
    obtain ⟨fs, hfs, rfl⟩ := List.mem_map.mp hk
    rw [hown fs hfs]
    rfl
  have hn : n = 0 := by
    apply UInt8.toNat_inj.mp
    rw [h6, hz]
    rfl
  rw [List.append_nil] at h1
  exact ⟨p', q, h1, hn ▸ h2, h3⟩

/-! ### Example -/

/-- The secret at m/84'/1' for the seed of the first test vector of BIP 32. -/
def exDeviceKey : Nat := 0x220673a4162329394e296b728d907e28154532fc7e90c263da05831d0de15297

def exDeviceMaster : Nat := 0xe8f32e723decf4051aefac8e2c93c9c5b214313817cdb01a1494b917c8436b35

def exDeviceChain : Bytes := beBytes 32 0x873dff81c02f525623fd1fe5167eac3a55a049de3d314bb42ee227ffed37d508

noncomputable def exDeviceOrigin : KeyOrigin := ⟨true, exDeviceKey • G, fingerprintOf (exDeviceMaster • G), [0x80000054, 0x80000001]⟩

noncomputable def exDeviceScript : Bytes := p2wpkhScript (Spec.hash160 (secOf true (exDeviceKey • G)))

noncomputable def exDeviceDoc : PsbtDoc := ⟨exPsbtTx, [], [[.utxo ⟨5000, exDeviceScript⟩, .origin exDeviceOrigin]], [[]]⟩

theorem exDeviceKey_ne : exDeviceKey • G ≠ 0 := by
  intro h
  have h1 := addOrderOf_dvd_iff_nsmul_eq_zero.mpr h
  rw [order_G] at h1
  exact absurd (Nat.le_of_dvd (by decide) h1) (by unfold exDeviceKey secpN; decide)

theorem exDeviceDoc_ok : exDeviceDoc.Ok where
  wire := exPsbtTx_wire
  nonempty := exDoc_ok.nonempty
  nIns := exDoc_ok.nIns
  nOuts := exDoc_ok.nOuts
  count := exDoc_ok.count
  size := exDoc_ok.size
  exact := exDoc_ok.exact
  globals := by simp [exDeviceDoc]
  ins := by
    have hs : exDeviceScript.length = 22 := by unfold exDeviceScript p2wpkhScript; simp [length_hash160]
    refine .cons ⟨?_, by show 0 ≤ 255; omega, by show 1 ≤ 255; omega⟩ .nil
    intro f hf
    simp only [List.mem_cons, List.not_mem_nil, or_false] at hf
    rcases hf with rfl | rfl
    · have ho : (outBytes ⟨5000, exDeviceScript⟩).length = 31 := by
        simp [outBytes, varBytes, compactSize, length_leBytes, hs]
      exact ⟨⟨by decide, by rw [hs]; decide⟩, by rw [ho]; decide, by rw [ho]; decide⟩
    · exact ⟨exDeviceKey_ne, length_fingerprintOf _, by simp [exDeviceOrigin], by simp [exDeviceOrigin], by decide⟩
  outs := rfl
  fields := by simp [exDeviceDoc]

/-- C107: the wallet of that seed signs an input locked to its key at m/84'/1', and the signature in its answer spends the output.
(Props/SignVector shows that the nonce is found.) -/
theorem exDevice_spends (junk : Nat → Bytes) (hn : ecdsaDeterministic (beBytes 32 exDeviceKey) (segwitSigHash exPsbtTx 0 ⟨hash256 (legacyBytes exTxSpec), 0, [], 0xfffffffe, []⟩
      (p2pkhScript (Spec.hash160 (secOf true (exDeviceKey • G)))) 5000 1) 10000 ≠ none) :
    ∃ (root : HDPriv) (p' q : PSBT) (n : UInt8) (out : PsbtDoc) (fs' : List InField) (g : SigEntry), ({} : HDPriv).fromSeed vectorSeed mainnet BN.one = .ok root ∧
      ({} : PSBT).parseBase64 junk (base64Text true false (exDeviceDoc.bytes ++ [])) = .ok (p', exDeviceDoc.bytes.length + 0) ∧ p'.sign root exEnv = .ok (q, n) ∧
      q.toBase64 = .ok (base64Text true false out.bytes) ∧ out.ins[0]? = some fs' ∧ .partialSig g ∈ fs' ∧
      InputOk (exPsbtTx.setIn 0 ⟨hash256 (legacyBytes exTxSpec), 0, [], 0xfffffffe, [g.item, secOf true (exDeviceKey • G)]⟩) 0 5000 exDeviceScript := by
  classical
  have hk : keysOf [.utxo ⟨5000, exDeviceScript⟩, .origin exDeviceOrigin] = [exDeviceOrigin] := rfl
  have hinfo : infoOf 0 [.utxo ⟨5000, exDeviceScript⟩, .origin exDeviceOrigin] = ⟨⟨5000, exDeviceScript⟩, [], []⟩ := rfl
  obtain ⟨root, p', q, n, out, h1, h2, h3, h4, h5, -⟩ := C107_seed_partial {} vectorSeed mainnet BN.one blind_one (by decide) exDeviceMaster exDeviceChain vector_master junk
    PSBT.clean_fresh exDeviceDoc_ok [] exEnv exEnv_good (by
      intro o1 h1 fs hfs o ho _
      have h2 : exDeviceDoc.firstEntry (fingerprintOf (exDeviceMaster • G)) = some exDeviceOrigin := by
        unfold PsbtDoc.firstEntry
        show List.find? _ [exDeviceOrigin] = _
        rw [List.find?_cons_of_pos (by simp [exDeviceOrigin])]
      rw [h2, Option.some.injEq] at h1
      simp only [exDeviceDoc, List.mem_singleton] at hfs
      subst hfs
      rw [hk, List.mem_singleton] at ho
      subst ho
      subst h1
      exact List.Sublist.length_le (List.takeWhile_sublist _)) (by
      intro fs hfs
      simp only [exDeviceDoc, List.mem_singleton] at hfs
      subst hfs
      rw [hk]
      have : (owned exDeviceMaster exDeviceChain [exDeviceOrigin]).length ≤ 1 := List.length_filter_le _ _
      show 0 + _ ≤ 255
      omega)
  obtain ⟨fs', g, g1, g2, -, -, g5, -⟩ := C107_spends exDeviceDoc_ok vector_master h5 (i := 0) rfl rfl (k := exDeviceKey) (path := [0x80000054, 0x80000001])
    (by exact vector_tree) true (by simp [exDeviceOrigin, exDeviceMaster]) rfl (by
      rw [show (⟨hash256 (legacyBytes exTxSpec), 0, [], 0xfffffffe, []⟩ : In).prevIndex = 0 from rfl, hinfo]
      unfold inputDigest
      rw [if_neg (by simp), if_neg (by simp), if_pos ⟨_, length_hash160 _, rfl⟩]
      exact hn)
  exact ⟨root, p', q, n, out, fs', g, h1, h2, h3, h4, g1, g2, g5 rfl rfl⟩

end UB
