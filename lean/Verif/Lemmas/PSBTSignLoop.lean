import Verif.Lemmas.PSBTSign

/-
Signing PSBTs: the loops over derivations and inputs.
-/

namespace UB
open Spec BN

attribute [local irreducible] secpP secpN BN.multiply BN.fastMod BN.mod BN.subtractmod BN.multK BN.addmod BN.inverse BN.lshift BN.subi BN.add
  BN.multHalf BN.cmov BN.isEqual BN.isZero BN.sqrt BN.subtract scalarMultiply pointMultiply CurvePoint.add readBE writeBE BN.addi doubleSha Spec.hash256
  hmac512 hmacSha512 hash160 Spec.hash160 signDigest ecdsaDeterministic signatureOf fingerprintOf keyAt

/-- The random numbers drawn while signing are good ones. -/
structure PSBT.SignEnv.Good (env : SignEnv) : Prop where
  account : ∀ n, Blind (env.account n)
  key : ∀ i j n, Blind (env.key i j n)
  sig : ∀ i j, Draws (env.sig i j)

open Classical in
/-- The entries that belong to the master key. -/
noncomputable def Spec.owned (d : Nat) (c : Bytes) (os : List KeyOrigin) : List KeyOrigin := os.filter fun o => decide (Owns d c o)

theorem Spec.owned_cons_pos {d : Nat} {c : Bytes} {o : KeyOrigin} {os : List KeyOrigin} (h : Owns d c o) : owned d c (o :: os) = o :: owned d c os := by
  unfold owned
  rw [List.filter_cons_of_pos (by simpa using h)]

theorem Spec.owned_cons_neg {d : Nat} {c : Bytes} {o : KeyOrigin} {os : List KeyOrigin} (h : ¬ Owns d c o) : owned d c (o :: os) = owned d c os := by
  unfold owned
  rw [List.filter_cons_of_neg (by simpa using h)]

namespace PSBT

/-- The cached account key: not there yet, and then `pre` will be the prefix, or the key for the prefix `pre`. -/
def CacheInv (d : Nat) (c : Bytes) (pre : List Nat) (todo : List KeyOrigin) : Option (List UInt32 × HDPriv) → Prop
  | none => ∀ o, todo.find? (fun o => decide (o.fingerprint = fingerprintOf (d • G))) = some o → hardenedPrefix o.path = pre
  | some (pre', acc) => pre'.map (·.toNat) = pre ∧ acc.IsKey (keyAt d c pre).1 (keyAt d c pre).2

theorem hardenedPrefix_map (path : List UInt32) :
    (path.takeWhile (fun k => decide (k ≥ hardenedIndex))).map (·.toNat) = hardenedPrefix (path.map (·.toNat)) := by
  unfold hardenedPrefix
  rw [List.takeWhile_map]
  rfl

theorem signKey_eq {root : HDPriv} {d : Nat} {c : Bytes} (hk : root.IsKey d c) {env : SignEnv} (he : env.Good) (i j : Nat) {path : List UInt32}
    {cache : Option (List UInt32 × HDPriv)} {pre : List Nat} {o : KeyOrigin} {todo : List KeyOrigin} (hp : path.map (·.toNat) = o.path)
    (hf : o.fingerprint = fingerprintOf (d • G)) (hc : CacheInv d c pre (o :: todo) cache) (hs : pre.length ≤ o.path.length) :
    ∃ pk pre' acc, signKey root env i j path cache = .ok (pk, (pre', acc)) ∧ pk.IsKey (keyAt d c o.path).1 (keyAt d c o.path).2 ∧
      pre'.map (·.toNat) = pre ∧ acc.IsKey (keyAt d c pre).1 (keyAt d c pre).2 := by
  have hpl : path.length = o.path.length := by rw [← hp, List.length_map]
  have main : ∀ (pre' : List UInt32) (acc : HDPriv), pre'.map (·.toNat) = pre → acc.IsKey (keyAt d c pre).1 (keyAt d c pre).2 →
      ∃ pk, pathKey root (env.key i j) path pre' acc = .ok pk ∧ pk.IsKey (keyAt d c o.path).1 (keyAt d c o.path).2 := by
    intro pre' acc h1 h2
    have hl : pre'.length = pre.length := by rw [← h1, List.length_map]
    unfold pathKey
    rw [if_neg (by omega)]
    by_cases ht : path.take pre'.length = pre'
    · rw [if_pos ht]
      obtain ⟨r, r1, r2⟩ := HDPriv.derive_isKey h2 (rnd := env.key i j) (he.key i j) (path.drop pre'.length)
      refine ⟨r, r1, ?_⟩
      have e : o.path = pre ++ (path.drop pre'.length).map (·.toNat) := by
        rw [← hp, ← h1, ← List.map_append]
        congr 1
        conv_lhs => rw [← List.take_append_drop pre'.length path, ht]
      rw [e, keyAt_append]
      exact r2
    · rw [if_neg ht]
      obtain ⟨r, r1, r2⟩ := HDPriv.derive_isKey hk (rnd := env.key i j) (he.key i j) path
      exact ⟨r, r1, by rw [← hp]; exact r2⟩
  have hacc : ∃ pre' acc, accountKey root env path cache = .ok (pre', acc) ∧ pre'.map (·.toNat) = pre ∧ acc.IsKey (keyAt d c pre).1 (keyAt d c pre).2 := by
    cases cache with
    | some v =>
      obtain ⟨pre', acc⟩ := v
      exact ⟨pre', acc, rfl, hc⟩
    | none =>
      have hpre := hc o (by rw [List.find?_cons_of_pos]; simpa using hf)
      obtain ⟨acc, a1, a2⟩ := HDPriv.derive_isKey hk (rnd := env.account) he.account (path.takeWhile (fun k => decide (k ≥ hardenedIndex)))
      rw [hardenedPrefix_map, hp, hpre] at a2
      refine ⟨_, acc, ?_, by rw [hardenedPrefix_map, hp, hpre], a2⟩
      unfold accountKey
      dsimp only
      rw [a1, C.bind_ok, C.pure_eq]
  obtain ⟨pre', acc, a1, a2, a3⟩ := hacc
  obtain ⟨pk, e1, e2⟩ := main pre' acc a2 a3
  refine ⟨pk, pre', acc, ?_, e2, a2, a3⟩
  unfold signKey
  rw [a1, C.bind_ok]
  dsimp only
  rw [e1, C.bind_ok, C.pure_eq]

/-- What one signing round works with. -/
structure Setting (tx : Tx) (x : Transaction) (root : HDPriv) (d : Nat) (c : Bytes) (env : SignEnv) : Prop where
  tx : tx.Holds x
  wire : WireTx x
  nIns : x.ins.length < 253
  nOuts : x.outs.length < 253
  root : root.IsKey d c
  env : env.Good

theorem signStep_eq {tx : Tx} {x : Transaction} {root : HDPriv} {d : Nat} {c : Bytes} {env : SignEnv} (hS : Setting tx x root d c env) {i : Nat} {inp : In}
    (hin : x.ins[i]? = some inp) {f : InputInfo} {pre : List Nat} (j : Nat) {st : SignState} {m : InMeta} {D : Derivation} {o : KeyOrigin} {todo : List KeyOrigin}
    (htx : st.p.tx = tx) (hm : st.p.ins[i]? = some m) (hk : m.Knows f) (hD : D.Holds o) (h0 : o.point ≠ 0)
    (hs : o.fingerprint = fingerprintOf (d • G) → pre.length ≤ o.path.length) (hl : m.signatures.length + (owned d c [o]).length ≤ 255)
    (hc : CacheInv d c pre (o :: todo) st.cache) :
    ∃ st' new gs, signStep root (fingerprintOf (d • G)) env i j st D = .ok st' ∧
      st'.p = { st.p with ins := st.p.ins.set i { m with signatures := m.signatures ++ new } } ∧ List.Forall₂ PartialSig.Holds new gs ∧ (∀ g ∈ gs, g.Ok) ∧
      List.Forall₂ (SignedBy x i inp f d c) (owned d c [o]) gs ∧ CacheInv d c pre todo st'.cache ∧ st'.counter = st.counter + UInt8.ofNat gs.length := by
  have hsame : st.p = { st.p with ins := st.p.ins.set i { m with signatures := m.signatures ++ [] } } := by
    rw [List.append_nil]
    have : st.p.ins.set i m = st.p.ins := by
      obtain ⟨hlt, rfl⟩ := List.getElem?_eq_some_iff.mp hm
      exact List.set_getElem_self hlt
    show st.p = { st.p with ins := st.p.ins.set i m }
    rw [this]
  unfold signStep
  rw [hD.ready, if_neg (by simp), hD.fingerprint]
  by_cases hf : fingerprintOf (d • G) ≠ o.fingerprint
  · rw [if_pos hf]
    refine ⟨st, [], [], rfl, hsame, .nil, by simp, ?_, ?_, by simp⟩
    · rw [owned_cons_neg (fun h => hf h.1.symm)]; exact .nil
    · cases hcc : st.cache with
      | none =>
        rw [hcc] at hc
        intro o' ho'
        exact hc o' (by rw [List.find?_cons_of_neg]; exact ho'; simpa using fun h => hf h.symm)
      | some v => rw [hcc] at hc; exact hc
  rw [if_neg hf]
  have hf' : o.fingerprint = fingerprintOf (d • G) := (not_not.mp hf).symm
  obtain ⟨pk, pre', acc, k1, k2, k3, k4⟩ := signKey_eq hS.root hS.env i j hD.path hf' hc (hs hf')
  rw [k1, C.bind_ok]
  dsimp only
  by_cases hP : o.point = (keyAt d c o.path).1 • G
  · have hown : Owns d c o := ⟨hf', hP⟩
    rw [owned_cons_pos hown] at hl ⊢
    rw [if_pos ((ECPoint.eq_iff hD.pubkey.point k2.sound.pub).mpr hP), hm]
    dsimp only
    have hl' : m.signatures.length ≠ 255 := by
      rw [List.length_cons] at hl; omega
    obtain ⟨g, e, s1, s2, s3, s4⟩ := signOne_eq (p := st.p) (by rw [htx]; exact hS.tx) hS.wire hS.nIns hS.nOuts hin hk hm hl' k2 h0 hP (env.junk i j) (hS.env.sig i j)
    rw [s1, C.bind_ok]
    exact ⟨_, [g], [e], rfl, rfl, .cons s2 .nil, by simpa using s3, .cons s4 .nil, ⟨k3, k4⟩, rfl⟩
  · rw [if_neg (fun h => hP ((ECPoint.eq_iff hD.pubkey.point k2.sound.pub).mp h))]
    refine ⟨_, [], [], rfl, hsame, .nil, by simp, ?_, ⟨k3, k4⟩, by simp⟩
    rw [owned_cons_neg (fun h => hP h.2)]
    exact .nil

theorem signInputLoop_eq {tx : Tx} {x : Transaction} {root : HDPriv} {d : Nat} {c : Bytes} {env : SignEnv} (hS : Setting tx x root d c env) {i : Nat} {inp : In}
    (hin : x.ins[i]? = some inp) {f : InputInfo} {pre : List Nat} (rest : List KeyOrigin) {ds : List Derivation} {os : List KeyOrigin}
    (hds : List.Forall₂ Derivation.Holds ds os) (j : Nat) (st : SignState) (m : InMeta) (htx : st.p.tx = tx) (hm : st.p.ins[i]? = some m) (hk : m.Knows f)
    (h0 : ∀ o ∈ os, o.point ≠ 0) (hs : ∀ o ∈ os, o.fingerprint = fingerprintOf (d • G) → pre.length ≤ o.path.length)
    (hl : m.signatures.length + (owned d c os).length ≤ 255) (hc : CacheInv d c pre (os ++ rest) st.cache) :
    ∃ st' new gs, signInputLoop root (fingerprintOf (d • G)) env i ds j st = .ok st' ∧
      st'.p = { st.p with ins := st.p.ins.set i { m with signatures := m.signatures ++ new } } ∧ List.Forall₂ PartialSig.Holds new gs ∧ (∀ g ∈ gs, g.Ok) ∧
      List.Forall₂ (SignedBy x i inp f d c) (owned d c os) gs ∧ CacheInv d c pre rest st'.cache ∧ st'.counter = st.counter + UInt8.ofNat gs.length := by
  induction hds generalizing j st m with
  | nil =>
    refine ⟨st, [], [], rfl, ?_, .nil, by simp, .nil, hc, by simp⟩
    have : st.p.ins.set i m = st.p.ins := by
      obtain ⟨hlt, rfl⟩ := List.getElem?_eq_some_iff.mp hm
      exact List.set_getElem_self hlt
    rw [List.append_nil]
    show st.p = { st.p with ins := st.p.ins.set i m }
    rw [this]
  | @cons D o ds os hD hds ih =>
    have hsplit : owned d c (o :: os) = owned d c [o] ++ owned d c os := by
      unfold owned
      rw [← List.filter_append]; rfl
    rw [hsplit, List.length_append] at hl
    obtain ⟨st1, new1, gs1, a1, a2, a3, a4, a5, a6, a7⟩ := signStep_eq hS hin j (todo := os ++ rest) htx hm hk hD (h0 o (List.mem_cons_self ..))
      (hs o (List.mem_cons_self ..)) (by omega) hc
    have hlen1 : new1.length = (owned d c [o]).length := by rw [a3.length_eq, a5.length_eq]
    have hlt : i < st.p.ins.length := (List.getElem?_eq_some_iff.mp hm).1
    obtain ⟨st2, new2, gs2, b1, b2, b3, b4, b5, b6, b7⟩ := ih (j + 1) st1 { m with signatures := m.signatures ++ new1 }
      (by rw [a2]; exact htx) (by rw [a2]; exact List.getElem?_set_self hlt) ⟨hk.spent, hk.redeem, hk.witness, hk.spentLen, hk.redeemLen, hk.witnessLen⟩
      (fun o ho => h0 o (List.mem_cons_of_mem _ ho)) (fun o ho => hs o (List.mem_cons_of_mem _ ho))
      (by show (m.signatures ++ new1).length + _ ≤ 255; rw [List.length_append]; omega) a6
    refine ⟨st2, new1 ++ new2, gs1 ++ gs2, ?_, ?_, List.rel_append a3 b3, ?_, ?_, b6, ?_⟩
    · unfold signInputLoop
      rw [a1, C.bind_ok, b1]
    · rw [b2, a2]
      dsimp only
      rw [List.set_set, List.append_assoc]
    · intro g hg
      rcases List.mem_append.mp hg with h | h
      · exact a4 g h
      · exact b4 g h
    · rw [hsplit]
      exact List.rel_append a5 b5
    · rw [b7, a7, List.length_append, UInt8.ofNat_add, UInt8.add_assoc]

/-- What is known about an input and its metadata: the input, its information, its key entries. -/
structure InputOk (d : Nat) (c : Bytes) (pre : List Nat) (f : InputInfo) (os : List KeyOrigin) (m : InMeta) : Prop where
  knows : m.Knows f
  keys : List.Forall₂ Derivation.Holds m.derivations os
  points : ∀ o ∈ os, o.point ≠ 0
  paths : ∀ o ∈ os, o.fingerprint = fingerprintOf (d • G) → pre.length ≤ o.path.length
  room : m.signatures.length + (owned d c os).length ≤ 255

/-- The inputs from number `i` on, before and after signing, and the new signatures of each. -/
inductive AllSigned (x : Transaction) (d : Nat) (c : Bytes) : Nat → List (InputInfo × List KeyOrigin) → List InMeta → List InMeta → List (List SigEntry) → Prop
  | nil (i : Nat) : AllSigned x d c i [] [] [] []
  | cons {i : Nat} {inp : In} {f : InputInfo} {os : List KeyOrigin} {m : InMeta} {new : List PartialSig} {gs : List SigEntry} {fs ms ms' gss} (hin : x.ins[i]? = some inp)
      (h1 : List.Forall₂ PartialSig.Holds new gs) (h2 : ∀ g ∈ gs, g.Ok) (h3 : List.Forall₂ (SignedBy x i inp f d c) (owned d c os) gs)
      (t : AllSigned x d c (i + 1) fs ms ms' gss) :
      AllSigned x d c i ((f, os) :: fs) (m :: ms) ({ m with signatures := m.signatures ++ new } :: ms') (gs :: gss)

theorem signLoop_eq {tx : Tx} {x : Transaction} {root : HDPriv} {d : Nat} {c : Bytes} {env : SignEnv} (hS : Setting tx x root d c env) {pre : List Nat}
    {fs : List (InputInfo × List KeyOrigin)} {ms : List InMeta} (hfs : List.Forall₂ (fun (f : InputInfo × List KeyOrigin) m => InputOk d c pre f.1 f.2 m) fs ms)
    (i : Nat) (st : SignState) (done : List InMeta) (htx : st.p.tx = tx) (hi : i + fs.length ≤ x.ins.length) (hms : st.p.ins = done ++ ms) (hd : done.length = i)
    (hc : CacheInv d c pre (fs.flatMap (·.2)) st.cache) :
    ∃ st' ms' gss, signLoop root (fingerprintOf (d • G)) env fs.length i st = .ok st' ∧ st'.p = { st.p with ins := done ++ ms' } ∧ AllSigned x d c i fs ms ms' gss ∧
      st'.counter = st.counter + UInt8.ofNat (gss.map List.length).sum := by
  induction hfs generalizing i st done with
  | nil =>
    refine ⟨st, [], [], rfl, ?_, .nil i, by simp⟩
    rw [← hms]
  | @cons fo m fs ms h1 h2 ih =>
    obtain ⟨f, os⟩ := fo
    rw [List.length_cons] at hi
    obtain ⟨inp, hin⟩ : ∃ inp, x.ins[i]? = some inp := ⟨x.ins[i]'(by omega), List.getElem?_eq_getElem (by omega)⟩
    have hm : st.p.ins[i]? = some m := by rw [hms, List.getElem?_append_right (by omega), hd, Nat.sub_self]; rfl
    rw [List.flatMap_cons] at hc
    obtain ⟨st1, new, gs, a1, a2, a3, a4, a5, a6, a7⟩ := signInputLoop_eq hS hin (fs.flatMap (·.2)) h1.keys 0 st m htx hm h1.knows h1.points h1.paths h1.room hc
    have hset : st.p.ins.set i { m with signatures := m.signatures ++ new } = (done ++ [{ m with signatures := m.signatures ++ new }]) ++ ms := by
      rw [hms, List.set_append_right _ _ (by omega), hd, Nat.sub_self, List.set_cons_zero, List.append_assoc]; rfl
    obtain ⟨st2, ms', gss, b1, b2, b3, b4⟩ := ih (i + 1) st1 (done ++ [{ m with signatures := m.signatures ++ new }]) (by rw [a2]; exact htx)
      (by omega) (by rw [a2]; exact hset) (by simp [hd]) a6
    refine ⟨st2, { m with signatures := m.signatures ++ new } :: ms', gs :: gss, ?_, ?_, .cons hin a3 a4 a5 b3, ?_⟩
    · rw [List.length_cons]
      unfold signLoop
      rw [hm]
      dsimp only
      rw [a1, C.bind_ok, b1]
    · rw [b2, a2]
      dsimp only
      rw [List.append_assoc]; rfl
    · rw [b4, a7, List.map_cons, List.sum_cons, UInt8.ofNat_add, UInt8.add_assoc]

theorem sign_spec {p : PSBT} {x : Transaction} {root : HDPriv} {d : Nat} {c : Bytes} {env : SignEnv} (hS : Setting p.tx x root d c env) {pre : List Nat}
    (fs : List (InputInfo × List KeyOrigin)) (hl : fs.length = x.ins.length) (hi : List.Forall₂ (fun (f : InputInfo × List KeyOrigin) m => InputOk d c pre f.1 f.2 m) fs p.ins)
    (hpre : ∀ o, (fs.flatMap (·.2)).find? (fun o => decide (o.fingerprint = fingerprintOf (d • G))) = some o → hardenedPrefix o.path = pre) :
    ∃ ms' gss n, p.sign root env = .ok ({ p with ins := ms' }, n) ∧ AllSigned x d c 0 fs p.ins ms' gss ∧ n = UInt8.ofNat (gss.map List.length).sum := by
  obtain ⟨st', ms', gss, e1, e2, e3, e4⟩ := signLoop_eq hS hi 0 { p := p } [] rfl (by omega) rfl rfl hpre
  refine ⟨ms', gss, _, ?_, e3, rfl⟩
  have htl : p.tx.txIns.length = fs.length := by rw [hS.tx.ins.length_eq, hl]
  unfold sign
  rw [(HDPriv.C39_fingerprint root d hS.root.sound).1, C.bind_ok, htl, e1, C.bind_ok, e2, e4, C.pure_eq]
  simp

end PSBT

end UB
