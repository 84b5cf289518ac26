import Verif.Props.SignVector

/-
C72: extended keys of script types.
-/

namespace UB
open Spec BN

attribute [local irreducible] Spec.hash160 Spec.sha256 secpN secpP keyAt

/-- The script with the hash of a key runs to the end only with that key. -/
theorem key_of_p2pkh (chk : Bytes → Bytes → Bool) {h key sig : Bytes} (hl : h.length = 20) {t : Bytes} (hr : run chk (p2pkhScript h) [key, sig] = some [t]) :
    Spec.hash160 key = h := by
  by_contra hk
  have e1 : getOp (p2pkhScript h) = some (.code 0x76, 0xa9 :: UInt8.ofNat h.length :: (h ++ [0x88, 0xac])) := by rw [hl]; rfl
  have e3 : getOp (UInt8.ofNat h.length :: (h ++ [0x88, 0xac])) = some (.push h, [0x88, 0xac]) := getOp_push h _ (by omega)
  unfold run at hr
  rw [length_p2pkhScript hl, exec_cons chk e1 (st' := [key, key, sig]) rfl, exec_cons chk (op := .code 0xa9) rfl (st' := [Spec.hash160 key, key, sig]) (by simp [execOp]),
    exec_cons chk e3 (st' := [h, Spec.hash160 key, key, sig]) rfl] at hr
  have hx : execOp chk (.code 0x88) [h, Spec.hash160 key, key, sig] = none := by simp [execOp, Ne.symm hk]
  have hg : getOp [0x88, 0xac] = some (.code 0x88, [0xac]) := rfl
  unfold exec at hr
  rw [hg] at hr
  dsimp only at hr
  rw [hx] at hr
  cases hr

/-- The witness with which an output to the hash of a key is spent. -/
theorem witness_of_key {x : Transaction} {i amount : Nat} {h : Bytes} (hl : h.length = 20) (hok : InputOk x i amount (p2wpkhScript h)) :
    ∃ inp sig key, x.ins[i]? = some inp ∧ inp.script = [] ∧ inp.witness = [sig, key] ∧ Spec.hash160 key = h := by
  have hne : ∀ r, p2wpkhScript h ≠ p2shScript r := by
    intro r e
    have := congrArg List.head? e
    simp [p2wpkhScript, p2shScript] at this
  generalize hs : p2wpkhScript h = spk at hok
  cases hok with
  | bare _ inp ds hi hp hw h1 h2 hs' =>
    refine absurd ⟨0, h, ?_, by omega, by omega, .inl rfl⟩ h1
    rw [← hs, hl]
    rfl
  | native _ inp hi h0 hw =>
    cases hw with
    | key h' sig key hl' hw' hs' =>
      obtain ⟨t, ht, -⟩ := hs'
      have e : h = h' := by simpa [p2wpkhScript] using hs
      exact ⟨inp, sig, key, hi, h0, hw', (key_of_p2pkh _ hl' ht).trans e.symm⟩
    | script items sc hw' hs' =>
      simp [p2wpkhScript, p2wshScript] at hs
  | p2sh r inp ds hi hp hw h1 hs' => exact absurd hs (hne _)
  | nested r inp hi h0 hs' => exact absurd hs (hne _)

/-- The witness with which an output to the hash of a script is spent. -/
theorem witness_of_script {x : Transaction} {i amount : Nat} {s : Bytes} (hok : InputOk x i amount (p2wshScript (Spec.sha256 s))) :
    ∃ inp items script, x.ins[i]? = some inp ∧ inp.witness = items ++ [script] ∧ Spec.sha256 script = Spec.sha256 s := by
  have hne : ∀ r, p2wshScript (Spec.sha256 s) ≠ p2shScript r := by
    intro r e
    have := congrArg List.head? e
    simp [p2wshScript, p2shScript] at this
  have hl : (Spec.sha256 s).length = 32 := length_sha256 s
  generalize hs : p2wshScript (Spec.sha256 s) = spk at hok
  cases hok with
  | bare _ inp ds hi hp hw h1 h2 hs' =>
    refine absurd ⟨0, Spec.sha256 s, ?_, by omega, by omega, .inl rfl⟩ h1
    rw [← hs, hl]
    rfl
  | native _ inp hi h0 hw =>
    cases hw with
    | key h' sig key hl' hw' hs' =>
      simp [p2wpkhScript, p2wshScript] at hs
    | script items sc hw' hs' =>
      have e : Spec.sha256 s = Spec.sha256 sc := by simpa [p2wshScript] using hs
      exact ⟨inp, items, sc, hi, hw', e.symm⟩
  | p2sh r inp ds hi hp hw h1 hs' => exact absurd hs (hne _)
  | nested r inp hi h0 hs' => exact absurd hs (hne _)

open ElectrumTx in
/-- C72, code and claim disagree: an extended key of the type P2WSH says that the input spends an output to the hash of a script.  `sign` counts the input as signed,
but gives it the witness for an output to the hash of the key: an output to the hash of a script `s` can be spent by it only if `s` has the same hash as the bytes of
that public key. -/
theorem C72_p2wsh {e : ElectrumTx} {x : Transaction} {fs : List ElectrumInfo} {d : Nat} {c : Bytes} {account : HDPriv} {env : SignEnv} (hk : account.IsKey d c)
    (he : env.Good) (ht : e.tx.Holds x) (hx : WireTx x) (hni : x.ins.length < 253) (hno : x.outs.length < 253) (hw : ∀ i ∈ x.ins, i.witness = [])
    (hm : List.Forall₂ ElectrumMeta.Knows e.metas fs) (hl : fs.length = x.ins.length)
    (hs : ∀ (i : Nat) (f : ElectrumInfo) (inp : In), fs[i]? = some f → x.ins[i]? = some inp → f.point = d • G → f.Signable d c x i inp) :
    ∃ e' n y, e.sign account env = .ok (e', n) ∧ n.toNat = ownInputs fs d ∧ e'.tx.Holds y ∧
      ∀ (i : Nat) (f : ElectrumInfo), fs[i]? = some f → f.point = d • G → f.type = .p2wsh →
        ∃ inp sig key, y.ins[i]? = some inp ∧ inp.witness = [sig, key] ∧ Spec.hash160 key = f.keyHash d c ∧
          ∀ (amount : Nat) (s : Bytes), InputOk y i amount (p2wshScript (Spec.sha256 s)) → Spec.sha256 s = Spec.sha256 key := by
  obtain ⟨e', n, y, g1, g2, g3, -, -, g6⟩ := C72_sign hk he ht hx hni hno hw hm hl hs
  refine ⟨e', n, y, g1, g2, g3, fun i f hf hP hty => ?_⟩
  have hok := g6 i f hf hP
  have hsp : f.spends d c = p2wpkhScript (f.keyHash d c) := by
    unfold ElectrumInfo.spends
    rw [if_neg (by simp [ElectrumInfo.Legacy, hty]), if_neg (by simp [hty])]
  rw [hsp] at hok
  obtain ⟨inp, sig, key, h1, -, h3, h4⟩ := witness_of_key (length_hash160 _) hok
  refine ⟨inp, sig, key, h1, h3, h4, fun amount s hs' => ?_⟩
  obtain ⟨inp', items, script, k1, k2, k3⟩ := witness_of_script hs'
  rw [h1] at k1
  cases k1
  rw [h3] at k2
  have : key = script := by
    have := congrArg List.getLast? k2
    simpa using this
  rw [this, k3]

/-- An input fits P2SH outputs of one hash only. -/
theorem p2sh_unique {x : Transaction} {i a b : Nat} {g h : Bytes} (hg : g.length = 20) (hh : h.length = 20) (h1 : InputOk x i a (p2shScript g))
    (h2 : InputOk x i b (p2shScript h)) : g = h := by
  have key : ∀ {c : Nat} {k : Bytes}, k.length = 20 → InputOk x i c (p2shScript k) →
      ∃ inp r, x.ins[i]? = some inp ∧ k = Spec.hash160 r ∧
        ((inp.witness = [] ∧ ∃ ds, Pushes inp.script (ds ++ [r])) ∨ (inp.witness ≠ [] ∧ inp.script = UInt8.ofNat r.length :: r)) := by
    intro c k hk hok
    generalize hs : p2shScript k = spk at hok
    cases hok with
    | bare _ inp ds hi hp hw h1 h2 hs' => exact absurd ⟨k, hk, hs.symm⟩ h2
    | native _ inp hi h0 hw =>
      cases hw with
      | key h' sig key hl' hw' hs' => simp [p2wpkhScript, p2shScript] at hs
      | script items sc hw' hs' => simp [p2wshScript, p2shScript] at hs
    | p2sh r inp ds hi hp hw h1 hs' => exact ⟨inp, r, hi, by simpa [p2shScript] using hs, .inl ⟨hw, ds, hp⟩⟩
    | nested r inp hi h0 hs' =>
      refine ⟨inp, r, hi, by simpa [p2shScript] using hs, .inr ⟨?_, h0⟩⟩
      cases hs' with
      | key h' sig key hl' hw' hs' => simp [hw']
      | script items sc hw' hs' => simp [hw']
  obtain ⟨inp, r, e1, e2, e3⟩ := key hg h1
  obtain ⟨inp', r', f1, f2, f3⟩ := key hh h2
  rw [e1] at f1
  cases f1
  rw [e2, f2]
  rcases e3 with ⟨e3, ds, e4⟩ | ⟨e3, e4⟩ <;> rcases f3 with ⟨f3, ds', f4⟩ | ⟨f3, f4⟩
  · have := congrArg List.getLast? (pushes_unique e4 f4)
    rw [show r = r' by simpa using this]
  · exact absurd e3 f3
  · exact absurd f3 e3
  · rw [e4] at f4
    rw [(List.cons.inj f4).2]

open ElectrumTx in
/-- C72, code and claim disagree: the same for the type P2WSH in P2SH: the only P2SH outputs the signed input fits are those to the witness program with the hash of the
key. -/
theorem C72_nested_p2wsh {e : ElectrumTx} {x : Transaction} {fs : List ElectrumInfo} {d : Nat} {c : Bytes} {account : HDPriv} {env : SignEnv} (hk : account.IsKey d c)
    (he : env.Good) (ht : e.tx.Holds x) (hx : WireTx x) (hni : x.ins.length < 253) (hno : x.outs.length < 253) (hw : ∀ i ∈ x.ins, i.witness = [])
    (hm : List.Forall₂ ElectrumMeta.Knows e.metas fs) (hl : fs.length = x.ins.length)
    (hs : ∀ (i : Nat) (f : ElectrumInfo) (inp : In), fs[i]? = some f → x.ins[i]? = some inp → f.point = d • G → f.Signable d c x i inp) :
    ∃ e' n y, e.sign account env = .ok (e', n) ∧ n.toNat = ownInputs fs d ∧ e'.tx.Holds y ∧
      ∀ (i : Nat) (f : ElectrumInfo), fs[i]? = some f → f.point = d • G → f.type = .p2sh_p2wsh →
        ∀ (amount : Nat) (s : Bytes), InputOk y i amount (p2shScript (Spec.hash160 (p2wshScript (Spec.sha256 s)))) →
          Spec.hash160 (p2wshScript (Spec.sha256 s)) = Spec.hash160 (p2wpkhScript (f.keyHash d c)) := by
  obtain ⟨e', n, y, g1, g2, g3, -, -, g6⟩ := C72_sign hk he ht hx hni hno hw hm hl hs
  refine ⟨e', n, y, g1, g2, g3, fun i f hf hP hty amount s hs' => ?_⟩
  have hok := g6 i f hf hP
  have hsp : f.spends d c = p2shScript (Spec.hash160 (p2wpkhScript (f.keyHash d c))) := by
    unfold ElectrumInfo.spends
    rw [if_neg (by simp [ElectrumInfo.Legacy, hty]), if_pos (by simp [hty])]
  rw [hsp] at hok
  exact p2sh_unique (length_hash160 _) (length_hash160 _) hs' hok

/-! ### Example -/

/-- The public key of `hdOne` as one of a wallet with P2WSH outputs, in P2SH or not. -/
def exScriptHd (t : HDType) : HDPub := { hdOne.xpub with head := { hdOne.xpub.head with type := t } }

theorem exScriptHd_holds (t : HDType) : (exScriptHd t).Holds ((1 : Nat) • G) := by
  have h := HDPriv.xpub_holds holds_hdOne
  exact ⟨h.status, h.point, h.compressed, h.ne, h.wf.fingerprint, h.wf.chainCode, rfl⟩

/-- The entry of the document. -/
noncomputable def exScriptKey (t : HDType) : ElectrumKey := ⟨5000000000, zeros 7, (exScriptHd t).whole ((1 : Nat) • G), 0, 5⟩

noncomputable def exScriptInfo (t : HDType) : ElectrumInfo := ⟨(1 : Nat) • G, t, 0, 5, 5000000000⟩

theorem exScriptKey_means {t : HDType} (ht : t = .p2wsh ∨ t = .p2sh_p2wsh) : (exScriptKey t).Means (exScriptInfo t) :=
  ⟨⟨show 5000000000 < 2 ^ 64 by decide, rfl, HDPub.whole_length (exScriptHd_holds t) (show hdOne.xpub.head.network ∈ networks by decide), show 0 < 2 ^ 16 by decide,
    show 5 < 2 ^ 16 by decide⟩, ⟨exScriptHd t, exScriptHd_holds t, show hdOne.xpub.head.network ∈ networks by decide, rfl, by rcases ht with rfl | rfl <;> rfl⟩, rfl, rfl, rfl⟩

theorem exScript_signable {t : HDType} (ht : t = .p2wsh ∨ t = .p2sh_p2wsh) : (exScriptInfo t).Signable 1 (zeros 32) exPsbtTx 0 exElectrumIn := by
  have h := electrum_signable
  unfold ElectrumInfo.Signable ElectrumInfo.digest at h ⊢
  rw [if_neg (by simp [ElectrumInfo.Legacy, exElectrumInfo])] at h
  rw [if_neg (by rcases ht with rfl | rfl <;> simp [ElectrumInfo.Legacy, exScriptInfo])]
  exact h

theorem exPsbtTx_bare : ∀ i ∈ exPsbtTx.ins, i.witness = [] := by
  intro i hi
  rw [exPsbtTx_ins, List.mem_singleton] at hi
  rw [hi]
  rfl

/-- A document with such a key is read. -/
theorem exScript_read (junk rest : Bytes) {t : HDType} (ht : t = .p2wsh ∨ t = .p2sh_p2wsh) :
    ∃ e : ElectrumTx, ({} : ElectrumTx).fromStream junk 2 (.of (electrumSegwit exPsbtTx [exScriptKey t] ++ rest)) =
        some (e, (electrumSegwit exPsbtTx [exScriptKey t]).length, .of rest) ∧ e.tx.Holds exPsbtTx ∧ List.Forall₂ ElectrumMeta.Knows e.metas [exScriptInfo t] := by
  obtain ⟨e, e1, -, -, e4, e5⟩ := C72_parse_segwit junk 0 (e := {}) rfl exPsbtTx_wire (by decide) (by decide) (by decide) (ks := [exScriptKey t])
    (by
      intro k hk
      rw [List.mem_singleton] at hk
      subst hk
      exact ⟨(exScriptKey_means ht).ok, (exScriptKey_means ht).good⟩) rfl rest
  rw [Transaction.bare_of exPsbtTx_bare] at e4
  refine ⟨e, e1, e4, ?_⟩
  generalize e.metas = ms at e5
  cases e5 with
  | cons a b =>
    cases b
    exact .cons (a.knows (exScriptKey_means ht)) .nil

theorem exScript_all {t : HDType} (ht : t = .p2wsh ∨ t = .p2sh_p2wsh) (i : Nat) (f : ElectrumInfo) (inp : In) (h1 : [exScriptInfo t][i]? = some f)
    (h2 : exPsbtTx.ins[i]? = some inp) (_ : f.point = (1 : Nat) • G) : f.Signable 1 (zeros 32) exPsbtTx i inp := by
  rw [exPsbtTx_ins] at h2
  cases i with
  | zero =>
    rw [List.getElem?_cons_zero, Option.some.injEq] at h1 h2
    rw [← h1, ← h2]
    exact exScript_signable ht
  | succ i =>
    rw [List.getElem?_cons_succ, List.getElem?_nil] at h1
    cases h1

/-- C72_p2wsh: the input of the document is counted as signed and has a witness of two elements. -/
example (junk rest : Bytes) :
    ∃ e e' y inp sig key, ({} : ElectrumTx).fromStream junk 2 (.of (electrumSegwit exPsbtTx [exScriptKey .p2wsh] ++ rest)) =
        some (e, (electrumSegwit exPsbtTx [exScriptKey .p2wsh]).length, .of rest) ∧
      e.sign hdOne ⟨fun _ => BN.one, fun _ => BN.one, fun _ _ => (BN.one, BN.one)⟩ = .ok (e', 1) ∧ e'.tx.Holds y ∧
      y.ins[0]? = some inp ∧ inp.witness = [sig, key] ∧ ∀ (amount : Nat) (s : Bytes), InputOk y 0 amount (p2wshScript (Spec.sha256 s)) → Spec.sha256 s = Spec.sha256 key := by
  obtain ⟨e, e1, e4, hkn⟩ := exScript_read junk rest (t := .p2wsh) (.inl rfl)
  obtain ⟨e', n, y, g1, g2, g3, g4⟩ := C72_p2wsh hdOne_isKey (env := ⟨fun _ => BN.one, fun _ => BN.one, fun _ _ => (BN.one, BN.one)⟩)
    ⟨fun _ => blind_one, fun _ => blind_one, fun _ => draws_one⟩ e4 exPsbtTx_wire (by decide) (by decide) exPsbtTx_bare hkn rfl (exScript_all (.inl rfl))
  have hn : n = 1 := by
    rw [← UInt8.toNat_inj, g2]
    simp [ownInputs, exScriptInfo]
  rw [hn] at g1
  obtain ⟨inp, sig, key, k1, k2, -, k4⟩ := g4 0 (exScriptInfo .p2wsh) rfl rfl rfl
  exact ⟨e, e', y, inp, sig, key, e1, g1, g3, k1, k2, k4⟩

/-- C72_nested_p2wsh: the same document with the other type. -/
example (junk rest : Bytes) :
    ∃ e e' y, ({} : ElectrumTx).fromStream junk 2 (.of (electrumSegwit exPsbtTx [exScriptKey .p2sh_p2wsh] ++ rest)) =
        some (e, (electrumSegwit exPsbtTx [exScriptKey .p2sh_p2wsh]).length, .of rest) ∧
      e.sign hdOne ⟨fun _ => BN.one, fun _ => BN.one, fun _ _ => (BN.one, BN.one)⟩ = .ok (e', 1) ∧ e'.tx.Holds y ∧
      ∀ (amount : Nat) (s : Bytes), InputOk y 0 amount (p2shScript (Spec.hash160 (p2wshScript (Spec.sha256 s)))) →
        Spec.hash160 (p2wshScript (Spec.sha256 s)) = Spec.hash160 (p2wpkhScript ((exScriptInfo .p2sh_p2wsh).keyHash 1 (zeros 32))) := by
  obtain ⟨e, e1, e4, hkn⟩ := exScript_read junk rest (t := .p2sh_p2wsh) (.inr rfl)
  obtain ⟨e', n, y, g1, g2, g3, g4⟩ := C72_nested_p2wsh hdOne_isKey (env := ⟨fun _ => BN.one, fun _ => BN.one, fun _ _ => (BN.one, BN.one)⟩)
    ⟨fun _ => blind_one, fun _ => blind_one, fun _ => draws_one⟩ e4 exPsbtTx_wire (by decide) (by decide) exPsbtTx_bare hkn rfl (exScript_all (.inr rfl))
  have hn : n = 1 := by
    rw [← UInt8.toNat_inj, g2]
    simp [ownInputs, exScriptInfo]
  rw [hn] at g1
  exact ⟨e, e', y, e1, g1, g3, g4 0 (exScriptInfo .p2sh_p2wsh) rfl rfl rfl⟩

end UB
